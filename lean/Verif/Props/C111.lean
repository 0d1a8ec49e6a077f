import Verif.Model.ClkFile
import Verif.Lemmas.Post
import Verif.Lemmas.Time
/-!
C111: clock files.
-/

namespace Verif.C111
open Verif.Sat Verif.Sig Verif.Time Verif.Rinex Verif.ClkFile

/-! ### Specification -/

/-- the numbers of a record: satellite, clock and standard deviation -/
structure Rec where
  sat : Int
  clk : ℚ
  std : ℚ
  deriving DecidableEq

/-- the line is a satellite record of these numbers at time `t`: format of clock files, the columns moved by `o` -/
def Says (num : Line → Py ℚ) (o : Nat) (line : Line) (t : GTime) (r : Rec) : Prop :=
  slice line 0 2 = "AS".toList ∧
  (∃ c prn, line[3]? = some c ∧ pyInt (slice line 4 7) = .ok prn ∧ satOf (char2sys c) prn = r.sat) ∧
  (∃ y mo d h mi s, pyInt (slice line (o + 8) (o + 12)) = .ok y ∧ pyInt (slice line (o + 13) (o + 15)) = .ok mo ∧
    pyInt (slice line (o + 16) (o + 18)) = .ok d ∧ pyInt (slice line (o + 19) (o + 21)) = .ok h ∧
    pyInt (slice line (o + 22) (o + 24)) = .ok mi ∧ num (slice line (o + 25) (o + 34)) = .ok s ∧ t = epoch2time ⟨y, mo, d, h, mi, s⟩) ∧
  num (slice line (o + 40) (o + 59)) = .ok r.clk ∧
  ∃ n, pyInt (slice line (o + 35) (o + 37)) = .ok n ∧ if 2 ≤ n then num (slice line (o + 61) (o + 80)) = .ok r.std else r.std = 0

/-- a part of the data section: the records of one epoch, lines of other kinds between them -/
inductive Block (num : Line → Py ℚ) (o : Nat) (t : GTime) : List Line → List Rec → Prop
  | nil : Block num o t [] []
  | skip {l ls rs} : slice l 0 2 ≠ "AS".toList → Block num o t ls rs → Block num o t (l :: ls) rs
  | rec' {l ls r rs} : Says num o l t r → Block num o t ls rs → Block num o t (l :: ls) (r :: rs)

/-- the last record of a satellite -/
def lastRec (rs : List Rec) (sat : Int) : Option Rec := rs.reverse.find? fun r => r.sat = sat

/-- the table entry of an epoch: of every satellite the last record, zero without one -/
def Entry (t : GTime) (rs : List Rec) (p : Pclk) : Prop :=
  p.time = t ∧ p.clk.length = 233 ∧ p.std.length = 233 ∧
    ∀ i : Nat, i < 233 → p.clk[i]? = some ((lastRec rs (i + 1 : Nat)).elim 0 Rec.clk) ∧
      p.std[i]? = some ((lastRec rs (i + 1 : Nat)).elim 0 Rec.std)

/-! ### Lemmas -/

theorem record_says {num : Line → Py ℚ} {o : Nat} {line : Line} {t : GTime} {r : Rec} (h : Says num o line t r) (st : St) :
    record num (some o) st line = (place st t >>= fun st => write st r.sat r.clk r.std) := by
  obtain ⟨h0, ⟨c, prn, hc, hp, hs⟩, ⟨y, mo, d, hh, mi, s, e1, e2, e3, e4, e5, e6, rfl⟩, hclk, n, hn, hstd⟩ := h
  unfold record
  rw [if_neg (by simp [h0])]
  have hg : pyGet line 3 = .ok c := by unfold pyGet; rw [hc]
  have ht : decodeTime num line (o + 8) 9 = .ok (epoch2time ⟨y, mo, d, hh, mi, s⟩) := by
    unfold decodeTime
    simp only [Nat.add_assoc, Nat.reduceAdd]
    rw [e1, e2, e3, e4, e5, e6]
    rfl
  simp only [hg, hp, Py.okBind, ht]
  cases place st (epoch2time ⟨y, mo, d, hh, mi, s⟩) with
  | error e => rfl
  | ok st' =>
    simp only [Py.okBind, hn, hclk]
    by_cases h2 : 2 ≤ n
    · rw [if_pos h2] at hstd
      rw [if_pos h2, hstd, Py.okBind, hs]
    · rw [if_neg h2] at hstd
      rw [if_neg h2, hs, hstd]
      rfl

theorem setI_ok {l : List ℚ} (hl : l.length = 233) {sat : Int} (h1 : 1 ≤ sat) (h2 : sat ≤ 233) (v : ℚ) :
    setI l (sat - 1) v = .ok (l.set (sat - 1).toNat v) := by
  unfold setI
  have : (if sat - 1 < 0 then sat - 1 + (l.length : Int) else sat - 1) = sat - 1 := if_neg (by omega)
  simp only [this]
  rw [if_pos (by omega)]

theorem entry_fresh (t : GTime) : Entry t [] (fresh t) := by
  refine ⟨rfl, List.length_replicate, List.length_replicate, fun i hi => ?_⟩
  have : ∀ n, i < n → (List.replicate n (0 : ℚ))[i]? = some 0 := by
    intro n hn
    rw [List.getElem?_replicate, if_pos hn]
  exact ⟨this 233 hi, this 233 hi⟩

theorem last_snoc (rs : List Rec) (r : Rec) (sat : Int) : lastRec (rs ++ [r]) sat = if r.sat = sat then some r else lastRec rs sat := by
  unfold lastRec
  rw [List.reverse_append]
  by_cases h : r.sat = sat <;> simp [h]

theorem entry_write {t : GTime} {rs : List Rec} {p : Pclk} (h : Entry t rs p) (r : Rec) (h1 : 1 ≤ r.sat) (h2 : r.sat ≤ 233) :
    Entry t (rs ++ [r]) { p with clk := p.clk.set (r.sat - 1).toNat r.clk, std := p.std.set (r.sat - 1).toNat r.std } := by
  obtain ⟨a, b, c, d⟩ := h
  refine ⟨a, by simpa using b, by simpa using c, fun i hi => ?_⟩
  obtain ⟨d1, d2⟩ := d i hi
  rw [last_snoc]
  simp only [List.getElem?_set]
  by_cases hs : r.sat = (i + 1 : Nat)
  · have : (r.sat - 1).toNat = i := by omega
    rw [if_pos this, if_pos this, if_pos hs, if_pos (by omega), if_pos (by omega)]
    exact ⟨rfl, rfl⟩
  · have : (r.sat - 1).toNat ≠ i := by omega
    rw [if_neg this, if_neg this, if_neg hs]
    exact ⟨d1, d2⟩

theorem write_last {st : St} {ps : List Pclk} {p : Pclk} (hp : st.pclk = ps ++ [p]) (hn : st.nc = ps.length + 1) {t : GTime} {rs : List Rec}
    (he : Entry t rs p) (r : Rec) (h1 : 1 ≤ r.sat) (h2 : r.sat ≤ 233) :
    ∃ p', write st r.sat r.clk r.std = .ok ⟨st.nc, ps ++ [p']⟩ ∧ Entry t (rs ++ [r]) p' := by
  refine ⟨_, ?_, entry_write he r h1 h2⟩
  unfold write
  have hg : pyGet st.pclk (st.nc - 1) = .ok p := by
    unfold pyGet
    rw [hp, hn]
    simp
  rw [hg, Py.okBind, setI_ok he.2.1 h1 h2, Py.okBind, setI_ok he.2.2.1 h1 h2, Py.okBind]
  have : st.pclk.set (st.nc - 1) { p with clk := p.clk.set (r.sat - 1).toNat r.clk, std := p.std.set (r.sat - 1).toNat r.std } =
      ps ++ [{ p with clk := p.clk.set (r.sat - 1).toNat r.clk, std := p.std.set (r.sat - 1).toNat r.std }] := by
    rw [hp, hn]
    simp
  rw [this]
  rfl

/-- the records of an epoch that has an entry -/
theorem block_run {num : Line → Py ℚ} {o : Nat} {t : GTime} {ls : List Line} {rs : List Rec} (h : Block num o t ls rs)
    (hr : ∀ r ∈ rs, 1 ≤ r.sat ∧ r.sat ≤ 233) : ∀ (ps : List Pclk) (p : Pclk) (done : List Rec), Entry t done p →
    ∃ p', ls.foldlM (record num (some o)) ⟨ps.length + 1, ps ++ [p]⟩ = .ok ⟨ps.length + 1, ps ++ [p']⟩ ∧ Entry t (done ++ rs) p' := by
  induction h with
  | nil => intro ps p done he; exact ⟨p, rfl, by simpa using he⟩
  | skip hs _ ih =>
    intro ps p done he
    obtain ⟨p', h1, h2⟩ := ih hr ps p done he
    refine ⟨p', ?_, h2⟩
    rw [List.foldlM_cons]
    unfold record
    rw [if_pos hs]
    exact h1
  | @rec' l ls r rs hs _ ih =>
    intro ps p done he
    obtain ⟨q1, q2⟩ := hr r (by simp)
    have hpl : place ⟨ps.length + 1, ps ++ [p]⟩ t = .ok ⟨ps.length + 1, ps ++ [p]⟩ := by
      unfold place
      simp only [Nat.add_eq_zero_iff, one_ne_zero, and_false, if_false, List.getLast?_append, List.getLast?_singleton, Option.some_or]
      rw [if_neg]
      rw [he.1, timediff_tot, sub_self]
      norm_num
    obtain ⟨p1, w1, w2⟩ := write_last (st := ⟨ps.length + 1, ps ++ [p]⟩) rfl rfl he r q1 q2
    obtain ⟨p', h1, h2⟩ := ih (fun x hx => hr x (by simp [hx])) ps p1 (done ++ [r]) w2
    refine ⟨p', ?_, by simpa using h2⟩
    rw [List.foldlM_cons, record_says hs, hpl, Py.okBind, w1, Py.okBind]
    exact h1

/-- an epoch of the file: time, lines, records -/
structure Epoch where
  t : GTime
  lines : List Line
  recs : List Rec

/-- an epoch has at least one record, all of known satellites, its first line is one -/
def Epoch.Ok (num : Line → Py ℚ) (o : Nat) (e : Epoch) : Prop :=
  Block num o e.t e.lines e.recs ∧ (∀ r ∈ e.recs, 1 ≤ r.sat ∧ r.sat ≤ 233) ∧ ∃ l ls r, e.lines = l :: ls ∧ Says num o l e.t r

/-- neighbouring epochs are more than a nanosecond apart -/
def Apart : List Epoch → Prop
  | a :: b :: l => |a.t.tot - b.t.tot| > 1 / 10 ^ 9 ∧ Apart (b :: l)
  | _ => True

theorem epoch_run {num : Line → Py ℚ} {o : Nat} {e : Epoch} (h : e.Ok num o) (ps : List Pclk)
    (hn : ∀ p, ps.getLast? = some p → |p.time.tot - e.t.tot| > 1 / 10 ^ 9) :
    ∃ p', e.lines.foldlM (record num (some o)) ⟨ps.length, ps⟩ = .ok ⟨ps.length + 1, ps ++ [p']⟩ ∧ Entry e.t e.recs p' := by
  obtain ⟨hb, hr, l, ls, r, hl, hs⟩ := h
  rw [hl] at hb ⊢
  generalize e.recs = rr at hb hr ⊢
  have hpl : place ⟨ps.length, ps⟩ e.t = .ok ⟨ps.length + 1, ps ++ [fresh e.t]⟩ := by
    unfold place
    simp only
    split
    · rfl
    · rename_i hz
      cases hg : ps.getLast? with
      | none => rw [List.getLast?_eq_none_iff] at hg; rw [hg] at hz; simp at hz
      | some p =>
        simp only
        rw [if_pos]
        rw [timediff_tot]
        exact hn p hg
  cases hb with
  | skip hx _ => exact absurd hs.1 hx
  | @rec' _ _ r' rs hs' hrest =>
    rw [List.foldlM_cons, record_says hs', hpl, Py.okBind]
    obtain ⟨q1, q2⟩ := hr r' (by simp)
    obtain ⟨p1, w1, w2⟩ := write_last (st := ⟨ps.length + 1, ps ++ [fresh e.t]⟩) rfl rfl (entry_fresh e.t) r' q1 q2
    obtain ⟨p', h1, h2⟩ := block_run hrest (fun x hx => hr x (by simp [hx])) ps p1 ([] ++ [r']) w2
    refine ⟨p', ?_, by simpa using h2⟩
    rw [w1, Py.okBind]
    exact h1

/-! ### The property -/

/-- The data section of a clock file, one epoch after another, gives a table with one entry for each epoch, in the order of the file:
its time, and for every satellite the clock and standard deviation of its last record, zero if it has none. -/
theorem table (num : Line → Py ℚ) (o : Nat) (es : List Epoch) (hk : ∀ e ∈ es, e.Ok num o) (ha : Apart es) :
    ∃ ps, (es.flatMap Epoch.lines).foldlM (record num (some o)) ⟨0, []⟩ = .ok ⟨es.length, ps⟩ ∧
      List.Forall₂ (fun e p => Entry e.t e.recs p) es ps := by
  have key : ∀ (es : List Epoch) (ps : List Pclk), (∀ e ∈ es, e.Ok num o) → Apart es →
      (∀ p e, ps.getLast? = some p → es.head? = some e → |p.time.tot - e.t.tot| > 1 / 10 ^ 9) →
      ∃ qs, (es.flatMap Epoch.lines).foldlM (record num (some o)) ⟨ps.length, ps⟩ = .ok ⟨ps.length + es.length, ps ++ qs⟩ ∧
        List.Forall₂ (fun e p => Entry e.t e.recs p) es qs := by
    intro es
    induction es with
    | nil => intro ps _ _ _; exact ⟨[], by simp [pure, Except.pure], .nil⟩
    | cons e es ih =>
      intro ps hk ha hl
      obtain ⟨p, h1, h2⟩ := epoch_run (hk e (by simp)) ps fun p hp => hl p e hp rfl
      obtain ⟨qs, h3, h4⟩ := ih (ps ++ [p]) (fun x hx => hk x (by simp [hx])) (by
        cases es with
        | nil => trivial
        | cons b l => exact ha.2) (by
        intro q x hq hx
        rw [List.getLast?_append, List.getLast?_singleton, Option.some_or, Option.some.injEq] at hq
        subst hq
        cases es with
        | nil => simp at hx
        | cons b l =>
          simp only [List.head?_cons, Option.some.injEq] at hx
          subst hx
          rw [h2.1]
          exact ha.1)
      refine ⟨p :: qs, ?_, .cons h2 h4⟩
      rw [List.flatMap_cons, List.foldlM_append, h1, Py.okBind]
      rw [List.length_append, List.length_singleton] at h3
      rw [h3]
      simp only [List.append_assoc, List.singleton_append, List.length_cons]
      congr 2
      omega
  obtain ⟨qs, h1, h2⟩ := key es [] hk ha (by simp)
  exact ⟨qs, by simpa using h1, h2⟩

theorem head_read (num : Line → Py ℚ) (v : ℚ) : ∀ (pre : List Line) (first fin : Line) (body : List Line),
    inLine "RINEX VERSION / TYPE".toList first = true → inLine "END OF HEADER".toList first = false → num (slice first 0 20) = .ok v →
    (∀ l ∈ pre, inLine "RINEX VERSION / TYPE".toList l = false ∧ inLine "END OF HEADER".toList l = false) →
    inLine "RINEX VERSION / TYPE".toList fin = false → inLine "END OF HEADER".toList fin = true →
    ∀ o, head num o (first :: pre ++ fin :: body) = .ok (some (if v < 304 / 100 then 0 else 5), body) := by
  intro pre first fin body h1 h2 h3 h4 h5 h6 o
  have rest : ∀ (pre : List Line) (o : Option Nat),
      (∀ l ∈ pre, inLine "RINEX VERSION / TYPE".toList l = false ∧ inLine "END OF HEADER".toList l = false) →
      head num o (pre ++ fin :: body) = .ok (o, body) := by
    intro pre
    induction pre with
    | nil => intro o _; rw [List.nil_append, head, h5, h6]; rfl
    | cons l pre ih =>
      intro o h
      obtain ⟨a, b⟩ := h l (by simp)
      rw [List.cons_append, head, a, b]
      exact ih o fun x hx => h x (by simp [hx])
  rw [List.cons_append, head, h1, h2, h3]
  exact rest pre _ h4

/-- A whole file: the columns are those of version 3.04 and later exactly when the version in the header is at least 3.04. -/
theorem file (num : Line → Py ℚ) (v : ℚ) (pre : List Line) (first fin : Line)
    (h1 : inLine "RINEX VERSION / TYPE".toList first = true) (h2 : inLine "END OF HEADER".toList first = false)
    (h3 : num (slice first 0 20) = .ok v)
    (h4 : ∀ l ∈ pre, inLine "RINEX VERSION / TYPE".toList l = false ∧ inLine "END OF HEADER".toList l = false)
    (h5 : inLine "RINEX VERSION / TYPE".toList fin = false) (h6 : inLine "END OF HEADER".toList fin = true)
    (es : List Epoch) (hk : ∀ e ∈ es, e.Ok num (if v < 304 / 100 then 0 else 5)) (ha : Apart es) :
    ∃ ps, decodeClk num 0 (first :: pre ++ fin :: es.flatMap Epoch.lines) = .ok ⟨es.length, ps⟩ ∧
      List.Forall₂ (fun e p => Entry e.t e.recs p) es ps := by
  obtain ⟨ps, e1, e2⟩ := table num _ es hk ha
  refine ⟨ps, ?_, e2⟩
  unfold decodeClk
  rw [head_read num v pre first fin _ h1 h2 h3 h4 h5 h6]
  exact e1

/-- A second file cannot be read into the same navigation data: the number of entries is kept while the table is emptied, and the first
satellite record raises an exception. -/
theorem second_file (num : Line → Py ℚ) (nc : Nat) (hn : 0 < nc) (o : Nat) (skip : List Line)
    (hs : ∀ l ∈ skip, slice l 0 2 ≠ "AS".toList) (line : Line) (t : GTime) (r : Rec) (h : Says num o line t r) (rest : List Line) :
    (skip ++ line :: rest).foldlM (record num (some o)) ⟨nc, []⟩ = .error .indexError := by
  induction skip with
  | nil =>
    rw [List.nil_append, List.foldlM_cons, record_says h]
    unfold place
    simp only
    rw [if_neg (by omega)]
    rfl
  | cons l skip ih =>
    rw [List.cons_append, List.foldlM_cons]
    unfold record
    rw [if_pos (hs l (by simp))]
    exact ih fun x hx => hs x (by simp [hx])

/-- without a version in the header no record can be read -/
theorem no_version (num : Line → Py ℚ) (st : St) (line : Line) (c : Char) (p : Int) (h0 : slice line 0 2 = "AS".toList)
    (hc : line[3]? = some c) (hp : pyInt (slice line 4 7) = .ok p) : record num Option.none st line = .error .typeError := by
  unfold record
  have hg : pyGet line 3 = .ok c := by unfold pyGet; rw [hc]
  rw [if_neg (by simp [h0]), hg, Py.okBind, hp]
  rfl

/-- the number of a satellite as clock files give it: two digits, for QZSS less 192, for SBAS less 100 -/
def fileNumber (sys : Sys) (prn : Int) : Int := match sys with
  | .qzs => prn - 192
  | .sbs => prn - 100
  | _ => prn

/-- The satellite is the right one for all constellations but SBAS. -/
theorem satellite (sat : Int) (h1 : 1 ≤ sat) (h2 : sat ≤ 233) (hs : (sat2prn sat).1 ≠ .sbs) :
    satOf (sat2prn sat).1 (fileNumber (sat2prn sat).1 (sat2prn sat).2) = sat := by
  have key : ∀ n : Fin 233, (sat2prn ((n.val + 1 : Nat) : Int)).1 ≠ .sbs →
      satOf (sat2prn ((n.val + 1 : Nat) : Int)).1 (fileNumber (sat2prn ((n.val + 1 : Nat) : Int)).1 (sat2prn ((n.val + 1 : Nat) : Int)).2) =
        ((n.val + 1 : Nat) : Int) := by decide +kernel
  obtain ⟨n, rfl⟩ : ∃ n : Nat, sat = ((n + 1 : Nat) : Int) := ⟨(sat - 1).toNat, by omega⟩
  exact key ⟨n, by omega⟩ hs

/-- The clock of an SBAS satellite is stored for a satellite of another constellation: S20 to S58 for satellites 81 to 119, which are
five of QZSS and the first 34 of BeiDou. -/
theorem sbas_wrong (prn : Int) (h1 : 120 ≤ prn) (h2 : prn ≤ 158) :
    satOf .sbs (fileNumber .sbs prn) = prn - 39 ∧
      ((sat2prn (satOf .sbs (fileNumber .sbs prn))).1 = .qzs ∨ (sat2prn (satOf .sbs (fileNumber .sbs prn))).1 = .bds) := by
  have key : ∀ n : Fin 39, satOf .sbs (fileNumber .sbs ((n.val + 120 : Nat) : Int)) = ((n.val + 120 : Nat) : Int) - 39 ∧
      ((sat2prn (satOf .sbs (fileNumber .sbs ((n.val + 120 : Nat) : Int)))).1 = .qzs ∨
        (sat2prn (satOf .sbs (fileNumber .sbs ((n.val + 120 : Nat) : Int)))).1 = .bds) := by decide +kernel
  obtain ⟨n, rfl⟩ : ∃ n : Nat, prn = ((n + 120 : Nat) : Int) := ⟨(prn - 120).toNat, by omega⟩
  exact key ⟨n, by omega⟩

/-- The clock of a satellite whose letter is unknown is stored for the last satellite, 233. -/
theorem unknown_letter (st : St) (ps : List Pclk) (p : Pclk) (hp : st.pclk = ps ++ [p]) (hn : st.nc = ps.length + 1)
    (hc : p.clk.length = 233) (hs : p.std.length = 233) (prn : Int) (c s : ℚ) :
    write st (satOf .none prn) c s = .ok ⟨st.nc, ps ++ [{ p with clk := p.clk.set 232 c, std := p.std.set 232 s }]⟩ := by
  have hset : ∀ (l : List ℚ) (v : ℚ), l.length = 233 → setI l (satOf .none prn - 1) v = .ok (l.set 232 v) := by
    intro l v hl
    unfold setI
    simp [satOf, prn2sat, hl]
  unfold write
  have hg : pyGet st.pclk (st.nc - 1) = .ok p := by
    unfold pyGet
    rw [hp, hn]
    simp
  rw [hg, Py.okBind, hset _ _ hc, Py.okBind, hset _ _ hs, Py.okBind, hp, hn]
  simp [pure, Except.pure]

/-! ### Cases -/

/-- a reader of whole numbers, enough for the example -/
def num0 (s : Line) : Py ℚ := (pyInt (s.takeWhile (· ≠ '.'))).map fun n => (n : ℚ)

def line0 : Line := "AS G05  2021 03 19 00 00  0.000000  2    12.000000000000E+00 3.0000000000000E+00".toList

example : Says num0 0 line0 (epoch2time ⟨2021, 3, 19, 0, 0, 0⟩) ⟨5, 12, 3⟩ := by
  refine ⟨by decide, ⟨'G', 5, by decide, by decide +kernel, by decide⟩, ⟨2021, 3, 19, 0, 0, 0, ?_⟩, by decide +kernel, 2, ?_, ?_⟩
  all_goals decide +kernel

example : decodeClk num0 0 ["     3.00           C                                       RINEX VERSION / TYPE".toList,
    "                                                            END OF HEADER".toList, line0] =
    .ok ⟨1, [{ fresh (epoch2time ⟨2021, 3, 19, 0, 0, 0⟩) with clk := (List.replicate 233 0).set 4 12, std := (List.replicate 233 0).set 4 3 }]⟩ := by
  decide +kernel

end Verif.C111
