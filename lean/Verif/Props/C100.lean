import Verif.Model.Sp3
import Verif.Lemmas.Post
import Verif.Props.C39
import Mathlib.Data.List.Nodup
import Mathlib.Algebra.Order.Ring.Rat
import Mathlib.Tactic.NormNum
import Mathlib.Tactic.Ring
/-!
# C100 SP3 files
-/

namespace Verif.C100
open Verif.Sp3 Verif.Sat Verif.Time
open Verif.C39 (i3)

/-! ## Specification of the body -/

/-- a column counts unless it holds the mark of a missing value or the option leaves it out: bit 0 leaves out predictions,
bit 1 everything else -/
def Counts (opt : Nat) (r : Rec) (j : Nat) : Prop :=
  1 / 1000000 ≤ |r.val j - 999999999999 / 1000000| ∧
    let p := if j < 3 then r.predO else r.predC
    (p = true → opt.testBit 0 = false) ∧ (p = false → opt.testBit 1 = false)

instance (opt : Nat) (r : Rec) (j : Nat) : Decidable (Counts opt r j) := by unfold Counts; infer_instance

/-- units of the file: km and µs -/
def unit (j : Nat) : ℚ := if j < 3 then 1000 else 1 / 1000000

/-- an epoch of a file -/
structure Blk where
  t : GTime
  recs : List Rec

def lines (b : Blk) : List Ln := .epoch b.t :: b.recs.map .data

/-- the row of a record: satellites 1..233 in rows 0..232 -/
def Row (r : Rec) (i : Nat) : Prop := 1 ≤ r.sat ∧ r.sat ≤ 233 ∧ (i : Int) = r.sat - 1

/-- `pe` is what an epoch of position records says -/
structure Table (opt : Nat) (b : Blk) (pe : Pe) : Prop where
  time : pe.time = b.t
  has : ∀ r ∈ b.recs, ∀ i, Row r i → ∀ j < 4, pe.pos i j = if Counts opt r j then some (r.val j * unit j) else none
  not : ∀ i j, (∀ r ∈ b.recs, ¬ Row r i) ∨ 4 ≤ j → pe.pos i j = none

/-! ## Records -/

theorem skip_counts (opt : Nat) (r : Rec) (j : Nat) :
    (¬ skip opt r j = true ∧ 1 / 1000000 ≤ |r.val j - 999999999999 / 1000000|) ↔ Counts opt r j := by
  unfold skip Counts
  simp only
  generalize (if j < 3 then r.predO else r.predC) = p
  cases p <;> cases opt.testBit 0 <;> cases opt.testBit 1 <;> simp [and_comm]

theorem column_time (opt : Nat) (r : Rec) (i : Nat) (st : Pe × Bool) (j : Nat) : (column opt r i st j).1.time = st.1.time := by
  unfold column
  simp only
  split_ifs <;> rfl

theorem column_pos (opt : Nat) (r : Rec) (hp : r.isP = true) (i : Nat) (st : Pe × Bool) (j : Nat) :
    (∀ a b, (column opt r i st j).1.pos a b =
      if a = i ∧ b = j ∧ Counts opt r j then some (r.val j * unit j) else st.1.pos a b) ∧
    ((column opt r i st j).2 = (st.2 || decide (Counts opt r j))) := by
  have hc := skip_counts opt r j
  unfold column
  simp only [hp, if_true]
  by_cases h : Counts opt r j
  · obtain ⟨h1, h2⟩ := hc.2 h
    rw [if_neg h1, if_pos h2]
    refine ⟨fun a b => ?_, by simp [h]⟩
    simp only [set2, h, and_true, unit]
  · have : ¬ (¬ skip opt r j = true ∧ 1 / 1000000 ≤ |r.val j - 999999999999 / 1000000|) := fun h' => h (hc.1 h')
    by_cases h1 : skip opt r j = true
    · rw [if_pos h1]
      exact ⟨fun a b => by simp [h], by simp [h]⟩
    · rw [if_neg h1, if_neg (fun h2 => this ⟨h1, h2⟩)]
      exact ⟨fun a b => by simp [h], by simp [h]⟩

theorem columns_pos (opt : Nat) (r : Rec) (hp : r.isP = true) (i : Nat) : ∀ (js : List Nat) (st : Pe × Bool),
    (∀ a b, (js.foldl (column opt r i) st).1.pos a b =
      if a = i ∧ b ∈ js ∧ Counts opt r b then some (r.val b * unit b) else st.1.pos a b) ∧
    (js.foldl (column opt r i) st).1.time = st.1.time ∧
    (js.foldl (column opt r i) st).2 = (st.2 || js.any fun j => decide (Counts opt r j))
  | [], st => ⟨fun a b => by simp, rfl, by simp⟩
  | j :: js, st => by
    obtain ⟨h1, h2, h3⟩ := columns_pos opt r hp i js (column opt r i st j)
    obtain ⟨c1, c2⟩ := column_pos opt r hp i st j
    rw [List.foldl_cons]
    refine ⟨fun a b => ?_, by rw [h2, column_time], by rw [h3, c2, List.any_cons, Bool.or_assoc]⟩
    rw [h1, c1]
    by_cases ha : a = i
    · by_cases hb : b ∈ js
      · by_cases hc : Counts opt r b
        · rw [if_pos ⟨ha, hb, hc⟩, if_pos ⟨ha, List.mem_cons_of_mem _ hb, hc⟩]
        · have h1 : ¬ (a = i ∧ b = j ∧ Counts opt r j) := fun h => hc (h.2.1 ▸ h.2.2)
          rw [if_neg (fun h => hc h.2.2), if_neg h1, if_neg (fun h => hc h.2.2)]
      · rw [if_neg (fun h => hb h.2.1)]
        by_cases hj : b = j
        · subst hj
          simp [ha]
        · rw [if_neg (fun h => hj h.2.1), if_neg]
          rintro ⟨_, h, _⟩
          rcases List.mem_cons.1 h with h | h
          · exact hj h
          · exact hb h
    · rw [if_neg (fun h => ha h.1), if_neg (fun h => ha h.1), if_neg (fun h => ha h.1)]

theorem deviation_pos (base : ℚ × ℚ) (r : Rec) (d : Nat → Int) (i : Nat) : ∀ (js : List Nat) (st : Pe × Bool),
    (js.foldl (deviation base r d i) st).1.pos = st.1.pos ∧ (js.foldl (deviation base r d i) st).1.time = st.1.time ∧
      (st.2 = true → (js.foldl (deviation base r d i) st).2 = true)
  | [], _ => ⟨rfl, rfl, id⟩
  | j :: js, st => by
    obtain ⟨h1, h2, h3⟩ := deviation_pos base r d i js (deviation base r d i st j)
    have : (deviation base r d i st j).1.pos = st.1.pos ∧ (deviation base r d i st j).1.time = st.1.time ∧
        (st.2 = true → (deviation base r d i st j).2 = true) := by
      unfold deviation
      simp only
      split_ifs <;> exact ⟨rfl, rfl, fun h => by first | rfl | exact h⟩
    rw [List.foldl_cons]
    exact ⟨h1.trans this.1, h2.trans this.2.1, fun h => h3 (this.2.2 h)⟩

theorem rowOf_ok {r : Rec} {i : Nat} (h : Row r i) : rowOf r.sat = .ok i := by
  obtain ⟨h1, h2, h3⟩ := h
  have hm : maxSat = 233 := rfl
  unfold rowOf
  simp only
  rw [if_pos (by omega)]
  congr 1
  omega

/-- **a position record** writes its four columns into the row of its satellite and nothing else -/
theorem record_ok (opt : Nat) (base : ℚ × ℚ) (st : Pe × Bool) {r : Rec} {i : Nat} (hp : r.isP = true) (h : Row r i) :
    ∃ st', record opt base st r = .ok st' ∧ st'.1.time = st.1.time ∧
      (∀ a b, st'.1.pos a b = if a = i ∧ b < 4 ∧ Counts opt r b then some (r.val b * unit b) else st.1.pos a b) ∧
      (st.2 = true ∨ (∃ j < 4, Counts opt r j) → st'.2 = true) ∧
      (r.std = none → st'.2 = true → st.2 = true ∨ ∃ j < 4, Counts opt r j) := by
  unfold record
  rw [rowOf_ok h, Py.okBind]
  obtain ⟨c1, c2, c3⟩ := columns_pos opt r hp i (List.range 4) st
  have hv : ((List.range 4).foldl (column opt r i) st).2 = true ↔ (st.2 = true ∨ ∃ j < 4, Counts opt r j) := by
    rw [c3, Bool.or_eq_true, List.any_eq_true]
    simp only [List.mem_range, decide_eq_true_iff]
  simp only [List.mem_range] at c1
  cases hs : r.std with
  | none => exact ⟨_, rfl, c2, c1, hv.2, fun _ => hv.1⟩
  | some d =>
    obtain ⟨d1, d2, d3⟩ := deviation_pos base r d i (List.range 4) ((List.range 4).foldl (column opt r i) st)
    exact ⟨_, rfl, d2.trans c2, fun a b => by rw [d1]; exact c1 a b, fun h => d3 (hv.2 h), by simp⟩

theorem columns_std (opt : Nat) (r : Rec) (i : Nat) : ∀ (js : List Nat) (st : Pe × Bool),
    (js.foldl (column opt r i) st).1.std = st.1.std
  | [], _ => rfl
  | j :: js, st => by
    rw [List.foldl_cons, columns_std opt r i js]
    unfold column
    simp only
    split_ifs <;> rfl

/-- the deviation of column `j` given by the exponent `n`, in metres and seconds; `none` if it is not given -/
def given (base : ℚ × ℚ) (n : Int) (j : Nat) : Option ℚ :=
  if n ≤ 0 then none
  else if j < 3 then (if 0 < base.1 then some (base.1 ^ n.toNat / 10 ^ 3) else none)
  else (if 0 < base.2 then some (base.2 ^ n.toNat / 10 ^ 12) else none)

theorem deviation_std (base : ℚ × ℚ) (r : Rec) (hp : r.isP = true) (d : Nat → Int) (i : Nat) (st : Pe × Bool) (j a b : Nat) :
    (deviation base r d i st j).1.std a b = if a = i ∧ b = j then (given base (d j) j).getD (st.1.std a b) else st.1.std a b := by
  unfold deviation given
  simp only [hp, if_true]
  by_cases hd : 0 < d j
  · have hd' : ¬ d j ≤ 0 := by omega
    by_cases hj : j < 3 <;> simp only [hj, if_true, if_false, hd, hd', and_true]
    · by_cases hb : 0 < base.1
      · simp only [hb, if_true, set2, Option.getD_some]
        norm_num [div_eq_mul_inv]
      · simp [hb]
    · by_cases hb : 0 < base.2
      · simp only [hb, if_true, set2, Option.getD_some]
        norm_num [div_eq_mul_inv]
      · simp [hb]
  · have hd' : d j ≤ 0 := by omega
    simp [hd, hd']

/-- **the deviations of a position record**: millimetres and picoseconds times powers of the bases of the header -/
theorem deviations (opt : Nat) (base : ℚ × ℚ) (st : Pe × Bool) {r : Rec} {i : Nat} {d : Nat → Int} (hp : r.isP = true) (h : Row r i)
    (hs : r.std = some d) : ∃ st', record opt base st r = .ok st' ∧
      ∀ a b, st'.1.std a b = if a = i ∧ b < 4 then (given base (d b) b).getD (st.1.std a b) else st.1.std a b := by
  unfold record
  rw [rowOf_ok h, Py.okBind, hs]
  refine ⟨_, rfl, fun a b => ?_⟩
  have e := congrFun (congrFun (columns_std opt r i (List.range 4) st) a) b
  generalize (List.range 4).foldl (column opt r i) st = s at e
  have hl : List.range 4 = [0, 1, 2, 3] := rfl
  simp only [hl, List.foldl_cons, List.foldl_nil, deviation_std base r hp, e]
  by_cases ha : a = i
  · by_cases hb : b < 4
    · have : b = 0 ∨ b = 1 ∨ b = 2 ∨ b = 3 := by omega
      rcases this with rfl | rfl | rfl | rfl <;> simp [ha]
    · have h0 : b ≠ 0 ∧ b ≠ 1 ∧ b ≠ 2 ∧ b ≠ 3 := by omega
      simp [h0.1, h0.2.1, h0.2.2.1, h0.2.2.2, hb]
  · simp [ha]

example : given (125 / 100, 1025 / 1000) 2 0 = some (1 / 640) ∧ given (125 / 100, 1025 / 1000) 0 1 = none := by
  constructor <;> norm_num [given, show Int.toNat 2 = 2 from rfl]

/-- the table of an epoch and whether it is kept -/
def table (opt : Nat) (base : ℚ × ℚ) (b : Blk) : Py (Pe × Bool) := b.recs.foldlM (record opt base) ({ time := b.t }, false)

theorem fold_ok (opt : Nat) (base : ℚ × ℚ) : ∀ (l : List Rec) (st : Pe × Bool), (∀ r ∈ l, r.isP = true ∧ ∃ i, Row r i) →
    (l.map Rec.sat).Nodup →
    ∃ st', l.foldlM (record opt base) st = .ok st' ∧ st'.1.time = st.1.time ∧
      (∀ r ∈ l, ∀ i, Row r i → ∀ j < 4, st'.1.pos i j = if Counts opt r j then some (r.val j * unit j) else st.1.pos i j) ∧
      (∀ i j, (∀ r ∈ l, ¬ Row r i) ∨ 4 ≤ j → st'.1.pos i j = st.1.pos i j) ∧
      (st.2 = true ∨ (∃ r ∈ l, ∃ j < 4, Counts opt r j) → st'.2 = true) ∧
      ((∀ r ∈ l, r.std = none) → st'.2 = true → st.2 = true ∨ ∃ r ∈ l, ∃ j < 4, Counts opt r j)
  | [], st, _, _ => ⟨st, rfl, rfl, by simp, by simp, by simp, fun _ h => .inl h⟩
  | r :: l, st, h, hn => by
    obtain ⟨hp, i, hi⟩ := h r (.head _)
    obtain ⟨s1, e1, t1, p1, v1, w1⟩ := record_ok opt base st hp hi
    rw [List.map_cons, List.nodup_cons] at hn
    obtain ⟨s2, e2, t2, p2, q2, v2, w2⟩ := fold_ok opt base l s1 (fun r hr => h r (.tail _ hr)) hn.2
    have only : ∀ i', Row r i' → i' = i := fun i' h' => by obtain ⟨_, _, a⟩ := h'; obtain ⟨_, _, b⟩ := hi; omega
    have apart : ∀ r' ∈ l, ¬ Row r' i := fun r' hr' h' => hn.1 (List.mem_map.2 ⟨r', hr', by
      obtain ⟨_, _, a⟩ := h'; obtain ⟨_, _, b⟩ := hi; omega⟩)
    refine ⟨s2, by rw [List.foldlM_cons, e1]; exact e2, t2.trans t1, fun r' hr' i' hi' j hj => ?_, fun i' j hij => ?_, ?_, ?_⟩
    · rcases List.mem_cons.1 hr' with rfl | hr'
      · rw [only i' hi', q2 i j (.inl apart), p1]
        by_cases hc : Counts opt r' j
        · rw [if_pos ⟨rfl, hj, hc⟩, if_pos hc]
        · rw [if_neg (fun h => hc h.2.2), if_neg hc]
      · rw [p2 r' hr' i' hi' j hj, p1]
        have : i' ≠ i := fun h => apart r' hr' (h ▸ hi')
        simp only [this, false_and, if_false]
    · have h1 : (∀ r ∈ l, ¬ Row r i') ∨ 4 ≤ j := hij.imp (fun h r hr => h r (.tail _ hr)) id
      rw [q2 i' j h1, p1, if_neg]
      rintro ⟨rfl, hj, _⟩
      rcases hij with h | h
      · exact h r (.head _) hi
      · omega
    · rintro (h | ⟨r', hr', j, hj, hc⟩)
      · exact v2 (.inl (v1 (.inl h)))
      · rcases List.mem_cons.1 hr' with rfl | hr'
        · exact v2 (.inl (v1 (.inr ⟨j, hj, hc⟩)))
        · exact v2 (.inr ⟨r', hr', j, hj, hc⟩)
    · intro hs hv
      rcases w2 (fun r hr => hs r (.tail _ hr)) hv with h | ⟨r', hr', x⟩
      · rcases w1 (hs r (.head _)) h with h | x
        · exact .inl h
        · exact .inr ⟨r, .head _, x⟩
      · exact .inr ⟨r', .tail _ hr', x⟩

/-- an epoch of position records, each satellite once -/
structure Good (b : Blk) : Prop where
  pos : ∀ r ∈ b.recs, r.isP = true ∧ 1 ≤ r.sat ∧ r.sat ≤ 233
  once : (b.recs.map Rec.sat).Nodup

/-- **the table of an epoch** -/
theorem table_ok (opt : Nat) (base : ℚ × ℚ) {b : Blk} (h : Good b) :
    ∃ st, table opt base b = .ok st ∧ Table opt b st.1 ∧ ((∃ r ∈ b.recs, ∃ j < 4, Counts opt r j) → st.2 = true) ∧
      ((∀ r ∈ b.recs, r.std = none) → st.2 = true → ∃ r ∈ b.recs, ∃ j < 4, Counts opt r j) := by
  obtain ⟨st, e, t, p, q, v, w⟩ := fold_ok opt base b.recs ({ time := b.t }, false) (fun r hr => by
    obtain ⟨a, b, c⟩ := h.pos r hr
    exact ⟨a, (r.sat - 1).toNat, b, c, by omega⟩) h.once
  exact ⟨st, e, ⟨t, p, q⟩, fun x => v (.inr x), fun hs hv => (w hs hv).resolve_left (by simp)⟩

/-! ## Epochs -/

theorem records_data (opt : Nat) (base : ℚ × ℚ) (rest : List Ln) : ∀ (l : List Rec) (st : Pe × Bool),
    records opt base l.length (l.map .data ++ rest) st = (l.foldlM (record opt base) st >>= fun s => .ok (s, rest))
  | [], _ => rfl
  | r :: l, st => by
    rw [List.length_cons, List.map_cons, List.cons_append, records, List.foldlM_cons]
    cases h : record opt base st r with
    | error e => rfl
    | ok s => exact records_data opt base rest l s

theorem read_fuel (opt nl : Nat) (base : ℚ × ℚ) : ∀ (bs : List Blk) (rest : List Ln) (f : Nat) (n : Nav),
    bs.length < f → (∀ b ∈ bs, b.recs.length = nl) → (∀ b ∈ bs, ∃ st, table opt base b = .ok st) →
    ∃ n', body opt nl base f (bs.flatMap lines ++ .eof :: rest) n = .ok n' ∧ n'.ne = n.ne + bs.length ∧
      n'.peph = n.peph ++ bs.filterMap fun b => match table opt base b with | .ok (pe, true) => some pe | _ => none
  | [], rest, f, n, hf, _, _ => by
    obtain ⟨f, rfl⟩ : ∃ g, f = g + 1 := ⟨f - 1, by simp at hf; omega⟩
    exact ⟨n, rfl, rfl, by simp⟩
  | b :: bs, rest, f, n, hf, hl, ht => by
    rw [List.length_cons] at hf
    obtain ⟨f, rfl⟩ : ∃ g, f = g + 1 := ⟨f - 1, by omega⟩
    obtain ⟨st, hst⟩ := ht b (.head _)
    have e : records opt base nl (b.recs.map .data ++ (bs.flatMap lines ++ .eof :: rest)) ({ time := b.t }, false) =
        .ok (st, bs.flatMap lines ++ .eof :: rest) := by
      rw [← hl b (.head _), records_data]
      change table opt base b >>= _ = _
      rw [hst]; rfl
    obtain ⟨n', h1, h2, h3⟩ := read_fuel opt nl base bs rest f (keep { n with ne := n.ne + 1, cur := some st }) (by omega)
      (fun b hb => hl b (.tail _ hb)) fun b hb => ht b (.tail _ hb)
    refine ⟨n', ?_, ?_, ?_⟩
    · rw [List.flatMap_cons, List.append_assoc, lines, List.cons_append, body, e]
      exact h1
    · rw [h2, List.length_cons]
      obtain ⟨pe, v⟩ := st
      cases v <;> simp only [keep] <;> omega
    · rw [h3, List.filterMap_cons, hst]
      obtain ⟨pe, v⟩ := st
      cases v <;> simp [keep]

/-- **a file of position records, each epoch with the number of records of the header**: every epoch with at least one value
is stored once, in the order of the file, with the table it describes; the counter counts all epochs, also those not stored -/
theorem read_file (opt : Nat) (base : ℚ × ℚ) (nsat : Nat) (bs : List Blk) (rest : List Ln) (n : Nav)
    (hl : ∀ b ∈ bs, b.recs.length = nsat) (hg : ∀ b ∈ bs, Good b ∧ ∀ r ∈ b.recs, r.std = none) :
    ∃ n' l, read opt nsat base (bs.flatMap lines ++ .eof :: rest) n = .ok n' ∧ n'.ne = n.ne + bs.length ∧
      n'.peph = n.peph ++ l ∧
      List.Forall₂ (fun b pe => Table opt b pe) (bs.filter fun b => b.recs.any fun r => (List.range 4).any fun j => Counts opt r j) l := by
  have hlen : bs.length < (bs.flatMap lines ++ .eof :: rest).length := by
    have : ∀ bs : List Blk, bs.length ≤ (bs.flatMap lines).length := fun bs => by
      induction bs with
      | nil => exact le_refl _
      | cons b bs ih => rw [List.flatMap_cons, List.length_append, List.length_cons, lines, List.length_cons]; omega
    have := this bs
    rw [List.length_append, List.length_cons]; omega
  obtain ⟨n', h1, h2, h3⟩ := read_fuel opt nsat base bs rest _ n hlen hl fun b hb => by
    obtain ⟨st, e, -⟩ := table_ok opt base (hg b hb).1
    exact ⟨st, e⟩
  refine ⟨n', _, h1, h2, h3, ?_⟩
  clear h1 h2 h3 hlen hl
  induction bs with
  | nil => exact .nil
  | cons b bs ih =>
    have ih := ih fun b hb => hg b (.tail _ hb)
    obtain ⟨⟨pe, v⟩, e, ht, hv, hw⟩ := table_ok opt base (hg b (.head _)).1
    have hw := hw (hg b (.head _)).2
    rw [List.filter_cons, List.filterMap_cons, e]
    have hany : (b.recs.any fun r => (List.range 4).any fun j => decide (Counts opt r j)) = true ↔
        ∃ r ∈ b.recs, ∃ j < 4, Counts opt r j := by
      simp only [List.any_eq_true, List.mem_range, decide_eq_true_iff]
    cases v with
    | true => rw [if_pos (hany.2 (hw rfl))]; exact .cons ht ih
    | false => rw [if_neg (fun h => absurd (hv (hany.1 h)) (by simp))]; exact ih

/-! ## Lines that do not belong to the format of an epoch -/

theorem body_extra (opt nl : Nat) (base : ℚ × ℚ) (rest : List Ln) (pe : Pe) : ∀ (xs : List Ln) (f : Nat) (n : Nav),
    (∀ x ∈ xs, x = .other ∨ ∃ r, x = .data r) → xs.length < f → n.cur = some (pe, true) →
    ∃ n', body opt nl base f (xs ++ .eof :: rest) n = .ok n' ∧ n'.ne = n.ne ∧ n'.peph = n.peph ++ List.replicate xs.length pe
  | [], f, n, _, hf, _ => by
    obtain ⟨f, rfl⟩ : ∃ g, f = g + 1 := ⟨f - 1, by simp at hf; omega⟩
    exact ⟨n, rfl, rfl, by simp⟩
  | x :: xs, f, n, hx, hf, hc => by
    rw [List.length_cons] at hf
    obtain ⟨f, rfl⟩ : ∃ g, f = g + 1 := ⟨f - 1, by omega⟩
    have hk : keep n = { n with peph := n.peph ++ [pe] } := by unfold keep; rw [hc]
    obtain ⟨n', h1, h2, h3⟩ := body_extra opt nl base rest pe xs f (keep n) (fun x h => hx x (.tail _ h)) (by omega)
      (by rw [hk]; exact hc)
    refine ⟨n', ?_, by rw [h2, hk], by rw [h3, hk, List.length_cons, List.replicate_succ]; simp⟩
    rw [List.cons_append]
    rcases hx x (.head _) with rfl | ⟨r, rfl⟩
    · exact h1
    · exact h1

/-- **more lines than satellites in the header**: every further line of an epoch, whatever it says, stores the epoch once
more, though the epoch is counted once -/
theorem surplus_lines (opt : Nat) (base : ℚ × ℚ) (b : Blk) (pe : Pe) (xs rest : List Ln) (n : Nav)
    (ht : table opt base b = .ok (pe, true)) (hx : ∀ x ∈ xs, x = .other ∨ ∃ r, x = .data r) :
    ∃ n', read opt b.recs.length base (lines b ++ (xs ++ .eof :: rest)) n = .ok n' ∧ n'.ne = n.ne + 1 ∧
      n'.peph = n.peph ++ List.replicate (xs.length + 1) pe := by
  unfold Sp3.read
  have e : records opt base b.recs.length (b.recs.map .data ++ (xs ++ .eof :: rest)) ({ time := b.t }, false) =
      .ok ((pe, true), xs ++ .eof :: rest) := by
    rw [records_data]
    change table opt base b >>= _ = _
    rw [ht]; rfl
  obtain ⟨n', h1, h2, h3⟩ := body_extra opt b.recs.length base rest pe xs
    (b.recs.map Ln.data ++ (xs ++ .eof :: rest)).length
    (keep { n with ne := n.ne + 1, cur := some (pe, true) }) hx
    (by simp only [List.length_append, List.length_cons]; omega) rfl
  refine ⟨n', ?_, h2, ?_⟩
  · rw [lines, List.cons_append, List.length_cons, body, e]
    exact h1
  · rw [h3, List.replicate_succ]
    simp [keep]

theorem records_skip (opt : Nat) (base : ℚ × ℚ) (x : Ln) (hx : x = .other ∨ x = .comment) (rest : List Ln) (c : List Rec) :
    ∀ (a : List Rec) (st : Pe × Bool),
    records opt base (a.length + c.length + 1) (a.map .data ++ x :: (c.map .data ++ rest)) st =
      ((a ++ c).foldlM (record opt base) st >>= fun s => .ok (s, rest))
  | [], st => by
    rw [List.length_nil, Nat.zero_add, List.map_nil, List.nil_append]
    rcases hx with rfl | rfl <;> exact records_data opt base rest c st
  | r :: a, st => by
    rw [List.length_cons, show a.length + 1 + c.length + 1 = (a.length + c.length + 1) + 1 by omega, List.map_cons,
      List.cons_append, records, List.cons_append, List.foldlM_cons]
    cases h : record opt base st r with
    | error e => rfl
    | ok s => exact records_skip opt base x hx rest c a s

/-- **a line that is no record inside an epoch** (a comment, or an `EP` record of the format): it counts as a record, the last
record is not read, and the epoch is stored twice -/
theorem inserted_line (opt : Nat) (base : ℚ × ℚ) (t : GTime) (a c : List Rec) (r : Rec) (x : Ln) (pe : Pe) (rest : List Ln)
    (n : Nav) (hx : x = .other ∨ x = .comment) (ht : table opt base ⟨t, a ++ c⟩ = .ok (pe, true)) :
    ∃ n', read opt (a.length + c.length + 1) base
        (.epoch t :: (a.map .data ++ x :: (c.map .data ++ ([.data r] ++ .eof :: rest)))) n = .ok n' ∧
      n'.ne = n.ne + 1 ∧ n'.peph = n.peph ++ [pe, pe] := by
  unfold Sp3.read
  have e : records opt base (a.length + c.length + 1) (a.map .data ++ x :: (c.map .data ++ ([.data r] ++ .eof :: rest)))
      ({ time := t }, false) = .ok ((pe, true), [.data r] ++ .eof :: rest) := by
    rw [records_skip opt base x hx]
    change table opt base ⟨t, a ++ c⟩ >>= _ = _
    rw [ht]; rfl
  obtain ⟨n', h1, h2, h3⟩ := body_extra opt (a.length + c.length + 1) base rest pe [.data r]
    (a.map Ln.data ++ x :: (c.map .data ++ ([.data r] ++ .eof :: rest))).length
    (keep { n with ne := n.ne + 1, cur := some (pe, true) }) (fun x h => .inr ⟨r, List.mem_singleton.1 h⟩)
    (by simp only [List.length_append, List.length_cons]; omega) rfl
  refine ⟨n', ?_, h2, ?_⟩
  · rw [List.length_cons, body, e]
    exact h1
  · rw [h3]
    simp [keep]

/-- **records of a satellite of another kind** (letter `L` of SP3-d gives satellite number -1) are stored as satellite 232 -/
theorem foreign_record (opt : Nat) (base : ℚ × ℚ) (st : Pe × Bool) (r : Rec) :
    record opt base st { r with sat := -1 } = record opt base st { r with sat := 232 } := by
  unfold record
  have : rowOf (-1) = .ok 231 ∧ rowOf 232 = .ok 231 := by decide
  simp only [this.1, this.2, Py.okBind]
  rfl

/-! ## Writing and reading -/

/-- a table read back: times and numbers rounded; a satellite without position gets the position 0 -/
structure Back (rnd : ℚ → ℚ) (tm : GTime → GTime) (sats : List Nat) (pe pe' : Pe) : Prop where
  time : pe'.time = tm pe.time
  full : ∀ s ∈ sats, (∀ j < 3, pe.pos (s - 1) j ≠ none) → ∀ j < 3, pe'.pos (s - 1) j = (pe.pos (s - 1) j).map fun x => rnd (x / 1000) * 1000
  lost : ∀ s ∈ sats, (∃ j < 3, pe.pos (s - 1) j = none) → ∀ j < 3, pe'.pos (s - 1) j = some 0
  clock : ∀ s ∈ sats, pe'.pos (s - 1) 3 = (pe.pos (s - 1) 3).map fun x => rnd (x * 1000000) / 1000000
  rest : ∀ i j, (i + 1 ∉ sats ∨ 4 ≤ j) → pe'.pos i j = none

theorem counts_zero (r : Rec) (j : Nat) : Counts 0 r j ↔ 1 / 1000000 ≤ |r.val j - 999999999999 / 1000000| := by
  unfold Counts; simp

theorem out_pos (rnd : ℚ → ℚ) (pe : Pe) (s : Nat) {j : Nat} (hj : j < 3) :
    ((∀ i < 3, pe.pos (s - 1) i ≠ none) ∧ ∃ x, pe.pos (s - 1) j = some x ∧ (outRec rnd pe s).val j = rnd (x / 1000)) ∨
    ((∃ i < 3, pe.pos (s - 1) i = none) ∧ (outRec rnd pe s).val j = rnd 0) := by
  simp only [outRec, if_pos hj]
  cases h0 : pe.pos (s - 1) 0 with
  | none => right; exact ⟨⟨0, by omega, h0⟩, rfl⟩
  | some x =>
    cases h1 : pe.pos (s - 1) 1 with
    | none => right; exact ⟨⟨1, by omega, h1⟩, rfl⟩
    | some y =>
      cases h2 : pe.pos (s - 1) 2 with
      | none => right; exact ⟨⟨2, by omega, h2⟩, rfl⟩
      | some z =>
        left
        refine ⟨fun i hi => ?_, ?_⟩
        · have : i = 0 ∨ i = 1 ∨ i = 2 := by omega
          rcases this with rfl | rfl | rfl
          · rw [h0]; simp
          · rw [h1]; simp
          · rw [h2]; simp
        · have : j = 0 ∨ j = 1 ∨ j = 2 := by omega
          rcases this with rfl | rfl | rfl
          · exact ⟨x, h0, by simp [div_eq_mul_inv]⟩
          · exact ⟨y, h1, by simp [div_eq_mul_inv]⟩
          · exact ⟨z, h2, by simp [div_eq_mul_inv]⟩

/-- **write, then read**: the same epochs in the same order, each satellite of the list with its rounded position and clock -/
theorem write_read (rnd : ℚ → ℚ) (tm : GTime → GTime) (base : ℚ × ℚ) (sats : List Nat) (l : List Pe) (n : Nav)
    (h0 : rnd 0 = 0) (hmark : rnd (999999999999 / 1000000) = 999999999999 / 1000000)
    (hne : sats ≠ []) (hn : sats.Nodup) (hs : ∀ s ∈ sats, 1 ≤ s ∧ s ≤ 233)
    (hp : ∀ pe ∈ l, ∀ s ∈ sats, ∀ j < 3, ∀ x, pe.pos (s - 1) j = some x → 1 / 1000000 ≤ |rnd (x / 1000) - 999999999999 / 1000000|)
    (hc : ∀ pe ∈ l, ∀ s ∈ sats, ∀ x, pe.pos (s - 1) 3 = some x → 1 / 1000000 ≤ |rnd (x * 1000000) - 999999999999 / 1000000|) :
    ∃ n' l', read 0 sats.length base (write rnd tm sats l) n = .ok n' ∧ n'.ne = n.ne + l.length ∧ n'.peph = n.peph ++ l' ∧
      List.Forall₂ (Back rnd tm sats) l l' := by
  have hw : write rnd tm sats l =
      (l.map fun pe => (⟨tm pe.time, sats.map (outRec rnd pe)⟩ : Blk)).flatMap lines ++ .eof :: [] := by
    unfold write
    rw [List.flatMap_map]
    simp only [lines, List.map_map]
    rfl
  have big : (1 : ℚ) / 1000000 ≤ |0 - 999999999999 / 1000000| := by norm_num [abs_of_nonneg]
  have hval : ∀ pe ∈ l, ∀ s ∈ sats, ∀ j < 3, Counts 0 (outRec rnd pe s) j := fun pe hpe s hs j hj => by
    rw [counts_zero]
    rcases out_pos rnd pe s hj with ⟨_, x, hx, e⟩ | ⟨_, e⟩
    · rw [e]; exact hp pe hpe s hs j hj x hx
    · rw [e, h0]; exact big
  obtain ⟨n', l', h1, h2, h3, h4⟩ := read_file 0 base sats.length
    (l.map fun pe => (⟨tm pe.time, sats.map (outRec rnd pe)⟩ : Blk)) [] n
    (fun b hb => by obtain ⟨pe, _, rfl⟩ := List.mem_map.1 hb; simp)
    (fun b hb => by
      obtain ⟨pe, _, rfl⟩ := List.mem_map.1 hb
      refine ⟨⟨fun r hr => ?_, ?_⟩, fun r hr => ?_⟩
      · obtain ⟨s, hsm, rfl⟩ := List.mem_map.1 hr
        obtain ⟨a, b⟩ := hs s hsm
        exact ⟨rfl, by simp only [outRec]; omega, by simp only [outRec]; omega⟩
      · simp only [List.map_map]
        have : (Rec.sat ∘ outRec rnd pe) = fun s : Nat => (s : Int) := rfl
        rw [this]
        exact hn.map (fun a b h => by simpa using h)
      · obtain ⟨s, hsm, rfl⟩ := List.mem_map.1 hr
        rfl)
  refine ⟨n', l', by rw [hw]; exact h1, by rw [h2, List.length_map], h3, ?_⟩
  rw [List.filter_eq_self.2 (fun b hb => ?_), List.forall₂_map_left_iff] at h4
  · have aux : ∀ pe ∈ l, ∀ pe', Table 0 (⟨tm pe.time, sats.map (outRec rnd pe)⟩ : Blk) pe' → Back rnd tm sats pe pe' := by
      intro pe hpe pe' ht
      have row : ∀ s ∈ sats, Row (outRec rnd pe s) (s - 1) := fun s h => by
        obtain ⟨a, b⟩ := hs s h
        exact ⟨by simp only [outRec]; omega, by simp only [outRec]; omega, by simp only [outRec]; omega⟩
      have col : ∀ s ∈ sats, ∀ j < 3, pe'.pos (s - 1) j = some ((outRec rnd pe s).val j * 1000) := fun s h j hj => by
        rw [ht.has _ (List.mem_map.2 ⟨s, h, rfl⟩) _ (row s h) j (by omega), if_pos (hval pe hpe s h j hj), unit, if_pos hj]
      refine ⟨ht.time, fun s h hall j hj => ?_, fun s h hex j hj => ?_, fun s h => ?_, fun i j hij => ?_⟩
      · rw [col s h j hj]
        rcases out_pos rnd pe s hj with ⟨_, x, hx, e⟩ | ⟨⟨i, hi, e⟩, _⟩
        · rw [e, hx]; rfl
        · exact absurd e (hall i hi)
      · rw [col s h j hj]
        rcases out_pos rnd pe s hj with ⟨hall, _⟩ | ⟨_, e⟩
        · obtain ⟨i, hi, e⟩ := hex
          exact absurd e (hall i hi)
        · rw [e, h0, zero_mul]
      · rw [ht.has _ (List.mem_map.2 ⟨s, h, rfl⟩) _ (row s h) 3 (by omega)]
        simp only [counts_zero, unit]
        cases hx : pe.pos (s - 1) 3 with
        | none =>
          have e : (outRec rnd pe s).val 3 = 999999999999 / 1000000 := by
            simp only [outRec]
            rw [if_neg (by omega), hx]
            simp only
            rw [show (999999999999 / 1000000000000 * 1000000 : ℚ) = 999999999999 / 1000000 by norm_num]
            exact hmark
          rw [e, if_neg (by norm_num)]
          rfl
        | some x =>
          have e : (outRec rnd pe s).val 3 = rnd (x * 1000000) := by
            simp only [outRec]
            rw [if_neg (by omega), hx]
          rw [e, if_pos (hc pe hpe s h x hx), if_neg (by omega), Option.map_some]
          congr 1
          ring
      · refine ht.not i j (hij.imp (fun h r hr => ?_) id)
        obtain ⟨s, hsm, rfl⟩ := List.mem_map.1 hr
        rintro ⟨a, b, e⟩
        have : i + 1 = s := by simp only [outRec] at a e; omega
        exact h (this ▸ hsm)
    clear h1 h2 h3 hw hp hc hval
    induction h4 with
    | nil => exact .nil
    | cons h t ih =>
      exact .cons (aux _ (.head _) _ h) (ih fun pe hpe => aux pe (.tail _ hpe))
  · obtain ⟨pe, hpe, rfl⟩ := List.mem_map.1 hb
    obtain ⟨s, sats', rfl⟩ := List.exists_cons_of_ne_nil hne
    simp only [List.map_cons, List.any_cons, Bool.or_eq_true]
    left
    rw [List.any_eq_true]
    exact ⟨0, by simp, by simpa using hval pe hpe s (.head _) 0 (by omega)⟩

/-! ## Lists of the header -/

theorem slice_mid (p x q : List Char) : Rinex.slice (p ++ (x ++ q)) p.length (p.length + x.length) = x := by
  unfold Rinex.slice
  rw [List.take_length_add_append, List.take_left, List.drop_left]

theorem flatten_len : ∀ (ps : List (List Char)), (∀ p ∈ ps, p.length = 3) → ps.flatten.length = 3 * ps.length
  | [], _ => rfl
  | p :: ps, h => by
    rw [List.flatten_cons, List.length_append, flatten_len ps (fun p hp => h p (.tail _ hp)), h p (.head _), List.length_cons]
    omega

/-- the k-th entry of three characters from column 9 on -/
theorem slice_entry (pre suf : List Char) (ps : List (List Char)) (hpre : pre.length = 9) (h : ∀ p ∈ ps, p.length = 3)
    (k : Nat) (hk : k < ps.length) : Rinex.slice (pre ++ (ps.flatten ++ suf)) (9 + 3 * k) (12 + 3 * k) = ps[k] := by
  have e : ps = ps.take k ++ ps[k] :: ps.drop (k + 1) := by
    rw [List.getElem_cons_drop, List.take_append_drop]
  have e2 : pre ++ (ps.flatten ++ suf) = (pre ++ (ps.take k).flatten) ++ (ps[k] ++ ((ps.drop (k + 1)).flatten ++ suf)) := by
    have ef : ps.flatten = (ps.take k).flatten ++ (ps[k] ++ (ps.drop (k + 1)).flatten) :=
      (congrArg List.flatten e).trans (by rw [List.flatten_append, List.flatten_cons])
    rw [ef]
    simp only [List.append_assoc]
  have l1 : (pre ++ (ps.take k).flatten).length = 9 + 3 * k := by
    rw [List.length_append, hpre, flatten_len _ (fun p hp => h p (List.mem_of_mem_take hp)), List.length_take]
    omega
  have l2 : ps[k].length = 3 := h _ (List.getElem_mem hk)
  have := slice_mid (pre ++ (ps.take k).flatten) ps[k] ((ps.drop (k + 1)).flatten ++ suf)
  rw [l1, l2] at this
  rw [e2, show 12 + 3 * k = 9 + 3 * k + 3 by omega]
  exact this

theorem dropWhile_pre {p : Char → Bool} : ∀ (a b : List Char), (∀ c ∈ a, p c = true) → (∀ c, b.head? = some c → p c = false) →
    (a ++ b).dropWhile p = b
  | [], [], _, _ => rfl
  | [], c :: b, _, h => by
    have := h c rfl
    simp [this]
  | x :: a, b, h1, h2 => by
    rw [List.cons_append, List.dropWhile_cons, if_pos (h1 x (.head _))]
    exact dropWhile_pre a b (fun c hc => h1 c (.tail _ hc)) h2

theorem strip_mid (a w b : List Char) (ha : ∀ c ∈ a, Sig.isSpace c = true) (hb : ∀ c ∈ b, Sig.isSpace c = true) (hw : w ≠ [])
    (h1 : ∀ c, w.head? = some c → Sig.isSpace c = false) (h2 : ∀ c, w.getLast? = some c → Sig.isSpace c = false) :
    Sig.strip (a ++ (w ++ b)) = w := by
  unfold Sig.strip
  rw [dropWhile_pre a (w ++ b) ha (fun c hc => h1 c ?_), List.reverse_append, dropWhile_pre, List.reverse_reverse]
  · exact fun c hc => hb c (List.mem_reverse.1 hc)
  · exact fun c hc => h2 c (by rwa [List.head?_reverse] at hc)
  · obtain ⟨x, w', rfl⟩ := List.exists_cons_of_ne_nil hw
    exact hc

/-- the number of entries seen in a line: blanks before the first entry are lost -/
theorem entries_line (pre a w suf : List Char) (hpre : pre.length = 9) (hlen : a.length + w.length ≤ 51)
    (ha : ∀ c ∈ a, Sig.isSpace c = true) (hs : ∀ c ∈ suf, Sig.isSpace c = true) (hw : w ≠ [])
    (h1 : ∀ c, w.head? = some c → Sig.isSpace c = false) (h2 : ∀ c, w.getLast? = some c → Sig.isSpace c = false) :
    entries (pre ++ ((a ++ w) ++ suf)) = w.length / 3 := by
  unfold entries Rinex.slice
  have e : (pre ++ ((a ++ w) ++ suf)).take 60 = pre ++ (a ++ (w ++ suf.take (51 - (a.length + w.length)))) := by
    rw [List.take_append, List.take_of_length_le (by omega), hpre, List.take_append, List.take_of_length_le (by simp; omega),
      List.length_append, List.append_assoc]
  rw [e, ← hpre, List.drop_left, strip_mid a w _ ha (fun c hc => hs c (List.mem_of_mem_take hc)) hw h1 h2]

/-- `arr` with `vs` written from position `c` on -/
def put (arr : List Int) (c : Nat) : List Int → List Int
  | [] => arr
  | v :: vs => put (arr.set c v) (c + 1) vs

theorem put_length : ∀ (vs : List Int) (arr : List Int) (c : Nat), (put arr c vs).length = arr.length
  | [], _, _ => rfl
  | v :: vs, arr, c => by rw [put, put_length vs, List.length_set]

theorem put_append : ∀ (vs : List Int) (arr : List Int) (c : Nat) (w : Int),
    put arr c (vs ++ [w]) = (put arr c vs).set (c + vs.length) w
  | [], _, _, _ => rfl
  | v :: vs, arr, c, w => by
    rw [List.cons_append, put, put_append vs, put, List.length_cons]
    congr 1; omega

theorem put_take (arr : List Int) (c : Nat) (ss : List Nat) (k : Nat) (h : k < ss.length) :
    put arr c ((ss.map fun (s : Nat) => (s : Int)).take (k + 1)) =
      (put arr c ((ss.map fun (s : Nat) => (s : Int)).take k)).set (c + k) (ss[k] : Nat) := by
  have h' : k < (ss.map fun (s : Nat) => (s : Int)).length := by simpa using h
  have hl : ((ss.map fun (s : Nat) => (s : Int)).take k).length = k := by simp; omega
  rw [List.take_succ_eq_append_getElem h', put_append, hl, List.getElem_map]

/-- position by position -/
theorem put_get : ∀ (vs : List Int) (arr : List Int) (c i : Nat), c + vs.length ≤ arr.length →
    (put arr c vs)[i]? = if c ≤ i ∧ i < c + vs.length then vs[i - c]? else arr[i]?
  | [], arr, c, i, _ => by rw [put, if_neg (by simp)]
  | v :: vs, arr, c, i, h => by
    rw [List.length_cons] at h
    rw [put, put_get vs _ _ _ (by rw [List.length_set]; omega), List.length_cons, List.getElem?_set]
    by_cases h1 : c + 1 ≤ i ∧ i < c + 1 + vs.length
    · rw [if_pos h1, if_pos (by omega), show i - c = (i - (c + 1)) + 1 by omega, List.getElem?_cons_succ]
    · rw [if_neg h1]
      by_cases h2 : c = i
      · subst h2
        rw [if_pos rfl, if_pos (by omega), if_pos (by omega), Nat.sub_self, List.getElem?_cons_zero]
      · rw [if_neg h2, if_neg (by omega)]

theorem setOk (arr : List Int) (i : Nat) (v : Int) (h : i < arr.length) : pySet arr i v = .ok (arr.set i v) := by
  unfold pySet; rw [if_pos h]

/-- a satellite as it stands in the list -/
def idOf (s : Nat) : List Char := (sat2id s).getD []

theorem idOf_table : ∀ s < 234, 1 ≤ s → (idOf s).length = 3 ∧ id2sat (idOf s) = .ok s ∧
    (∀ c ∈ (idOf s).head?, Sig.isSpace c = false) ∧ (∀ c ∈ (idOf s).getLast?, Sig.isSpace c = false) ∧
    ∃ n ∈ List.range 100, 0 < n ∧ pyInt (idOf s).tail = .ok n := by decide +kernel

/-- an empty place of the list -/
def pad : List Char := [' ', ' ', '0']

theorem range_fold {σ : Type} (f : σ → Nat → Py σ) (st : Nat → σ) : ∀ n, (∀ k < n, f (st k) k = .ok (st (k + 1))) →
    (List.range n).foldlM f (st 0) = .ok (st n)
  | 0, _ => rfl
  | n + 1, h => by
    rw [List.range_succ, List.foldlM_append, range_fold f st n (fun k hk => h k (by omega)), Py.okBind, List.foldlM_cons,
      h n (by omega)]
    rfl

theorem pads_last : ∀ (z : Nat) (w : List Char), (∀ c ∈ w.getLast?, Sig.isSpace c = false) →
    ∀ c ∈ (w ++ (List.replicate z pad).flatten).getLast?, Sig.isSpace c = false
  | 0, w, h => by simpa using h
  | z + 1, w, h => by
    rw [List.replicate_succ', List.flatten_append, ← List.append_assoc]
    simp only [List.flatten_cons, List.flatten_nil, List.append_nil, List.getLast?_append, pad]
    intro c hc
    simp only [List.getLast?_cons_cons, List.getLast?_singleton, Option.some_or, Option.mem_some_iff] at hc
    subst hc; decide

theorem last_part (ps : List (List Char)) (q : List Char) (hq : q ≠ []) (h : ∀ c ∈ q.getLast?, Sig.isSpace c = false) :
    ∀ c ∈ (ps ++ [q]).flatten.getLast?, Sig.isSpace c = false := by
  rw [List.flatten_append, List.flatten_cons, List.flatten_nil, List.append_nil, List.getLast?_append]
  obtain ⟨x, hx⟩ := Option.ne_none_iff_exists'.1 (fun e => hq (List.getLast?_eq_none_iff.1 e) : q.getLast? ≠ none)
  rw [hx] at h ⊢
  exact h

/-- **a line of the list of satellites**: exactly the satellites listed are taken, in order; empty places are passed over -/
theorem sat_list (pre suf : List Char) (sats : List Nat) (z : Nat) (l : Lst) (hpre : pre.length = 9)
    (hsuf : ∀ c ∈ suf, Sig.isSpace c = true) (hs : ∀ s ∈ sats, 1 ≤ s ∧ s ≤ 233) (hne : sats ≠ []) (hlen : sats.length + z ≤ 17)
    (hroom : l.cnt + sats.length ≤ l.arr.length) :
    satlist (pre ++ ((sats.map idOf ++ List.replicate z pad).flatten ++ suf)) l =
      .ok ⟨put l.arr l.cnt (sats.map fun (s : Nat) => (s : Int)), l.cnt + sats.length⟩ := by
  have hid := fun s hm => idOf_table s (by have := (hs s hm).2; omega) (hs s hm).1
  have h3 : ∀ p ∈ sats.map idOf ++ List.replicate z pad, p.length = 3 := fun p hp => by
    rcases List.mem_append.1 hp with h | h
    · obtain ⟨s, hm, rfl⟩ := List.mem_map.1 h; exact (hid s hm).1
    · rw [List.eq_of_mem_replicate h]; rfl
  have hent : entries (pre ++ ((sats.map idOf ++ List.replicate z pad).flatten ++ suf)) = sats.length + z := by
    have hl := flatten_len _ h3
    rw [List.length_append, List.length_map, List.length_replicate] at hl
    have := entries_line pre [] (sats.map idOf ++ List.replicate z pad).flatten suf hpre
      (by rw [hl]; simp; omega) (by simp) hsuf ?_ ?_ ?_
    · rw [List.nil_append] at this
      rw [this, hl]; omega
    · intro e
      have := List.length_pos_iff.2 hne
      rw [e, List.length_nil] at hl
      omega
    · obtain ⟨s, t, rfl⟩ := List.exists_cons_of_ne_nil hne
      obtain ⟨a, _, b, _⟩ := hid s (.head _)
      intro c hc
      apply b
      rw [List.map_cons, List.cons_append, List.flatten_cons, List.head?_append] at hc
      cases h : idOf s with
      | nil => rw [h] at a; cases a
      | cons x y => rw [h] at hc; exact hc
    · rw [List.flatten_append]
      apply pads_last
      obtain ⟨t, s, rfl⟩ : ∃ t s, sats = t ++ [s] := ⟨_, _, (List.dropLast_append_getLast hne).symm⟩
      obtain ⟨a, _, _, b, _⟩ := hid s (by simp)
      rw [List.map_append]
      exact last_part _ _ (fun e => by rw [e] at a; cases a) b
  unfold satlist
  rw [hent]
  have key := range_fold (fun (l : Lst) k => do
    let svid := Rinex.slice (pre ++ ((sats.map idOf ++ List.replicate z pad).flatten ++ suf)) (9 + 3 * k) (12 + 3 * k)
    let n ← pyInt svid.tail
    if 0 < n then do
      let s ← id2sat svid
      let arr ← pySet l.arr l.cnt s
      pure (⟨arr, l.cnt + 1⟩ : Lst)
    else pure l)
    (fun k => ⟨put l.arr l.cnt ((sats.map fun (s : Nat) => (s : Int)).take k), l.cnt + min k sats.length⟩) (sats.length + z)
    (fun k hk => by
      dsimp only
      rw [slice_entry pre suf _ hpre h3 k (by simpa using hk)]
      by_cases hk2 : k < sats.length
      · rw [List.getElem_append_left (by simpa using hk2), List.getElem_map]
        obtain ⟨_, hi, _, _, n, _, hn, hp⟩ := hid sats[k] (List.getElem_mem hk2)
        rw [hp, Py.okBind, if_pos (by omega), hi, Py.okBind, setOk _ _ _ (by rw [put_length]; omega), Py.okBind]
        rw [put_take _ _ _ _ hk2, Nat.min_eq_left (by omega : k ≤ sats.length), Nat.min_eq_left (by omega : k + 1 ≤ sats.length)]
        rfl
      · rw [List.getElem_append_right (by simp; omega), List.getElem_replicate]
        rw [show pyInt pad.tail = .ok 0 by decide, Py.okBind, if_neg (by omega), List.take_of_length_le (by simp; omega),
          List.take_of_length_le (by simp; omega), Nat.min_eq_right (by omega), Nat.min_eq_right (by omega)]
        rfl)
  simp only [List.take_zero, Nat.zero_min, Nat.add_zero, put] at key
  rw [List.take_of_length_le (by simp), Nat.min_eq_right (by omega)] at key
  exact key

theorem i3_table : ∀ n < 1000, ((i3 n).length = 3 ∧ pyInt (i3 n) = .ok n ∧ (∀ c ∈ (i3 n).getLast?, Sig.isSpace c = false)) ∧
    (∀ c ∈ (digits n).head?, Sig.isSpace c = false) ∧ 1 ≤ (digits n).length ∧ (digits n).length ≤ 3 ∧
    ((digits n).length = 3 ↔ 100 ≤ n) := by decide +kernel

/-- **a line of the list of accuracies**: where the first accuracy of the line has less than three digits the last one is lost -/
theorem acc_list (pre suf : List Char) (a : Nat) (as : List Nat) (l : Lst) (hpre : pre.length = 9)
    (hsuf : ∀ c ∈ suf, Sig.isSpace c = true) (hs : ∀ x ∈ a :: as, x < 1000) (hlen : as.length < 17) :
    acclist l.arr.length (pre ++ (((a :: as).map i3).flatten ++ suf)) l =
      .ok ⟨put l.arr l.cnt (((a :: as).map fun (s : Nat) => (s : Int)).take (if a < 100 then as.length else as.length + 1)),
        l.cnt + if a < 100 then as.length else as.length + 1⟩ := by
  have hid := fun s hm => i3_table s (hs s hm)
  have h3 : ∀ p ∈ (a :: as).map i3, p.length = 3 := fun p hp => by
    obtain ⟨s, hm, rfl⟩ := List.mem_map.1 hp; exact (hid s hm).1.1
  obtain ⟨⟨ha3, _, _⟩, hh, hd1, hd3, hd⟩ := hid a (.head _)
  have hl := flatten_len _ h3
  rw [List.length_map, List.length_cons] at hl
  have hsplit : ((a :: as).map i3).flatten =
      List.replicate (3 - (digits a).length) ' ' ++ (digits a ++ (as.map i3).flatten) := by
    rw [List.map_cons, List.flatten_cons]
    unfold i3
    rw [List.append_assoc]
  have hwl : (digits a ++ (as.map i3).flatten).length = 3 * as.length + (digits a).length := by
    have := congrArg List.length hsplit
    rw [hl, List.length_append, List.length_replicate] at this
    omega
  have hlast : ∀ c ∈ ((a :: as).map i3).flatten.getLast?, Sig.isSpace c = false := by
    obtain ⟨t, s, e⟩ : ∃ t s, a :: as = t ++ [s] := ⟨_, _, (List.dropLast_append_getLast (by simp : a :: as ≠ [])).symm⟩
    obtain ⟨⟨x, _, y⟩, _⟩ := hid s (by rw [e]; simp)
    rw [e, List.map_append]
    exact last_part _ _ (fun e => by rw [e] at x; cases x) y
  have hent : entries (pre ++ (((a :: as).map i3).flatten ++ suf)) = if a < 100 then as.length else as.length + 1 := by
    have hne : digits a ++ (as.map i3).flatten ≠ [] := fun e => by rw [e] at hwl; simp at hwl; omega
    rw [hsplit, entries_line pre _ _ suf hpre (by rw [hwl, List.length_replicate]; omega)
      (fun c hc => by rw [List.eq_of_mem_replicate hc]; decide) hsuf hne ?_ ?_, hwl]
    · split <;> omega
    · intro c hc
      apply hh
      rw [List.head?_append] at hc
      cases h : digits a with
      | nil => rw [h] at hd1; simp at hd1
      | cons x y => rw [h] at hc; exact hc
    · intro c hc
      apply hlast
      rw [hsplit, List.getLast?_append, hc]
      rfl
  unfold acclist
  rw [hent]
  have key := range_fold (fun (s : Lst) k => do
    let a ← pyInt (Rinex.slice (pre ++ (((a :: as).map i3).flatten ++ suf)) (9 + 3 * k) (12 + 3 * k))
    if s.cnt < l.arr.length then do
      let arr ← pySet s.arr s.cnt a
      pure (⟨arr, s.cnt + 1⟩ : Lst)
    else pure ⟨s.arr, s.cnt + 1⟩)
    (fun k => ⟨put l.arr l.cnt (((a :: as).map fun (s : Nat) => (s : Int)).take k), l.cnt + k⟩)
    (if a < 100 then as.length else as.length + 1)
    (fun k hk => by
      have hk2 : k < (a :: as).length := by rw [List.length_cons]; split at hk <;> omega
      dsimp only
      rw [slice_entry pre suf _ hpre h3 k (by simpa using hk2), List.getElem_map, (hid _ (List.getElem_mem hk2)).1.2.1, Py.okBind]
      rw [put_take _ _ _ _ hk2]
      split
      · rw [setOk _ _ _ (by rw [put_length]; assumption)]
        rfl
      · rw [List.set_eq_of_length_le (by rw [put_length]; omega)]
        rfl)
  simp only [List.take_zero, Nat.add_zero, put] at key
  exact key

/-- so the accuracy of the 18th satellite is given to the 17th, and so on -/
theorem acc_shift (pre pre' suf suf' : List Char) (a b : Nat) (as bs : List Nat) (n : Nat) (hpre : pre.length = 9)
    (hpre' : pre'.length = 9) (hsuf : ∀ c ∈ suf, Sig.isSpace c = true) (hsuf' : ∀ c ∈ suf', Sig.isSpace c = true)
    (hs : ∀ x ∈ a :: as, x < 1000) (hs' : ∀ x ∈ b :: bs, x < 1000) (hlen : as.length = 16) (hlen' : bs.length < 17) (hb : bs ≠ [])
    (ha : a < 100) (hn : 34 ≤ n) :
    ∃ l, (acclist n (pre ++ (((a :: as).map i3).flatten ++ suf)) ⟨List.replicate n 0, 0⟩ >>=
        acclist n (pre' ++ (((b :: bs).map i3).flatten ++ suf'))) = .ok l ∧ l.arr[16]? = some (b : Int) := by
  have e1 := acc_list pre suf a as ⟨List.replicate n 0, 0⟩ hpre hsuf hs (by omega)
  rw [List.length_replicate, if_pos ha, hlen] at e1
  rw [e1, Py.okBind]
  have e2 := acc_list pre' suf' b bs
    ⟨put (List.replicate n 0) 0 (((a :: as).map fun (s : Nat) => (s : Int)).take 16), 0 + 16⟩ hpre' hsuf' hs' hlen'
  simp only [put_length, List.length_replicate] at e2
  refine ⟨_, e2, ?_⟩
  have := List.length_pos_iff.2 hb
  have hl : (List.take (if b < 100 then bs.length else bs.length + 1) ((b :: bs).map fun (s : Nat) => (s : Int))).length =
      if b < 100 then bs.length else bs.length + 1 := by
    rw [List.length_take, List.length_map, List.length_cons]; split <;> omega
  have hp : 1 ≤ if b < 100 then bs.length else bs.length + 1 := by split <;> omega
  rw [put_get _ _ _ _ (by rw [hl, put_length, List.length_replicate]; split <;> omega), hl, if_pos (by omega)]
  rw [List.getElem?_take_of_lt (by omega)]
  rfl

/-! ## Examples -/

/-- two epochs of two satellites, the second without position at the second epoch -/
def exPe (t : Int) (gap : Bool) : Pe :=
  { time := ⟨t, 0⟩, pos := fun i j => if i = 0 ∨ (i = 1 ∧ ¬ gap) then (if j < 3 then some (20000000 + 1000 * j) else some (1 / 1000)) else none }

example : (Sp3.read 0 2 (1, 1) (write id id [1, 2] [exPe 0 false, exPe 900 true]) ⟨0, [], none⟩).toOption.map
    (fun n => (n.ne, n.peph.length, n.peph.map fun p => [p.pos 0 0, p.pos 1 0, p.pos 1 3, p.pos 2 0])) =
    some (2, 2, [[some 20000000, some 20000000, some (1 / 1000), none], [some 20000000, some 0, none, none]]) := by
  decide +kernel

/-- the file of the theorem on inserted lines -/
example : (Sp3.read 0 2 (1, 1) [.epoch ⟨0, 0⟩, .data (outRec id (exPe 0 false) 1), .other, .data (outRec id (exPe 0 false) 2), .eof]
    ⟨0, [], none⟩).toOption.map (fun n => (n.ne, n.peph.length, n.peph.map fun p => [p.pos 0 0, p.pos 1 0])) =
    some (1, 2, [[some 20000000, none], [some 20000000, none]]) := by
  decide +kernel

example : (satlist "+    2   G01E05  0  0  0                                     \n".toList ⟨[0, 0], 0⟩).toOption.map
    (fun l => (l.arr, l.cnt)) = some ([1, 37], 2) := by decide +kernel

example : (acclist 3 "++         5  7  6                                          \n".toList ⟨[0, 0, 0], 0⟩).toOption.map
    (fun l => (l.arr, l.cnt)) = some ([5, 7, 0], 2) := by decide +kernel

end Verif.C100
