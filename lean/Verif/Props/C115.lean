import Verif.Model.BiasFile
import Verif.Lemmas.Post
import Verif.Props.C54
import Mathlib.Data.List.Forall2
/-!
# C115 Bias files
-/
namespace Verif.C115
open Verif Verif.BiasFile Verif.Sat Verif.Sig Verif.Time Verif.Peph

/-! ## Specification -/

/-- the records inside the blocks of the solution -/
def inside : Bool → List Ln → List Rec
  | _, [] => []
  | _, .start :: ls => inside true ls
  | _, .stop :: ls => inside false ls
  | on, .other :: ls => inside on ls
  | true, .data r :: ls => r :: inside true ls
  | false, .data _ :: ls => inside false ls

/-- is a block open behind the lines? -/
def openAfter : Bool → List Ln → Bool
  | on, [] => on
  | _, .start :: ls => openAfter true ls
  | _, .stop :: ls => openAfter false ls
  | on, _ :: ls => openAfter on ls

/-- a bias of a station, of no satellite -/
def OfStation (r : Rec) : Prop := strip r.site ≠ [] ∧ strip (r.prn.drop 1) = []

/-- an observable-specific GLONASS bias that is not of the site asked for -/
def OtherSite (siteID : Option (List Char)) (r : Rec) : Prop :=
  r.osb = true ∧ r.c = 'R' ∧ siteID ≠ some (strip r.site)

instance (r : Rec) : Decidable (OfStation r) := by unfold OfStation; infer_instance
instance (s : Option (List Char)) (r : Rec) : Decidable (OtherSite s r) := by unfold OtherSite; infer_instance

/-- the instant of a date: year, day of year, second -/
def instant (e : Int × Int × Int) : GTime :=
  if e = (0, 0, 0) then doy2time 3000 0 0 else doy2time e.1 e.2.1 e.2.2

/-- the entry of a record -/
structure Entry (r : Rec) (b : Bias Sig) : Prop where
  sat : id2sat r.prn = .ok b.sat
  sig1 : ofSysStr (char2sys r.c) r.s1 = .ok b.sig1
  sig2 : r.osb = false → ofSysStr (char2sys r.c) r.s2 = .ok b.sig2
  none2 : r.osb = true → b.sig2 = ⟨.none, .none, -1⟩
  since : b.tst = instant r.ep1
  upto : b.ted = instant r.ep2
  bias : b.bias = r.bias
  std : b.std = r.std

/-- the units: nanoseconds for codes, cycles for phases in differences, nanoseconds for phases of single observables -/
structure Units (r : Rec) (b : Bias Sig) : Prop where
  osb : r.osb = true → b.sig1.typ = .L → r.unit.take 2 = ['n', 's']
  same : r.osb = false → b.sig1.typ = b.sig2.typ
  code : r.osb = false → b.sig1.typ = .C → r.unit.take 2 = ['n', 's']
  phase : r.osb = false → b.sig1.typ = .L → r.unit.take 3 = ['c', 'y', 'c']

/-! ## Lemmas -/

theorem instant_eq (e : Int × Int × Int) : instant e = doy2time e.1 e.2.1 e.2.2 := by
  obtain ⟨a, b, c⟩ := e
  unfold instant
  split
  · rename_i h
    simp only [Prod.mk.injEq] at h
    obtain ⟨rfl, rfl, rfl⟩ := h
    decide +kernel
  · rfl

theorem char_glo (c : Char) : char2sys c = .glo ↔ c = 'R' := by
  unfold char2sys
  constructor
  · intro h
    by_contra hc
    rw [if_neg hc] at h
    revert h
    repeat' split
    all_goals simp
  · rintro rfl; decide

theorem sig_typ {s : Sys} {t : List Char} {g : Sig} (h : ofSysStr s t = .ok g) : g ≠ Antex.noSig := by
  have ht : ∀ (c : Char) (y : Typ), typOfChar c = some y → y ≠ .none := by
    intro c y
    unfold typOfChar
    repeat' split
    all_goals (intro e; cases e <;> decide)
  have : ∀ (y : Typ) (n : Int), y ≠ .none → (⟨s, y, n⟩ : Sig) ≠ Antex.noSig := by
    intro y n hy e
    exact hy (congrArg Sig.typ e)
  unfold ofSysStr at h
  split at h
  · unfold str2sig at h
    split at h
    · split at h
      · simp at h
      · rename_i y hy
        have hn := ht _ _ hy
        split at h
        · simp at h
        · simp only at h
          split at h
          · split at h
            · simp at h
            · split at h
              · injection h with h; rw [← h]; exact this _ _ hn
              · simp at h
          · split at h
            · injection h with h; rw [← h]; exact this _ _ hn
            · simp at h
    · simp at h
  · simp at h

theorem record_skip (siteID : Option (List Char)) (r : Rec) (h : OfStation r ∨ OtherSite siteID r) :
    record siteID r = .ok .skip := by
  unfold record
  rcases h with h | ⟨h1, h2, h3⟩
  · cases r.osb
    · exact if_pos h
    · exact if_pos h
  · rw [h1, if_pos rfl]
    unfold osbRec
    split
    · rfl
    · rw [if_pos ⟨(char_glo _).2 h2, fun e => h3 e.symm⟩]

theorem record_entry (siteID : Option (List Char)) (r : Rec) (b : Bias Sig) (h : ¬ OfStation r) (h' : ¬ OtherSite siteID r)
    (he : Entry r b) (hu : Units r b) : record siteID r = .ok (if r.osb then .osb b else .dcb b) := by
  obtain ⟨sat, tst, ted, g1, g2, bi, sd⟩ := b
  obtain ⟨e1, e2, e3, e4, e5, e6, e7, e8⟩ := he
  simp only at e1 e2 e3 e4 e5 e6 e7 e8
  subst e5 e6 e7 e8
  unfold record
  cases ho : r.osb
  · have u := hu.same ho
    have uc := hu.code ho
    have up := hu.phase ho
    simp only at u uc up
    have e3 := e3 ho
    simp only [Bool.false_eq_true, if_false]
    unfold dsbRec
    rw [if_neg (show ¬ (strip r.site ≠ [] ∧ strip (r.prn.drop 1) = []) from h)]
    simp only [e2, e3, Py.okBind]
    rw [if_neg (by simpa using u), if_neg (by rintro (⟨a, b⟩ | ⟨a, b⟩); exact b (uc a); exact b (up a)),
      if_neg (by rintro (a | a); exact sig_typ e2 a; exact sig_typ e3 a)]
    simp only [e1, Py.okBind, instant_eq]
    rfl
  · have uo := hu.osb ho
    simp only at uo
    have e4 := e4 ho
    subst e4
    simp only [if_true]
    unfold osbRec
    rw [if_neg (show ¬ (strip r.site ≠ [] ∧ strip (r.prn.drop 1) = []) from h), if_neg (by
      rintro ⟨a, b⟩
      exact h' ⟨ho, (char_glo _).1 a, fun e => b e.symm⟩)]
    simp only [e2, Py.okBind]
    rw [if_neg (by rintro ⟨a, b⟩; exact b (uo a))]
    simp only [e1, Py.okBind, instant_eq]
    rfl

/-! ## Properties -/

/-- the satellite biases that are stored -/
def kept (siteID : Option (List Char)) (osb : Bool) (rs : List Rec) : List Rec :=
  rs.filter fun r => decide (r.osb = osb ∧ ¬ OfStation r ∧ ¬ OtherSite siteID r)

/-- **A file whose records are in order**: every satellite bias of the blocks is stored once, in the order of the file, behind
the biases of files read before; biases of stations, and observable-specific GLONASS biases not of the site asked for, are not. -/
theorem file_read (siteID : Option (List Char)) (ls : List Ln) : ∀ (st : St) (on : Bool),
    (∀ r ∈ inside on ls, ¬ OfStation r → ¬ OtherSite siteID r → ∃ b, Entry r b ∧ Units r b) →
    ∃ D O, parse siteID st on ls = (⟨st.dcb ++ D, st.osb ++ O⟩, .ok none) ∧
      List.Forall₂ Entry (kept siteID false (inside on ls)) D ∧ List.Forall₂ Entry (kept siteID true (inside on ls)) O := by
  induction ls with
  | nil =>
    intro st on _
    exact ⟨[], [], by simp [parse], by simp [inside, kept], by simp [inside, kept]⟩
  | cons l ls ih =>
    intro st on h
    cases l with
    | start => simpa only [parse, inside] using ih st true (by simpa only [inside] using h)
    | stop => simpa only [parse, inside] using ih st false (by simpa only [inside] using h)
    | other =>
      cases on <;> simpa only [parse, inside] using ih st _ (by simpa only [inside] using h)
    | data r =>
      cases on with
      | false => simpa [parse, inside] using ih st false (by simpa only [inside] using h)
      | true =>
        simp only [inside] at h ⊢
        have hr := h r (by simp)
        have hl : ∀ x ∈ inside true ls, ¬ OfStation x → ¬ OtherSite siteID x → ∃ b, Entry x b ∧ Units x b :=
          fun x hx => h x (by simp [hx])
        by_cases hs : OfStation r ∨ OtherSite siteID r
        · have ek : ∀ o, kept siteID o (r :: inside true ls) = kept siteID o (inside true ls) := by
            intro o
            unfold kept
            rw [List.filter_cons_of_neg]
            simp only [decide_eq_true_eq]
            rintro ⟨-, a, b⟩
            exact hs.elim a b
          rw [ek, ek]
          obtain ⟨D, O, e, p⟩ := ih st true hl
          refine ⟨D, O, ?_, p⟩
          simp only [parse, if_true, record_skip siteID r hs]
          exact e
        · have h1 : ¬ OfStation r := fun x => hs (.inl x)
          have h2 : ¬ OtherSite siteID r := fun x => hs (.inr x)
          obtain ⟨b, hb, hu⟩ := hr h1 h2
          have er := record_entry siteID r b h1 h2 hb hu
          cases ho : r.osb
          · rw [ho] at er
            simp only [Bool.false_eq_true, if_false] at er
            obtain ⟨D, O, e, p, q⟩ := ih ⟨st.dcb ++ [b], st.osb⟩ true hl
            refine ⟨b :: D, O, ?_, ?_, ?_⟩
            · simp only [parse, if_true, er]
              rw [e]
              simp
            · unfold kept
              rw [List.filter_cons_of_pos (by simp [ho, h1, h2])]
              exact .cons hb p
            · unfold kept
              rw [List.filter_cons_of_neg (by simp [ho])]
              exact q
          · rw [ho] at er
            simp only [if_true] at er
            obtain ⟨D, O, e, p, q⟩ := ih ⟨st.dcb, st.osb ++ [b]⟩ true hl
            refine ⟨D, b :: O, ?_, ?_, ?_⟩
            · simp only [parse, if_true, er]
              rw [e]
              simp
            · unfold kept
              rw [List.filter_cons_of_neg (by simp [ho])]
              exact p
            · unfold kept
              rw [List.filter_cons_of_pos (by simp [ho, h1, h2])]
              exact .cons hb q

/-- the record is of the satellite and the signal, and valid at the time -/
def Covers (sat : Int) (time : GTime) (sig : Sig) (r : Rec) : Prop :=
  (id2sat r.prn).toOption = some sat ∧ (ofSysStr (char2sys r.c) r.s1).toOption = some sig ∧
    (instant r.ep1).tot ≤ time.tot ∧ time.tot < (instant r.ep2).tot

instance (sat : Int) (time : GTime) (sig : Sig) (r : Rec) : Decidable (Covers sat time sig r) := by unfold Covers; infer_instance

/-- **From the file to the bias**: what the lookups give is the bias and deviation of the first stored record of the file for the
satellite and signal that is valid at the time, nothing if there is none. -/
theorem looked_up (siteID : Option (List Char)) (ls : List Ln)
    (h : ∀ r ∈ inside false ls, ¬ OfStation r → ¬ OtherSite siteID r → ∃ b, Entry r b ∧ Units r b) :
    ∃ st, parse siteID {} false ls = (st, .ok none) ∧ ∀ (sat : Int) (time : GTime) (sig : Sig),
      let f := (kept siteID true (inside false ls)).find? fun r => decide (Covers sat time sig r)
      getosb st.osb sat time sig = f.map (·.bias) ∧ getosbstd st.osb sat time sig = f.map (·.std) := by
  obtain ⟨D, O, e, -, q⟩ := file_read siteID ls {} false h
  refine ⟨_, e, ?_⟩
  intro sat time sig
  simp only [List.nil_append]
  generalize kept siteID true (inside false ls) = rs at q
  clear e h
  induction q with
  | nil => exact ⟨rfl, rfl⟩
  | @cons r b rs bs hb _ ih =>
    have ec : (b.sat = sat ∧ b.sig1 = sig ∧ timediff time b.tst ≥ 0 ∧ timediff time b.ted < 0) ↔ Covers sat time sig r := by
      unfold Covers
      rw [hb.sat, hb.sig1, hb.since, hb.upto, timediff_tot, timediff_tot, ge_iff_le, sub_nonneg, sub_neg]
      simp [Except.toOption]
    rw [getosb, getosbstd]
    by_cases c : Covers sat time sig r
    · rw [if_pos (ec.2 c), if_pos (ec.2 c), List.find?_cons_of_pos (by simp [c])]
      simp [hb.bias, hb.std]
    · rw [if_neg (fun x => c (ec.1 x)), if_neg (fun x => c (ec.1 x)), List.find?_cons_of_neg (by simp [c])]
      exact ih

/-- **Dates**: by counting calendar days; a date 0000:000:00000 lies behind every date of the years up to 2099. -/
theorem dates (e : Int × Int × Int) (h1 : 1970 ≤ e.1) (h2 : e.1 ≤ 2099) :
    instant e = ⟨(C03.dayNumber e.1 1 1 + (e.2.1 - 1)) * 86400 + e.2.2, 0⟩ ∧
    (e.2.1 ≤ 366 → e.2.2 ≤ 86400 → (instant e).tot < (instant (0, 0, 0)).tot) := by
  rw [instant_eq, instant_eq]
  have hd := C54.doy_time e.1 e.2.1 e.2.2 h1 h2
  refine ⟨hd, fun a b => ?_⟩
  exact C54.open_end e.1 e.2.1 e.2.2 h2 a b (by omega)

/-- is the line a record that is left out? -/
def leftOut (siteID : Option (List Char)) : Ln → Bool
  | .data r => decide (OtherSite siteID r)
  | _ => false

/-- **GLONASS biases of other sites**: the file is read, also when it is faulty, as if they were not there.  Without a site all
observable-specific GLONASS biases are such, also those of satellites. -/
theorem other_sites (siteID : Option (List Char)) (ls : List Ln) : ∀ (st : St) (on : Bool),
    parse siteID st on ls = parse siteID st on (ls.filter fun l => !leftOut siteID l) := by
  induction ls with
  | nil => intro st on; rfl
  | cons l ls ih =>
    intro st on
    cases l with
    | start => rw [List.filter_cons_of_pos (by rfl)]; simp only [parse]; exact ih _ _
    | stop => rw [List.filter_cons_of_pos (by rfl)]; simp only [parse]; exact ih _ _
    | other => rw [List.filter_cons_of_pos (by rfl)]; simp only [parse]; exact ih _ _
    | data r =>
      by_cases h : OtherSite siteID r
      · rw [List.filter_cons_of_neg (by simp [leftOut, h])]
        simp only [parse, record_skip siteID r (.inr h)]
        rw [← ih]
        simp
      · rw [List.filter_cons_of_pos (by simp [leftOut, h])]
        simp only [parse]
        rw [ih]
        cases on
        · rfl
        · simp only [if_true]
          split <;> first | rfl | exact ih _ _

/-- **Defect**: when no site is given, every observable-specific GLONASS bias is left out, satellite biases included -/
theorem no_site (r : Rec) (ho : r.osb = true) (hc : r.c = 'R') : leftOut none (.data r) = true := by
  simp [leftOut, OtherSite, ho, hc]

/-- **Defect**: of differential biases the site is not looked at: whatever site is asked for, the result is the same -/
theorem dsb_any_site (s s' : Option (List Char)) (ls : List Ln) (h : ∀ r, Ln.data r ∈ ls → r.osb = true → r.c ≠ 'R') :
    ∀ (st : St) (on : Bool), parse s st on ls = parse s' st on ls := by
  induction ls with
  | nil => intro st on; rfl
  | cons l ls ih =>
    have ih := ih fun r hr => h r (by simp [hr])
    intro st on
    cases l with
    | start => simp only [parse]; exact ih _ _
    | stop => simp only [parse]; exact ih _ _
    | other => simp only [parse]; exact ih _ _
    | data r =>
      have hr := h r (by simp)
      have e : record s r = record s' r := by
        unfold record
        cases ho : r.osb
        · rfl
        · have : ¬ char2sys r.c = .glo := fun x => hr ho ((char_glo _).1 x)
          simp only [if_true]
          unfold osbRec
          simp [this]
      simp only [parse, e]
      rw [ih]
      split
      · split <;> first | rfl | exact ih _ _
      · rfl

/-- the records up to some line decide what is stored when that line is faulty -/
theorem parse_append (siteID : Option (List Char)) (pre rest : List Ln) : ∀ (st st' : St) (on : Bool),
    parse siteID st on pre = (st', .ok none) →
    parse siteID st on (pre ++ rest) = parse siteID st' (openAfter on pre) rest := by
  induction pre with
  | nil =>
    intro st st' on h
    simp only [parse, Prod.mk.injEq, and_true] at h
    rw [h]
    rfl
  | cons l pre ih =>
    intro st st' on h
    cases l with
    | start => exact ih st st' true h
    | stop => exact ih st st' false h
    | other => exact ih st st' on h
    | data r =>
      simp only [List.cons_append, parse, openAfter] at h ⊢
      cases on
      · exact ih _ _ _ h
      · simp only [if_true] at h ⊢
        revert h
        split
        · intro h; simp at h
        · intro h; simp at h
        · exact ih _ _ _
        · exact ih _ _ _
        · exact ih _ _ _

/-- **A wrong unit**: a bias whose unit is not the one of its signals, or a difference of a code and a phase, ends the reading
with -1; the biases before it stay, whatever follows is not read. -/
theorem wrong_unit (siteID : Option (List Char)) (pre rest : List Ln) (st st' : St) (on : Bool) (r : Rec) (b : Bias Sig)
    (hp : parse siteID st on pre = (st', .ok none)) (hon : openAfter on pre = true)
    (h : ¬ OfStation r) (h' : ¬ OtherSite siteID r) (he : Entry r b) (hu : ¬ Units r b) :
    parse siteID st on (pre ++ .data r :: rest) = (st', .ok (some (-1))) := by
  rw [parse_append siteID pre _ st st' on hp, hon]
  have : record siteID r = .ok .bad := by
    unfold record
    cases ho : r.osb
    · simp only [Bool.false_eq_true, if_false]
      unfold dsbRec
      rw [if_neg (show ¬ (strip r.site ≠ [] ∧ strip (r.prn.drop 1) = []) from h)]
      simp only [he.sig1, he.sig2 ho, Py.okBind]
      by_cases ht : b.sig1.typ = b.sig2.typ
      · rw [if_neg (by simpa using ht), if_pos]
        · rfl
        · by_contra hc
          apply hu
          rw [not_or] at hc
          exact ⟨fun x => by rw [ho] at x; exact absurd x (by simp), fun _ => ht,
            fun _ x => by by_contra y; exact hc.1 ⟨x, y⟩, fun _ x => by by_contra y; exact hc.2 ⟨x, y⟩⟩
      · rw [if_pos ht]
        rfl
    · simp only [if_true]
      unfold osbRec
      rw [if_neg (show ¬ (strip r.site ≠ [] ∧ strip (r.prn.drop 1) = []) from h), if_neg (by
        rintro ⟨a, c⟩
        exact h' ⟨ho, (char_glo _).1 a, fun e => c e.symm⟩)]
      simp only [he.sig1, Py.okBind]
      rw [if_pos]
      · rfl
      · by_contra hc
        apply hu
        exact ⟨fun _ x => by by_contra y; exact hc ⟨x, y⟩, fun x => by rw [ho] at x; exact absurd x (by simp),
          fun x => by rw [ho] at x; exact absurd x (by simp), fun x => by rw [ho] at x; exact absurd x (by simp)⟩
  simp only [parse, if_true, this]

/-! ## Cases -/

def exG : Rec := ⟨true, 'G', "G03".toList, "         ".toList, "C1C".toList, "   ".toList, (2021, 78, 0), (2021, 79, 0), "ns  ".toList,
  -7324 / 10000, 1 / 100⟩
def exR : Rec := ⟨true, 'R', "R03".toList, "         ".toList, "C1C".toList, "   ".toList, (2021, 78, 0), (2021, 79, 0), "ns  ".toList, 2, 0⟩
def exD : Rec := ⟨false, 'R', "R03".toList, "REYK     ".toList, "C1C".toList, "C2C".toList, (2021, 78, 0), (0, 0, 0), "ns  ".toList, 3, 0⟩
def exS : Rec := ⟨false, 'G', "G  ".toList, "REYK     ".toList, "C1C".toList, "C2W".toList, (2021, 78, 0), (0, 0, 0), "ns  ".toList, 4, 0⟩
def exU : Rec := { exG with s1 := "L1C".toList, unit := "cyc ".toList }

/-- the GLONASS satellite bias is lost, the differential bias of a site is not; the station is skipped -/
example : inside false [.data exG, .start, .other, .data exG, .data exR, .data exD, .data exS, .stop, .data exG] = [exG, exR, exD, exS] ∧
    kept none true [exG, exR, exD, exS] = [exG] ∧ kept none false [exG, exR, exD, exS] = [exD] := by
  refine ⟨rfl, ?_, ?_⟩
  · simp only [kept, List.filter, show decide (exG.osb = true ∧ ¬ OfStation exG ∧ ¬ OtherSite none exG) = true by decide +kernel,
      show decide (exR.osb = true ∧ ¬ OfStation exR ∧ ¬ OtherSite none exR) = false by decide +kernel,
      show decide (exD.osb = true ∧ ¬ OfStation exD ∧ ¬ OtherSite none exD) = false by decide +kernel,
      show decide (exS.osb = true ∧ ¬ OfStation exS ∧ ¬ OtherSite none exS) = false by decide +kernel]
  · simp only [kept, List.filter, show decide (exG.osb = false ∧ ¬ OfStation exG ∧ ¬ OtherSite none exG) = false by decide +kernel,
      show decide (exR.osb = false ∧ ¬ OfStation exR ∧ ¬ OtherSite none exR) = false by decide +kernel,
      show decide (exD.osb = false ∧ ¬ OfStation exD ∧ ¬ OtherSite none exD) = true by decide +kernel,
      show decide (exS.osb = false ∧ ¬ OfStation exS ∧ ¬ OtherSite none exS) = false by decide +kernel]

/-- the hypotheses of `file_read` and of `wrong_unit` can be met -/
example : ∃ b, Entry exG b ∧ Units exG b :=
  ⟨⟨3, instant (2021, 78, 0), instant (2021, 79, 0), ⟨.gps, .C, 103⟩, ⟨.none, .none, -1⟩, -7324 / 10000, 1 / 100⟩,
    ⟨by decide +kernel, by decide +kernel, by decide, fun _ => rfl, rfl, rfl, rfl, rfl⟩, ⟨by decide, by decide, by decide, by decide⟩⟩

example : ∃ b, Entry exD b ∧ Units exD b :=
  ⟨⟨151 - 0, instant (2021, 78, 0), instant (0, 0, 0), ⟨.glo, .C, 103⟩, ⟨.glo, .C, 203⟩, 3, 0⟩,
    ⟨by decide +kernel, by decide +kernel, fun _ => by decide +kernel, by decide, rfl, rfl, rfl, rfl⟩, ⟨by decide, by decide, by decide, by decide⟩⟩

example : ∃ b, Entry exU b ∧ ¬ Units exU b :=
  ⟨⟨3, instant (2021, 78, 0), instant (2021, 79, 0), ⟨.gps, .L, 103⟩, ⟨.none, .none, -1⟩, -7324 / 10000, 1 / 100⟩,
    ⟨by decide +kernel, by decide +kernel, by decide, fun _ => rfl, rfl, rfl, rfl, rfl⟩,
    fun h => absurd (h.osb rfl rfl) (by decide)⟩

end Verif.C115
