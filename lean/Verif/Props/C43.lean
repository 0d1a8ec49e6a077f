import Verif.Model.Ephsel
import Mathlib.Tactic.Linarith
/-!
# C43 Ephemeris selection
-/

namespace Verif.C43
open Verif.Time Verif.Sat Verif.Ephsel

variable {α : Type}

/-! ## Specification -/

/-- age of an entry at the requested epoch -/
def age (t : GTime) (e : Ent α) : ℚ := |timediff t e.toe|

/-- longest age, per constellation -/
def limit : Sys → Option ℚ
  | .gps => some 7201 | .qzs => some 7201 | .bds => some 7201 | .irn => some 7201
  | .gal => some 14400 | .glo => some 1800 | .sbs => some 360 | .none => none

/-- an admissible ephemeris -/
def Cand (t : GTime) (sat iode mode : Int) (lim : ℚ) (e : Ent α) : Prop :=
  e.sat = sat ∧ e.mode = mode ∧ age t e ≤ lim ∧ (0 ≤ iode → e.iode = iode)

instance (t : GTime) (sat iode mode : Int) (lim : ℚ) (e : Ent α) : Decidable (Cand t sat iode mode lim e) := by
  unfold Cand; infer_instance

/-- `e` is, among the entries satisfying `P`, the youngest, the last one of equal age -/
def Youngest (P : Ent α → Prop) (t : GTime) (l : List (Ent α)) (e : Ent α) : Prop :=
  ∃ a b, l = a ++ e :: b ∧ P e ∧ (∀ x ∈ a, P x → age t e ≤ age t x) ∧ (∀ x ∈ b, P x → age t e < age t x)

/-! ## Proofs -/

/-- one step of the loop, by admissibility -/
theorem findLoop_cons (t : GTime) (sat iode mode : Int) (tmax : ℚ) (e : Ent α) (es : List (Ent α)) (tmin : ℚ)
    (best : Option (Ent α)) :
    findLoop t sat iode mode tmax (e :: es) tmin best =
      if Cand t sat iode mode tmax e then
        if 0 ≤ iode then some e
        else if age t e ≤ tmin then findLoop t sat iode mode tmax es (age t e) (some e)
        else findLoop t sat iode mode tmax es tmin best
      else findLoop t sat iode mode tmax es tmin best := by
  rw [findLoop]
  by_cases h1 : e.sat ≠ sat ∨ (iode ≥ 0 ∧ iode ≠ e.iode)
  · rw [if_pos h1, if_neg]
    rintro ⟨h, _, _, h'⟩
    rcases h1 with h1 | ⟨h1, h2⟩
    · exact h1 h
    · exact h2 (h' h1).symm
  · rw [if_neg h1]
    push Not at h1
    by_cases h2 : e.mode ≠ mode
    · rw [if_pos h2, if_neg (fun h => h2 h.2.1)]
    · rw [if_neg h2]
      simp only
      by_cases h3 : |timediff t e.toe| > tmax
      · rw [if_pos (Or.inl h3), if_neg]
        intro h
        have := h.2.2.1
        unfold age at this
        linarith
      · rw [if_neg (by push Not; push Not at h2; exact ⟨not_lt.1 h3, h2⟩),
          if_pos (c := Cand t sat iode mode tmax e) ⟨h1.1, not_not.1 h2, not_lt.1 h3, fun h => (h1.2 h).symm⟩]
        rfl

/-- with an issue number -/
theorem findLoop_issue (t : GTime) (sat iode mode : Int) (tmax : ℚ) (hi : 0 ≤ iode) :
    ∀ (es : List (Ent α)) (tmin : ℚ),
      findLoop t sat iode mode tmax es tmin none = es.find? (fun e => decide (Cand t sat iode mode tmax e))
  | [], _ => rfl
  | e :: es, tmin => by
    rw [findLoop_cons, List.find?_cons]
    by_cases c : Cand t sat iode mode tmax e
    · rw [if_pos c, if_pos hi, decide_eq_true c]
    · rw [if_neg c, decide_eq_false c]
      exact findLoop_issue t sat iode mode tmax hi es tmin

/-- without an issue number: the running best is the youngest so far -/
theorem findLoop_min (t : GTime) (sat iode mode : Int) (tmax : ℚ) (hi : iode < 0) :
    ∀ (es pre : List (Ent α)) (tmin : ℚ) (best : Option (Ent α)),
      (best = none → (∀ x ∈ pre, ¬Cand t sat iode mode tmax x) ∧ tmin = tmax + 1) →
      (∀ b, best = some b → Youngest (Cand t sat iode mode tmax) t pre b ∧ tmin = age t b) →
      match findLoop t sat iode mode tmax es tmin best with
      | none => ∀ x ∈ pre ++ es, ¬Cand t sat iode mode tmax x
      | some b => Youngest (Cand t sat iode mode tmax) t (pre ++ es) b
  | [], pre, tmin, best, h1, h2 => by
    rw [findLoop, List.append_nil]
    cases best with
    | none => exact (h1 rfl).1
    | some b => exact (h2 b rfl).1
  | e :: es, pre, tmin, best, h1, h2 => by
    have happ : pre ++ e :: es = (pre ++ [e]) ++ es := by simp
    rw [findLoop_cons, happ]
    by_cases c : Cand t sat iode mode tmax e
    · rw [if_pos c, if_neg (by omega)]
      by_cases c2 : age t e ≤ tmin
      · rw [if_pos c2]
        refine findLoop_min t sat iode mode tmax hi es (pre ++ [e]) _ _ (by simp) ?_
        rintro b ⟨rfl⟩
        refine ⟨⟨pre, [], rfl, c, ?_, by simp⟩, rfl⟩
        intro x hx hc
        cases hb : best with
        | none => exact absurd hc ((h1 hb).1 x hx)
        | some b =>
          obtain ⟨⟨a, b', hl, _, ha, hb'⟩, ht⟩ := h2 b hb
          rw [ht] at c2
          rw [hl] at hx
          rcases List.mem_append.1 hx with h | h
          · exact le_trans c2 (ha x h hc)
          · rcases List.mem_cons.1 h with h | h
            · rw [h]; exact c2
            · exact le_trans c2 (le_of_lt (hb' x h hc))
      · rw [if_neg c2]
        refine findLoop_min t sat iode mode tmax hi es (pre ++ [e]) _ _ ?_ ?_
        · intro hb
          have := (h1 hb).2
          have := c.2.2.1
          exfalso
          linarith
        · intro b hb
          obtain ⟨⟨a, b', hl, hcb, ha, hb'⟩, ht⟩ := h2 b hb
          refine ⟨⟨a, b' ++ [e], by rw [hl]; simp, hcb, ha, ?_⟩, ht⟩
          intro x hx hc
          rcases List.mem_append.1 hx with h | h
          · exact hb' x h hc
          · rw [List.mem_singleton.1 h]
            rw [ht] at c2
            exact not_le.1 c2
    · rw [if_neg c]
      refine findLoop_min t sat iode mode tmax hi es (pre ++ [e]) _ _ ?_ ?_
      · intro hb
        refine ⟨?_, (h1 hb).2⟩
        intro x hx
        rcases List.mem_append.1 hx with h | h
        · exact (h1 hb).1 x h
        · rw [List.mem_singleton.1 h]; exact c
      · intro b hb
        obtain ⟨⟨a, b', hl, hcb, ha, hb'⟩, ht⟩ := h2 b hb
        refine ⟨⟨a, b' ++ [e], by rw [hl]; simp, hcb, ha, ?_⟩, ht⟩
        intro x hx hc
        rcases List.mem_append.1 hx with h | h
        · exact hb' x h hc
        · rw [List.mem_singleton.1 h] at hc
          exact absurd hc c

theorem limit_some {s : Sys} {lim : ℚ} (h : limit s = some lim) : maxDtoe s = .ok lim := by
  cases s <;> simp only [limit, Option.some.injEq, reduceCtorEq] at h <;> subst h <;> rfl

/-- **With an issue number** the first admissible ephemeris of the list is returned. -/
theorem by_issue (nav : List (Ent α)) (t : GTime) (sat iode mode : Int) {lim : ℚ}
    (hl : limit (sat2prn sat).1 = some lim) (hi : 0 ≤ iode) :
    findeph nav t sat iode mode = .ok (nav.find? (fun e => decide (Cand t sat iode mode lim e))) := by
  unfold findeph
  rw [limit_some hl]
  show Except.ok _ = _
  rw [findLoop_issue _ _ _ _ _ hi]

/-- **Without an issue number** (negative) the youngest admissible one is returned, of equals the
last, and nothing exactly when there is none. -/
theorem by_age (nav : List (Ent α)) (t : GTime) (sat iode mode : Int) {lim : ℚ}
    (hl : limit (sat2prn sat).1 = some lim) (hi : iode < 0) :
    ∃ r, findeph nav t sat iode mode = .ok r ∧
      (r = none ↔ ∀ x ∈ nav, ¬Cand t sat iode mode lim x) ∧
      (∀ e, r = some e → Youngest (Cand t sat iode mode lim) t nav e) := by
  have h := findLoop_min t sat iode mode lim hi nav [] (lim + 1) none (by simp) (by simp)
  refine ⟨findLoop t sat iode mode lim nav (lim + 1) none, ?_, ?_⟩
  · unfold findeph
    rw [limit_some hl]
    rfl
  · cases hr : findLoop t sat iode mode lim nav (lim + 1) none with
    | none =>
      rw [hr] at h
      exact ⟨⟨fun _ => by simpa using h, fun _ => rfl⟩, fun e he => by cases he⟩
    | some e =>
      rw [hr] at h
      refine ⟨⟨fun h' => (by cases h'), fun h' => ?_⟩, ?_⟩
      · obtain ⟨a, b, hl, hc, _⟩ := h
        rw [List.nil_append] at hl
        exact absurd hc (h' e (by rw [hl]; simp))
      · rintro e' ⟨rfl⟩
        simpa using h

/-- the youngest entry is determined by its position and the ages -/
theorem youngest_unique {P : Ent α → Prop} {t : GTime} {l : List (Ent α)} {e e' : Ent α}
    (h : Youngest P t l e) (h' : Youngest P t l e') : e = e' := by
  obtain ⟨a, b, hl, hp, ha, hb⟩ := h
  obtain ⟨a', b', hl', hp', ha', hb'⟩ := h'
  rw [hl] at hl'
  rcases List.append_eq_append_iff.1 hl' with ⟨c, h1, h2⟩ | ⟨c, h1, h2⟩
  · cases c with
    | nil => simp at h2; exact h2.1
    | cons x c =>
      simp only [List.cons_append, List.cons.injEq] at h2
      have m1 : e ∈ a' := by rw [h1, h2.1]; simp
      have m2 : e' ∈ b := by rw [h2.2]; simp
      have := ha' e m1 hp
      have := hb e' m2 hp'
      linarith
  · cases c with
    | nil => simp at h2; exact h2.1.symm
    | cons x c =>
      simp only [List.cons_append, List.cons.injEq] at h2
      have m1 : e' ∈ a := by rw [h1, h2.1]; simp
      have m2 : e ∈ b' := by rw [h2.2]; simp
      have := ha e' m1 hp'
      have := hb' e m2 hp
      linarith

/-- **Only matching ephemerides**: whatever is returned is an entry of the list, of the satellite
and message type asked for, within the age limit of its constellation, and of the issue asked for. -/
theorem sound (nav : List (Ent α)) (t : GTime) (sat iode mode : Int) (e : Ent α)
    (h : findeph nav t sat iode mode = .ok (some e)) :
    ∃ lim, limit (sat2prn sat).1 = some lim ∧ e ∈ nav ∧ Cand t sat iode mode lim e := by
  cases hl : limit (sat2prn sat).1 with
  | none =>
    have hs : (sat2prn sat).1 = .none := by
      cases hs : (sat2prn sat).1 <;> rw [hs] at hl <;> first | rfl | cases hl
    unfold findeph at h
    rw [hs] at h
    cases h
  | some lim =>
    refine ⟨lim, rfl, ?_⟩
    by_cases hi : 0 ≤ iode
    · rw [by_issue nav t sat iode mode hl hi] at h
      simp only [Except.ok.injEq] at h
      have h1 := List.find?_some h
      exact ⟨List.mem_of_find?_eq_some h, of_decide_eq_true h1⟩
    · obtain ⟨r, hr, _, hy⟩ := by_age nav t sat iode mode hl (by omega)
      rw [hr] at h
      simp only [Except.ok.injEq] at h
      obtain ⟨a, b, hlst, hc, _⟩ := hy e h
      exact ⟨by rw [hlst]; simp, hc⟩

/-- the lookup raises exactly for numbers that belong to no constellation -/
theorem raises_iff (nav : List (Ent α)) (t : GTime) (sat iode mode : Int) :
    findeph nav t sat iode mode = .error .keyError ↔ (sat2prn sat).1 = .none := by
  unfold findeph
  cases h : (sat2prn sat).1 <;> simp [maxDtoe, bind, Except.bind, pure, Except.pure]

/-! ### almanacs -/

def AlmCand (t : GTime) (sat : Int) (tmax : Option ℚ) (e : Ent α) : Prop :=
  e.sat = sat ∧ ∀ m, tmax = some m → age t e ≤ m

theorem almLoop_spec (t : GTime) (sat : Int) (tmax : Option ℚ) :
    ∀ (es pre : List (Ent α)) (tmin : Option ℚ) (best : Option (Ent α)),
      (best = none → (∀ x ∈ pre, ¬AlmCand t sat tmax x) ∧ tmin = tmax.map (· + 1)) →
      (∀ b, best = some b → Youngest (AlmCand t sat tmax) t pre b ∧ tmin = some (age t b)) →
      match almLoop t sat tmax es tmin best with
      | none => ∀ x ∈ pre ++ es, ¬AlmCand t sat tmax x
      | some b => Youngest (AlmCand t sat tmax) t (pre ++ es) b
  | [], pre, tmin, best, h1, h2 => by
    rw [almLoop, List.append_nil]
    cases best with
    | none => exact (h1 rfl).1
    | some b => exact (h2 b rfl).1
  | e :: es, pre, tmin, best, h1, h2 => by
    have happ : pre ++ e :: es = (pre ++ [e]) ++ es := by simp
    rw [almLoop, happ]
    have skip : ¬AlmCand t sat tmax e →
        match almLoop t sat tmax es tmin best with
        | none => ∀ x ∈ pre ++ [e] ++ es, ¬AlmCand t sat tmax x
        | some b => Youngest (AlmCand t sat tmax) t (pre ++ [e] ++ es) b := by
      intro c
      refine almLoop_spec t sat tmax es (pre ++ [e]) _ _ ?_ ?_
      · intro hb
        refine ⟨?_, (h1 hb).2⟩
        intro x hx
        rcases List.mem_append.1 hx with h | h
        · exact (h1 hb).1 x h
        · rw [List.mem_singleton.1 h]; exact c
      · intro b hb
        obtain ⟨⟨a, b', hl, hcb, ha, hb'⟩, ht⟩ := h2 b hb
        refine ⟨⟨a, b' ++ [e], by rw [hl]; simp, hcb, ha, ?_⟩, ht⟩
        intro x hx hc
        rcases List.mem_append.1 hx with h | h
        · exact hb' x h hc
        · rw [List.mem_singleton.1 h] at hc
          exact absurd hc c
    by_cases c1 : e.sat ≠ sat
    · rw [if_pos c1]
      exact skip (fun h => c1 h.1)
    · rw [if_neg c1]
      simp only
      by_cases c2 : tmax.any (fun m => decide (|timediff t e.toe| > m)) = true
      · rw [if_pos c2]
        refine skip (fun h => ?_)
        cases tmax with
        | none => simp at c2
        | some m =>
          have := h.2 m rfl
          unfold age at this
          simp only [Option.any_some, decide_eq_true_eq] at c2
          linarith
      · rw [if_neg c2]
        have c : AlmCand t sat tmax e := by
          refine ⟨not_not.1 c1, ?_⟩
          rintro m rfl
          simp only [Option.any_some, decide_eq_true_eq, gt_iff_lt, not_lt] at c2
          exact c2
        by_cases c3 : tmin.all (fun m => decide (|timediff t e.toe| ≤ m)) = true
        · rw [if_pos c3]
          refine almLoop_spec t sat tmax es (pre ++ [e]) _ _ (by simp) ?_
          rintro b ⟨rfl⟩
          refine ⟨⟨pre, [], rfl, c, ?_, by simp⟩, rfl⟩
          intro x hx hc
          cases hb : best with
          | none => exact absurd hc ((h1 hb).1 x hx)
          | some b =>
            obtain ⟨⟨a, b', hl, _, ha, hb'⟩, ht⟩ := h2 b hb
            rw [ht] at c3
            simp only [Option.all_some, decide_eq_true_eq] at c3
            rw [hl] at hx
            rcases List.mem_append.1 hx with h | h
            · exact le_trans c3 (ha x h hc)
            · rcases List.mem_cons.1 h with h | h
              · rw [h]; exact c3
              · exact le_trans c3 (le_of_lt (hb' x h hc))
        · rw [if_neg c3]
          refine almLoop_spec t sat tmax es (pre ++ [e]) _ _ ?_ ?_
          · intro hb
            exfalso
            rw [(h1 hb).2] at c3
            cases tmax with
            | none => simp at c3
            | some m =>
              have := c.2 m rfl
              unfold age at this
              simp only [Option.map_some, Option.all_some, decide_eq_true_eq, not_le] at c3
              linarith
          · intro b hb
            obtain ⟨⟨a, b', hl, hcb, ha, hb'⟩, ht⟩ := h2 b hb
            refine ⟨⟨a, b' ++ [e], by rw [hl]; simp, hcb, ha, ?_⟩, ht⟩
            intro x hx hc
            rcases List.mem_append.1 hx with h | h
            · exact hb' x h hc
            · rw [List.mem_singleton.1 h]
              rw [ht] at c3
              simp only [Option.all_some, decide_eq_true_eq, not_le] at c3
              exact c3

/-- **Almanac lookup**: the youngest almanac of the satellite within the limit (if any limit is
given), of equals the last; nothing exactly when there is none. -/
theorem almanac (alm : List (Ent α)) (t : GTime) (sat : Int) (tmax : Option ℚ) :
    (findalm alm t sat tmax = none ↔ ∀ x ∈ alm, ¬AlmCand t sat tmax x) ∧
    (∀ e, findalm alm t sat tmax = some e → Youngest (AlmCand t sat tmax) t alm e) := by
  have h := almLoop_spec t sat tmax alm [] (tmax.map (· + 1)) none (by simp) (by simp)
  unfold findalm
  cases hr : almLoop t sat tmax alm (tmax.map (· + 1)) none with
  | none =>
    rw [hr] at h
    exact ⟨⟨fun _ => by simpa using h, fun _ => rfl⟩, fun e he => by cases he⟩
  | some e =>
    rw [hr] at h
    refine ⟨⟨fun h' => (by cases h'), fun h' => ?_⟩, ?_⟩
    · obtain ⟨a, b, hl, hc, _⟩ := h
      rw [List.nil_append] at hl
      exact absurd hc (h' e (by rw [hl]; simp))
    · rintro e' ⟨rfl⟩
      simpa using h

/-! ## Concrete cases -/

def exNav : List (Ent String) :=
  [⟨5, 10, 0, ⟨7200, 0⟩, "a"⟩, ⟨5, 11, 0, ⟨14400, 0⟩, "b"⟩, ⟨6, 11, 0, ⟨10000, 0⟩, "other"⟩, ⟨5, 11, 1, ⟨10000, 0⟩, "cnav"⟩,
   ⟨5, 12, 0, ⟨7200, 0⟩, "c"⟩]

example : limit (sat2prn 5).1 = some 7201 := by decide +kernel
/-- without issue: the youngest; of the two equal ones the last -/
example : (findeph exNav ⟨9000, 0⟩ 5).map (·.map (·.tag)) = .ok (some "c") := by decide +kernel
/-- with issue: the first of this issue within the limit, even if a younger one exists -/
example : (findeph exNav ⟨9000, 0⟩ 5 11).map (·.map (·.tag)) = .ok (some "b") := by decide +kernel
example : (findeph exNav ⟨9000, 0⟩ 5 13).map (·.map (·.tag)) = .ok none := by decide +kernel
example : (findeph exNav ⟨9000, 0⟩ 1000).map (·.map (·.tag)) = .error .keyError := by decide +kernel
example : (findalm exNav ⟨9000, 0⟩ 6 (some 500)).map (·.tag) = none := by decide +kernel

end Verif.C43
