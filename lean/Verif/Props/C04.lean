import Verif.Lemmas.Time
import Mathlib.Tactic.NormNum
/-!
# C04 Time addition and difference are inverse and normalised
-/

namespace Verif.C04
open Verif.Time

/-- Adding `s` seconds moves the epoch by exactly `s` seconds. -/
theorem timediff_timeadd (t : GTime) (s : ℚ) : timediff (timeadd t s) t = s := by
  rw [timediff_tot, tot_timeadd]; ring

/-- The result of an addition is integer seconds plus a fraction in [0,1). -/
theorem timeadd_normalised (t : GTime) (s : ℚ) :
    0 ≤ (timeadd t s).sec ∧ (timeadd t s).sec < 1 := norm_timeadd t s

/-- Adding the difference of two epochs to the second gives the first. -/
theorem timeadd_timediff (a b : GTime) (h0 : 0 ≤ a.sec) (h1 : a.sec < 1) :
    timeadd b (timediff a b) = a := by
  apply ext_tot (norm_timeadd _ _) ⟨h0, h1⟩
  rw [tot_timeadd, timediff_tot]; ring

example : timeadd ⟨10, 3 / 4⟩ (timediff ⟨7, 1 / 4⟩ ⟨10, 3 / 4⟩) = ⟨7, 1 / 4⟩ :=
  timeadd_timediff ⟨7, 1 / 4⟩ ⟨10, 3 / 4⟩ (by norm_num) (by norm_num)

/-- Adding zero to a normalised epoch changes nothing. -/
theorem timeadd_zero (t : GTime) (h0 : 0 ≤ t.sec) (h1 : t.sec < 1) : timeadd t 0 = t := by
  apply ext_tot (norm_timeadd _ _) ⟨h0, h1⟩
  rw [tot_timeadd]; ring

/-- Additions compose. -/
theorem timeadd_timeadd (t : GTime) (a b : ℚ) : timeadd (timeadd t a) b = timeadd t (a + b) := by
  apply ext_tot (norm_timeadd _ _) (norm_timeadd _ _)
  simp only [tot_timeadd]; ring

/-- Additions commute. -/
theorem timeadd_comm (t : GTime) (a b : ℚ) :
    timeadd (timeadd t a) b = timeadd (timeadd t b) a := by
  rw [timeadd_timeadd, timeadd_timeadd, add_comm]

/-- Any non-empty sequence of additions is one addition of the total offset. -/
theorem timeadd_seq (t : GTime) (a : ℚ) (l : List ℚ) :
    (a :: l).foldl timeadd t = timeadd t (a :: l).sum := by
  induction l generalizing t a with
  | nil => simp
  | cons b l ih =>
    rw [List.foldl_cons, ih, timeadd_timeadd]
    simp only [List.sum_cons]

example : [1 / 2, -3, 1 / 2].foldl timeadd ⟨5, 0⟩ = timeadd ⟨5, 0⟩ (-2) := by
  rw [timeadd_seq]; norm_num

/-- Differences chain. -/
theorem timediff_chain (a b c : GTime) : timediff a b + timediff b c = timediff a c := by
  simp only [timediff_tot]; ring

/-- The `>` operator on normalised epochs agrees with the sign of the difference. -/
theorem gt_iff_timediff_pos (a b : GTime) (ha0 : 0 ≤ a.sec) (ha1 : a.sec < 1) (hb0 : 0 ≤ b.sec)
    (hb1 : b.sec < 1) : a.gt b = true ↔ 0 < timediff a b := by
  obtain ⟨ta, sa⟩ := a
  obtain ⟨tb, sb⟩ := b
  simp only [GTime.gt, timediff, Bool.or_eq_true, Bool.and_eq_true, decide_eq_true_eq,
    beq_iff_eq] at *
  constructor
  · rintro (h | ⟨rfl, h⟩)
    · have : (1 : ℚ) ≤ ((ta - tb : Int) : ℚ) := by
        have : 1 ≤ ta - tb := by omega
        exact_mod_cast this
      linarith
    · simp only [sub_self, Int.cast_zero]; linarith
  · intro h
    by_cases hlt : tb < ta
    · exact Or.inl hlt
    · right
      have h1 : (-1 : ℚ) < ((ta - tb : Int) : ℚ) := by linarith
      have h1' : -1 < ta - tb := by exact_mod_cast h1
      have : ta = tb := by omega
      subst this
      simp only [sub_self, Int.cast_zero] at h
      exact ⟨rfl, by linarith⟩

/-- Counterexample showing that normalisation matters for `>`: a non-normalised pair. -/
example : GTime.gt ⟨0, 5⟩ ⟨1, 0⟩ = false ∧ 0 < timediff ⟨0, 5⟩ ⟨1, 0⟩ := by
  constructor
  · rfl
  · norm_num [timediff]

end Verif.C04
