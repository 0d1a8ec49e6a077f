import Verif.Model.MeasVar
import Verif.Lemmas.Post
import Mathlib.Tactic.Positivity
import Mathlib.Tactic.Linarith
import Mathlib.Tactic.FieldSimp
import Mathlib.Tactic.NormNum
import Mathlib.Tactic.Ring
import Mathlib.Analysis.Real.Pi.Bounds
/-!
# C113 Variances of the measurements
-/
namespace Verif.C113
open Verif Verif.MeasVar Real

/-- 0.1 degree -/
noncomputable def low : ℝ := π / 1800

theorem sEl_eq (el : ℝ) : sEl el = max (sin el) low := by
  unfold sEl low
  congr 1
  ring

theorem low_pos : 0 < low := by
  unfold low
  positivity

theorem sEl_pos (el : ℝ) : 0 < sEl el := by
  rw [sEl_eq]
  exact lt_of_lt_of_le low_pos (le_max_right _ _)

/-- specification: the variance of a measurement whose error has a constant part and one growing with the length of the
path through the atmosphere -/
noncomputable def variance (ratio e1 e2 s : ℝ) : ℝ := ratio ^ 2 * (e1 ^ 2 + e2 ^ 2 / s ^ 2)

theorem elVar_eq (k e1 e2 el : ℝ) : elVar k e1 e2 el = variance k e1 e2 (max (sin el) low) := by
  unfold elVar variance
  rw [sEl_eq]
  ring

/-- **phases and ranges**: the variance of a range is that of the phase times the square of the ratio of its signal -/
theorem code_phase {nf : Nat} {eratio : List ℝ} (hl : eratio.length = nf) (e1 e2 el : ℝ) (f : Nat) (hf : f < nf) :
    varerrPpp nf eratio e1 e2 el f = .ok (variance 1 e1 e2 (max (sin el) low)) ∧
    varerrPpp nf eratio e1 e2 el (f + nf) = .ok (variance (eratio.getD f 0) e1 e2 (max (sin el) low)) := by
  have h1 : ¬ f ≥ nf := by omega
  have h2 : f < eratio.length := by omega
  constructor
  · unfold varerrPpp
    rw [if_neg h1]
    change (Except.ok (elVar 1 e1 e2 el) : Py ℝ) = _
    rw [elVar_eq]
  · unfold varerrPpp
    rw [if_pos (by omega : f + nf ≥ nf), Nat.add_sub_cancel]
    simp only [pyGet, List.getElem?_eq_getElem h2, Py.okBind]
    change (Except.ok (elVar _ e1 e2 el) : Py ℝ) = _
    rw [elVar_eq]
    simp [h2]

/-- where the sine of the elevation is at least 0.1 degree (as an angle) it is used -/
theorem above {k e1 e2 el : ℝ} (hs : low ≤ sin el) :
    elVar k e1 e2 el = k ^ 2 * (e1 ^ 2 + e2 ^ 2 / sin el ^ 2) := by
  rw [elVar_eq, max_eq_left hs, variance]

/-- below 0.1 degree (and below the horizon) the variance does not depend on the elevation -/
theorem below {k e1 e2 el : ℝ} (h1 : -(π / 2) ≤ el) (h2 : el ≤ low) : elVar k e1 e2 el = k ^ 2 * (e1 ^ 2 + e2 ^ 2 / low ^ 2) := by
  rw [elVar_eq, variance]
  have : sin el ≤ low := by
    by_cases h : 0 ≤ el
    · exact (sin_le h).trans h2
    · have h0 : el ≤ 0 := le_of_not_ge h
      exact (sin_nonpos_of_nonpos_of_neg_pi_le h0 (by linarith [pi_pos])).trans low_pos.le
  rw [max_eq_right this]

/-- **positive**, so that the measurement can be weighted -/
theorem positive {k e1 e2 : ℝ} (hk : k ≠ 0) (he : e1 ≠ 0 ∨ e2 ≠ 0) (el : ℝ) : 0 < elVar k e1 e2 el := by
  unfold elVar
  rcases he with h | h
  · have : 0 < (k * e1) ^ 2 := by positivity
    have : 0 ≤ (k * e2 / sEl el) ^ 2 := sq_nonneg _
    linarith
  · have := sEl_pos el
    have : 0 < (k * e2 / sEl el) ^ 2 := by positivity
    have : 0 ≤ (k * e1) ^ 2 := sq_nonneg _
    linarith

/-- **a higher satellite has no larger variance** -/
theorem decreasing {k e1 e2 a b : ℝ} (ha : -(π / 2) ≤ a) (hab : a ≤ b) (hb : b ≤ π / 2) : elVar k e1 e2 b ≤ elVar k e1 e2 a := by
  rw [elVar_eq, elVar_eq, variance, variance]
  have hs : max (sin a) low ≤ max (sin b) low := max_le_max (sin_le_sin_of_le_of_le_pi_div_two ha hb hab) le_rfl
  have h0 : 0 < max (sin a) low := lt_of_lt_of_le low_pos (le_max_right _ _)
  gcongr

/-! ## Differential positioning -/

theorem obliquity_some {el h : ℝ} (h1 : 0 < re + h) (h2 : |re * cos el| < re + h) :
    ∃ q, 0 < q ∧ q = 1 - (re * cos el / (re + h)) ^ 2 ∧ obliquity el h = some (1 / sqrt q) := by
  have hq : 0 < 1 - (re * cos el / (re + h)) ^ 2 := by
    have : |re * cos el / (re + h)| < 1 := by
      rw [abs_div, abs_of_pos h1, div_lt_one h1]
      exact h2
    have := (sq_lt_one_iff_abs_lt_one _).mpr this
    linarith
  refine ⟨_, hq, rfl, ?_⟩
  unfold obliquity
  rw [if_neg h1.ne']
  simp only
  rw [if_pos hq]

/-- **when there is a variance**: the receiver is above the point where the line of sight would graze the ellipsoid -/
theorem finite_iff {el h b : ℝ} (hh : 0 < re + h) (h0 : 0 ≤ el) (h1 : el ≤ π / 2) :
    (∃ v, vardgps el h b = some v) ↔ re * cos el < re + h := by
  have hc : 0 ≤ re * cos el := mul_nonneg (by norm_num [re]) (cos_nonneg_of_neg_pi_div_two_le_of_le (by linarith [pi_pos]) h1)
  constructor
  · rintro ⟨v, hv⟩
    by_contra hn
    have hn' : re + h ≤ re * cos el := le_of_not_gt hn
    have : obliquity el h = none := by
      unfold obliquity
      rw [if_neg hh.ne']
      simp only
      rw [if_neg]
      have : 1 ≤ re * cos el / (re + h) := (one_le_div hh).mpr hn'
      nlinarith
    unfold vardgps at hv
    rw [this] at hv
    exact absurd hv (by simp)
  · intro hlt
    obtain ⟨q, -, -, hq⟩ := obliquity_some hh (by rwa [abs_of_nonneg hc])
    unfold vardgps
    rw [hq]
    exact ⟨_, rfl⟩

/-- at sea level the factor is the reciprocal of the sine of the elevation: it has no bound near the horizon -/
theorem sea_level {el : ℝ} (h0 : 0 < el) (h1 : el ≤ π / 2) : obliquity el 0 = some (1 / sin el) := by
  have hs : 0 < sin el := sin_pos_of_pos_of_lt_pi h0 (by linarith [pi_pos])
  have hre : re ≠ 0 := by norm_num [re]
  have e : 1 - (re * cos el / (re + 0)) ^ 2 = sin el ^ 2 := by
    rw [add_zero, mul_div_cancel_left₀ _ hre, sin_sq]
  unfold obliquity
  rw [if_neg (by simpa using hre)]
  simp only [e]
  rw [if_pos (by positivity), sqrt_sq hs.le]

/-- specification: the terms of the variance -/
noncomputable def terms (d f b : ℝ) : ℝ :=
  ((0.16 + 1.07 * exp (-d / 15.5)) ^ 2 + 0.08 ^ 2) + (0.11 ^ 2 + (0.13 + 0.53 * exp (-d / 10)) ^ 2) + (f * 0.004 * (b + 14)) ^ 2

theorem vardgps_eq {el h b f : ℝ} (hf : obliquity el h = some f) : vardgps el h b = some (terms (el * (180 / π)) f b) := by
  unfold vardgps
  rw [hf]
  change some _ = _
  unfold terms
  norm_num

/-- **never below** the square of 24 cm, and of the ionospheric term of the baseline -/
theorem lower_bound {el h b v : ℝ} (hv : vardgps el h b = some v) : 0.061 ≤ v := by
  cases ho : obliquity el h with
  | none => rw [vardgps, ho] at hv; exact absurd hv (by simp)
  | some f =>
    rw [vardgps_eq ho] at hv
    obtain rfl := Option.some.inj hv
    unfold terms
    have h1 := exp_pos (-(el * (180 / π)) / 15.5)
    have h2 := exp_pos (-(el * (180 / π)) / 10)
    have h3 := sq_nonneg (f * 0.004 * (b + 14))
    nlinarith

/-- **a higher satellite has no larger variance** -/
theorem dgps_decreasing {a c h b va vc : ℝ} (hh : 0 < re + h) (ha : 0 ≤ a) (hac : a ≤ c) (hc : c ≤ π / 2)
    (h1 : vardgps a h b = some va) (h2 : vardgps c h b = some vc) : vc ≤ va := by
  have la := (finite_iff hh ha (hac.trans hc)).mp ⟨va, h1⟩
  have lc := (finite_iff hh (ha.trans hac) hc).mp ⟨vc, h2⟩
  have na : 0 ≤ re * cos a :=
    mul_nonneg (by norm_num [re]) (cos_nonneg_of_neg_pi_div_two_le_of_le (by linarith [pi_pos]) (hac.trans hc))
  have nc : 0 ≤ re * cos c :=
    mul_nonneg (by norm_num [re]) (cos_nonneg_of_neg_pi_div_two_le_of_le (by linarith [pi_pos]) hc)
  have hcos : re * cos c ≤ re * cos a :=
    mul_le_mul_of_nonneg_left (cos_le_cos_of_nonneg_of_le_pi ha (by linarith [pi_pos]) hac) (by norm_num [re])
  obtain ⟨qa, pa, ea, oa⟩ := obliquity_some hh (by rwa [abs_of_nonneg na])
  obtain ⟨qc, pc, ec, oc⟩ := obliquity_some hh (by rwa [abs_of_nonneg nc])
  have hq : qa ≤ qc := by
    rw [ea, ec]
    have : re * cos c / (re + h) ≤ re * cos a / (re + h) := by gcongr
    have h0 : 0 ≤ re * cos c / (re + h) := by positivity
    nlinarith
  rw [vardgps_eq oa] at h1
  rw [vardgps_eq oc] at h2
  obtain rfl := Option.some.inj h1
  obtain rfl := Option.some.inj h2
  have hf : 1 / sqrt qc ≤ 1 / sqrt qa := by
    have := sqrt_pos.mpr pa
    have := sqrt_le_sqrt hq
    gcongr
  have f0 : 0 ≤ 1 / sqrt qc := by positivity
  have hd : a * (180 / π) ≤ c * (180 / π) := by
    have := pi_pos
    gcongr
  unfold terms
  have e1 : exp (-(c * (180 / π)) / 15.5) ≤ exp (-(a * (180 / π)) / 15.5) := exp_le_exp.mpr (by gcongr)
  have e2 : exp (-(c * (180 / π)) / 10) ≤ exp (-(a * (180 / π)) / 10) := exp_le_exp.mpr (by gcongr)
  have p1 := exp_pos (-(c * (180 / π)) / 15.5)
  have p2 := exp_pos (-(c * (180 / π)) / 10)
  have s1 : (0.16 + 1.07 * exp (-(c * (180 / π)) / 15.5)) ^ 2 ≤ (0.16 + 1.07 * exp (-(a * (180 / π)) / 15.5)) ^ 2 := by gcongr
  have s2 : (0.13 + 0.53 * exp (-(c * (180 / π)) / 10)) ^ 2 ≤ (0.13 + 0.53 * exp (-(a * (180 / π)) / 10)) ^ 2 := by gcongr
  have s3 : (1 / sqrt qc * 0.004 * (b + 14)) ^ 2 ≤ (1 / sqrt qa * 0.004 * (b + 14)) ^ 2 := by
    rw [mul_pow, mul_pow _ (b + 14)]
    have : (1 / sqrt qc * 0.004) ^ 2 ≤ (1 / sqrt qa * 0.004) ^ 2 := by gcongr
    exact mul_le_mul_of_nonneg_right this (sq_nonneg _)
  linarith

/-- **a longer baseline has a larger variance** -/
theorem baseline {el h b c vb vc : ℝ} (hb : 0 ≤ b) (hbc : b < c) (h1 : vardgps el h b = some vb) (h2 : vardgps el h c = some vc) :
    vb < vc := by
  cases ho : obliquity el h with
  | none => rw [vardgps, ho] at h1; exact absurd h1 (by simp)
  | some f =>
    have hf : 0 < f := by
      unfold obliquity at ho
      split at ho
      · exact absurd ho (by simp)
      · simp only at ho
        split at ho
        · rename_i hq
          obtain rfl := Option.some.inj ho
          have := sqrt_pos.mpr hq
          positivity
        · exact absurd ho (by simp)
    rw [vardgps_eq ho] at h1 h2
    obtain rfl := Option.some.inj h1
    obtain rfl := Option.some.inj h2
    unfold terms
    have : (f * 0.004 * (b + 14)) ^ 2 < (f * 0.004 * (c + 14)) ^ 2 := by gcongr
    linarith

/-- **which variance**: with differential corrections of any kind (SBAS as well) that of the DGPS service, the settings of the
receiver (`err`, `eratio`) having no effect; otherwise the one by elevation -/
theorem standard_choice (smode : Nat) (h b : ℝ) (eratio : List ℝ) (e1 e2 el : ℝ) (f : Nat) (hf : f < eratio.length) :
    varerrStd smode h b eratio e1 e2 el f =
      .ok (if smode = 2 then vardgps el h b else some (variance (eratio.getD f 0) e1 e2 (max (sin el) low))) := by
  unfold varerrStd
  split
  · rfl
  · simp only [pyGet, List.getElem?_eq_getElem hf, Py.okBind]
    change (Except.ok (some (elVar _ e1 e2 el)) : Py (Option ℝ)) = _
    rw [elVar_eq]
    simp [hf]

example : ∃ v, vardgps (π / 6) 100 20 = some v := by
  refine (finite_iff (by norm_num [re]) (by positivity) (by linarith [pi_pos])).mpr ?_
  have := cos_le_one (π / 6)
  unfold re
  linarith
/-- 400 m below the ellipsoid a satellite at the horizon has no variance -/
example : ¬ ∃ v, vardgps 0 (-400) 20 = some v := by
  rw [finite_iff (by norm_num [re]) le_rfl (by positivity)]
  norm_num [re]
example : variance 50 0.01 0.005 (1 / 2) = 0.5 := by norm_num [variance]

end Verif.C113
