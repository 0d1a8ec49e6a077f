import Verif.Model.IonoDelay
import Mathlib.Analysis.SpecialFunctions.Trigonometric.Bounds
import Mathlib.Analysis.SpecialFunctions.Trigonometric.Arctan
import Mathlib.Analysis.Real.Pi.Bounds
import Mathlib.Tactic.Ring
import Mathlib.Tactic.Linarith
import Mathlib.Tactic.FieldSimp
import Mathlib.Tactic.LinearCombination
/-!
# C96 Ionospheric delays

Specification: the point where the line of sight meets the sphere of the ionosphere, in vectors; bounds and shape of the broadcast
model.
-/

namespace Verif.C96
open Real Verif Verif.Kepler Verif.IonoDelay

/-! ## Pierce point -/

noncomputable def east (lon : ℝ) : V3 := ⟨-sin lon, cos lon, 0⟩
noncomputable def north (lat lon : ℝ) : V3 := ⟨-sin lat * cos lon, -sin lat * sin lon, cos lat⟩
noncomputable def up (lat lon : ℝ) : V3 := ⟨cos lat * cos lon, cos lat * sin lon, sin lat⟩

/-- direction to the satellite -/
noncomputable def los (lat lon az el : ℝ) : V3 :=
  V3.add (comb (cos el * sin az) (east lon) (cos el * cos az) (north lat lon)) (comb (sin el) (up lat lon) 0 (up lat lon))

/-- a thin ionosphere: its height is at most 0.064 times the radius of the earth -/
def Thin (re hion : ℝ) : Prop := 0 < re ∧ 0 < hion ∧ (re + hion) * cos (π / 9) ≤ re

theorem ratio {re hion el : ℝ} (h1 : 0 < re) (h2 : 0 < hion) (he : 0 ≤ cos el) :
    0 ≤ re / (re + hion) * cos el ∧ re / (re + hion) * cos el ≤ cos el ∧ re / (re + hion) * cos el < 1 := by
  have h3 : re / (re + hion) < 1 := by rw [div_lt_one (by linarith)]; linarith
  have h4 : 0 < re / (re + hion) := by positivity
  have h5 := cos_le_one el
  refine ⟨by positivity, by nlinarith, by nlinarith⟩

/-- the angle between the verticals of receiver and pierce point: geometry of the triangle -/
theorem triangle {re hion el : ℝ} (h1 : 0 < re) (h2 : 0 < hion) (e0 : 0 ≤ el) (e1 : el ≤ π / 2) :
    let ap := central el re hion
    let rho := (re + hion) * sqrt (1 - (re / (re + hion) * cos el) ^ 2) - re * sin el
    (re + hion) * cos ap = re + rho * sin el ∧ (re + hion) * sin ap = rho * cos el ∧ 0 ≤ rho ∧ 0 ≤ ap ∧ ap ≤ π / 2 := by
  intro ap rho
  have hc : 0 ≤ cos el := cos_nonneg_of_neg_pi_div_two_le_of_le (by linarith [pi_pos]) e1
  have hs : 0 ≤ sin el := sin_nonneg_of_nonneg_of_le_pi e0 (by linarith [pi_pos])
  obtain ⟨r1, r2, r3⟩ := ratio (el := el) h1 h2 hc
  have hsum : 0 < re + hion := by linarith
  have hasin : sin (arcsin (re / (re + hion) * cos el)) = re / (re + hion) * cos el := sin_arcsin (by linarith) r3.le
  have hacos := cos_arcsin (re / (re + hion) * cos el)
  have hw : (re + hion) * (re / (re + hion) * cos el) = re * cos el := by field_simp
  have hcs : cos ap = sin el * sqrt (1 - (re / (re + hion) * cos el) ^ 2) + cos el * (re / (re + hion) * cos el) := by
    simp only [ap, central]
    rw [sub_sub, cos_pi_div_two_sub, sin_add, hasin, hacos]
  have hsn : sin ap = cos el * sqrt (1 - (re / (re + hion) * cos el) ^ 2) - sin el * (re / (re + hion) * cos el) := by
    simp only [ap, central]
    rw [sub_sub, sin_pi_div_two_sub, cos_add, hasin, hacos]
  have hq : sqrt (1 - (re / (re + hion) * cos el) ^ 2) ^ 2 = 1 - (re / (re + hion) * cos el) ^ 2 := sq_sqrt (by nlinarith)
  have h3 := sin_sq_add_cos_sq el
  refine ⟨?_, ?_, ?_, ?_, ?_⟩
  · rw [hcs]
    simp only [rho]
    linear_combination cos el * hw + re * h3
  · rw [hsn]
    simp only [rho]
    linear_combination (-sin el) * hw
  · simp only [rho]
    have : re * sin el ≤ (re + hion) * sqrt (1 - (re / (re + hion) * cos el) ^ 2) := by
      refine (sq_le_sq₀ (by positivity) (by positivity)).1 ?_
      rw [mul_pow, mul_pow, hq]
      have : (re + hion) ^ 2 * (1 - (re / (re + hion) * cos el) ^ 2) = (re + hion) ^ 2 - (re * cos el) ^ 2 := by
        rw [← hw]
        ring
      rw [this]
      nlinarith
    linarith
  · simp only [ap, central]
    have : arcsin (re / (re + hion) * cos el) ≤ arcsin (cos el) := monotone_arcsin r2
    rw [show cos el = sin (π / 2 - el) from (sin_pi_div_two_sub el).symm, arcsin_sin (by linarith) (by linarith)] at this
    rw [show cos el = sin (π / 2 - el) from (sin_pi_div_two_sub el).symm]
    linarith
  · simp only [ap, central]
    have := arcsin_nonneg.2 r1
    linarith

/-- the angle is at most 20 degrees -/
theorem small {re hion el : ℝ} (h : Thin re hion) (e0 : 0 ≤ el) (e1 : el ≤ π / 2) : central el re hion ≤ π / 9 := by
  obtain ⟨h1, h2, h3⟩ := h
  obtain ⟨t1, -, t3, t4, t5⟩ := triangle h1 h2 e0 e1
  have hs : 0 ≤ sin el := sin_nonneg_of_nonneg_of_le_pi e0 (by linarith [pi_pos])
  have hpi := pi_pos
  by_contra hc
  have := cos_lt_cos_of_nonneg_of_le_pi (by linarith) (by linarith) (not_le.1 hc)
  have h4 := mul_lt_mul_of_pos_left this (show 0 < re + hion by linarith)
  have := mul_nonneg t3 hs
  linarith

theorem d2r_lt : 70 * d2r < 7 * π / 18 := by
  have := pi_gt_d20
  unfold d2r
  norm_num at this ⊢
  linarith

/-- the test for the far side is right -/
theorem far_iff {lat az ap : ℝ} (hlat : |lat| < π / 2) (ha0 : 0 ≤ ap) (ha : ap ≤ π / 9) :
    farSide lat az ap ↔ cos lat * cos ap - sin lat * (sin ap * cos az) < 0 := by
  have hpi := pi_pos
  obtain ⟨l1, l2⟩ := abs_lt.1 hlat
  have hca : 0 < cos ap := cos_pos_of_mem_Ioo ⟨by linarith, by linarith⟩
  have hsa : 0 ≤ sin ap := sin_nonneg_of_nonneg_of_le_pi ha0 (by linarith)
  have hcl : 0 < cos lat := cos_pos_of_mem_Ioo ⟨l1, l2⟩
  have hd : 0 < d2r := by unfold d2r; norm_num
  have hd2 := d2r_lt
  have hmid : |lat| ≤ 70 * d2r → 0 ≤ cos lat * cos ap - sin lat * (sin ap * cos az) := by
    intro hm
    have h1 : 0 ≤ cos (|lat| + ap) :=
      cos_nonneg_of_neg_pi_div_two_le_of_le (by have := abs_nonneg lat; linarith) (by linarith)
    rw [cos_add, cos_abs] at h1
    have h2 : sin lat * (sin ap * cos az) ≤ sin |lat| * sin ap := by
      have h3 : |sin lat| = sin |lat| := abs_sin_eq_sin_abs_of_abs_le_pi (by linarith)
      calc sin lat * (sin ap * cos az) ≤ |sin lat * (sin ap * cos az)| := le_abs_self _
        _ = sin |lat| * (sin ap * |cos az|) := by rw [abs_mul, abs_mul, abs_of_nonneg hsa, h3]
        _ ≤ sin |lat| * (sin ap * 1) := by
            refine mul_le_mul_of_nonneg_left (mul_le_mul_of_nonneg_left (abs_cos_le_one az) hsa) ?_
            rw [← h3]
            exact abs_nonneg _
        _ = _ := by ring
    linarith
  constructor
  · rintro (⟨h1, h2⟩ | ⟨h1, h2⟩)
    · have hsl : 0 < sin lat := sin_pos_of_pos_of_lt_pi (by nlinarith) (by linarith)
      rw [tan_pi_div_two_sub, tan_eq_sin_div_cos, tan_eq_sin_div_cos, inv_div, div_mul_eq_mul_div, div_lt_div_iff₀ hsl hca] at h2
      linarith
    · have hsl : sin lat < 0 := sin_neg_of_neg_of_neg_pi_lt (by nlinarith) (by linarith)
      rw [show π / 2 + lat = π / 2 - (-lat) by ring, tan_pi_div_two_sub, tan_eq_sin_div_cos, tan_eq_sin_div_cos, inv_div, sin_neg, cos_neg,
        ← neg_div, div_mul_eq_mul_div, div_lt_div_iff₀ (by linarith) hca] at h2
      linarith
  · intro hC
    by_cases hm : |lat| ≤ 70 * d2r
    · exact absurd hC (not_lt.2 (hmid hm))
    · rcases lt_or_ge lat 0 with hn | hp
      · right
        rw [abs_of_neg hn] at hm
        have hsl : sin lat < 0 := sin_neg_of_neg_of_neg_pi_lt hn (by linarith)
        refine ⟨by linarith, ?_⟩
        rw [show π / 2 + lat = π / 2 - (-lat) by ring, tan_pi_div_two_sub, tan_eq_sin_div_cos, tan_eq_sin_div_cos, inv_div, sin_neg, cos_neg,
          ← neg_div, div_mul_eq_mul_div, div_lt_div_iff₀ (by linarith) hca]
        linarith
      · left
        rw [abs_of_nonneg hp] at hm
        have hsl : 0 < sin lat := sin_pos_of_pos_of_lt_pi (by nlinarith) (by linarith)
        refine ⟨by linarith, ?_⟩
        rw [tan_pi_div_two_sub, tan_eq_sin_div_cos, tan_eq_sin_div_cos, inv_div, div_mul_eq_mul_div, div_lt_div_iff₀ hsl hca]
        linarith

/-- latitude and longitude difference of a unit vector with components `S`, `C`, `E` -/
theorem sphere {S C E : ℝ} (hu : S ^ 2 + C ^ 2 + E ^ 2 = 1) (hp : cos (arcsin S) ≠ 0) :
    sin (arcsin S) = S ∧ cos (arcsin S) * sin (arcsin (E / cos (arcsin S))) = E ∧
      cos (arcsin S) * cos (arcsin (E / cos (arcsin S))) = |C| := by
  have hC := sq_nonneg C
  have hE := sq_nonneg E
  have hS : |S| ≤ 1 := by
    rw [abs_le_one_iff_mul_self_le_one]
    linarith [pow_two S]
  have hs := sin_arcsin (abs_le.1 hS).1 (abs_le.1 hS).2
  have hcp : 0 < cos (arcsin S) := lt_of_le_of_ne (cos_arcsin_nonneg S) (Ne.symm hp)
  have hcc : cos (arcsin S) ^ 2 = C ^ 2 + E ^ 2 := by
    have := sin_sq_add_cos_sq (arcsin S)
    rw [hs] at this
    linarith
  generalize cos (arcsin S) = c at *
  have hel : |E / c| ≤ 1 := by
    rw [abs_div, abs_of_pos hcp, div_le_one hcp]
    exact abs_le_of_sq_le_sq (by linarith) hcp.le
  have hsl := sin_arcsin (abs_le.1 hel).1 (abs_le.1 hel).2
  refine ⟨hs, by rw [hsl]; field_simp, ?_⟩
  have hn := cos_arcsin_nonneg (E / c)
  have i5 := sin_sq_add_cos_sq (arcsin (E / c))
  rw [hsl] at i5
  generalize cos (arcsin (E / c)) = d at *
  have i6 : (c * d) ^ 2 = |C| ^ 2 := by
    rw [sq_abs, mul_pow]
    have : (E / c) ^ 2 * c ^ 2 = E ^ 2 := by field_simp
    linear_combination c ^ 2 * i5 - this + hcc
  exact (pow_left_inj₀ (by positivity) (abs_nonneg _) two_ne_zero).1 i6

/-- the unit vector at the angle `ap` from the vertical, in the direction of the azimuth -/
theorem meets (lat lon az el ap re R rho : ℝ) (t1 : R * cos ap = re + rho * sin el) (t2 : R * sin ap = rho * cos el) :
    comb R ⟨(cos lat * cos ap - sin lat * (sin ap * cos az)) * cos lon - sin ap * sin az * sin lon,
      (cos lat * cos ap - sin lat * (sin ap * cos az)) * sin lon + sin ap * sin az * cos lon,
      sin lat * cos ap + cos lat * sin ap * cos az⟩ 0
      ⟨(cos lat * cos ap - sin lat * (sin ap * cos az)) * cos lon - sin ap * sin az * sin lon,
      (cos lat * cos ap - sin lat * (sin ap * cos az)) * sin lon + sin ap * sin az * cos lon,
      sin lat * cos ap + cos lat * sin ap * cos az⟩ = comb re (up lat lon) rho (los lat lon az el) := by
  unfold comb los V3.add comb east north up
  simp only
  ext
  · simp only
    linear_combination (cos lat * cos lon) * t1 + (-(sin lat * cos az * cos lon) - sin az * sin lon) * t2
  · simp only
    linear_combination (cos lat * sin lon) * t1 + (-(sin lat * cos az * sin lon) + sin az * cos lon) * t2
  · simp only
    linear_combination sin lat * t1 + (cos lat * cos az) * t2

theorem dot_los (lat lon az el ap : ℝ) :
    dot ⟨(cos lat * cos ap - sin lat * (sin ap * cos az)) * cos lon - sin ap * sin az * sin lon,
      (cos lat * cos ap - sin lat * (sin ap * cos az)) * sin lon + sin ap * sin az * cos lon,
      sin lat * cos ap + cos lat * sin ap * cos az⟩ (los lat lon az el) = cos ap * sin el + sin ap * cos el := by
  have i1 := sin_sq_add_cos_sq lat
  have i2 := sin_sq_add_cos_sq lon
  have i4 := sin_sq_add_cos_sq az
  unfold dot los V3.add comb east north up
  simp only
  have a1 : cos lat ^ 2 = 1 - sin lat ^ 2 := by linarith
  have a2 : cos lon ^ 2 = 1 - sin lon ^ 2 := by linarith
  have a4 : cos az ^ 2 = 1 - sin az ^ 2 := by linarith
  ring_nf
  simp only [a1, a2, a4]
  ring

open Classical in
/-- **Pierce point**: the line of sight meets the sphere of the ionosphere in the point returned, and the slant factor is the inverse
cosine of the angle between the line of sight and the vertical there -/
theorem pierce {lat lon az el re hion : ℝ} (h : Thin re hion) (hlat : |lat| < π / 2) (e0 : 0 ≤ el) (e1 : el ≤ π / 2)
    {sf latp lonp : ℝ} (hr : ionppp lat lon az el re hion = .ok (sf, latp, lonp)) :
    ∃ rho, 0 ≤ rho ∧ comb (re + hion) (up latp lonp) 0 (up latp lonp) = comb re (up lat lon) rho (los lat lon az el) ∧
      1 ≤ sf ∧ sf * dot (up latp lonp) (los lat lon az el) = 1 := by
  have hpi := pi_pos
  obtain ⟨h1, h2, h3⟩ := h
  obtain ⟨t1, t2, t3, t4, t5⟩ := triangle h1 h2 e0 e1
  have ha := small ⟨h1, h2, h3⟩ e0 e1
  have hfar := far_iff (az := az) hlat t4 ha
  have hc : 0 ≤ cos el := cos_nonneg_of_neg_pi_div_two_le_of_le (by linarith [pi_pos]) e1
  obtain ⟨r1, r2, r3⟩ := ratio (el := el) h1 h2 hc
  have hrr : re / (re + hion) * cos el * (re / (re + hion) * cos el) < 1 :=
    mul_lt_one_of_nonneg_of_lt_one_left r1 r3 r3.le
  unfold ionppp at hr
  simp only at hr
  generalize central el re hion = ap at *
  obtain ⟨S, hS⟩ : ∃ S, S = sin lat * cos ap + cos lat * sin ap * cos az := ⟨_, rfl⟩
  obtain ⟨C, hC⟩ : ∃ C, C = cos lat * cos ap - sin lat * (sin ap * cos az) := ⟨_, rfl⟩
  obtain ⟨E, hE⟩ : ∃ E, E = sin ap * sin az := ⟨_, rfl⟩
  rw [← hC] at hfar
  rw [← hS, ← hE] at hr
  have i1 := sin_sq_add_cos_sq lat
  have i2 := sin_sq_add_cos_sq lon
  have i3 := sin_sq_add_cos_sq ap
  have i4 := sin_sq_add_cos_sq az
  have i5 := sin_sq_add_cos_sq el
  have hunit : S ^ 2 + C ^ 2 + E ^ 2 = 1 := by
    rw [hS, hC, hE]
    linear_combination (cos ap ^ 2 + sin ap ^ 2 * cos az ^ 2) * i1 + i3 + sin ap ^ 2 * i4
  by_cases g1 : cos (arcsin S) = 0
  · rw [if_pos g1] at hr
    cases hr
  rw [if_neg g1] at hr
  obtain ⟨s1, s2, s3⟩ := sphere hunit g1
  -- the difference of longitudes
  obtain ⟨d, hd, hds, hdc⟩ : ∃ d, (if farSide lat az ap then lon + π - arcsin (E / cos (arcsin S)) else lon + arcsin (E / cos (arcsin S))) = lon + d ∧
      cos (arcsin S) * sin d = E ∧ cos (arcsin S) * cos d = C := by
    by_cases g2 : farSide lat az ap
    · refine ⟨π - arcsin (E / cos (arcsin S)), by rw [if_pos g2]; ring, by rw [sin_pi_sub]; exact s2, ?_⟩
      rw [cos_pi_sub, mul_neg, s3, abs_of_neg (hfar.1 g2), neg_neg]
    · refine ⟨arcsin (E / cos (arcsin S)), by rw [if_neg g2], s2, ?_⟩
      rw [s3, abs_of_nonneg (not_lt.1 fun hc => g2 (hfar.2 hc))]
  rw [hd] at hr
  have hro : 0 < 1 - re / (re + hion) * cos el * (re / (re + hion) * cos el) := by linarith
  rw [if_neg (sqrt_pos.2 hro).ne'] at hr
  injection hr with hr
  injection hr with hr1 hr
  injection hr with hr2 hr3
  subst hr2 hr3
  have hu : up (arcsin S) (lon + d) = ⟨C * cos lon - E * sin lon, C * sin lon + E * cos lon, S⟩ := by
    unfold up
    rw [cos_add, sin_add, s1]
    ext
    · simp only
      linear_combination cos lon * hdc - sin lon * hds
    · simp only
      linear_combination sin lon * hdc + cos lon * hds
    · rfl
  have hsq : sqrt (1 - re / (re + hion) * cos el * (re / (re + hion) * cos el)) = sqrt (1 - (re / (re + hion) * cos el) ^ 2) := by
    rw [pow_two]
  rw [hsq] at hr1
  have hq0 : 0 < sqrt (1 - (re / (re + hion) * cos el) ^ 2) := by rw [← hsq]; exact sqrt_pos.2 hro
  have hsum : 0 < re + hion := by linarith
  have hw : (re + hion) * (re / (re + hion) * cos el) = re * cos el := by field_simp
  have hq2 : sqrt (1 - (re / (re + hion) * cos el) ^ 2) ^ 2 = 1 - (re / (re + hion) * cos el) ^ 2 := sq_sqrt (by rw [pow_two]; linarith)
  have hq1 : sqrt (1 - (re / (re + hion) * cos el) ^ 2) ≤ 1 := sqrt_le_one.2 (by linarith [sq_nonneg (re / (re + hion) * cos el)])
  rw [hu]
  refine ⟨_, t3, ?_, ?_, ?_⟩
  · rw [hS, hC, hE]
    exact meets _ _ _ _ _ _ _ _ t1 t2
  · rw [← hr1, le_div_iff₀ hq0, one_mul]
    exact hq1
  · have hdot := dot_los lat lon az el ap
    rw [← hS, ← hC, ← hE] at hdot
    rw [hdot, ← hr1]
    have key : (re + hion) * (cos ap * sin el + sin ap * cos el) = (re + hion) * sqrt (1 - (re / (re + hion) * cos el) ^ 2) := by
      linear_combination sin el * t1 + cos el * t2 + ((re + hion) * sqrt (1 - (re / (re + hion) * cos el) ^ 2) - re * sin el) * i5
    rw [mul_left_cancel₀ hsum.ne' key]
    exact one_div_mul_cancel hq0.ne'

/-- an answer is given unless the pierce point is a pole -/
theorem answered {lat lon az el re hion : ℝ} (h1 : 0 < re) (h2 : 0 < hion) (e0 : 0 ≤ el) (e1 : el ≤ π / 2)
    (hp : |sin lat * cos (central el re hion) + cos lat * sin (central el re hion) * cos az| ≠ 1) :
    ∃ r, ionppp lat lon az el re hion = .ok r := by
  have hc : 0 ≤ cos el := cos_nonneg_of_neg_pi_div_two_le_of_le (by linarith [pi_pos]) e1
  obtain ⟨r1, r2, r3⟩ := ratio (el := el) h1 h2 hc
  unfold ionppp
  simp only
  generalize central el re hion = ap at *
  have i1 := sin_sq_add_cos_sq lat
  have i3 := sin_sq_add_cos_sq ap
  have i4 := sin_sq_add_cos_sq az
  have hle : (sin lat * cos ap + cos lat * sin ap * cos az) ^ 2 ≤ 1 := by
    have : (sin lat * cos ap + cos lat * sin ap * cos az) ^ 2 + (cos lat * cos ap - sin lat * (sin ap * cos az)) ^ 2 + (sin ap * sin az) ^ 2 = 1 := by
      linear_combination (cos ap ^ 2 + sin ap ^ 2 * cos az ^ 2) * i1 + i3 + sin ap ^ 2 * i4
    nlinarith [sq_nonneg (cos lat * cos ap - sin lat * (sin ap * cos az)), sq_nonneg (sin ap * sin az)]
  generalize sin lat * cos ap + cos lat * sin ap * cos az = S at *
  have hne : S ^ 2 ≠ 1 := by
    intro h
    apply hp
    rw [← sq_abs] at h
    exact (pow_eq_one_iff_of_nonneg (abs_nonneg _) two_ne_zero).1 h
  have hcs : cos (arcsin S) ≠ 0 := by
    rw [cos_arcsin]
    refine (sqrt_pos.2 ?_).ne'
    have := lt_of_le_of_ne hle hne
    linarith
  rw [if_neg hcs, if_neg (sqrt_pos.2 (by nlinarith)).ne']
  exact ⟨_, rfl⟩

/-- in a thick ionosphere the longitude may be wrong by half a turn: 60 degrees north, looking north, the pierce point beyond the pole -/
theorem thick : ∃ lat el re hion : ℝ, |lat| < π / 2 ∧ 0 ≤ el ∧ el ≤ π / 2 ∧ 0 < re ∧ 0 < hion ∧
    ∃ sf latp, ionppp lat 0 0 el re hion = .ok (sf, latp, 0) ∧
      ∀ rho, comb (re + hion) (up latp 0) 0 (up latp 0) ≠ comb re (up lat 0) rho (los lat 0 0 el) := by
  have hpi := pi_pos
  have has : arcsin (1 / 2) = π / 6 := by
    rw [← sin_pi_div_six, arcsin_sin (by linarith) (by linarith)]
  have hap : central 0 1 1 = π / 3 := by
    unfold central
    rw [cos_zero, mul_one, show (1 : ℝ) / (1 + 1) = 1 / 2 by norm_num, has]
    ring
  have hS : sin (π / 3) * cos (π / 3) + cos (π / 3) * sin (π / 3) * cos 0 = sin (π / 3) := by
    rw [cos_zero, cos_pi_div_three]
    ring
  have hl : arcsin (sin (π / 3)) = π / 3 := arcsin_sin (by linarith) (by linarith)
  have hnf : ¬ farSide (π / 3) 0 (π / 3) := by
    have h4 := pi_lt_d2
    norm_num at h4
    unfold farSide d2r
    rintro (⟨h, -⟩ | ⟨h, -⟩)
    · norm_num at h
      linarith
    · norm_num at h
      linarith
  have h34 : sqrt (1 - 1 / (1 + 1) * cos 0 * (1 / (1 + 1) * cos 0)) ≠ 0 := by
    refine (sqrt_pos.2 ?_).ne'
    rw [cos_zero]
    norm_num
  refine ⟨π / 3, 0, 1, 1, by rw [abs_of_pos (by positivity)]; linarith, le_rfl, by positivity, one_pos, one_pos,
    1 / sqrt (1 - 1 / (1 + 1) * cos 0 * (1 / (1 + 1) * cos 0)), π / 3, ?_, ?_⟩
  · unfold ionppp
    simp only
    rw [hap, hS, hl, if_neg (by rw [cos_pi_div_three]; norm_num), if_neg h34, if_neg hnf, sin_zero, mul_zero, zero_div, arcsin_zero, add_zero]
  · intro rho h
    have hx := congrArg V3.x h
    have hz := congrArg V3.z h
    unfold comb los V3.add comb east north up at hx hz
    simp only [sin_zero, cos_zero, cos_pi_div_three, sin_pi_div_three] at hx hz
    have h3 : sqrt 3 ^ 2 = 3 := sq_sqrt (by norm_num)
    have h30 : 0 < sqrt 3 := sqrt_pos.2 (by norm_num)
    nlinarith

/-! ## Broadcast model -/

/-- **Local time** is within the day -/
theorem day (lam tow : ℝ) : 0 ≤ localTime lam tow ∧ localTime lam tow < 86400 ∧ ∃ k : ℤ, 43200 * lam + tow = localTime lam tow + 86400 * k := by
  unfold localTime
  simp only
  have h1 := Int.floor_le ((43200 * lam + tow) / 86400)
  have h2 := Int.lt_floor_add_one ((43200 * lam + tow) / 86400)
  rw [le_div_iff₀ (by norm_num)] at h1
  rw [div_lt_iff₀ (by norm_num)] at h2
  exact ⟨by linarith, by linarith, ⌊(43200 * lam + tow) / 86400⌋, by ring⟩

/-- **Slant factor**: between 1 and 3.4, larger for lower satellites -/
theorem slant_spec {el : ℝ} (e0 : 0 ≤ el) (e1 : el ≤ π / 2) :
    1 < slant el ∧ slant el < 34 / 10 ∧ ∀ el', el < el' → slant el' < slant el := by
  have hpi := pi_pos
  have a0 : 0 ≤ el / π := by positivity
  have a1 : el / π ≤ 1 / 2 := by rw [div_le_iff₀ hpi]; linarith
  refine ⟨?_, ?_, fun el' h => ?_⟩
  · unfold slant
    have : 0 < (53 / 100 - el / π) ^ 3 := pow_pos (by linarith) 3
    linarith
  · unfold slant
    have : (53 / 100 - el / π) ^ 3 ≤ (53 / 100) ^ 3 := pow_le_pow_left₀ (by linarith) (by linarith) 3
    norm_num at this ⊢
    linarith
  · unfold slant
    have h1 : el / π < el' / π := by gcongr
    have : (53 / 100 - el' / π) ^ 3 < (53 / 100 - el / π) ^ 3 := Odd.strictMono_pow (by decide) (by linarith)
    linarith

theorem bell {x : ℝ} (h : |x| < 157 / 100) :
    0 < 1 + x * x * (-(1 / 2) + x * x / 24) ∧ 1 + x * x * (-(1 / 2) + x * x / 24) ≤ 1 := by
  have h1 : x * x < (157 / 100) ^ 2 := by
    rw [← pow_two, ← sq_abs]
    exact pow_lt_pow_left₀ h (abs_nonneg _) two_ne_zero
  have h0 : 0 ≤ x * x := mul_self_nonneg x
  generalize x * x = y at *
  constructor <;> nlinarith

/-- **Vertical delay**: five nanoseconds at night; by day up to the amplitude more, which is reached at 14 hours -/
theorem vertical_spec (ion : Ion) (phi tt : ℝ) :
    5 / 10 ^ 9 ≤ vertical ion phi tt ∧ vertical ion phi tt ≤ 5 / 10 ^ 9 + max (poly ion.a phi) 0 ∧
    vertical ion phi 50400 = 5 / 10 ^ 9 + max (poly ion.a phi) 0 ∧
    (max (poly ion.b phi) 72000 / 4 ≤ |tt - 50400| → vertical ion phi tt = 5 / 10 ^ 9) := by
  have hamp : 0 ≤ max (poly ion.a phi) 0 := le_max_right _ _
  have hper : (72000 : ℝ) ≤ max (poly ion.b phi) 72000 := le_max_right _ _
  unfold vertical
  simp only
  generalize max (poly ion.a phi) 0 = amp at *
  generalize max (poly ion.b phi) 72000 = per at *
  have hp0 : 0 < per := by linarith
  refine ⟨?_, ?_, ?_, fun h => ?_⟩
  · split_ifs with hc
    · have := bell hc
      nlinarith
    · exact le_rfl
  · split_ifs with hc
    · have := bell hc
      nlinarith
    · linarith
  · rw [sub_self, mul_zero, zero_div, abs_zero, if_pos (by norm_num)]
    ring
  · rw [if_neg]
    rw [not_lt, abs_div, abs_mul, abs_of_pos hp0, abs_of_pos (show 0 < 2 * π by have := pi_pos; positivity), le_div_iff₀ hp0]
    have := pi_gt_d2
    norm_num at this
    nlinarith

/-- **Delay**: at least 1.5 m times the slant factor, whatever the coefficients; at most the amplitude more -/
theorem klobuchar (tow lat lon az el : ℝ) (ion : Ion) (e0 : 0 ≤ el) (e1 : el ≤ π / 2) :
    299792458 * (5 / 10 ^ 9) < ionKlobuchar tow lat lon az el ion ∧
    ionKlobuchar tow lat lon az el ion ≤ 299792458 * slant el * (5 / 10 ^ 9 + max (poly ion.a (phiM lat lon az el)) 0) := by
  obtain ⟨s1, s2, -⟩ := slant_spec e0 e1
  obtain ⟨v1, v2, -, -⟩ := vertical_spec ion (phiM lat lon az el) (localTime (lamI lat lon az el) tow)
  unfold ionKlobuchar clight
  generalize vertical ion (phiM lat lon az el) (localTime (lamI lat lon az el) tow) = v at *
  generalize slant el = s at *
  constructor
  · nlinarith
  · exact mul_le_mul_of_nonneg_left v2 (by linarith)

/-- the latitude is kept away from the poles, so that the longitude is defined -/
theorem latitude (lat az el : ℝ) : |phiI lat az el| ≤ 416 / 1000 ∧ 0 < cos (phiI lat az el * π) := by
  have h : |phiI lat az el| ≤ 416 / 1000 := by
    unfold phiI
    rw [abs_le]
    refine ⟨by rw [← neg_div]; exact le_max_left _ _, max_le (by norm_num) (min_le_left _ _)⟩
  refine ⟨h, ?_⟩
  have hpi := pi_pos
  obtain ⟨h1, h2⟩ := abs_le.1 h
  apply cos_pos_of_mem_Ioo
  constructor <;> nlinarith

/-- **Choice**: the broadcast model where it is asked for, where there are no SBAS corrections, and where these give no delay; an
exception where `ionoSBAS` gives no answer (receiver below -100 m) -/
theorem choice (m : IonoDelay.Model) (klob : ℝ) (iodi : Option Int) (sbas : Option (ℝ × ℝ)) :
    (m = .none → ionmodel m klob iodi sbas = .ok 0) ∧
    (m = .klobuchar → ionmodel m klob iodi sbas = .ok klob) ∧
    (m = .sbas → (∀ i, iodi = some i → i < 0) → ionmodel m klob iodi sbas = .ok klob) ∧
    (∀ i d v, m = .sbas → iodi = some i → 0 ≤ i → sbas = some (d, v) → d ≠ 0 → ionmodel m klob iodi sbas = .ok d) ∧
    (∀ i v, m = .sbas → iodi = some i → 0 ≤ i → sbas = some (0, v) → ionmodel m klob iodi sbas = .ok klob) ∧
    (∀ i, m = .sbas → iodi = some i → 0 ≤ i → sbas = none → ionmodel m klob iodi sbas = .error .typeError) := by
  refine ⟨?_, ?_, ?_, ?_, ?_, ?_⟩
  · rintro rfl
    rfl
  · rintro rfl
    rfl
  · rintro rfl h
    cases iodi with
    | none => rfl
    | some i =>
      simp only [ionmodel]
      rw [if_pos (h i rfl)]
  · rintro i d v rfl rfl h rfl hd
    simp only [ionmodel]
    rw [if_neg (not_lt.2 h), if_neg hd]
  · rintro i v rfl rfl h rfl
    simp only [ionmodel]
    rw [if_neg (not_lt.2 h)]
    simp
  · rintro i rfl rfl h rfl
    simp only [ionmodel]
    rw [if_neg (not_lt.2 h)]

/-! ## Cases -/

/-- the heights used with SBAS are those of a thin ionosphere -/
example : Thin (63781363 / 10 ^ 4) 350 := by
  refine ⟨by norm_num, by norm_num, ?_⟩
  have h1 := pi_gt_d2
  have h2 := pi_lt_d2
  norm_num at h1 h2
  have hx : |π / 9| ≤ 1 := by rw [abs_of_pos (by linarith)]; linarith
  have hb := abs_le.1 (cos_bound hx)
  have h3 : (π / 9) ^ 2 ≥ (1217 / 10000 : ℝ) := by nlinarith
  have h4 : |π / 9| ^ 4 ≤ (16 / 1000 : ℝ) := by
    rw [abs_of_pos (by linarith)]
    have : (π / 9) ^ 2 ≤ (1225 / 10000 : ℝ) := by nlinarith
    calc (π / 9) ^ 4 = ((π / 9) ^ 2) ^ 2 := by ring
      _ ≤ (1225 / 10000) ^ 2 := pow_le_pow_left₀ (sq_nonneg _) this 2
      _ ≤ _ := by norm_num
  have : cos (π / 9) ≤ 94 / 100 := by linarith [hb.2]
  norm_num
  linarith

/-- a satellite in the zenith: the pierce point is above the receiver -/
example (lat lon : ℝ) (h : |lat| < π / 2) : ∃ sf, ionppp lat lon 0 (π / 2) 6378 350 = .ok (sf, lat, lon) := by
  have hpi := pi_pos
  obtain ⟨h1, h2⟩ := abs_lt.1 h
  have hap : central (π / 2) 6378 350 = 0 := by
    unfold central
    rw [cos_pi_div_two, mul_zero, arcsin_zero]
    ring
  have hc : 0 < cos lat := cos_pos_of_mem_Ioo ⟨h1, h2⟩
  have hl : arcsin (sin lat) = lat := arcsin_sin h1.le h2.le
  unfold ionppp
  simp only
  rw [hap, cos_zero, sin_zero, mul_one, mul_zero, zero_mul, add_zero, hl, if_neg hc.ne', zero_mul, zero_div, arcsin_zero, add_zero,
    if_neg (by rw [cos_pi_div_two]; norm_num)]
  have hnf : ¬ farSide lat 0 0 := by
    rw [far_iff h le_rfl (by positivity), cos_zero, sin_zero]
    simp
    linarith
  rw [if_neg hnf]
  exact ⟨_, rfl⟩

/-- without coefficients the delay is that of the night -/
example (tt : ℝ) : vertical ⟨fun _ => 0, fun _ => 0⟩ 0 tt = 5 / 10 ^ 9 := by
  unfold vertical poly
  simp

end Verif.C96
