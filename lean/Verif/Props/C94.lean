import Verif.Model.Frame
import Mathlib.Analysis.SpecialFunctions.Sqrt
import Mathlib.Analysis.SpecialFunctions.Trigonometric.Deriv
import Mathlib.Analysis.SpecialFunctions.Trigonometric.Bounds
import Mathlib.Analysis.Calculus.Deriv.Inv
import Mathlib.Analysis.Calculus.Deriv.Pow
import Mathlib.LinearAlgebra.Matrix.Determinant.Basic
import Mathlib.Tactic.Ring
import Mathlib.Tactic.Linarith
import Mathlib.Tactic.FieldSimp
import Mathlib.Tactic.LinearCombination
/-!
# C94 Positions and directions

Specification: the ellipsoid of WGS-84, its normal, the derivatives of a position with respect to latitude, longitude and
height, the rotation of the earth during the time of flight.
-/

namespace Verif.C94
open Real Verif.Kepler Verif.Frame
open scoped Matrix

/-! ## Local frame -/

noncomputable def east (lon : ℝ) : V3 := ⟨-sin lon, cos lon, 0⟩
noncomputable def north (lat lon : ℝ) : V3 := ⟨-sin lat * cos lon, -sin lat * sin lon, cos lat⟩
noncomputable def up (lat lon : ℝ) : V3 := ⟨cos lat * cos lon, cos lat * sin lon, sin lat⟩

/-- components along the three directions -/
theorem components (lat lon : ℝ) (r : V3) :
    ecef2enu lat lon r = ⟨dot (east lon) r, dot (north lat lon) r, dot (up lat lon) r⟩ := by
  unfold ecef2enu xyz2enu vec
  ext <;> simp [dot, east, north, up, Matrix.mulVec, dotProduct, Fin.sum_univ_three]

/-- **Frame**: a rotation -/
theorem orthonormal (lat lon : ℝ) : xyz2enu lat lon * (xyz2enu lat lon)ᵀ = 1 ∧ (xyz2enu lat lon).det = 1 := by
  have h1 := sin_sq_add_cos_sq lat
  have h2 := sin_sq_add_cos_sq lon
  constructor
  · ext i j
    fin_cases i <;> fin_cases j <;> simp [xyz2enu, Matrix.mul_apply, Fin.sum_univ_three]
    all_goals first
      | ring1
      | linear_combination h2
      | linear_combination sin lat ^ 2 * h2 + h1
      | linear_combination cos lat ^ 2 * h2 + h1
      | linear_combination (-(sin lat * cos lat)) * h2
  · rw [Matrix.det_fin_three]
    simp [xyz2enu]
    linear_combination (sin lat ^ 2 + cos lat ^ 2) * h2 + h1

/-- **Back**: the inverse is the transposed matrix, and both conversions undo each other -/
theorem inverse (lat lon : ℝ) : enu2xyz lat lon = (xyz2enu lat lon)ᵀ ∧
    enu2xyz lat lon * xyz2enu lat lon = 1 ∧ xyz2enu lat lon * enu2xyz lat lon = 1 := by
  have h := (orthonormal lat lon).1
  have hi : enu2xyz lat lon = (xyz2enu lat lon)ᵀ := Matrix.inv_eq_right_inv h
  refine ⟨hi, ?_, by rw [hi]; exact h⟩
  rw [hi]
  exact mul_eq_one_comm.1 h

/-- lengths are kept -/
theorem length (lat lon : ℝ) (r : V3) : nrm (ecef2enu lat lon r) = nrm r := by
  unfold nrm
  congr 1
  rw [components]
  simp only [dot, east, north, up]
  have h1 := sin_sq_add_cos_sq lat
  have h2 := sin_sq_add_cos_sq lon
  have h3 : sin lat ^ 2 = 1 - cos lat ^ 2 := by linarith
  have h4 : sin lon ^ 2 = 1 - cos lon ^ 2 := by linarith
  ring_nf
  simp only [h3, h4]
  ring

/-! ## Azimuth and elevation -/

/-- **Direction**: a unit vector is recovered from azimuth and elevation; the azimuth is between -180 and 180 degrees -/
theorem azel (lat lon : ℝ) {e : V3} (he : nrm e = 1) :
    let (az, el) := satazel lat lon e
    ecef2enu lat lon e = ⟨cos el * sin az, cos el * cos az, sin el⟩ ∧ -π < az ∧ az ≤ π ∧ |el| ≤ π / 2 := by
  unfold satazel
  simp only
  have hn := length lat lon e
  rw [he] at hn
  generalize ecef2enu lat lon e = n at hn
  have hq : n.x * n.x + n.y * n.y + n.z * n.z = 1 := by
    have : dot n n = 1 := by
      unfold nrm at hn
      rw [← sqrt_eq_one]
      exact hn
    exact this
  have hz : -1 ≤ n.z ∧ n.z ≤ 1 := by constructor <;> nlinarith [sq_nonneg n.x, sq_nonneg n.y]
  have hnorm : ‖(⟨n.y, n.x⟩ : ℂ)‖ = sqrt (1 - n.z ^ 2) := by
    rw [Complex.norm_def, Complex.normSq_mk]
    congr 1
    linarith
  have harg := Complex.norm_mul_cos_arg ⟨n.y, n.x⟩
  have harg2 := Complex.norm_mul_sin_arg ⟨n.y, n.x⟩
  rw [hnorm] at harg harg2
  refine ⟨?_, Complex.neg_pi_lt_arg _, Complex.arg_le_pi _, abs_le.2 ⟨neg_pi_div_two_le_arcsin _, arcsin_le_pi_div_two _⟩⟩
  unfold arctan2
  ext
  · simp only
    rw [cos_arcsin, harg2]
  · simp only
    rw [cos_arcsin, harg]
  · exact (sin_arcsin hz.1 hz.2).symm

/-! ## Distance -/

/-- the position of the satellite in the frame that has turned by the angle `a` -/
noncomputable def turn (a : ℝ) (r : V3) : V3 := ⟨cos a * r.x + sin a * r.y, -sin a * r.x + cos a * r.y, r.z⟩

/-- **Distance**: the correction added to the distance is the rate at which the distance grows with the rotation of the earth
times the rotation during the time of flight -/
theorem sagnac {rs rr : V3} (h : rs ≠ rr) :
    ∃ d, HasDerivAt (fun a => nrm (vsub (turn a rs) rr)) d 0 ∧
      (geodist rs rr).1 = nrm (vsub rs rr) + d * (72921151467 / 10 ^ 15 * (nrm (vsub rs rr) / 299792458)) := by
  have hpos : 0 < dot (vsub rs rr) (vsub rs rr) := by
    unfold dot vsub
    by_contra hc
    apply h
    have hx : rs.x - rr.x = 0 := by nlinarith [sq_nonneg (rs.x - rr.x), sq_nonneg (rs.y - rr.y), sq_nonneg (rs.z - rr.z)]
    have hy : rs.y - rr.y = 0 := by nlinarith [sq_nonneg (rs.x - rr.x), sq_nonneg (rs.y - rr.y), sq_nonneg (rs.z - rr.z)]
    have hz : rs.z - rr.z = 0 := by nlinarith [sq_nonneg (rs.x - rr.x), sq_nonneg (rs.y - rr.y), sq_nonneg (rs.z - rr.z)]
    ext <;> linarith
  have hc := hasDerivAt_cos 0
  have hs := hasDerivAt_sin 0
  rw [sin_zero, neg_zero] at hc
  rw [cos_zero] at hs
  have hx : HasDerivAt (fun a => cos a * rs.x + sin a * rs.y - rr.x) (rs.y) 0 :=
    (((hc.mul_const rs.x).add (hs.mul_const rs.y)).sub_const rr.x).congr_deriv (by ring)
  have hy : HasDerivAt (fun a => -sin a * rs.x + cos a * rs.y - rr.y) (-rs.x) 0 :=
    (((hs.neg.mul_const rs.x).add (hc.mul_const rs.y)).sub_const rr.y).congr_deriv (by ring)
  have hz : HasDerivAt (fun _ : ℝ => rs.z - rr.z) 0 0 := hasDerivAt_const _ _
  have hq := ((hx.mul hx).add (hy.mul hy)).add (hz.mul hz)
  have e0 : ∀ a, dot (vsub (turn a rs) rr) (vsub (turn a rs) rr) =
      (((fun a => cos a * rs.x + sin a * rs.y - rr.x) * fun a => cos a * rs.x + sin a * rs.y - rr.x) +
        ((fun a => -sin a * rs.x + cos a * rs.y - rr.y) * fun a => -sin a * rs.x + cos a * rs.y - rr.y) +
        ((fun _ : ℝ => rs.z - rr.z) * fun _ : ℝ => rs.z - rr.z)) a := fun a => by
    simp [dot, vsub, turn]
  have t0 : turn 0 rs = rs := by unfold turn; simp
  have hne : dot (vsub (turn 0 rs) rr) (vsub (turn 0 rs) rr) ≠ 0 := by rw [t0]; exact hpos.ne'
  have hq' : HasDerivAt (fun a => dot (vsub (turn a rs) rr) (vsub (turn a rs) rr)) (2 * (rs.x * rr.y - rs.y * rr.x)) 0 := by
    refine (hq.congr_deriv ?_).congr_of_eventuallyEq (Filter.Eventually.of_forall e0)
    simp
    ring
  refine ⟨_, hq'.sqrt hne, ?_⟩
  rw [t0]
  have : 0 < sqrt (dot (vsub rs rr) (vsub rs rr)) := sqrt_pos.2 hpos
  unfold geodist nrm omge clight
  simp only
  field_simp

/-- the direction is the unit vector to the satellite -/
theorem los {rs rr : V3} (h : 0 < nrm (vsub rs rr)) :
    let e := (geodist rs rr).2
    nrm e = 1 ∧ e = vnorm (vsub rs rr) ∧ rs = V3.add rr ⟨nrm (vsub rs rr) * e.x, nrm (vsub rs rr) * e.y, nrm (vsub rs rr) * e.z⟩ := by
  have hd : nrm (vsub rs rr) ^ 2 = dot (vsub rs rr) (vsub rs rr) := 
    sq_sqrt (add_nonneg (add_nonneg (mul_self_nonneg _) (mul_self_nonneg _)) (mul_self_nonneg _))
  refine ⟨?_, rfl, ?_⟩
  · unfold geodist
    simp only
    rw [nrm, sqrt_eq_one]
    generalize nrm (vsub rs rr) = r at h hd
    generalize vsub rs rr = e at hd
    unfold vdiv dot at *
    field_simp
    linarith
  · unfold geodist vdiv
    simp only
    generalize nrm (vsub rs rr) = r at h
    unfold vsub V3.add
    ext <;> field_simp <;> ring

/-! ## Geodetic coordinates -/

theorem e2_bounds : 669 / 100000 < e2 ∧ e2 < 6695 / 1000000 := by
  unfold e2 fe
  norm_num

theorem den_pos (s : ℝ) (hs : s ^ 2 ≤ 1) : 0 < 1 - e2 * s ^ 2 := by
  have := e2_bounds
  nlinarith [sq_nonneg s]

/-- the ellipsoid of WGS-84: equatorial radius and flattening -/
def a : ℝ := 6378137
noncomputable def b : ℝ := a * (1 - 1 / (298257223563 / 10 ^ 9))

theorem b_sq : b ^ 2 = a ^ 2 * (1 - e2) := by
  unfold b e2 fe
  ring

/-- **Surface**: at height 0 the position is on the ellipsoid, the upward direction of the local frame is normal to it, and
the height is measured along that direction -/
theorem surface (lat lon h : ℝ) :
    let p := (pos2ecef ⟨lat, lon, 0⟩).1
    (p.x ^ 2 + p.y ^ 2) / a ^ 2 + p.z ^ 2 / b ^ 2 = 1 ∧
    (∃ k : ℝ, 0 < k ∧ p.x / a ^ 2 = k * (up lat lon).x ∧ p.y / a ^ 2 = k * (up lat lon).y ∧ p.z / b ^ 2 = k * (up lat lon).z) ∧
    (pos2ecef ⟨lat, lon, h⟩).1 = V3.add p ⟨h * (up lat lon).x, h * (up lat lon).y, h * (up lat lon).z⟩ := by
  have hd := den_pos (sin lat) (by nlinarith [sin_sq_add_cos_sq lat, sq_nonneg (cos lat)])
  have hq : sqrt (1 - e2 * sin lat ^ 2) ^ 2 = 1 - e2 * sin lat ^ 2 := sq_sqrt hd.le
  have h0 : 0 < sqrt (1 - e2 * sin lat ^ 2) := sqrt_pos.2 hd
  have hk : 1 - e2 ≠ 0 := by have := e2_bounds; linarith
  have h1 := sin_sq_add_cos_sq lat
  have h2 := sin_sq_add_cos_sq lon
  have ha : a ≠ 0 := by unfold a; norm_num
  have hre : re = a := rfl
  refine ⟨?_, ⟨1 / (a * sqrt (1 - e2 * sin lat ^ 2)), ?_, ?_, ?_, ?_⟩, ?_⟩
  · simp only [pos2ecef, Bool.false_eq_true, if_false, add_zero]
    rw [b_sq, hre]
    generalize sqrt (1 - e2 * sin lat ^ 2) = q at hq h0
    field_simp
    linear_combination (cos lat ^ 2) * h2 - hq + h1
  · unfold a
    positivity
  · simp only [pos2ecef, Bool.false_eq_true, if_false, add_zero, up, hre]
    field_simp
  · simp only [pos2ecef, Bool.false_eq_true, if_false, add_zero, up, hre]
    field_simp
  · simp only [pos2ecef, Bool.false_eq_true, if_false, add_zero, up, hre]
    rw [b_sq]
    field_simp
  · simp only [pos2ecef, Bool.false_eq_true, if_false, add_zero, up, V3.add]
    ext <;> ring

/-- **Directions**: eastward, northward and upward are the directions of growing longitude, latitude and height -/
theorem directions (lat lon h : ℝ) :
    ∃ n m : ℝ, 0 < n ∧ 0 < m ∧
    (HasDerivAt (fun l => (pos2ecef ⟨lat, l, h⟩).1.x) ((n + h) * cos lat * (east lon).x) lon ∧
     HasDerivAt (fun l => (pos2ecef ⟨lat, l, h⟩).1.y) ((n + h) * cos lat * (east lon).y) lon ∧
     HasDerivAt (fun l => (pos2ecef ⟨lat, l, h⟩).1.z) ((n + h) * cos lat * (east lon).z) lon) ∧
    (HasDerivAt (fun l => (pos2ecef ⟨l, lon, h⟩).1.x) ((m + h) * (north lat lon).x) lat ∧
     HasDerivAt (fun l => (pos2ecef ⟨l, lon, h⟩).1.y) ((m + h) * (north lat lon).y) lat ∧
     HasDerivAt (fun l => (pos2ecef ⟨l, lon, h⟩).1.z) ((m + h) * (north lat lon).z) lat) := by
  have hd := den_pos (sin lat) (by nlinarith [sin_sq_add_cos_sq lat, sq_nonneg (cos lat)])
  have hq : sqrt (1 - e2 * sin lat ^ 2) ^ 2 = 1 - e2 * sin lat ^ 2 := sq_sqrt hd.le
  have h0 : 0 < sqrt (1 - e2 * sin lat ^ 2) := sqrt_pos.2 hd
  have hk : 0 < 1 - e2 := by have := e2_bounds; linarith
  have h1 := sin_sq_add_cos_sq lat
  have hre : 0 < re := by unfold re; norm_num
  refine ⟨re / sqrt (1 - e2 * sin lat ^ 2), re * (1 - e2) / sqrt (1 - e2 * sin lat ^ 2) ^ 3, by positivity, by positivity, ⟨?_, ?_, ?_⟩, ?_⟩
  · simp only [pos2ecef, Bool.false_eq_true, if_false, east]
    exact ((hasDerivAt_cos lon).const_mul _)
  · simp only [pos2ecef, Bool.false_eq_true, if_false, east]
    exact ((hasDerivAt_sin lon).const_mul _)
  · simp only [pos2ecef, Bool.false_eq_true, if_false, east]
    rw [mul_zero]
    exact hasDerivAt_const _ _
  · have hs := hasDerivAt_sin lat
    have hc := hasDerivAt_cos lat
    have hw : HasDerivAt (fun l => 1 - e2 * sin l ^ 2) (-(2 * e2 * sin lat * cos lat)) lat := by
      refine (((hs.pow 2).const_mul e2).const_sub 1).congr_deriv ?_
      simp only [Nat.cast_ofNat, show (2 - 1 : ℕ) = 1 from rfl, pow_one]
      ring
    have hr := hw.sqrt hd.ne'
    have hv : HasDerivAt (fun l => re / sqrt (1 - e2 * sin l ^ 2))
        (re * e2 * sin lat * cos lat / sqrt (1 - e2 * sin lat ^ 2) ^ 3) lat := by
      refine ((hasDerivAt_const lat re).div hr h0.ne').congr_deriv ?_
      field_simp
      ring
    have hx : HasDerivAt (fun l => (re / sqrt (1 - e2 * sin l ^ 2) + h) * cos l)
        (-(re * (1 - e2) / sqrt (1 - e2 * sin lat ^ 2) ^ 3 + h) * sin lat) lat := by
      refine ((hv.add_const h).mul hc).congr_deriv ?_
      generalize sqrt (1 - e2 * sin lat ^ 2) = q at hq h0
      field_simp
      linear_combination (-sin lat * re) * hq + (sin lat * re * e2) * h1
    have hz : HasDerivAt (fun l => (re / sqrt (1 - e2 * sin l ^ 2) * (1 - e2) + h) * sin l)
        ((re * (1 - e2) / sqrt (1 - e2 * sin lat ^ 2) ^ 3 + h) * cos lat) lat := by
      refine (((hv.mul_const (1 - e2)).add_const h).mul hs).congr_deriv ?_
      generalize sqrt (1 - e2 * sin lat ^ 2) = q at hq h0
      field_simp
      linear_combination (re * (1 - e2) * cos lat) * hq
    simp only [pos2ecef, Bool.false_eq_true, if_false, north]
    exact ⟨(hx.mul_const (cos lon)).congr_deriv (by ring), (hx.mul_const (sin lon)).congr_deriv (by ring), hz⟩

/-- degrees: converted, also in the argument of the caller -/
theorem degrees (lat lon h : ℝ) :
    pos2ecef ⟨lat, lon, h⟩ true =
      ((pos2ecef ⟨lat * π / 180, lon * π / 180, h⟩).1, ⟨lat * π / 180, lon * π / 180, h⟩) := by
  simp only [pos2ecef, if_true, Bool.false_eq_true, if_false, mul_div_assoc]

/-! ### Back to latitude, longitude and height -/

/-- scaled distance from the centre -/
noncomputable def D (r2 z : ℝ) : ℝ := sqrt (r2 + (1 - e2) * z ^ 2)
/-- one pass of the iteration -/
noncomputable def G (r2 rz z : ℝ) : ℝ := rz + e2 * re * (z / D r2 z)
/-- radius of curvature for the latitude belonging to `z` -/
noncomputable def N (r2 z : ℝ) : ℝ := re * (sqrt (r2 + z ^ 2) / D r2 z)

theorem k_pos : 0 < 1 - e2 := by have := e2_bounds; linarith

theorem curvature {r2 z : ℝ} (hr : 0 ≤ r2) (h : 0 < r2 + z ^ 2) :
    re / sqrt (1 - e2 * (z / sqrt (r2 + z ^ 2)) ^ 2) = N r2 z ∧ 0 < D r2 z := by
  have hq : sqrt (r2 + z ^ 2) ^ 2 = r2 + z ^ 2 := sq_sqrt h.le
  have h0 : 0 < sqrt (r2 + z ^ 2) := sqrt_pos.2 h
  have hD : 0 < r2 + (1 - e2) * z ^ 2 := by
    have := e2_bounds
    nlinarith [sq_nonneg z]
  have e : 1 - e2 * (z / sqrt (r2 + z ^ 2)) ^ 2 = (r2 + (1 - e2) * z ^ 2) / sqrt (r2 + z ^ 2) ^ 2 := by
    rw [div_pow, hq]
    field_simp
    ring
  have hD' : 0 < D r2 z := sqrt_pos.2 hD
  refine ⟨?_, hD'⟩
  rw [e, sqrt_div' _ (sq_nonneg _), sqrt_sq h0.le]
  unfold N
  change re / (D r2 z / _) = _
  field_simp

theorem pass {r2 rz z v : ℝ} (n : Nat) (hr : 0 ≤ r2) (h : 0 < r2 + z ^ 2) :
    posLoop r2 rz (n + 1) z v = if |G r2 rz z - z| < 1 / 10 ^ 4 then (G r2 rz z, N r2 z) else posLoop r2 rz n (G r2 rz z) (N r2 z) := by
  obtain ⟨h1, h2⟩ := curvature hr h
  have h0 : 0 < sqrt (r2 + z ^ 2) := sqrt_pos.2 h
  have e : rz + N r2 z * e2 * (z / sqrt (r2 + z ^ 2)) = G r2 rz z := by
    unfold N G
    field_simp
  conv_lhs => unfold posLoop
  simp only [h1, e]

theorem lip_aux {r2 k z w d f : ℝ} (hr : 0 ≤ r2) (hk : 0 < k) (h1 : 0 < d) (h2 : 0 < f) (q1 : d ^ 2 = r2 + k * z ^ 2)
    (q2 : f ^ 2 = r2 + k * w ^ 2) (hdf : d ≤ f) : z ^ 2 * f ≤ w ^ 2 * d := by
  have hzw : z ^ 2 ≤ w ^ 2 := by
    have : d ^ 2 ≤ f ^ 2 := pow_le_pow_left₀ h1.le hdf 2
    rw [q1, q2] at this
    exact le_of_mul_le_mul_left (by linarith) hk
  refine (sq_le_sq₀ (by positivity) (by positivity)).1 ?_
  rw [mul_pow, mul_pow, q1, q2]
  have a1 : (z ^ 2) ^ 2 ≤ (w ^ 2) ^ 2 := pow_le_pow_left₀ (sq_nonneg z) hzw 2
  have a2 : 0 ≤ k * z ^ 2 * w ^ 2 := by positivity
  nlinarith [mul_le_mul_of_nonneg_left hzw a2, mul_le_mul_of_nonneg_left a1 hr]

/-- the sine of the direction changes by no more than the distance over the distance from the centre -/
theorem lip {r2 z w m : ℝ} (hr : 0 ≤ r2) (hm : 0 < m) (hz : m ≤ D r2 z) (hw : m ≤ D r2 w) :
    |z / D r2 z - w / D r2 w| ≤ |z - w| / m := by
  have hk := k_pos
  have h1 : 0 < D r2 z := lt_of_lt_of_le hm hz
  have h2 : 0 < D r2 w := lt_of_lt_of_le hm hw
  have q1 : D r2 z ^ 2 = r2 + (1 - e2) * z ^ 2 := sq_sqrt (by positivity)
  have q2 : D r2 w ^ 2 = r2 + (1 - e2) * w ^ 2 := sq_sqrt (by positivity)
  generalize D r2 z = d at *
  generalize D r2 w = f at *
  have key : (z * f - d * w) ^ 2 ≤ (z - w) ^ 2 * (d * f) := by
    have e : (z - w) ^ 2 * (d * f) - (z * f - d * w) ^ 2 = (d - f) * (z ^ 2 * f - w ^ 2 * d) := by ring
    have hs : 0 ≤ (d - f) * (z ^ 2 * f - w ^ 2 * d) := by
      rcases le_total d f with hdf | hdf
      · have := lip_aux hr hk h1 h2 q1 q2 hdf
        exact mul_nonneg_of_nonpos_of_nonpos (by linarith) (by linarith)
      · have := lip_aux hr hk h2 h1 q2 q1 hdf
        exact mul_nonneg (by linarith) (by linarith)
    linarith
  rw [div_sub_div _ _ h1.ne' h2.ne', abs_div, abs_of_pos (mul_pos h1 h2), div_le_div_iff₀ (mul_pos h1 h2) hm]
  refine (sq_le_sq₀ (by positivity) (by positivity)).1 ?_
  rw [mul_pow, mul_pow, sq_abs, sq_abs]
  have hmm : m ^ 2 ≤ d * f := by rw [pow_two]; exact mul_le_mul hz hw hm.le h1.le
  calc (z * f - d * w) ^ 2 * m ^ 2 ≤ ((z - w) ^ 2 * (d * f)) * (d * f) :=
        mul_le_mul key hmm (sq_nonneg _) (by positivity)
    _ = (z - w) ^ 2 * (d * f) ^ 2 := by ring

/-- the radius of curvature changes likewise -/
theorem lipN {r2 z w m : ℝ} (hr : 0 ≤ r2) (hm : 0 < m) (hz : m ≤ D r2 z) (hw : m ≤ D r2 w) :
    |N r2 z - N r2 w| ≤ re * e2 / sqrt (1 - e2) * (|z - w| / m) := by
  have hk := k_pos
  have hl := lip hr hm hz hw
  have h1 : 0 < D r2 z := lt_of_lt_of_le hm hz
  have h2 : 0 < D r2 w := lt_of_lt_of_le hm hw
  have hre : 0 < re := by unfold re; norm_num
  have he : 0 < e2 := by have := e2_bounds; linarith
  have hsk : 0 < sqrt (1 - e2) := sqrt_pos.2 hk
  have gen : ∀ z, 0 < D r2 z → (sqrt (r2 + z ^ 2) / D r2 z) ^ 2 = 1 + e2 * (z / D r2 z) ^ 2 ∧
      1 ≤ sqrt (r2 + z ^ 2) / D r2 z ∧ |z / D r2 z| ≤ 1 / sqrt (1 - e2) := by
    intro z h
    have q1 : D r2 z ^ 2 = r2 + (1 - e2) * z ^ 2 := sq_sqrt (by positivity)
    have q2 : sqrt (r2 + z ^ 2) ^ 2 = r2 + z ^ 2 := sq_sqrt (by positivity)
    refine ⟨?_, ?_, ?_⟩
    · rw [div_pow, div_pow, q2, eq_comm]
      field_simp
      rw [q1]
      ring
    · rw [le_div_iff₀ h, one_mul]
      refine (sq_le_sq₀ h.le (sqrt_nonneg _)).1 ?_
      rw [q1, q2]
      nlinarith [sq_nonneg z]
    · rw [abs_div, abs_of_pos h, div_le_div_iff₀ h hsk, one_mul]
      refine (sq_le_sq₀ (by positivity) h.le).1 ?_
      rw [mul_pow, sq_abs, sq_sqrt hk.le, q1]
      nlinarith
  obtain ⟨a1, a2, a3⟩ := gen z h1
  obtain ⟨b1, b2, b3⟩ := gen w h2
  unfold N
  generalize sqrt (r2 + z ^ 2) / D r2 z = P at *
  generalize sqrt (r2 + w ^ 2) / D r2 w = Q at *
  generalize z / D r2 z = s at *
  generalize w / D r2 w = t at *
  have e : (P - Q) * (P + Q) = e2 * ((s - t) * (s + t)) := by linear_combination a1 - b1
  have hPQ : |P - Q| * 2 ≤ e2 * (|s - t| * (2 / sqrt (1 - e2))) := by
    have e' : |P - Q| * (P + Q) = e2 * (|s - t| * |s + t|) := by
      rw [← abs_mul, ← abs_of_pos (show 0 < P + Q by linarith), ← abs_mul, e, abs_mul, abs_of_pos he]
    have hst : |s + t| ≤ 2 / sqrt (1 - e2) := by
      have := abs_add_le s t
      rw [show (2 : ℝ) / sqrt (1 - e2) = 1 / sqrt (1 - e2) + 1 / sqrt (1 - e2) by ring]
      linarith
    calc |P - Q| * 2 ≤ |P - Q| * (P + Q) := mul_le_mul_of_nonneg_left (by linarith) (abs_nonneg _)
      _ = e2 * (|s - t| * |s + t|) := e'
      _ ≤ _ := mul_le_mul_of_nonneg_left (mul_le_mul_of_nonneg_left hst (abs_nonneg _)) he.le
  rw [← mul_sub, abs_mul, abs_of_pos hre]
  have : |P - Q| ≤ e2 / sqrt (1 - e2) * |s - t| := by
    have e3 : e2 * (|s - t| * (2 / sqrt (1 - e2))) = e2 / sqrt (1 - e2) * |s - t| * 2 := by ring
    linarith
  calc re * |P - Q| ≤ re * (e2 / sqrt (1 - e2) * |s - t|) := mul_le_mul_of_nonneg_left this hre.le
    _ ≤ re * (e2 / sqrt (1 - e2) * (|z - w| / m)) :=
        mul_le_mul_of_nonneg_left (mul_le_mul_of_nonneg_left hl (by positivity)) hre.le
    _ = _ := by ring

/-- a value of the iteration: farther from the equator than the point, on the same side -/
def Good (rz z : ℝ) : Prop := ∃ t : ℝ, 1 ≤ t ∧ z = t * rz

theorem good_start (rz : ℝ) : Good rz rz := ⟨1, le_rfl, by ring⟩

theorem good_dist {r2 rz z : ℝ} (hr : 0 ≤ r2) (h : 0 < r2 + rz ^ 2) (hg : Good rz z) :
    sqrt (1 - e2) * sqrt (r2 + rz ^ 2) ≤ D r2 z ∧ 0 < r2 + z ^ 2 := by
  obtain ⟨t, ht, rfl⟩ := hg
  have hk := k_pos
  have : rz ^ 2 ≤ (t * rz) ^ 2 := by
    rw [mul_pow]
    exact le_mul_of_one_le_left (sq_nonneg rz) (one_le_pow₀ ht)
  have he := e2_bounds
  refine ⟨?_, by linarith⟩
  rw [← sqrt_mul hk.le]
  apply sqrt_le_sqrt
  nlinarith

theorem good_step {r2 rz z : ℝ} (hr : 0 ≤ r2) (h : 0 < r2 + rz ^ 2) (hg : Good rz z) : Good rz (G r2 rz z) := by
  obtain ⟨h1, h2⟩ := good_dist hr h hg
  have hD := (curvature hr h2).2
  obtain ⟨t, ht, rfl⟩ := hg
  have he := e2_bounds
  have hre : 0 < re := by unfold re; norm_num
  refine ⟨1 + e2 * re * (t / D r2 (t * rz)), ?_, ?_⟩
  · have : 0 ≤ e2 * re * (t / D r2 (t * rz)) := by
      have : 0 < e2 := by linarith
      positivity
    linarith
  · unfold G
    ring

/-- distance from the centre of at least half the radius of the earth: both maps contract by 70 -/
theorem contract {r2 rz z w : ℝ} (hr : 0 ≤ r2) (h : re / 2 ≤ sqrt (r2 + rz ^ 2)) (hz : Good rz z) (hw : Good rz w) :
    |G r2 rz z - G r2 rz w| ≤ |z - w| / 70 ∧ |N r2 z - N r2 w| ≤ |z - w| / 70 := by
  have hre : 0 < re := by unfold re; norm_num
  have hpos : 0 < r2 + rz ^ 2 := sqrt_pos.1 (by linarith)
  have hk := k_pos
  have hsk : 0 < sqrt (1 - e2) := sqrt_pos.2 hk
  have hs2 : sqrt (1 - e2) ^ 2 = 1 - e2 := sq_sqrt hk.le
  have he := e2_bounds
  have he0 : 0 < e2 := by linarith
  have hm : 0 < sqrt (1 - e2) * sqrt (r2 + rz ^ 2) := by
    apply mul_pos hsk
    linarith
  obtain ⟨d1, -⟩ := good_dist hr hpos hz
  obtain ⟨d2, -⟩ := good_dist hr hpos hw
  have l1 := lip hr hm d1 d2
  have l2 := lipN hr hm d1 d2
  have hsk1 : sqrt (1 - e2) ≤ 1 := by
    refine sqrt_le_one.2 ?_
    linarith
  have hq : re * e2 / sqrt (1 - e2) * (|z - w| / (sqrt (1 - e2) * sqrt (r2 + rz ^ 2))) ≤ |z - w| / 70 := by
    have e : re * e2 / sqrt (1 - e2) * (|z - w| / (sqrt (1 - e2) * sqrt (r2 + rz ^ 2))) =
        |z - w| * (re * e2 / ((1 - e2) * sqrt (r2 + rz ^ 2))) := by
      generalize sqrt (1 - e2) = q at hs2 hsk
      rw [← hs2]
      field_simp
    rw [e, div_eq_mul_one_div |z - w| 70]
    apply mul_le_mul_of_nonneg_left _ (abs_nonneg _)
    have h3 : 0 < sqrt (r2 + rz ^ 2) := by linarith
    rw [div_le_div_iff₀ (mul_pos hk h3) (by norm_num)]
    nlinarith
  refine ⟨?_, le_trans l2 hq⟩
  have : |G r2 rz z - G r2 rz w| = e2 * re * |z / D r2 z - w / D r2 w| := by
    unfold G
    rw [add_sub_add_left_eq_sub, ← mul_sub, abs_mul, abs_of_pos (mul_pos he0 hre)]
  rw [this]
  refine le_trans (le_trans (mul_le_mul_of_nonneg_left l1 (by positivity)) ?_) hq
  have h4 : 0 ≤ |z - w| / (sqrt (1 - e2) * sqrt (r2 + rz ^ 2)) := by positivity
  apply mul_le_mul_of_nonneg_right _ h4
  rw [le_div_iff₀ hsk, mul_comm re e2]
  exact mul_le_of_le_one_right (by positivity) hsk1

/-- the iteration ends -/
theorem ends {r2 rz : ℝ} (hr : 0 ≤ r2) (h : re / 2 ≤ sqrt (r2 + rz ^ 2)) :
    ∀ (n : Nat) (z v : ℝ), Good rz z → |G r2 rz z - z| < 70 ^ n / 10 ^ 4 →
      ∃ zk, Good rz zk ∧ |G r2 rz zk - zk| < 1 / 10 ^ 4 ∧ ∀ m, posLoop r2 rz (n + m + 1) z v = (G r2 rz zk, N r2 zk) := by
  have hre : 0 < re := by unfold re; norm_num
  have hpos : 0 < r2 + rz ^ 2 := sqrt_pos.1 (by linarith)
  intro n
  induction n with
  | zero =>
    intro z v hg hd
    rw [pow_zero] at hd
    refine ⟨z, hg, hd, fun m => ?_⟩
    rw [pass _ hr (good_dist hr hpos hg).2, if_pos hd]
  | succ n ih =>
    intro z v hg hd
    by_cases hc : |G r2 rz z - z| < 1 / 10 ^ 4
    · refine ⟨z, hg, hc, fun m => ?_⟩
      rw [pass _ hr (good_dist hr hpos hg).2, if_pos hc]
    · have hg' := good_step hr hpos hg
      have hct := (contract hr h hg' hg).1
      have : |G r2 rz z - z| / 70 < 70 ^ n / 10 ^ 4 := by
        rw [pow_succ] at hd
        rw [div_lt_iff₀ (by norm_num)]
        linarith
      obtain ⟨zk, k1, k2, k3⟩ := ih (G r2 rz z) (N r2 z) hg' (by linarith)
      refine ⟨zk, k1, k2, fun m => ?_⟩
      rw [show n + 1 + m + 1 = (n + m + 1) + 1 by omega, pass _ hr (good_dist hr hpos hg).2, if_neg hc, k3]

theorem start {r2 rz : ℝ} (hr : 0 ≤ r2) (h : re / 2 ≤ sqrt (r2 + rz ^ 2)) : |G r2 rz rz - rz| < 70 ^ 5 / 10 ^ 4 := by
  have hre : 0 < re := by unfold re; norm_num
  have hpos : 0 < r2 + rz ^ 2 := sqrt_pos.1 (by linarith)
  have hk := k_pos
  have he := e2_bounds
  have hD := (curvature hr hpos).2
  have q1 : D r2 rz ^ 2 = r2 + (1 - e2) * rz ^ 2 := sq_sqrt (by positivity)
  have : |rz / D r2 rz| ≤ 2 := by
    rw [abs_div, abs_of_pos hD, div_le_iff₀ hD]
    refine (sq_le_sq₀ (abs_nonneg _) (by positivity)).1 ?_
    rw [mul_pow, sq_abs, q1]
    nlinarith [sq_nonneg rz]
  unfold G
  rw [add_sub_cancel_left, abs_mul, abs_of_pos (mul_pos (by linarith) hre)]
  have h5 : e2 * re ≤ 50000 := by unfold re; linarith
  calc e2 * re * |rz / D r2 rz| ≤ 50000 * 2 := mul_le_mul h5 this (abs_nonneg _) (by norm_num)
    _ < _ := by norm_num

/-- latitude from the vertical and horizontal distance -/
theorem arctanDiv_spec {z q : ℝ} (hq : 0 ≤ q) (h : 0 < q ^ 2 + z ^ 2) :
    sin (arctanDiv z q) = z / sqrt (q ^ 2 + z ^ 2) ∧ cos (arctanDiv z q) = q / sqrt (q ^ 2 + z ^ 2) ∧ |arctanDiv z q| ≤ π / 2 := by
  unfold arctanDiv
  have hpi := pi_pos
  by_cases h0 : q = 0
  · subst h0
    rw [if_pos rfl]
    rw [zero_pow two_ne_zero, zero_add, sqrt_sq_eq_abs]
    rw [zero_pow two_ne_zero, zero_add] at h
    by_cases hz : 0 < z
    · rw [if_pos hz, abs_of_pos hz, div_self hz.ne', zero_div, abs_of_pos (by positivity)]
      exact ⟨sin_pi_div_two, cos_pi_div_two, le_rfl⟩
    · have hz' : z < 0 := by
        rcases lt_trichotomy z 0 with h1 | h1 | h1
        · exact h1
        · rw [h1] at h; norm_num at h
        · exact absurd h1 hz
      rw [if_neg hz, if_pos hz', abs_of_neg hz', zero_div, abs_neg, abs_of_pos (show 0 < π / 2 by positivity), sin_neg, cos_neg,
        sin_pi_div_two, cos_pi_div_two, div_neg, div_self hz'.ne]
      exact ⟨rfl, rfl, le_rfl⟩
  · have hq' : 0 < q := lt_of_le_of_ne hq (Ne.symm h0)
    rw [if_neg h0]
    have e : sqrt (1 + (z / q) ^ 2) = sqrt (q ^ 2 + z ^ 2) / q := by
      rw [show 1 + (z / q) ^ 2 = (q ^ 2 + z ^ 2) / q ^ 2 by field_simp, sqrt_div' _ (sq_nonneg _), sqrt_sq hq]
    have hs : 0 < sqrt (q ^ 2 + z ^ 2) := sqrt_pos.2 h
    refine ⟨?_, ?_, abs_le.2 ⟨(neg_pi_div_two_lt_arctan _).le, (arctan_lt_pi_div_two _).le⟩⟩
    · rw [sin_arctan, e]
      field_simp
    · rw [cos_arctan, e]
      field_simp

theorem lon_spec (x y : ℝ) : sqrt (x ^ 2 + y ^ 2) * cos (arctan2 y x) = x ∧ sqrt (x ^ 2 + y ^ 2) * sin (arctan2 y x) = y := by
  have h1 := Complex.norm_mul_cos_arg ⟨x, y⟩
  have h2 := Complex.norm_mul_sin_arg ⟨x, y⟩
  have hn : ‖(⟨x, y⟩ : ℂ)‖ = sqrt (x ^ 2 + y ^ 2) := by
    rw [Complex.norm_def, Complex.normSq_mk]
    congr 1
    ring
  rw [hn] at h1 h2
  exact ⟨h1, h2⟩

/-- what the iteration returns -/
theorem result {r : V3} (h : re / 2 ≤ nrm r) :
    ∃ zk, Good r.z zk ∧ |G (r.x ^ 2 + r.y ^ 2) r.z zk - zk| < 1 / 10 ^ 4 ∧
      (∀ m, posLoop (r.x ^ 2 + r.y ^ 2) r.z (6 + m) r.z re = (G (r.x ^ 2 + r.y ^ 2) r.z zk, N (r.x ^ 2 + r.y ^ 2) zk)) ∧
      ecef2pos r = ⟨arctanDiv (G (r.x ^ 2 + r.y ^ 2) r.z zk) (sqrt (r.x ^ 2 + r.y ^ 2)), arctan2 r.y r.x,
        sqrt (r.x ^ 2 + r.y ^ 2 + (G (r.x ^ 2 + r.y ^ 2) r.z zk) ^ 2) - N (r.x ^ 2 + r.y ^ 2) zk⟩ := by
  have hr : 0 ≤ r.x ^ 2 + r.y ^ 2 := by positivity
  have h' : re / 2 ≤ sqrt (r.x ^ 2 + r.y ^ 2 + r.z ^ 2) := by
    rw [show r.x ^ 2 + r.y ^ 2 + r.z ^ 2 = dot r r by unfold dot; ring]
    exact h
  obtain ⟨zk, k1, k2, k3⟩ := ends hr h' 5 r.z re (good_start _) (start hr h')
  have k4 : ∀ m, posLoop (r.x ^ 2 + r.y ^ 2) r.z (6 + m) r.z re = (G (r.x ^ 2 + r.y ^ 2) r.z zk, N (r.x ^ 2 + r.y ^ 2) zk) := by
    intro m
    rw [← k3 m]
    congr 1
    omega
  refine ⟨zk, k1, k2, k4, ?_⟩
  unfold ecef2pos
  simp only
  rw [show (1000 : Nat) = 6 + 994 from rfl, k4 994]

/-- **Passes**: six passes are enough, of the thousand that are allowed -/
theorem passes {r : V3} (h : re / 2 ≤ nrm r) (m : Nat) :
    posLoop (r.x ^ 2 + r.y ^ 2) r.z (6 + m) r.z re = posLoop (r.x ^ 2 + r.y ^ 2) r.z 6 r.z re := by
  obtain ⟨zk, -, -, k, -⟩ := result h
  rw [k m, ← k 0]

/-- **There and back**: the position belonging to the coordinates returned is within three micrometres of the given one -/
theorem back {r : V3} (h : re / 2 ≤ nrm r) : nrm (vsub (pos2ecef (ecef2pos r)).1 r) ≤ 3 / 10 ^ 6 := by
  obtain ⟨zk, k1, k2, -, k4⟩ := result h
  have hr : 0 ≤ r.x ^ 2 + r.y ^ 2 := by positivity
  have hre : 0 < re := by unfold re; norm_num
  have h' : re / 2 ≤ sqrt (r.x ^ 2 + r.y ^ 2 + r.z ^ 2) := by
    rw [show r.x ^ 2 + r.y ^ 2 + r.z ^ 2 = dot r r by unfold dot; ring]
    exact h
  have hpos : 0 < r.x ^ 2 + r.y ^ 2 + r.z ^ 2 := sqrt_pos.1 (by linarith)
  have hg := good_step hr hpos k1
  obtain ⟨c1, c2⟩ := contract hr h' hg k1
  have hz := (good_dist hr hpos hg).2
  obtain ⟨l1, l2⟩ := lon_spec r.x r.y
  have hp2 : sqrt (r.x ^ 2 + r.y ^ 2) ^ 2 = r.x ^ 2 + r.y ^ 2 := sq_sqrt hr
  obtain ⟨t1, t2, -⟩ := arctanDiv_spec (z := G (r.x ^ 2 + r.y ^ 2) r.z zk) (sqrt_nonneg (r.x ^ 2 + r.y ^ 2)) (by rw [hp2]; exact hz)
  rw [hp2] at t1 t2
  have hN := (curvature hr hz).1
  have hDk := (curvature hr (good_dist hr hpos k1).2).2
  have hD := (curvature hr hz).2
  have hG : r.z = G (r.x ^ 2 + r.y ^ 2) r.z zk - e2 * re * (zk / D (r.x ^ 2 + r.y ^ 2) zk) := by unfold G; ring
  have hw : |e2 * re * (G (r.x ^ 2 + r.y ^ 2) r.z zk / D (r.x ^ 2 + r.y ^ 2) (G (r.x ^ 2 + r.y ^ 2) r.z zk)) -
      e2 * re * (zk / D (r.x ^ 2 + r.y ^ 2) zk)| ≤ 1 / 10 ^ 4 / 70 := by
    have : e2 * re * (G (r.x ^ 2 + r.y ^ 2) r.z zk / D (r.x ^ 2 + r.y ^ 2) (G (r.x ^ 2 + r.y ^ 2) r.z zk)) -
      e2 * re * (zk / D (r.x ^ 2 + r.y ^ 2) zk) =
      G (r.x ^ 2 + r.y ^ 2) r.z (G (r.x ^ 2 + r.y ^ 2) r.z zk) - G (r.x ^ 2 + r.y ^ 2) r.z zk := by
      conv_rhs => unfold G
      ring_nf
      unfold G
      ring_nf
    rw [this]
    linarith
  have hv : |N (r.x ^ 2 + r.y ^ 2) (G (r.x ^ 2 + r.y ^ 2) r.z zk) - N (r.x ^ 2 + r.y ^ 2) zk| ≤ 1 / 10 ^ 4 / 70 := by linarith
  have hNdef : N (r.x ^ 2 + r.y ^ 2) (G (r.x ^ 2 + r.y ^ 2) r.z zk) = re * (sqrt (r.x ^ 2 + r.y ^ 2 + G (r.x ^ 2 + r.y ^ 2) r.z zk ^ 2) /
      D (r.x ^ 2 + r.y ^ 2) (G (r.x ^ 2 + r.y ^ 2) r.z zk)) := rfl
  rw [k4]
  simp only [pos2ecef, Bool.false_eq_true, if_false, t1, t2, hN]
  have hro : 0 < sqrt (r.x ^ 2 + r.y ^ 2 + G (r.x ^ 2 + r.y ^ 2) r.z zk ^ 2) := sqrt_pos.2 hz
  have hro2 : sqrt (r.x ^ 2 + r.y ^ 2 + G (r.x ^ 2 + r.y ^ 2) r.z zk ^ 2) ^ 2 = r.x ^ 2 + r.y ^ 2 + G (r.x ^ 2 + r.y ^ 2) r.z zk ^ 2 :=
    sq_sqrt hz.le
  generalize N (r.x ^ 2 + r.y ^ 2) (G (r.x ^ 2 + r.y ^ 2) r.z zk) = n at *
  generalize N (r.x ^ 2 + r.y ^ 2) zk = v at *
  generalize D (r.x ^ 2 + r.y ^ 2) (G (r.x ^ 2 + r.y ^ 2) r.z zk) = d at *
  generalize e2 * re * (zk / D (r.x ^ 2 + r.y ^ 2) zk) = g at *
  generalize G (r.x ^ 2 + r.y ^ 2) r.z zk = z at *
  generalize sqrt (r.x ^ 2 + r.y ^ 2 + z ^ 2) = o at *
  generalize arctan2 r.y r.x = l at *
  generalize sqrt (r.x ^ 2 + r.y ^ 2) = p at *
  have e1 : (n + (o - v)) * (p / o) * cos l - r.x = (n - v) * (r.x / o) := by
    field_simp
    linear_combination (n - v + o) * l1
  have e2' : (n + (o - v)) * (p / o) * sin l - r.y = (n - v) * (r.y / o) := by
    field_simp
    linear_combination (n - v + o) * l2
  have e3 : (n * (1 - e2) + (o - v)) * (z / o) - r.z = (n - v) * (z / o) - (e2 * re * (z / d) - g) := by
    rw [hNdef]
    field_simp
    linear_combination (-(d * o)) * hG
  unfold nrm vsub
  simp only
  rw [e1, e2', e3]
  rw [sqrt_le_iff]
  refine ⟨by norm_num, ?_⟩
  unfold dot
  simp only
  generalize e2 * re * (z / d) - g = w at hw
  have hu : (r.x / o) ^ 2 + (r.y / o) ^ 2 + (z / o) ^ 2 = 1 := by
    field_simp
    linarith
  have hzo : |z / o| ≤ 1 := by
    rw [abs_le_one_iff_mul_self_le_one]
    nlinarith [sq_nonneg (r.x / o), sq_nonneg (r.y / o)]
  generalize n - v = m at *
  have hm2 : m ^ 2 ≤ (1 / 10 ^ 4 / 70) ^ 2 := by rw [← sq_abs]; exact pow_le_pow_left₀ (abs_nonneg _) hv 2
  have hw2 : w ^ 2 ≤ (1 / 10 ^ 4 / 70) ^ 2 := by rw [← sq_abs]; exact pow_le_pow_left₀ (abs_nonneg _) hw 2
  have hc : -(m * (z / o) * w) ≤ (1 / 10 ^ 4 / 70) ^ 2 := by
    refine le_trans (neg_le_abs _) ?_
    rw [abs_mul, abs_mul, pow_two]
    refine mul_le_mul ?_ hw (abs_nonneg _) (by norm_num)
    calc |m| * |z / o| ≤ |m| * 1 := mul_le_mul_of_nonneg_left hzo (abs_nonneg _)
      _ ≤ _ := by rw [mul_one]; exact hv
  calc m * (r.x / o) * (m * (r.x / o)) + m * (r.y / o) * (m * (r.y / o)) + (m * (z / o) - w) * (m * (z / o) - w)
      = m ^ 2 * ((r.x / o) ^ 2 + (r.y / o) ^ 2 + (z / o) ^ 2) + w ^ 2 + 2 * (-(m * (z / o) * w)) := by ring
    _ ≤ (1 / 10 ^ 4 / 70) ^ 2 * 1 + (1 / 10 ^ 4 / 70) ^ 2 + 2 * (1 / 10 ^ 4 / 70) ^ 2 := by rw [hu]; linarith
    _ ≤ _ := by norm_num

/-- **Forth and back**: height to three micrometres, latitude to a millionth of a microradian, longitude exactly (unless at
a pole) -/
theorem forth {pos : Pos} (hlat : |pos.lat| ≤ π / 2) (hlon : -π < pos.lon ∧ pos.lon ≤ π) (hh : -3000000 ≤ pos.hgt) :
    let pos' := ecef2pos (pos2ecef pos).1
    |pos'.hgt - pos.hgt| ≤ 3 / 10 ^ 6 ∧ |pos'.lat - pos.lat| ≤ 1 / 10 ^ 12 ∧ (|pos.lat| < π / 2 → pos'.lon = pos.lon) := by
  intro pos'
  have hre : re = 6378137 := rfl
  have hk := k_pos
  have he := e2_bounds
  have h1 := sin_sq_add_cos_sq pos.lat
  have h2 := sin_sq_add_cos_sq pos.lon
  have hc0 : 0 ≤ cos pos.lat := cos_nonneg_of_neg_pi_div_two_le_of_le (abs_le.1 hlat).1 (abs_le.1 hlat).2
  have hd := den_pos (sin pos.lat) (by nlinarith [sq_nonneg (cos pos.lat)])
  have hq0 : 0 < sqrt (1 - e2 * sin pos.lat ^ 2) := sqrt_pos.2 hd
  have hq1 : sqrt (1 - e2 * sin pos.lat ^ 2) ≤ 1 := sqrt_le_one.2 (by nlinarith [sq_nonneg (sin pos.lat)])
  obtain ⟨n, hn⟩ : ∃ n, n = re / sqrt (1 - e2 * sin pos.lat ^ 2) := ⟨_, rfl⟩
  have hn1 : re ≤ n := by
    rw [hn, le_div_iff₀ hq0, hre]
    nlinarith
  have hp : (pos2ecef pos).1 = ⟨(n + pos.hgt) * cos pos.lat * cos pos.lon, (n + pos.hgt) * cos pos.lat * sin pos.lon,
      (n * (1 - e2) + pos.hgt) * sin pos.lat⟩ := by
    simp only [pos2ecef, Bool.false_eq_true, if_false, hn]
  have hb : 3200000 ≤ n * (1 - e2) + pos.hgt := by
    rw [hre] at hn1
    nlinarith
  have hb2 : n * (1 - e2) + pos.hgt ≤ n + pos.hgt := by
    rw [hre] at hn1
    nlinarith
  have hb0 : 0 < n + pos.hgt := by linarith
  -- distance from the centre
  have hr2 : ((n + pos.hgt) * cos pos.lat * cos pos.lon) ^ 2 + ((n + pos.hgt) * cos pos.lat * sin pos.lon) ^ 2 =
      ((n + pos.hgt) * cos pos.lat) ^ 2 := by
    linear_combination ((n + pos.hgt) * cos pos.lat) ^ 2 * h2
  have hfar : 3200000 ≤ sqrt (((n + pos.hgt) * cos pos.lat) ^ 2 + ((n * (1 - e2) + pos.hgt) * sin pos.lat) ^ 2) := by
    refine le_sqrt_of_sq_le ?_
    have g1 : (3200000 : ℝ) ^ 2 ≤ (n + pos.hgt) ^ 2 := pow_le_pow_left₀ (by norm_num) (by linarith) 2
    have g2 : (3200000 : ℝ) ^ 2 ≤ (n * (1 - e2) + pos.hgt) ^ 2 := pow_le_pow_left₀ (by norm_num) hb 2
    rw [mul_pow, mul_pow]
    nlinarith [mul_le_mul_of_nonneg_right g1 (sq_nonneg (cos pos.lat)), mul_le_mul_of_nonneg_right g2 (sq_nonneg (sin pos.lat))]
  have hnrm : re / 2 ≤ nrm (pos2ecef pos).1 := by
    rw [hp]
    unfold nrm dot
    simp only
    rw [show ∀ a b c : ℝ, a * a + b * b + c * c = a ^ 2 + b ^ 2 + c ^ 2 from fun a b c => by ring, hr2, hre]
    linarith
  obtain ⟨zk, k1, k2, -, k4⟩ := result hnrm
  have e : pos' = ecef2pos (pos2ecef pos).1 := rfl
  rw [k4, hp] at e
  rw [hp] at k1 k2
  simp only at e k1 k2
  rw [hr2] at e k2
  -- the exact solution
  obtain ⟨r2, hr2'⟩ : ∃ r2, r2 = ((n + pos.hgt) * cos pos.lat) ^ 2 := ⟨_, rfl⟩
  obtain ⟨rz, hrz⟩ : ∃ rz, rz = (n * (1 - e2) + pos.hgt) * sin pos.lat := ⟨_, rfl⟩
  obtain ⟨zs, hzs⟩ : ∃ zs, zs = (n + pos.hgt) * sin pos.lat := ⟨_, rfl⟩
  rw [← hr2', ← hrz] at e k2 hfar
  rw [← hrz] at k1
  have hr : 0 ≤ r2 := by rw [hr2']; positivity
  have hs2 : r2 + zs ^ 2 = (n + pos.hgt) ^ 2 := by rw [hr2', hzs]; linear_combination (n + pos.hgt) ^ 2 * h1
  have hss : sqrt (r2 + zs ^ 2) = n + pos.hgt := by rw [hs2]; exact sqrt_sq hb0.le
  have hpz : 0 < r2 + zs ^ 2 := by rw [hs2]; positivity
  have hrt : sqrt r2 = (n + pos.hgt) * cos pos.lat := by rw [hr2']; exact sqrt_sq (by positivity)
  have hgs : Good rz zs := by
    refine ⟨(n + pos.hgt) / (n * (1 - e2) + pos.hgt), ?_, ?_⟩
    · rw [le_div_iff₀ (by linarith)]
      linarith
    · rw [hzs, hrz]
      have : n * (1 - e2) + pos.hgt ≠ 0 := by linarith
      field_simp
  obtain ⟨cu, hDs⟩ := curvature hr hpz
  have hsp : zs / sqrt (r2 + zs ^ 2) = sin pos.lat := by
    rw [hss, hzs]
    field_simp
  rw [hsp, ← hn] at cu
  have hfix : G r2 rz zs = zs := by
    have : e2 * re * (zs / D r2 zs) = e2 * n * sin pos.lat := by
      rw [cu, ← hsp]
      unfold N
      field_simp
    unfold G
    rw [this, hrz, hzs]
    ring
  have hfar' : re / 2 ≤ sqrt (r2 + rz ^ 2) := by rw [hre]; linarith
  have hpos : 0 < r2 + rz ^ 2 := sqrt_pos.1 (by linarith)
  obtain ⟨c1, c2⟩ := contract hr hfar' k1 hgs
  rw [hfix] at c1
  rw [← cu] at c2
  have hgk := good_step hr hpos k1
  have hz1 : |zk - zs| ≤ 1 / 10 ^ 4 * (70 / 69) := by
    have := abs_sub_le zk (G r2 rz zk) zs
    rw [abs_sub_comm zk (G r2 rz zk)] at this
    linarith
  have hzz : |G r2 rz zk - zs| ≤ 1 / 10 ^ 4 / 69 := by linarith
  obtain ⟨z, hz⟩ : ∃ z, z = G r2 rz zk := ⟨_, rfl⟩
  rw [← hz] at e hzz hgk
  have hzpos := (good_dist hr hpos hgk).2
  have ho : 0 < sqrt (r2 + z ^ 2) := sqrt_pos.2 hzpos
  have ho2 : sqrt (r2 + z ^ 2) ^ 2 = r2 + z ^ 2 := sq_sqrt hzpos.le
  have hs2' : sqrt (r2 + zs ^ 2) ^ 2 = r2 + zs ^ 2 := sq_sqrt hpz.le
  have ho3 : |sqrt (r2 + z ^ 2) - sqrt (r2 + zs ^ 2)| ≤ |z - zs| := by
    have hso : 0 < sqrt (r2 + zs ^ 2) := sqrt_pos.2 hpz
    have e5 : (sqrt (r2 + z ^ 2) - sqrt (r2 + zs ^ 2)) * (sqrt (r2 + z ^ 2) + sqrt (r2 + zs ^ 2)) = (z - zs) * (z + zs) := by
      linear_combination ho2 - hs2'
    have e6 : |z + zs| ≤ sqrt (r2 + z ^ 2) + sqrt (r2 + zs ^ 2) := by
      refine le_trans (abs_add_le _ _) (add_le_add ?_ ?_)
      · exact abs_le_sqrt (by linarith)
      · exact abs_le_sqrt (by linarith)
    have e7 : |sqrt (r2 + z ^ 2) - sqrt (r2 + zs ^ 2)| * (sqrt (r2 + z ^ 2) + sqrt (r2 + zs ^ 2)) ≤
        |z - zs| * (sqrt (r2 + z ^ 2) + sqrt (r2 + zs ^ 2)) := by
      rw [← abs_of_pos (add_pos ho hso), ← abs_mul, e5, abs_mul, abs_of_pos (add_pos ho hso)]
      exact mul_le_mul_of_nonneg_left e6 (abs_nonneg _)
    exact le_of_mul_le_mul_right e7 (add_pos ho hso)
  rw [hss] at ho3
  refine ⟨?_, ?_, fun hl => ?_⟩
  · rw [e]
    simp only
    rw [show sqrt (r2 + z ^ 2) - N r2 zk - pos.hgt = (sqrt (r2 + z ^ 2) - (n + pos.hgt)) - (N r2 zk - n) by ring]
    refine le_trans (abs_sub _ _) ?_
    have : (1 : ℝ) / 10 ^ 4 / 69 + 1 / 10 ^ 4 * (70 / 69) / 70 ≤ 3 / 10 ^ 6 := by norm_num
    linarith
  · obtain ⟨t1, t2, t3⟩ := arctanDiv_spec (z := z) (sqrt_nonneg r2) (by rw [sq_sqrt hr]; exact hzpos)
    rw [sq_sqrt hr] at t1 t2
    rw [show pos'.lat = arctanDiv z (sqrt r2) by rw [e]]
    generalize arctanDiv z (sqrt r2) = f at *
    have hsin : sin (f - pos.lat) = cos pos.lat * (z - zs) / sqrt (r2 + z ^ 2) := by
      rw [sin_sub, t1, t2, hrt, hzs]
      field_simp
    have hcos : 0 ≤ cos (f - pos.lat) := by
      rw [cos_sub, t1, t2, hrt]
      obtain ⟨t, ht, htz⟩ := hgk
      have : 0 ≤ z / sqrt (r2 + z ^ 2) * sin pos.lat := by
        have e9 : z / sqrt (r2 + z ^ 2) * sin pos.lat = t * ((n * (1 - e2) + pos.hgt) * sin pos.lat) / sqrt (r2 + z ^ 2) * sin pos.lat := by
          rw [← hrz, ← htz]
        rw [e9, show t * ((n * (1 - e2) + pos.hgt) * sin pos.lat) / sqrt (r2 + z ^ 2) * sin pos.lat =
          t * (n * (1 - e2) + pos.hgt) * (sin pos.lat ^ 2) / sqrt (r2 + z ^ 2) by ring]
        have : 0 ≤ n * (1 - e2) + pos.hgt := by linarith
        positivity
      have : 0 ≤ (n + pos.hgt) * cos pos.lat / sqrt (r2 + z ^ 2) * cos pos.lat := by positivity
      linarith
    have hle : |f - pos.lat| ≤ π / 2 := by
      by_contra hcc
      have hpi := pi_pos
      have hb3 : |f - pos.lat| ≤ π := by
        have := abs_sub f pos.lat
        linarith
      have := cos_neg_of_pi_div_two_lt_of_lt (not_le.1 hcc) (by linarith)
      rw [cos_abs] at this
      linarith
    have hj := mul_abs_le_abs_sin hle
    have hol : 3000000 ≤ sqrt (r2 + z ^ 2) := by
      have := neg_le_of_abs_le ho3
      have : (1 : ℝ) / 10 ^ 4 / 69 ≤ 1 := by norm_num
      linarith
    have hsb : |sin (f - pos.lat)| ≤ 1 / 10 ^ 4 / 69 / 3000000 := by
      rw [hsin, abs_div, abs_of_pos ho, abs_mul]
      refine div_le_div₀ (by norm_num) ?_ (by norm_num) hol
      calc |cos pos.lat| * |z - zs| ≤ 1 * |z - zs| := mul_le_mul_of_nonneg_right (abs_cos_le_one _) (abs_nonneg _)
        _ ≤ _ := by rw [one_mul]; exact hzz
    have hpi := pi_pos
    have hp4 := pi_le_four
    have : |f - pos.lat| ≤ π / 2 * (1 / 10 ^ 4 / 69 / 3000000) := by
      have e8 : |f - pos.lat| = π / 2 * (2 / π * |f - pos.lat|) := by field_simp
      rw [e8]
      exact mul_le_mul_of_nonneg_left (by linarith) (by positivity)
    refine le_trans this ?_
    have : π / 2 * (1 / 10 ^ 4 / 69 / 3000000) ≤ 4 / 2 * (1 / 10 ^ 4 / 69 / 3000000 : ℝ) :=
      mul_le_mul_of_nonneg_right (by linarith) (by norm_num)
    refine le_trans this (by norm_num)
  · rw [e]
    simp only
    have hc : 0 < cos pos.lat := cos_pos_of_mem_Ioo (abs_lt.1 hl)
    unfold arctan2
    rw [show (⟨(n + pos.hgt) * cos pos.lat * cos pos.lon, (n + pos.hgt) * cos pos.lat * sin pos.lon⟩ : ℂ) =
      ((n + pos.hgt) * cos pos.lat : ℝ) * (Complex.cos pos.lon + Complex.sin pos.lon * Complex.I) by
        apply Complex.ext <;> simp [Complex.cos_ofReal_re, Complex.sin_ofReal_re]]
    exact Complex.arg_mul_cos_add_sin_mul_I (mul_pos hb0 hc) hlon

/-! ## Degrees, minutes, seconds -/

/-- **Minutes**: whole degrees and minutes, seconds below sixty; they make up the size of the angle, and the sign is that of
the degrees.  Between -1 and 0 degrees the sign is lost -/
theorem dms (deg : ℝ) :
    let (d, m, s) := deg2dms deg
    (∃ i : ℤ, d = i) ∧ (∃ j : ℤ, m = j) ∧ 0 ≤ m ∧ m < 60 ∧ 0 ≤ s ∧ s < 60 ∧ |d| + m / 60 + s / 3600 = |deg| ∧
    (0 ≤ deg → 0 ≤ d) ∧ (deg ≤ -1 → d < 0) ∧ (-1 < deg → deg < 0 → d = 0) := by
  have h1 := Int.floor_le |deg|
  have h2 := Int.lt_floor_add_one |deg|
  have h3 := Int.floor_le ((|deg| - ⌊|deg|⌋) * 60)
  have h4 := Int.lt_floor_add_one ((|deg| - ⌊|deg|⌋) * 60)
  have h0 : (0 : ℝ) ≤ ⌊|deg|⌋ := by exact_mod_cast Int.floor_nonneg.2 (abs_nonneg deg)
  have h5 : (0 : ℝ) ≤ ⌊(|deg| - ⌊|deg|⌋) * 60⌋ := by
    exact_mod_cast Int.floor_nonneg.2 (mul_nonneg (by linarith) (by norm_num))
  have h6 : (⌊(|deg| - ⌊|deg|⌋) * 60⌋ : ℝ) < 60 := by linarith
  have hd : |((⌊|deg|⌋ : ℤ) : ℝ) * (if deg < 0 then -1 else 1)| = ⌊|deg|⌋ := by
    split_ifs
    · rw [mul_neg_one, abs_neg, abs_of_nonneg h0]
    · rw [mul_one, abs_of_nonneg h0]
  unfold deg2dms
  simp only
  refine ⟨?_, ⟨_, rfl⟩, h5, h6, by linarith, by linarith, ?_, ?_, ?_, ?_⟩
  · split_ifs
    · exact ⟨-⌊|deg|⌋, by push_cast; ring⟩
    · exact ⟨⌊|deg|⌋, by ring⟩
  · rw [hd]
    ring
  · intro h
    rw [if_neg (not_lt.2 h), mul_one]
    exact h0
  · intro h
    rw [if_pos (by linarith)]
    have : (1 : ℤ) ≤ ⌊|deg|⌋ := Int.le_floor.2 (by rw [abs_of_neg (by linarith)]; push_cast; linarith)
    have : (1 : ℝ) ≤ ⌊|deg|⌋ := by exact_mod_cast this
    linarith
  · intro h h'
    have : ⌊|deg|⌋ = 0 := Int.floor_eq_iff.2 ⟨by simp, by rw [abs_of_neg h']; push_cast; linarith⟩
    rw [this]
    simp

/-- half a degree south is returned as half a degree north -/
theorem dms_sign : deg2dms (-1 / 2) = deg2dms (1 / 2) := by
  unfold deg2dms
  simp only
  rw [show |(-1 / 2 : ℝ)| = 1 / 2 by rw [abs_of_neg (by norm_num)]; norm_num, show |(1 / 2 : ℝ)| = 1 / 2 from abs_of_pos (by norm_num),
    show ⌊(1 / 2 : ℝ)⌋ = 0 by norm_num]
  simp

/-! ## Cases -/

/-- `azel`, `los`: a satellite above -/
example : nrm (⟨0, 0, 1⟩ : V3) = 1 ∧ 0 < nrm (vsub ⟨0, 0, 26600000⟩ ⟨6378137, 0, 0⟩) ∧ (⟨0, 0, 26600000⟩ : V3) ≠ ⟨6378137, 0, 0⟩ := by
  refine ⟨by unfold nrm dot; norm_num, sqrt_pos.2 (by unfold dot vsub; norm_num), fun h => ?_⟩
  have := congrArg V3.x h
  norm_num at this

/-- `back`: a station, a satellite and a pole are far enough from the centre -/
example : re / 2 ≤ nrm ⟨-3947762, 3364399, 3699428⟩ ∧ re / 2 ≤ nrm ⟨0, 0, -6356752⟩ := by
  constructor <;> exact le_sqrt_of_sq_le (by unfold re dot; norm_num)

/-- `forth`: 45 degrees north, 90 degrees west, a hundred metres -/
example : |(π / 4)| ≤ π / 2 ∧ (-π < -(π / 2) ∧ -(π / 2) ≤ π) ∧ (-3000000 : ℝ) ≤ 100 := by
  have := pi_pos
  exact ⟨by rw [abs_of_pos (by positivity)]; linarith, ⟨by linarith, by linarith⟩, by norm_num⟩

/-- on the equator: position, and the correction of the distance to a satellite in the east -/
example : (pos2ecef ⟨0, 0, 10⟩).1 = ⟨6378147, 0, 0⟩ ∧
    (geodist ⟨6378137, 20000000, 0⟩ ⟨6378137, 0, 0⟩).1 = 20000000 - 72921151467 / 10 ^ 15 * (20000000 * 6378137) / 299792458 := by
  constructor
  · simp only [pos2ecef, Bool.false_eq_true, if_false, sin_zero, cos_zero, re]
    ext <;> norm_num
  · unfold geodist nrm vsub dot omge clight
    simp only
    rw [show (6378137 - 6378137 : ℝ) * (6378137 - 6378137) + (20000000 - 0) * (20000000 - 0) + (0 - 0) * (0 - 0) = 20000000 ^ 2 by norm_num,
      sqrt_sq (by norm_num)]
    norm_num

end Verif.C94
