import Verif.Model.Windup
import Mathlib.Tactic.Linarith
import Mathlib.Tactic.LinearCombination
import Mathlib.Analysis.InnerProductSpace.PiL2
/-!
# C51 Phase wind-up is continuous
-/

namespace Verif.C51
open Verif.Windup Matrix Real

/-! ## Geometry -/

theorem norm3_sq (v : V3) : norm3 v ^ 2 = v ⬝ᵥ v := by
  unfold norm3
  rw [Real.sq_sqrt]
  rw [dotProduct, Fin.sum_univ_three]
  nlinarith [mul_self_nonneg (v 0), mul_self_nonneg (v 1), mul_self_nonneg (v 2)]

theorem norm3_nonneg (v : V3) : 0 ≤ norm3 v := Real.sqrt_nonneg _

/-- Lagrange's identity -/
theorem lagrange (u v : V3) : (norm3 u * norm3 v) ^ 2 = (u ⬝ᵥ v) ^ 2 + norm3 (u ⨯₃ v) ^ 2 := by
  rw [mul_pow, norm3_sq, norm3_sq, norm3_sq, cross_apply]
  simp only [dotProduct, Fin.sum_univ_three, cons_val_zero, cons_val_one, cons_val]
  ring

/-- the clipping to [-1, 1] never changes the value -/
theorem cosine_eq (ds dr : V3) (h : norm3 ds * norm3 dr ≠ 0) :
    cosine ds dr * (norm3 ds * norm3 dr) = ds ⬝ᵥ dr ∧ -1 ≤ cosine ds dr ∧ cosine ds dr ≤ 1 := by
  have hp : 0 < norm3 ds * norm3 dr := lt_of_le_of_ne (mul_nonneg (norm3_nonneg _) (norm3_nonneg _)) (Ne.symm h)
  have hl := lagrange ds dr
  have habs : |ds ⬝ᵥ dr| ≤ norm3 ds * norm3 dr := by
    refine abs_le_of_sq_le_sq ?_ hp.le
    nlinarith [sq_nonneg (norm3 (ds ⨯₃ dr))]
  have h1 : (ds ⬝ᵥ dr) / (norm3 ds * norm3 dr) ≤ 1 := by
    rw [div_le_one hp]; exact (abs_le.1 habs).2
  have h2 : -1 ≤ (ds ⬝ᵥ dr) / (norm3 ds * norm3 dr) := by
    rw [le_div_iff₀ hp]; linarith [(abs_le.1 habs).1]
  unfold cosine
  rw [if_neg h, min_eq_right h1, max_eq_right h2]
  exact ⟨div_mul_cancel₀ _ h, h2, h1⟩

/-- **Geometric value**: the angle (in cycles) lies in [-1/2, 1/2]; its cosine is that of the angle
between the effective dipoles, its sine has the size of their cross product and the sign of the
cross product along the line of sight. -/
theorem angle_spec (ek ds dr : V3) (h : norm3 ds * norm3 dr ≠ 0) :
    |angle ek ds dr| ≤ 1 / 2 ∧
    Real.cos (2 * π * angle ek ds dr) * (norm3 ds * norm3 dr) = ds ⬝ᵥ dr ∧
    Real.sin (2 * π * angle ek ds dr) * (norm3 ds * norm3 dr) =
      (if ek ⬝ᵥ (ds ⨯₃ dr) < 0 then -norm3 (ds ⨯₃ dr) else norm3 (ds ⨯₃ dr)) := by
  obtain ⟨c1, c2, c3⟩ := cosine_eq ds dr h
  have hp : 0 < norm3 ds * norm3 dr := lt_of_le_of_ne (mul_nonneg (norm3_nonneg _) (norm3_nonneg _)) (Ne.symm h)
  have hpi := Real.pi_pos
  have a0 := Real.arccos_nonneg (cosine ds dr)
  have a1 := Real.arccos_le_pi (cosine ds dr)
  have hb : |Real.arccos (cosine ds dr) / (2 * π)| ≤ 1 / 2 := by
    rw [abs_of_nonneg (by positivity), div_le_iff₀ (by positivity)]
    linarith
  have hm : 2 * π * (Real.arccos (cosine ds dr) / (2 * π)) = Real.arccos (cosine ds dr) := by
    field_simp
  have hs : Real.sin (Real.arccos (cosine ds dr)) * (norm3 ds * norm3 dr) = norm3 (ds ⨯₃ dr) := by
    rw [Real.sin_arccos]
    have e : (1 - cosine ds dr ^ 2) = (norm3 (ds ⨯₃ dr) / (norm3 ds * norm3 dr)) ^ 2 := by
      rw [div_pow, eq_div_iff (by positivity)]
      have := lagrange ds dr
      rw [← c1] at this
      nlinarith
    rw [e, Real.sqrt_sq (div_nonneg (norm3_nonneg _) hp.le), div_mul_cancel₀ _ h]
  unfold angle
  simp only
  by_cases c : ek ⬝ᵥ (ds ⨯₃ dr) < 0
  · rw [if_pos c, if_pos c, abs_neg, mul_neg, Real.cos_neg, Real.sin_neg, hm, Real.cos_arccos c2 c3]
    exact ⟨hb, c1, by rw [neg_mul, hs]⟩
  · rw [if_neg c, if_neg c, hm, Real.cos_arccos c2 c3]
    exact ⟨hb, c1, hs⟩

/-! ## Continuity -/

/-- **Whole cycles and half a cycle**: the correction differs from the geometric value by a whole
number of cycles, and from the previous correction by at most half a cycle. -/
theorem windup_spec (g : Geom) (phw : ℝ) :
    (∃ k : ℤ, windup g phw = g.ph + k) ∧ -(1 / 2) < windup g phw - phw ∧ windup g phw - phw ≤ 1 / 2 := by
  have h1 := Int.floor_le (phw - g.ph + 1 / 2)
  have h2 := Int.lt_floor_add_one (phw - g.ph + 1 / 2)
  refine ⟨⟨_, rfl⟩, ?_, ?_⟩
  · unfold windup; linarith
  · unfold windup; linarith

/-- **and is the only such value** -/
theorem windup_unique (g : Geom) (phw v : ℝ) (k : ℤ) (hk : v = g.ph + k) (h1 : -(1 / 2) < v - phw) (h2 : v - phw ≤ 1 / 2) :
    v = windup g phw := by
  unfold windup
  rw [hk]
  congr 2
  symm
  rw [Int.floor_eq_iff]
  constructor <;> linarith

/-- corrections of a sequence of geometries, starting from `phw` -/
noncomputable def track (phw : ℝ) : List Geom → List ℝ
  | [] => []
  | g :: gs => windup g phw :: track (windup g phw) gs

/-- **No cycle slips**: whenever a continuous (unwrapped) rotation angle moves by less than half a
cycle between epochs, the corrections reproduce it exactly, over any number of epochs. -/
theorem track_unwrapped : ∀ (gs : List Geom) (phw : ℝ) (Φ : List ℝ), Φ.length = gs.length →
    (∀ i (h : i < gs.length) (h' : i < Φ.length), ∃ k : ℤ, Φ[i] = gs[i].ph + k) →
    (∀ i (h : i < Φ.length), |Φ[i] - (if i = 0 then phw else Φ[i - 1]'(by omega))| < 1 / 2) →
    track phw gs = Φ
  | [], phw, Φ, hl, _, _ => by
    rw [List.length_nil, List.length_eq_zero_iff] at hl
    rw [hl]; rfl
  | g :: gs, phw, [], hl, _, _ => by cases hl
  | g :: gs, phw, v :: Φ, hl, hk, hs => by
    obtain ⟨k, h0⟩ := hk 0 (by simp) (by simp)
    have hs0 := hs 0 (by simp)
    simp only [List.getElem_cons_zero, if_true] at h0 hs0
    rw [abs_lt] at hs0
    have e := windup_unique g phw v k h0 hs0.1 hs0.2.le
    rw [track, ← e]
    congr 1
    refine track_unwrapped gs v Φ (by simpa using hl) ?_ ?_
    · intro i h h'
      obtain ⟨k, hk⟩ := hk (i + 1) (by simpa using h) (by simpa using h')
      exact ⟨k, by simpa using hk⟩
    · intro i h
      have := hs (i + 1) (by simpa using h)
      cases i with
      | zero => simpa using this
      | succ i => simpa using this

/-! ## Turning the antennas -/

theorem dot3 (u v : V3) : u ⬝ᵥ v = u 0 * v 0 + u 1 * v 1 + u 2 * v 2 := by
  rw [dotProduct, Fin.sum_univ_three]

/-- the effective dipoles are perpendicular to the line of sight -/
theorem dip_perp (ek x y : V3) (h : ek ⬝ᵥ ek = 1) : ek ⬝ᵥ dipS ek x y = 0 ∧ ek ⬝ᵥ dipR ek x y = 0 := by
  constructor
  · rw [dipS, dotProduct_sub, dotProduct_sub, dotProduct_smul, h, dot_self_cross]
    simp
  · rw [dipR, dotProduct_add, dotProduct_sub, dotProduct_smul, h, dot_self_cross]
    simp

/-- vectors perpendicular to the line of sight -/
theorem cross_along {ek u v : V3} (h : ek ⬝ᵥ ek = 1) (hu : ek ⬝ᵥ u = 0) (hv : ek ⬝ᵥ v = 0) :
    norm3 (u ⨯₃ v) = |ek ⬝ᵥ (u ⨯₃ v)| := by
  have hz : ek ⨯₃ (u ⨯₃ v) = 0 := by
    simp only [dot3] at hu hv
    ext i
    simp only [cross_apply, cons_val_zero, cons_val_one, cons_val, Pi.zero_apply]
    fin_cases i <;> simp only [Fin.zero_eta, Fin.mk_one, Fin.reduceFinMk, cons_val_zero, cons_val_one, cons_val]
    · linear_combination u 0 * hv - v 0 * hu
    · linear_combination u 1 * hv - v 1 * hu
    · linear_combination u 2 * hv - v 2 * hu
  have hl := lagrange ek (u ⨯₃ v)
  have hk : norm3 ek = 1 := by rw [norm3, h, Real.sqrt_one]
  have h0 : norm3 (0 : V3) = 0 := by simp [norm3]
  rw [hz, hk, h0, one_mul] at hl
  refine (sq_eq_sq₀ (norm3_nonneg _) (abs_nonneg _)).1 ?_
  rw [sq_abs, hl]
  ring

/-- for dipoles perpendicular to the line of sight: cosine and sine of the angle -/
theorem angle_cs {ek ds dr : V3} (h : ek ⬝ᵥ ek = 1) (hs : ek ⬝ᵥ ds = 0) (hr : ek ⬝ᵥ dr = 0) (h0 : norm3 ds * norm3 dr ≠ 0) :
    Real.cos (2 * π * angle ek ds dr) * (norm3 ds * norm3 dr) = ds ⬝ᵥ dr ∧
    Real.sin (2 * π * angle ek ds dr) * (norm3 ds * norm3 dr) = ek ⬝ᵥ (ds ⨯₃ dr) := by
  obtain ⟨_, h1, h2⟩ := angle_spec ek ds dr h0
  refine ⟨h1, h2.trans ?_⟩
  rw [cross_along h hs hr]
  split_ifs with c
  · rw [abs_of_neg c, neg_neg]
  · rw [abs_of_nonneg (not_lt.1 c)]

/-- `v` turned by `β` about `ek` (for `v` perpendicular to `ek`) -/
noncomputable def turn (ek : V3) (β : ℝ) (v : V3) : V3 := Real.cos β • v + Real.sin β • (ek ⨯₃ v)

theorem norm3_turn {ek v : V3} (β : ℝ) (h : ek ⬝ᵥ ek = 1) (hv : ek ⬝ᵥ v = 0) : norm3 (turn ek β v) = norm3 v := by
  unfold norm3
  congr 1
  have hc := Real.sin_sq_add_cos_sq β
  simp only [turn, cross_apply, dot3, Pi.add_apply, Pi.smul_apply, smul_eq_mul, cons_val_zero, cons_val_one, cons_val] at *
  linear_combination (v 0 * v 0 + v 1 * v 1 + v 2 * v 2) * hc +
    Real.sin β ^ 2 * (v 0 * v 0 + v 1 * v 1 + v 2 * v 2) * h -
    Real.sin β ^ 2 * (ek 0 * v 0 + ek 1 * v 1 + ek 2 * v 2) * hv

theorem perp_turn {ek v : V3} (β : ℝ) (hv : ek ⬝ᵥ v = 0) : ek ⬝ᵥ turn ek β v = 0 := by
  rw [turn, dotProduct_add, dotProduct_smul, dotProduct_smul, hv, dot_self_cross]
  simp

theorem cycles {a b : ℝ} (hc : Real.cos (2 * π * a) = Real.cos (2 * π * b)) (hs : Real.sin (2 * π * a) = Real.sin (2 * π * b)) :
    ∃ k : ℤ, a = b + k := by
  have h : ((2 * π * a : ℝ) : Real.Angle) = ((2 * π * b : ℝ) : Real.Angle) := Real.Angle.cos_sin_inj hc hs
  obtain ⟨k, hk⟩ := Real.Angle.angle_eq_iff_two_pi_dvd_sub.1 h
  refine ⟨k, ?_⟩
  have : (2 * π) * (a - b - k) = 0 := by linear_combination hk
  have h2 : (2 * π) ≠ 0 := by positivity
  linarith [(mul_eq_zero.1 this).resolve_left h2]

/-- turning the second dipole turns the angle -/
theorem angle_turn {ek ds dr : V3} (β : ℝ) (h : ek ⬝ᵥ ek = 1) (hs : ek ⬝ᵥ ds = 0) (hr : ek ⬝ᵥ dr = 0)
    (h0 : norm3 ds * norm3 dr ≠ 0) :
    ∃ k : ℤ, angle ek ds (turn ek β dr) = angle ek ds dr + β / (2 * π) + k := by
  obtain ⟨c1, s1⟩ := angle_cs h hs hr h0
  have hn := norm3_turn β h hr
  obtain ⟨c2, s2⟩ := angle_cs h hs (perp_turn β hr) (by rw [hn]; exact h0)
  rw [hn] at c2 s2
  have e : 2 * π * (angle ek ds dr + β / (2 * π)) = 2 * π * angle ek ds dr + β := by
    have : (2 * π) ≠ 0 := by positivity
    field_simp
  refine cycles ?_ ?_
  · rw [e, Real.cos_add]
    apply mul_right_cancel₀ h0
    rw [c2, sub_mul, mul_right_comm, c1, mul_right_comm (Real.sin _), s1]
    simp only [turn, cross_apply, dot3, Pi.add_apply, Pi.smul_apply, smul_eq_mul, cons_val_zero, cons_val_one, cons_val]
    ring
  · rw [e, Real.sin_add]
    apply mul_right_cancel₀ h0
    rw [s2, add_mul, mul_right_comm, s1, mul_right_comm (Real.cos _), c1]
    simp only [turn, cross_apply, dot3, Pi.add_apply, Pi.smul_apply, smul_eq_mul, cons_val_zero, cons_val_one, cons_val] at *
    linear_combination Real.sin β * (ds 0 * dr 0 + ds 1 * dr 1 + ds 2 * dr 2) * h -
      Real.sin β * (ek 0 * dr 0 + ek 1 * dr 1 + ek 2 * dr 2) * hs

/-- turning the first dipole turns the angle back -/
theorem angle_turn' {ek ds dr : V3} (β : ℝ) (h : ek ⬝ᵥ ek = 1) (hs : ek ⬝ᵥ ds = 0) (hr : ek ⬝ᵥ dr = 0)
    (h0 : norm3 ds * norm3 dr ≠ 0) :
    ∃ k : ℤ, angle ek (turn ek β ds) dr = angle ek ds dr - β / (2 * π) + k := by
  obtain ⟨c1, s1⟩ := angle_cs h hs hr h0
  have hn := norm3_turn β h hs
  obtain ⟨c2, s2⟩ := angle_cs h (perp_turn β hs) hr (by rw [hn]; exact h0)
  rw [hn] at c2 s2
  have e : 2 * π * (angle ek ds dr - β / (2 * π)) = 2 * π * angle ek ds dr - β := by
    have : (2 * π) ≠ 0 := by positivity
    field_simp
  refine cycles ?_ ?_
  · rw [e, Real.cos_sub]
    apply mul_right_cancel₀ h0
    rw [c2, add_mul, mul_right_comm, c1, mul_right_comm (Real.sin _), s1]
    simp only [turn, cross_apply, dot3, Pi.add_apply, Pi.smul_apply, smul_eq_mul, cons_val_zero, cons_val_one, cons_val]
    ring
  · rw [e, Real.sin_sub]
    apply mul_right_cancel₀ h0
    rw [s2, sub_mul, mul_right_comm, s1, mul_right_comm (Real.cos _), c1]
    simp only [turn, cross_apply, dot3, Pi.add_apply, Pi.smul_apply, smul_eq_mul, cons_val_zero, cons_val_one, cons_val] at *
    linear_combination -Real.sin β * (ds 0 * dr 0 + ds 1 * dr 1 + ds 2 * dr 2) * h +
      Real.sin β * (ek 0 * ds 0 + ek 1 * ds 1 + ek 2 * ds 2) * hr

/-- the geometry with the receiver antenna turned by `α` from its first towards its second axis -/
noncomputable def turnRcv (g : Geom) (α : ℝ) : Geom :=
  { g with
    exr := Real.cos α • g.exr + Real.sin α • g.eyr
    eyr := Real.cos α • g.eyr - Real.sin α • g.exr }

/-- the geometry with the satellite turned likewise -/
noncomputable def turnSat (g : Geom) (α : ℝ) : Geom :=
  { g with
    exs := Real.cos α • g.exs + Real.sin α • g.eys
    eys := Real.cos α • g.eys - Real.sin α • g.exs }

theorem dipR_turn (ek x y : V3) (α : ℝ) (h : ek ⬝ᵥ ek = 1) :
    dipR ek (Real.cos α • x + Real.sin α • y) (Real.cos α • y - Real.sin α • x) = turn ek (-α) (dipR ek x y) := by
  ext i
  simp only [turn, dipR, Real.cos_neg, Real.sin_neg, cross_apply, dot3, Pi.add_apply, Pi.sub_apply, Pi.smul_apply, smul_eq_mul,
    cons_val_zero, cons_val_one, cons_val] at *
  fin_cases i <;> simp only [Fin.zero_eta, Fin.mk_one, Fin.reduceFinMk, cons_val_zero, cons_val_one, cons_val]
  · linear_combination -Real.sin α * y 0 * h
  · linear_combination -Real.sin α * y 1 * h
  · linear_combination -Real.sin α * y 2 * h

theorem dipS_turn (ek x y : V3) (α : ℝ) (h : ek ⬝ᵥ ek = 1) :
    dipS ek (Real.cos α • x + Real.sin α • y) (Real.cos α • y - Real.sin α • x) = turn ek α (dipS ek x y) := by
  ext i
  simp only [turn, dipS, cross_apply, dot3, Pi.add_apply, Pi.sub_apply, Pi.smul_apply, smul_eq_mul,
    cons_val_zero, cons_val_one, cons_val] at *
  fin_cases i <;> simp only [Fin.zero_eta, Fin.mk_one, Fin.reduceFinMk, cons_val_zero, cons_val_one, cons_val]
  · linear_combination -Real.sin α * y 0 * h
  · linear_combination -Real.sin α * y 1 * h
  · linear_combination -Real.sin α * y 2 * h

/-- **Turning the receiver antenna** about its vertical axis by any angle changes the correction by
exactly that angle (up to whole cycles), in whatever direction the satellite is seen. -/
theorem turn_receiver (g : Geom) (α : ℝ) (h : g.ek ⬝ᵥ g.ek = 1)
    (h0 : norm3 (dipS g.ek g.exs g.eys) * norm3 (dipR g.ek g.exr g.eyr) ≠ 0) :
    ∃ k : ℤ, (turnRcv g α).ph = g.ph - α / (2 * π) + k := by
  obtain ⟨k, hk⟩ := angle_turn (-α) h (dip_perp _ g.exs g.eys h).1 (dip_perp _ g.exr g.eyr h).2 h0
  refine ⟨k, ?_⟩
  unfold Geom.ph turnRcv
  simp only
  rw [dipR_turn _ _ _ _ h, hk]
  ring

/-- **Turning the satellite** about its own axis does the same. -/
theorem turn_satellite (g : Geom) (α : ℝ) (h : g.ek ⬝ᵥ g.ek = 1)
    (h0 : norm3 (dipS g.ek g.exs g.eys) * norm3 (dipR g.ek g.exr g.eyr) ≠ 0) :
    ∃ k : ℤ, (turnSat g α).ph = g.ph - α / (2 * π) + k := by
  obtain ⟨k, hk⟩ := angle_turn' α h (dip_perp _ g.exs g.eys h).1 (dip_perp _ g.exr g.eyr h).2 h0
  refine ⟨k, ?_⟩
  unfold Geom.ph turnSat
  simp only
  rw [dipS_turn _ _ _ _ h, hk]

/-! ## Where the angle is defined -/

/-- a right-handed orthonormal frame -/
def Frame (x y z : V3) : Prop := x ⬝ᵥ x = 1 ∧ y ⬝ᵥ y = 1 ∧ x ⬝ᵥ y = 0 ∧ x ⨯₃ y = z

theorem gram (k x y : V3) : (k ⬝ᵥ (x ⨯₃ y)) ^ 2 =
    (k ⬝ᵥ k) * ((x ⬝ᵥ x) * (y ⬝ᵥ y) - (x ⬝ᵥ y) ^ 2) - (k ⬝ᵥ x) * ((k ⬝ᵥ x) * (y ⬝ᵥ y) - (k ⬝ᵥ y) * (x ⬝ᵥ y)) +
      (k ⬝ᵥ y) * ((k ⬝ᵥ x) * (x ⬝ᵥ y) - (k ⬝ᵥ y) * (x ⬝ᵥ x)) := by
  simp only [cross_apply, dot3, cons_val_zero, cons_val_one, cons_val]
  ring

theorem dipS_sq (k x y : V3) (h : k ⬝ᵥ k = 1) : dipS k x y ⬝ᵥ dipS k x y =
    (x ⬝ᵥ x) - (k ⬝ᵥ x) ^ 2 + ((y ⬝ᵥ y) - (k ⬝ᵥ y) ^ 2) + 2 * (k ⬝ᵥ (x ⨯₃ y)) := by
  simp only [dipS, cross_apply, dot3, Pi.sub_apply, Pi.smul_apply, smul_eq_mul, cons_val_zero, cons_val_one, cons_val] at *
  linear_combination ((k 0 * x 0 + k 1 * x 1 + k 2 * x 2) ^ 2 + (y 0 * y 0 + y 1 * y 1 + y 2 * y 2)) * h

theorem dipR_sq (k x y : V3) (h : k ⬝ᵥ k = 1) : dipR k x y ⬝ᵥ dipR k x y =
    (x ⬝ᵥ x) - (k ⬝ᵥ x) ^ 2 + ((y ⬝ᵥ y) - (k ⬝ᵥ y) ^ 2) - 2 * (k ⬝ᵥ (x ⨯₃ y)) := by
  simp only [dipR, cross_apply, dot3, Pi.add_apply, Pi.sub_apply, Pi.smul_apply, smul_eq_mul, cons_val_zero, cons_val_one, cons_val] at *
  linear_combination ((k 0 * x 0 + k 1 * x 1 + k 2 * x 2) ^ 2 + (y 0 * y 0 + y 1 * y 1 + y 2 * y 2)) * h

/-- **Length of the dipoles**: 1 + cosine of the angle off the satellite's axis, and 1 + cosine of
the zenith angle at the receiver; so neither vanishes for a receiver in front of the satellite and a
satellite above the horizon. -/
theorem dip_length {ek xs ys zs xr yr zr : V3} (h : ek ⬝ᵥ ek = 1) (hs : Frame xs ys zs) (hr : Frame xr yr zr) :
    norm3 (dipS ek xs ys) = |1 + ek ⬝ᵥ zs| ∧ norm3 (dipR ek xr yr) = |1 - ek ⬝ᵥ zr| := by
  obtain ⟨a1, a2, a3, rfl⟩ := hs
  obtain ⟨b1, b2, b3, rfl⟩ := hr
  have g1 := gram ek xs ys
  have g2 := gram ek xr yr
  rw [h, a1, a2, a3] at g1
  rw [h, b1, b2, b3] at g2
  constructor
  · unfold norm3
    rw [dipS_sq _ _ _ h, a1, a2, ← Real.sqrt_sq_eq_abs]
    congr 1
    linear_combination -g1
  · unfold norm3
    rw [dipR_sq _ _ _ h, b1, b2, ← Real.sqrt_sq_eq_abs]
    congr 1
    linear_combination -g2

/-- seen face on, the dipoles are twice the first axes: then the angle is the one between the axes -/
theorem face_on {xs ys zs xr yr zr : V3} (hs : Frame xs ys zs) (hr : Frame xr yr zr) :
    dipS zs xs ys = (2 : ℝ) • xs ∧ dipR (-zr) xr yr = (2 : ℝ) • xr := by
  obtain ⟨a1, a2, a3, rfl⟩ := hs
  obtain ⟨b1, b2, b3, rfl⟩ := hr
  constructor
  · ext i
    simp only [dipS, cross_apply, dot3, Pi.sub_apply, Pi.smul_apply, smul_eq_mul, cons_val_zero, cons_val_one, cons_val] at *
    fin_cases i <;> simp only [Fin.zero_eta, Fin.mk_one, Fin.reduceFinMk, cons_val_zero, cons_val_one, cons_val]
    · linear_combination xs 0 * a2 - ys 0 * a3
    · linear_combination xs 1 * a2 - ys 1 * a3
    · linear_combination xs 2 * a2 - ys 2 * a3
  · ext i
    simp only [dipR, cross_apply, dot3, Pi.add_apply, Pi.neg_apply, Pi.sub_apply, Pi.smul_apply, smul_eq_mul, cons_val_zero,
      cons_val_one, cons_val] at *
    fin_cases i <;> simp only [Fin.zero_eta, Fin.mk_one, Fin.reduceFinMk, cons_val_zero, cons_val_one, cons_val]
    · linear_combination xr 0 * b2 - yr 0 * b3
    · linear_combination xr 1 * b2 - yr 1 * b3
    · linear_combination xr 2 * b2 - yr 2 * b3

theorem self_zero {v : V3} (h : v ⬝ᵥ v = 0) : v = 0 := by
  rw [dot3] at h
  have h0 := mul_self_nonneg (v 0)
  have h1 := mul_self_nonneg (v 1)
  have h2 := mul_self_nonneg (v 2)
  have e0 : v 0 = 0 := mul_self_eq_zero.1 (by linarith)
  have e1 : v 1 = 0 := mul_self_eq_zero.1 (by linarith)
  have e2 : v 2 = 0 := mul_self_eq_zero.1 (by linarith)
  ext i
  fin_cases i
  · exact e0
  · exact e1
  · exact e2

theorem unit_one {v : V3} (h : v ≠ 0) : unit v ⬝ᵥ unit v = 1 := by
  have h1 : v ⬝ᵥ v ≠ 0 := fun e => h (self_zero e)
  unfold unit
  rw [smul_dotProduct, dotProduct_smul, ← norm3_sq]
  have h2 : norm3 v ≠ 0 := by
    intro e
    rw [← norm3_sq, e] at h1
    exact h1 (by norm_num)
  simp only [smul_eq_mul]
  field_simp

/-- **Satellite frame**: whenever the orienting direction is not along the radius, the computed axes are a
right-handed orthonormal frame whose third axis points to the centre of the Earth; the second is
perpendicular to the orienting direction and the first on its side. -/
theorem frame_ok {rs ess : V3} (h : rs ⨯₃ ess ≠ 0) :
    Frame (satFrame rs ess).1 (satFrame rs ess).2.1 (satFrame rs ess).2.2 ∧
      (satFrame rs ess).2.2 = -(unit rs) ∧ (satFrame rs ess).2.1 ⬝ᵥ ess = 0 ∧ 0 < (satFrame rs ess).1 ⬝ᵥ ess := by
  have hrs : -rs ≠ 0 := by
    intro e
    rw [neg_eq_zero] at e
    rw [e] at h
    simp at h
  have hz := unit_one hrs
  have hn : norm3 (-rs) ≠ 0 := by
    intro e
    unfold unit at hz
    rw [e] at hz
    simp at hz
  have hc : (unit (-rs)) ⨯₃ ess ≠ 0 := by
    unfold unit
    rw [map_smul, LinearMap.smul_apply, map_neg, LinearMap.neg_apply]
    exact smul_ne_zero (inv_ne_zero hn) (neg_ne_zero.2 h)
  have hy := unit_one hc
  have hc1 : ((unit (-rs)) ⨯₃ ess) ⬝ᵥ ((unit (-rs)) ⨯₃ ess) ≠ 0 := fun e => hc (self_zero e)
  have hcn : norm3 ((unit (-rs)) ⨯₃ ess) ≠ 0 := by
    intro e
    rw [← norm3_sq, e] at hc1
    exact hc1 (by norm_num)
  have hpos : 0 < norm3 ((unit (-rs)) ⨯₃ ess) := lt_of_le_of_ne (norm3_nonneg _) (Ne.symm hcn)
  have hneg : unit (-rs) = -(unit rs) := by
    unfold unit norm3
    rw [neg_dotProduct_neg, smul_neg]
  unfold satFrame
  simp only
  generalize hZ : unit (-rs) = z at *
  have hyz : unit (z ⨯₃ ess) ⬝ᵥ z = 0 := by
    unfold unit
    rw [smul_dotProduct, dotProduct_comm, dot_self_cross]
    simp
  have hys : unit (z ⨯₃ ess) ⬝ᵥ ess = 0 := by
    unfold unit
    rw [smul_dotProduct, dotProduct_comm, dot_cross_self]
    simp
  have hpy : 0 < (unit (z ⨯₃ ess) ⨯₃ z) ⬝ᵥ ess := by
    have e : (unit (z ⨯₃ ess) ⨯₃ z) ⬝ᵥ ess = (norm3 (z ⨯₃ ess))⁻¹ * ((z ⨯₃ ess) ⬝ᵥ (z ⨯₃ ess)) := by
      unfold unit
      simp only [cross_apply, dot3, Pi.smul_apply, smul_eq_mul, cons_val_zero, cons_val_one, cons_val]
      ring
    rw [e, ← norm3_sq]
    positivity
  generalize hY : unit (z ⨯₃ ess) = y at *
  refine ⟨⟨?_, hy, ?_, ?_⟩, hneg, hys, hpy⟩
  · simp only [cross_apply, dot3, cons_val_zero, cons_val_one, cons_val] at *
    linear_combination hy * (z 0 * z 0 + z 1 * z 1 + z 2 * z 2) + hz - (y 0 * z 0 + y 1 * z 1 + y 2 * z 2) * hyz
  · rw [dotProduct_comm, dot_self_cross]
  · ext i
    simp only [cross_apply, dot3, cons_val_zero, cons_val_one, cons_val] at *
    fin_cases i <;> simp only [Fin.zero_eta, Fin.mk_one, Fin.reduceFinMk, cons_val_zero, cons_val_one, cons_val]
    · linear_combination z 0 * hy - y 0 * hyz
    · linear_combination z 1 * hy - y 1 * hyz
    · linear_combination z 2 * hy - y 2 * hyz

/-- **The whole correction**: for a satellite oriented by `ess` and a receiver whose local axes are east
`exr`, north `eyr` and up `ezr`, turning the receiver by `α` changes the correction by `α` up to whole cycles,
as soon as the receiver is in front of the satellite and the satellite above the horizon. -/
theorem windupcorr_turn {rs rr ess exr eyr ezr : V3} (α phw phw' : ℝ) (h : rs ⨯₃ ess ≠ 0) (hd : rr - rs ≠ 0)
    (hr : Frame exr eyr ezr) (h1 : (rr - rs) ⬝ᵥ rs < 0) (h2 : (rr - rs) ⬝ᵥ ezr < 0) :
    ∃ k : ℤ, windupcorr rs rr ess (Real.cos α • exr + Real.sin α • eyr) (Real.cos α • eyr - Real.sin α • exr) phw' =
      windupcorr rs rr ess exr eyr phw - α / (2 * π) + k := by
  have hu := unit_one hd
  obtain ⟨hf, hz, _, _⟩ := frame_ok h
  have hpos : ∀ {v : V3}, v ≠ 0 → 0 < norm3 v := by
    intro v hv
    refine lt_of_le_of_ne (norm3_nonneg _) ?_
    intro e
    have := unit_one hv
    unfold unit at this
    rw [← e] at this
    simp at this
  have hrs : rs ≠ 0 := by
    intro e
    rw [e] at h
    simp at h
  obtain ⟨l1, l2⟩ := dip_length (ek := unit (rr - rs)) hu hf hr
  have hp1 := hpos hd
  have hp2 := hpos hrs
  have c1 : 0 < 1 + unit (rr - rs) ⬝ᵥ (satFrame rs ess).2.2 := by
    rw [hz, dotProduct_neg]
    unfold unit
    rw [smul_dotProduct, dotProduct_smul]
    simp only [smul_eq_mul]
    have : (norm3 (rr - rs))⁻¹ * ((norm3 rs)⁻¹ * ((rr - rs) ⬝ᵥ rs)) < 0 :=
      mul_neg_of_pos_of_neg (inv_pos.2 hp1) (mul_neg_of_pos_of_neg (inv_pos.2 hp2) h1)
    linarith
  have c2 : 0 < 1 - unit (rr - rs) ⬝ᵥ ezr := by
    unfold unit
    rw [smul_dotProduct]
    simp only [smul_eq_mul]
    have : (norm3 (rr - rs))⁻¹ * ((rr - rs) ⬝ᵥ ezr) < 0 := mul_neg_of_pos_of_neg (inv_pos.2 hp1) h2
    linarith
  have h0 : norm3 (dipS (unit (rr - rs)) (satFrame rs ess).1 (satFrame rs ess).2.1) *
      norm3 (dipR (unit (rr - rs)) exr eyr) ≠ 0 := by
    rw [l1, l2]
    exact mul_ne_zero (abs_pos.2 c1.ne').ne' (abs_pos.2 c2.ne').ne'
  obtain ⟨k, hk⟩ := turn_receiver ⟨unit (rr - rs), (satFrame rs ess).1, (satFrame rs ess).2.1, exr, eyr⟩ α hu h0
  obtain ⟨⟨k1, e1⟩, _⟩ := windup_spec ⟨unit (rr - rs), (satFrame rs ess).1, (satFrame rs ess).2.1, exr, eyr⟩ phw
  obtain ⟨⟨k2, e2⟩, _⟩ := windup_spec (turnRcv ⟨unit (rr - rs), (satFrame rs ess).1, (satFrame rs ess).2.1, exr, eyr⟩ α) phw'
  refine ⟨k + k2 - k1, ?_⟩
  unfold windupcorr
  simp only
  unfold turnRcv at e2 hk
  simp only at e2 hk
  rw [e1, e2, hk]
  push_cast
  ring

/-- vanishing dipoles give the angle zero -/
theorem angle_degenerate (ek ds dr : V3) (h : norm3 ds * norm3 dr = 0) : angle ek ds dr = 0 := by
  unfold angle cosine
  simp [h]

/-! ## Concrete case: receiver dipole turned by a quarter -/

noncomputable def exG : Geom :=
  { ek := ![0, 0, -1], exs := ![0, 1, 0], eys := ![1, 0, 0], exr := ![1, 0, 0], eyr := ![0, 1, 0] }

example : dipS exG.ek exG.exs exG.eys = ![0, 2, 0] := by
  unfold dipS exG
  simp only [dotProduct, Fin.sum_univ_three, cross_apply]
  ext i
  fin_cases i <;> simp [cons_val] <;> norm_num

example : dipR exG.ek exG.exr exG.eyr = ![2, 0, 0] := by
  unfold dipR exG
  simp only [dotProduct, Fin.sum_univ_three, cross_apply]
  ext i
  fin_cases i <;> simp [cons_val] <;> norm_num

example : norm3 ![0, 2, 0] * norm3 ![2, 0, 0] ≠ 0 := by
  unfold norm3
  simp [dotProduct, Fin.sum_univ_three]

/-- the hypotheses of `windupcorr_turn` hold for a satellite four radii away in the zenith -/
example : (![0, 0, 4] : V3) ⨯₃ ![1, 0, 0] ≠ 0 ∧ (![0, 0, 1] : V3) - ![0, 0, 4] ≠ 0 ∧
    Frame ![1, 0, 0] ![0, 1, 0] ![0, 0, 1] ∧ ((![0, 0, 1] : V3) - ![0, 0, 4]) ⬝ᵥ ![0, 0, 4] < 0 ∧
    ((![0, 0, 1] : V3) - ![0, 0, 4]) ⬝ᵥ ![0, 0, 1] < 0 := by
  refine ⟨?_, ?_, ⟨?_, ?_, ?_, ?_⟩, ?_, ?_⟩
  · intro h
    have := congrFun h 1
    simp [cross_apply] at this
  · intro h
    have := congrFun h 2
    change (1 : ℝ) - 4 = 0 at this
    norm_num at this
  · simp
  · simp
  · simp
  · simp [cross_apply]
  · norm_num [dot3]
  · norm_num [dot3]

end Verif.C51
