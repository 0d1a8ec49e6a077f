import Verif.Model.Kepler
import Mathlib.Analysis.SpecialFunctions.Trigonometric.Bounds
import Mathlib.Analysis.SpecialFunctions.Trigonometric.Deriv
import Mathlib.Analysis.Calculus.Deriv.Inverse
import Mathlib.Tactic.Ring
import Mathlib.Tactic.Linarith
import Mathlib.Tactic.FieldSimp
import Mathlib.Tactic.LinearCombination
/-!
# C92 Position, velocity and clock from broadcast ephemerides

Specification: Kepler's equation and ellipse, orbital plane, velocity as the time derivative of the position, relativistic
effect by position and velocity.
-/

namespace Verif.C92
open Real Verif.Sat Verif.Kepler

/-! ## Kepler's equation -/

theorem loop_spec (M e : ℝ) (he : 0 ≤ e) : ∀ (n : Nat) (E s d : ℝ), |E - (M + e * sin E)| ≤ d → 0 < n →
    ∃ E0, (eccLoop M e n E s).2 = sin E0 ∧ (eccLoop M e n E s).1 = M + e * sin E0 ∧
      |E0 - (eccLoop M e n E s).1| ≤ max (1 / 10 ^ 12) (d * e ^ (n - 1)) := by
  intro n
  induction n with
  | zero => intro _ _ _ _ h; omega
  | succ n ih =>
    intro E s d hd _
    unfold eccLoop
    simp only
    split_ifs with hb
    · exact ⟨E, rfl, rfl, le_trans hb.le (le_max_left _ _)⟩
    · rcases Nat.eq_zero_or_pos n with rfl | hn
      · refine ⟨E, rfl, rfl, le_trans ?_ (le_max_right _ _)⟩
        unfold eccLoop
        simpa using hd
      · have hd' : |M + e * sin E - (M + e * sin (M + e * sin E))| ≤ d * e := by
          have : M + e * sin E - (M + e * sin (M + e * sin E)) = e * (sin E - sin (M + e * sin E)) := by ring
          rw [this, abs_mul, abs_of_nonneg he, mul_comm]
          exact mul_le_mul_of_nonneg_right (le_trans (abs_sin_sub_sin_le _ _) hd) he
        obtain ⟨E0, h1, h2, h3⟩ := ih (M + e * sin E) (sin E) (d * e) hd' hn
        refine ⟨E0, h1, h2, le_trans h3 (le_of_eq ?_)⟩
        congr 1
        rw [mul_assoc, ← pow_succ', Nat.sub_add_cancel hn, Nat.add_sub_cancel]

/-- bound of the last step of the iteration -/
noncomputable def step (e : ℝ) : ℝ := max (1 / 10 ^ 12) (e ^ 10)

/-- the returned anomaly is the image of a value at most `step e` away, whose sine is the returned sine -/
theorem anomaly (M : ℝ) {e : ℝ} (he : 0 ≤ e) :
    ∃ E0, (eccentricAnomaly M e).2 = sin E0 ∧ (eccentricAnomaly M e).1 = M + e * sin E0 ∧
      |E0 - (eccentricAnomaly M e).1| ≤ step e := by
  have h0 : |M - (M + e * sin M)| ≤ e := by
    rw [show M - (M + e * sin M) = -(e * sin M) by ring, abs_neg, abs_mul, abs_of_nonneg he]
    exact mul_le_of_le_one_right he (abs_sin_le_one M)
  obtain ⟨E0, h1, h2, h3⟩ := loop_spec M e he 10 M 0 e h0 (by norm_num)
  refine ⟨E0, h1, h2, le_trans h3 (le_of_eq ?_)⟩
  unfold step
  congr 1
  ring

/-- **Kepler's equation** is met to `e` times the last step -/
theorem kepler (M : ℝ) {e : ℝ} (he : 0 ≤ e) :
    |(eccentricAnomaly M e).1 - e * sin (eccentricAnomaly M e).1 - M| ≤ e * step e := by
  obtain ⟨E0, _, h2, h3⟩ := anomaly M he
  rw [show (eccentricAnomaly M e).1 - e * sin (eccentricAnomaly M e).1 - M =
    e * (sin E0 - sin (eccentricAnomaly M e).1) by rw [h2]; ring, abs_mul, abs_of_nonneg he]
  exact mul_le_mul_of_nonneg_left (le_trans (abs_sin_sub_sin_le _ _) h3) he

/-- two anomalies are at most `1/(1-e)` times as far apart as the mean anomalies -/
theorem apart {e : ℝ} (he : 0 ≤ e) (h1 : e < 1) (a b : ℝ) :
    (1 - e) * |a - b| ≤ |(a - e * sin a) - (b - e * sin b)| := by
  have h2 := abs_sub_abs_le_abs_sub (a - b) (e * (sin a - sin b))
  rw [show a - b - e * (sin a - sin b) = (a - e * sin a) - (b - e * sin b) by ring, abs_mul, abs_of_nonneg he] at h2
  have h3 := mul_le_mul_of_nonneg_left (abs_sin_sub_sin_le a b) he
  linarith

/-- Kepler's equation has exactly one solution -/
theorem solution {e : ℝ} (he : 0 ≤ e) (h1 : e < 1) (M : ℝ) : ∃! E, E - e * sin E = M := by
  have hc : Continuous fun x : ℝ => x - e * sin x := by fun_prop
  have hs : Function.Surjective fun x : ℝ => x - e * sin x := by
    apply hc.surjective
    · apply Filter.tendsto_atTop_mono (f := fun x => x - e) (fun x => ?_) (Filter.tendsto_atTop_add_const_right _ (-e) Filter.tendsto_id)
      have := mul_le_of_le_one_right he (sin_le_one x)
      linarith
    · apply Filter.tendsto_atBot_mono (g := fun x : ℝ => x - e * sin x) (f := fun x => x + e) (fun x => ?_) (Filter.tendsto_atBot_add_const_right _ e Filter.tendsto_id)
      have := mul_le_mul_of_nonneg_left (neg_one_le_sin x) he
      linarith
  obtain ⟨E, hE⟩ := hs M
  refine ⟨E, hE, fun y hy => ?_⟩
  have := apart he h1 y E
  simp only at hE hy
  rw [hy, hE, sub_self, abs_zero] at this
  have h2 : |y - E| ≤ 0 := by
    by_contra hc
    push Not at hc
    nlinarith
  exact sub_eq_zero.1 (abs_eq_zero.1 (le_antisymm h2 (abs_nonneg _)))

/-- **Error of the anomaly** and of its sine against the exact solution -/
theorem anomaly_error {e : ℝ} (he : 0 ≤ e) (h1 : e < 1) {M E : ℝ} (hE : E - e * sin E = M) :
    |(eccentricAnomaly M e).1 - E| ≤ e / (1 - e) * step e ∧ |(eccentricAnomaly M e).2 - sin E| ≤ step e / (1 - e) := by
  have hp : 0 < 1 - e := by linarith
  have hk := kepler M he
  have h2 := apart he h1 (eccentricAnomaly M e).1 E
  rw [hE] at h2
  have h3 : |(eccentricAnomaly M e).1 - E| ≤ e / (1 - e) * step e := by
    rw [div_mul_eq_mul_div, le_div_iff₀ hp, mul_comm]
    exact le_trans h2 hk
  refine ⟨h3, ?_⟩
  obtain ⟨E0, h4, h5, h6⟩ := anomaly M he
  rw [h4]
  refine le_trans (abs_sin_sub_sin_le _ _) ?_
  have h7 : |E0 - E| ≤ |E0 - (eccentricAnomaly M e).1| + |(eccentricAnomaly M e).1 - E| := by
    rw [show E0 - E = (E0 - (eccentricAnomaly M e).1) + ((eccentricAnomaly M e).1 - E) by ring]
    exact abs_add_le _ _
  have h8 : step e + e / (1 - e) * step e = step e / (1 - e) := by
    field_simp
    ring
  linarith

/-- eccentricities up to a tenth: fifteen picoradian -/
theorem anomaly_small {e : ℝ} (he : 0 ≤ e) (h1 : e ≤ 1 / 10) {M E : ℝ} (hE : E - e * sin E = M) :
    |(eccentricAnomaly M e).1 - E| ≤ 15 / 10 ^ 12 := by
  have h2 := (anomaly_error he (by linarith) hE).1
  have h3 : step e ≤ 1 / 10 ^ 10 := by
    unfold step
    refine max_le (by norm_num) ?_
    calc e ^ 10 ≤ (1 / 10) ^ 10 := by gcongr
      _ = _ := by norm_num
  have h4 : e / (1 - e) ≤ 1 / 9 := by
    rw [div_le_div_iff₀ (by linarith) (by norm_num)]
    linarith
  have h5 : 0 ≤ e / (1 - e) := div_nonneg he (by linarith)
  have h6 : e / (1 - e) * step e ≤ 1 / 9 * (1 / 10 ^ 10) := mul_le_mul h4 h3 (le_trans (by norm_num) (le_max_left _ _)) (by norm_num)
  refine le_trans h2 (le_trans h6 (by norm_num))

/-! ## Geometry -/

/-- normal of the orbital plane -/
noncomputable def normal (om i : ℝ) : V3 := ⟨sin i * sin om, -sin i * cos om, cos i⟩

theorem sq1 (a : ℝ) : sin a ^ 2 = 1 - cos a ^ 2 := by rw [← sin_sq_add_cos_sq a]; ring

/-- **Position**: at distance `r` in the plane given by node and inclination, at the argument of latitude `u` from the node -/
theorem geometry (k : Eph) (dt E sE : ℝ) (hg : isGeo k = false) :
    let o := elem k dt E sE
    let rs := position k dt E sE
    dot rs rs = o.r ^ 2 ∧ dot rs (normal (node k dt) o.inc) = 0 ∧ dot rs (axisP (node k dt)) = o.r * cos o.u ∧
      rs.z = o.r * sin o.u * sin o.inc := by
  intro o rs
  have e : rs = comb (o.r * cos o.u) (axisP (node k dt)) (o.r * sin o.u) (axisQ (node k dt) o.inc) := by
    simp only [rs, position, hg, o]
    rfl
  rw [e]
  generalize o.r = r, o.u = u, o.inc = i, node k dt = w
  unfold dot comb axisP axisQ normal
  simp only
  refine ⟨?_, ?_, ?_, ?_⟩
  · linear_combination (r ^ 2 * cos u ^ 2 + r ^ 2 * sin u ^ 2 * cos i ^ 2) * sin_sq_add_cos_sq w +
      r ^ 2 * sin u ^ 2 * sin_sq_add_cos_sq i + r ^ 2 * sin_sq_add_cos_sq u
  · linear_combination (-(r * sin u * sin i * cos i)) * sin_sq_add_cos_sq w
  · linear_combination (r * cos u) * sin_sq_add_cos_sq w
  · ring

/-- BeiDou GEO: the same plane turned about two axes; distances change by less than a part in 10^14 -/
theorem geo_distance (a : ℝ) (g : V3) : dot (rotGeo a g) (rotGeo a g) = g.x ^ 2 + (cos5 ^ 2 + sin5 ^ 2) * (g.y ^ 2 + g.z ^ 2) := by
  unfold dot rotGeo
  simp only
  linear_combination (g.x ^ 2 + (cos5 * g.y + sin5 * g.z) ^ 2) * sin_sq_add_cos_sq a

theorem five_degrees : |cos5 ^ 2 + sin5 ^ 2 - 1| < 1 / 10 ^ 14 := by
  unfold cos5 sin5
  rw [abs_lt]
  constructor <;> norm_num

/-- the ephemeris has no harmonic corrections and a constant axis -/
structure Pure (k : Eph) : Prop where
  mode : k.mode = 0
  cuc : k.cuc = 0
  cus : k.cus = 0
  crc : k.crc = 0
  crs : k.crs = 0
  cic : k.cic = 0
  cis : k.cis = 0
  geo : isGeo k = false

/-- direction of the perigee and the direction a quarter orbit later -/
noncomputable def perigee (om i w : ℝ) : V3 := comb (cos w) (axisP om) (sin w) (axisQ om i)
noncomputable def semilatus (om i w : ℝ) : V3 := comb (-sin w) (axisP om) (cos w) (axisQ om i)

theorem arctan2_exact {e E : ℝ} (he : 0 ≤ e) (h1 : e < 1) :
    cos (arctan2 (sqrt (1 - e ^ 2) * sin E) (cos E - e)) = (cos E - e) / (1 - e * cos E) ∧
    sin (arctan2 (sqrt (1 - e ^ 2) * sin E) (cos E - e)) = sqrt (1 - e ^ 2) * sin E / (1 - e * cos E) := by
  have hq : sqrt (1 - e ^ 2) ^ 2 = 1 - e ^ 2 := sq_sqrt (by nlinarith)
  have hn : 0 < 1 - e * cos E := by nlinarith [cos_le_one E, neg_one_le_cos E]
  have hnorm : ‖(⟨cos E - e, sqrt (1 - e ^ 2) * sin E⟩ : ℂ)‖ = 1 - e * cos E := by
    rw [Complex.norm_def, Complex.normSq_mk, show (cos E - e) * (cos E - e) + sqrt (1 - e ^ 2) * sin E * (sqrt (1 - e ^ 2) * sin E)
      = (1 - e * cos E) ^ 2 by linear_combination (sin E ^ 2) * hq + (1 - e ^ 2) * sin_sq_add_cos_sq E]
    exact sqrt_sq hn.le
  unfold arctan2
  constructor
  · rw [Complex.cos_arg (fun h => by rw [h, norm_zero] at hnorm; linarith), hnorm]
  · rw [Complex.sin_arg, hnorm]

theorem pure_elem {k : Eph} (hk : Pure k) (dt E sE : ℝ) :
    elem k dt E sE = ⟨arctan2 (sqrt (1 - k.e ^ 2) * sE) (cos E - k.e) + k.omg, k.A * (1 - k.e * cos E),
      arctan2 (sqrt (1 - k.e ^ 2) * sE) (cos E - k.e) + k.omg, k.i0 + k.idot * dt⟩ := by
  unfold elem axis
  simp only [hk.mode, hk.cuc, hk.cus, hk.crc, hk.crs, hk.cic, hk.cis]
  simp

/-- **Ellipse**: without harmonic corrections the position is the classical one -/
theorem ellipse {k : Eph} (hk : Pure k) (he : 0 ≤ k.e) (h1 : k.e < 1) (dt E : ℝ) :
    position k dt E (sin E) = comb (k.A * (cos E - k.e)) (perigee (node k dt) (k.i0 + k.idot * dt) k.omg)
      (k.A * sqrt (1 - k.e ^ 2) * sin E) (semilatus (node k dt) (k.i0 + k.idot * dt) k.omg) := by
  have hn : 1 - k.e * cos E ≠ 0 := by
    have : 0 < 1 - k.e * cos E := by nlinarith [cos_le_one E, neg_one_le_cos E]
    exact this.ne'
  obtain ⟨h2, h3⟩ := arctan2_exact (E := E) he h1
  unfold position
  simp only [pure_elem hk, hk.geo]
  have hc : k.A * (1 - k.e * cos E) * cos (arctan2 (sqrt (1 - k.e ^ 2) * sin E) (cos E - k.e) + k.omg) =
      k.A * (cos E - k.e) * cos k.omg - k.A * sqrt (1 - k.e ^ 2) * sin E * sin k.omg := by
    rw [cos_add, h2, h3]
    field_simp
  have hs : k.A * (1 - k.e * cos E) * sin (arctan2 (sqrt (1 - k.e ^ 2) * sin E) (cos E - k.e) + k.omg) =
      k.A * sqrt (1 - k.e ^ 2) * sin E * cos k.omg + k.A * (cos E - k.e) * sin k.omg := by
    rw [sin_add, h2, h3]
    field_simp
  rw [hc, hs]
  unfold comb perigee semilatus comb
  ext <;> simp only [if_false, Bool.false_eq_true] <;> ring

/-- the ellipse of eccentricity `e` and axis `A` with the focus in the centre of the earth -/
theorem focal {k : Eph} (hk : Pure k) (he : 0 ≤ k.e) (h1 : k.e < 1) (dt E : ℝ) :
    let rs := position k dt E (sin E)
    dot rs rs = (k.A * (1 - k.e * cos E)) ^ 2 ∧
    k.A * (1 - k.e * cos E) + k.e * dot rs (perigee (node k dt) (k.i0 + k.idot * dt) k.omg) = k.A * (1 - k.e ^ 2) := by
  intro rs
  constructor
  · have := (geometry k dt E (sin E) hk.geo).1
    simp only [pure_elem hk] at this
    exact this
  · have e : rs = _ := ellipse hk he h1 dt E
    rw [e]
    generalize sqrt (1 - k.e ^ 2) = q, k.A = A, k.e = e', node k dt = w, k.i0 + k.idot * dt = i, k.omg = o
    have hpp : dot (perigee w i o) (perigee w i o) = 1 := by
      unfold dot perigee comb axisP axisQ
      simp only
      linear_combination (cos o ^ 2 + sin o ^ 2 * cos i ^ 2) * sin_sq_add_cos_sq w + sin o ^ 2 * sin_sq_add_cos_sq i +
        sin_sq_add_cos_sq o
    have hpq : dot (semilatus w i o) (perigee w i o) = 0 := by
      unfold dot perigee semilatus comb axisP axisQ
      simp only
      linear_combination (-(sin o * cos o) + sin o * cos o * cos i ^ 2) * sin_sq_add_cos_sq w + sin o * cos o * sin_sq_add_cos_sq i
    have hlin : ∀ a b (p q s : V3), dot (comb a p b q) s = a * dot p s + b * dot q s := by
      intro a b p q s
      unfold dot comb
      ring
    rw [hlin, hpp, hpq]
    ring

/-! ## Velocity -/

/-- the exact solution of Kepler's equation is differentiable in time -/
theorem anomaly_deriv {e n M0 : ℝ} (he : 0 ≤ e) (h1 : e < 1) {E : ℝ → ℝ} (hE : ∀ t, E t - e * sin (E t) = M0 + n * t) (t : ℝ) :
    HasDerivAt E (n / (1 - e * cos (E t))) t := by
  have hp : 0 < 1 - e := by linarith
  have hpos : 0 < 1 - e * cos (E t) := by nlinarith [cos_le_one (E t), neg_one_le_cos (E t)]
  have hlip : ∀ a b, |E a - E b| ≤ |n| / (1 - e) * |a - b| := by
    intro a b
    have := apart he h1 (E a) (E b)
    rw [hE, hE, show M0 + n * a - (M0 + n * b) = n * (a - b) by ring, abs_mul] at this
    rw [div_mul_eq_mul_div, le_div_iff₀ hp]
    linarith
  have hc : ContinuousAt E t := by
    rw [Metric.continuousAt_iff]
    intro ε hε
    refine ⟨ε / (|n| / (1 - e) + 1), by positivity, fun x hx => ?_⟩
    rw [Real.dist_eq] at hx ⊢
    have hpn : 0 < |n| / (1 - e) + 1 := by positivity
    rw [lt_div_iff₀ hpn] at hx
    have h2 := hlip x t
    nlinarith [abs_nonneg (x - t)]
  -- E (t) inverts the mean anomaly
  by_cases hn : n = 0
  · subst hn
    have : E = fun _ => E t := by
      funext x
      have := hlip x t
      rw [abs_zero, zero_div, zero_mul] at this
      exact sub_eq_zero.1 (abs_eq_zero.1 (le_antisymm this (abs_nonneg _)))
    rw [zero_div]
    rw [this]
    exact hasDerivAt_const _ _
  · have hf : HasDerivAt (fun x => (x - e * sin x - M0) / n) ((1 - e * cos (E t)) / n) (E t) :=
      (((hasDerivAt_id _).sub ((hasDerivAt_sin _).const_mul e)).sub_const M0).div_const n
    have := HasDerivAt.of_local_left_inverse hc hf (by positivity) (Filter.Eventually.of_forall fun x => by
      rw [hE x, add_sub_cancel_left, mul_div_cancel_left₀ _ hn])
    rwa [inv_div] at this

/-- the velocity in closed form: `X`, `Y` are the coordinates along and across the line of apsides, `X'`, `Y'` their rates -/
theorem velocity_pure {k : Eph} (hk : Pure k) (he : 0 ≤ k.e) (h1 : k.e < 1) (t E n : ℝ) (hn : meanMotion k t = n) :
    let X := k.A * (cos E - k.e)
    let Y := k.A * sqrt (1 - k.e ^ 2) * sin E
    let X' := -(k.A * sin E * (n / (1 - k.e * cos E)))
    let Y' := k.A * sqrt (1 - k.e ^ 2) * cos E * (n / (1 - k.e * cos E))
    let a := X * cos k.omg - Y * sin k.omg
    let b := X * sin k.omg + Y * cos k.omg
    let a' := X' * cos k.omg - Y' * sin k.omg
    let b' := X' * sin k.omg + Y' * cos k.omg
    let w := node k t
    let wd := k.OMGd - omgeOf k.sys
    let i := k.i0 + k.idot * t
    velocity k t E (sin E) =
      ⟨a' * cos w - b' * cos i * sin w + a * (-sin w * wd) + b * (-(cos i * cos w) * wd + sin i * sin w * k.idot),
       a' * sin w + b' * cos i * cos w + a * (cos w * wd) + b * (-cos i * sin w * wd + -sin i * cos w * k.idot),
       b' * sin i + b * (cos i * k.idot)⟩ := by
  intro X Y X' Y' a b a' b' w wd i
  have hpos : 1 - k.e * cos E ≠ 0 := by
    have : 0 < 1 - k.e * cos E := by nlinarith [cos_le_one E, neg_one_le_cos E]
    exact this.ne'
  have hq : sqrt (1 - k.e ^ 2) ^ 2 = 1 - k.e ^ 2 := sq_sqrt (by nlinarith)
  obtain ⟨g2, g3⟩ := arctan2_exact (E := E) he h1
  have e1 : k.A * (1 - k.e * cos E) * cos (arctan2 (sqrt (1 - k.e ^ 2) * sin E) (cos E - k.e) + k.omg) = a := by
    rw [cos_add, g2, g3]
    simp only [a, X, Y]
    field_simp
  have e2 : k.A * (1 - k.e * cos E) * sin (arctan2 (sqrt (1 - k.e ^ 2) * sin E) (cos E - k.e) + k.omg) = b := by
    rw [sin_add, g2, g3]
    simp only [b, X, Y]
    field_simp
    ring
  have hs : sin E ^ 2 = 1 - cos E ^ 2 := sq1 E
  have e3 : k.A * k.e * sin E * (n / (1 - k.e * cos E)) * cos (arctan2 (sqrt (1 - k.e ^ 2) * sin E) (cos E - k.e) + k.omg) -
      sqrt (1 - k.e ^ 2) / (1 - k.e * cos E) * (n / (1 - k.e * cos E)) * b = a' := by
    rw [cos_add, g2, g3]
    simp only [a', b, X, Y, X', Y']
    field_simp
    generalize sqrt (1 - k.e ^ 2) = q at hq ⊢
    generalize sin E = s, cos E = c at hs ⊢
    linear_combination (-(k.A * n * s * cos k.omg)) * hq + (-(k.A * n * q * k.e * sin k.omg)) * hs
  have e4 : k.A * k.e * sin E * (n / (1 - k.e * cos E)) * sin (arctan2 (sqrt (1 - k.e ^ 2) * sin E) (cos E - k.e) + k.omg) +
      sqrt (1 - k.e ^ 2) / (1 - k.e * cos E) * (n / (1 - k.e * cos E)) * a = b' := by
    rw [sin_add, g2, g3]
    simp only [b', a, X, Y, X', Y']
    field_simp
    generalize sqrt (1 - k.e ^ 2) = q at hq ⊢
    generalize sin E = s, cos E = c at hs ⊢
    linear_combination (-(k.A * n * s * sin k.omg)) * hq + (k.A * n * q * k.e * cos k.omg) * hs
  unfold velocity
  simp only [pure_elem hk, hn, hk.cuc, hk.cus, hk.crc, hk.crs, hk.cic, hk.cis, V3.add, comb, axisP, axisQ, axis, hk.mode, e1, e2,
    zero_mul, add_zero, lt_irrefl, if_false]
  rw [← e3, ← e4, ← e1, ← e2]
  ext <;> simp only [w, wd, i] <;> ring

/-- **Velocity**: without harmonic corrections it is the time derivative of the position -/
theorem velocity_spec {k : Eph} (hk : Pure k) (he : 0 ≤ k.e) (h1 : k.e < 1) {E : ℝ → ℝ}
    (hE : ∀ t, E t - k.e * sin (E t) = meanAnomaly k t) (t : ℝ) :
    HasDerivAt (fun t => (position k t (E t) (sin (E t))).x) (velocity k t (E t) (sin (E t))).x t ∧
    HasDerivAt (fun t => (position k t (E t) (sin (E t))).y) (velocity k t (E t) (sin (E t))).y t ∧
    HasDerivAt (fun t => (position k t (E t) (sin (E t))).z) (velocity k t (E t) (sin (E t))).z t := by
  obtain ⟨n, hn⟩ : ∃ n, n = meanMotion k 0 := ⟨_, rfl⟩
  have hmm : ∀ t, meanMotion k t = n := by
    intro t
    rw [hn]
    unfold meanMotion
    simp [hk.mode]
  have hd : HasDerivAt E (n / (1 - k.e * cos (E t))) t := by
    refine anomaly_deriv (M0 := k.M0) he h1 (fun s => ?_) t
    rw [hE s]
    unfold meanAnomaly
    rw [hmm]
  have hnode : ∀ s, node k s = k.OMG0 - omgeOf k.sys * k.toes + (k.OMGd - omgeOf k.sys) * s := by
    intro s
    unfold node
    rw [hk.geo]
    simp only [Bool.false_eq_true, if_false]
    ring
  simp only [ellipse hk he h1]
  have hw : HasDerivAt (fun s => node k s) (k.OMGd - omgeOf k.sys) t := by
    simp only [hnode]
    simpa using ((hasDerivAt_id t).const_mul (k.OMGd - omgeOf k.sys)).const_add (k.OMG0 - omgeOf k.sys * k.toes)
  have hi : HasDerivAt (fun s => k.i0 + k.idot * s) k.idot t := by
    simpa using ((hasDerivAt_id t).const_mul k.idot).const_add k.i0
  have hsw := hw.sin
  have hcw := hw.cos
  have hsi := hi.sin
  have hci := hi.cos
  have hX := (hd.cos.sub_const k.e).const_mul k.A
  have hY := hd.sin.const_mul (k.A * sqrt (1 - k.e ^ 2))
  rw [velocity_pure hk he h1 t (E t) n (hmm t)]
  simp only [comb, perigee, semilatus, axisP, axisQ]
  refine ⟨?_, ?_, ?_⟩
  · refine ((hX.mul ((hcw.const_mul (cos k.omg)).add ((hci.neg.mul hsw).const_mul (sin k.omg)))).add
      (hY.mul ((hcw.const_mul (-sin k.omg)).add ((hci.neg.mul hsw).const_mul (cos k.omg))))).congr_deriv ?_
    simp only [Pi.mul_apply, Pi.neg_apply, Pi.add_apply]
    ring
  · refine ((hX.mul ((hsw.const_mul (cos k.omg)).add ((hci.mul hcw).const_mul (sin k.omg)))).add
      (hY.mul ((hsw.const_mul (-sin k.omg)).add ((hci.mul hcw).const_mul (cos k.omg))))).congr_deriv ?_
    simp only [Pi.mul_apply, Pi.add_apply]
    ring
  · have h0 : HasDerivAt (fun _ : ℝ => (0 : ℝ)) 0 t := hasDerivAt_const _ _
    refine ((hX.mul ((h0.const_mul (cos k.omg)).add (hsi.const_mul (sin k.omg)))).add
      (hY.mul ((h0.const_mul (-sin k.omg)).add (hsi.const_mul (cos k.omg))))).congr_deriv ?_
    simp only [Pi.add_apply]
    ring

/-! ## Relativistic effect and clock -/

/-- radial velocity: distance times its rate, whatever the turning of the plane -/
theorem radial {k : Eph} (hk : Pure k) (dt E sE : ℝ) (hn : 1 - k.e * cos E ≠ 0) :
    dot (position k dt E sE) (velocity k dt E sE) = k.A ^ 2 * k.e * sE * meanMotion k dt := by
  unfold position velocity
  simp only [pure_elem hk, hk.cuc, hk.cus, hk.crc, hk.crs, hk.cic, hk.cis, V3.add, comb, axisP, axisQ, axis, hk.mode, hk.geo, dot,
    zero_mul, add_zero, lt_irrefl, if_false, Bool.false_eq_true]
  generalize arctan2 (sqrt (1 - k.e ^ 2) * sE) (cos E - k.e) + k.omg = u
  generalize node k dt = w
  generalize k.i0 + k.idot * dt = i
  generalize sqrt (1 - k.e ^ 2) / (1 - k.e * cos E) * (meanMotion k dt / (1 - k.e * cos E)) = nd
  have : k.A ^ 2 * k.e * sE * meanMotion k dt =
      k.A * (1 - k.e * cos E) * (k.A * k.e * sE * (meanMotion k dt / (1 - k.e * cos E))) := by
    field_simp
  rw [this]
  generalize k.A * (1 - k.e * cos E) = r
  generalize k.A * k.e * sE * (meanMotion k dt / (1 - k.e * cos E)) = rd
  have hw := sin_sq_add_cos_sq w
  have hi := sin_sq_add_cos_sq i
  have hu := sin_sq_add_cos_sq u
  linear_combination (r * cos u * (rd * cos u - r * nd * sin u) + r * sin u * (rd * sin u + r * nd * cos u) * cos i ^ 2 -
    (r * sin u) ^ 2 * k.idot * sin i * cos i) * hw + r * sin u * (rd * sin u + r * nd * cos u) * hi + r * rd * hu

/-- **Relativistic effect**: twice the scalar product of position and velocity -/
theorem relativity {k : Eph} (hk : Pure k) (hd : k.deln = 0) (hA : 0 < k.A) (dt E sE : ℝ) (hn : 1 - k.e * cos E ≠ 0) :
    relOf k sE = -2 * dot (position k dt E sE) (velocity k dt E sE) / 299792458 ^ 2 := by
  have hm : meanMotion k dt = sqrt (muOf k.sys / k.A ^ 3) := by
    unfold meanMotion
    simp [hk.mode, hd]
  have hs : sqrt (muOf k.sys * k.A) = k.A ^ 2 * sqrt (muOf k.sys / k.A ^ 3) := by
    rw [← sqrt_sq (show 0 ≤ k.A ^ 2 by positivity), ← sqrt_mul (by positivity)]
    congr 1
    field_simp
  rw [radial hk dt E sE hn, hm]
  unfold relOf clight
  rw [hs]
  ring

/-- the clock is the polynomial plus the relativistic effect of the ephemeris -/
theorem clock (t : ℝ) (k : Eph) (h : |t - k.toc| ≤ 604800) :
    (eph2pos t k).2.2 = k.af0 + k.af1 * (t - k.toc) + k.af2 * (t - k.toc) ^ 2 + eph2rel t k := by
  have : dtadjust t k.toc = t - k.toc := by
    rw [abs_le] at h
    unfold dtadjust
    simp only
    rw [if_neg (by linarith), if_neg (by linarith)]
  unfold eph2pos eph2rel
  simp only
  rw [this]

/-- differences of more than a week are reduced by one week, others not at all -/
theorem adjust (t1 t2 : ℝ) : (|t1 - t2| ≤ 604800 → dtadjust t1 t2 = t1 - t2) ∧
    (604800 < |t1 - t2| → |dtadjust t1 t2| = |t1 - t2| - 604800) := by
  unfold dtadjust
  simp only
  constructor
  · intro h
    rw [abs_le] at h
    rw [if_neg (by linarith), if_neg (by linarith)]
  · intro h
    rcases lt_abs.1 h with h | h
    · rw [if_pos h, abs_of_pos (by linarith), abs_of_pos (by linarith)]
    · rw [if_neg (by linarith), if_pos (by linarith), abs_of_neg (by linarith), abs_of_neg (by linarith)]
      ring

/-- the clock used for the time of transmission (linear clocks): error against the clock at the time `s` of the satellite's
clock; the leading part is the product of offset and drift -/
theorem transmission {k : Eph} (h2 : k.af2 = 0) {t s : ℝ} (hs : s + (k.af0 + k.af1 * s) = t - k.toc) :
    eph2clk t k - (k.af0 + k.af1 * s) =
      -(k.af1 * (k.af0 * (1 + k.af1 - k.af1 ^ 2) + s * k.af1 * (1 + k.af1 - k.af1 ^ 2))) := by
  unfold eph2clk
  simp only [h2]
  rw [← hs]
  ring

/-! ## Error of the position -/

theorem cos_lip (a b : ℝ) : |cos a - cos b| ≤ |a - b| := by
  rw [← sin_pi_div_two_sub, ← sin_pi_div_two_sub]
  refine le_trans (abs_sin_sub_sin_le _ _) (le_of_eq ?_)
  rw [show π / 2 - a - (π / 2 - b) = -(a - b) by ring, abs_neg]

theorem norm_le (a b : ℝ) : ‖(⟨a, b⟩ : ℂ)‖ ≤ |a| + |b| := by
  simpa using Complex.norm_le_abs_re_add_abs_im ⟨a, b⟩

def sub (a b : V3) : V3 := ⟨a.x - b.x, a.y - b.y, a.z - b.z⟩

/-- distance of two points -/
noncomputable def dist (a b : V3) : ℝ := sqrt (dot (sub a b) (sub a b))

/-- positions in one orbital plane -/
theorem plane_dist (om i w a b c d : ℝ) :
    dist (comb a (perigee om i w) b (semilatus om i w)) (comb c (perigee om i w) d (semilatus om i w)) =
      ‖(⟨a - c, b - d⟩ : ℂ)‖ := by
  rw [Complex.norm_def, Complex.normSq_mk]
  unfold dist
  congr 1
  unfold dot sub comb perigee semilatus comb axisP axisQ
  simp only
  linear_combination (((a - c) * cos w - (b - d) * sin w) ^ 2 + ((a - c) * sin w + (b - d) * cos w) ^ 2 * cos i ^ 2) * sin_sq_add_cos_sq om +
    ((a - c) * sin w + (b - d) * cos w) ^ 2 * sin_sq_add_cos_sq i + ((a - c) ^ 2 + (b - d) ^ 2) * sin_sq_add_cos_sq w

/-- any anomaly and sine: coordinates along and across the line of apsides -/
theorem in_plane {k : Eph} (hk : Pure k) (dt E sE : ℝ) :
    let th := arctan2 (sqrt (1 - k.e ^ 2) * sE) (cos E - k.e)
    position k dt E sE = comb (k.A * (1 - k.e * cos E) * cos th) (perigee (node k dt) (k.i0 + k.idot * dt) k.omg)
      (k.A * (1 - k.e * cos E) * sin th) (semilatus (node k dt) (k.i0 + k.idot * dt) k.omg) := by
  intro th
  unfold position
  simp only [pure_elem hk, hk.geo, cos_add, sin_add]
  unfold comb perigee semilatus comb
  ext <;> simp only [if_false, Bool.false_eq_true, th] <;> ring

/-- **Error of the position**: the position returned is near the one of the exact solution of Kepler's equation -/
theorem position_error {k : Eph} (hk : Pure k) (he : 0 ≤ k.e) (h1 : k.e < 1) (hA : 0 ≤ k.A) (t : ℝ) {E : ℝ}
    (hE : E - k.e * sin E = meanAnomaly k (dtadjust t k.toe)) :
    dist (eph2pos t k).1 (position k (dtadjust t k.toe) E (sin E)) ≤ 2 * k.A * step k.e / (1 - k.e) := by
  obtain ⟨dt, hdt⟩ : ∃ dt, dt = dtadjust t k.toe := ⟨_, rfl⟩
  rw [← hdt] at hE ⊢
  obtain ⟨F, sF, hF⟩ : ∃ F sF, (F, sF) = eccentricAnomaly (meanAnomaly k dt) k.e := ⟨_, _, rfl⟩
  have e1 : (eph2pos t k).1 = position k dt F sF := by
    unfold eph2pos
    simp only
    rw [← hdt, ← hF]
  obtain ⟨a1, a2⟩ := anomaly_error he h1 hE
  obtain ⟨F0, b1, b2, b3⟩ := anomaly (meanAnomaly k dt) he
  rw [← hF] at a1 a2 b1 b2 b3
  simp only at a1 a2 b1 b2 b3
  rw [e1, in_plane hk, ellipse hk he h1, plane_dist]
  have hp : 0 < 1 - k.e := by linarith
  have hq : sqrt (1 - k.e ^ 2) ^ 2 = 1 - k.e ^ 2 := sq_sqrt (by nlinarith)
  have hq0 : 0 ≤ sqrt (1 - k.e ^ 2) := sqrt_nonneg _
  have hq1 : sqrt (1 - k.e ^ 2) ≤ 1 := by
    rw [sqrt_le_one]
    nlinarith
  obtain ⟨w, hw⟩ : ∃ w : ℂ, w = ⟨cos F - k.e, sqrt (1 - k.e ^ 2) * sF⟩ := ⟨_, rfl⟩
  have hth : arctan2 (sqrt (1 - k.e ^ 2) * sF) (cos F - k.e) = w.arg := by
    unfold arctan2
    rw [← hw]
  rw [hth]
  have hr0 : 0 < 1 - k.e * cos F := by nlinarith [cos_le_one F, neg_one_le_cos F]
  -- distance of the centre
  have hrho : |1 - k.e * cos F - ‖w‖| ≤ step k.e := by
    have hn : ‖(⟨cos F - k.e, sqrt (1 - k.e ^ 2) * sin F⟩ : ℂ)‖ = 1 - k.e * cos F := by
      rw [Complex.norm_def, Complex.normSq_mk, show (cos F - k.e) * (cos F - k.e) + sqrt (1 - k.e ^ 2) * sin F * (sqrt (1 - k.e ^ 2) * sin F)
        = (1 - k.e * cos F) ^ 2 by linear_combination (sin F ^ 2) * hq + (1 - k.e ^ 2) * sin_sq_add_cos_sq F]
      exact sqrt_sq hr0.le
    rw [← hn]
    refine le_trans (abs_norm_sub_norm_le _ _) ?_
    rw [hw, show (⟨cos F - k.e, sqrt (1 - k.e ^ 2) * sin F⟩ : ℂ) - ⟨cos F - k.e, sqrt (1 - k.e ^ 2) * sF⟩ =
      ⟨0, sqrt (1 - k.e ^ 2) * (sin F - sF)⟩ by apply Complex.ext <;> simp [mul_sub]]
    refine le_trans (norm_le _ _) ?_
    rw [abs_zero, zero_add, abs_mul, abs_of_nonneg hq0, b1]
    refine le_trans (mul_le_of_le_one_left (abs_nonneg _) hq1) ?_
    rw [abs_sub_comm]
    exact le_trans (abs_sin_sub_sin_le _ _) b3
  have hsplit : (⟨k.A * (1 - k.e * cos F) * cos w.arg - k.A * (cos E - k.e),
      k.A * (1 - k.e * cos F) * sin w.arg - k.A * sqrt (1 - k.e ^ 2) * sin E⟩ : ℂ) =
      ⟨k.A * (1 - k.e * cos F - ‖w‖) * cos w.arg, k.A * (1 - k.e * cos F - ‖w‖) * sin w.arg⟩ +
      ⟨k.A * (cos F - cos E), k.A * (sqrt (1 - k.e ^ 2) * (sF - sin E))⟩ := by
    have c1 := Complex.norm_mul_cos_arg w
    have c2 := Complex.norm_mul_sin_arg w
    have d1 : w.re = cos F - k.e := by rw [hw]
    have d2 : w.im = sqrt (1 - k.e ^ 2) * sF := by rw [hw]
    rw [d1] at c1
    rw [d2] at c2
    apply Complex.ext
    · simp only [Complex.add_re]
      linear_combination k.A * c1
    · simp only [Complex.add_im]
      linear_combination k.A * c2
  rw [hsplit]
  refine le_trans (norm_add_le _ _) ?_
  have n1 : ‖(⟨k.A * (1 - k.e * cos F - ‖w‖) * cos w.arg, k.A * (1 - k.e * cos F - ‖w‖) * sin w.arg⟩ : ℂ)‖ ≤ k.A * step k.e := by
    rw [Complex.norm_def, Complex.normSq_mk, show k.A * (1 - k.e * cos F - ‖w‖) * cos w.arg * (k.A * (1 - k.e * cos F - ‖w‖) * cos w.arg) +
      k.A * (1 - k.e * cos F - ‖w‖) * sin w.arg * (k.A * (1 - k.e * cos F - ‖w‖) * sin w.arg) =
      (k.A * (1 - k.e * cos F - ‖w‖)) ^ 2 by
        linear_combination ((k.A * (1 - k.e * cos F - ‖w‖)) ^ 2) * sin_sq_add_cos_sq w.arg, sqrt_sq_eq_abs, abs_mul, abs_of_nonneg hA]
    exact mul_le_mul_of_nonneg_left hrho hA
  have n2 : ‖(⟨k.A * (cos F - cos E), k.A * (sqrt (1 - k.e ^ 2) * (sF - sin E))⟩ : ℂ)‖ ≤
      k.A * (k.e / (1 - k.e) * step k.e + step k.e / (1 - k.e)) := by
    refine le_trans (norm_le _ _) ?_
    rw [abs_mul, abs_mul, abs_of_nonneg hA, ← mul_add, abs_mul, abs_of_nonneg hq0]
    refine mul_le_mul_of_nonneg_left (add_le_add (le_trans (cos_lip _ _) a1) ?_) hA
    exact le_trans (mul_le_of_le_one_left (abs_nonneg _) hq1) a2
  refine le_trans (add_le_add n1 n2) (le_of_eq ?_)
  field_simp
  ring

/-! ## Harmonic corrections and velocity -/

/-- a circular orbit in the equatorial plane with one harmonic correction of the distance -/
noncomputable def wavy (A crs : ℝ) : Eph :=
  { sys := .gps, prn := 1, A := A, e := 0, M0 := 0, deln := 0, OMG0 := 0, OMGd := 0, omg := π / 2, i0 := 0, idot := 0, cuc := 0, cus := 0,
    crc := 0, crs := crs, cic := 0, cis := 0, toe := 0, toes := 0, toc := 0, af0 := 0, af1 := 0, af2 := 0 }

/-- with harmonic corrections the velocity returned is not the derivative of the position -/
theorem velocity_wrong {A crs : ℝ} (hA : 0 < A) (hc : crs ≠ 0) : ∃ E : ℝ → ℝ,
    (∀ t, E t - (wavy A crs).e * sin (E t) = meanAnomaly (wavy A crs) t) ∧
    ¬ (HasDerivAt (fun t => (position (wavy A crs) t (E t) (sin (E t))).x) (velocity (wavy A crs) 0 (E 0) (sin (E 0))).x 0 ∧
       HasDerivAt (fun t => (position (wavy A crs) t (E t) (sin (E t))).y) (velocity (wavy A crs) 0 (E 0) (sin (E 0))).y 0 ∧
       HasDerivAt (fun t => (position (wavy A crs) t (E t) (sin (E t))).z) (velocity (wavy A crs) 0 (E 0) (sin (E 0))).z 0) := by
  obtain ⟨n, hn⟩ : ∃ n, n = sqrt (muGps / A ^ 3) := ⟨_, rfl⟩
  have hn0 : n ≠ 0 := by
    rw [hn]
    refine (sqrt_pos.2 ?_).ne'
    unfold muGps
    positivity
  have hmm : ∀ t, meanMotion (wavy A crs) t = n := by
    intro t
    unfold meanMotion wavy muOf
    simp [hn]
  refine ⟨fun t => n * t, fun t => ?_, ?_⟩
  · unfold meanAnomaly
    rw [hmm]
    unfold wavy
    simp
  · rintro ⟨hx, hy, hz⟩
    -- distance squared
    have hr : ∀ t, (elem (wavy A crs) t (n * t) (sin (n * t))).r = A - crs * sin (2 * (n * t)) := by
      intro t
      obtain ⟨g2, g3⟩ := arctan2_exact (e := 0) (E := n * t) le_rfl one_pos
      unfold elem
      simp only [wavy, axis]
      rw [mul_add, sin_add, show 2 * (π / 2) = π by ring, sin_pi, cos_pi, sin_two_mul, g2, g3, sin_two_mul]
      simp
      ring
    have hg : isGeo (wavy A crs) = false := by unfold isGeo wavy; simp
    have hsq : HasDerivAt (fun t => (A - crs * sin (2 * (n * t))) ^ 2) (2 * dot (position (wavy A crs) 0 (n * 0) (sin (n * 0)))
        (velocity (wavy A crs) 0 (n * 0) (sin (n * 0)))) 0 := by
      have := ((hx.mul hx).add (hy.mul hy)).add (hz.mul hz)
      refine (this.congr_of_eventuallyEq (Filter.Eventually.of_forall fun t => ?_)).congr_deriv ?_
      · have := (geometry (wavy A crs) t (n * t) (sin (n * t)) hg).1
        rw [hr] at this
        simp only
        rw [← this]
        rfl
      · unfold dot
        ring
    have htrue : HasDerivAt (fun t => (A - crs * sin (2 * (n * t))) ^ 2) (-(4 * A * crs * n)) 0 := by
      have h1 : HasDerivAt (fun t : ℝ => 2 * (n * t)) (2 * (n * 1)) 0 := ((hasDerivAt_id 0).const_mul n).const_mul 2
      have h2 := ((h1.sin.const_mul crs).const_sub A).pow 2
      refine h2.congr_deriv ?_
      simp
      ring
    have hz0 : dot (position (wavy A crs) 0 (n * 0) (sin (n * 0))) (velocity (wavy A crs) 0 (n * 0) (sin (n * 0))) = 0 := by
      have ha : arctan2 0 1 = 0 := by
        unfold arctan2
        rw [show (⟨1, 0⟩ : ℂ) = 1 from rfl, Complex.arg_one]
      unfold position velocity
      rw [hg]
      simp [elem, wavy, axis, node, dot, comb, V3.add, axisP, axisQ, ha, isGeo]
    have := hsq.unique htrue
    rw [hz0] at this
    have h4 : A * crs * n ≠ 0 := mul_ne_zero (mul_ne_zero hA.ne' hc) hn0
    apply h4
    linarith

/-! ## Almanac -/

/-- the almanac as an ephemeris -/
noncomputable def ephOf (a : Alm) : Eph :=
  { sys := a.sys, prn := a.prn, A := a.A, e := a.e, M0 := a.M0, deln := 0, OMG0 := a.OMG0, OMGd := a.OMGd, omg := a.omg, i0 := a.i0,
    idot := 0, cuc := 0, cus := 0, crc := 0, crs := 0, cic := 0, cis := 0, toe := a.toa, toes := a.toas, toc := a.toa, af0 := a.af0,
    af1 := a.af1, af2 := 0 }

/-- **Almanac**: position and clock are those of the ephemeris without corrections, the clock without relativistic effect -/
theorem almanac (t : ℝ) (a : Alm) (hg : isGeo (ephOf a) = false) :
    (alm2pos t a).1 = (eph2pos t (ephOf a)).1 ∧ (alm2pos t a).2 = (eph2pos t (ephOf a)).2.2 - eph2rel t (ephOf a) := by
  have hk : Pure (ephOf a) := ⟨rfl, rfl, rfl, rfl, rfl, rfl, rfl, hg⟩
  have hM : meanAnomaly (ephOf a) (dtadjust t a.toa) = a.M0 + sqrt (muOf a.sys / a.A ^ 3) * dtadjust t a.toa := by
    unfold meanAnomaly meanMotion ephOf
    simp
  constructor
  · unfold alm2pos eph2pos position
    simp only [pure_elem hk, hg, show (ephOf a).toe = a.toa from rfl, hM, Bool.false_eq_true, if_false]
    simp only [show (ephOf a).e = a.e from rfl, show (ephOf a).A = a.A from rfl, show (ephOf a).omg = a.omg from rfl,
      show (ephOf a).i0 = a.i0 from rfl, show (ephOf a).idot = 0 from rfl]
    have hnode : node (ephOf a) (dtadjust t a.toa) =
        a.OMG0 + (a.OMGd - omgeOf a.sys) * dtadjust t a.toa - omgeOf a.sys * a.toas := by
      unfold node
      rw [hg]
      simp only [Bool.false_eq_true, if_false, ephOf]
      ring
    rw [hnode]
    simp only [comb, axisP, axisQ, zero_mul, add_zero]
    ext <;> simp only <;> ring
  · unfold alm2pos eph2pos eph2rel
    simp only [ephOf]
    ring

/-! ## Examples -/

/-- a satellite of 26560 km axis, eccentricity 0.02 and inclination 90 degrees, without harmonic corrections -/
noncomputable def sample (M0 : ℝ) : Eph :=
  { sys := .gps, prn := 7, A := 26560000, e := 2 / 100, M0 := M0, deln := 0, OMG0 := 0, OMGd := -1 / 10 ^ 8, omg := 0, i0 := π / 2, idot := 0,
    cuc := 0, cus := 0, crc := 0, crs := 0, cic := 0, cis := 0, toe := 7200, toes := 0, toc := 7200, af0 := 1 / 10 ^ 4, af1 := 1 / 10 ^ 11,
    af2 := 0 }

theorem sample_pure (M0 : ℝ) : Pure (sample M0) :=
  ⟨rfl, rfl, rfl, rfl, rfl, rfl, rfl, by unfold isGeo sample; simp⟩

/-- the last step for that eccentricity -/
example : step (2 / 100) = 1 / 10 ^ 12 := by
  unfold step
  exact max_eq_left (by norm_num)

/-- the hypotheses of `velocity_spec` and `position_error` are met: there is an exact solution at every time -/
example (M0 : ℝ) : ∃ E : ℝ → ℝ, ∀ t, E t - (sample M0).e * sin (E t) = meanAnomaly (sample M0) t := by
  have he : 0 ≤ (sample M0).e ∧ (sample M0).e < 1 := by
    unfold sample
    constructor <;> norm_num
  exact ⟨fun t => (solution he.1 he.2 (meanAnomaly (sample M0) t)).choose,
    fun t => (solution he.1 he.2 (meanAnomaly (sample M0) t)).choose_spec.1⟩

/-- at the perigee: the position is on the node line, at distance `A (1-e)` -/
example : (eph2pos 7200 (sample 0)).1 = ⟨26560000 * (1 - 2 / 100), 0, 0⟩ := by
  have hd : dtadjust 7200 (sample 0).toe = 0 := by
    unfold dtadjust sample
    norm_num
  have hM : meanAnomaly (sample 0) 0 = 0 := by
    unfold meanAnomaly
    rw [mul_zero, add_zero]
    rfl
  have hE : eccentricAnomaly 0 (sample 0).e = (0, 0) := by
    unfold eccentricAnomaly eccLoop
    simp
  have ha : Complex.arg ⟨1 - 2 / 100, 0⟩ = 0 := by
    rw [Complex.arg_eq_zero_iff]
    norm_num
  unfold eph2pos position
  simp only [hd, hM, hE, pure_elem (sample_pure 0), (sample_pure 0).geo]
  simp only [sample, node, isGeo, arctan2, comb, axisP, axisQ]
  simp [ha]

/-- the error of its position is less than 0.1 mm -/
example (t M0 E : ℝ) (hE : E - (sample M0).e * sin E = meanAnomaly (sample M0) (dtadjust t (sample M0).toe)) :
    dist (eph2pos t (sample M0)).1 (position (sample M0) (dtadjust t (sample M0).toe) E (sin E)) ≤ 1 / 10 ^ 4 := by
  have he : (sample M0).e = 2 / 100 := rfl
  have hA : (sample M0).A = 26560000 := rfl
  have h := position_error (sample_pure M0) (by rw [he]; norm_num) (by rw [he]; norm_num) (by rw [hA]; norm_num) t hE
  refine le_trans h ?_
  rw [he, hA, show step (2 / 100) = 1 / 10 ^ 12 from max_eq_left (by norm_num)]
  norm_num

/-- the clock for the transmission time: offset 1 ms, drift 1 ns/s -/
example : ∃ s : ℝ, s + ((sample 0).af0 + (sample 0).af1 * s) = 3600 - (sample 0).toc := by
  refine ⟨(3600 - 7200 - 1 / 10 ^ 4) / (1 + 1 / 10 ^ 11), ?_⟩
  unfold sample
  norm_num

end Verif.C92
