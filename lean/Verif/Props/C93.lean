import Verif.Model.GloOrbit
import Mathlib.Analysis.SpecialFunctions.Trigonometric.Deriv
import Mathlib.Analysis.SpecialFunctions.Sqrt
import Mathlib.Analysis.Calculus.MeanValue
import Mathlib.Analysis.Calculus.Deriv.Inv
import Mathlib.Analysis.Calculus.Deriv.Pow
import Mathlib.Tactic.Ring
import Mathlib.Tactic.Linarith
import Mathlib.Tactic.FieldSimp
import Mathlib.Tactic.LinearCombination
/-!
# C93 GLONASS orbits

Specification: the energy of a satellite in a rotating frame in the field of an oblate earth, the order of the integration,
the steps that make up the time to the ephemeris.
-/

namespace Verif.C93
open Real Verif.Kepler Verif.GloOrbit

/-! ## Forces -/

/-- gravity potential of the oblate earth: second Legendre polynomial of the sine of the latitude -/
noncomputable def potential (p : V3) : ℝ :=
  let r := sqrt (dot p p)
  let legendre := fun x : ℝ => (3 * x ^ 2 - 1) / 2
  398600440000000 / r * (1 - 10826257 / 10 ^ 10 * (6378136 / r) ^ 2 * legendre (p.z / r))

/-- energy in the frame turning with the earth (Jacobi integral) -/
noncomputable def energy (s : St) : ℝ :=
  dot s.v s.v / 2 - (7292115 / 10 ^ 11) ^ 2 * (s.r.x ^ 2 + s.r.y ^ 2) / 2 - potential s.r

/-- a motion: six differentiable functions of time whose derivatives are those given -/
structure Motion (X : ℝ → St) (d : St) (t : ℝ) : Prop where
  x : HasDerivAt (fun s => (X s).r.x) d.r.x t
  y : HasDerivAt (fun s => (X s).r.y) d.r.y t
  z : HasDerivAt (fun s => (X s).r.z) d.r.z t
  u : HasDerivAt (fun s => (X s).v.x) d.v.x t
  v : HasDerivAt (fun s => (X s).v.y) d.v.y t
  w : HasDerivAt (fun s => (X s).v.z) d.v.z t

/-- **Forces**: along the motion the energy changes by the power of the additional acceleration only -/
theorem power {acc : V3} {X : ℝ → St} {t : ℝ} (h : Motion X (deq acc (X t)) t) (h0 : (X t).r ≠ ⟨0, 0, 0⟩) :
    HasDerivAt (fun s => energy (X s)) (dot acc (X t).v) t := by
  have hpos : 0 < dot (X t).r (X t).r := by
    unfold dot
    by_contra hc
    apply h0
    have hx : (X t).r.x = 0 := by nlinarith [sq_nonneg (X t).r.x, sq_nonneg (X t).r.y, sq_nonneg (X t).r.z]
    have hy : (X t).r.y = 0 := by nlinarith [sq_nonneg (X t).r.x, sq_nonneg (X t).r.y, sq_nonneg (X t).r.z]
    have hz : (X t).r.z = 0 := by nlinarith [sq_nonneg (X t).r.x, sq_nonneg (X t).r.y, sq_nonneg (X t).r.z]
    ext <;> assumption
  obtain ⟨s, hs⟩ : ∃ s, s = sqrt (dot (X t).r (X t).r) := ⟨_, rfl⟩
  have hs0 : 0 < s := by rw [hs]; exact sqrt_pos.2 hpos
  have hss : s ^ 2 = dot (X t).r (X t).r := by rw [hs]; exact sq_sqrt hpos.le
  obtain ⟨h1, h2, h3, h4, h5, h6⟩ := h
  unfold deq at h1 h2 h3 h4 h5 h6
  simp only [if_neg (not_le.2 hpos)] at h1 h2 h3 h4 h5 h6
  rw [← hs, ← hss] at h4 h5 h6
  -- distance
  have hq : HasDerivAt (fun s => dot (X s).r (X s).r) (2 * dot (X t).r (X t).v) t := by
    refine (((h1.mul h1).add (h2.mul h2)).add (h3.mul h3)).congr_deriv ?_
    unfold dot
    ring
  have hr := hq.sqrt hpos.ne'
  rw [← hs] at hr
  have hzr := h3.div hr (by rw [← hs]; exact hs0.ne')
  have hleg := (((hzr.pow 2).const_mul 3).sub_const 1).div_const 2
  have hinv := (hasDerivAt_const t (6378136 : ℝ)).div hr (by rw [← hs]; exact hs0.ne')
  have hcor := (((hinv.pow 2).const_mul (10826257 / 10 ^ 10)).mul hleg).const_sub 1
  have hmu := (hasDerivAt_const t (398600440000000 : ℝ)).div hr (by rw [← hs]; exact hs0.ne')
  have hpot := hmu.mul hcor
  have hkin := (((h4.mul h4).add (h5.mul h5)).add (h6.mul h6)).div_const 2
  have hcen := (((h1.pow 2).add (h2.pow 2)).const_mul ((7292115 / 10 ^ 11) ^ 2)).div_const 2
  have hall := (hkin.sub hcen).sub hpot
  refine hall.congr_deriv ?_
  simp only [Pi.div_apply, Pi.pow_apply, Pi.mul_apply, ← hs]
  rw [show (398600440000000 : ℝ) = mu from rfl, show (10826257 / 10 ^ 10 : ℝ) = j2 from rfl,
    show (7292115 / 10 ^ 11 : ℝ) = omge from rfl, show (6378136 : ℝ) = re from rfl]
  generalize mu = m, j2 = j, omge = o, re = R
  unfold dot at hss ⊢
  clear hs hall hcen hkin hpot hmu hcor hinv hleg hzr hr hq h1 h2 h3 h4 h5 h6
  generalize (X t).r.x = x, (X t).r.y = y, (X t).r.z = z, (X t).v.x = u, (X t).v.y = v, (X t).v.z = w at *
  simp only [Nat.cast_ofNat, show (2 - 1 : ℕ) = 1 from rfl, pow_one]
  field_simp
  ring

/-- **Energy**: without additional acceleration it is constant along every motion away from the centre -/
theorem conserved {X : ℝ → St} (h : ∀ t, Motion X (deq ⟨0, 0, 0⟩ (X t)) t) (h0 : ∀ t, (X t).r ≠ ⟨0, 0, 0⟩) (a b : ℝ) :
    energy (X a) = energy (X b) := by
  have hd : ∀ t, HasDerivAt (fun s => energy (X s)) 0 t := by
    intro t
    have := power (h t) (h0 t)
    rwa [show dot ⟨0, 0, 0⟩ (X t).v = 0 by unfold dot; ring] at this
  exact is_const_of_deriv_eq_zero (fun t => (hd t).differentiableAt) (fun t => (hd t).deriv) a b

/-- angular momentum about the axis of the earth, seen from outside -/
noncomputable def momentum (s : St) : ℝ :=
  s.r.x * s.v.y - s.r.y * s.v.x + 7292115 / 10 ^ 11 * (s.r.x ^ 2 + s.r.y ^ 2)

/-- **Forces**: the angular momentum changes by the torque of the additional acceleration only -/
theorem torque {acc : V3} {X : ℝ → St} {t : ℝ} (h : Motion X (deq acc (X t)) t) (h0 : 0 < dot (X t).r (X t).r) :
    HasDerivAt (fun s => momentum (X s)) ((X t).r.x * acc.y - (X t).r.y * acc.x) t := by
  obtain ⟨h1, h2, h3, h4, h5, h6⟩ := h
  unfold deq at h1 h2 h3 h4 h5 h6
  simp only [if_neg (not_le.2 h0)] at h1 h2 h3 h4 h5 h6
  have := ((h1.mul h5).sub (h2.mul h4)).add (((h1.pow 2).add (h2.pow 2)).const_mul (7292115 / 10 ^ 11))
  refine (this.congr_deriv ?_).congr_of_eventuallyEq (Filter.Eventually.of_forall fun s => ?_)
  · simp only [Nat.cast_ofNat, show (2 - 1 : ℕ) = 1 from rfl, pow_one, omge]
    ring
  · simp [momentum]

/-- **Relativity**: minus the rate of the squared distance over the squared speed of light -/
theorem relativity {X : ℝ → St} {d : V3} {t : ℝ} (h : Motion X ⟨(X t).v, d⟩ t) :
    HasDerivAt (fun s => -(dot (X s).r (X s).r) / 299792458 ^ 2) (geph2rel (X t)) t := by
  obtain ⟨h1, h2, h3, -, -, -⟩ := h
  have := ((((h1.mul h1).add (h2.mul h2)).add (h3.mul h3)).neg).div_const (299792458 ^ 2)
  refine (this.congr_deriv ?_).congr_of_eventuallyEq (Filter.Eventually.of_forall fun s => ?_)
  · simp only [geph2rel, dot, clight]
    ring
  · simp [dot]

/-- the velocity is the rate of the position -/
theorem rate (acc : V3) (x : St) (h0 : 0 < dot x.r x.r) : (deq acc x).r = x.v := by
  unfold deq
  simp only
  rw [if_neg (not_le.2 h0)]

/-! ## Integration -/

/-- multiples of a state -/
noncomputable def smul (c : ℝ) (s : St) : St := ⟨⟨c * s.r.x, c * s.r.y, c * s.r.z⟩, ⟨c * s.v.x, c * s.v.y, c * s.v.z⟩⟩

/-- **Order, linear equations**: a step of `t` multiplies by the exponential series up to the fourth power -/
theorem order_linear (l t : ℝ) (x : St) :
    rk4 (smul l) t x = smul (1 + l * t + (l * t) ^ 2 / 2 + (l * t) ^ 3 / 6 + (l * t) ^ 4 / 24) x := by
  unfold rk4 St.axpy St.sum4 V3.axpy V3.sum4 sum4 smul
  ext <;> simp only <;> ring

/-- **Order, quadrature**: with a rate that is a cubic polynomial of time (here the first component) the step is exact -/
theorem order_quadrature (a b c d t s y : ℝ) (x : St) (hx : x.r.x = s) (hy : x.v.x = y) :
    let F := fun s : ℝ => a * s + b * s ^ 2 / 2 + c * s ^ 3 / 3 + d * s ^ 4 / 4
    let x' := rk4 (fun x => ⟨⟨1, 0, 0⟩, ⟨a + b * x.r.x + c * x.r.x ^ 2 + d * x.r.x ^ 3, 0, 0⟩⟩) t x
    x'.r.x = s + t ∧ x'.v.x = y + (F (s + t) - F s) := by
  intro F x'
  simp only [x', F, rk4, St.axpy, St.sum4, V3.axpy, V3.sum4, sum4, hx, hy]
  constructor <;> ring

/-- a step of no time changes nothing -/
theorem step_zero (f : St → St) (x : St) : rk4 f 0 x = x := by
  unfold rk4 St.axpy V3.axpy
  ext <;> simp

/-- the states after `n` steps of length `tt` -/
noncomputable def steps (step : ℝ → St → St) (tt : ℝ) : Nat → St → St
  | 0, x => x
  | n + 1, x => steps step tt n (step tt x)

/-- the last part of the time -/
noncomputable def last (step : ℝ → St → St) (rest : ℝ) (x : St) : St := if |rest| ≤ 1 / 10 ^ 9 then x else step rest x

theorem loop_rest (step : ℝ → St → St) {T : ℝ} (m : Nat) (rest tt : ℝ) (hr : |rest| < T) (x : St) :
    loop step T (m + 1) rest tt x = some (last step rest x) := by
  unfold loop last
  simp only
  split_ifs with h1
  · rfl
  · rw [sub_self]
    cases m <;> simp [loop]

theorem loop_spec (step : ℝ → St → St) {T : ℝ} (hT : 1 / 10 ^ 9 < T) (sg : ℝ) (hsg : sg = 1 ∨ sg = -1) :
    ∀ (n m : Nat) (rest : ℝ) (x : St), 0 ≤ rest → rest < T →
      loop step T (n + m + 1) (sg * (n * T + rest)) (sg * T) x = some (last step (sg * rest) (steps step (sg * T) n x)) := by
  have habs : ∀ a : ℝ, |sg * a| = |a| := by
    intro a
    rcases hsg with rfl | rfl <;> simp
  intro n
  induction n with
  | zero =>
    intro m rest x h1 h2
    rw [Nat.zero_add, Nat.cast_zero, zero_mul, zero_add rest]
    exact loop_rest step m _ _ (by rw [habs, abs_of_nonneg h1]; exact h2) x
  | succ n ih =>
    intro m rest x h1 h2
    have hT0 : 0 < T := lt_trans (by norm_num) hT
    have hge : T ≤ ((n + 1 : Nat) : ℝ) * T + rest := by
      push_cast
      have : 0 ≤ (n : ℝ) * T := by positivity
      linarith
    rw [show n + 1 + m + 1 = (n + m + 1) + 1 by omega]
    unfold loop
    simp only
    rw [habs, abs_of_nonneg (by linarith), if_neg (by linarith), if_neg (by linarith),
      show sg * (((n + 1 : Nat) : ℝ) * T + rest) - sg * T = sg * (n * T + rest) by push_cast; ring, ih m rest _ h1 h2]
    rfl

/-- **Time**: the integration ends; it makes as many whole steps as fit into the time to the ephemeris, forward or backward,
and one step for the rest unless that is below a nanosecond -/
theorem evaluate (time : ℝ) (g : Geph) {T : ℝ} (hT : 1 / 10 ^ 9 < T) :
    ∃ (n : Nat) (rest sg : ℝ), (sg = 1 ∨ sg = -1) ∧ 0 ≤ rest ∧ rest < T ∧ time - g.toe = sg * (n * T + rest) ∧
      ∀ m, geph2pos (n + m + 1) time g T =
        some (last (glorbit g.acc) (sg * rest) (steps (glorbit g.acc) (sg * T) n ⟨g.pos, g.vel⟩), -g.taun + g.gamn * (time - g.toe)) := by
  have hT0 : 0 < T := lt_trans (by norm_num) hT
  obtain ⟨t, ht⟩ : ∃ t, t = time - g.toe := ⟨_, rfl⟩
  obtain ⟨sg, hsg, hst⟩ : ∃ sg : ℝ, (sg = 1 ∨ sg = -1) ∧ t = sg * |t| ∧ (if t < 0 then -T else T) = sg * T := by
    by_cases h : t < 0
    · refine ⟨-1, .inr rfl, by rw [abs_of_neg h]; ring, by rw [if_pos h]; ring⟩
    · refine ⟨1, .inl rfl, by rw [abs_of_nonneg (not_lt.1 h)]; ring, by rw [if_neg h]; ring⟩
  obtain ⟨hst1, hst2⟩ := hst
  have hq : 0 ≤ |t| / T := div_nonneg (abs_nonneg _) hT0.le
  have hfl := Nat.floor_le hq
  have hlt := Nat.lt_floor_add_one (|t| / T)
  rw [le_div_iff₀ hT0] at hfl
  rw [div_lt_iff₀ hT0] at hlt
  have e : t = sg * ((⌊|t| / T⌋₊ : ℝ) * T + (|t| - (⌊|t| / T⌋₊ : ℝ) * T)) := by
    rw [add_sub_cancel]
    exact hst1
  refine ⟨⌊|t| / T⌋₊, |t| - (⌊|t| / T⌋₊ : ℝ) * T, sg, hsg, by linarith, by linarith, by rw [← ht]; exact e, fun m => ?_⟩
  unfold geph2pos
  simp only [← ht]
  rw [hst2]
  conv_lhs => rw [show loop (glorbit g.acc) T (⌊|t| / T⌋₊ + m + 1) t (sg * T) ⟨g.pos, g.vel⟩ =
    loop (glorbit g.acc) T (⌊|t| / T⌋₊ + m + 1) (sg * ((⌊|t| / T⌋₊ : ℝ) * T + (|t| - (⌊|t| / T⌋₊ : ℝ) * T))) (sg * T) ⟨g.pos, g.vel⟩ by
      rw [← e]]
  rw [loop_spec (glorbit g.acc) hT sg hsg _ m _ _ (by linarith) (by linarith)]
  rfl

/-- at the time of the ephemeris the result is the ephemeris -/
theorem at_toe (g : Geph) (n : Nat) : geph2pos n g.toe g 1 = some (⟨g.pos, g.vel⟩, -g.taun) := by
  unfold geph2pos
  simp only [sub_self, mul_zero, add_zero]
  cases n <;> simp [loop]

/-! ## Clock -/

/-- **Clock** for the time of transmission: exact up to the third power of the drift -/
theorem clock {time s : ℝ} {g : Geph} (hs : s + (-g.taun + g.gamn * s) = time - g.toe) :
    geph2clk time g - (-g.taun + g.gamn * s) = g.gamn ^ 3 * (-g.taun + g.gamn * s) := by
  unfold geph2clk
  rw [← hs]
  ring


/-! ## Cases -/

/-- a circular orbit above the equator: radius `R`, rate `k` in the turning frame -/
noncomputable def circle (R k t : ℝ) : St :=
  ⟨⟨R * cos (k * t), R * sin (k * t), 0⟩, ⟨-(R * k) * sin (k * t), R * k * cos (k * t), 0⟩⟩

theorem circle_dot (R k t : ℝ) : dot (circle R k t).r (circle R k t).r = R ^ 2 := by
  unfold dot circle
  simp only
  linear_combination R ^ 2 * sin_sq_add_cos_sq (k * t)

/-- it is a motion under the forces of the code when its rate seen from outside balances gravity -/
theorem circle_motion {R k : ℝ} (hR : 0 < R)
    (hk : (k + omge) ^ 2 = mu / R ^ 3 + 3 / 2 * j2 * mu * re ^ 2 / R ^ 5) (t : ℝ) :
    Motion (circle R k) (deq ⟨0, 0, 0⟩ (circle R k t)) t := by
  have hl : HasDerivAt (fun s : ℝ => k * s) k t := by simpa using (hasDerivAt_id t).const_mul k
  have hc := hl.cos
  have hs := hl.sin
  have e3 : R ^ 2 * sqrt (R ^ 2) = R ^ 3 := by rw [sqrt_sq hR.le]; ring
  have hne : ¬ R ^ 2 ≤ 0 := not_le.2 (by positivity)
  have hcc : -mu / R ^ 3 - 3 / 2 * j2 * mu * re ^ 2 / R ^ 2 / R ^ 3 + omge ^ 2 = -k ^ 2 - 2 * k * omge := by
    have : 3 / 2 * j2 * mu * re ^ 2 / R ^ 2 / R ^ 3 = 3 / 2 * j2 * mu * re ^ 2 / R ^ 5 := by
      rw [div_div]; congr 1; ring
    rw [this, neg_div]
    linear_combination hk
  constructor
  all_goals
    unfold deq
    simp only [circle_dot, if_neg hne, e3]
    simp only [circle, mul_zero, zero_pow two_ne_zero, zero_div, sub_zero, mul_one, add_zero]
  · exact (hc.const_mul R).congr_deriv (by ring)
  · exact (hs.const_mul R).congr_deriv (by ring)
  · exact hasDerivAt_const _ _
  · exact (hs.const_mul (-(R * k))).congr_deriv (by rw [hcc]; ring)
  · exact (hc.const_mul (R * k)).congr_deriv (by rw [hcc]; ring)
  · exact hasDerivAt_const _ _

/-- the hypotheses of `power`, `torque`, `relativity` and `conserved` are met by circular orbits at the height of GLONASS -/
example : ∃ k : ℝ, ∀ t, Motion (circle 25510000 k) (deq ⟨0, 0, 0⟩ (circle 25510000 k t)) t ∧
    0 < dot (circle 25510000 k t).r (circle 25510000 k t).r := by
  refine ⟨sqrt (mu / 25510000 ^ 3 + 3 / 2 * j2 * mu * re ^ 2 / 25510000 ^ 5) - omge, fun t => ⟨circle_motion (by norm_num) ?_ t, ?_⟩⟩
  · rw [sub_add_cancel, sq_sqrt]
    unfold mu j2 re
    norm_num
  · rw [circle_dot]
    norm_num

/-- in the centre nothing moves -/
example (acc v : V3) : deq acc ⟨⟨0, 0, 0⟩, v⟩ = ⟨⟨0, 0, 0⟩, ⟨0, 0, 0⟩⟩ := by
  unfold deq dot
  simp

/-- two and a half seconds backward: two steps of a second and one of half a second; a billionth of a second is left out -/
example (step : ℝ → St → St) (x : St) :
    loop step 1 3 (-1 * ((2 : Nat) * 1 + 1 / 2)) (-1 * 1) x = some (step (-1 * (1 / 2)) (step (-1 * 1) (step (-1 * 1) x))) ∧
    loop step 1 3 (1 * ((2 : Nat) * 1 + 1 / 10 ^ 9)) (1 * 1) x = some (step (1 * 1) (step (1 * 1) x)) := by
  constructor
  · rw [loop_spec step (by norm_num) (-1) (.inr rfl) 2 0 (1 / 2) x (by norm_num) (by norm_num)]
    unfold last
    rw [if_neg (by rw [abs_of_neg (by norm_num)]; norm_num)]
    rfl
  · rw [loop_spec step (by norm_num) 1 (.inl rfl) 2 0 (1 / 10 ^ 9) x (by norm_num) (by norm_num)]
    unfold last
    rw [if_pos (by rw [abs_of_pos (by norm_num)]; norm_num)]
    rfl

/-- the time of transmission of `clock` exists for every drift above minus one -/
example (g : Geph) (time : ℝ) (h : -1 < g.gamn) : ∃ s : ℝ, s + (-g.taun + g.gamn * s) = time - g.toe :=
  ⟨(time - g.toe + g.taun) / (1 + g.gamn), by
    have : (1 + g.gamn) ≠ 0 := by linarith
    field_simp
    ring⟩

end Verif.C93
