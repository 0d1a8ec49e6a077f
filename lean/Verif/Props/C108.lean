import Verif.Model.Astro
import Verif.Lemmas.Time
import Verif.Props.C03
import Mathlib.Analysis.SpecialFunctions.Trigonometric.Bounds
import Mathlib.Analysis.Real.Pi.Bounds
/-!
C108: Sun, Moon, rotation of the Earth, relativistic delay and tides.
-/

namespace Verif.C108
open Verif.Astro Verif.Time Matrix

/-! ### rotation -/

/-- a rotation: lengths and angles stay, no reflection -/
def IsRot (A : M) : Prop := Aᵀ * A = 1 ∧ A.det = 1

theorem IsRot.mul {A B : M} (ha : IsRot A) (hb : IsRot B) : IsRot (A * B) := by
  refine ⟨?_, by rw [det_mul, ha.2, hb.2, one_mul]⟩
  rw [transpose_mul, Matrix.mul_assoc, ← Matrix.mul_assoc Aᵀ, ha.1, Matrix.one_mul, hb.1]

theorem rot_x (t : ℝ) : IsRot (Rx t) := by
  have h := Real.sin_sq_add_cos_sq t
  constructor
  · ext i j
    fin_cases i <;> fin_cases j <;> simp [Rx, Matrix.mul_apply, Fin.sum_univ_three] <;> nlinarith
  · simp [Rx, det_fin_three]; nlinarith

theorem rot_y (t : ℝ) : IsRot (Ry t) := by
  have h := Real.sin_sq_add_cos_sq t
  constructor
  · ext i j
    fin_cases i <;> fin_cases j <;> simp [Ry, Matrix.mul_apply, Fin.sum_univ_three] <;> nlinarith
  · simp [Ry, det_fin_three]; nlinarith

theorem rot_z (t : ℝ) : IsRot (Rz t) := by
  have h := Real.sin_sq_add_cos_sq t
  constructor
  · ext i j
    fin_cases i <;> fin_cases j <;> simp [Rz, Matrix.mul_apply, Fin.sum_univ_three] <;> nlinarith
  · simp [Rz, det_fin_three]; nlinarith

theorem rot_u (c : ℝ) (n : Nut) (t gm xp yp : ℝ) : IsRot (matrixU c n t gm xp yp) :=
  ((((rot_y _).mul (rot_x _)).mul (rot_z _)).mul (((rot_x _).mul (rot_z _)).mul (rot_x _))).mul (((rot_z _).mul (rot_y _)).mul (rot_z _))

/-- **frame**: from the celestial to the terrestrial frame leads a rotation, at every time, whatever the pole, with both functions -/
theorem frame (n : Nut) (t : GTime) (xp yp : ℝ) (ut1 : ℚ) : IsRot (eci2ecef n t xp yp ut1).1 ∧ IsRot (eci2ecefP n t xp yp ut1).1 :=
  ⟨rot_u .., rot_u ..⟩

/-- Precession and nutation are taken at the same instant in both modules: centuries of terrestrial time, 51.184 s ahead of GPS time,
from noon of 1 January 2000. -/
theorem precession_epoch (n : Nut) (tg tu : GTime) (xp yp : ℝ) (ut1 : ℚ) :
    (eci2ecef n tg xp yp ut1).1 = matrixU 0.30188 n (((timediff tg (epoch2time ⟨2000, 1, 1, 12, 0, 0⟩) + 51.184) / (36525 * 86400) : ℚ) : ℝ)
      (ang (gmst (gpst2utc tg) ut1)) xp yp ∧
    (eci2ecefP n tu xp yp ut1).1 =
      matrixU 0.20188 n (((timediff (utc2gpst tu) (epoch2time ⟨2000, 1, 1, 12, 0, 0⟩) + 51.184) / (36525 * 86400) : ℚ) : ℝ)
      (ang (gmst tu ut1)) xp yp := by
  unfold eci2ecef eci2ecefP
  simp only
  constructor <;> congr 2 <;> simp only [century, J2000] <;> norm_num <;> ring

theorem rot_dot {A : M} (h : IsRot A) (v w : V) : (A *ᵥ v) ⬝ᵥ (A *ᵥ w) = v ⬝ᵥ w := by
  rw [dotProduct_mulVec, ← mulVec_transpose, mulVec_mulVec, h.1, one_mulVec]

theorem rot_len {A : M} (h : IsRot A) (v : V) : len (A *ᵥ v) = len v := by
  unfold len; rw [rot_dot h]

/-! ### Sun and Moon -/

theorem len_smul (c : ℝ) (hc : 0 ≤ c) (v : V) (h : v ⬝ᵥ v = 1) : len (fun k => c * v k) = c := by
  unfold len
  have : (fun k => c * v k) ⬝ᵥ (fun k => c * v k) = c ^ 2 * (v ⬝ᵥ v) := by
    simp only [dotProduct, Fin.sum_univ_three]; ring
  rw [this, h, mul_one, Real.sqrt_sq hc]

/-- between 0.983 and 1.017 astronomical units -/
theorem sun_bounds (t : ℝ) : 0.983 * 149597870691 ≤ sunDist t ∧ sunDist t ≤ 1.017 * 149597870691 := by
  simp only [sunDist]
  generalize rad (357.5277233 + 35999.05034 * t) = m
  have h1 := Real.neg_one_le_cos m
  have h2 := Real.cos_le_one m
  have h3 := Real.neg_one_le_cos (2 * m)
  have h4 := Real.cos_le_one (2 * m)
  constructor <;> nlinarith

theorem sun_len (t : ℝ) : len (sunEci t) = sunDist t := by
  simp only [sunEci]
  apply len_smul
  · have := (sun_bounds t).1; linarith
  · generalize rad (23.439291 - 0.0130042 * t) = e
    generalize rad (280.460 + _ + _ + _) = l
    have h1 := Real.sin_sq_add_cos_sq e
    have h2 := Real.sin_sq_add_cos_sq l
    simp only [dotProduct, Fin.sum_univ_three]
    simp
    calc _ = Real.cos l ^ 2 + (Real.sin e ^ 2 + Real.cos e ^ 2) * Real.sin l ^ 2 := by ring
      _ = 1 := by rw [h1]; linarith

/-- between 350000 and 420000 km -/
theorem moon_bounds (f : Fin 5 → ℝ) : 350000000 ≤ moonDist f ∧ moonDist f ≤ 420000000 := by
  simp only [moonDist]
  have a1 := Real.neg_one_le_cos (f 0)
  have a2 := Real.cos_le_one (f 0)
  have b1 := Real.neg_one_le_cos (f 0 - 2 * f 3)
  have b2 := Real.cos_le_one (f 0 - 2 * f 3)
  have c1 := Real.neg_one_le_cos (2 * f 3)
  have c2 := Real.cos_le_one (2 * f 3)
  have d1 := Real.neg_one_le_cos (2 * f 0)
  have d2 := Real.cos_le_one (2 * f 0)
  set u := 0.9508 + 0.0518 * Real.cos (f 0) + 0.0095 * Real.cos (f 0 - 2 * f 3) + 0.0078 * Real.cos (2 * f 3) + 0.0028 * Real.cos (2 * f 0) with hu
  have u1 : 0.8789 ≤ u := by rw [hu]; linarith
  have u2 : u ≤ 1.0227 := by rw [hu]; linarith
  have p1 := Real.pi_gt_d2
  have p2 := Real.pi_lt_d2
  have x1 : 0.01533 ≤ rad u := by unfold rad; nlinarith
  have x2 : rad u ≤ 0.0179 := by unfold rad; nlinarith
  generalize rad u = x at *
  have s1 := Real.sin_le (x := x) (by linarith)
  have s2 := Real.sin_gt_sub_cube (x := x) (by linarith)
  have s3 : 0.01532 ≤ Real.sin x := by
    have : x ^ 3 ≤ x * 0.001 := by nlinarith [mul_nonneg (show (0:ℝ) ≤ x by linarith) (show (0:ℝ) ≤ 0.001 - x ^ 2 by nlinarith)]
    nlinarith
  constructor
  · rw [le_div_iff₀ (by linarith)]; nlinarith
  · rw [div_le_iff₀ (by linarith)]; nlinarith

theorem moon_len (f : Fin 5 → ℝ) (t : ℝ) : len (moonEci f t) = moonDist f := by
  simp only [moonEci]
  apply len_smul
  · have := (moon_bounds f).1; linarith
  · generalize rad (23.439291 - 0.0130042 * t) = e
    generalize rad (218.32 + _ + _ - _ + _ + _ - _ - _) = l
    generalize rad (5.13 * _ + _ - _ - _) = p
    have h1 := Real.sin_sq_add_cos_sq e
    have h2 := Real.sin_sq_add_cos_sq l
    have h3 := Real.sin_sq_add_cos_sq p
    simp only [dotProduct, Fin.sum_univ_three]
    simp
    calc _ = Real.cos p ^ 2 * Real.cos l ^ 2 + (Real.sin e ^ 2 + Real.cos e ^ 2) * (Real.cos p ^ 2 * Real.sin l ^ 2 + Real.sin p ^ 2) := by ring
      _ = Real.cos p ^ 2 * (Real.sin l ^ 2 + Real.cos l ^ 2) + Real.sin p ^ 2 := by rw [h1]; ring
      _ = 1 := by rw [h2]; linarith

/-- **distances**: in the terrestrial frame too the Sun is 0.983 to 1.017 astronomical units and the Moon 350000 to 420000 km away -/
theorem distances (n : Nut) (f : ℝ → Fin 5 → ℝ) (t : GTime) (xp yp : ℝ) (ut1 : ℚ) :
    let s := sunmoon n f t xp yp ut1
    let p := sunmoonP n f t xp yp ut1
    (0.983 * 149597870691 ≤ len s.1 ∧ len s.1 ≤ 1.017 * 149597870691) ∧ (350000000 ≤ len s.2.1 ∧ len s.2.1 ≤ 420000000) ∧
      (len p.1 = len s.1 ∧ len p.2.1 = len s.2.1) := by
  simp only [sunmoon, sunmoonP]
  rw [rot_len (frame ..).1, rot_len (frame ..).1, rot_len (frame ..).2, rot_len (frame ..).2, sun_len, moon_len]
  exact ⟨sun_bounds _, moon_bounds _, rfl, rfl⟩

/-- Sidereal time is an angle of which a day of 86400 s is a full turn, so that days added or dropped do not matter. -/
theorem full_turn (s : ℚ) (k : Int) : ang s = 2 * Real.pi * (s / 86400 : ℚ) ∧ Rz (ang (s + 86400 * k)) = Rz (ang s) := by
  have e : ang (s + 86400 * k) = ang s + k * (2 * Real.pi) := by
    unfold ang; push_cast; ring
  constructor
  · unfold ang; push_cast; ring
  · unfold Rz
    rw [e, Real.sin_add_int_mul_two_pi, Real.cos_add_int_mul_two_pi]

/-! ### sidereal time -/

/-- seconds of sidereal time before reduction, for the instant `x` (seconds since 1970): the polynomial in the centuries from noon of
2000-01-01 to the start of the day, and the part of the day -/
def sidereal (x : ℚ) : ℚ :=
  let d : ℚ := ((⌊x / 86400⌋ : Int) : ℚ) * 86400
  let c := (d - 946728000) / (86400 * 36525)
  24110.54841 + 8640184.812866 * c + 0.093104 * c ^ 2 - 6.2e-6 * c ^ 3 + 1.002737909350795 * (x - d)

theorem gmst_eq (t : GTime) (ut1 : ℚ) (h0 : 0 ≤ t.tot + ut1) (h1 : t.tot + ut1 < 47482 * 86400) :
    gmst t ut1 = fmod (sidereal (t.tot + ut1)) 86400 := by
  have hn := norm_timeadd t ut1
  rw [← tot_timeadd] at h0 h1 ⊢
  simp only [gmst]
  generalize timeadd t ut1 = u at *
  obtain ⟨n0, n1⟩ := hn
  have ht0 : 0 ≤ u.time := by
    have : (-1 : ℚ) < u.time := by simp only [GTime.tot] at h0; linarith
    have : (-1 : Int) < u.time := by exact_mod_cast this
    omega
  have hmax : C03.dayNumber 2100 1 1 = 47482 := by decide +kernel
  have ht1 : u.time < C03.dayNumber 2100 1 1 * 86400 := by
    rw [hmax]
    have : (u.time : ℚ) < 47482 * 86400 := by simp only [GTime.tot] at h1; linarith
    exact_mod_cast this
  obtain ⟨hv, he⟩ := C03.epoch2time_time2epoch u ht0 ht1 n0 n1
  have hd := (C03.epoch2time_daycount _ hv).1
  rw [he] at hd
  generalize time2epoch u = e at *
  have hv0 : C03.Valid ⟨e.year, e.mon, e.day, 0, 0, 0⟩ := by
    obtain ⟨v1, v2, v3, v4, v5, v6, -⟩ := hv
    exact ⟨v1, v2, v3, v4, v5, v6, by norm_num, by norm_num, by norm_num, by norm_num, by norm_num, by norm_num⟩
  have hd0 := (C03.epoch2time_daycount _ hv0).1
  obtain ⟨-, -, -, -, -, -, w1, w2, w3, w4, w5, w6⟩ := hv
  have q1 : (0 : ℚ) ≤ e.hour := by exact_mod_cast w1
  have q2 : (e.hour : ℚ) ≤ 23 := by exact_mod_cast (by omega : e.hour ≤ 23)
  have q3 : (0 : ℚ) ≤ e.min := by exact_mod_cast w3
  have q4 : (e.min : ℚ) ≤ 59 := by exact_mod_cast (by omega : e.min ≤ 59)
  push_cast at hd hd0
  have hf : ⌊u.tot / 86400⌋ = C03.dayNumber e.year e.mon e.day := by
    rw [Int.floor_eq_iff, le_div_iff₀ (by norm_num), div_lt_iff₀ (by norm_num)]
    simp only [GTime.tot]
    constructor <;> linarith
  have hj : J2000.tot = 946728000 := by decide +kernel
  have e1 : (epoch2time ⟨e.year, e.mon, e.day, 0, 0, 0⟩).tot = (C03.dayNumber e.year e.mon e.day : ℚ) * 86400 := by
    simp only [GTime.tot]; linarith
  have e2 : (e.hour : ℚ) * 3600 + e.min * 60 + e.sec = u.tot - (C03.dayNumber e.year e.mon e.day : ℚ) * 86400 := by
    simp only [GTime.tot]; linarith
  simp only [sidereal, hf, timediff_tot, hj, century, e1, e2]

/-- **sidereal time**: for instants from 2000 to 2099 it is the formula for the instant in UT1, reduced to a day -/
theorem sidereal_time (t : GTime) (ut1 : ℚ) (h0 : 946684800 ≤ t.tot + ut1) (h1 : t.tot + ut1 < 47482 * 86400) :
    (0 ≤ gmst t ut1 ∧ gmst t ut1 < 86400) ∧ ∃ k : Int, gmst t ut1 = sidereal (t.tot + ut1) - 86400 * k := by
  rw [gmst_eq t ut1 (by linarith) h1]
  generalize t.tot + ut1 = x at *
  have hp : 0 ≤ sidereal x := by
    simp only [sidereal]
    have f1 := Int.floor_le (x / 86400)
    have f0 : (10957 : Int) ≤ ⌊x / 86400⌋ := by rw [Int.le_floor, le_div_iff₀ (by norm_num)]; push_cast; linarith
    have f2 : ⌊x / 86400⌋ < (47482 : Int) := by rw [Int.floor_lt, div_lt_iff₀ (by norm_num)]; push_cast; linarith
    generalize ⌊x / 86400⌋ = n at *
    have g0 : (10957 : ℚ) ≤ n := by exact_mod_cast f0
    have g2 : (n : ℚ) < 47482 := by exact_mod_cast f2
    rw [le_div_iff₀ (by norm_num)] at f1
    set c := ((n : ℚ) * 86400 - 946728000) / (86400 * 36525) with hc
    have c0 : -0.001 ≤ c := by rw [hc, le_div_iff₀ (by norm_num)]; linarith
    have c1 : c ≤ 1 := by rw [hc, div_le_iff₀ (by norm_num)]; linarith
    have c2 : 0 ≤ c ^ 2 := sq_nonneg c
    have c3 : c ^ 3 ≤ 1 := by nlinarith [mul_nonneg (sub_nonneg.2 c1) c2]
    nlinarith
  generalize sidereal x = y at *
  have ht : truncQ (y / 86400) = ⌊y / 86400⌋ := by unfold truncQ; rw [if_pos (by positivity)]
  have f1 := Int.floor_le (y / 86400)
  have f2 := Int.lt_floor_add_one (y / 86400)
  rw [le_div_iff₀ (by norm_num)] at f1
  rw [div_lt_iff₀ (by norm_num)] at f2
  unfold fmod
  rw [ht]
  exact ⟨⟨by linarith, by linarith⟩, ⌊y / 86400⌋, rfl⟩

/-- within a day it runs 1.0027379 times as fast as time -/
theorem sidereal_rate (x y : ℚ) (h : ⌊x / 86400⌋ = ⌊y / 86400⌋) : sidereal y - sidereal x = 1.002737909350795 * (y - x) := by
  simp only [sidereal, h]
  ring

/-- one day later it is 3 min 56 s ahead, to within half a millisecond per day -/
theorem sidereal_day (x : ℚ) (h0 : 946684800 ≤ x) (h1 : x < 47482 * 86400) : |sidereal (x + 86400) - sidereal x - 236.55536| < 0.0005 := by
  have hf : ⌊(x + 86400) / 86400⌋ = ⌊x / 86400⌋ + 1 := by
    rw [add_div, div_self (by norm_num)]
    exact Int.floor_add_one _
  simp only [sidereal, hf]
  have f0 : (10957 : Int) ≤ ⌊x / 86400⌋ := by rw [Int.le_floor, le_div_iff₀ (by norm_num)]; push_cast; linarith
  have f2 : ⌊x / 86400⌋ < (47482 : Int) := by rw [Int.floor_lt, div_lt_iff₀ (by norm_num)]; push_cast; linarith
  generalize ⌊x / 86400⌋ = n at *
  have g0 : (10957 : ℚ) ≤ n := by exact_mod_cast f0
  have g2 : (n : ℚ) < 47482 := by exact_mod_cast f2
  push_cast
  have e : (((n : ℚ) + 1) * 86400 - 946728000) / (86400 * 36525) = ((n : ℚ) * 86400 - 946728000) / (86400 * 36525) + 1 / 36525 := by field_simp; ring
  rw [e]
  set c := ((n : ℚ) * 86400 - 946728000) / (86400 * 36525) with hc
  have c0 : -0.001 ≤ c := by rw [hc, le_div_iff₀ (by norm_num)]; linarith
  have c1 : c ≤ 1 := by rw [hc, div_le_iff₀ (by norm_num)]; linarith
  rw [abs_lt]
  constructor <;> nlinarith [sq_nonneg c]

/-- **leap seconds twice**: from 2017 on the Sun and Moon of ppp.py are turned with the sidereal time 18 s before the instant asked for; that of
peph.py is of the instant asked for -/
theorem leap_twice (n : Nut) (f : ℝ → Fin 5 → ℝ) (tutc : GTime) (xp yp : ℝ) (ut1 : ℚ) (h : 1483228818 ≤ tutc.tot) :
    (sunmoon n f tutc xp yp ut1).2.2 = gmst (timeadd tutc (-18)) ut1 ∧ (sunmoonP n f tutc xp yp ut1).2.2 = gmst tutc ut1 := by
  refine ⟨?_, rfl⟩
  have e : gpst2utc tutc = timeadd tutc (-18) := by
    have : (epoch2time ⟨2017, 1, 1, 0, 0, 0⟩).tot = 1483228800 := by decide +kernel
    simp only [gpst2utc, leaps, gpst2utcLoop, timediff_tot, this, tot_timeadd]
    rw [if_pos (by push_cast; linarith)]
    norm_num
  simp only [sunmoon, eci2ecef, e]

/-- so the directions of Sun and Moon are turned by 18.049 s of sidereal time, 0.075 degrees -/
theorem turned (n : Nut) (f : ℝ → Fin 5 → ℝ) (tutc : GTime) (xp yp : ℝ) (ut1 : ℚ) (h : 1483228818 ≤ tutc.tot) (hu : |ut1| ≤ 1)
    (h1 : tutc.tot + ut1 < 47482 * 86400) (hd : ⌊(tutc.tot + ut1) / 86400⌋ = ⌊(tutc.tot + ut1 - 18) / 86400⌋) :
    ∃ k : Int, (sunmoon n f tutc xp yp ut1).2.2 = (sunmoonP n f tutc xp yp ut1).2.2 - 18.04928236831431 + 86400 * k := by
  obtain ⟨e1, e2⟩ := leap_twice n f tutc xp yp ut1 h
  rw [e1, e2]
  have hu' := abs_le.1 hu
  obtain ⟨-, k, hk⟩ := sidereal_time tutc ut1 (by linarith) h1
  obtain ⟨-, m, hm⟩ := sidereal_time (timeadd tutc (-18)) ut1 (by rw [tot_timeadd]; linarith) (by rw [tot_timeadd]; linarith)
  rw [hk, hm, tot_timeadd]
  have hr := sidereal_rate _ _ hd
  refine ⟨k - m, ?_⟩
  rw [show tutc.tot + -18 + ut1 = tutc.tot + ut1 - 18 by ring]
  push_cast
  linarith

/-! ### relativistic delay -/

theorem dot_nonneg (a : V) : 0 ≤ a ⬝ᵥ a := by
  simp only [dotProduct, Fin.sum_univ_three]; nlinarith [sq_nonneg (a 0), sq_nonneg (a 1), sq_nonneg (a 2)]

theorem len_sq (a : V) : len a ^ 2 = a ⬝ᵥ a := Real.sq_sqrt (dot_nonneg a)

theorem len_nonneg (a : V) : 0 ≤ len a := Real.sqrt_nonneg _

theorem cauchy (a b : V) : |a ⬝ᵥ b| ≤ len a * len b := by
  rw [← Real.sqrt_sq_eq_abs, len, len, ← Real.sqrt_mul (dot_nonneg a)]
  apply Real.sqrt_le_sqrt
  simp only [dotProduct, Fin.sum_univ_three]
  nlinarith [sq_nonneg (a 0 * b 1 - a 1 * b 0), sq_nonneg (a 0 * b 2 - a 2 * b 0), sq_nonneg (a 1 * b 2 - a 2 * b 1)]

theorem len_sub_sq (a b : V) : len (a - b) ^ 2 = len a ^ 2 + len b ^ 2 - 2 * (a ⬝ᵥ b) := by
  rw [len_sq, len_sq, len_sq]
  simp only [dotProduct, Fin.sum_univ_three, Pi.sub_apply]
  ring

theorem gap (a b : V) : (len a + len b) ^ 2 - len (a - b) ^ 2 = 2 * (len a * len b + a ⬝ᵥ b) := by
  rw [len_sub_sq]; ring

theorem triangle (a b : V) : len (a - b) ≤ len a + len b := by
  have h1 := gap a b
  have h2 := (abs_le.1 (cauchy a b)).1
  have h3 := len_nonneg a
  have h4 := len_nonneg b
  by_contra c
  nlinarith [len_nonneg (a - b)]

/-- **delay**: it is never negative -/
theorem delay_nonneg (a b : V) (x : ℝ) (h : shapiro a b = some x) : 0 ≤ x := by
  simp only [shapiro] at h
  split_ifs at h with hz
  simp only [Option.some.injEq] at h
  rw [← h]
  have ht := triangle a b
  have hd : 0 < len a + len b - len (a - b) := lt_of_le_of_ne (by linarith) (Ne.symm hz)
  apply mul_nonneg (by positivity)
  apply Real.log_nonneg
  rw [le_div_iff₀ hd]
  linarith [len_nonneg (a - b)]

/-- the delay is the same in both directions -/
theorem delay_symm (a b : V) : shapiro a b = shapiro b a := by
  have : len (b - a) = len (a - b) := by
    unfold len
    congr 1
    simp only [dotProduct, Fin.sum_univ_three, Pi.sub_apply]
    ring
  simp only [shapiro, this, add_comm (len b)]

/-- the delay does not depend on the frame -/
theorem delay_frame (A : M) (h : IsRot A) (a b : V) : shapiro (A *ᵥ a) (A *ᵥ b) = shapiro a b := by
  simp only [shapiro, ← mulVec_sub, rot_len h]

/-- **no delay**: infinite exactly if satellite and receiver are in opposite directions from the centre of the Earth, or one of them is there -/
theorem delay_infinite (a b : V) : shapiro a b = none ↔ a ⬝ᵥ b = -(len a * len b) := by
  simp only [shapiro]
  have hg := gap a b
  have h1 := len_nonneg a
  have h2 := len_nonneg b
  have h3 := len_nonneg (a - b)
  constructor
  · intro h
    split_ifs at h with hz
    have : len (a - b) = len a + len b := by linarith
    rw [this] at hg
    linarith
  · intro h
    rw [if_pos]
    rw [h] at hg
    have : (len a + len b) ^ 2 = len (a - b) ^ 2 := by linarith
    have := (pow_left_inj₀ (by positivity) h3 (by norm_num)).1 this
    linarith

/-- with an unknown receiver position (the centre of the Earth) it is infinite -/
theorem delay_centre (a : V) : shapiro a 0 = none := by
  rw [delay_infinite]
  simp [len]

/-! ### tides -/

/-- **tide of a body**: proportional to its mass -/
theorem tide_mass (eu rp : V) (c g lat lon : ℝ) : tidePl eu rp (c * g) lat lon = fun k => c * tidePl eu rp g lat lon k := by
  funext k
  simp only [tidePl]
  ring

theorem unit_coord {e : V} (h : e ⬝ᵥ e = 1) (k : Fin 3) : |e k| ≤ 1 := by
  simp only [dotProduct, Fin.sum_univ_three] at h
  have h0 : e 0 ^ 2 ≤ 1 := by nlinarith [sq_nonneg (e 1), sq_nonneg (e 2)]
  have h1 : e 1 ^ 2 ≤ 1 := by nlinarith [sq_nonneg (e 0), sq_nonneg (e 2)]
  have h2 : e 2 ^ 2 ≤ 1 := by nlinarith [sq_nonneg (e 0), sq_nonneg (e 1)]
  have : e k ^ 2 ≤ 1 := by
    fin_cases k
    exacts [h0, h1, h2]
  exact (sq_le_one_iff_abs_le_one _).1 this

theorem unit_dot {e u : V} (h : e ⬝ᵥ e = 1) (hu : u ⬝ᵥ u = 1) : |e ⬝ᵥ u| ≤ 1 := by
  have := cauchy e u
  simpa [len, h, hu] using this

theorem tide_bound (eu rp : V) (g lat lon K : ℝ) (hu : eu ⬝ᵥ eu = 1) (hr : 350000000 ≤ len rp)
    (hg : 0 ≤ g) (hK : g / 3.986004415e14 * 6378137 ^ 4 / len rp ^ 3 ≤ K) (k : Fin 3) : |tidePl eu rp g lat lon k| ≤ 1.15 * K := by
  have hr0 : 0 < len rp := by linarith
  have he : (fun k => rp k / len rp) ⬝ᵥ (fun k => rp k / len rp) = 1 := by
    have h := len_sq rp
    have : (fun k => rp k / len rp) ⬝ᵥ (fun k => rp k / len rp) = (rp ⬝ᵥ rp) / len rp ^ 2 := by
      simp only [dotProduct, Fin.sum_univ_three]; field_simp
    rw [this, ← h]
    field_simp
  simp only [tidePl]
  have hk2 : 0 ≤ g / 3.986004415e14 * 6378137 ^ 4 / len rp ^ 3 := by positivity
  generalize g / 3.986004415e14 * 6378137 ^ 4 / len rp ^ 3 = K2 at *
  have hk3 : 0 ≤ K2 * 6378137 / len rp := by positivity
  have hk3' : K2 * 6378137 / len rp ≤ K2 * 0.0183 := by
    rw [div_le_iff₀ hr0]
    nlinarith
  generalize K2 * 6378137 / len rp = K3 at *
  have ha := abs_le.1 (unit_dot he hu)
  have hek := unit_coord he k
  have huk := unit_coord hu k
  generalize hE : (fun k => rp k / len rp) = ep at *
  have hE' : ∀ k, rp k / len rp = ep k := fun k => by rw [← hE]
  simp only [hE'] at hek ⊢
  generalize ep ⬝ᵥ eu = a at *
  generalize Real.arcsin (ep 2) = lp
  generalize Complex.arg _ = ln
  have hs : 0 ≤ Real.sin lat ^ 2 ∧ Real.sin lat ^ 2 ≤ 1 := ⟨sq_nonneg _, Real.sin_sq_le_one lat⟩
  generalize Real.sin lat ^ 2 = q at *
  have hx1 : |Real.sin (2 * lp) * Real.sin (2 * lat) * Real.sin (lon - ln)| ≤ 1 := by
    rw [abs_mul, abs_mul]
    have h1 := Real.abs_sin_le_one (2 * lp)
    have h2 := Real.abs_sin_le_one (2 * lat)
    have h3 := Real.abs_sin_le_one (lon - ln)
    exact mul_le_one₀ (mul_le_one₀ h1 (abs_nonneg _) h2) (abs_nonneg _) h3
  have hx2 : |(Real.cos lp * Real.cos lat) ^ 2 * Real.sin (2 * (lon - ln))| ≤ 1 := by
    rw [abs_mul, abs_pow, abs_mul]
    have h1 := Real.abs_cos_le_one lp
    have h2 := Real.abs_cos_le_one lat
    have h3 := Real.abs_sin_le_one (2 * (lon - ln))
    exact mul_le_one₀ (pow_le_one₀ (by positivity) (mul_le_one₀ h1 (abs_nonneg _) h2)) (abs_nonneg _) h3
  set X := Real.sin (2 * lp) * Real.sin (2 * lat) * Real.sin (lon - ln) with hX
  set Y := (Real.cos lp * Real.cos lat) ^ 2 * Real.sin (2 * (lon - ln)) with hY
  have hA : 0 ≤ a ^ 2 ∧ a ^ 2 ≤ 1 := ⟨sq_nonneg _, by nlinarith⟩
  have bd : ∀ {c m x : ℝ}, 0 ≤ c → |x| ≤ m → |c * x| ≤ c * m := fun hc hx => by
    rw [abs_mul, abs_of_nonneg hc]; exact mul_le_mul_of_nonneg_left hx hc
  have d1 : |K2 * (3 * (0.0847 + 0.0002 * ((3 * q - 1) / 2)) * a)| ≤ K2 * 0.2547 := bd hk2 (by
    rw [abs_mul, abs_of_nonneg (by linarith)]
    have := abs_le.2 ha
    calc _ ≤ 3 * (0.0847 + 0.0002 * ((3 * q - 1) / 2)) * 1 := mul_le_mul_of_nonneg_left this (by linarith)
      _ ≤ 0.2547 := by linarith)
  have d2 : |K3 * (0.0156 * (7.5 * a ^ 2 - 1.5))| ≤ K3 * 0.0936 := bd hk3 (by rw [abs_le]; constructor <;> linarith)
  have d3 : |K2 * ((0.6078 - 0.0006 * ((3 * q - 1) / 2)) * (1.5 * a ^ 2 - 0.5) - 3 * (0.0847 + 0.0002 * ((3 * q - 1) / 2)) * a ^ 2)| ≤ K2 * 0.8628 := bd hk2 (by
    rw [abs_le]
    constructor <;> nlinarith [mul_nonneg hs.1 hA.1, mul_nonneg (sub_nonneg.2 hs.2) (sub_nonneg.2 hA.2), mul_nonneg hs.1 (sub_nonneg.2 hA.2)])
  have d4 : |K3 * (a * (0.293 * (2.5 * a ^ 2 - 1.5) - 0.0156 * (7.5 * a ^ 2 - 1.5)))| ≤ K3 * 0.54 := bd hk3 (by
    rw [abs_mul]
    have h1 : |0.293 * (2.5 * a ^ 2 - 1.5) - 0.0156 * (7.5 * a ^ 2 - 1.5)| ≤ 0.54 := by rw [abs_le]; constructor <;> linarith
    have := abs_le.2 ha
    calc _ ≤ 1 * 0.54 := mul_le_mul this h1 (abs_nonneg _) (by norm_num)
      _ = 0.54 := by norm_num)
  have d5 : |K2 * (3 / 4 * 0.0025 * X)| ≤ K2 * 0.002 := bd hk2 (by
    have := abs_le.1 hx1
    rw [abs_le]; constructor <;> linarith)
  have d6 : |K2 * (3 / 4 * 0.0022 * Y)| ≤ K2 * 0.002 := bd hk2 (by
    have := abs_le.1 hx2
    rw [abs_le]; constructor <;> linarith)
  have hp : ∀ x y : ℝ, |x * ep k + y * eu k| ≤ |x| + |y| := fun x y => by
    refine (abs_add_le _ _).trans ?_
    rw [abs_mul, abs_mul]
    have h1 := mul_le_mul_of_nonneg_left hek (abs_nonneg x)
    have h2 := mul_le_mul_of_nonneg_left huk (abs_nonneg y)
    linarith
  refine (hp _ _).trans ?_
  have e1 : K2 * 3 * (0.0847 + 0.0002 * ((3 * q - 1) / 2)) * a + K3 * 0.0156 * (7.5 * a ^ 2 - 1.5)
      = K2 * (3 * (0.0847 + 0.0002 * ((3 * q - 1) / 2)) * a) + K3 * (0.0156 * (7.5 * a ^ 2 - 1.5)) := by ring
  have e2 : K2 * ((0.6078 - 0.0006 * ((3 * q - 1) / 2)) * (1.5 * a ^ 2 - 0.5) - 3 * (0.0847 + 0.0002 * ((3 * q - 1) / 2)) * a ^ 2)
      + K3 * a * (0.293 * (2.5 * a ^ 2 - 1.5) - 0.0156 * (7.5 * a ^ 2 - 1.5))
      + 3 / 4 * 0.0025 * K2 * Real.sin (2 * lp) * Real.sin (2 * lat) * Real.sin (lon - ln)
      + 3 / 4 * 0.0022 * K2 * (Real.cos lp * Real.cos lat) ^ 2 * Real.sin (2 * (lon - ln))
      = K2 * ((0.6078 - 0.0006 * ((3 * q - 1) / 2)) * (1.5 * a ^ 2 - 0.5) - 3 * (0.0847 + 0.0002 * ((3 * q - 1) / 2)) * a ^ 2)
      + K3 * (a * (0.293 * (2.5 * a ^ 2 - 1.5) - 0.0156 * (7.5 * a ^ 2 - 1.5))) + K2 * (3 / 4 * 0.0025 * X) + K2 * (3 / 4 * 0.0022 * Y) := by
    rw [hX, hY]; ring
  rw [e1, e2]
  have t1 := abs_add_le (K2 * (3 * (0.0847 + 0.0002 * ((3 * q - 1) / 2)) * a)) (K3 * (0.0156 * (7.5 * a ^ 2 - 1.5)))
  have t2 := abs_add_le (K2 * ((0.6078 - 0.0006 * ((3 * q - 1) / 2)) * (1.5 * a ^ 2 - 0.5) - 3 * (0.0847 + 0.0002 * ((3 * q - 1) / 2)) * a ^ 2))
    (K3 * (a * (0.293 * (2.5 * a ^ 2 - 1.5) - 0.0156 * (7.5 * a ^ 2 - 1.5))))
  have t3 := abs_add_le (K2 * ((0.6078 - 0.0006 * ((3 * q - 1) / 2)) * (1.5 * a ^ 2 - 0.5) - 3 * (0.0847 + 0.0002 * ((3 * q - 1) / 2)) * a ^ 2) +
    K3 * (a * (0.293 * (2.5 * a ^ 2 - 1.5) - 0.0156 * (7.5 * a ^ 2 - 1.5)))) (K2 * (3 / 4 * 0.0025 * X))
  have t4 := abs_add_le (K2 * ((0.6078 - 0.0006 * ((3 * q - 1) / 2)) * (1.5 * a ^ 2 - 0.5) - 3 * (0.0847 + 0.0002 * ((3 * q - 1) / 2)) * a ^ 2) +
    K3 * (a * (0.293 * (2.5 * a ^ 2 - 1.5) - 0.0156 * (7.5 * a ^ 2 - 1.5))) + K2 * (3 / 4 * 0.0025 * X)) (K2 * (3 / 4 * 0.0022 * Y))
  linarith

/-- **tide**: with Sun and Moon as computed, no coordinate of the displacement of a place reaches one metre -/
theorem tide_small (n : Nut) (f : ℝ → Fin 5 → ℝ) (t : GTime) (xp yp : ℝ) (ut1 : ℚ) (lat lon : ℝ) (E : Fin 3 → V) (hE : ∀ i, E i ⬝ᵥ E i = 1)
    (flag : Bool) (k : Fin 3) :
    let s := sunmoon n f t xp yp ut1
    |solidTide s.1 s.2.1 lat lon E (ang s.2.2) flag k| < 1 := by
  obtain ⟨hs, hm, -⟩ := distances n f t xp yp ut1
  simp only [solidTide]
  generalize (sunmoon n f t xp yp ut1).1 = S at *
  generalize (sunmoon n f t xp yp ut1).2.1 = L at *
  generalize ang (sunmoon n f t xp yp ut1).2.2 = g
  have b1 := tide_bound (E 2) S 1.327124e20 lat lon 0.18 (hE 2) (by linarith [hs.1]) (by norm_num) (by
    rw [div_le_iff₀ (by have := hs.1; positivity)]
    have : (147000000000 : ℝ) ^ 3 ≤ len S ^ 3 := pow_le_pow_left₀ (by norm_num) (by linarith [hs.1]) 3
    nlinarith) k
  have b2 := tide_bound (E 2) L 4.902801e12 lat lon 0.475 (hE 2) hm.1 (by norm_num) (by
    rw [div_le_iff₀ (by have := hm.1; positivity)]
    have : (350000000 : ℝ) ^ 3 ≤ len L ^ 3 := pow_le_pow_left₀ (by norm_num) hm.1 3
    nlinarith) k
  have c2 := unit_coord (hE 2) k
  have c1 := unit_coord (hE 1) k
  have s1 := Real.abs_sin_le_one (2 * lat)
  have s2 := Real.abs_sin_le_one (g + lon)
  have s3 : 0 ≤ Real.sin lat ^ 2 ∧ Real.sin lat ^ 2 ≤ 1 := ⟨sq_nonneg _, Real.sin_sq_le_one lat⟩
  have m1 : |Real.sin (2 * lat) * Real.sin (g + lon) * E 2 k| ≤ 1 := by
    rw [abs_mul, abs_mul]
    exact mul_le_one₀ (mul_le_one₀ s1 (abs_nonneg _) s2) (abs_nonneg _) c2
  have m2 : |(1.5 * Real.sin lat ^ 2 - 0.5) * E 2 k| ≤ 1 := by
    rw [abs_mul]
    exact mul_le_one₀ (by rw [abs_le]; constructor <;> linarith) (abs_nonneg _) c2
  have m3 : |Real.sin (2 * lat) * E 1 k| ≤ 1 := by
    rw [abs_mul]
    exact mul_le_one₀ s1 (abs_nonneg _) c1
  have e1 : -0.012 * Real.sin (2 * lat) * Real.sin (g + lon) * E 2 k = -0.012 * (Real.sin (2 * lat) * Real.sin (g + lon) * E 2 k) := by ring
  have e2 : 0.1196 * (1.5 * Real.sin lat ^ 2 - 0.5) * E 2 k = 0.1196 * ((1.5 * Real.sin lat ^ 2 - 0.5) * E 2 k) := by ring
  have e3 : 0.0247 * Real.sin (2 * lat) * E 1 k = 0.0247 * (Real.sin (2 * lat) * E 1 k) := by ring
  rw [e1, e2, e3]
  rw [abs_le] at m1 m2 m3 b1 b2
  split_ifs <;> rw [abs_lt] <;> constructor <;> linarith

/-! ### examples -/

/-- 2024-01-01 00:00:40 UTC meets the hypotheses on the time -/
example : let t := epoch2time ⟨2024, 1, 1, 0, 0, 40⟩
    1483228818 ≤ t.tot ∧ t.tot + 0 < 47482 * 86400 ∧ ⌊(t.tot + 0) / 86400⌋ = ⌊(t.tot + 0 - 18) / 86400⌋ := by
  decide +kernel

/-- a satellite overhead has a delay -/
example : ∃ x, shapiro ![26560000, 0, 0] ![6378000, 0, 0] = some x := by
  cases h : shapiro ![26560000, 0, 0] ![6378000, 0, 0] with
  | some x => exact ⟨x, rfl⟩
  | none =>
    rw [delay_infinite] at h
    exfalso
    have h1 := len_nonneg ![26560000, 0, 0]
    have h2 := len_nonneg ![6378000, 0, 0]
    simp [dotProduct, Fin.sum_univ_three] at h
    nlinarith [mul_nonneg h1 h2]

end Verif.C108
