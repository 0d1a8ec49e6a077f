import Verif.Model.Tropo
import Mathlib.Analysis.SpecialFunctions.Trigonometric.Bounds
import Mathlib.Analysis.Real.Pi.Bounds
import Mathlib.Tactic.FieldSimp
import Mathlib.Tactic.Linarith
import Mathlib.Tactic.Positivity
import Mathlib.Tactic.IntervalCases
/-!
C97: tropospheric delays.
-/

namespace Verif.C97
open Verif.Tropo Real

/-! ### interpolation in latitude -/

theorem getD_eq {α : Type*} (l : List α) (d : α) {k : Nat} (h : k < l.length) : l.getD k d = l[k] := by
  simp [List.getD, h]

theorem trunc_nonneg {x : ℝ} (h : 0 ≤ x) : trunc x = ⌊x⌋ := by unfold trunc; rw [if_pos h]

/-- below the second node the first column -/
theorem interp_low {n : Nat} (coef : List (Fin n → ℝ)) {lat : ℝ} (h0 : 0 ≤ lat) (h : lat < 15) :
    interpc coef lat = coef.getD 0 (fun _ => 0) := by
  unfold interpc
  have : ⌊lat / 15⌋ < 1 := by rw [Int.floor_lt]; push_cast; linarith
  simp only [trunc_nonneg (by positivity : 0 ≤ lat / 15), this, if_true]

/-- from the last node on the last column -/
theorem interp_high {n : Nat} (coef : List (Fin n → ℝ)) (hn : coef ≠ []) {lat : ℝ} (h : 15 * (coef.length : ℝ) ≤ lat) :
    interpc coef lat = coef.getD (coef.length - 1) (fun _ => 0) := by
  have hl : 1 ≤ coef.length := List.length_pos_iff.2 hn
  have hl' : (1 : ℝ) ≤ coef.length := by exact_mod_cast hl
  unfold interpc
  have h1 : (coef.length : ℤ) ≤ ⌊lat / 15⌋ := by rw [Int.le_floor]; push_cast; linarith
  have h2 : ¬ ⌊lat / 15⌋ < 1 := by omega
  have h3 : ⌊lat / 15⌋ > ((coef.length - 1 : ℕ) : ℤ) := by omega
  simp only [trunc_nonneg (by linarith : 0 ≤ lat / 15), h2, h3, if_true, if_false]

/-- between two nodes the straight line through their columns: column `k` belongs to latitude `15 (k + 1)` -/
theorem interp_mid {n : Nat} (coef : List (Fin n → ℝ)) (k : Nat) (hk : k + 1 < coef.length) {lat : ℝ}
    (h0 : 15 * ((k : ℝ) + 1) ≤ lat) (h1 : lat < 15 * ((k : ℝ) + 2)) (r : Fin n) :
    interpc coef lat r = (coef.getD k (fun _ => 0)) r + ((coef.getD (k + 1) (fun _ => 0)) r - (coef.getD k (fun _ => 0)) r) *
      ((lat - 15 * ((k : ℝ) + 1)) / 15) := by
  have hk0 : (0 : ℝ) ≤ k := Nat.cast_nonneg k
  have hf : ⌊lat / 15⌋ = (k : ℤ) + 1 := by
    rw [Int.floor_eq_iff]; push_cast; constructor <;> linarith
  unfold interpc
  have h2 : ¬ ((k : ℤ) + 1) < 1 := by omega
  have h3 : ¬ ((k : ℤ) + 1 > ((coef.length - 1 : ℕ) : ℤ)) := by omega
  have h4 : ((k : ℤ) + 1).toNat = k + 1 := by omega
  simp only [trunc_nonneg (by linarith : 0 ≤ lat / 15), hf, h2, h3, h4, if_false, Nat.add_sub_cancel]
  push_cast; ring

/-- always a mean of two columns -/
theorem interp_mem {n : Nat} (coef : List (Fin n → ℝ)) (hn : coef ≠ []) {lat : ℝ} (h0 : 0 ≤ lat) :
    ∃ a ∈ coef, ∃ b ∈ coef, ∃ d : ℝ, 0 ≤ d ∧ d ≤ 1 ∧ ∀ r, interpc coef lat r = a r * (1 - d) + b r * d := by
  have hl : 1 ≤ coef.length := List.length_pos_iff.2 hn
  have mem : ∀ k, k < coef.length → coef.getD k (fun _ => 0) ∈ coef := fun k hk => by
    rw [getD_eq _ _ hk]; exact List.getElem_mem hk
  by_cases h1 : lat < 15
  · exact ⟨_, mem 0 (by omega), _, mem 0 (by omega), 0, le_refl _, zero_le_one, fun r => by rw [interp_low coef h0 h1]; ring⟩
  · by_cases h2 : 15 * (coef.length : ℝ) ≤ lat
    · exact ⟨_, mem (coef.length - 1) (by omega), _, mem (coef.length - 1) (by omega), 0, le_refl _, zero_le_one,
        fun r => by rw [interp_high coef hn h2]; ring⟩
    · push Not at h1 h2
      have hf0 : (1 : ℤ) ≤ ⌊lat / 15⌋ := by rw [Int.le_floor]; push_cast; linarith
      have hf1 : ⌊lat / 15⌋ < coef.length := by rw [Int.floor_lt]; push_cast; linarith
      obtain ⟨k, hk⟩ : ∃ k : ℕ, ⌊lat / 15⌋ = (k : ℤ) + 1 := ⟨(⌊lat / 15⌋ - 1).toNat, by omega⟩
      have hle := Int.floor_le (lat / 15)
      have hlt := Int.lt_floor_add_one (lat / 15)
      rw [hk] at hle hlt; push_cast at hle hlt
      refine ⟨_, mem k (by omega), _, mem (k + 1) (by omega), (lat - 15 * ((k : ℝ) + 1)) / 15, by linarith, by linarith, fun r => ?_⟩
      rw [interp_mid coef k (by omega) (by linarith) (by linarith)]; ring

theorem interp_ge {n : Nat} (coef : List (Fin n → ℝ)) (hn : coef ≠ []) {lat : ℝ} (h0 : 0 ≤ lat) (i j : Fin n) (x lo : ℝ)
    (h : ∀ a ∈ coef, lo ≤ a i - a j * x) : lo ≤ interpc coef lat i - interpc coef lat j * x := by
  obtain ⟨a, ha, b, hb, d, hd0, hd1, hd⟩ := interp_mem coef hn h0
  rw [hd, hd]
  have e : a i * (1 - d) + b i * d - (a j * (1 - d) + b j * d) * x = (a i - a j * x) * (1 - d) + (b i - b j * x) * d := by ring
  rw [e]
  have := mul_le_mul_of_nonneg_right (h a ha) (by linarith : 0 ≤ 1 - d)
  have := mul_le_mul_of_nonneg_right (h b hb) hd0
  linarith

theorem interp_le {n : Nat} (coef : List (Fin n → ℝ)) (hn : coef ≠ []) {lat : ℝ} (h0 : 0 ≤ lat) (i j : Fin n) (x hi : ℝ)
    (h : ∀ a ∈ coef, a i - a j * x ≤ hi) : interpc coef lat i - interpc coef lat j * x ≤ hi := by
  obtain ⟨a, ha, b, hb, d, hd0, hd1, hd⟩ := interp_mem coef hn h0
  rw [hd, hd]
  have e : a i * (1 - d) + b i * d - (a j * (1 - d) + b j * d) * x = (a i - a j * x) * (1 - d) + (b i - b j * x) * d := by ring
  rw [e]
  have := mul_le_mul_of_nonneg_right (h a ha) (by linarith : 0 ≤ 1 - d)
  have := mul_le_mul_of_nonneg_right (h b hb) hd0
  linarith

/-- **tropospheric tables**: the coefficients are those of the first node below 15 degrees, of the last from 75 degrees on, and on the
straight line between two nodes otherwise -/
theorem interpolation {n : Nat} (coef : List (Fin n → ℝ)) (h5 : coef.length = 5) (lat : ℝ) (h0 : 0 ≤ lat) (r : Fin n) :
    (lat ≤ 15 → interpc coef lat r = (coef[0]'(by omega)) r) ∧ (75 ≤ lat → interpc coef lat r = (coef[4]'(by omega)) r) ∧
    ∀ k : Fin 4, 15 * ((k : ℝ) + 1) ≤ lat → lat ≤ 15 * ((k : ℝ) + 2) →
      interpc coef lat r * 15 = (coef[k.1]'(by omega)) r * (15 * ((k : ℝ) + 2) - lat) + (coef[k.1 + 1]'(by omega)) r * (lat - 15 * ((k : ℝ) + 1)) := by
  have hn : coef ≠ [] := by intro h; simp [h] at h5
  have hl : (coef.length : ℝ) = 5 := by rw [h5]; norm_num
  have g : ∀ k (hk : k < coef.length), coef.getD k (fun _ => 0) = coef[k] := fun k hk => getD_eq _ _ hk
  have high : 75 ≤ lat → interpc coef lat r = (coef[4]'(by omega)) r := fun h => by
    rw [interp_high coef hn (by rw [hl]; linarith), ← g 4 (by omega), h5]
  refine ⟨fun h => ?_, high, fun k hk0 hk1 => ?_⟩
  · rcases lt_or_eq_of_le h with h | h
    · rw [interp_low coef h0 h, g 0 (by omega)]
    · rw [interp_mid coef 0 (by omega) (by rw [h]; norm_num) (by rw [h]; norm_num), h, g 0 (by omega)]; norm_num
  · rcases lt_or_eq_of_le hk1 with h | h
    · rw [interp_mid coef k.1 (by omega) hk0 h, g k.1 (by omega), g (k.1 + 1) (by omega)]; ring
    · by_cases h3 : k.1 = 3
      · have hlat : lat = 75 := by rw [h, h3]; norm_num
        rw [high (by rw [hlat])]
        obtain rfl : k = 3 := Fin.ext h3
        rw [hlat]
        have e : ((((3 : Fin 4) : ℕ) : ℝ)) = 3 := by norm_num
        rw [e]
        show _ = _ + (coef[4]'(by omega)) r * _
        ring
      · have hk4 := k.2
        rw [interp_mid coef (k.1 + 1) (by omega) (by rw [h]; push_cast; linarith) (by rw [h]; push_cast; linarith),
          g (k.1 + 1) (by omega), h]
        push_cast; ring

example : interpc niell 15 0 = 12769934 / 10 ^ 10 :=
  (interpolation niell rfl 15 (by norm_num) 0).1 (le_refl _)

/-! ### continued fraction -/

/-- the denominator of the mapping function -/
noncomputable def den (a b c s : ℝ) : ℝ := s + a / (s + b / (s + c))

theorem mapf_den (s a b c : ℝ) : mapf s a b c = den a b c 1 / den a b c s := rfl

theorem den_pos {a b c s : ℝ} (ha : 0 ≤ a) (hb : 0 ≤ b) (hc : 0 ≤ c) (hs : 0 < s) : 0 < den a b c s := by
  unfold den; positivity

/-- one towards the zenith -/
theorem mapf_zenith {a b c : ℝ} (ha : 0 ≤ a) (hb : 0 ≤ b) (hc : 0 ≤ c) : mapf 1 a b c = 1 :=
  div_self (den_pos ha hb hc one_pos).ne'

/-- never more than over a flat earth -/
theorem mapf_le {a b c s : ℝ} (ha : 0 ≤ a) (hb : 0 ≤ b) (hc : 0 ≤ c) (hs : 0 < s) (h1 : s ≤ 1) : mapf s a b c ≤ 1 / s := by
  rw [mapf_den, div_le_div_iff₀ (den_pos ha hb hc hs) hs]
  unfold den
  have e1 : s * (b / (s + c)) ≤ b / (1 + c) := by
    rw [← mul_div_assoc, div_le_div_iff₀ (by linarith) (by linarith)]
    have : s * (1 + c) ≤ s + c := by nlinarith
    nlinarith
  have e2 : s * (s + b / (s + c)) ≤ 1 + b / (1 + c) := by rw [mul_add]; nlinarith
  have q0 : 0 < s + b / (s + c) := by positivity
  have q1 : 0 < 1 + b / (1 + c) := by positivity
  have e3 : a / (1 + b / (1 + c)) * s ≤ a / (s + b / (s + c)) := by
    rw [div_mul_eq_mul_div, div_le_div_iff₀ q1 q0]
    have := mul_le_mul_of_nonneg_left e2 ha
    linarith
  linarith

/-- with the coefficients in the ranges of the tables it decreases with elevation -/
theorem den_mono {a b c s t : ℝ} (ha : 0 ≤ a) (hb : 0 < b) (hc : 0 < c) (hbc : b ≤ c ^ 2) (hq : a * c ^ 2 ≤ b ^ 2) (hs : 0 ≤ s)
    (hst : s ≤ t) : den a b c s ≤ den a b c t := by
  have qge : ∀ x : ℝ, 0 ≤ x → b / c ≤ x + b / (x + c) := fun x hx => by
    have : x + b / (x + c) = (x * (x + c) + b) / (x + c) := by field_simp
    rw [this, div_le_div_iff₀ hc (by linarith)]
    nlinarith [mul_nonneg hx (sub_nonneg.2 hbc), mul_nonneg (mul_nonneg hx hx) hc.le]
  have ht : 0 ≤ t := le_trans hs hst
  have q0 : 0 < b / c := by positivity
  have qs := qge s hs
  have qt := qge t ht
  have hle : b / (t + c) ≤ b / (s + c) := div_le_div_of_nonneg_left hb.le (by linarith) (by linarith)
  have hqq : a ≤ (s + b / (s + c)) * (t + b / (t + c)) := by
    have h1 : a ≤ b / c * (b / c) := by
      rw [div_mul_div_comm, le_div_iff₀ (by positivity)]; nlinarith
    have h2 := mul_le_mul qs qt q0.le (by linarith)
    linarith
  unfold den
  generalize hS : s + b / (s + c) = S at *
  generalize hT : t + b / (t + c) = T at *
  have hS0 : 0 < S := by linarith
  have hT0 : 0 < T := by linarith
  have key : a / S - a / T ≤ t - s := by
    rw [div_sub_div _ _ hS0.ne' hT0.ne', div_le_iff₀ (by positivity)]
    have h3 : T - S ≤ t - s := by linarith
    have h4 : 0 ≤ t - s := by linarith
    have h5 : a * (T - S) ≤ a * (t - s) := mul_le_mul_of_nonneg_left h3 ha
    have h6 := mul_le_mul_of_nonneg_right hqq h4
    nlinarith
  linarith

theorem mapf_anti {a b c s t : ℝ} (ha : 0 ≤ a) (hb : 0 < b) (hc : 0 < c) (hbc : b ≤ c ^ 2) (hq : a * c ^ 2 ≤ b ^ 2) (hs : 0 < s)
    (hst : s ≤ t) : mapf t a b c ≤ mapf s a b c := by
  rw [mapf_den, mapf_den]
  exact div_le_div_of_nonneg_left (den_pos ha hb.le hc.le one_pos).le (den_pos ha hb.le hc.le hs) (den_mono ha hb hc hbc hq hs.le hst)

/-- the excess of the flat earth over the mapping function decreases with elevation -/
theorem excess_anti {a b c s t : ℝ} (ha : 0 < a) (hb : 0 ≤ b) (hc : 0 ≤ c) (hs : 0 < s) (hst : s ≤ t) (ht1 : t ≤ 1) :
    1 / t - mapf t a b c ≤ 1 / s - mapf s a b c := by
  have form : ∀ x : ℝ, 0 < x → 1 / x - mapf x a b c =
      a * (1 - (x * x + b * (x / (x + c))) / (1 + b / (1 + c))) / (x * (x * x + b * (x / (x + c)) + a)) := fun x hx => by
    rw [mapf_den]; unfold den
    have h1 : 0 < x + c := by linarith
    have h2 : 0 < 1 + c := by linarith
    have h3 : 0 < x + b / (x + c) := by positivity
    have h4 : x * x + b * (x / (x + c)) = x * (x + b / (x + c)) := by field_simp
    rw [h4]
    generalize x + b / (x + c) = q at *
    generalize 1 + b / (1 + c) = r at *
    by_cases hr0 : r = 0
    · subst hr0; simp only [div_zero, add_zero]; field_simp; ring
    · field_simp; ring
  have ht : 0 < t := lt_of_lt_of_le hs hst
  rw [form t ht, form s hs]
  have frac : ∀ x y : ℝ, 0 < x → x ≤ y → x / (x + c) ≤ y / (y + c) := fun x y hx hxy => by
    rw [div_le_div_iff₀ (by linarith) (by linarith)]; nlinarith
  have f1 := frac s t hs hst
  have f2 := frac t 1 ht ht1
  have fs : 0 ≤ s / (s + c) := by positivity
  have hr : 0 < 1 + b / (1 + c) := by positivity
  have hsq : s * s ≤ t * t := mul_le_mul hst hst hs.le ht.le
  have htq : t * t ≤ 1 := by nlinarith
  have m1 := mul_le_mul_of_nonneg_left f1 hb
  have m2 := mul_le_mul_of_nonneg_left f2 hb
  have m0 := mul_nonneg hb fs
  have e1 : b * (1 / (1 + c)) = b / (1 + c) := by ring
  have num : (t * t + b * (t / (t + c))) / (1 + b / (1 + c)) ≤ 1 := by rw [div_le_one hr]; linarith
  have num2 : (s * s + b * (s / (s + c))) / (1 + b / (1 + c)) ≤ (t * t + b * (t / (t + c))) / (1 + b / (1 + c)) :=
    div_le_div_of_nonneg_right (by linarith) hr.le
  have ds : 0 < s * (s * s + b * (s / (s + c)) + a) := by positivity
  have d : s * (s * s + b * (s / (s + c)) + a) ≤ t * (t * t + b * (t / (t + c)) + a) :=
    mul_le_mul hst (by linarith) (by positivity) ht.le
  refine div_le_div₀ (mul_nonneg ha.le (by linarith)) ?_ ds d
  exact mul_le_mul_of_nonneg_left (by linarith) ha.le

/-! ### Niell's mapping functions -/

theorem niell_ne : niell ≠ [] := by simp [niell]

theorem one_hi {x : ℝ} (h : -1 ≤ x ∧ x ≤ 1) {k : ℝ} (hk : 0 ≤ k) : k * x ≤ k ∧ -k ≤ k * x :=
  ⟨by nlinarith [h.2], by nlinarith [h.1]⟩

/-- the coefficients in the ranges which make the mapping functions decrease, whatever day and latitude -/
theorem params (doy lat : ℝ) : let p := mapfParam doy lat
    (1 / 1000 ≤ p.1.1 ∧ p.1.1 ≤ 13 / 10000) ∧ (27 / 10000 ≤ p.1.2.1 ∧ p.1.2.1 ≤ 31 / 10000) ∧ (625 / 10000 ≤ p.1.2.2 ∧ p.1.2.2 ≤ 66 / 1000) ∧
    (56 / 100000 ≤ p.2.1 ∧ p.2.1 ≤ 617 / 1000000) ∧ (1427 / 1000000 ≤ p.2.2.1 ∧ p.2.2.1 ≤ 176 / 100000) ∧
    (434 / 10000 ≤ p.2.2.2 ∧ p.2.2.2 ≤ 5474 / 100000) := by
  intro p
  have hx : ∀ y, -1 ≤ cos y ∧ cos y ≤ 1 := fun y => ⟨neg_one_le_cos y, cos_le_one y⟩
  have ha := abs_nonneg (lat * (180 / π))
  simp only [p, mapfParam]
  generalize (2 * π * if lat < 0 then (doy - 28) / (36525 / 100) + 1 / 2 else (doy - 28) / (36525 / 100)) = y
  have hy := hx y
  generalize cos y = x at *
  have lo := fun i j lo h => interp_ge niell niell_ne ha i j x lo h
  have hi := fun i j hi h => interp_le niell niell_ne ha i j x hi h
  have lo0 : ∀ i lo, (∀ a ∈ niell, lo ≤ a i) → lo ≤ interpc niell |lat * (180 / π)| i := fun i lo h => by
    have := interp_ge niell niell_ne ha i i 0 lo (fun a h' => by simpa using h a h'); simpa using this
  have hi0 : ∀ i hi, (∀ a ∈ niell, a i ≤ hi) → interpc niell |lat * (180 / π)| i ≤ hi := fun i hi h => by
    have := interp_le niell niell_ne ha i i 0 hi (fun a h' => by simpa using h a h'); simpa using this
  refine ⟨⟨lo 0 3 _ ?_, hi 0 3 _ ?_⟩, ⟨lo 1 4 _ ?_, hi 1 4 _ ?_⟩, ⟨lo 2 5 _ ?_, hi 2 5 _ ?_⟩,
    ⟨lo0 6 _ ?_, hi0 6 _ ?_⟩, ⟨lo0 7 _ ?_, hi0 7 _ ?_⟩, ⟨lo0 8 _ ?_, hi0 8 _ ?_⟩⟩ <;>
  · simp only [niell, List.forall_mem_cons, List.not_mem_nil, false_imp_iff, implies_true, and_true]
    simp [Matrix.cons_val]
    refine ⟨?_, ?_, ?_, ?_, ?_⟩ <;> linarith [hy.1, hy.2]

theorem sine {el : ℝ} (h0 : 0 < el) (h1 : el ≤ π / 2) : 0 < sin el ∧ sin el ≤ 1 :=
  ⟨sin_pos_of_pos_of_lt_pi h0 (by linarith [pi_pos]), sin_le_one el⟩

theorem sine_mono {el el' : ℝ} (h0 : 0 < el) (h : el ≤ el') (h1 : el' ≤ π / 2) : sin el ≤ sin el' :=
  sin_le_sin_of_le_of_le_pi_div_two (by linarith [pi_pos]) h1 h

/-- **Niell, nothing outside**: below the horizon, 1 km below the ellipsoid or 20 km above it both functions are zero -/
theorem niell_outside (doy lat hgt el : ℝ) (h : hgt < -1000 ∨ hgt > 20000 ∨ el ≤ 0) : tropmapfNiell doy lat hgt el = (0, 0) := by
  unfold tropmapfNiell; rw [if_pos h]

/-- what is computed inside -/
theorem niell_inside {doy lat hgt el : ℝ} (h0 : -1000 ≤ hgt) (h1 : hgt ≤ 20000) (he : 0 < el) :
    let p := mapfParam doy lat
    tropmapfNiell doy lat hgt el =
      (mapf (sin el) p.1.1 p.1.2.1 p.1.2.2 +
        (1 / sin el - mapf (sin el) (253 / 10 ^ 7) (549 / 10 ^ 5) (114 / 10 ^ 5)) * (hgt / 1000), mapf (sin el) p.2.1 p.2.2.1 p.2.2.2) := by
  intro p
  unfold tropmapfNiell
  rw [if_neg (by push Not; exact ⟨h0, h1, he⟩)]
  simp only [Prod.mk.injEq, p, and_true]
  ring

/-- **Niell, zenith**: both functions are one, for every day, latitude and height -/
theorem niell_zenith (doy lat hgt : ℝ) (h0 : -1000 ≤ hgt) (h1 : hgt ≤ 20000) : tropmapfNiell doy lat hgt (π / 2) = (1, 1) := by
  obtain ⟨p1, p2, p3, p4, p5, p6⟩ := params doy lat
  rw [niell_inside h0 h1 (by positivity), sin_pi_div_two, mapf_zenith (by linarith) (by linarith) (by linarith),
    mapf_zenith (by norm_num) (by norm_num) (by norm_num), mapf_zenith (by linarith) (by linarith) (by linarith)]
  norm_num

/-- **Niell, shape**: at the heights from 0 to 20 km both functions decrease with elevation, and the wet one does at all heights -/
theorem niell_anti (doy lat hgt el el' : ℝ) (h0 : -1000 ≤ hgt) (h1 : hgt ≤ 20000) (he : 0 < el) (h : el ≤ el') (he' : el' ≤ π / 2) :
    (tropmapfNiell doy lat hgt el').2 ≤ (tropmapfNiell doy lat hgt el).2 ∧
    (0 ≤ hgt → (tropmapfNiell doy lat hgt el').1 ≤ (tropmapfNiell doy lat hgt el).1) := by
  obtain ⟨p1, p2, p3, p4, p5, p6⟩ := params doy lat
  have s0 := sine he (le_trans h he')
  have s1 := sine (lt_of_lt_of_le he h) he'
  have sm := sine_mono he h he'
  rw [niell_inside h0 h1 he, niell_inside h0 h1 (lt_of_lt_of_le he h)]
  refine ⟨mapf_anti (by linarith) (by linarith) (by linarith) (by nlinarith) ?_ s0.1 sm, fun hh => add_le_add
    (mapf_anti (by linarith) (by linarith) (by linarith) (by nlinarith) ?_ s0.1 sm) ?_⟩
  · have := mul_le_mul p4.2 (pow_le_pow_left₀ (by linarith) p6.2 2) (by positivity) (by norm_num)
    have := pow_le_pow_left₀ (by norm_num) p5.1 2
    norm_num at *; linarith
  · have := mul_le_mul p1.2 (pow_le_pow_left₀ (by linarith) p3.2 2) (by positivity) (by norm_num)
    have := pow_le_pow_left₀ (by norm_num) p2.1 2
    norm_num at *; linarith
  · exact mul_le_mul_of_nonneg_right (excess_anti (by norm_num) (by norm_num) (by norm_num) s0.1 sm s1.2) (by positivity)

/-- **Niell, bounds**: the wet function is between one and that of a flat earth; the hydrostatic one is at least one from height 0 on and
then between the one at height 0 and it plus the flat earth's excess -/
theorem niell_bounds (doy lat hgt el : ℝ) (h0 : -1000 ≤ hgt) (h1 : hgt ≤ 20000) (he : 0 < el) (he' : el ≤ π / 2) :
    (1 ≤ (tropmapfNiell doy lat hgt el).2 ∧ (tropmapfNiell doy lat hgt el).2 ≤ 1 / sin el) ∧
    (0 ≤ hgt → 1 ≤ (tropmapfNiell doy lat hgt el).1 ∧ (tropmapfNiell doy lat 0 el).1 ≤ (tropmapfNiell doy lat hgt el).1) ∧
    (tropmapfNiell doy lat 0 el).1 ≤ 1 / sin el := by
  have z := niell_anti doy lat hgt el (π / 2) h0 h1 he he' le_rfl
  rw [niell_zenith doy lat hgt h0 h1] at z
  obtain ⟨p1, p2, p3, p4, p5, p6⟩ := params doy lat
  have s0 := sine he he'
  refine ⟨⟨z.1, ?_⟩, fun hh => ⟨z.2 hh, ?_⟩, ?_⟩
  · rw [niell_inside h0 h1 he]
    exact mapf_le (by linarith) (by linarith) (by linarith) s0.1 s0.2
  · rw [niell_inside h0 h1 he, niell_inside (by norm_num) (by norm_num) he]
    have := mapf_le (a := 253 / 10 ^ 7) (b := 549 / 10 ^ 5) (c := 114 / 10 ^ 5) (by norm_num) (by norm_num) (by norm_num) s0.1 s0.2
    have := mul_nonneg (sub_nonneg.2 this) (by positivity : 0 ≤ hgt / 1000)
    simp only [zero_div, mul_zero, add_zero]; linarith
  · rw [niell_inside (by norm_num) (by norm_num) he]
    simp only [zero_div, mul_zero, add_zero]
    exact mapf_le (by linarith) (by linarith) (by linarith) s0.1 s0.2

/-- **Niell, seasons**: in the southern hemisphere as in the northern one half a year later -/
theorem niell_south (doy lat hgt el : ℝ) (h : 0 < lat) :
    tropmapfNiell doy (-lat) hgt el = tropmapfNiell (doy + 365.25 / 2) lat hgt el := by
  have e : mapfParam doy (-lat) = mapfParam (doy + 365.25 / 2) lat := by
    unfold mapfParam
    have e1 : |-lat * (180 / π)| = |lat * (180 / π)| := by rw [neg_mul, abs_neg]
    have e2 : (doy - 28) / (36525 / 100) + 1 / 2 = (doy + 365.25 / 2 - 28) / (36525 / 100) := by norm_num; ring
    simp only [e1, if_pos (neg_lt_zero.2 h), if_neg (not_lt.2 h.le), e2]
  unfold tropmapfNiell
  rw [e]

/-- and the year has 365.25 days -/
theorem niell_year (doy lat hgt el : ℝ) : tropmapfNiell (doy + 365.25) lat hgt el = tropmapfNiell doy lat hgt el := by
  have e : mapfParam (doy + 365.25) lat = mapfParam doy lat := by
    unfold mapfParam
    have e2 : ∀ z : ℝ, cos (2 * π * (z + 1)) = cos (2 * π * z) := fun z => by
      rw [mul_add, mul_one, cos_add_two_pi]
    have e3 : (if lat < 0 then (doy + 365.25 - 28) / (36525 / 100) + 1 / 2 else (doy + 365.25 - 28) / (36525 / 100)) =
        (if lat < 0 then (doy - 28) / (36525 / 100) + 1 / 2 else (doy - 28) / (36525 / 100)) + (1 : ℝ) := by
      split_ifs <;> · norm_num; ring
    simp only [e3, e2]
  unfold tropmapfNiell
  rw [e]

example : (tropmapfNiell 100 (π / 4) 500 (π / 2)).1 ≤ (tropmapfNiell 100 (π / 4) 500 (π / 6)).1 :=
  (niell_anti 100 (π / 4) 500 (π / 6) (π / 2) (by norm_num) (by norm_num) (by positivity) (by linarith [pi_pos]) le_rfl).2 (by norm_num)

/-! ### the mapping functions of SBAS and of Hopfield -/

/-- **SBAS mapping**: one at the zenith, decreasing, at most that of a flat earth, and finite at the horizon -/
theorem sbas_mapping (el el' : ℝ) (he : 0 ≤ el) (h : el ≤ el') (he' : el' ≤ π / 2) :
    mapSbas (π / 2) = 1 ∧ mapSbas el' ≤ mapSbas el ∧ 1 ≤ mapSbas el ∧ (0 < el → mapSbas el ≤ 1 / sin el) ∧ mapSbas el < 22.4 := by
  have s0 : 0 ≤ sin el := sin_nonneg_of_nonneg_of_le_pi he (by linarith [pi_pos])
  have s2 : sin el ≤ sin el' := sin_le_sin_of_le_of_le_pi_div_two (by linarith [pi_pos]) he' h
  have q : ∀ x : ℝ, 0 ≤ x → 0 < sqrt (2001 / 10 ^ 6 + x ^ 2) := fun x _ => sqrt_pos.2 (by positivity)
  have anti : ∀ x y : ℝ, 0 ≤ x → x ≤ y → 1001 / 1000 / sqrt (2001 / 10 ^ 6 + y ^ 2) ≤ 1001 / 1000 / sqrt (2001 / 10 ^ 6 + x ^ 2) :=
    fun x y hx hxy => div_le_div_of_nonneg_left (by norm_num) (q x hx) (sqrt_le_sqrt (by gcongr))
  have z : 1001 / 1000 / sqrt (2001 / 10 ^ 6 + 1 ^ 2) = 1 := by
    rw [show (2001 / 10 ^ 6 + 1 ^ 2 : ℝ) = (1001 / 1000) ^ 2 by norm_num, sqrt_sq (by norm_num)]; norm_num
  refine ⟨by unfold mapSbas; rw [sin_pi_div_two, z], anti _ _ s0 s2, ?_, fun hpos => ?_, ?_⟩
  · have := anti _ _ s0 (sin_le_one el)
    rw [z] at this; exact this
  · have s1 := sine hpos (le_trans h he')
    unfold mapSbas
    rw [div_le_div_iff₀ (q _ s0) s1.1, one_mul]
    refine le_sqrt_of_sq_le ?_
    have : sin el ^ 2 ≤ 1 := pow_le_one₀ s0 s1.2
    rw [mul_pow]; norm_num; linarith
  · refine lt_of_le_of_lt (anti 0 _ le_rfl s0) ?_
    rw [div_lt_iff₀ (q 0 le_rfl)]
    have : (447 / 10000 : ℝ) ≤ sqrt (2001 / 10 ^ 6 + 0 ^ 2) := le_sqrt_of_sq_le (by norm_num)
    norm_num at *; linarith

/-- **Hopfield mapping**: decreasing and at least one as long as the argument of the sine is at most 90 degrees; at most that of a flat
earth; the hydrostatic one at most the wet one; at the zenith both are above one, by less than a millionth -/
theorem hopf_zenith {e : ℝ} (e0 : 0 < e) (e1 : e ≤ π / 72) :
    1 < 1 / sin (sqrt ((π / 2) ^ 2 + e ^ 2)) ∧ 1 / sin (sqrt ((π / 2) ^ 2 + e ^ 2)) < 1 + 1 / 10 ^ 6 := by
  have hp := pi_pos
  have p4 := pi_lt_d2
  have hr : π / 2 < sqrt ((π / 2) ^ 2 + e ^ 2) := lt_sqrt_of_sq_lt (by have := pow_pos e0 2; linarith)
  have hr2 : sqrt ((π / 2) ^ 2 + e ^ 2) ≤ π / 2 + 1 / 1000 := by
    rw [sqrt_le_left (by positivity)]
    have : e ^ 2 ≤ (π / 72) ^ 2 := pow_le_pow_left₀ e0.le e1 2
    nlinarith
  set r := sqrt ((π / 2) ^ 2 + e ^ 2)
  have hd0 : 0 < r - π / 2 := by linarith
  have hd1 : r - π / 2 ≤ 1 / 1000 := by linarith
  have hs : sin r = cos (r - π / 2) := by rw [cos_sub_pi_div_two]
  have hlo := one_sub_sq_div_two_le_cos (x := r - π / 2)
  have hsq : (r - π / 2) ^ 2 ≤ 1 / 1000000 := le_trans (pow_le_pow_left₀ hd0.le hd1 2) (by norm_num)
  have hlt : cos (r - π / 2) < 1 := by
    have := cos_lt_cos_of_nonneg_of_le_pi le_rfl (by linarith [pi_gt_three]) hd0
    rwa [cos_zero] at this
  rw [hs]
  have hpos : 0 < cos (r - π / 2) := by linarith
  refine ⟨(one_lt_div hpos).2 hlt, ?_⟩
  rw [div_lt_iff₀ hpos, show (1 + 1 / 10 ^ 6 : ℝ) = 1000001 / 1000000 by norm_num]
  linarith

theorem hopf_mapping (el el' : ℝ) (he : 0 < el) (h : el ≤ el') (he' : el' ^ 2 + (π / 72) ^ 2 ≤ (π / 2) ^ 2) :
    ((tropmapfHpf el').1 ≤ (tropmapfHpf el).1 ∧ (tropmapfHpf el').2 ≤ (tropmapfHpf el).2) ∧
    1 ≤ (tropmapfHpf el).1 ∧ (tropmapfHpf el).1 ≤ (tropmapfHpf el).2 ∧ (tropmapfHpf el).2 ≤ 1 / sin el := by
  have hp := pi_pos
  have ord : ∀ x y : ℝ, 0 < x → x ≤ y → y ≤ π / 2 → 1 / sin y ≤ 1 / sin x := fun x y hx hxy hy =>
    one_div_le_one_div_of_le (sin_pos_of_pos_of_lt_pi hx (by linarith)) (sin_le_sin_of_le_of_le_pi_div_two (by linarith) hy hxy)
  have h2 : el ^ 2 ≤ el' ^ 2 := pow_le_pow_left₀ he.le h 2
  have e1 : (π / 120) ^ 2 ≤ (π / 72) ^ 2 := pow_le_pow_left₀ (by positivity) (by linarith) 2
  have e2 : 0 < (π / 120) ^ 2 := by positivity
  have lt : ∀ z : ℝ, z ≤ (π / 2) ^ 2 → sqrt z ≤ π / 2 := fun z hz => sqrt_le_iff.2 ⟨by positivity, hz⟩
  have pos : ∀ z : ℝ, 0 < z → 0 < sqrt z := fun z hz => sqrt_pos.2 hz
  have q2 : 0 < el ^ 2 := by positivity
  unfold tropmapfHpf
  refine ⟨⟨ord _ _ (pos _ (by linarith)) (sqrt_le_sqrt (by linarith)) (lt _ he'), ord _ _ (pos _ (by linarith)) (sqrt_le_sqrt (by linarith)) (lt _ (by linarith))⟩, ?_,
    ord _ _ (pos _ (by linarith)) (sqrt_le_sqrt (by linarith)) (lt _ (by linarith)), ord _ _ he ?_ (lt _ (by linarith))⟩
  · have := ord _ _ (pos (el ^ 2 + (π / 72) ^ 2) (by linarith)) (lt _ (by linarith)) le_rfl
    rwa [sin_pi_div_two, div_one] at this
  · exact le_sqrt_of_sq_le (by linarith)

example : 1 < (tropmapfHpf (π / 2)).1 ∧ 1 < (tropmapfHpf (π / 2)).2 :=
  ⟨(hopf_zenith (by positivity) le_rfl).1, (hopf_zenith (by positivity) (by linarith [pi_pos])).1⟩

/-! ### zenith delays: Saastamoinen -/

/-- the standard atmosphere reaches zero pressure above 44 km -/
theorem base_pos {hgt : ℝ} (h : hgt ≤ 44000) : 0 < 1 - 22557 / 10 ^ 9 * hgt := by norm_num; linarith

/-- **Saastamoinen, standard atmosphere**: 1013.25 hPa and 15 degrees at sea level; pressure falls with height; temperature falls by 6.5
degrees a kilometre -/
theorem standard (humi : ℝ) :
    (meteo 0 humi).1 = 1013.25 ∧ (meteo 0 humi).2.1 = 288.16 ∧
    (∀ h h', h < h' → h' ≤ 44000 → (meteo h' humi).1 < (meteo h humi).1) ∧ (∀ h, h ≤ 44000 → 0 < (meteo h humi).1) ∧
    ∀ h, (meteo (h + 1000) humi).2.1 = (meteo h humi).2.1 - 6.5 := by
  refine ⟨?_, ?_, fun h h' hh h44 => ?_, fun h h44 => ?_, fun h => ?_⟩
  · simp only [meteo, mul_zero, sub_zero, one_rpow]; norm_num
  · simp only [meteo]; norm_num
  · simp only [meteo]
    refine mul_lt_mul_of_pos_left (rpow_lt_rpow (base_pos h44).le ?_ (by norm_num)) (by norm_num)
    have : 22557 / 10 ^ 9 * h < 22557 / 10 ^ 9 * h' := mul_lt_mul_of_pos_left hh (by norm_num)
    linarith
  · simp only [meteo]
    exact mul_pos (by norm_num) (rpow_pos_of_pos (base_pos h44) _)
  · simp only [meteo]; norm_num; ring

/-- the change of gravity with latitude and height -/
theorem gravity_pos (lat : ℝ) {hgt : ℝ} (h : hgt ≤ 44000) : 0.98 < 1 - 266 / 10 ^ 5 * cos (2 * lat) - 28 / 10 ^ 8 * hgt := by
  have := cos_le_one (2 * lat)
  norm_num; linarith

/-- **Saastamoinen, hydrostatic**: positive, falling with height; 2.307 m at sea level in middle latitudes; elevation and humidity do not
enter -/
theorem saast_hydrostatic (lat el humi : ℝ) :
    (∀ h, h ≤ 44000 → 0 < (tropmodelSaast lat h el humi).1) ∧
    (∀ h h', h < h' → h' ≤ 44000 → (tropmodelSaast lat h' el humi).1 < (tropmodelSaast lat h el humi).1) ∧
    (tropmodelSaast (π / 4) 0 el humi).1 = 0.0022768 * 1013.25 ∧
    ∀ h el' humi', (tropmodelSaast lat h el' humi').1 = (tropmodelSaast lat h el humi).1 := by
  refine ⟨fun h h44 => ?_, fun h h' hh h44 => ?_, ?_, fun h el' humi' => rfl⟩
  · have g := gravity_pos lat h44
    have p := (standard humi).2.2.2.1 h h44
    simp only [tropmodelSaast]
    exact div_pos (mul_pos (by norm_num) p) (by linarith)
  · have g := gravity_pos lat (le_trans hh.le h44)
    have g' := gravity_pos lat h44
    have hc := neg_one_le_cos (2 * lat)
    have hc' := cos_le_one (2 * lat)
    have b' := base_pos h44
    have b := base_pos (le_trans hh.le h44)
    have split : ∀ z : ℝ, 0 < z → z ^ (52568 / 10000 : ℝ) = z ^ (42568 / 10000 : ℝ) * z := fun z hz => by
      rw [show (52568 / 10000 : ℝ) = 42568 / 10000 + 1 by norm_num, rpow_add_one hz.ne']
    have key : (1 - 22557 / 10 ^ 9 * h') / (1 - 266 / 10 ^ 5 * cos (2 * lat) - 28 / 10 ^ 8 * h') <
        (1 - 22557 / 10 ^ 9 * h) / (1 - 266 / 10 ^ 5 * cos (2 * lat) - 28 / 10 ^ 8 * h) := by
      rw [div_lt_div_iff₀ (by linarith) (by linarith)]
      have : 0 < (h' - h) * (22557 / 10 ^ 9 * (1 - 266 / 10 ^ 5 * cos (2 * lat)) - 28 / 10 ^ 8) :=
        mul_pos (by linarith) (by norm_num; linarith)
      linarith
    have pw : (1 - 22557 / 10 ^ 9 * h') ^ (42568 / 10000 : ℝ) ≤ (1 - 22557 / 10 ^ 9 * h) ^ (42568 / 10000 : ℝ) :=
      rpow_le_rpow b'.le (by linarith) (by norm_num)
    have pp := rpow_pos_of_pos b (42568 / 10000 : ℝ)
    simp only [tropmodelSaast, meteo]
    rw [split _ b, split _ b']
    generalize (1 - 22557 / 10 ^ 9 * h') ^ (42568 / 10000 : ℝ) = P' at *
    generalize (1 - 22557 / 10 ^ 9 * h) ^ (42568 / 10000 : ℝ) = P at *
    have k0 : 0 < (1 - 22557 / 10 ^ 9 * h') / (1 - 266 / 10 ^ 5 * cos (2 * lat) - 28 / 10 ^ 8 * h') := div_pos b' (by linarith)
    have e : ∀ p x y : ℝ, 22768 / 10 ^ 7 * (101325 / 100 * (p * x)) / y = 22768 / 10 ^ 7 * (101325 / 100) * (p * (x / y)) :=
      fun p x y => by ring
    rw [e, e]
    refine mul_lt_mul_of_pos_left ?_ (by norm_num)
    exact lt_of_le_of_lt (mul_le_mul_of_nonneg_right pw k0.le) (mul_lt_mul_of_pos_left key pp)
  · simp only [tropmodelSaast, meteo, mul_zero, sub_zero, one_rpow]
    rw [show 2 * (π / 4) = π / 2 by ring, cos_pi_div_two]; norm_num

/-- **Saastamoinen, wet**: proportional to humidity, positive where the air holds water; the vapour pressure falls with height -/
theorem saast_wet (lat el : ℝ) :
    (∀ h humi, (tropmodelSaast lat h el humi).2.1 = humi * (tropmodelSaast lat h el 1).2.1) ∧
    (∀ h humi, h ≤ 38000 → 0 < humi → 0 < (tropmodelSaast lat h el humi).2.1) ∧
    ∀ h h' humi, h ≤ h' → h' ≤ 38000 → 0 ≤ humi → (meteo h' humi).2.2 ≤ (meteo h humi).2.2 := by
  refine ⟨fun h humi => ?_, fun h humi h38 hh => ?_, fun h h' humi hh h38 hu => ?_⟩
  · simp only [tropmodelSaast, meteo]; ring
  · simp only [tropmodelSaast, meteo]
    have : 0 < 15 - 65 / 10 ^ 4 * h + 27316 / 100 := by norm_num; linarith
    positivity
  · simp only [meteo]
    refine mul_le_mul_of_nonneg_left (exp_le_exp.2 ?_) (by positivity)
    have t' : 38.45 < 15 - 65 / 10 ^ 4 * h' + 27316 / 100 := by norm_num; linarith
    have t : 15 - 65 / 10 ^ 4 * h' + 27316 / 100 ≤ 15 - 65 / 10 ^ 4 * h + 27316 / 100 := by norm_num; linarith
    generalize 15 - 65 / 10 ^ 4 * h' + 27316 / 100 = T' at *
    generalize 15 - 65 / 10 ^ 4 * h + 27316 / 100 = T at *
    norm_num at t'
    rw [div_le_div_iff₀ (by linarith) (by linarith)]
    nlinarith

/-! ### zenith delays: SBAS -/

theorem atmos_ne : atmos ≠ [] := by simp [atmos]

/-- the five parameters for every day and latitude -/
theorem atmos_range (doy lat : ℝ) : let p := atmosParam doy lat
    (1009 ≤ p.pres ∧ p.pres ≤ 1021) ∧ (249 ≤ p.temp ∧ p.temp ≤ 302) ∧ (0.7 ≤ p.e ∧ p.e ≤ 31) ∧ (0.0039 ≤ p.beta ∧ p.beta ≤ 0.0063) ∧
    (1 ≤ p.lam ∧ p.lam ≤ 3.5) := by
  intro p
  simp only [p, atmosParam]
  have hy : ∀ y, -1 ≤ cos y ∧ cos y ≤ 1 := fun y => ⟨neg_one_le_cos y, cos_le_one y⟩
  have ha := abs_nonneg lat
  have hy := hy (2 * π * ((doy - if lat ≥ 0 then 28 else 211) / (36525 / 100)))
  generalize cos (2 * π * ((doy - if lat ≥ 0 then 28 else 211) / (36525 / 100))) = x at *
  have lo := fun i j lo h => interp_ge atmos atmos_ne ha i j x lo h
  have hi := fun i j hi h => interp_le atmos atmos_ne ha i j x hi h
  refine ⟨⟨lo 0 5 _ ?_, hi 0 5 _ ?_⟩, ⟨lo 1 6 _ ?_, hi 1 6 _ ?_⟩, ⟨lo 2 7 _ ?_, hi 2 7 _ ?_⟩, ⟨lo 3 8 _ ?_, hi 3 8 _ ?_⟩,
    ⟨lo 4 9 _ ?_, hi 4 9 _ ?_⟩⟩ <;>
  · simp only [atmos, List.forall_mem_cons, List.not_mem_nil, false_imp_iff, implies_true, and_true]
    simp [Matrix.cons_val]
    refine ⟨?_, ?_, ?_, ?_, ?_⟩ <;> norm_num <;> linarith [hy.1, hy.2]

/-- **SBAS, seasons**: in the southern hemisphere as in the northern one 183 days before -/
theorem sbas_south (doy lat hgt el : ℝ) (h : 0 < lat) : tropmodelSBAS doy (-lat) hgt el = tropmodelSBAS (doy - 183) lat hgt el := by
  have hr : 0 < lat * r2d := mul_pos h (by unfold r2d; norm_num)
  have e : atmosParam doy (-lat * r2d) = atmosParam (doy - 183) (lat * r2d) := by
    unfold atmosParam
    have e1 : |-lat * r2d| = |lat * r2d| := by rw [neg_mul, abs_neg]
    have e2 : (doy - 183 - 28) / (36525 / 100) = (doy - 211) / (36525 / 100) := by ring
    simp only [e1, if_neg (show ¬ -lat * r2d ≥ 0 by rw [neg_mul]; linarith), if_pos (show lat * r2d ≥ 0 from hr.le), e2]
  unfold tropmodelSBAS
  rw [e]

/-- **SBAS, height**: both corrections are one at height 0, positive, and fall with height -/
theorem sbas_height {temp beta lam : ℝ} (ht : 249 ≤ temp) (hb0 : 0.0039 ≤ beta) (hb1 : beta ≤ 0.0063) (hl : 1 ≤ lam) :
    tropheightCorr temp beta lam 0 = (1, 1) ∧
    (∀ h, h ≤ 30000 → 0 < (tropheightCorr temp beta lam h).1 ∧ 0 < (tropheightCorr temp beta lam h).2) ∧
    ∀ h h', h < h' → h' ≤ 30000 → (tropheightCorr temp beta lam h').1 < (tropheightCorr temp beta lam h).1 ∧
      (tropheightCorr temp beta lam h').2 < (tropheightCorr temp beta lam h).2 := by
  have b0 : 0 < beta := by norm_num at hb0; linarith
  have t0 : 0 < temp := by linarith
  have base : ∀ h, h ≤ 30000 → 0 < 1 - beta * h / temp := fun h hh => by
    rw [sub_pos, div_lt_one t0]
    have : beta * h ≤ beta * 30000 := mul_le_mul_of_nonneg_left hh b0.le
    norm_num at hb1; linarith
  have p2 : 1 < 980665 / 10 ^ 5 / (287054 / 1000 * beta) := by
    rw [lt_div_iff₀ (by positivity)]; norm_num at *; linarith
  have p3 : 0 < (lam + 1) * (980665 / 10 ^ 5 / (287054 / 1000 * beta)) - 1 := by nlinarith
  refine ⟨?_, fun h hh => ⟨rpow_pos_of_pos (base h hh) _, rpow_pos_of_pos (base h hh) _⟩, fun h h' hh h30 => ?_⟩
  · simp only [tropheightCorr, mul_zero, zero_div, sub_zero, one_rpow]
  · have lt : 1 - beta * h' / temp < 1 - beta * h / temp := by
      have : beta * h / temp < beta * h' / temp := by gcongr
      linarith
    exact ⟨rpow_lt_rpow (base h' h30).le lt (by linarith), rpow_lt_rpow (base h' h30).le lt p3⟩

/-- **SBAS, delays**: for every day, latitude and height up to 30 km both zenith delays are positive and fall with height; at height 0 the
hydrostatic one is between 2.29 and 2.33 m, the wet one below 0.78 m -/
theorem sbas_delays (doy lat : ℝ) :
    (∀ h, h ≤ 30000 → 0 < (tropmodelSBAS doy lat h (π / 2)).1 ∧ 0 < (tropmodelSBAS doy lat h (π / 2)).2) ∧
    (∀ h h', h < h' → h' ≤ 30000 → (tropmodelSBAS doy lat h' (π / 2)).1 < (tropmodelSBAS doy lat h (π / 2)).1 ∧
      (tropmodelSBAS doy lat h' (π / 2)).2 < (tropmodelSBAS doy lat h (π / 2)).2) ∧
    2.29 < (tropmodelSBAS doy lat 0 (π / 2)).1 ∧ (tropmodelSBAS doy lat 0 (π / 2)).1 < 2.33 ∧
    (tropmodelSBAS doy lat 0 (π / 2)).2 < 0.78 := by
  obtain ⟨hp, ht, he, hb, hl⟩ := atmos_range doy (lat * r2d)
  obtain ⟨c0, c1, c2⟩ := sbas_height ht.1 hb.1 hb.2 hl.1
  have hm := (sbas_mapping 0 0 le_rfl le_rfl (by positivity)).1
  simp only [tropmodelSBAS, hm, mul_one, c0, one_mul]
  generalize atmosParam doy (lat * r2d) = a at *
  norm_num at hp ht he hb hl
  have hh : 0 < zhyd a := by unfold zhyd; have : 0 < a.pres := by linarith
                             positivity
  have dn : 17.7 < 9784 / 1000 * (a.lam + 1) - a.beta * (287054 / 1000) := by norm_num; linarith
  have dd : 17.7 * 249 < (9784 / 1000 * (a.lam + 1) - a.beta * (287054 / 1000)) * a.temp :=
    mul_lt_mul dn ht.1 (by norm_num) (by linarith)
  have hw : 0 < zwet a := by
    unfold zwet
    have : 0 < a.e := by linarith
    exact div_pos (by positivity) (by linarith)
  refine ⟨fun h h30 => ⟨mul_pos (c1 h h30).1 hh, mul_pos (c1 h h30).2 hw⟩, fun h h' h1 h30 =>
    ⟨mul_lt_mul_of_pos_right (c2 h h' h1 h30).1 hh, mul_lt_mul_of_pos_right (c2 h h' h1 h30).2 hw⟩, ?_, ?_, ?_⟩
  · unfold zhyd; norm_num; linarith
  · unfold zhyd; norm_num; linarith
  · unfold zwet
    rw [div_lt_iff₀ (by linarith)]
    norm_num at *; linarith

/-! ### choice of the model -/

/-- **Hopfield, delays**: 2.30 m and 0.10 m everywhere -/
theorem hopf_delays : 2.30 < tropmodelHpf.1 ∧ tropmodelHpf.1 < 2.31 ∧ 0.10 < tropmodelHpf.2 ∧ tropmodelHpf.2 < 0.11 := by
  unfold tropmodelHpf; norm_num

/-- **model choice**: with no model both delays and both mapping functions are zero; the default elevation is the zenith, where the mapping
functions of Saastamoinen and SBAS are one; slant delay is zenith delay times mapping function -/
theorem models (doy lat hgt el : ℝ) :
    (tropmodel doy lat hgt el (7 / 10) .none = (0, 0) ∧ tropmapf doy lat hgt el .none = (0, 0)) ∧
    (tropmapf doy lat hgt (π / 2) .sbas = (1, 1) ∧ (-1000 ≤ hgt → hgt ≤ 20000 → tropmapf doy lat hgt (π / 2) .saast = (1, 1))) ∧
    (tropmodel doy lat hgt el (7 / 10) .sbas = ((tropmodel doy lat hgt (π / 2) (7 / 10) .sbas).1 * (tropmapf doy lat hgt el .sbas).1,
      (tropmodel doy lat hgt (π / 2) (7 / 10) .sbas).2 * (tropmapf doy lat hgt el .sbas).2)) ∧
    (∀ m, m ≠ .sbas → ∀ el', tropmodel doy lat hgt el (7 / 10) m = tropmodel doy lat hgt el' (7 / 10) m) := by
  have hm := (sbas_mapping 0 0 le_rfl le_rfl (by positivity)).1
  refine ⟨⟨rfl, rfl⟩, ⟨?_, fun h0 h1 => niell_zenith doy lat hgt h0 h1⟩, ?_, fun m hm el' => ?_⟩
  · simp only [tropmapf, tropmapfSBAS, hm]
  · simp only [tropmodel, tropmapf, tropmapfSBAS, tropmodelSBAS, hm, mul_one]
  · cases m <;> first | rfl | exact absurd rfl hm

example : 0 < (tropmodelSBAS 100 (π / 4) 500 (π / 2)).1 ∧ (tropmodelSBAS 100 (π / 4) 500 (π / 2)).1 < (tropmodelSBAS 100 (π / 4) 0 (π / 2)).1 :=
  ⟨((sbas_delays 100 (π / 4)).1 500 (by norm_num)).1, ((sbas_delays 100 (π / 4)).2.1 0 500 (by norm_num) (by norm_num)).1⟩

end Verif.C97
