import Verif.Model.QualIdx
import Mathlib.Tactic.Linarith
import Mathlib.Tactic.NormNum
import Mathlib.Tactic.FieldSimp
import Mathlib.Tactic.Ring
import Mathlib.Tactic.Positivity
import Mathlib.Tactic.IntervalCases
/-!
# C116 Quality index
-/
namespace Verif.C116
open Verif Verif.QualIdx

/-! ## Specification -/

/-- the quality of an index in metres -/
noncomputable def level (c v : Nat) : ℝ := ((3 : ℝ) ^ c * (1 + v / 4) - 1) / 1000

/-- quality a decoder shows for an index (class, value) of Compact SSR and RTCM SSR; `none` is unknown -/
noncomputable def shown (c v : Nat) : Option ℝ :=
  if c = 7 ∧ v = 7 then some (54665 / 10000) else if c = 0 ∧ v = 0 then none else some (level c v)

/-- the decoder in use is that one -/
theorem shown_eq (c v : Nat) : (Cssr.qualityIdx c v).map (fun q : ℚ => (q : ℝ)) = shown c v := by
  unfold Cssr.qualityIdx shown level
  split
  · simp only [Option.map_some, Option.some.injEq]; norm_num
  · split
    · rfl
    · simp only [Option.map_some, Option.some.injEq]; push_cast; ring

/-! ## Lemmas -/

theorem log3 : 0 < Real.log 3 := Real.log_pos (by norm_num)

theorem trunc_eq {x : ℝ} {k : Nat} (h1 : (k : ℝ) ≤ x) (h2 : x < k + 1) : trunc x = k := by
  have h0 : (0 : ℝ) ≤ x := le_trans (Nat.cast_nonneg k) h1
  unfold trunc
  rw [if_pos h0, Int.floor_eq_iff]
  exact ⟨by exact_mod_cast h1, by exact_mod_cast h2⟩

/-- every value not below one lies between two powers of three -/
theorem class_exists (Y : ℝ) (h : 1 ≤ Y) : ∃ c : Nat, (3 : ℝ) ^ c ≤ Y ∧ Y < (3 : ℝ) ^ (c + 1) := by
  have hn : 0 ≤ Real.log Y / Real.log 3 := div_nonneg (Real.log_nonneg h) log3.le
  refine ⟨⌊Real.log Y / Real.log 3⌋₊, ?_, ?_⟩
  · have := Nat.floor_le hn
    rw [le_div_iff₀ log3, ← Real.log_pow] at this
    exact (Real.log_le_log_iff (by positivity) (by linarith)).1 this
  · have := Nat.lt_floor_add_one (Real.log Y / Real.log 3)
    rw [div_lt_iff₀ log3] at this
    have e : ((⌊Real.log Y / Real.log 3⌋₊ : ℝ) + 1) * Real.log 3 = Real.log ((3 : ℝ) ^ (⌊Real.log Y / Real.log 3⌋₊ + 1)) := by
      rw [Real.log_pow]; push_cast; rfl
    rw [e] at this
    exact (Real.log_lt_log_iff (by linarith) (by positivity)).1 this

theorem qi_of (y : ℝ) (c v : Nat) (h1 : (3 : ℝ) ^ c * (1 + v / 4) ≤ y * 1000 + 1)
    (h2 : y * 1000 + 1 < (3 : ℝ) ^ c * (1 + (v + 1) / 4)) (hv : v ≤ 7) : quality2qi y = .ok ((c : Int), (v : Int)) := by
  have hp : (0 : ℝ) < 3 ^ c := by positivity
  have hv0 : (0 : ℝ) ≤ v := Nat.cast_nonneg v
  have hv7 : (v : ℝ) ≤ 7 := by exact_mod_cast hv
  have hlo : (3 : ℝ) ^ c ≤ y * 1000 + 1 := by nlinarith
  have hhi : y * 1000 + 1 < (3 : ℝ) ^ (c + 1) := by rw [pow_succ]; nlinarith
  have hY : 0 < y * 1000 + 1 := by linarith
  unfold quality2qi
  rw [if_neg (by linarith), if_neg (by linarith)]
  generalize y * 1000 + 1 = Y at *
  have e1 : trunc (Real.log Y / Real.log 3) = c := by
    apply trunc_eq
    · rw [le_div_iff₀ log3, ← Real.log_pow]
      exact Real.log_le_log hp hlo
    · rw [div_lt_iff₀ log3]
      have := Real.log_lt_log hY hhi
      rw [Real.log_pow] at this
      push_cast at this
      exact this
  simp only [e1]
  have e2 : Real.exp ((Real.log Y / Real.log 3 - ((c : Int) : ℝ)) * Real.log 3) = Y / 3 ^ c := by
    rw [sub_mul, div_mul_cancel₀ _ log3.ne', Real.exp_sub, Real.exp_log hY]
    congr 1
    rw [Int.cast_natCast, ← Real.log_pow, Real.exp_log hp]
  rw [e2]
  congr 2
  apply trunc_eq
  · rw [le_div_iff₀ (by norm_num), le_sub_iff_add_le, le_div_iff₀ hp]
    nlinarith
  · rw [div_lt_iff₀ (by norm_num), sub_lt_iff_lt_add, div_lt_iff₀ hp]
    nlinarith

theorem value_exists (Z : ℝ) (h1 : 1 ≤ Z) (h2 : Z < 3) : ∃ v : Nat, v ≤ 7 ∧ 1 + (v : ℝ) / 4 ≤ Z ∧ Z < 1 + (v + 1) / 4 := by
  have h0 : 0 ≤ (Z - 1) * 4 := by linarith
  have ha := Nat.floor_le h0
  have hb := Nat.lt_floor_add_one ((Z - 1) * 4)
  refine ⟨⌊(Z - 1) * 4⌋₊, ?_, by linarith, by linarith⟩
  have : ⌊(Z - 1) * 4⌋₊ < 8 := by
    rw [Nat.floor_lt h0]
    push_cast
    linarith
  omega

/-! ## Properties -/

/-- **The index of a quality**: for every quality not below zero there is one, its value has three bits, and the quality lies
between its level and the next. -/
theorem between (y : ℝ) (h : 0 ≤ y) : ∃ c v : Nat, quality2qi y = .ok ((c : Int), (v : Int)) ∧ v ≤ 7 ∧
    level c v ≤ y ∧ y < level c (v + 1) := by
  obtain ⟨c, hc1, hc2⟩ := class_exists (y * 1000 + 1) (by linarith)
  have hp : (0 : ℝ) < 3 ^ c := by positivity
  obtain ⟨v, hv, h1, h2⟩ := value_exists ((y * 1000 + 1) / 3 ^ c) (by rw [le_div_iff₀ hp]; linarith)
    (by rw [div_lt_iff₀ hp]; rw [pow_succ] at hc2; linarith)
  rw [le_div_iff₀ hp] at h1
  rw [div_lt_iff₀ hp] at h2
  refine ⟨c, v, qi_of y c v (by linarith) (by linarith) hv, hv, ?_, ?_⟩
  · unfold level
    rw [div_le_iff₀ (by norm_num)]
    linarith
  · unfold level
    rw [lt_div_iff₀ (by norm_num)]
    push_cast
    linarith

/-- the last level of a class is followed by the first of the next -/
theorem next_class (c : Nat) : level c 8 = level (c + 1) 0 := by
  unfold level
  rw [pow_succ]
  push_cast
  ring

/-- **Levels**: the quality of an index gives that index -/
theorem of_level (c v : Nat) (hv : v ≤ 7) : quality2qi (level c v) = .ok ((c : Int), (v : Int)) := by
  have hp : (0 : ℝ) < 3 ^ c := by positivity
  have e : level c v * 1000 + 1 = 3 ^ c * (1 + v / 4) := by unfold level; ring
  apply qi_of _ _ _ _ _ hv
  · rw [e]
  · rw [e]; nlinarith

/-- the index determines the interval: an index is that of a quality only if the quality lies in it -/
theorem unique (y : ℝ) (h : 0 ≤ y) (c v : Nat) (hv : v ≤ 7) :
    quality2qi y = .ok ((c : Int), (v : Int)) ↔ level c v ≤ y ∧ y < level c (v + 1) := by
  constructor
  · intro e
    obtain ⟨c', v', e', -, h1, h2⟩ := between y h
    rw [e] at e'
    simp only [Except.ok.injEq, Prod.mk.injEq, Nat.cast_inj] at e'
    obtain ⟨rfl, rfl⟩ := e'
    exact ⟨h1, h2⟩
  · rintro ⟨h1, h2⟩
    unfold level at h1 h2
    rw [div_le_iff₀ (by norm_num)] at h1
    rw [lt_div_iff₀ (by norm_num)] at h2
    push_cast at h2
    exact qi_of y c v (by linarith) (by linarith) hv

/-- **Three bits**: the class fits its field exactly below 6.56 m; from there on the message cannot be written -/
theorem fits (y : ℝ) (h : 0 ≤ y) (c v : Int) (e : quality2qi y = .ok (c, v)) : (c ≤ 7 ↔ y < 656 / 100) := by
  obtain ⟨k, w, e', hw, h1, h2⟩ := between y h
  rw [e] at e'
  simp only [Except.ok.injEq, Prod.mk.injEq] at e'
  obtain ⟨rfl, rfl⟩ := e'
  have hw7 : (w : ℝ) ≤ 7 := by exact_mod_cast hw
  have hw0 : (0 : ℝ) ≤ w := Nat.cast_nonneg w
  unfold level at h1 h2
  rw [div_le_iff₀ (by norm_num)] at h1
  rw [lt_div_iff₀ (by norm_num)] at h2
  push_cast at h2
  have hp : (0 : ℝ) < 3 ^ k := by positivity
  constructor
  · intro hk
    have hk : k ≤ 7 := by exact_mod_cast hk
    have : (3 : ℝ) ^ k ≤ 3 ^ 7 := pow_le_pow_right₀ (by norm_num) hk
    norm_num at this
    nlinarith
  · intro hy
    by_contra hk
    have hk : 8 ≤ k := by omega
    have : (3 : ℝ) ^ 8 ≤ 3 ^ k := pow_le_pow_right₀ (by norm_num) hk
    norm_num at this
    nlinarith

/-- **Written and shown**: a quality from 0.25 mm to below 6.56 m is written, and shown as the greatest level not above it, except
from 6.01 m on, where 5.47 m is shown.  Below that the loss is less than a quarter of (the shown quality plus 1 mm). -/
theorem read_back (y : ℝ) (h : 1 / 4000 ≤ y) (h' : y < 656 / 100) :
    ∃ c v : Nat, quality2qi y = .ok ((c : Int), (v : Int)) ∧ c ≤ 7 ∧ v ≤ 7 ∧ ∃ d, shown c v = some d ∧ d ≤ y ∧
      (d = level c v ∨ (d = level 7 6 ∧ level 7 7 ≤ y)) ∧ (y < level 7 7 → y - d < (d + 1 / 1000) / 4) := by
  obtain ⟨c, v, e, hv, h1, h2⟩ := between y (by linarith)
  have hc : c ≤ 7 := by
    have := (fits y (by linarith) _ _ e).2 h'
    exact_mod_cast this
  refine ⟨c, v, e, hc, hv, ?_⟩
  unfold shown
  by_cases h77 : c = 7 ∧ v = 7
  · obtain ⟨rfl, rfl⟩ := h77
    refine ⟨_, if_pos ⟨rfl, rfl⟩, ?_, .inr ⟨?_, h1⟩, fun x => absurd x (not_lt.2 h1)⟩
    · unfold level at h1
      norm_num at h1
      linarith
    · unfold level; norm_num
  · rw [if_neg h77]
    have h00 : ¬ (c = 0 ∧ v = 0) := by
      rintro ⟨rfl, rfl⟩
      unfold level at h2
      norm_num at h2
      linarith
    refine ⟨_, if_neg h00, h1, .inl rfl, fun _ => ?_⟩
    have hp : (0 : ℝ) < 3 ^ c := by positivity
    have hv0 : (0 : ℝ) ≤ v := Nat.cast_nonneg v
    have : level c (v + 1) = level c v + 3 ^ c / 4000 := by unfold level; push_cast; ring
    have e2 : level c v + 1 / 1000 = 3 ^ c * (1 + v / 4) / 1000 := by unfold level; ring
    rw [e2]
    nlinarith

/-- **Small qualities**: below 0.25 mm the index is (0, 0), which is shown as unknown -/
theorem unknown (y : ℝ) (h : 0 ≤ y) : quality2qi y = .ok (0, 0) ↔ y < 1 / 4000 := by
  have := unique y h 0 0 (by norm_num)
  simp only [Nat.cast_zero] at this
  rw [this]
  unfold level
  norm_num
  intro _
  exact h

/-- **Order**: a greater quality never has a smaller index -/
theorem monotone (y z : ℝ) (h : 0 ≤ y) (hz : y ≤ z) (c v c' v' : Int) (e : quality2qi y = .ok (c, v))
    (e' : quality2qi z = .ok (c', v')) : 8 * c + v ≤ 8 * c' + v' := by
  obtain ⟨k, w, f, hw, h1, h2⟩ := between y h
  obtain ⟨k', w', f', hw', h1', h2'⟩ := between z (by linarith)
  rw [e] at f
  rw [e'] at f'
  simp only [Except.ok.injEq, Prod.mk.injEq] at f f'
  obtain ⟨rfl, rfl⟩ := f
  obtain ⟨rfl, rfl⟩ := f'
  by_contra hc
  have hlt : level k w < level k' (w' + 1) := by linarith
  have hge : level k' (w' + 1) ≤ level k w := by
    unfold level
    apply div_le_div_of_nonneg_right _ (by norm_num)
    rcases Nat.lt_trichotomy k' k with x | x | x
    · have hp : (0 : ℝ) < 3 ^ k' := by positivity
      have : (3 : ℝ) ^ (k' + 1) ≤ 3 ^ k := pow_le_pow_right₀ (by norm_num) x
      rw [pow_succ] at this
      have a : ((w' : ℝ)) ≤ 7 := by exact_mod_cast hw'
      have b : (0 : ℝ) ≤ w := Nat.cast_nonneg w
      push_cast
      nlinarith
    · subst x
      have hp : (0 : ℝ) < 3 ^ k' := by positivity
      have a : w' + 1 ≤ w := by omega
      have a : ((w' + 1 : Nat) : ℝ) ≤ w := by exact_mod_cast a
      nlinarith
    · omega
  linarith

/-- **Impossible values**: at and below -1 mm the encoder raises -/
theorem raises (y : ℝ) : (∃ e, quality2qi y = .error e) ↔ y ≤ -1 / 1000 := by
  unfold quality2qi
  split
  · rename_i h; simp only [Except.error.injEq, exists_eq', true_iff]; linarith
  · split
    · rename_i h; simp only [Except.error.injEq, exists_eq', true_iff]; linarith
    · rename_i h h'
      simp only [reduceCtorEq, exists_false, false_iff]
      intro x
      exact h' (le_antisymm (by linarith) (not_lt.1 h))

/-! ## Cases -/

/-- 10 mm: class 2, value 0 (8 mm) -/
example : quality2qi (10 / 1000) = .ok (2, 0) ∧ shown 2 0 = some (8 / 1000) := by
  constructor
  · exact (unique (10 / 1000) (by norm_num) 2 0 (by norm_num)).2 (by unfold level; norm_num)
  · unfold shown level; norm_num

/-- 6.2 m is shown as 5.4665 m -/
example : quality2qi (62 / 10) = .ok (7, 7) ∧ shown 7 7 = some (54665 / 10000) := by
  constructor
  · exact (unique (62 / 10) (by norm_num) 7 7 (by norm_num)).2 (by unfold level; norm_num)
  · unfold shown; norm_num

end Verif.C116
