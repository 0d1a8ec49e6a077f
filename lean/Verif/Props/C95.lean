import Verif.Model.Dop
import Mathlib.Algebra.Order.BigOperators.Ring.Finset
import Mathlib.Data.Matrix.Mul
import Mathlib.LinearAlgebra.Matrix.Determinant.Basic
import Mathlib.LinearAlgebra.Matrix.ToLinearEquiv
import Mathlib.Tactic.Ring
import Mathlib.Tactic.Linarith
import Mathlib.Tactic.FieldSimp
import Mathlib.Tactic.LinearCombination
/-!
# C95 Dilution of precision

Specification: the satellites at or above the mask angle, the standard deviations of the least squares solution for unit
measurement errors.
-/

namespace Verif.C95
open Real Verif.Dop
open scoped Matrix

/-! ## Satellites used -/

/-- rows of the satellites at or above the mask -/
noncomputable def used (elmin : ℝ) (l : List (ℝ × ℝ)) : List Row := (l.filter fun s => decide (elmin ≤ s.2)).map fun s => row s.1 s.2

theorem fill_spec (elmin : ℝ) : ∀ (l : List (ℝ × ℝ)) (H : List Row) (k : Nat), l.length ≤ k →
    ∃ j, fill elmin l (H ++ List.replicate k (fun _ => 0), H.length) =
      (H ++ used elmin l ++ List.replicate j (fun _ => 0), H.length + (used elmin l).length) := by
  intro l
  induction l with
  | nil => exact fun H k _ => ⟨k, by simp [fill, used]⟩
  | cons s l ih =>
    intro H k hk
    obtain ⟨az, el⟩ := s
    by_cases h : el < elmin
    · obtain ⟨j, hj⟩ := ih H k (by simp at hk; omega)
      refine ⟨j, ?_⟩
      have hu : used elmin ((az, el) :: l) = used elmin l := by
        unfold used
        rw [List.filter_cons_of_neg (by simpa using h)]
      rw [fill, if_pos h, hj, hu]
    · cases k with
      | zero => simp at hk
      | succ k =>
        obtain ⟨j, hj⟩ := ih (H ++ [row az el]) k (by simp at hk; omega)
        refine ⟨j, ?_⟩
        have hu : used elmin ((az, el) :: l) = row az el :: used elmin l := by
          unfold used
          rw [List.filter_cons_of_pos (by simpa using h)]
          rfl
        rw [fill, if_neg h, hu]
        have : (H ++ List.replicate (k + 1) (fun _ => 0)).set H.length (row az el) = H ++ [row az el] ++ List.replicate k (fun _ => 0) := by
          rw [List.set_append_right _ _ le_rfl, Nat.sub_self, List.replicate_succ, List.set_cons_zero]
          simp
        rw [this, show H.length + 1 = (H ++ [row az el]).length by simp, hj]
        simp
        omega

theorem gram_append (A B : List Row) : gram (A ++ B) = gram A + gram B := by
  ext i j
  simp [gram]

theorem gram_zero (j : Nat) : gram (List.replicate j (fun _ => 0)) = 0 := by
  ext i k
  simp [gram]

/-- **Satellites**: the result is that of the satellites at or above the mask angle, and `None` if these are fewer than four -/
theorem mask (l : List (ℝ × ℝ)) (elmin : ℝ) :
    dops l elmin = if (used elmin l).length < 4 then .none else dopsH (used elmin l) := by
  obtain ⟨j, hj⟩ := fill_spec elmin l [] l.length le_rfl
  unfold dops
  simp only [List.nil_append, List.length_nil, Nat.zero_add] at hj
  rw [hj]
  simp only
  split_ifs with h
  · rfl
  · unfold dopsH
    rw [gram_append, gram_zero, add_zero]

theorem gram_perm {A B : List Row} (h : A.Perm B) : gram A = gram B := by
  ext i j
  simp only [gram, Matrix.of_apply]
  exact (h.map _).sum_eq

/-- the order of the satellites does not matter -/
theorem order {l m : List (ℝ × ℝ)} (h : l.Perm m) (elmin : ℝ) : dops l elmin = dops m elmin := by
  have hu : (used elmin l).Perm (used elmin m) := (h.filter _).map _
  rw [mask, mask, hu.length_eq]
  unfold dopsH
  rw [gram_perm hu]

/-! ## Values -/

theorem gram_symm (H : List Row) : (gram H)ᵀ = gram H := by
  ext i j
  simp only [gram, Matrix.transpose_apply, Matrix.of_apply]
  congr 2
  funext h
  ring

/-- squares of the residuals of `x` -/
noncomputable def energy (H : List Row) (x : Row) : ℝ := (H.map fun h => (h ⬝ᵥ x) ^ 2).sum

theorem energy_eq (H : List Row) (x : Row) : x ⬝ᵥ (gram H *ᵥ x) = energy H x := by
  unfold energy
  induction H with
  | nil => simp [gram, dotProduct, Matrix.mulVec]
  | cons h H ih =>
    have : gram (h :: H) = Matrix.vecMulVec h h + gram H := by
      ext i j
      simp [gram, Matrix.vecMulVec_apply]
    rw [this, Matrix.add_mulVec, dotProduct_add, ih, List.map_cons, List.sum_cons]
    congr 1
    simp only [dotProduct, Matrix.mulVec, Matrix.vecMulVec_apply, Fin.sum_univ_four]
    ring

theorem energy_nonneg (H : List Row) (x : Row) : 0 ≤ energy H x :=
  List.sum_nonneg (by simp only [List.mem_map]; rintro _ ⟨h, -, rfl⟩; positivity)

/-- gains of the least squares solution: the column `k` of `(HᵀH)⁻¹Hᵀ` for the measurement with row `h` -/
noncomputable def gain (H : List Row) (h : Row) : Row := (gram H)⁻¹ *ᵥ h

/-- variance of component `i` of the least squares solution with unit measurement errors -/
noncomputable def variance (H : List Row) (i : Fin 4) : ℝ := (H.map fun h => gain H h i ^ 2).sum

theorem gram_mul_inv {H : List Row} (hd : (gram H).det ≠ 0) : gram H * (gram H)⁻¹ = 1 ∧ (gram H)⁻¹ * gram H = 1 :=
  ⟨Matrix.mul_nonsing_inv _ (isUnit_iff_ne_zero.2 hd), Matrix.nonsing_inv_mul _ (isUnit_iff_ne_zero.2 hd)⟩

theorem inv_symm (H : List Row) : ((gram H)⁻¹)ᵀ = (gram H)⁻¹ := by rw [Matrix.transpose_nonsing_inv, gram_symm]

/-- column `i` of the inverse -/
noncomputable def col (H : List Row) (i : Fin 4) : Row := (gram H)⁻¹ *ᵥ Pi.single i 1

theorem col_diag (H : List Row) (i : Fin 4) : (Pi.single i 1 : Row) ⬝ᵥ col H i = (gram H)⁻¹ i i := by
  simp [col]

theorem gram_col {H : List Row} (hd : (gram H).det ≠ 0) (i : Fin 4) : gram H *ᵥ col H i = Pi.single i 1 := by
  unfold col
  rw [Matrix.mulVec_mulVec, (gram_mul_inv hd).1, Matrix.one_mulVec]

theorem diag_energy {H : List Row} (hd : (gram H).det ≠ 0) (i : Fin 4) : (gram H)⁻¹ i i = energy H (col H i) := by
  rw [← energy_eq, gram_col hd, ← col_diag, dotProduct_comm]

theorem diag_variance {H : List Row} (hd : (gram H).det ≠ 0) (i : Fin 4) : (gram H)⁻¹ i i = variance H i := by
  rw [diag_energy hd]
  unfold energy variance gain
  congr 2
  funext h
  congr 1
  unfold col
  rw [Matrix.dotProduct_mulVec, dotProduct_comm, ← Matrix.mulVec_transpose, inv_symm]
  simp

/-- the least squares solution: with errors in the measurements it changes by the gains, and it reproduces exact data -/
theorem unbiased {H : List Row} (hd : (gram H).det ≠ 0) (x : Row) :
    (H.map fun h => (h ⬝ᵥ x) • gain H h).sum = x := by
  have key : ∀ K : List Row, (K.map fun h => (h ⬝ᵥ x) • gain H h).sum = (gram H)⁻¹ *ᵥ (gram K *ᵥ x) := by
    intro K
    induction K with
    | nil => 
      have : gram [] = 0 := by ext; simp [gram]
      simp [this]
    | cons h K ih =>
      have : gram (h :: K) = Matrix.vecMulVec h h + gram K := by
        ext i j
        simp [gram, Matrix.vecMulVec_apply]
      rw [List.map_cons, List.sum_cons, ih, this, Matrix.add_mulVec, Matrix.mulVec_add]
      congr 1
      unfold gain
      rw [← Matrix.mulVec_smul]
      congr 1
      funext i
      simp only [dotProduct, Matrix.mulVec, Matrix.vecMulVec_apply, Fin.sum_univ_four, Pi.smul_apply, smul_eq_mul]
      ring
  rw [key H, Matrix.mulVec_mulVec, (gram_mul_inv hd).2, Matrix.one_mulVec]

/-- **Values**: the dilutions are the standard deviations of the least squares solution for unit measurement errors: position and
clock, position, horizontal, vertical -/
theorem values (H : List Row) (hd : (gram H).det ≠ 0) :
    dopsH H = .val (sqrt (variance H 0 + variance H 1 + variance H 2 + variance H 3))
      (sqrt (variance H 0 + variance H 1 + variance H 2)) (sqrt (variance H 0 + variance H 1)) (sqrt (variance H 2)) := by
  unfold dopsH
  rw [if_neg hd]
  simp only [Matrix.diag_apply, diag_variance hd]

theorem variance_nonneg (H : List Row) (i : Fin 4) : 0 ≤ variance H i :=
  List.sum_nonneg (by simp only [List.mem_map]; rintro _ ⟨h, -, rfl⟩; positivity)

/-- **Relations** between the four values -/
theorem relations {H : List Row} {g p h v : ℝ} (e : dopsH H = .val g p h v) :
    p ^ 2 = h ^ 2 + v ^ 2 ∧ p ≤ g ∧ h ≤ p ∧ v ≤ p ∧ 0 ≤ h ∧ 0 ≤ v := by
  have hd : (gram H).det ≠ 0 := by
    intro h0
    unfold dopsH at e
    rw [if_pos h0] at e
    cases e
  rw [values H hd] at e
  injection e with e1 e2 e3 e4
  subst e1 e2 e3 e4
  have h0 := variance_nonneg H 0
  have h1 := variance_nonneg H 1
  have h2 := variance_nonneg H 2
  have h3 := variance_nonneg H 3
  refine ⟨?_, sqrt_le_sqrt (by linarith), sqrt_le_sqrt (by linarith), sqrt_le_sqrt (by linarith), sqrt_nonneg _, sqrt_nonneg _⟩
  rw [sq_sqrt (by linarith), sq_sqrt (by linarith), sq_sqrt h2]

/-! ## More satellites -/

theorem det_more {A : List Row} (B : List Row) (hd : (gram A).det ≠ 0) : (gram (A ++ B)).det ≠ 0 := by
  intro h0
  obtain ⟨x, hx, h⟩ := Matrix.exists_mulVec_eq_zero_iff.2 h0
  have hE : energy (A ++ B) x = 0 := by rw [← energy_eq, h, dotProduct_zero]
  have hA : energy A x = 0 := by
    have : energy (A ++ B) x = energy A x + energy B x := by simp [energy]
    have := energy_nonneg A x
    have := energy_nonneg B x
    linarith
  have hz : ∀ r ∈ A, r ⬝ᵥ x = 0 := by
    intro r hr
    have hp : ∀ y ∈ A.map (fun h => (h ⬝ᵥ x) ^ 2), 0 ≤ y := by
      simp only [List.mem_map]
      rintro _ ⟨h, -, rfl⟩
      positivity
    have := List.single_le_sum hp _ (List.mem_map.2 ⟨r, hr, rfl⟩)
    have hs : (A.map (fun h => (h ⬝ᵥ x) ^ 2)).sum = 0 := hA
    rw [hs] at this
    exact pow_eq_zero_iff (two_ne_zero) |>.1 (le_antisymm this (sq_nonneg _))
  have hg : gram A *ᵥ x = 0 := by
    have key : ∀ K : List Row, (∀ r ∈ K, r ⬝ᵥ x = 0) → gram K *ᵥ x = 0 := by
      intro K
      induction K with
      | nil =>
        intro _
        have : gram [] = 0 := by ext; simp [gram]
        simp [this]
      | cons r K ih =>
        intro hK
        have : gram (r :: K) = Matrix.vecMulVec r r + gram K := by
          ext i j
          simp [gram, Matrix.vecMulVec_apply]
        rw [this, Matrix.add_mulVec, ih (fun r hr => hK r (List.mem_cons_of_mem _ hr)), add_zero]
        have hr0 := hK r List.mem_cons_self
        funext i
        simp only [dotProduct, Matrix.mulVec, Matrix.vecMulVec_apply, Fin.sum_univ_four, Pi.zero_apply] at hr0 ⊢
        linear_combination r i * hr0
    exact key A hz
  exact hd (Matrix.exists_mulVec_eq_zero_iff.1 ⟨x, hx, hg⟩)

theorem diag_more {A : List Row} (B : List Row) (hd : (gram A).det ≠ 0) (i : Fin 4) :
    (gram (A ++ B))⁻¹ i i ≤ (gram A)⁻¹ i i := by
  have hd' := det_more B hd
  obtain ⟨x, hx⟩ : ∃ x, x = col (A ++ B) i := ⟨_, rfl⟩
  obtain ⟨y, hy⟩ : ∃ y, y = col A i := ⟨_, rfl⟩
  have e1 : (Pi.single i 1 : Row) ⬝ᵥ x = (gram (A ++ B))⁻¹ i i := by rw [hx]; exact col_diag _ _
  have e2 : (Pi.single i 1 : Row) ⬝ᵥ y = (gram A)⁻¹ i i := by rw [hy]; exact col_diag _ _
  have e3 : gram A *ᵥ y = Pi.single i 1 := by rw [hy]; exact gram_col hd i
  have e4 : energy (A ++ B) x = (Pi.single i 1 : Row) ⬝ᵥ x := by
    rw [e1, hx]
    exact (diag_energy hd' i).symm
  have e5 : energy A x ≤ energy (A ++ B) x := by
    have : energy (A ++ B) x = energy A x + energy B x := by simp [energy]
    have := energy_nonneg B x
    linarith
  have e6 := energy_nonneg A (y - x)
  have e7 : energy A (y - x) = (Pi.single i 1 : Row) ⬝ᵥ y - 2 * ((Pi.single i 1 : Row) ⬝ᵥ x) + energy A x := by
    rw [← energy_eq, ← energy_eq, Matrix.mulVec_sub, e3, sub_dotProduct, dotProduct_sub, dotProduct_sub,
      dotProduct_comm y (Pi.single i 1), dotProduct_comm x (Pi.single i 1)]
    have : y ⬝ᵥ (gram A *ᵥ x) = (Pi.single i 1 : Row) ⬝ᵥ x := by
      rw [Matrix.dotProduct_mulVec, ← Matrix.mulVec_transpose, gram_symm, e3]
    rw [this]
    ring
  rw [← e1, ← e2]
  linarith

/-- **More satellites** never make any of the values larger -/
theorem more {A : List Row} (B : List Row) {g p h v : ℝ} (e : dopsH A = .val g p h v) :
    ∃ g' p' h' v', dopsH (A ++ B) = .val g' p' h' v' ∧ g' ≤ g ∧ p' ≤ p ∧ h' ≤ h ∧ v' ≤ v := by
  have hd : (gram A).det ≠ 0 := by
    intro h0
    unfold dopsH at e
    rw [if_pos h0] at e
    cases e
  unfold dopsH at e
  rw [if_neg hd] at e
  injection e with e1 e2 e3 e4
  subst e1 e2 e3 e4
  have k := diag_more B hd
  have := k 0
  have := k 1
  have := k 2
  have := k 3
  refine ⟨_, _, _, _, by unfold dopsH; rw [if_neg (det_more B hd)], ?_, ?_, ?_, ?_⟩ <;>
    exact sqrt_le_sqrt (by simp only [Matrix.diag_apply]; linarith)

/-- whatever is added to the sky and however low the mask, the values do not grow -/
theorem lower {l m : List (ℝ × ℝ)} {e1 e2 : ℝ} (hs : l.Sublist m) (he : e2 ≤ e1) {g p h v : ℝ} (e : dops l e1 = .val g p h v) :
    ∃ g' p' h' v', dops m e2 = .val g' p' h' v' ∧ g' ≤ g ∧ p' ≤ p ∧ h' ≤ h ∧ v' ≤ v := by
  have hu : (used e1 l).Sublist (used e2 m) := by
    refine List.Sublist.map _ ((hs.filter _).trans ?_)
    refine List.monotone_filter_right m fun s h => ?_
    simp only [decide_eq_true_eq] at h ⊢
    linarith
  rw [mask] at e ⊢
  have hl : ¬ (used e1 l).length < 4 := by
    intro hc
    rw [if_pos hc] at e
    cases e
  rw [if_neg hl] at e
  rw [if_neg (by have := hu.length_le; omega)]
  obtain ⟨B, hB⟩ := hu.exists_perm_append
  obtain ⟨g', p', h', v', h1, h2⟩ := more B e
  refine ⟨g', p', h', v', ?_, h2⟩
  rw [← h1]
  unfold dopsH
  rw [gram_perm hB]

/-! ## Singular skies -/

/-- **Singular**: with all satellites at one elevation the function raises an exception -/
theorem cone (l : List (ℝ × ℝ)) (elmin el : ℝ) (h : ∀ s ∈ l, s.2 = el) (h4 : 4 ≤ l.length) (he : elmin ≤ el) :
    dops l elmin = .singular := by
  have hu : used elmin l = l.map fun s => row s.1 s.2 := by
    unfold used
    rw [List.filter_eq_self.2]
    intro s hs
    simpa [h s hs] using he
  rw [mask, hu, if_neg (by simpa using h4)]
  unfold dopsH
  rw [if_pos]
  apply Matrix.exists_mulVec_eq_zero_iff.1
  refine ⟨![0, 0, 1, -sin el], fun h0 => ?_, ?_⟩
  · have := congrFun h0 2
    simp at this
  · have key : ∀ K : List (ℝ × ℝ), (∀ s ∈ K, s.2 = el) → gram (K.map fun s => row s.1 s.2) *ᵥ ![0, 0, 1, -sin el] = 0 := by
      intro K
      induction K with
      | nil =>
        intro _
        have : gram [] = 0 := by ext; simp [gram]
        simp [this]
      | cons r K ih =>
        intro hK
        have : gram (row r.1 r.2 :: K.map fun s => row s.1 s.2) = Matrix.vecMulVec (row r.1 r.2) (row r.1 r.2) + gram (K.map fun s => row s.1 s.2) := by
          ext i j
          simp [gram, Matrix.vecMulVec_apply]
        rw [List.map_cons, this, Matrix.add_mulVec, ih (fun r hr => hK r (List.mem_cons_of_mem _ hr)), add_zero]
        funext i
        have := hK r List.mem_cons_self
        simp [Matrix.mulVec, dotProduct, Matrix.vecMulVec_apply, Fin.sum_univ_four, row, this]
    exact key l h

/-! ## Azimuths -/

/-- rotation of the horizon -/
noncomputable def rot (a : ℝ) : Matrix (Fin 4) (Fin 4) ℝ := !![cos a, sin a, 0, 0; -sin a, cos a, 0, 0; 0, 0, 1, 0; 0, 0, 0, 1]

theorem rot_row (a az el : ℝ) : row (az + a) el = rot a *ᵥ row az el := by
  funext i
  fin_cases i <;> simp [row, rot, Matrix.mulVec, dotProduct, Fin.sum_univ_four, sin_add, cos_add] <;> ring

theorem rot_inv (a : ℝ) : (rot a)ᵀ * rot a = 1 := by
  have := sin_sq_add_cos_sq a
  ext i j
  fin_cases i <;> fin_cases j <;> simp [rot, Matrix.mul_apply, Fin.sum_univ_four]
  all_goals first
    | ring1
    | linear_combination this

theorem gram_rot (a : ℝ) (H : List Row) : gram (H.map fun h => rot a *ᵥ h) = rot a * gram H * (rot a)ᵀ := by
  induction H with
  | nil =>
    have : gram [] = 0 := by ext; simp [gram]
    simp [this]
  | cons h H ih =>
    have e : ∀ (h : Row) (H : List Row), gram (h :: H) = Matrix.vecMulVec h h + gram H := by
      intro h H
      ext i j
      simp [gram, Matrix.vecMulVec_apply]
    rw [List.map_cons, e, e, ih, Matrix.mul_add, Matrix.add_mul]
    congr 1
    rw [Matrix.mul_vecMulVec, Matrix.vecMulVec_mul, Matrix.vecMul_transpose]

theorem variance_rot (a : ℝ) {H : List Row} (hd : (gram H).det ≠ 0) :
    (gram (H.map fun h => rot a *ᵥ h)).det ≠ 0 ∧
    variance (H.map fun h => rot a *ᵥ h) 0 + variance (H.map fun h => rot a *ᵥ h) 1 = variance H 0 + variance H 1 ∧
    variance (H.map fun h => rot a *ᵥ h) 2 = variance H 2 ∧ variance (H.map fun h => rot a *ᵥ h) 3 = variance H 3 := by
  have hR := rot_inv a
  have hR' : rot a * (rot a)ᵀ = 1 := mul_eq_one_comm.1 hR
  have hdR : (rot a).det * (rot a).det = 1 := by
    have := congrArg Matrix.det hR
    rwa [Matrix.det_mul, Matrix.det_transpose, Matrix.det_one] at this
  have hi : (gram (H.map fun h => rot a *ᵥ h))⁻¹ = rot a * (gram H)⁻¹ * (rot a)ᵀ := by
    apply Matrix.inv_eq_right_inv
    rw [gram_rot]
    calc rot a * gram H * (rot a)ᵀ * (rot a * (gram H)⁻¹ * (rot a)ᵀ)
        = rot a * (gram H * ((rot a)ᵀ * rot a) * (gram H)⁻¹) * (rot a)ᵀ := by simp only [Matrix.mul_assoc]
      _ = 1 := by rw [hR, Matrix.mul_one, (gram_mul_inv hd).1, Matrix.mul_one, hR']
  have hg : ∀ h, gain (H.map fun h => rot a *ᵥ h) (rot a *ᵥ h) = rot a *ᵥ gain H h := by
    intro h
    unfold gain
    rw [hi, Matrix.mulVec_mulVec, Matrix.mulVec_mulVec, Matrix.mul_assoc, hR, Matrix.mul_one]
  refine ⟨?_, ?_, ?_, ?_⟩
  · rw [gram_rot, Matrix.det_mul, Matrix.det_mul, Matrix.det_transpose]
    intro h0
    apply hd
    linear_combination h0 - (gram H).det * hdR
  · unfold variance
    rw [List.map_map, List.map_map, ← List.sum_map_add, ← List.sum_map_add]
    congr 2
    funext h
    simp only [Function.comp, hg]
    have := sin_sq_add_cos_sq a
    simp [rot, Matrix.mulVec, dotProduct, Fin.sum_univ_four]
    linear_combination (gain H h 0 ^ 2 + gain H h 1 ^ 2) * this
  · unfold variance
    rw [List.map_map]
    congr 2
    funext h
    simp only [Function.comp, hg]
    simp [rot, Matrix.mulVec, dotProduct, Fin.sum_univ_four]
  · unfold variance
    rw [List.map_map]
    congr 2
    funext h
    simp only [Function.comp, hg]
    simp [rot, Matrix.mulVec, dotProduct, Fin.sum_univ_four]

theorem dopsH_rot (a : ℝ) (H : List Row) : dopsH (H.map fun h => rot a *ᵥ h) = dopsH H := by
  by_cases hd : (gram H).det = 0
  · have : (gram (H.map fun h => rot a *ᵥ h)).det = 0 := by
      rw [gram_rot, Matrix.det_mul, Matrix.det_mul, hd]
      ring
    unfold dopsH
    rw [if_pos hd, if_pos this]
  · obtain ⟨h1, h2, h3, h4⟩ := variance_rot a hd
    rw [values H hd, values _ h1, h2, h3, h4]

/-- **Azimuths**: turning the whole sky changes nothing -/
theorem turned (l : List (ℝ × ℝ)) (a elmin : ℝ) : dops (l.map fun s => (s.1 + a, s.2)) elmin = dops l elmin := by
  have hu : used elmin (l.map fun s => (s.1 + a, s.2)) = (used elmin l).map fun h => rot a *ᵥ h := by
    unfold used
    rw [List.filter_map, List.map_map, List.map_map]
    apply List.map_congr_left
    intro s _
    exact rot_row a s.1 s.2
  rw [mask, mask, hu, dopsH_rot, List.length_map]

/-! ## Bound -/

theorem diag_inv {H : List Row} (hd : (gram H).det ≠ 0) (i : Fin 4) : 1 ≤ (gram H)⁻¹ i i * gram H i i := by
  have h0 := energy_nonneg H (col H i - ((gram H)⁻¹ i i) • Pi.single i 1)
  rw [← energy_eq, Matrix.mulVec_sub, gram_col hd, Matrix.mulVec_smul, sub_dotProduct, dotProduct_sub, dotProduct_sub,
    dotProduct_comm (col H i), col_diag] at h0
  have e : col H i ⬝ᵥ ((gram H)⁻¹ i i • gram H *ᵥ Pi.single i 1) = (gram H)⁻¹ i i := by
    rw [dotProduct_smul, Matrix.dotProduct_mulVec, ← Matrix.mulVec_transpose, gram_symm, gram_col hd]
    simp
  rw [e] at h0
  simp at h0
  have hp : 0 ≤ (gram H)⁻¹ i i := by rw [diag_energy hd]; exact energy_nonneg _ _
  have hne : (gram H)⁻¹ i i ≠ 0 := by
    intro hz
    have h1 : energy H (col H i) = 0 := by rw [← diag_energy hd, hz]
    have : (Pi.single i 1 : Row) ⬝ᵥ (Pi.single i 1 : Row) ≤ 0 := by
      have h2 := energy_nonneg H (col H i - Pi.single i 1)
      have h3 : ∀ c : ℝ, 0 ≤ energy H (c • col H i - Pi.single i 1) := fun c => energy_nonneg _ _
      exfalso
      have h4 : ∀ c : ℝ, energy H (c • col H i - Pi.single i 1) = gram H i i - 2 * c := by
        intro c
        rw [← energy_eq, Matrix.mulVec_sub, Matrix.mulVec_smul, gram_col hd, sub_dotProduct, dotProduct_sub, dotProduct_sub,
          smul_dotProduct, smul_dotProduct, dotProduct_smul, dotProduct_comm (col H i), col_diag, hz]
        have e : col H i ⬝ᵥ (gram H *ᵥ Pi.single i 1) = 1 := by
          rw [Matrix.dotProduct_mulVec, ← Matrix.mulVec_transpose, gram_symm, gram_col hd]
          simp
        rw [e]
        simp
        ring
      have h5 := h3 ((gram H i i + 1) / 2)
      rw [h4] at h5
      linarith
    simp at this
    linarith
  have hp' : 0 < (gram H)⁻¹ i i := lt_of_le_of_ne hp (Ne.symm hne)
  nlinarith

theorem trace (l : List (ℝ × ℝ)) :
    gram (l.map fun s => row s.1 s.2) 0 0 + gram (l.map fun s => row s.1 s.2) 1 1 + gram (l.map fun s => row s.1 s.2) 2 2 = l.length ∧
    gram (l.map fun s => row s.1 s.2) 3 3 = l.length := by
  induction l with
  | nil => simp [gram]
  | cons s l ih =>
    have e : ∀ (h : Row) (H : List Row) (i : Fin 4), gram (h :: H) i i = h i * h i + gram H i i := by
      intro h H i
      simp [gram]
    obtain ⟨h1, h2⟩ := ih
    rw [List.map_cons]
    simp only [e, List.length_cons]
    push_cast
    rw [← h1]
    constructor
    · simp [row]
      have h3 := sin_sq_add_cos_sq s.1
      have h4 := sin_sq_add_cos_sq s.2
      linear_combination (cos s.2 ^ 2) * h3 + h4
    · rw [h2, ← h1]
      simp [row]
      ring

theorem tangent {q x m : ℝ} (hq : 0 ≤ q) (h : 1 ≤ q * x) (hm : 0 < m) : 2 / m - x / m ^ 2 ≤ q := by
  have hx : 0 < x := by
    by_contra hc
    nlinarith
  have h1 : 1 / x ≤ q := by rwa [div_le_iff₀ hx]
  refine le_trans ?_ h1
  rw [div_sub_div _ _ hm.ne' (by positivity), div_le_div_iff₀ (by positivity) hx]
  nlinarith [mul_nonneg hm.le (sq_nonneg (x - m))]

/-- **Bound**: with `n` satellites the dilution of the position is at least 3/√n, that of position and clock √(10/n) -/
theorem bound {l : List (ℝ × ℝ)} {elmin g p h v : ℝ} (e : dops l elmin = .val g p h v) :
    9 / ((used elmin l).length : ℝ) ≤ p ^ 2 ∧ 10 / ((used elmin l).length : ℝ) ≤ g ^ 2 := by
  rw [mask] at e
  have hl : ¬ (used elmin l).length < 4 := by
    intro hc
    rw [if_pos hc] at e
    cases e
  rw [if_neg hl] at e
  obtain ⟨t1, t2⟩ := trace (l.filter fun s => decide (elmin ≤ s.2))
  change gram (used elmin l) 0 0 + gram (used elmin l) 1 1 + gram (used elmin l) 2 2 = _ at t1
  change gram (used elmin l) 3 3 = _ at t2
  have hlen : ((l.filter fun s => decide (elmin ≤ s.2)).length : ℝ) = ((used elmin l).length : ℝ) := by
    unfold used
    rw [List.length_map]
  rw [hlen] at t1 t2
  generalize used elmin l = H at *
  have hn : (4 : ℝ) ≤ (H.length : ℝ) := by exact_mod_cast not_lt.1 hl
  generalize (H.length : ℝ) = n at *
  have hd : (gram H).det ≠ 0 := by
    intro h0
    unfold dopsH at e
    rw [if_pos h0] at e
    cases e
  have hp : ∀ i, 0 ≤ (gram H)⁻¹ i i := fun i => by rw [diag_energy hd]; exact energy_nonneg _ _
  have k := fun i => tangent (hp i) (diag_inv hd i) (show 0 < n / 3 by linarith)
  have k3 := tangent (hp 3) (diag_inv hd 3) (show 0 < n by linarith)
  have a0 := k 0
  have a1 := k 1
  have a2 := k 2
  unfold dopsH at e
  rw [if_neg hd] at e
  injection e with e1 e2 e3 e4
  subst e1 e2 e3 e4
  simp only [Matrix.diag_apply]
  have s1 : 9 / n ≤ (gram H)⁻¹ 0 0 + (gram H)⁻¹ 1 1 + (gram H)⁻¹ 2 2 := by
    have : 9 / n = (2 / (n / 3) - gram H 0 0 / (n / 3) ^ 2) + (2 / (n / 3) - gram H 1 1 / (n / 3) ^ 2) + (2 / (n / 3) - gram H 2 2 / (n / 3) ^ 2) := by
      have : n ≠ 0 := by linarith
      field_simp
      linear_combination 9 * t1
    linarith
  have s2 : 1 / n ≤ (gram H)⁻¹ 3 3 := by
    refine le_trans (le_of_eq ?_) k3
    rw [t2]
    have : n ≠ 0 := by linarith
    field_simp
    ring
  have := hp 0
  have := hp 1
  have := hp 2
  have := hp 3
  refine ⟨?_, ?_⟩
  · rw [sq_sqrt (by linarith)]
    exact s1
  · rw [sq_sqrt (by linarith)]
    have : 10 / n = 9 / n + 1 / n := by ring
    linarith

/-! ## Cases -/

/-- five satellites: in the zenith and in the four directions of the horizon; a sixth is below the mask -/
theorem cross : dops [(0, π / 2), (0, 0), (0, -1), (π / 2, 0), (π, 0), (-(π / 2), 0)] =
    .val (sqrt (5 / 2)) (sqrt (9 / 4)) (sqrt 1) (sqrt (5 / 4)) := by
  have hpi := pi_pos
  have hu : used 0 [(0, π / 2), (0, 0), (0, -1), (π / 2, 0), (π, 0), (-(π / 2), 0)] =
      [![0, 0, 1, 1], ![0, 1, 0, 1], ![1, 0, 0, 1], ![0, -1, 0, 1], ![-1, 0, 0, 1]] := by
    unfold used
    rw [List.filter_cons_of_pos (by simpa using by positivity), List.filter_cons_of_pos (by simp), List.filter_cons_of_neg (by simp),
      List.filter_cons_of_pos (by simp), List.filter_cons_of_pos (by simp), List.filter_cons_of_pos (by simp)]
    simp [row]
  have hg : gram [![0, 0, 1, 1], ![0, 1, 0, 1], ![1, 0, 0, 1], ![0, -1, 0, 1], ![-1, 0, 0, 1]] =
      !![2, 0, 0, 0; 0, 2, 0, 0; 0, 0, 1, 1; 0, 0, 1, 5] := by
    ext i j
    fin_cases i <;> fin_cases j <;> simp [gram] <;> norm_num
  have hm : gram [![0, 0, 1, 1], ![0, 1, 0, 1], ![1, 0, 0, 1], ![0, -1, 0, 1], ![-1, 0, 0, 1]] *
      !![1 / 2, 0, 0, 0; 0, 1 / 2, 0, 0; 0, 0, 5 / 4, -1 / 4; 0, 0, -1 / 4, 1 / 4] = 1 := by
    rw [hg]
    ext i j
    fin_cases i <;> fin_cases j <;> simp [Matrix.mul_apply, Fin.sum_univ_four] <;> norm_num
  have hd : (gram [![0, 0, 1, 1], ![0, 1, 0, 1], ![1, 0, 0, 1], ![0, -1, 0, 1], ![-1, 0, 0, 1]]).det ≠ 0 := by
    intro h0
    have := congrArg Matrix.det hm
    rw [Matrix.det_mul, h0, zero_mul, Matrix.det_one] at this
    exact zero_ne_one this
  rw [mask, hu, if_neg (by decide)]
  unfold dopsH
  rw [if_neg hd, Matrix.inv_eq_right_inv hm]
  simp [Matrix.diag]
  norm_num

/-- three satellites are not enough; four at one elevation raise an exception -/
example : dops [(0, 1), (1, 1), (2, 1)] = .none ∧ dops [(0, 1), (1, 1), (2, 1), (3, 1)] = .singular := by
  constructor
  · rw [mask, if_pos]
    unfold used
    rw [List.length_map]
    exact lt_of_le_of_lt (List.length_filter_le _ _) (by decide)
  · refine cone _ 0 1 ?_ (by decide) zero_le_one
    intro s hs
    simp only [List.mem_cons, List.not_mem_nil, or_false] at hs
    rcases hs with rfl | rfl | rfl | rfl <;> rfl

end Verif.C95
