import Verif.Model.Par
import Verif.Lemmas.Mlambda
import Mathlib.LinearAlgebra.Matrix.PosDef
import Mathlib.Data.Real.StarOrdered
/-!
C56: partial integer ambiguity resolution.
-/

namespace Verif.C56
open Verif.Lambda Matrix

/-! ### Conditioning on linear combinations -/

section
variable {n m : Type} [Fintype n] [Fintype m] [DecidableEq n] [DecidableEq m]

/-- squared distance with covariance `Q` -/
noncomputable def quad (Q : Matrix n n ℝ) (v : n → ℝ) : ℝ := v ⬝ᵥ (Q⁻¹ *ᵥ v)

theorem quad_split {Q : Matrix n n ℝ} (hQ : Q.PosDef) (C : Matrix m n ℝ) (hN : IsUnit (C * Q * Cᵀ).det) (v : n → ℝ) :
    quad Q v = quad (C * Q * Cᵀ) (C *ᵥ v) + quad Q (v - (Q * Cᵀ * (C * Q * Cᵀ)⁻¹) *ᵥ (C *ᵥ v)) := by
  have hu : IsUnit Q.det := (Matrix.isUnit_iff_isUnit_det _).1 hQ.isUnit
  set N := C * Q * Cᵀ with hNd
  set t := C *ᵥ v with ht
  set p := (Q * Cᵀ * N⁻¹) *ᵥ t with hp
  have hsym : Qᵀ = Q := by have := hQ.1.eq; rwa [conjTranspose_eq_transpose_of_trivial] at this
  have hinv : (Q⁻¹)ᵀ = Q⁻¹ := by rw [transpose_nonsing_inv, hsym]
  have hQp : Q⁻¹ *ᵥ p = Cᵀ *ᵥ (N⁻¹ *ᵥ t) := by
    have aux : ∀ w : m → ℝ, Q⁻¹ *ᵥ ((Q * Cᵀ * N⁻¹) *ᵥ w) = Cᵀ *ᵥ (N⁻¹ *ᵥ w) := by
      intro w
      rw [mulVec_mulVec, mulVec_mulVec, Matrix.mul_assoc Q, nonsing_inv_mul_cancel_left _ _ hu]
    exact aux t
  have hCp : C *ᵥ p = t := by
    have aux : ∀ w : m → ℝ, C *ᵥ ((Q * Cᵀ * N⁻¹) *ᵥ w) = w := by
      intro w
      rw [mulVec_mulVec, ← Matrix.mul_assoc, ← Matrix.mul_assoc, ← hNd, mul_nonsing_inv _ hN, one_mulVec]
    exact aux t
  have e1 : ∀ u : n → ℝ, u ⬝ᵥ (Q⁻¹ *ᵥ p) = (C *ᵥ u) ⬝ᵥ (N⁻¹ *ᵥ t) := by
    intro u
    rw [hQp, dotProduct_mulVec, vecMul_transpose]
  have e2 : p ⬝ᵥ (Q⁻¹ *ᵥ v) = v ⬝ᵥ (Q⁻¹ *ᵥ p) := by
    rw [dotProduct_mulVec, ← mulVec_transpose, hinv, dotProduct_comm]
  unfold quad
  rw [mulVec_sub, sub_dotProduct, dotProduct_sub, dotProduct_sub, e2, e1, e1, hCp]
  ring

theorem quad_nonneg {Q : Matrix n n ℝ} (hQ : Q.PosDef) (v : n → ℝ) : 0 ≤ quad Q v := by
  have := hQ.inv.posSemidef.dotProduct_mulVec_nonneg v
  simpa [quad] using this

theorem quad_eq_zero {Q : Matrix n n ℝ} (hQ : Q.PosDef) {v : n → ℝ} (h : quad Q v = 0) : v = 0 := by
  by_contra hv
  have := hQ.inv.dotProduct_mulVec_pos hv
  unfold quad at h
  simp only [star_trivial] at this
  linarith

end


/-! ### Specification -/

variable {n : Nat}

/-- the last `n - k` integer combinations -/
def comb (Z : Matrix (Fin n) (Fin n) Int) (k : Nat) : Matrix (Fin (n - k)) (Fin n) ℝ :=
  Matrix.of fun i j => (Z j ⟨k + i, by omega⟩ : ℝ)

/-- the vector `x` fixes the combinations `C` to the integers `z`: of all vectors doing so it is the
closest to the float solution, and the only one at its distance -/
structure Closest {m : Nat} (Q : Matrix (Fin n) (Fin n) ℝ) (C : Matrix (Fin m) (Fin n) ℝ) (a : Fin n → ℝ)
    (z : Fin m → Int) (x : Fin n → ℝ) (s : ℝ) : Prop where
  fixes : C *ᵥ x = fun i => (z i : ℝ)
  dist : quad Q (a - x) = s
  closest : ∀ y, C *ᵥ y = (fun i => (z i : ℝ)) → s ≤ quad Q (a - y)
  unique : ∀ y, C *ᵥ y = (fun i => (z i : ℝ)) → quad Q (a - y) = s → y = x

/-- conditional variances of the ambiguities from the `k`-th on -/
def rest (n : Nat) (d : Nat → ℝ) (k : Nat) : List ℝ := List.ofFn fun i : Fin (n - k) => d (k + i)

/-- how many ambiguities are left out: none if the success rate of all is above the limit, one if it
is below but that of the others is above -/
def Excl (sr : List ℝ → ℝ) (n : Nat) (d : Nat → ℝ) (P0 : ℝ) (k : Nat) : Prop :=
  (k = 0 ∧ P0 < sr (rest n d 0)) ∨ (k = 1 ∧ 2 ≤ n ∧ sr (rest n d 0) < P0 ∧ P0 < sr (rest n d 1))

/-! ### Proof -/

theorem tailD_eq (n : Nat) (d : Nat → ℝ) (k : Nat) : tailD n d k = rest n d k := by
  unfold tailD rest
  refine List.ext_getElem (by simp) fun i h1 h2 => ?_
  simp

theorem parLoop_stop (sr : List ℝ → ℝ) (n : Nat) (d : Nat → ℝ) (P0 : ℝ) (m k : Nat) (Ps : ℝ)
    (h : ¬ (Ps < P0 ∧ k < n - 1)) : parLoop sr n d P0 m k Ps = (k, Ps) := by
  cases m with
  | zero => rfl
  | succ m => rw [parLoop, if_neg h]

theorem parLoop_ge (sr : List ℝ → ℝ) (n : Nat) (d : Nat → ℝ) (P0 : ℝ) (m k : Nat) (Ps : ℝ) :
    k ≤ (parLoop sr n d P0 m k Ps).1 := by
  induction m generalizing k Ps with
  | zero => exact le_refl _
  | succ m ih =>
    rw [parLoop]
    split
    · exact le_trans (Nat.le_succ k) (ih _ _)
    · exact le_refl _

/-- the decision of the loop and the test after it -/
theorem decision (sr : List ℝ → ℝ) (n : Nat) (d : Nat → ℝ) (P0 : ℝ) (hn : 0 < n) (k : Nat) (Ps : ℝ)
    (h : parLoop sr n d P0 n 0 (sr (tailD n d 0)) = (k, Ps)) :
    ((k ≤ 1 ∧ P0 < Ps) → Excl sr n d P0 k ∧ k < n) ∧ (¬ (k ≤ 1 ∧ P0 < Ps) → ∀ k', ¬ Excl sr n d P0 k') := by
  unfold Excl
  simp only [← tailD_eq]
  obtain ⟨n, rfl⟩ : ∃ n', n = n' + 1 := ⟨n - 1, by omega⟩
  rw [parLoop] at h
  by_cases h0 : sr (tailD (n + 1) d 0) < P0 ∧ 0 < n + 1 - 1
  · rw [if_pos h0, Nat.zero_add] at h
    by_cases h1 : sr (tailD (n + 1) d 1) < P0 ∧ 1 < n + 1 - 1
    · obtain ⟨n', rfl⟩ : ∃ n', n = n' + 1 := ⟨n - 1, by omega⟩
      rw [parLoop, if_pos h1] at h
      have hk := parLoop_ge sr (n' + 1 + 1) d P0 n' (1 + 1) (sr (tailD (n' + 1 + 1) d (1 + 1)))
      rw [h] at hk
      simp only at hk
      refine ⟨fun hh => by omega, fun _ k' hk' => ?_⟩
      rcases hk' with ⟨_, hh⟩ | ⟨_, _, _, hh⟩
      · exact absurd h0.1 (not_lt.2 hh.le)
      · exact absurd h1.1 (not_lt.2 hh.le)
    · rw [parLoop_stop _ _ _ _ _ _ _ h1] at h
      injection h with e1 e2
      subst e1 e2
      refine ⟨fun hh => ⟨.inr ⟨rfl, by omega, h0.1, hh.2⟩, by omega⟩, fun hh k' hk' => ?_⟩
      rcases hk' with ⟨_, h'⟩ | ⟨_, _, _, h'⟩
      · exact absurd h0.1 (not_lt.2 h'.le)
      · exact hh ⟨le_refl _, h'⟩
  · rw [if_neg h0] at h
    injection h with e1 e2
    subst e1 e2
    refine ⟨fun hh => ⟨.inl ⟨rfl, hh.2⟩, by omega⟩, fun hh k' hk' => ?_⟩
    rcases hk' with ⟨_, h'⟩ | ⟨_, h2, h3, _⟩
    · exact hh ⟨by omega, h'⟩
    · exact h0 ⟨h3, by omega⟩

/-- the lower right block of `Lᵀ D L` is that of the lower right blocks -/
theorem q22_eq {L : Nat → Nat → ℝ} {d : Nat → ℝ} (hL : UnitLower n L) {k : Nat} (hk : k < n) :
    q22 n L d k = ltdl (n - k) (fun i j => L (k + i) (k + j)) (fun i => d (k + i)) := by
  ext i j
  rw [ltdl_entry]
  unfold q22 qz
  show ∑ r ∈ Finset.range n, L r (k + i) * d r * L r (k + j) = _
  rw [show Finset.range n = Finset.range (k + (n - k)) by rw [Nat.add_sub_cancel' hk.le], Finset.sum_range_add,
    Finset.sum_eq_zero (s := Finset.range k) (fun r hr => by
      rw [hL.2 r (k + i) (by have := Finset.mem_range.1 hr; omega) (by omega)]; ring), zero_add]

theorem lower_tail {L : Nat → Nat → ℝ} (hL : UnitLower n L) {k : Nat} (hk : k < n) :
    UnitLower (n - k) (fun i j => L (k + i) (k + j)) :=
  ⟨fun i hi => hL.1 _ (by omega), fun i j h1 h2 => hL.2 _ _ (by omega) (by omega)⟩

theorem posDef_ltdl {L : Nat → Nat → ℝ} {d : Nat → ℝ} (hL : UnitLower n L) (hd : ∀ i, i < n → 0 < d i) :
    (ltdl n L d).PosDef := by
  unfold ltdl
  have h1 : (diagonal (vec n d)).PosDef := Matrix.PosDef.diagonal fun i => hd i i.2
  have h2 : Function.Injective (mat n L).mulVec :=
    Matrix.mulVec_injective_of_isUnit ((Matrix.isUnit_iff_isUnit_det _).2 (by rw [det_mat hL]; exact isUnit_one))
  have := h1.conjTranspose_mul_mul_same h2
  rwa [conjTranspose_eq_transpose_of_trivial] at this

theorem comb_cov {Q : Matrix (Fin n) (Fin n) ℝ} {Z : Nat → Nat → Int} {L : Nat → Nat → ℝ} {d : Nat → ℝ}
    (h : ltdl n L d = (toK ℝ (zmat n Z))ᵀ * Q * toK ℝ (zmat n Z)) (k : Nat) :
    comb (zmat n Z) k * Q * (comb (zmat n Z) k)ᵀ = q22 n L d k := by
  have e : comb (zmat n Z) k * Q * (comb (zmat n Z) k)ᵀ =
      ((toK ℝ (zmat n Z))ᵀ * Q * toK ℝ (zmat n Z)).submatrix (fun i : Fin (n - k) => (⟨k + i, by omega⟩ : Fin n))
        (fun i : Fin (n - k) => (⟨k + i, by omega⟩ : Fin n)) := rfl
  rw [e, ← h]
  ext i j
  show ltdl n L d _ _ = _
  rw [ltdl_entry]
  rfl

/-- the row of a combination -/
theorem row_cov {Q : Matrix (Fin n) (Fin n) ℝ} {Z : Nat → Nat → Int} {L : Nat → Nat → ℝ} {d : Nat → ℝ}
    (h : ltdl n L d = (toK ℝ (zmat n Z))ᵀ * Q * toK ℝ (zmat n Z)) (k : Nat) (i : Fin n) (j : Fin (n - k)) :
    ((toK ℝ (zmat n Z))ᵀ * (Q * (comb (zmat n Z) k)ᵀ)) i j = qz n L d i (k + j) := by
  have e : (toK ℝ (zmat n Z))ᵀ * (Q * (comb (zmat n Z) k)ᵀ) =
      ((toK ℝ (zmat n Z))ᵀ * Q * toK ℝ (zmat n Z)).submatrix id
        (fun i : Fin (n - k) => (⟨k + i, by omega⟩ : Fin n)) := by
    rw [← Matrix.mul_assoc]; rfl
  rw [e, ← h]
  show ltdl n L d _ _ = _
  rw [ltdl_entry]
  rfl

theorem comb_mulVec (Z : Nat → Nat → Int) (a : Nat → ℝ) (k : Nat) :
    comb (zmat n Z) k *ᵥ vec n a = fun j : Fin (n - k) => ztA n Z a (k + j) := by
  funext j
  exact (congrFun (vec_ztA n Z a) ⟨k + j, by omega⟩).symm

theorem row_congr {p q m : Nat} {A : Matrix (Fin p) (Fin m) ℝ} {B : Matrix (Fin q) (Fin m) ℝ} {i : Fin p} {j : Fin q}
    (M : Matrix (Fin m) (Fin m) ℝ) (t : Fin m → ℝ) (h : ∀ l, A i l = B j l) : ((A * M) *ᵥ t) i = ((B * M) *ᵥ t) j := by
  simp only [Matrix.mulVec, dotProduct, Matrix.mul_apply, h]

/-- the combinations have an invertible covariance -/
theorem comb_unit {Q : Matrix (Fin n) (Fin n) ℝ} {Z : Matrix (Fin n) (Fin n) Int} {L : Nat → Nat → ℝ} {d : Nat → ℝ}
    (hL : UnitLower n L) (hd : ∀ i, i < n → 0 < d i) (h : (toK ℝ Z)ᵀ * Q * toK ℝ Z = ltdl n L d) {k : Nat} (hk : k < n) :
    IsUnit (comb Z k * Q * (comb Z k)ᵀ).det := by
  obtain ⟨Z', e⟩ : ∃ Z' : Nat → Nat → Int, zmat n Z' = Z :=
    ⟨fun i j => if h : i < n ∧ j < n then Z ⟨i, h.1⟩ ⟨j, h.2⟩ else 0, by
      ext i j
      show (if h : (i : Nat) < n ∧ (j : Nat) < n then Z ⟨i, h.1⟩ ⟨j, h.2⟩ else 0) = _
      rw [dif_pos ⟨i.2, j.2⟩]⟩
  subst e
  rw [comb_cov h.symm k, q22_eq hL hk]
  exact det_ltdl (lower_tail hL hk) fun i hi => hd _ (by omega)

/-- the vector computed for integers `z` of the last combinations -/
theorem fix_formula {Q : Matrix (Fin n) (Fin n) ℝ} {c : Rd ℝ} (h : Rel n Q c) {W : Matrix (Fin n) (Fin n) Int}
    (hW1 : (zmat n c.Z)ᵀ * W = 1) (hW2 : W * (zmat n c.Z)ᵀ = 1) (a : Nat → ℝ) {k : Nat} (hk : k < n) (z : Nat → Int) :
    invZt n c.Z *ᵥ zfixCol n (ztA n c.Z a) c.L c.d k z =
      vec n a - (Q * (comb (zmat n c.Z) k)ᵀ * (q22 n c.L c.d k)⁻¹) *ᵥ
        (comb (zmat n c.Z) k *ᵥ vec n a - fun j : Fin (n - k) => (z j : ℝ)) := by
  rw [invZt_eq hW1]
  have hu : IsUnit (q22 n c.L c.d k).det := by
    rw [q22_eq h.low hk]
    exact det_ltdl (lower_tail h.low hk) fun i hi => h.pos _ (by omega)
  have e : zfixCol n (ztA n c.Z a) c.L c.d k z = (toK ℝ (zmat n c.Z))ᵀ *ᵥ
      (vec n a - (Q * (comb (zmat n c.Z) k)ᵀ * (q22 n c.L c.d k)⁻¹) *ᵥ
        (comb (zmat n c.Z) k *ᵥ vec n a - fun j : Fin (n - k) => (z j : ℝ))) := by
    rw [mulVec_sub, ← vec_ztA, mulVec_mulVec, ← Matrix.mul_assoc, comb_mulVec]
    set R := (toK ℝ (zmat n c.Z))ᵀ * (Q * (comb (zmat n c.Z) k)ᵀ) with hR
    set t : Fin (n - k) → ℝ := (fun j : Fin (n - k) => ztA n c.Z a (k + j)) - fun j : Fin (n - k) => (z j : ℝ) with ht
    funext i
    show _ = ztA n c.Z a i - ((R * (q22 n c.L c.d k)⁻¹) *ᵥ t) i
    unfold zfixCol
    by_cases hi : (i : Nat) < k
    · rw [dif_pos hi]
      congr 1
      refine row_congr _ _ fun l => ?_
      rw [hR, row_cov h.eq]
      rfl
    · rw [dif_neg hi]
      have hrow : ((R * (q22 n c.L c.d k)⁻¹) *ᵥ t) i = t ⟨i - k, by omega⟩ := by
        have e1 : ((R * (q22 n c.L c.d k)⁻¹) *ᵥ t) i =
            ((q22 n c.L c.d k * (q22 n c.L c.d k)⁻¹) *ᵥ t) ⟨i - k, by omega⟩ := by
          refine row_congr _ _ fun l => ?_
          rw [hR, row_cov h.eq]
          show _ = qz n c.L c.d (k + (i - k)) (k + l)
          rw [Nat.add_sub_cancel' (not_lt.1 hi)]
        rw [e1, mul_nonsing_inv _ hu, one_mulVec]
      rw [hrow]
      show _ = ztA n c.Z a i - (ztA n c.Z a (k + (i - k)) - (z (i - k) : ℝ))
      rw [Nat.add_sub_cancel' (not_lt.1 hi)]
      ring
  rw [e, mulVec_mulVec, ← toK_transpose, ← toK_mul, hW2, toK_one, one_mulVec]

/-- the formula gives the closest vector -/
theorem closest_formula {m : Nat} {Q : Matrix (Fin n) (Fin n) ℝ} (hQ : Q.PosDef) (C : Matrix (Fin m) (Fin n) ℝ)
    (hN : IsUnit (C * Q * Cᵀ).det) (a : Fin n → ℝ) (z : Fin m → Int) :
    Closest Q C a z (a - (Q * Cᵀ * (C * Q * Cᵀ)⁻¹) *ᵥ (C *ᵥ a - fun j => (z j : ℝ)))
      (sqdist (C * Q * Cᵀ) (C *ᵥ a) z) := by
  set t : Fin m → ℝ := C *ᵥ a - fun j => (z j : ℝ) with ht
  have hCp : ∀ w : Fin m → ℝ, C *ᵥ ((Q * Cᵀ * (C * Q * Cᵀ)⁻¹) *ᵥ w) = w := by
    intro w
    rw [mulVec_mulVec, ← Matrix.mul_assoc, ← Matrix.mul_assoc, mul_nonsing_inv _ hN, one_mulVec]
  have hs : sqdist (C * Q * Cᵀ) (C *ᵥ a) z = quad (C * Q * Cᵀ) t := rfl
  have hy : ∀ y, C *ᵥ y = (fun i => (z i : ℝ)) → quad Q (a - y) =
      quad (C * Q * Cᵀ) t + quad Q (a - (Q * Cᵀ * (C * Q * Cᵀ)⁻¹) *ᵥ t - y) := by
    intro y e
    have hct : C *ᵥ (a - y) = t := by rw [mulVec_sub, e]
    rw [quad_split hQ C hN, hct, sub_right_comm]
  refine ⟨?_, ?_, fun y e => ?_, fun y e h => ?_⟩
  · rw [mulVec_sub, hCp, ht]; abel
  · rw [hs, sub_sub_cancel, quad_split hQ C hN, hCp, sub_self]
    unfold quad
    rw [zero_dotProduct, add_zero]
  · rw [hs, hy y e]
    linarith [quad_nonneg hQ (a - (Q * Cᵀ * (C * Q * Cᵀ)⁻¹) *ᵥ t - y)]
  · rw [hs, hy y e] at h
    have := quad_eq_zero hQ (v := a - (Q * Cᵀ * (C * Q * Cᵀ)⁻¹) *ᵥ t - y) (by linarith)
    exact (sub_eq_zero.1 this).symm

/-! ### The property -/

/-- enough integer vectors within reach of the search -/
def Enough {m : Nat} (Q : Matrix (Fin m) (Fin m) ℝ) (a : Fin m → ℝ) (ncands : Nat) : Prop :=
  ∃ A : Finset (Fin m → Int), A.card = ncands ∧ ∀ z ∈ A, sqdist Q a z < 10 ^ 18

/-- **C56** -/
theorem partial_fix (sr : List ℝ → ℝ) {ahat : Nat → ℝ} {Q : Nat → Nat → ℝ} {ncands : Nat} (P0 : ℝ) (hn : 0 < n)
    (hc : 0 < ncands) {L : Nat → Nat → ℝ} {d : Nat → ℝ} (hQ : mat n Q = ltdl n L d)
    (hL : UnitLower n L) (hd : ∀ i, i < n → 1 / 10 ^ 10 ≤ d i) :
    ∃ (Z : Matrix (Fin n) (Fin n) Int) (Lz : Nat → Nat → ℝ) (dz : Nat → ℝ), (Z.det = 1 ∨ Z.det = -1) ∧
      UnitLower n Lz ∧ (∀ i, i < n → 0 < dz i) ∧ (toK ℝ Z)ᵀ * mat n Q * toK ℝ Z = ltdl n Lz dz ∧
      (∀ k, Excl sr n dz P0 k →
        Enough (comb Z k * mat n Q * (comb Z k)ᵀ) (comb Z k *ᵥ vec n ahat) ncands →
        ∃ r, Best (comb Z k * mat n Q * (comb Z k)ᵀ) (comb Z k *ᵥ vec n ahat) ncands r ∧
          ∃ cands, List.Forall₂ (fun p q => q.2 = p.2 ∧ Closest (mat n Q) (comb Z k) (vec n ahat) p.1 q.1 p.2) r cands ∧
            ∃ fuel, ∀ fuel', fuel ≤ fuel' → mlambdaPar sr n ahat Q P0 ncands fuel' = .ok (some (.fixed (n - k) cands))) ∧
      ((∀ k, ¬ Excl sr n dz P0 k) →
        ∃ fuel, ∀ fuel', fuel ≤ fuel' → mlambdaPar sr n ahat Q P0 ncands fuel' = .ok (some (.unfixed (vec n ahat)))) := by
  have hsym : Sym n Q := by
    intro i j hi hj
    have h1 := congrFun (congrFun hQ ⟨i, hi⟩) ⟨j, hj⟩
    have h2 := congrFun (congrFun hQ ⟨j, hj⟩) ⟨i, hi⟩
    rw [ltdl_entry] at h1 h2
    show mat n Q ⟨i, hi⟩ ⟨j, hj⟩ = mat n Q ⟨j, hj⟩ ⟨i, hi⟩
    rw [h1, h2]
    exact Finset.sum_congr rfl fun r _ => by ring
  obtain ⟨L', d', e, _, _⟩ := ldldecom_complete hQ hL hd
  obtain ⟨hQ', hL', hd'⟩ := ldldecom_sound hsym e
  have hpos : ∀ i, i < n → 0 < d' i := fun i hi => lt_of_lt_of_le (by norm_num) (hd' i hi)
  obtain ⟨c, f1, hrel, _, _, hf1⟩ := reduction_ends hL' hpos hn
  obtain ⟨W, hW1, hW2⟩ := zinv hrel.det
  rw [← hQ'] at hrel
  have hPD : (mat n Q).PosDef := by rw [hQ']; exact posDef_ltdl hL' hpos
  obtain ⟨k, Ps, hloop⟩ : ∃ k Ps, parLoop sr n c.d P0 n 0 (sr (tailD n c.d 0)) = (k, Ps) := ⟨_, _, rfl⟩
  obtain ⟨D1, D2⟩ := decision sr n c.d P0 hn k Ps hloop
  have hrun : ∀ f, f1 ≤ f → mlambdaPar sr n ahat Q P0 ncands f =
      .ok ((parsearch sr n (ztA n c.Z ahat) c.L c.d P0 ncands 1 f).map fun
        | .fixed m r => .fixed m (r.map fun p => (invZt n c.Z *ᵥ p.1, p.2))
        | .unfixed z => .unfixed (invZt n c.Z *ᵥ z)) := by
    intro f hf
    unfold mlambdaPar
    rw [e]
    simp only
    rw [hf1 f hf]
    rfl
  refine ⟨zmat n c.Z, c.L, c.d, hrel.det, hrel.low, hrel.pos, hrel.eq.symm, ?_, ?_⟩
  · intro k' hk' hE
    have hdec : k ≤ 1 ∧ P0 < Ps := by
      by_contra h
      exact D2 h k' hk'
    obtain ⟨hk, hkn⟩ := D1 hdec
    have : k' = k := by
      rcases hk' with ⟨a1, a2⟩ | ⟨a1, a2, a3, a4⟩ <;> rcases hk with ⟨b1, b2⟩ | ⟨b1, b2, b3, b4⟩
      · omega
      · exact absurd a2 (not_lt.2 b3.le)
      · exact absurd b2 (not_lt.2 a3.le)
      · omega
    subst this
    have hcov := comb_cov hrel.eq k'
    have hq := q22_eq (d := c.d) hrel.low hkn
    have hN : IsUnit (comb (zmat n c.Z) k' * mat n Q * (comb (zmat n c.Z) k')ᵀ).det := by
      rw [hcov, hq]
      exact det_ltdl (lower_tail hrel.low hkn) fun i hi => hrel.pos _ (by omega)
    have hav : comb (zmat n c.Z) k' *ᵥ vec n ahat = vec (n - k') fun i => ztA n c.Z ahat (k' + i) :=
      comb_mulVec c.Z ahat k'
    obtain ⟨r, hr, f2, hf2⟩ := estimILS_best' (n := n - k') (L := fun i j => c.L (k' + i) (k' + j))
      (d := fun i => c.d (k' + i)) (ahat := fun i => ztA n c.Z ahat (k' + i)) (ncands := ncands)
      (lower_tail hrel.low hkn) (fun i hi => hrel.pos _ (by omega)) (by omega) hc (by
        rw [← hq, ← hcov, ← hav]; exact hE)
    rw [← hq, ← hcov, ← hav] at hr
    refine ⟨vecs (n - k') r, hr,
      r.map fun p => (invZt n c.Z *ᵥ zfixCol n (ztA n c.Z ahat) c.L c.d k' p.1, p.2), ?_, max f1 f2, fun f hf => ?_⟩
    · unfold vecs
      rw [List.forall₂_map_left_iff, List.forall₂_map_right_iff, List.forall₂_same]
      intro p hp
      refine ⟨rfl, ?_⟩
      have hv := hr.value (vec (n - k') p.1, p.2) (List.mem_map.2 ⟨p, hp, rfl⟩)
      simp only at hv ⊢
      rw [fix_formula hrel hW1 hW2 ahat hkn p.1, hv, ← hcov]
      exact closest_formula hPD _ hN _ _
    · rw [hrun f (le_trans (le_max_left _ _) hf)]
      unfold parsearch
      rw [hloop]
      simp only
      rw [if_pos hdec, hf2 f (le_trans (le_max_right _ _) hf)]
      simp only [Option.map_some, List.map_map]
      rfl
  · intro hno
    refine ⟨f1, fun f hf => ?_⟩
    rw [hrun f hf]
    unfold parsearch
    rw [hloop]
    simp only
    rw [if_neg fun h => hno k (D1 h).1, Option.map_some]
    have : invZt n c.Z *ᵥ (fun i : Fin n => ztA n c.Z ahat i) = vec n ahat := by
      rw [show (fun i : Fin n => ztA n c.Z ahat i) = vec n (ztA n c.Z ahat) from rfl, vec_ztA, invZt_eq hW1,
        mulVec_mulVec, ← toK_transpose, ← toK_mul, hW2, toK_one, one_mulVec]
    simp only [this]

/-- a float solution within reach of an integer vector is within reach after combination -/
theorem enough_one {Q : Matrix (Fin n) (Fin n) ℝ} (hQ : Q.PosDef) (Z : Matrix (Fin n) (Fin n) Int) (k : Nat)
    (hN : IsUnit (comb Z k * Q * (comb Z k)ᵀ).det) {a : Fin n → ℝ} {v : Fin n → Int} (h : sqdist Q a v < 10 ^ 18) :
    Enough (comb Z k * Q * (comb Z k)ᵀ) (comb Z k *ᵥ a) 1 := by
  refine ⟨{fun i : Fin (n - k) => ∑ j, Z j ⟨k + i, by omega⟩ * v j}, Finset.card_singleton _, fun z hz => ?_⟩
  rw [Finset.mem_singleton] at hz
  subst hz
  have e : (fun i : Fin (n - k) => (comb Z k *ᵥ a) i - ((∑ j, Z j ⟨k + i, by omega⟩ * v j : Int) : ℝ)) =
      comb Z k *ᵥ (a - fun j => (v j : ℝ)) := by
    rw [mulVec_sub]
    funext i
    show _ = _ - ∑ j, (Z j ⟨k + i, by omega⟩ : ℝ) * (v j : ℝ)
    congr 1
    push_cast
    rfl
  unfold sqdist at h ⊢
  rw [e]
  have := quad_split hQ (comb Z k) hN (a - fun j => (v j : ℝ))
  have h2 := quad_nonneg hQ ((a - fun j => (v j : ℝ)) - (Q * (comb Z k)ᵀ * (comb Z k * Q * (comb Z k)ᵀ)⁻¹) *ᵥ
    (comb Z k *ᵥ (a - fun j => (v j : ℝ))))
  have h3 : quad Q (a - fun j => (v j : ℝ)) < 10 ^ 18 := h
  show quad (comb Z k * Q * (comb Z k)ᵀ) (comb Z k *ᵥ (a - fun j => (v j : ℝ))) < _
  linarith

/-- two unit variances, a success rate that grows when one ambiguity is left out: one is left out -/
example : ∃ (sr : List ℝ → ℝ) (Q L : Nat → Nat → ℝ) (d : Nat → ℝ) (P0 : ℝ), mat 2 Q = ltdl 2 L d ∧ UnitLower 2 L ∧
    (∀ i, i < 2 → 1 / 10 ^ 10 ≤ d i) ∧ (∀ dz, Excl sr 2 dz P0 1) ∧ sqdist (mat 2 Q) 0 0 < 10 ^ 18 := by
  refine ⟨fun l => 1 / l.length, fun i j => if i = j then 1 else 0, fun i j => if i = j then 1 else 0, fun _ => 1, 3 / 4,
    ?_, ⟨fun i _ => if_pos rfl, fun i j h _ => if_neg (by omega)⟩, fun _ _ => by norm_num, fun dz => ?_, ?_⟩
  · have e : mat 2 (fun i j => if i = j then (1 : ℝ) else 0) = 1 := by
      ext i j
      show (if (i : Nat) = j then (1 : ℝ) else 0) = _
      rw [Matrix.one_apply]
      simp only [Fin.ext_iff]
    unfold ltdl
    rw [e, show diagonal (vec 2 fun _ => (1 : ℝ)) = 1 from Matrix.diagonal_one, transpose_one, Matrix.one_mul,
      Matrix.mul_one]
  · refine .inr ⟨rfl, le_refl _, ?_, ?_⟩ <;> simp [rest] <;> norm_num
  · have : (fun i : Fin 2 => (0 : Fin 2 → ℝ) i - (((0 : Fin 2 → Int) i : Int) : ℝ)) = 0 := by funext i; simp
    unfold sqdist
    rw [this, zero_dotProduct]
    norm_num

end Verif.C56
