import Verif.Model.Resamb
import Verif.Props.C56
/-!
C57: the fixed solution after ambiguity resolution.
-/

namespace Verif.C57
open Verif.Lambda Verif.C56 Matrix

/-! ### Gains -/

section
variable {n m a : Type} [Fintype n] [Fintype m] [Fintype a] [DecidableEq n] [DecidableEq m] [DecidableEq a]

/-- covariance of `E x - G (D x - b)` -/
def covOf (P : Matrix n n ℝ) (E : Matrix a n ℝ) (D : Matrix m n ℝ) (G : Matrix a m ℝ) : Matrix a a ℝ :=
  (E - G * D) * P * (E - G * D)ᵀ

theorem gain_split {P : Matrix n n ℝ} (hP : Pᵀ = P) (E : Matrix a n ℝ) (D : Matrix m n ℝ)
    (hN : IsUnit (D * P * Dᵀ).det) (G : Matrix a m ℝ) :
    covOf P E D G = (E * P * Eᵀ - E * P * Dᵀ * (D * P * Dᵀ)⁻¹ * (E * P * Dᵀ)ᵀ) +
      (G - E * P * Dᵀ * (D * P * Dᵀ)⁻¹) * (D * P * Dᵀ) * (G - E * P * Dᵀ * (D * P * Dᵀ)⁻¹)ᵀ := by
  set N := D * P * Dᵀ with hNd
  set A := E * P * Dᵀ with hA
  have hNs : Nᵀ = N := by rw [hNd, transpose_mul, transpose_mul, transpose_transpose, hP, Matrix.mul_assoc]
  have hAt : D * P * Eᵀ = Aᵀ := by rw [hA, transpose_mul, transpose_mul, transpose_transpose, hP, Matrix.mul_assoc]
  have hKN : A * N⁻¹ * N = A := by rw [Matrix.mul_assoc, nonsing_inv_mul _ hN, Matrix.mul_one]
  have hNK : N * (A * N⁻¹)ᵀ = Aᵀ := by
    rw [transpose_mul, transpose_nonsing_inv, hNs, ← Matrix.mul_assoc, mul_nonsing_inv _ hN, Matrix.one_mul]
  have e1 : covOf P E D G = E * P * Eᵀ - A * Gᵀ - G * Aᵀ + G * N * Gᵀ := by
    unfold covOf
    rw [transpose_sub, transpose_mul, Matrix.sub_mul, Matrix.mul_sub, Matrix.sub_mul, Matrix.sub_mul]
    have f1 : E * P * (Dᵀ * Gᵀ) = A * Gᵀ := by rw [hA]; simp only [Matrix.mul_assoc]
    have f2 : G * D * P * Eᵀ = G * Aᵀ := by rw [← hAt]; simp only [Matrix.mul_assoc]
    have f3 : G * D * P * (Dᵀ * Gᵀ) = G * N * Gᵀ := by rw [hNd]; simp only [Matrix.mul_assoc]
    rw [f1, f2, f3]
    abel
  have e2 : (G - A * N⁻¹) * N * (G - A * N⁻¹)ᵀ = G * N * Gᵀ - G * Aᵀ - A * Gᵀ + A * N⁻¹ * Aᵀ := by
    rw [transpose_sub, Matrix.sub_mul, hKN, Matrix.mul_sub, Matrix.sub_mul, Matrix.sub_mul, Matrix.mul_assoc G N (A * N⁻¹)ᵀ,
      hNK]
    have : A * (A * N⁻¹)ᵀ = A * N⁻¹ * Aᵀ := by
      rw [transpose_mul, transpose_nonsing_inv, hNs, Matrix.mul_assoc A]
    rw [this]
    abel
  rw [e1, e2]
  abel

end

/-! ### Specification -/

variable {na nx nb : Nat}

/-- the double differences as a matrix on the state -/
def dd (s : AmbIn na nx nb) : Matrix (Fin nb) (Fin nx) ℝ :=
  Matrix.of fun k j => (if (j : Nat) = s.i0 k then 1 else 0) - (if (j : Nat) = s.i1 k then 1 else 0)

/-- the part of the state without ambiguities -/
def part (na nx : Nat) : Matrix (Fin na) (Fin nx) ℝ := Matrix.of fun a j => if (j : Nat) = a then 1 else 0

/-- the pairs are ambiguities of the state -/
structure Valid (s : AmbIn na nx nb) : Prop where
  le : na ≤ nx
  i0 : ∀ k, k < nb → na ≤ s.i0 k ∧ s.i0 k < nx
  i1 : ∀ k, k < nb → na ≤ s.i1 k ∧ s.i1 k < nx

/-- the gain of an estimate using the values of `D x` -/
noncomputable def gain {m : Nat} (s : AmbIn na nx nb) (D : Matrix (Fin m) (Fin nx) ℝ) : Matrix (Fin na) (Fin m) ℝ :=
  part na nx * mat nx s.P * Dᵀ * (D * mat nx s.P * Dᵀ)⁻¹

/-- the estimate of the part without ambiguities when `D x` is known to be `b` -/
noncomputable def est {m : Nat} (s : AmbIn na nx nb) (D : Matrix (Fin m) (Fin nx) ℝ) (b : Fin m → ℝ) : Fin na → ℝ :=
  part na nx *ᵥ vec nx s.x - gain s D *ᵥ (D *ᵥ vec nx s.x - b)

/-- its covariance -/
noncomputable def cov {m : Nat} (s : AmbIn na nx nb) (D : Matrix (Fin m) (Fin nx) ℝ) : Matrix (Fin na) (Fin na) ℝ :=
  covOf (mat nx s.P) (part na nx) D (gain s D)

/-! ### The estimate is the right one -/

theorem cov_eq {m : Nat} (s : AmbIn na nx nb) (hs : (mat nx s.P)ᵀ = mat nx s.P) (D : Matrix (Fin m) (Fin nx) ℝ)
    (hN : IsUnit (D * mat nx s.P * Dᵀ).det) :
    cov s D = part na nx * mat nx s.P * (part na nx)ᵀ - gain s D * (part na nx * mat nx s.P * Dᵀ)ᵀ := by
  unfold cov
  rw [gain_split hs _ _ hN]
  unfold gain
  rw [sub_self, Matrix.zero_mul, Matrix.zero_mul, add_zero]

theorem sym_of_psd {n : Nat} {P : Matrix (Fin n) (Fin n) ℝ} (h : P.PosSemidef) : Pᵀ = P := by
  have := h.1.eq; rwa [conjTranspose_eq_transpose_of_trivial] at this

theorem psd_conj {n m : Nat} {P : Matrix (Fin n) (Fin n) ℝ} (h : P.PosSemidef) (A : Matrix (Fin m) (Fin n) ℝ) :
    (A * P * Aᵀ).PosSemidef := by
  have := h.mul_mul_conjTranspose_same A
  rwa [conjTranspose_eq_transpose_of_trivial] at this

/-- no other use of the values gives a smaller covariance -/
theorem optimal {m : Nat} (s : AmbIn na nx nb) (hP : (mat nx s.P).PosSemidef) (D : Matrix (Fin m) (Fin nx) ℝ)
    (hN : IsUnit (D * mat nx s.P * Dᵀ).det) (G : Matrix (Fin na) (Fin m) ℝ) :
    (covOf (mat nx s.P) (part na nx) D G - cov s D).PosSemidef := by
  rw [cov_eq s (sym_of_psd hP) D hN, gain_split (sym_of_psd hP) _ _ hN]
  unfold gain
  rw [add_sub_cancel_left]
  exact psd_conj (psd_conj hP D) _

/-- the covariance is one, and not above the float one -/
theorem covariance {m : Nat} (s : AmbIn na nx nb) (hP : (mat nx s.P).PosSemidef) (D : Matrix (Fin m) (Fin nx) ℝ)
    (hN : IsUnit (D * mat nx s.P * Dᵀ).det) :
    (cov s D).PosSemidef ∧ (part na nx * mat nx s.P * (part na nx)ᵀ - cov s D).PosSemidef := by
  refine ⟨psd_conj hP _, ?_⟩
  have := optimal s hP D hN 0
  unfold covOf at this
  rwa [Matrix.zero_mul, sub_zero] at this

/-- the estimate is the first part of the closest state with these differences -/
theorem est_closest {m : Nat} (s : AmbIn na nx nb) (hP : (mat nx s.P).PosDef) (D : Matrix (Fin m) (Fin nx) ℝ)
    (hN : IsUnit (D * mat nx s.P * Dᵀ).det) (b : Fin m → Int) :
    ∃ x' d, Closest (mat nx s.P) D (vec nx s.x) b x' d ∧ est s D (fun k => (b k : ℝ)) = part na nx *ᵥ x' := by
  refine ⟨_, _, closest_formula hP D hN (vec nx s.x) b, ?_⟩
  have e : ∀ w : Fin m → ℝ, part na nx *ᵥ vec nx s.x - gain s D *ᵥ w =
      part na nx *ᵥ (vec nx s.x - (mat nx s.P * Dᵀ * (D * mat nx s.P * Dᵀ)⁻¹) *ᵥ w) := by
    intro w
    unfold gain
    rw [mulVec_sub, mulVec_mulVec]
    simp only [Matrix.mul_assoc]
  exact e _

/-! ### The code computes it -/

theorem mul_dd {m : Nat} {s : AmbIn na nx nb} (hv : Valid s) (M : Matrix (Fin m) (Fin nx) ℝ) (i : Fin m) (k : Fin nb) :
    (M * (dd s)ᵀ) i k = M i ⟨s.i0 k, (hv.i0 k k.2).2⟩ - M i ⟨s.i1 k, (hv.i1 k k.2).2⟩ := by
  have e : ∀ (a : Nat) (h : a < nx), ∑ j : Fin nx, M i j * (if (j : Nat) = a then 1 else 0) = M i ⟨a, h⟩ := by
    intro a h
    rw [Finset.sum_eq_single ⟨a, h⟩]
    · rw [if_pos rfl, mul_one]
    · intro j _ hj
      rw [if_neg (fun e => hj (Fin.ext e)), mul_zero]
    · intro hn
      exact absurd (Finset.mem_univ _) hn
  rw [Matrix.mul_apply]
  show ∑ j : Fin nx, M i j * ((if (j : Nat) = s.i0 k then 1 else 0) - (if (j : Nat) = s.i1 k then 1 else 0)) = _
  simp only [mul_sub]
  rw [Finset.sum_sub_distrib, e _ (hv.i0 k k.2).2, e _ (hv.i1 k k.2).2]

theorem dd_mul {m : Nat} {s : AmbIn na nx nb} (hv : Valid s) (M : Matrix (Fin nx) (Fin m) ℝ) (k : Fin nb) (i : Fin m) :
    (dd s * M) k i = M ⟨s.i0 k, (hv.i0 k k.2).2⟩ i - M ⟨s.i1 k, (hv.i1 k k.2).2⟩ i := by
  have := mul_dd hv Mᵀ i k
  rw [← transpose_mul] at this
  exact this

theorem part_mul {m : Nat} (h : na ≤ nx) (M : Matrix (Fin nx) (Fin m) ℝ) (a : Fin na) (i : Fin m) :
    (part na nx * M) a i = M ⟨a, by omega⟩ i := by
  rw [Matrix.mul_apply]
  show ∑ j : Fin nx, (if (j : Nat) = a then 1 else 0) * M j i = _
  rw [Finset.sum_eq_single ⟨a, by omega⟩]
  · rw [if_pos rfl, one_mul]
  · intro j _ hj
    rw [if_neg (fun e => hj (Fin.ext e)), zero_mul]
  · intro hn
    exact absurd (Finset.mem_univ _) hn

theorem part_vec (h : na ≤ nx) (x : Nat → ℝ) : part na nx *ᵥ vec nx x = fun a : Fin na => x a := by
  funext a
  show ∑ j : Fin nx, (if (j : Nat) = a then 1 else 0) * x j = _
  rw [Finset.sum_eq_single ⟨a, by omega⟩]
  · rw [if_pos rfl, one_mul]
  · intro j _ hj
    rw [if_neg (fun e => hj (Fin.ext e)), zero_mul]
  · intro hn
    exact absurd (Finset.mem_univ _) hn

theorem dd_vec {s : AmbIn na nx nb} (hv : Valid s) : dd s *ᵥ vec nx s.x = vec nb s.y := by
  funext k
  have e : ∀ (a : Nat) (h : a < nx), ∑ j : Fin nx, (if (j : Nat) = a then 1 else 0) * s.x j = s.x a := by
    intro a h
    rw [Finset.sum_eq_single ⟨a, h⟩]
    · rw [if_pos rfl, one_mul]
    · intro j _ hj
      rw [if_neg (fun e => hj (Fin.ext e)), zero_mul]
    · intro hn
      exact absurd (Finset.mem_univ _) hn
  show ∑ j : Fin nx, ((if (j : Nat) = s.i0 k then 1 else 0) - (if (j : Nat) = s.i1 k then 1 else 0)) * s.x j = _
  simp only [sub_mul]
  rw [Finset.sum_sub_distrib, e _ (hv.i0 k k.2).2, e _ (hv.i1 k k.2).2]
  rfl

theorem qb_eq {s : AmbIn na nx nb} (hv : Valid s) : mat nb s.qb = dd s * mat nx s.P * (dd s)ᵀ := by
  ext k l
  rw [mul_dd hv, dd_mul hv, dd_mul hv]
  show s.dp k (s.i0 l - na) - s.dp k (s.i1 l - na) = _
  unfold AmbIn.dp
  rw [Nat.add_sub_cancel' (hv.i0 l l.2).1, Nat.add_sub_cancel' (hv.i1 l l.2).1]
  rfl

theorem qab_eq {s : AmbIn na nx nb} (hv : Valid s) :
    (Matrix.of fun (a : Fin na) (k : Fin nb) => s.qab a k) = part na nx * mat nx s.P * (dd s)ᵀ := by
  ext a k
  rw [mul_dd hv, part_mul hv.le, part_mul hv.le]
  rfl

theorem pa_eq {s : AmbIn na nx nb} (hv : Valid s) :
    (Matrix.of fun i j : Fin na => s.P i j) = part na nx * mat nx s.P * (part na nx)ᵀ := by
  ext i j
  rw [← transpose_apply (part na nx * mat nx s.P * (part na nx)ᵀ), transpose_mul, transpose_transpose, part_mul hv.le,
    transpose_apply, part_mul hv.le]
  rfl

open Classical in
theorem accept_eq {s : AmbIn na nx nb} (hv : Valid s) (hP : (mat nx s.P).PosSemidef)
    (hN : IsUnit (dd s * mat nx s.P * (dd s)ᵀ).det) (mode : Nat) (m : MlOut nb) :
    accept s mode m = if 0 < m.nfix ∧ (mode = 2 ∨ m.s0 ≤ 0 ∨ s.thresar ≤ m.s1 / m.s0) then
      .fixed (est s (dd s) m.b) (cov s (dd s)) m.b else .none := by
  have e : (Matrix.of fun k l : Fin nb => s.qb k l) = dd s * mat nx s.P * (dd s)ᵀ := qb_eq hv
  unfold accept
  refine if_congr Iff.rfl ?_ rfl
  simp only [qab_eq hv, e, pa_eq hv]
  rw [cov_eq s (sym_of_psd hP) _ hN]
  unfold est
  rw [part_vec hv.le, dd_vec hv]
  rfl

/-! ### The property -/

open Classical in
/-- **C57**, all ambiguities fixed -/
theorem full {s : AmbIn na nx nb} (sr : List ℝ → ℝ) (P0 : ℝ) (hnb : 0 < nb) (hv : Valid s) (hP : (mat nx s.P).PosSemidef)
    {L : Nat → Nat → ℝ} {d : Nat → ℝ} (hQ : dd s * mat nx s.P * (dd s)ᵀ = ltdl nb L d) (hL : UnitLower nb L)
    (hd : ∀ i, i < nb → 1 / 10 ^ 10 ≤ d i) (hE : Enough (dd s * mat nx s.P * (dd s)ᵀ) (dd s *ᵥ vec nx s.x) 2) :
    ∃ b0 b1 s0 s1, Best (dd s * mat nx s.P * (dd s)ᵀ) (dd s *ᵥ vec nx s.x) 2 [(b0, s0), (b1, s1)] ∧
      ∃ fuel, ∀ fuel', fuel ≤ fuel' → resamb sr s 1 P0 fuel' = .ok (some (
        if s0 ≤ 0 ∨ s.thresar ≤ s1 / s0 then
          .fixed (est s (dd s) fun k => (b0 k : ℝ)) (cov s (dd s)) fun k => (b0 k : ℝ)
        else .none)) := by
  have hN : IsUnit (dd s * mat nx s.P * (dd s)ᵀ).det := by
    rw [hQ]; exact det_ltdl hL fun i hi => lt_of_lt_of_le (by norm_num) (hd i hi)
  obtain ⟨r, hr, fuel, hf⟩ := mlambda_best' (ahat := s.y) (Q := s.qb) (ncands := 2) hnb (by norm_num)
    ((qb_eq hv).trans hQ) hL hd (by rw [qb_eq hv, ← dd_vec hv]; exact hE)
  rw [qb_eq hv, ← dd_vec hv] at hr
  obtain ⟨⟨b0, s0⟩, ⟨b1, s1⟩, rfl⟩ : ∃ p q, r = [p, q] := List.length_eq_two.1 hr.length
  refine ⟨b0, b1, s0, s1, hr, fuel, fun f hff => ?_⟩
  unfold resamb
  rw [if_neg (by norm_num), hf f hff]
  simp only [List.map_cons, List.map_nil, Option.bind_some, firstTwo, Option.map_some]
  rw [accept_eq hv hP hN]
  simp only [hnb, true_and, show ¬ (1 : Nat) = 2 by norm_num, false_or]

/-- **C57**, some ambiguities fixed -/
theorem partially {s : AmbIn na nx nb} (sr : List ℝ → ℝ) (P0 : ℝ) (hnb : 0 < nb) (hv : Valid s)
    (hP : (mat nx s.P).PosSemidef) {L : Nat → Nat → ℝ} {d : Nat → ℝ}
    (hQ : dd s * mat nx s.P * (dd s)ᵀ = ltdl nb L d) (hL : UnitLower nb L) (hd : ∀ i, i < nb → 1 / 10 ^ 10 ≤ d i) :
    ∃ (Z : Matrix (Fin nb) (Fin nb) Int) (Lz : Nat → Nat → ℝ) (dz : Nat → ℝ), (Z.det = 1 ∨ Z.det = -1) ∧
      UnitLower nb Lz ∧ (∀ i, i < nb → 0 < dz i) ∧ (toK ℝ Z)ᵀ * (dd s * mat nx s.P * (dd s)ᵀ) * toK ℝ Z = ltdl nb Lz dz ∧
      (∀ k, Excl sr nb dz P0 k → ∀ C, C = comb Z k * dd s →
        Enough (C * mat nx s.P * Cᵀ) (C *ᵥ vec nx s.x) 2 →
        ∃ z z' s0 s1, Best (C * mat nx s.P * Cᵀ) (C *ᵥ vec nx s.x) 2 [(z, s0), (z', s1)] ∧
          (cov s C - cov s (dd s)).PosSemidef ∧ ∃ b, ∃ fuel, ∀ fuel', fuel ≤ fuel' →
            resamb sr s 2 P0 fuel' = .ok (some (.fixed (est s C fun k => (z k : ℝ)) (cov s (dd s)) b))) ∧
      ((∀ k, ¬ Excl sr nb dz P0 k) →
        ∃ fuel, ∀ fuel', fuel ≤ fuel' → resamb sr s 2 P0 fuel' = .ok (some .none)) := by
  have hN : IsUnit (dd s * mat nx s.P * (dd s)ᵀ).det := by
    rw [hQ]; exact det_ltdl hL fun i hi => lt_of_lt_of_le (by norm_num) (hd i hi)
  have hPD : (dd s * mat nx s.P * (dd s)ᵀ).PosDef := by
    rw [hQ]; exact posDef_ltdl hL fun i hi => lt_of_lt_of_le (by norm_num) (hd i hi)
  obtain ⟨Z, Lz, dz, h1, h2, hdz, h3, h4, h5⟩ := partial_fix sr (ahat := s.y) (ncands := 2) P0 hnb (by norm_num)
    ((qb_eq hv).trans hQ) hL hd
  rw [qb_eq hv] at h3
  refine ⟨Z, Lz, dz, h1, h2, hdz, h3, ?_, ?_⟩
  · rintro k hk C rfl hE
    have hkn : k < nb := by
      rcases hk with ⟨e, _⟩ | ⟨e, _, _⟩ <;> omega
    have h4 := h4 k hk
    rw [qb_eq hv, ← dd_vec hv] at h4
    have ec : comb Z k * (dd s * mat nx s.P * (dd s)ᵀ) * (comb Z k)ᵀ =
        comb Z k * dd s * mat nx s.P * (comb Z k * dd s)ᵀ := by
      rw [transpose_mul]; simp only [Matrix.mul_assoc]
    rw [ec, mulVec_mulVec] at h4
    obtain ⟨r, hr, cands, hc, fuel, hf⟩ := h4 hE
    obtain ⟨⟨z, s0⟩, ⟨z', s1⟩, rfl⟩ : ∃ p q, r = [p, q] := List.length_eq_two.1 hr.length
    obtain ⟨⟨q1, t1⟩, q2, rfl⟩ : ∃ p q, cands = [p, q] := List.length_eq_two.1 (hc.length_eq.symm.trans rfl)
    have hcl := (List.forall₂_cons.1 hc).1.2
    simp only at hcl
    have hM := comb_unit h2 hdz h3 hkn
    have hb := closest_formula hPD (comb Z k) hM (dd s *ᵥ vec nx s.x) z
    have hq : q1 = _ := (hcl.unique _ hb.fixes (hb.dist.trans (by
      rw [ec, mulVec_mulVec]
      exact (hr.value (z, s0) List.mem_cons_self).symm))).symm
    have hest : est s (dd s) q1 = est s (comb Z k * dd s) fun i => (z i : ℝ) := by
      have e : ∀ w : Fin (nb - k) → ℝ, gain s (dd s) *ᵥ
          ((dd s * mat nx s.P * (dd s)ᵀ * (comb Z k)ᵀ *
            (comb Z k * (dd s * mat nx s.P * (dd s)ᵀ) * (comb Z k)ᵀ)⁻¹) *ᵥ w) = gain s (comb Z k * dd s) *ᵥ w := by
        intro w
        rw [mulVec_mulVec, ec]
        congr 1
        unfold gain
        rw [Matrix.mul_assoc (dd s * mat nx s.P * (dd s)ᵀ), Matrix.mul_assoc (part na nx * mat nx s.P * (dd s)ᵀ),
          nonsing_inv_mul_cancel_left _ _ hN, transpose_mul]
        simp only [Matrix.mul_assoc]
      unfold est
      rw [hq, sub_sub_cancel, e, mulVec_mulVec]
    have hcov : cov s (comb Z k * dd s) = covOf (mat nx s.P) (part na nx) (dd s) (gain s (comb Z k * dd s) * comb Z k) := by
      unfold cov covOf
      rw [← Matrix.mul_assoc]
    refine ⟨z, z', s0, s1, hr, ?_, q1, fuel, fun f hff => ?_⟩
    · rw [hcov]
      exact optimal s hP (dd s) hN _
    · unfold resamb
      rw [if_pos rfl, hf f hff]
      simp only [Option.bind_some, firstTwo, Option.map_some]
      rw [accept_eq hv hP hN]
      simp only [show 0 < nb - k by omega, true_and, true_or, if_true]
      rw [hest]
  · intro hno
    obtain ⟨fuel, hf⟩ := h5 hno
    refine ⟨fuel, fun f hff => ?_⟩
    unfold resamb
    rw [if_pos rfl, hf f hff]
    simp only [Option.bind_some]
    rw [accept_eq hv hP hN]
    simp only [lt_irrefl, false_and, if_false]

/-- with partial fixing the reported covariance is the right one only if the differences left out
carry no further information -/
theorem reported_right_iff {m : Nat} (s : AmbIn na nx nb) (hP : (mat nx s.P).PosSemidef)
    (hN : (dd s * mat nx s.P * (dd s)ᵀ).PosDef) (C : Matrix (Fin m) (Fin nb) ℝ) :
    cov s (C * dd s) = cov s (dd s) ↔ gain s (dd s) = gain s (C * dd s) * C := by
  have hNu : IsUnit (dd s * mat nx s.P * (dd s)ᵀ).det := (Matrix.isUnit_iff_isUnit_det _).1 hN.isUnit
  have hcov : cov s (C * dd s) = covOf (mat nx s.P) (part na nx) (dd s) (gain s (C * dd s) * C) := by
    unfold cov covOf
    rw [← Matrix.mul_assoc]
  rw [hcov, gain_split (sym_of_psd hP) _ _ hNu, cov_eq s (sym_of_psd hP) _ hNu]
  show _ - gain s (dd s) * _ + (_ - gain s (dd s)) * _ * (_ - gain s (dd s))ᵀ = _ ↔ _
  rw [add_eq_left]
  set R := gain s (C * dd s) * C - gain s (dd s) with hR
  constructor
  · intro h
    have hz : ∀ i, R i = 0 := by
      intro i
      by_contra hne
      have h1 := hN.dotProduct_mulVec_pos hne
      have h2 := congrFun (congrFun h i) i
      rw [Matrix.mul_assoc, Matrix.mul_apply] at h2
      have h3 : ∀ l, (dd s * mat nx s.P * (dd s)ᵀ * Rᵀ) l i = ((dd s * mat nx s.P * (dd s)ᵀ) *ᵥ R i) l := fun l => rfl
      simp only [h3] at h2
      simp only [star_trivial] at h1
      exact absurd h2 (ne_of_gt h1)
    have : R = 0 := by
      ext i j
      rw [hz i]
      rfl
    rw [hR, sub_eq_zero] at this
    exact this.symm
  · intro h
    have : R = 0 := by rw [hR, h, sub_self]
    rw [this, Matrix.zero_mul, Matrix.zero_mul]

/-- one unknown and three ambiguities: `P = A Aᵀ` with the unknown depending on the first ambiguity -/
noncomputable def ex : AmbIn 1 4 2 where
  x := fun i => if i = 1 then 1 / 4 else 0
  P := fun i j => if i = 0 then (if j = 0 then 2 else if j = 1 then 1 else 0) else
    if i = j then 1 else if i = 1 ∧ j = 0 then 1 else 0
  i0 := fun _ => 1
  i1 := fun k => k + 2
  thresar := 2

theorem ex_dd : dd ex = !![0, 1, -1, 0; 0, 1, 0, -1] := by
  ext i j; fin_cases i <;> fin_cases j <;> simp [dd, ex]

theorem ex_P : mat 4 ex.P = !![2, 1, 0, 0; 1, 1, 0, 0; 0, 0, 1, 0; 0, 0, 0, 1] := by
  ext i j; fin_cases i <;> fin_cases j <;> simp [mat, ex]

theorem ex_part : part 1 4 = !![1, 0, 0, 0] := by
  ext i j; fin_cases i <;> fin_cases j <;> simp [part]

theorem ex_psd : (mat 4 ex.P).PosSemidef := by
  have : mat 4 ex.P = !![1, 1, 0, 0; 0, 1, 0, 0; 0, 0, 1, 0; 0, 0, 0, (1 : ℝ)] *
      (!![1, 1, 0, 0; 0, 1, 0, 0; 0, 0, 1, 0; 0, 0, 0, (1 : ℝ)])ᴴ := by
    rw [ex_P, conjTranspose_eq_transpose_of_trivial]
    ext i j; fin_cases i <;> fin_cases j <;> simp [Matrix.mul_apply, Fin.sum_univ_succ] <;> norm_num
  rw [this]
  exact Matrix.posSemidef_self_mul_conjTranspose _

theorem ex_qb : dd ex * mat 4 ex.P * (dd ex)ᵀ = !![2, 1; 1, 2] := by
  rw [ex_dd, ex_P]
  ext i j; fin_cases i <;> fin_cases j <;> simp [Matrix.mul_apply, Fin.sum_univ_succ] <;> norm_num

/-- the premises of `full` and `partially` hold -/
example : Valid ex ∧ (mat 4 ex.P).PosSemidef ∧ ∃ L d, dd ex * mat 4 ex.P * (dd ex)ᵀ = ltdl 2 L d ∧ UnitLower 2 L ∧
    ∀ i, i < 2 → 1 / 10 ^ 10 ≤ d i := by
  refine ⟨⟨by norm_num, fun k hk => ⟨by simp [ex], by simp [ex]⟩, fun k hk => ⟨by simp [ex], by simp [ex]; omega⟩⟩, ex_psd,
    fun i j => if i = j then 1 else if i = 1 ∧ j = 0 then 1 / 2 else 0, fun i => if i = 0 then 3 / 2 else 2, ?_,
    ⟨fun i _ => if_pos rfl, fun i j h _ => (if_neg (by omega)).trans (if_neg (by omega))⟩, fun i _ => ?_⟩
  · rw [ex_qb]
    ext i j; fin_cases i <;> fin_cases j <;>
      simp [ltdl_entry, Finset.sum_range_succ] <;> norm_num
  · simp only
    by_cases h : i = 0
    · rw [if_pos h]; norm_num
    · rw [if_neg h]; norm_num

/-- the reported covariance can be too small -/
theorem reported_too_small : cov ex (dd ex) 0 0 < cov ex (comb 1 1 * dd ex) 0 0 := by
  have hs := sym_of_psd ex_psd
  have hc : comb (1 : Matrix (Fin 2) (Fin 2) Int) 1 * dd ex = !![0, 1, 0, -1] := by
    have h0 : comb (1 : Matrix (Fin 2) (Fin 2) Int) 1 = !![0, 1] := by
      ext i j
      fin_cases j <;> simp [comb, Matrix.one_apply, Fin.ext_iff]
    rw [h0, ex_dd]
    ext i j
    fin_cases i; fin_cases j <;> simp [Matrix.mul_apply, Fin.sum_univ_succ]
  have hq : (!![0, 1, 0, -1] : Matrix (Fin 1) (Fin 4) ℝ) * mat 4 ex.P * (!![0, 1, 0, -1] : Matrix (Fin 1) (Fin 4) ℝ)ᵀ = !![2] := by
    rw [ex_P]
    ext i j; fin_cases i; fin_cases j; simp [Matrix.mul_apply, Fin.sum_univ_succ]; norm_num
  have i1 : (!![2, 1; 1, 2] : Matrix (Fin 2) (Fin 2) ℝ)⁻¹ = !![2 / 3, -1 / 3; -1 / 3, 2 / 3] := by
    refine Matrix.inv_eq_right_inv ?_
    ext i j; fin_cases i <;> fin_cases j <;> simp [Matrix.mul_apply, Fin.sum_univ_succ] <;> norm_num
  have i2 : (!![2] : Matrix (Fin 1) (Fin 1) ℝ)⁻¹ = !![1 / 2] := by
    refine Matrix.inv_eq_right_inv ?_
    ext i j; fin_cases i; fin_cases j; simp
  have u1 : IsUnit (dd ex * mat 4 ex.P * (dd ex)ᵀ).det := by
    rw [ex_qb, Matrix.det_fin_two_of]; norm_num
  have u2 : IsUnit ((!![0, 1, 0, -1] : Matrix (Fin 1) (Fin 4) ℝ) * mat 4 ex.P *
      (!![0, 1, 0, -1] : Matrix (Fin 1) (Fin 4) ℝ)ᵀ).det := by
    rw [hq]; simp
  rw [hc, cov_eq ex hs _ u1, cov_eq ex hs _ u2]
  have a1 : part 1 4 * mat 4 ex.P * (dd ex)ᵀ = !![1, 1] := by
    rw [ex_dd, ex_P, ex_part]
    ext i j; fin_cases i; fin_cases j <;> simp [Matrix.mul_apply, Fin.sum_univ_succ]
  have a2 : part 1 4 * mat 4 ex.P * (!![0, 1, 0, -1] : Matrix (Fin 1) (Fin 4) ℝ)ᵀ = !![1] := by
    rw [ex_P, ex_part]
    ext i j; fin_cases i; fin_cases j; simp [Matrix.mul_apply, Fin.sum_univ_succ]
  unfold gain
  rw [a1, a2, ex_qb, hq, i1, i2]
  rw [Matrix.sub_apply, Matrix.sub_apply]
  refine sub_lt_sub_left ?_ _
  simp [Matrix.mul_apply, Fin.sum_univ_succ]
  norm_num

end Verif.C57
