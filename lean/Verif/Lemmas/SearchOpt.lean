import Verif.Lemmas.SearchSim
import Mathlib.LinearAlgebra.Matrix.NonsingularInverse
import Mathlib.LinearAlgebra.Matrix.Block
import Mathlib.Data.Matrix.Mul
/-!
# The result of the searches in terms of matrices
-/

namespace Verif.Lambda
open Finset Matrix
variable {K : Type} [Field K] [LinearOrder K] [IsStrictOrderedRing K] [FloorRing K]

/-- the matrix stored in an array -/
def mat (n : Nat) (L : Nat → Nat → K) : Matrix (Fin n) (Fin n) K := Matrix.of fun i j => L i j

/-- the vector stored in an array -/
def vec {α : Type} (n : Nat) (f : Nat → α) : Fin n → α := fun i => f i

/-- an array holding a vector -/
def arr {n : Nat} (z : Fin n → Int) : Nat → Int := fun i => if h : i < n then z ⟨i, h⟩ else 0

theorem vec_arr {n : Nat} (z : Fin n → Int) : vec n (arr z) = z := by
  funext i
  unfold vec arr
  rw [dif_pos i.2]

/-- `(a - z)ᵀ Q⁻¹ (a - z)` -/
noncomputable def sqdist {n : Nat} (Q : Matrix (Fin n) (Fin n) K) (a : Fin n → K) (z : Fin n → Int) : K :=
  (fun i => a i - (z i : K)) ⬝ᵥ (Q⁻¹ *ᵥ fun i => a i - (z i : K))

/-- unit lower triangular -/
def UnitLower (n : Nat) (L : Nat → Nat → K) : Prop :=
  (∀ i, i < n → L i i = 1) ∧ ∀ i j, i < j → j < n → L i j = 0

/-- `Lᵀ D L` -/
def ltdl (n : Nat) (L : Nat → Nat → K) (d : Nat → K) : Matrix (Fin n) (Fin n) K :=
  (mat n L)ᵀ * diagonal (vec n d) * mat n L

omit [LinearOrder K] [IsStrictOrderedRing K] [FloorRing K] in
theorem det_mat {n : Nat} {L : Nat → Nat → K} (h : UnitLower n L) : (mat n L).det = 1 := by
  rw [Matrix.det_of_lowerTriangular (mat n L) (fun i j hij => h.2 i j hij j.2)]
  refine Finset.prod_eq_one fun i _ => h.1 i i.2

omit [FloorRing K] in
theorem det_ltdl {n : Nat} {L : Nat → Nat → K} {d : Nat → K} (h : UnitLower n L)
    (hd : ∀ i, i < n → 0 < d i) : IsUnit (ltdl n L d).det := by
  unfold ltdl
  rw [det_mul, det_mul, det_transpose, det_mat h, det_diagonal, one_mul, mul_one]
  exact IsUnit.mk0 _ (Finset.prod_ne_zero_iff.2 fun i _ => (hd i i.2).ne')

/-- the distance through the conditional residuals -/
theorem sqdist_eq {n : Nat} {L : Nat → Nat → K} {d ahat : Nat → K} (h : UnitLower n L)
    (hd : ∀ i, i < n → 0 < d i) (z : Nat → Int) :
    sqdist (ltdl n L d) (vec n ahat) (vec n z) = norm n L d ahat z := by
  set r := resid n L ahat z n with hr
  have hres : Res n L ahat z r := resid_res n L ahat z
  have hv : (fun i : Fin n => vec n ahat i - ((vec n z i : Int) : K)) = (mat n L)ᵀ *ᵥ vec n r := by
    funext i
    show ahat i - (z i : K) = _
    rw [hres i i.2]
    unfold Matrix.mulVec dotProduct
    show _ = ∑ j : Fin n, L j i * r j
    rw [Fin.sum_univ_eq_sum_range (fun j => L j i * r j) n, ← Finset.sum_range_add_sum_Ico _ (Nat.le_of_lt i.2),
      Finset.sum_eq_zero (s := range i) (fun j hj => by rw [h.2 j i (mem_range.1 hj) i.2, zero_mul]), zero_add,
      sum_Ico_eq _ _ i.2, h.1 i i.2, one_mul]
    have e : Ioo (i : Nat) n = Ico (i + 1 : Nat) n := by ext l; rw [mem_Ioo, mem_Ico]; omega
    rw [e]
    congr 1
    exact Finset.sum_congr rfl fun j _ => mul_comm _ _
  have hL : IsUnit (mat n L).det := by rw [det_mat h]; exact isUnit_one
  set w := (mat n L)⁻¹ *ᵥ fun i : Fin n => r i / d i with hw
  have hLw : mat n L *ᵥ w = fun i : Fin n => r i / d i := by
    rw [hw, mulVec_mulVec, mul_nonsing_inv _ hL, one_mulVec]
  have hQw : ltdl n L d *ᵥ w = (mat n L)ᵀ *ᵥ vec n r := by
    unfold ltdl
    rw [← mulVec_mulVec, hLw, ← mulVec_mulVec]
    congr 1
    funext i
    rw [mulVec_diagonal]
    show d i * (r i / d i) = r i
    rw [mul_div_cancel₀ _ (hd i i.2).ne']
  have hQ : (ltdl n L d)⁻¹ *ᵥ ((mat n L)ᵀ *ᵥ vec n r) = w := by
    rw [← hQw, mulVec_mulVec, nonsing_inv_mul _ (det_ltdl h hd), one_mulVec]
  unfold sqdist
  rw [hv, hQ, dotProduct_comm, ← vecMul_transpose, transpose_transpose, dotProduct_comm,
    ← dotProduct_mulVec, hLw]
  unfold dotProduct norm
  rw [← Fin.sum_univ_eq_sum_range (fun j => resid n L ahat z n j ^ 2 / d j) n]
  refine Finset.sum_congr rfl fun i _ => ?_
  show r i * (r i / d i) = r i ^ 2 / d i
  ring

/-! ## Best candidates -/

/-- the `ncands` integer vectors of smallest distance, in order, with their distances -/
structure Best {n : Nat} (Q : Matrix (Fin n) (Fin n) K) (a : Fin n → K) (ncands : Nat)
    (r : List ((Fin n → Int) × K)) : Prop where
  length : r.length = ncands
  sorted : r.Pairwise fun p q => p.2 ≤ q.2
  nodup : (r.map Prod.fst).Nodup
  value : ∀ p ∈ r, p.2 = sqdist Q a p.1
  best : ∀ z, z ∉ r.map Prod.fst → ∀ p ∈ r, p.2 ≤ sqdist Q a z

/-- the result of a search as vectors -/
def vecs (n : Nat) (r : List ((Nat → Int) × K)) : List ((Fin n → Int) × K) :=
  r.map fun p => (vec n p.1, p.2)

theorem best_of_cands {n : Nat} {L : Nat → Nat → K} {d ahat : Nat → K} {ncands : Nat}
    (hL : UnitLower n L) (hd : ∀ i, i < n → 0 < d i) {c : Core K} {N : Nat}
    (h : Cands n L d ahat ncands c N)
    (hcov : ∀ z, norm n L d ahat z < c.chi2 → ∃ i, i < N ∧ ∀ l, l < n → z l = c.cand.af i l)
    (hA : ∃ A : Finset (Fin n → Int), A.card = ncands ∧
      ∀ z ∈ A, sqdist (ltdl n L d) (vec n ahat) z < 10 ^ 18) :
    Best (ltdl n L d) (vec n ahat) ncands (vecs n (output ncands c.cand)) := by
  have hnorm : ∀ z : Fin n → Int, sqdist (ltdl n L d) (vec n ahat) z = norm n L d ahat (arr z) := by
    intro z
    have := sqdist_eq hL hd (ahat := ahat) (arr z)
    rwa [vec_arr] at this
  have hcov' : ∀ z : Fin n → Int, sqdist (ltdl n L d) (vec n ahat) z < c.chi2 →
      ∃ i, i < N ∧ z = vec n (c.cand.af i) := by
    intro z hz
    rw [hnorm] at hz
    obtain ⟨i, hi, e⟩ := hcov _ hz
    refine ⟨i, hi, ?_⟩
    rw [← vec_arr z]
    funext l
    exact e l l.2
  have hN : N = ncands := by
    rcases Nat.lt_or_ge N ncands with hlt | hge
    · exfalso
      obtain ⟨A, hA1, hA2⟩ := hA
      have hsub : A ⊆ (Finset.range N).image fun i => vec n (c.cand.af i) := by
        intro z hz
        obtain ⟨i, hi, e⟩ := hcov' z (by rw [(h.part hlt).2.2]; exact hA2 z hz)
        exact Finset.mem_image.2 ⟨i, Finset.mem_range.2 hi, e.symm⟩
      have := (Finset.card_le_card hsub).trans Finset.card_image_le
      rw [Finset.card_range] at this
      omega
    · exact Nat.le_antisymm h.le hge
  have hperm := List.perm_insertionSort (fun i j => c.cand.sq i ≤ c.cand.sq j) (List.range ncands)
  have hmem : ∀ i, i ∈ (List.range ncands).insertionSort (fun i j => c.cand.sq i ≤ c.cand.sq j) ↔
      i < N := by
    intro i
    rw [hperm.mem_iff, List.mem_range, hN]
  have hmap : ∀ z, z ∈ (vecs n (output ncands c.cand)).map Prod.fst ↔
      ∃ i, i < N ∧ vec n (c.cand.af i) = z := by
    intro z
    simp only [vecs, output, List.map_map, List.mem_map, Function.comp, hmem]
  refine ⟨?_, ?_, ?_, ?_, ?_⟩
  · simp [vecs, output]
  · unfold vecs output
    rw [List.pairwise_map, List.pairwise_map]
    have : Std.Total (fun i j : Nat => c.cand.sq i ≤ c.cand.sq j) := ⟨fun i j => le_total _ _⟩
    have : IsTrans Nat (fun i j : Nat => c.cand.sq i ≤ c.cand.sq j) := ⟨fun _ _ _ => le_trans⟩
    exact List.pairwise_insertionSort _ _
  · unfold vecs output
    rw [List.map_map, List.map_map]
    refine List.Nodup.map_on ?_ (hperm.nodup_iff.2 List.nodup_range)
    intro i hi j hj e
    rw [hmem] at hi hj
    by_contra hne
    obtain ⟨l, hl, g⟩ := h.dif i j hi hj hne
    exact g (congrFun e ⟨l, hl⟩)
  · intro p hp
    simp only [vecs, output, List.map_map, List.mem_map, Function.comp, hmem] at hp
    obtain ⟨i, hi, e⟩ := hp
    subst e
    show c.cand.sq i = _
    rw [(h.val i hi).1, sqdist_eq hL hd]
  · intro z hz p hp
    simp only [vecs, output, List.map_map, List.mem_map, Function.comp, hmem] at hp
    obtain ⟨i, hi, e⟩ := hp
    subst e
    show c.cand.sq i ≤ _
    refine (h.val i hi).2.trans ?_
    by_contra hlt
    obtain ⟨j, hj, e⟩ := hcov' z (not_le.1 hlt)
    exact hz ((hmap z).2 ⟨j, hj, e.symm⟩)

end Verif.Lambda
