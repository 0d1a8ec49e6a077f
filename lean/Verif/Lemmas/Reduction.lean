import Verif.Lemmas.SearchOpt
import Mathlib.LinearAlgebra.Matrix.Transvection
import Mathlib.Algebra.Order.Archimedean.Basic
/-!
# The decorrelation is a unimodular change of variables and ends
-/

namespace Verif.Lambda
open Finset Matrix
variable {K : Type} [Field K] [LinearOrder K] [IsStrictOrderedRing K] [FloorRing K]

/-- the integer matrix stored in an array -/
def zmat (n : Nat) (Z : Nat → Nat → Int) : Matrix (Fin n) (Fin n) Int := Matrix.of fun i j => Z i j

/-- an integer matrix over `K` -/
def toK (K : Type) [Field K] {n : Nat} (Z : Matrix (Fin n) (Fin n) Int) : Matrix (Fin n) (Fin n) K :=
  Z.map (Int.castRingHom K)

omit [LinearOrder K] [IsStrictOrderedRing K] [FloorRing K] in
theorem toK_mul {n : Nat} (A B : Matrix (Fin n) (Fin n) Int) :
    toK K (A * B) = toK K A * toK K B := Matrix.map_mul

/-- the relation kept by `reduction` -/
structure Rel (n : Nat) (Q : Matrix (Fin n) (Fin n) K) (c : Rd K) : Prop where
  low : UnitLower n c.L
  pos : ∀ i, i < n → 0 < c.d i
  eq : ltdl n c.L c.d = (toK K (zmat n c.Z))ᵀ * Q * toK K (zmat n c.Z)
  det : (zmat n c.Z).det = 1 ∨ (zmat n c.Z).det = -1

/-- one integer Gauss transformation -/
theorem gauss_rel {n : Nat} {Q : Matrix (Fin n) (Fin n) K} {c : Rd K} (h : Rel n Q c) {i j : Nat}
    (hij : j < i) (hi : i < n) : Rel n Q (gauss j i c) := by
  unfold gauss
  by_cases hmu : rnd (c.L i j) ≠ 0
  · simp only [if_pos hmu]
    generalize rnd (c.L i j) = mu
    have hjn : j < n := by omega
    have hL : mat n (fun r q => if q = j ∧ i ≤ r then c.L r j - mu * c.L r i else c.L r q) =
        mat n c.L * toK K (transvection (⟨i, hi⟩ : Fin n) ⟨j, hjn⟩ (-mu)) := by
      have et : toK K (transvection (⟨i, hi⟩ : Fin n) ⟨j, hjn⟩ (-mu)) =
          transvection (⟨i, hi⟩ : Fin n) ⟨j, hjn⟩ (-(mu : K)) := by
        unfold toK transvection
        rw [Matrix.map_add _ (fun a b => map_add _ a b), Matrix.map_single, Matrix.map_one _ (map_zero _) (map_one _), map_neg]
        rfl
      rw [et]
      ext a b
      by_cases hb : b = ⟨j, hjn⟩
      · subst hb
        rw [mul_transvection_apply_same]
        show ite _ _ _ = c.L a j + -(mu : K) * c.L a i
        by_cases ha : i ≤ (a : Nat)
        · rw [if_pos ⟨rfl, ha⟩]; ring
        · rw [if_neg (fun x => ha x.2), h.low.2 a i (by omega) hi]
          simp
      · rw [mul_transvection_apply_of_ne _ _ _ _ hb]
        show ite _ _ _ = c.L a b
        rw [if_neg]
        exact fun x => hb (Fin.ext x.1)
    have hZ : zmat n (fun r q => if q = j then c.Z r j - mu * c.Z r i else c.Z r q) =
        zmat n c.Z * transvection (⟨i, hi⟩ : Fin n) ⟨j, hjn⟩ (-mu) := by
      ext a b
      by_cases hb : b = ⟨j, hjn⟩
      · subst hb
        rw [mul_transvection_apply_same]
        show ite _ _ _ = c.Z a j + -mu * c.Z a i
        rw [if_pos rfl]; ring
      · rw [mul_transvection_apply_of_ne _ _ _ _ hb]
        show ite _ _ _ = c.Z a b
        rw [if_neg]
        exact fun x => hb (Fin.ext x)
    refine ⟨⟨fun a ha => ?_, fun a b hab hb => ?_⟩, h.pos, ?_, ?_⟩
    · show ite _ _ _ = _
      rw [if_neg (by omega)]
      exact h.low.1 a ha
    · show ite _ _ _ = _
      by_cases e : b = j ∧ i ≤ a
      · omega
      · rw [if_neg e]; exact h.low.2 a b hab hb
    · show ltdl n (fun r q => if q = j ∧ i ≤ r then c.L r j - mu * c.L r i else c.L r q) c.d =
        (toK K (zmat n fun r q => if q = j then c.Z r j - mu * c.Z r i else c.Z r q))ᵀ * Q *
          toK K (zmat n fun r q => if q = j then c.Z r j - mu * c.Z r i else c.Z r q)
      have e := h.eq
      unfold ltdl at e ⊢
      rw [hL, hZ, toK_mul, transpose_mul, transpose_mul]
      generalize toK K (transvection (⟨i, hi⟩ : Fin n) ⟨j, hjn⟩ (-mu)) = E at *
      calc Eᵀ * (mat n c.L)ᵀ * diagonal (vec n c.d) * (mat n c.L * E)
          = Eᵀ * ((mat n c.L)ᵀ * diagonal (vec n c.d) * mat n c.L) * E := by
            simp only [Matrix.mul_assoc]
        _ = _ := by rw [e]; simp only [Matrix.mul_assoc]
    · show (zmat n fun r q => if q = j then c.Z r j - mu * c.Z r i else c.Z r q).det = 1 ∨
        (zmat n fun r q => if q = j then c.Z r j - mu * c.Z r i else c.Z r q).det = -1
      rw [hZ, det_mul, det_transvection_of_ne _ _ (by intro x; have := congrArg Fin.val x; simp at this; omega), mul_one]
      exact h.det
  · simp only [if_neg hmu]; exact h

theorem gauss_jk (j i : Nat) (c : Rd K) : (gauss j i c).d = c.d ∧ (gauss j i c).j = c.j ∧
    (gauss j i c).k = c.k := by
  unfold gauss; dsimp only; split_ifs <;> exact ⟨rfl, rfl, rfl⟩

/-- other columns are left alone -/
theorem gauss_col (j i : Nat) (c : Rd K) (r q : Nat) (h : q ≠ j ∨ r < i) :
    (gauss j i c).L r q = c.L r q := by
  unfold gauss; dsimp only
  split_ifs
  · show ite _ _ _ = _
    rw [if_neg (by omega)]
  · rfl

theorem gauss_half {n : Nat} {j i : Nat} {c : Rd K} (h : UnitLower n c.L) (hi : i < n) :
    |(gauss j i c).L i j| ≤ 1 / 2 := by
  have hr := rnd_spec (c.L i j)
  unfold gauss; dsimp only
  by_cases hmu : rnd (c.L i j) ≠ 0
  · rw [if_pos hmu]
    show |ite _ _ _| ≤ _
    rw [if_pos ⟨rfl, Nat.le_refl _⟩, h.1 i hi, mul_one, abs_le]
    exact ⟨by linarith [hr.1], by linarith [hr.2]⟩
  · rw [if_neg hmu]
    rw [not_not.1 hmu, Int.cast_zero] at hr
    rw [abs_le]
    exact ⟨by linarith [hr.1], by linarith [hr.2]⟩

/-- what a whole column of Gauss transformations keeps and achieves -/
theorem gaussAll_spec {n : Nat} {Q : Matrix (Fin n) (Fin n) K} {c : Rd K} (h : Rel n Q c) (j : Nat) :
    Rel n Q (gaussAll n j c) ∧ (gaussAll n j c).d = c.d ∧ (gaussAll n j c).j = c.j ∧
    (gaussAll n j c).k = c.k ∧ (∀ r q, q ≠ j → (gaussAll n j c).L r q = c.L r q) ∧
    ∀ r, j < r → r < n → |(gaussAll n j c).L r j| ≤ 1 / 2 := by
  have key : ∀ m a (c : Rd K), j < a → a + m = n → Rel n Q c →
      (∀ r, j < r → r < a → |c.L r j| ≤ 1 / 2) →
      let c' := (List.range' a m).foldl (fun c i => gauss j i c) c
      Rel n Q c' ∧ c'.d = c.d ∧ c'.j = c.j ∧ c'.k = c.k ∧ (∀ r q, q ≠ j → c'.L r q = c.L r q) ∧
      ∀ r, j < r → r < n → |c'.L r j| ≤ 1 / 2 := by
    intro m
    induction m with
    | zero =>
      intro a c ha e hc hr
      exact ⟨hc, rfl, rfl, rfl, fun _ _ _ => rfl, fun r h1 h2 => hr r h1 (by omega)⟩
    | succ m ih =>
      intro a c ha e hc hr
      rw [List.range'_succ, List.foldl_cons]
      obtain ⟨g1, g2, g3, g4, g5, g6⟩ := ih (a + 1) (gauss j a c) (by omega) (by omega)
        (gauss_rel hc ha (by omega)) (fun r h1 h2 => by
          by_cases e : r = a
          · subst e; exact gauss_half hc.low (by omega)
          · rw [gauss_col _ _ _ _ _ (Or.inr (by omega))]; exact hr r h1 (by omega))
      obtain ⟨q1, q2, q3⟩ := gauss_jk j a c
      exact ⟨g1, g2.trans q1, g3.trans q2, g4.trans q3,
        fun r q hq => (g5 r q hq).trans (gauss_col _ _ _ _ _ (Or.inl hq)), g6⟩
  unfold gaussAll
  rcases Nat.lt_or_ge (j + 1) n with hlt | hge
  · exact key (n - (j + 1)) (j + 1) c (by omega) (by omega) h (fun r h1 h2 => by omega)
  · rw [show n - (j + 1) = 0 by omega]
    exact ⟨h, rfl, rfl, rfl, fun _ _ _ => rfl, fun r h1 h2 => by omega⟩

omit [FloorRing K] in
/-- the permutation of two neighbouring columns -/
theorem swap_rel {n : Nat} {Q : Matrix (Fin n) (Fin n) K} {c : Rd K} (h : Rel n Q c) {j : Nat}
    (hj : j + 1 < n) :
    Rel n Q (swapCols j (c.d j + c.L (j + 1) j ^ 2 * c.d (j + 1)) c) := by
  have hjn : j < n := by omega
  have d0 := h.pos j hjn
  have d1 := h.pos (j + 1) hj
  set l := c.L (j + 1) j with hl
  set delta := c.d j + l ^ 2 * c.d (j + 1) with hdel
  have dp : 0 < delta := by have := mul_nonneg (sq_nonneg l) d1.le; linarith
  have dne := dp.ne'
  set c' := swapCols j delta c with hc'
  let a : Fin n := ⟨j, hjn⟩
  let b : Fin n := ⟨j + 1, hj⟩
  have hab : a ≠ b := by intro x; have := congrArg Fin.val x; simp [a, b] at this
  let σ : Equiv.Perm (Fin n) := Equiv.swap a b
  have sa : σ a = b := Equiv.swap_apply_left a b
  have sb : σ b = a := Equiv.swap_apply_right a b
  have so : ∀ q : Fin n, q ≠ a → q ≠ b → σ q = q := fun q h1 h2 => Equiv.swap_apply_of_ne_of_ne h1 h2
  have cL : ∀ r q, c'.L r q =
      if r = j + 1 ∧ q = j then c.d (j + 1) * l / delta
      else if r = j ∧ q < j then -l * c.L j q + c.L (j + 1) q
      else if r = j + 1 ∧ q < j then c.d j / delta * c.L j q + c.d (j + 1) * l / delta * c.L (j + 1) q
      else if j + 2 ≤ r ∧ q = j then c.L r (j + 1)
      else if j + 2 ≤ r ∧ q = j + 1 then c.L r j
      else c.L r q := fun _ _ => rfl
  have fa : ∀ q : Fin n, q = a ↔ (q : Nat) = j := fun q => ⟨fun e => by rw [e], fun e => Fin.ext e⟩
  have fb : ∀ q : Fin n, q = b ↔ (q : Nat) = j + 1 := fun q => ⟨fun e => by rw [e], fun e => Fin.ext e⟩
  -- the rows other than `j`, `j + 1`
  have rowO : ∀ r : Nat, r < n → r ≠ j → r ≠ j + 1 → ∀ q : Fin n, c'.L r q = c.L r (σ q) := by
    intro r hr h1 h2 q
    rw [cL, if_neg (fun x => h2 x.1), if_neg (fun x => h1 x.1), if_neg (fun x => h2 x.1)]
    by_cases e : q = a
    · rw [e, sa]
      by_cases e2 : j + 2 ≤ r
      · rw [if_pos ⟨e2, rfl⟩]
      · rw [if_neg (fun x => e2 x.1), if_neg (fun x => e2 x.1)]
        show c.L r j = c.L r (j + 1)
        rw [h.low.2 r j (by omega) hjn, h.low.2 r (j + 1) (by omega) hj]
    · by_cases e' : q = b
      · rw [e', sb]
        by_cases e2 : j + 2 ≤ r
        · rw [if_neg (fun x => by have := x.2; simp [b] at this), if_pos ⟨e2, rfl⟩]
        · rw [if_neg (fun x => e2 x.1), if_neg (fun x => e2 x.1)]
          show c.L r (j + 1) = c.L r j
          rw [h.low.2 r j (by omega) hjn, h.low.2 r (j + 1) (by omega) hj]
      · rw [so q e e', if_neg (fun x => e ((fa q).2 x.2)), if_neg (fun x => e' ((fb q).2 x.2))]
  have lj : c.L j j = 1 := h.low.1 j hjn
  have lj1 : c.L (j + 1) (j + 1) = 1 := h.low.1 _ hj
  have ljz : c.L j (j + 1) = 0 := h.low.2 j (j + 1) (by omega) hj
  have rowA : ∀ q : Fin n, c'.L j q = -l * c.L j (σ q) + c.L (j + 1) (σ q) := by
    intro q
    rw [cL, if_neg (fun x => by omega)]
    by_cases e : q = a
    · rw [e, sa]
      show ite (j = j ∧ j < j) _ (ite (j = j + 1 ∧ j < j) _ (ite (j + 2 ≤ j ∧ _) _ (ite (j + 2 ≤ j ∧ _) _ (c.L j j)))) = -l * c.L j (j + 1) + c.L (j + 1) (j + 1)
      rw [if_neg (by omega), if_neg (by omega), if_neg (by omega), if_neg (by omega), lj, ljz, lj1]
      ring
    · by_cases e' : q = b
      · rw [e', sb]
        show ite (j = j ∧ j + 1 < j) _ (ite (j = j + 1 ∧ _) _ (ite (j + 2 ≤ j ∧ _) _ (ite (j + 2 ≤ j ∧ _) _ (c.L j (j + 1))))) = -l * c.L j j + c.L (j + 1) j
        rw [if_neg (by omega), if_neg (by omega), if_neg (by omega), if_neg (by omega), lj, ljz, ← hl]
        ring
      · rw [so q e e']
        have h1 : (q : Nat) ≠ j := fun x => e ((fa q).2 x)
        have h2 : (q : Nat) ≠ j + 1 := fun x => e' ((fb q).2 x)
        by_cases hq : (q : Nat) < j
        · rw [if_pos ⟨rfl, hq⟩]
        · rw [if_neg (by omega), if_neg (by omega), if_neg (by omega), if_neg (by omega),
            h.low.2 j q (by omega) q.2, h.low.2 (j + 1) q (by omega) q.2]
          ring
  have rowB : ∀ q : Fin n, c'.L (j + 1) q =
      c.d j / delta * c.L j (σ q) + c.d (j + 1) * l / delta * c.L (j + 1) (σ q) := by
    intro q
    rw [cL]
    by_cases e : q = a
    · rw [e, sa, if_pos ⟨rfl, rfl⟩]
      show _ = _ * c.L j (j + 1) + _ * c.L (j + 1) (j + 1)
      rw [ljz, lj1]; ring
    · by_cases e' : q = b
      · rw [e', sb]
        show ite (j + 1 = j + 1 ∧ j + 1 = j) _ (ite (j + 1 = j ∧ j + 1 < j) _ (ite (j + 1 = j + 1 ∧ j + 1 < j) _ (ite (j + 2 ≤ j + 1 ∧ _) _ (ite (j + 2 ≤ j + 1 ∧ _) _ (c.L (j + 1) (j + 1)))))) = _ * c.L j j + _ * c.L (j + 1) j
        rw [if_neg (by omega), if_neg (by omega), if_neg (by omega), if_neg (by omega), if_neg (by omega), lj, lj1, ← hl]
        field_simp
        rw [hdel]; ring
      · rw [so q e e']
        have h1 : (q : Nat) ≠ j := fun x => e ((fa q).2 x)
        have h2 : (q : Nat) ≠ j + 1 := fun x => e' ((fb q).2 x)
        rw [if_neg (by omega), if_neg (by omega)]
        by_cases hq : (q : Nat) < j
        · rw [if_pos ⟨rfl, hq⟩]
        · rw [if_neg (by omega), if_neg (by omega), if_neg (by omega),
            h.low.2 j q (by omega) q.2, h.low.2 (j + 1) q (by omega) q.2]
          ring
  have cd : ∀ i, c'.d i = if i = j + 1 then delta else if i = j then c.d j / delta * c.d (j + 1) else c.d i :=
    fun _ => rfl
  have hQ : ltdl n c'.L c'.d = (ltdl n c.L c.d).submatrix σ σ := by
    have entry : ∀ (L : Nat → Nat → K) (d : Nat → K) (p q : Fin n), ltdl n L d p q =
        ∑ r : Fin n, L r p * d r * L r q := by
      intro L d p q
      unfold ltdl
      rw [Matrix.mul_apply]
      refine Finset.sum_congr rfl fun r _ => ?_
      rw [Matrix.mul_diagonal]
      rfl
    ext p q
    rw [submatrix_apply, entry, entry]
    rw [← Finset.add_sum_erase _ _ (Finset.mem_univ a), ← Finset.add_sum_erase _ _ (Finset.mem_erase.2 ⟨hab.symm, Finset.mem_univ b⟩),
      ← Finset.add_sum_erase univ (fun r : Fin n => c.L r (σ p) * c.d r * c.L r (σ q)) (Finset.mem_univ a),
      ← Finset.add_sum_erase _ (fun r : Fin n => c.L r (σ p) * c.d r * c.L r (σ q)) (Finset.mem_erase.2 ⟨hab.symm, Finset.mem_univ b⟩),
      ← add_assoc, ← add_assoc]
    congr 1
    · show c'.L j p * c'.d j * c'.L j q + c'.L (j + 1) p * c'.d (j + 1) * c'.L (j + 1) q =
        c.L j (σ p) * c.d j * c.L j (σ q) + c.L (j + 1) (σ p) * c.d (j + 1) * c.L (j + 1) (σ q)
      rw [rowA, rowA, rowB, rowB, cd, cd, if_neg (by omega), if_pos rfl, if_pos rfl]
      generalize c.L j (σ p) = x
      generalize c.L j (σ q) = x'
      generalize c.L (j + 1) (σ p) = y
      generalize c.L (j + 1) (σ q) = y'
      field_simp
      rw [hdel]
      ring
    · refine Finset.sum_congr rfl fun r hr => ?_
      rw [Finset.mem_erase, Finset.mem_erase] at hr
      have h1 : (r : Nat) ≠ j := fun x => hr.2.1 ((fa r).2 x)
      have h2 : (r : Nat) ≠ j + 1 := fun x => hr.1 ((fb r).2 x)
      rw [rowO r r.2 h1 h2, rowO r r.2 h1 h2, cd, if_neg h2, if_neg h1]
  have hZ : zmat n c'.Z = (zmat n c.Z).submatrix id σ := by
    ext p q
    show c'.Z p q = c.Z p (σ q)
    show ite ((q : Nat) = j) (c.Z p (j + 1)) (ite ((q : Nat) = j + 1) (c.Z p j) (c.Z p q)) = _
    by_cases e : q = a
    · rw [if_pos ((fa q).1 e), e, sa]
    · rw [if_neg (fun x => e ((fa q).2 x))]
      by_cases e' : q = b
      · rw [if_pos ((fb q).1 e'), e', sb]
      · rw [if_neg (fun x => e' ((fb q).2 x)), so q e e']
  refine ⟨⟨fun i hi => ?_, fun i q hiq hq => ?_⟩, fun i hi => ?_, ?_, ?_⟩
  · by_cases e : i = j
    · rw [e, rowA a, sa]
      show -l * c.L j (j + 1) + c.L (j + 1) (j + 1) = 1
      rw [ljz, lj1]; ring
    · by_cases e' : i = j + 1
      · rw [e', rowB b, sb]
        show c.d j / delta * c.L j j + c.d (j + 1) * l / delta * c.L (j + 1) j = 1
        rw [lj, ← hl]
        field_simp
        rw [hdel]; ring
      · rw [rowO i hi e e' ⟨i, hi⟩, so ⟨i, hi⟩ (fun x => e ((fa _).1 x)) (fun x => e' ((fb _).1 x))]
        exact h.low.1 i hi
  · rw [cL]
    split_ifs with g1 g2 g3 g4 g5
    · omega
    · omega
    · omega
    · exact h.low.2 _ _ (by omega) hj
    · exact h.low.2 _ _ (by omega) hjn
    · exact h.low.2 _ _ hiq hq
  · rw [cd]
    split_ifs
    · exact dp
    · exact mul_pos (div_pos d0 dp) d1
    · exact h.pos i hi
  · rw [hQ, h.eq, hZ]
    ext p q
    rfl
  · rw [hZ, det_permute', Equiv.Perm.sign_swap hab]
    rcases h.det with e | e <;> rw [e] <;> simp

/-! ## Termination -/

/-- the decreasing quantity -/
def phi (n : Nat) (d : Nat → K) : K := ∏ i ∈ range n, d i ^ i

/-- bounds kept by `reduction` -/
def Bnd (n : Nat) (m M : K) (c : Rd K) : Prop := ∀ i, i < n → m ≤ c.d i ∧ c.d i ≤ M

omit [FloorRing K] in
theorem phi_lower {n : Nat} {m : K} (hm : 0 < m) {d : Nat → K} (h : ∀ i, i < n → m ≤ d i) :
    phi n (fun _ => m) ≤ phi n d :=
  Finset.prod_le_prod (fun i _ => (pow_pos hm i).le) fun i hi =>
    pow_le_pow_left₀ hm.le (h i (mem_range.1 hi)) i

omit [FloorRing K] in
/-- a permutation step makes the product smaller by a fixed factor -/
theorem phi_swap {n : Nat} {m M : K} {c : Rd K} (hm : 0 < m) (hb : Bnd n m M c) {j : Nat}
    (hj : j + 1 < n)
    (hs : c.d j + c.L (j + 1) j ^ 2 * c.d (j + 1) + 1 / 10 ^ 6 < c.d (j + 1)) :
    let c' := swapCols j (c.d j + c.L (j + 1) j ^ 2 * c.d (j + 1)) c
    Bnd n m M c' ∧ phi n c'.d ≤ (1 - 1 / 10 ^ 6 / M) * phi n c.d := by
  intro c'
  have hd0 := hb j (by omega)
  have hd1 := hb (j + 1) hj
  have d0 : 0 < c.d j := hm.trans_le hd0.1
  have d1 : 0 < c.d (j + 1) := hm.trans_le hd1.1
  have hM : 0 < M := d1.trans_le hd1.2
  set delta := c.d j + c.L (j + 1) j ^ 2 * c.d (j + 1) with hdel
  have hge : c.d j ≤ delta := by have := mul_nonneg (sq_nonneg (c.L (j + 1) j)) d1.le; linarith
  have dp : 0 < delta := d0.trans_le hge
  have e6 : (0 : K) < 1 / 10 ^ 6 := by positivity
  have cd : ∀ i, c'.d i = if i = j + 1 then delta else if i = j then c.d j / delta * c.d (j + 1) else c.d i :=
    fun _ => rfl
  constructor
  · intro i hi
    rw [cd]
    split_ifs
    · exact ⟨hd0.1.trans hge, by linarith [hd1.2]⟩
    · constructor
      · refine hd0.1.trans ?_
        rw [div_mul_eq_mul_div, le_div_iff₀ dp]
        exact mul_le_mul_of_nonneg_left (by linarith) d0.le
      · refine le_trans ?_ hd1.2
        rw [div_mul_eq_mul_div, div_le_iff₀ dp, mul_comm]
        exact mul_le_mul_of_nonneg_left hge d1.le
    · exact hb i hi
  · have hphi : ∀ d : Nat → K, phi n d = d (j + 1) ^ (j + 1) * (d j ^ j *
        ∏ i ∈ ((range n).erase (j + 1)).erase j, d i ^ i) := by
      intro d
      unfold phi
      rw [Finset.mul_prod_erase _ (fun i => d i ^ i) (Finset.mem_erase.2 ⟨by omega, mem_range.2 (by omega)⟩),
        Finset.mul_prod_erase _ (fun i => d i ^ i) (mem_range.2 hj)]
    have hrest : ∏ i ∈ ((range n).erase (j + 1)).erase j, c'.d i ^ i =
        ∏ i ∈ ((range n).erase (j + 1)).erase j, c.d i ^ i := by
      refine Finset.prod_congr rfl fun i hi => ?_
      rw [Finset.mem_erase, Finset.mem_erase] at hi
      rw [cd, if_neg hi.2.1, if_neg hi.1]
    rw [hphi, hphi c.d, hrest, cd, cd, if_pos rfl, if_neg (by omega), if_pos rfl]
    have hR : 0 ≤ ∏ i ∈ ((range n).erase (j + 1)).erase j, c.d i ^ i := by
      refine Finset.prod_nonneg fun i hi => ?_
      rw [Finset.mem_erase, Finset.mem_erase, mem_range] at hi
      exact (pow_pos (hm.trans_le (hb i hi.2.2).1) i).le
    generalize ∏ i ∈ ((range n).erase (j + 1)).erase j, c.d i ^ i = R at hR
    have e1 : delta ^ (j + 1) * ((c.d j / delta * c.d (j + 1)) ^ j * R) =
        delta * (c.d (j + 1) ^ j * (c.d j ^ j * R)) := by
      rw [mul_pow, div_pow, pow_succ]
      field_simp
    have e2 : c.d (j + 1) ^ (j + 1) * (c.d j ^ j * R) =
        c.d (j + 1) * (c.d (j + 1) ^ j * (c.d j ^ j * R)) := by rw [pow_succ]; ring
    rw [e1, e2, ← mul_assoc (1 - 1 / 10 ^ 6 / M)]
    refine mul_le_mul_of_nonneg_right ?_ (mul_nonneg (pow_nonneg d1.le _) (mul_nonneg (pow_nonneg d0.le _) hR))
    have : 1 / 10 ^ 6 / M * c.d (j + 1) ≤ 1 / 10 ^ 6 := by
      rw [div_mul_eq_mul_div, div_le_iff₀ hM]
      exact mul_le_mul_of_nonneg_left hd1.2 e6.le
    linarith

/-- the columns already decorrelated -/
structure Dec (n : Nat) (c : Rd K) : Prop where
  half : ∀ q : Nat, c.j < q ∨ c.k < q → ∀ r, q < r → r < n → |c.L r q| ≤ 1 / 2
  ord : ∀ q : Nat, c.j < q → q + 1 < n →
    c.d (q + 1) ≤ c.d q + c.L (q + 1) q ^ 2 * c.d (q + 1) + 1 / 10 ^ 6

structure RdInv (n : Nat) (Q : Matrix (Fin n) (Fin n) K) (m M : K) (c : Rd K) : Prop where
  rel : Rel n Q c
  bnd : Bnd n m M c
  dec : Dec n c
  j : c.j + 1 < n

theorem rd_step {n : Nat} {Q : Matrix (Fin n) (Fin n) K} {m M : K} (hm : 0 < m) {c : Rd K}
    (h : RdInv n Q m M c) (hj : 0 ≤ c.j) :
    ∃ c', rdStep n c = some c' ∧ RdInv n Q m M c' ∧
      ((phi n c'.d ≤ (1 - 1 / 10 ^ 6 / M) * phi n c.d) ∨ (phi n c'.d = phi n c.d ∧ c'.j = c.j - 1)) := by
  unfold rdStep
  rw [if_neg (by omega)]
  obtain ⟨j, ej⟩ : ∃ j : Nat, c.j = j := ⟨c.j.toNat, by omega⟩
  have hjn : j + 1 < n := by have := h.j; omega
  have et : c.j.toNat = j := by omega
  simp only [et]
  -- after the Gauss transformations
  have hg : ∃ g : Rd K, (if c.j ≤ c.k then gaussAll n j c else c) = g ∧ Rel n Q g ∧ g.d = c.d ∧
      g.j = c.j ∧ g.k = c.k ∧ (∀ r q, q ≠ j → g.L r q = c.L r q) ∧
      ∀ r, j < r → r < n → |g.L r j| ≤ 1 / 2 := by
    by_cases e : c.j ≤ c.k
    · rw [if_pos e]; exact ⟨_, rfl, gaussAll_spec h.rel j⟩
    · rw [if_neg e]
      exact ⟨_, rfl, h.rel, rfl, rfl, rfl, fun _ _ _ => rfl, fun r h1 h2 => h.dec.half j (Or.inr (by omega)) r h1 h2⟩
  obtain ⟨g, eg, g1, g2, g3, g4, g5, g6⟩ := hg
  rw [eg]
  have gb : Bnd n m M g := by intro i hi; rw [g2]; exact h.bnd i hi
  by_cases hs : g.d j + g.L (j + 1) j ^ 2 * g.d (j + 1) + 1 / 10 ^ 6 < g.d (j + 1)
  · rw [if_pos hs]
    obtain ⟨p1, p2⟩ := phi_swap hm gb hjn hs
    have sr := swap_rel g1 hjn
    refine ⟨_, rfl, ⟨⟨sr.low, sr.pos, sr.eq, sr.det⟩, p1, ⟨fun q hq r h1 h2 => ?_, fun q hq h1 => ?_⟩, ?_⟩, Or.inl ?_⟩
    · have hq' : (n : Int) - 2 < q ∨ g.j < q := hq
      rw [g3] at hq'
      have hq2 : j < q := by omega
      show |(swapCols j (g.d j + g.L (j + 1) j ^ 2 * g.d (j + 1)) g).L r q| ≤ 1 / 2
      have e : (swapCols j (g.d j + g.L (j + 1) j ^ 2 * g.d (j + 1)) g).L r q =
          if q = j + 1 then g.L r j else g.L r q := by
        unfold swapCols
        dsimp only
        rw [if_neg (by omega), if_neg (by omega), if_neg (by omega), if_neg (by omega)]
        by_cases e : q = j + 1
        · rw [if_pos (by omega), if_pos e]
        · rw [if_neg (by omega), if_neg e]
      rw [e]
      split_ifs with e'
      · exact g6 r (by omega) h2
      · rw [g5 r q (by omega)]
        exact h.dec.half q (Or.inl (by omega)) r h1 h2
    · have hq' : (n : Int) - 2 < q := hq
      omega
    · show (n : Int) - 2 + 1 < n; omega
    · rw [← g2]; exact p2
  · rw [if_neg hs]
    refine ⟨_, rfl, ⟨⟨g1.low, g1.pos, g1.eq, g1.det⟩, gb, ⟨fun q hq r h1 h2 => ?_, fun q hq h1 => ?_⟩, ?_⟩, Or.inr ⟨by rw [← g2], ?_⟩⟩
    · have hq' : g.j - 1 < q ∨ g.k < q := hq
      rw [g3, g4] at hq'
      show |g.L r q| ≤ 1 / 2
      by_cases e : q = j
      · subst e; exact g6 r h1 h2
      · rw [g5 r q e]
        exact h.dec.half q (by omega) r h1 h2
    · have hq' : g.j - 1 < q := hq
      rw [g3] at hq'
      show g.d (q + 1) ≤ g.d q + g.L (q + 1) q ^ 2 * g.d (q + 1) + 1 / 10 ^ 6
      by_cases e : q = j
      · subst e; exact not_lt.1 hs
      · rw [g5 _ q e, g2]
        exact h.dec.ord q (by omega) h1
    · show g.j - 1 + 1 < n; have := h.j; omega
    · show g.j - 1 = c.j - 1; omega

theorem rd_ends_aux {n : Nat} {Q : Matrix (Fin n) (Fin n) K} {m M : K} (hm : 0 < m) (hM : m ≤ M) :
    ∀ s t (c : Rd K), RdInv n Q m M c → (c.j + 1).toNat ≤ t →
      phi n c.d * (max 0 (1 - 1 / 10 ^ 6 / M)) ^ s < phi n (fun _ => m) →
      ∃ c', Reach (rdStep n) c c' ∧ rdStep n c' = none ∧ RdInv n Q m M c' ∧ c'.j < 0 := by
  intro s
  induction s with
  | zero =>
    intro t c h _ hlt
    rw [pow_zero, mul_one] at hlt
    exact absurd (phi_lower hm fun i hi => (h.bnd i hi).1) (not_le.2 hlt)
  | succ s ihs =>
    intro t
    induction t with
    | zero =>
      intro c h hj _
      exact ⟨c, Reach.refl _, by unfold rdStep; rw [if_pos (by omega)], h, by omega⟩
    | succ t iht =>
      intro c h hj hlt
      by_cases hneg : c.j < 0
      · exact ⟨c, Reach.refl _, by unfold rdStep; rw [if_pos hneg], h, hneg⟩
      · obtain ⟨c', e, hi, hc⟩ := rd_step hm h (by omega)
        rcases hc with hc | ⟨hc1, hc2⟩
        · obtain ⟨c2, r, q⟩ := ihs (c'.j + 1).toNat c' hi (Nat.le_refl _) (by
            refine lt_of_le_of_lt ?_ hlt
            rw [pow_succ' (max 0 (1 - 1 / 10 ^ 6 / M)) s, ← mul_assoc]
            refine mul_le_mul_of_nonneg_right ?_ (pow_nonneg (le_max_left _ _) _)
            refine hc.trans ?_
            rw [mul_comm]
            refine mul_le_mul_of_nonneg_left (le_max_right _ _) ?_
            exact ((Finset.prod_pos fun i _ => pow_pos hm i).trans_le
              (phi_lower hm fun i hi => (h.bnd i hi).1)).le)
          exact ⟨c2, Reach.step e r, q⟩
        · obtain ⟨c2, r, q⟩ := iht c' hi (by omega) (by rw [hc1]; exact hlt)
          exact ⟨c2, Reach.step e r, q⟩

/-- `reduction` ends, with a unimodular transformation -/
theorem reduction_ends {n : Nat} {L : Nat → Nat → K} {d : Nat → K} (hL : UnitLower n L)
    (hd : ∀ i, i < n → 0 < d i) (hn : 0 < n) :
    ∃ (c : Rd K) (fuel : Nat), Rel n (ltdl n L d) c ∧ Dec n c ∧ c.j < 0 ∧
      ∀ fuel', fuel ≤ fuel' → reduction n L d fuel' = some c := by
  have hne : (range n).Nonempty := ⟨0, mem_range.2 hn⟩
  obtain ⟨a, ha, hmin⟩ := (range n).exists_min_image d hne
  obtain ⟨b, hb, hmax⟩ := (range n).exists_max_image d hne
  have hm : 0 < d a := hd a (mem_range.1 ha)
  have hM : d a ≤ d b := hmax a ha
  set c0 : Rd K := { L := L, d := d, Z := fun i j => if i = j then 1 else 0, j := (n : Int) - 2, k := (n : Int) - 2 } with hc0
  have hz : zmat n c0.Z = 1 := by
    ext p q
    show ite ((p : Nat) = q) (1 : Int) 0 = _
    rw [Matrix.one_apply]
    simp only [Fin.ext_iff]
  have h0 : RdInv n (ltdl n L d) (d a) (d b) c0 := by
    refine ⟨⟨hL, hd, ?_, Or.inl (by rw [hz, det_one])⟩, fun i hi => ⟨hmin i (mem_range.2 hi), hmax i (mem_range.2 hi)⟩,
      ⟨fun q hq r h1 h2 => ?_, fun q hq h1 => ?_⟩, ?_⟩
    · rw [hz]
      unfold toK
      rw [Matrix.map_one _ (map_zero _) (map_one _), transpose_one, Matrix.one_mul, Matrix.mul_one]
    · have : (n : Int) - 2 < q ∨ (n : Int) - 2 < q := hq
      omega
    · have : (n : Int) - 2 < q := hq
      omega
    · show (n : Int) - 2 + 1 < n; omega
  have hlt1 : max 0 (1 - 1 / 10 ^ 6 / d b) < 1 := by
    refine max_lt one_pos ?_
    have : (0 : K) < 1 / 10 ^ 6 / d b := div_pos (by positivity) (hm.trans_le hM)
    linarith
  have hphi : 0 < phi n d := Finset.prod_pos fun i hi => pow_pos (hd i (mem_range.1 hi)) i
  have hphim : 0 < phi n (fun _ => d a) := Finset.prod_pos fun i _ => pow_pos hm i
  obtain ⟨s, hs⟩ := exists_pow_lt_of_lt_one (div_pos hphim hphi) hlt1
  obtain ⟨c, r, e, hi, hj⟩ := rd_ends_aux hm hM s (c0.j + 1).toNat c0 h0 (Nat.le_refl _) (by
    rw [lt_div_iff₀ hphi] at hs
    rw [mul_comm]
    exact hs)
  obtain ⟨fuel, hf⟩ := r.iter e
  exact ⟨c, fuel, hi.rel, hi.dec, hj, fun fuel' hle => iter_mono hf fuel' hle⟩

end Verif.Lambda
