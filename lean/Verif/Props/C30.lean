import Verif.Lemmas.Mlambda
/-!
# C30 Ambiguity decorrelation is an exact integer change of variables
-/

namespace Verif.C30
open Verif.Lambda Finset Matrix
variable {K : Type} [Field K] [LinearOrder K] [IsStrictOrderedRing K] [FloorRing K]

/-- the factorisation accepted by `ldldecom` is exact -/
theorem ldldecom_exact {n : Nat} {Q L : Nat → Nat → ℝ} {d : Nat → ℝ}
    (hs : ∀ i j, i < n → j < n → Q i j = Q j i) (h : ldldecom n Q = .ok (L, d)) :
    mat n Q = ltdl n L d ∧ UnitLower n L ∧ ∀ i, i < n → 1 / 10 ^ 10 ≤ d i :=
  ldldecom_sound hs h

/-- and found whenever there is one; so `ldldecom` raises exactly for the other matrices -/
theorem ldldecom_finds {n : Nat} {Q L : Nat → Nat → ℝ} {d : Nat → ℝ}
    (hQ : mat n Q = ltdl n L d) (hL : UnitLower n L) (hd : ∀ i, i < n → 1 / 10 ^ 10 ≤ d i) :
    ∃ L' d', ldldecom n Q = .ok (L', d') ∧ (∀ i, i < n → d' i = d i) ∧
      ∀ i j, i < n → j < n → L' i j = L i j :=
  ldldecom_complete hQ hL hd

/-- `reduction` ends; the integer matrix has determinant ±1; the new factors are again of the same
form and belong to the transformed covariance `Zᵀ Q Z`; and the result is decorrelated: every
off-diagonal entry is at most 1/2 and neighbouring conditional variances are in order up to
`10^-6` -/
theorem reduction_unimodular {n : Nat} {L : Nat → Nat → K} {d : Nat → K} (hL : UnitLower n L)
    (hd : ∀ i, i < n → 0 < d i) (hn : 0 < n) :
    ∃ c : Rd K, (∃ fuel, ∀ fuel', fuel ≤ fuel' → reduction n L d fuel' = some c) ∧
      ((zmat n c.Z).det = 1 ∨ (zmat n c.Z).det = -1) ∧
      ltdl n c.L c.d = (toK K (zmat n c.Z))ᵀ * ltdl n L d * toK K (zmat n c.Z) ∧
      UnitLower n c.L ∧ (∀ i, i < n → 0 < c.d i) ∧
      (∀ q r, q < r → r < n → |c.L r q| ≤ 1 / 2) ∧
      ∀ q, q + 1 < n → c.d (q + 1) ≤ c.d q + c.L (q + 1) q ^ 2 * c.d (q + 1) + 1 / 10 ^ 6 := by
  obtain ⟨c, fuel, h1, h2, h3, h4⟩ := reduction_ends hL hd hn
  exact ⟨c, ⟨fuel, h4⟩, h1.det, h1.eq, h1.low, h1.pos,
    fun q r hq hr => h2.half q (Or.inl (by omega)) r hq hr, fun q hq => h2.ord q (by omega) hq⟩

/-- with a unimodular matrix the integer vectors of both problems correspond one to one … -/
theorem one_to_one {n : Nat} {Z : Matrix (Fin n) (Fin n) Int} (h : Z.det = 1 ∨ Z.det = -1) :
    Function.Bijective fun v : Fin n → Int => Zᵀ *ᵥ v := by
  obtain ⟨W, h1, h2⟩ := zinv h
  constructor
  · intro v w e
    have e' := congrArg (fun u => W *ᵥ u) e
    simp only [mulVec_mulVec, h2, one_mulVec] at e'
    exact e'
  · intro v
    exact ⟨W *ᵥ v, by simp only [mulVec_mulVec, h1, one_mulVec]⟩

omit [LinearOrder K] [IsStrictOrderedRing K] [FloorRing K] in
/-- … with the same distance -/
theorem same_distance {n : Nat} {Q : Matrix (Fin n) (Fin n) K} {Z : Matrix (Fin n) (Fin n) Int}
    (h : Z.det = 1 ∨ Z.det = -1) (a : Fin n → K) (v : Fin n → Int) :
    sqdist ((toK K Z)ᵀ * Q * toK K Z) ((toK K Z)ᵀ *ᵥ a) (Zᵀ *ᵥ v) = sqdist Q a v :=
  sqdist_change h a v

/-- the vector and the inverse used by `mlambda` are these: the decorrelated float vector is
`Zᵀ ahat`, and the rounded inverse is the exact inverse of `Zᵀ` -/
theorem mlambda_transforms {n : Nat} {Z : Nat → Nat → Int} (ahat : Nat → ℝ)
    (h : (zmat n Z).det = 1 ∨ (zmat n Z).det = -1) :
    vec n (ztA n Z ahat) = (toK ℝ (zmat n Z))ᵀ *ᵥ vec n ahat ∧
    (toK ℝ (zmat n Z))ᵀ * invZt n Z = 1 ∧ invZt n Z * (toK ℝ (zmat n Z))ᵀ = 1 := by
  obtain ⟨W, h1, h2⟩ := zinv h
  rw [invZt_eq h1, ← toK_transpose, ← toK_mul, ← toK_mul, h1, h2, toK_one]
  exact ⟨vec_ztA n Z ahat, rfl, rfl⟩

/-! ## Concrete cases -/

def exL : Nat → Nat → ℚ := fun i j =>
  if i = j then 1 else if i = 1 ∧ j = 0 then 17 / 10 else if j < i then -4 / 3 else 0
def exD : Nat → ℚ := fun i => if i = 0 then 1 / 25 else if i = 1 then 2 else 9

/-- the hypotheses hold for a three-dimensional problem … -/
example : UnitLower 3 exL ∧ ∀ i, i < 3 → 0 < exD i :=
  ⟨⟨fun i _ => by simp [exL], fun i j h1 h2 => by
    unfold exL; rw [if_neg (by omega), if_neg (by omega), if_neg (by omega)]⟩, by decide +kernel⟩

/-- … on which permutations and Gauss steps happen -/
example : (reduction 3 exL exD 100).map (fun c => (List.range 3).map fun i => (List.range 3).map (c.Z i)) ≠
    some [[1, 0, 0], [0, 1, 0], [0, 0, 1]] := by decide +kernel

/-- a factorisation with the accepted diagonal -/
example : ∃ (Q L : Nat → Nat → ℝ) (d : Nat → ℝ), mat 2 Q = ltdl 2 L d ∧ UnitLower 2 L ∧
    ∀ i, i < 2 → 1 / 10 ^ 10 ≤ d i := by
  let L : Nat → Nat → ℝ := fun i j => if i = j then 1 else if j < i then 1 / 2 else 0
  refine ⟨fun i j => ∑ r ∈ range 2, L r i * 3 * L r j, L, fun _ => 3, ?_, ⟨fun i _ => by simp [L],
    fun i j h1 h2 => ?_⟩, fun i _ => by norm_num⟩
  · ext p q
    rw [ltdl_entry]
    rfl
  · show ite _ _ _ = _
    rw [if_neg (by omega), if_neg (by omega)]

end Verif.C30
