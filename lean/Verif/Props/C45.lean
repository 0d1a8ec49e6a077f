import Verif.Model.Peph
import Mathlib.LinearAlgebra.Lagrange
/-!
# C45 Precise-orbit interpolation is exact on polynomials
-/

namespace Verif.C45
open Verif.Peph Polynomial

variable {K : Type} [Field K]

/-! ## The recurrence -/

/-- one pass, cell by cell -/
theorem interpPass_eq (x : Nat → K) (j : Nat) (y : Nat → K) : ∀ m k,
    interpPass x j m y k =
      if k < m then (x (k + j) * y k - x k * y (k + 1)) / (x (k + j) - x k) else y k := by
  intro m
  induction m with
  | zero => intro k; rfl
  | succ m ih =>
    intro k
    unfold interpPass
    rw [List.range_succ, List.foldl_append]
    show (fun y' k => if k = m then (x (m + j) * y' m - x m * y' (m + 1)) / (x (m + j) - x m) else y' k)
      (interpPass x j m y) k = _
    simp only
    by_cases c : k = m
    · subst c
      rw [if_pos rfl, if_pos (by omega), ih, ih, if_neg (by omega), if_neg (by omega)]
    · rw [if_neg c, ih]
      by_cases c2 : k < m
      · rw [if_pos c2, if_pos (by omega)]
      · rw [if_neg c2, if_neg (by omega)]

/-- value at zero of the polynomial through the nodes `i .. i+j` -/
noncomputable def through (x y : Nat → K) (i j : Nat) : K :=
  (Lagrange.interpolate (Finset.Icc i (i + j)) x y).eval 0

theorem through_zero (x y : Nat → K) (i : Nat) : through x y i 0 = y i := by
  unfold through
  rw [Nat.add_zero, Finset.Icc_self, Lagrange.interpolate_singleton, eval_C]

theorem through_step {x : Nat → K} (y : Nat → K) {n i j : Nat} (hx : Set.InjOn x {k | k < n}) (h : i + j + 1 < n) :
    through x y i (j + 1) = (x (i + (j + 1)) * through x y i j - x i * through x y (i + 1) j) /
      (x (i + (j + 1)) - x i) := by
  have hne : x (i + (j + 1)) ≠ x i := by
    intro e
    have := hx (show i + (j + 1) < n by omega) (show i < n by omega) e
    omega
  have hs : Set.InjOn x (Finset.Icc i (i + (j + 1)) : Finset Nat) := by
    intro a ha b hb e
    rw [Finset.mem_coe, Finset.mem_Icc] at ha hb
    exact hx (show a < n by omega) (show b < n by omega) e
  have e1 : (Finset.Icc i (i + (j + 1))).erase (i + (j + 1)) = Finset.Icc i (i + j) := by
    ext a; simp only [Finset.mem_erase, Finset.mem_Icc]; omega
  have e2 : (Finset.Icc i (i + (j + 1))).erase i = Finset.Icc (i + 1) (i + 1 + j) := by
    ext a; simp only [Finset.mem_erase, Finset.mem_Icc]; omega
  have key := Lagrange.interpolate_eq_add_interpolate_erase (r := y) hs
    (i := i) (j := i + (j + 1)) (by simp) (by simp) (by omega)
  rw [e1, e2] at key
  unfold through
  rw [key]
  simp only [eval_add, eval_mul, Lagrange.basisDivisor, eval_C, eval_sub, eval_X, zero_sub]
  have h1 : x (i + (j + 1)) - x i ≠ 0 := sub_ne_zero.2 hne
  have h2 : x i - x (i + (j + 1)) ≠ 0 := sub_ne_zero.2 (Ne.symm hne)
  rw [show x i - x (i + (j + 1)) = -(x (i + (j + 1)) - x i) by ring, inv_neg]
  field_simp
  ring

/-- after the passes `1 .. j` the cells `i < n-j` hold the partial interpolations -/
theorem passes {x : Nat → K} (y : Nat → K) {n : Nat} (hx : Set.InjOn x {k | k < n}) : ∀ j, j < n → ∀ i, i + j < n →
    ((List.range' 1 j).foldl (fun y j => interpPass x j (n - j) y) y) i = through x y i j := by
  intro j
  induction j with
  | zero => intro _ i _; rw [through_zero]; rfl
  | succ j ih =>
    intro hj i hi
    have hr : List.range' 1 (j + 1) = List.range' 1 j ++ [1 + j] := List.range'_1_concat
    rw [hr, List.foldl_append, List.foldl_cons, List.foldl_nil, interpPass_eq, if_pos (by omega),
      ih (by omega) i (by omega), ih (by omega) (i + 1) (by omega),
      through_step y hx (by omega), Nat.add_comm 1 j]

/-! ## Theorems -/

/-- **Interpolation**: for distinct node times the result is the value at the requested epoch
(time 0 in the shifted scale) of the polynomial through the nodes. -/
theorem interppol_eq (x y : Nat → K) (n : Nat) (hn : 0 < n) (hx : Set.InjOn x {k | k < n}) :
    interppol x y n = (Lagrange.interpolate (Finset.range n) x y).eval 0 := by
  unfold interppol
  rw [passes y hx (n - 1) (by omega) 0 (by omega)]
  unfold through
  have : Finset.Icc 0 (0 + (n - 1)) = Finset.range n := by
    ext a; simp only [Finset.mem_Icc, Finset.mem_range]; omega
  rw [this]

/-- **Exactness**: a polynomial of degree below the number of nodes is reproduced, whatever the
(distinct) node times. -/
theorem exact_on_polynomials (p : K[X]) (x y : Nat → K) (n : Nat) (hn : 0 < n) (hx : Set.InjOn x {k | k < n})
    (hp : p.degree < n) (hy : ∀ k, k < n → y k = p.eval (x k)) : interppol x y n = p.eval 0 := by
  rw [interppol_eq x y n hn hx]
  congr 1
  refine (Lagrange.eq_interpolate_of_eval_eq y (s := Finset.range n) (v := x) ?_ ?_ ?_).symm
  · intro a ha b hb e
    exact hx (by simpa using ha) (by simpa using hb) e
  · rw [Finset.card_range]; exact hp
  · intro i hi
    exact (hy i (by simpa using hi)).symm

/-- a node exactly at the requested epoch is returned as it is -/
theorem at_node (x y : Nat → K) (n k : Nat) (hk : k < n) (hx : Set.InjOn x {k | k < n}) (h0 : x k = 0) :
    interppol x y n = y k := by
  rw [interppol_eq x y n (by omega) hx, ← h0]
  refine Lagrange.eval_interpolate_at_node y ?_ (by simpa using hk)
  intro a ha b hb e
  exact hx (by simpa using ha) (by simpa using hb) e

/-- the interpolation is linear in the node values -/
theorem linear (x y y' : Nat → K) (c : K) (n : Nat) (hn : 0 < n) (hx : Set.InjOn x {k | k < n}) :
    interppol x (fun k => c * y k + y' k) n = c * interppol x y n + interppol x y' n := by
  rw [interppol_eq x _ n hn hx, interppol_eq x _ n hn hx, interppol_eq x _ n hn hx]
  have : (fun k => c * y k + y' k) = c • y + y' := rfl
  rw [this, map_add, map_smul, eval_add, eval_smul, smul_eq_mul]

/-- only the first `n` values matter -/
theorem only_nodes (x y y' : Nat → K) (n : Nat) (hn : 0 < n) (hx : Set.InjOn x {k | k < n})
    (h : ∀ k, k < n → y k = y' k) : interppol x y n = interppol x y' n := by
  rw [interppol_eq x _ n hn hx, interppol_eq x _ n hn hx,
    Lagrange.interpolate_eq_of_values_eq_on y y' (by intro i hi; exact h i (by simpa using hi))]

/-! ## Concrete case: a cubic on unevenly spaced nodes -/

def exX : Nat → ℚ
  | 0 => -3
  | 1 => -1
  | 2 => 2
  | _ => 7

example : interppol exX (fun k => exX k ^ 3 - 2 * exX k + 5) 4 = 5 := by decide +kernel
example : Set.InjOn exX {k | k < 4} := by
  intro a ha b hb e
  have : ∀ a < 4, ∀ b < 4, exX a = exX b → a = b := by decide +kernel
  exact this a ha b hb e

end Verif.C45
