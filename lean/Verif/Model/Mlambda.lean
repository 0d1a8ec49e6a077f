import Verif.Lemmas.Reduction
import Mathlib.Analysis.Real.Sqrt
/-!
# Model of `ldldecom` and `mlambda` (`mlambda.py`)

Real numbers for floats.  A pivot that is not positive makes Python produce NaN from then on; the
pivot itself is still recorded and the final test raises, so the values after it do not matter.
`mlambda` is modelled for `parmode=1` (full fixing, the default).
-/

namespace Verif.Lambda
open Matrix

/-- the variables of `ldldecom` -/
structure Ld where
  A : Nat → Nat → ℝ
  L : Nat → Nat → ℝ
  d : Nat → ℝ

/-- lines 33-37: the loop body for one `i` -/
noncomputable def ldlStep (c : Ld) (i : Nat) : Ld :=
  let row := fun q => if q ≤ i then c.A i q / Real.sqrt (c.A i i) else c.L i q
  { d := upd c.d i (c.A i i)
    A := fun j q => if j < i ∧ q ≤ j then c.A j q - row q * row j else c.A j q
    L := upd c.L i fun q => if q ≤ i then row q / row i else c.L i q }

/-- lines 28-37 -/
noncomputable def ldlLoop (n : Nat) (Q : Nat → Nat → ℝ) : Ld :=
  (List.range n).reverse.foldl ldlStep { A := Q, L := fun _ _ => 0, d := fun _ => 0 }

open Classical in
/-- `ldldecom(Q)`: lines 26-42 -/
noncomputable def ldldecom (n : Nat) (Q : Nat → Nat → ℝ) : Py ((Nat → Nat → ℝ) × (Nat → ℝ)) :=
  let c := ldlLoop n Q
  if ∃ i, i < n ∧ c.d i < 1 / 10 ^ 10 then .error .systemExit else .ok (c.L, c.d)

/-- `iZt = np.round(inv(Z.T))`: line 297 -/
noncomputable def invZt (n : Nat) (Z : Nat → Nat → Int) : Matrix (Fin n) (Fin n) ℝ :=
  Matrix.of fun i j => (rnd (((toK ℝ (zmat n Z))ᵀ)⁻¹ i j) : ℝ)

/-- `Z.T @ ahat` as an array: line 298 -/
noncomputable def ztA (n : Nat) (Z : Nat → Nat → Int) (ahat : Nat → ℝ) : Nat → ℝ :=
  fun i => ∑ j ∈ Finset.range n, (Z j i : ℝ) * ahat j

/-- `mlambda(ahat, Qahat, ncands, parmode=1)`: lines 289-307, 334-335; the fixed vectors (columns
of `afix_`) with `s`; `none` while a loop has not ended within `fuel` rounds.  The success rate
`Ps` is not modelled. -/
noncomputable def mlambda (n : Nat) (ahat : Nat → ℝ) (Q : Nat → Nat → ℝ) (ncands fuel : Nat) :
    Py (Option (List ((Fin n → ℝ) × ℝ))) :=
  match ldldecom n Q with
  | .error e => .error e
  | .ok (L, d) =>
    .ok ((reduction n L d fuel).bind fun c =>
      (estimILS n c.L c.d (ztA n c.Z ahat) ncands fuel).map fun r =>
        r.map fun p => (invZt n c.Z *ᵥ (fun i : Fin n => (p.1 i : ℝ)), p.2))

end Verif.Lambda
