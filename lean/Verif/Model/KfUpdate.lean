import Verif.Py
import Mathlib.LinearAlgebra.Matrix.NonsingularInverse
/-!
Model of `kfupdate` (`src/cssrlib/gnss.py` lines 1343-1364).

Numbers are exact rationals.  `np.linalg.inv` is Mathlib's matrix inverse; a singular
innovation matrix raises (`LinAlgError`, here `zeroDivision`).
-/

namespace Verif.KfUpdate
open Matrix

variable {n m : Nat}

/-- `ix`: indices with positive variance, in increasing order (lines 1346-1349) -/
def active (P : Matrix (Fin n) (Fin n) ℚ) : List (Fin n) :=
  (List.finRange n).filter (fun i => 0 < P i i)

/-- fancy-index assignment `x[ix] = v`, element by element -/
def assign {α : Type} (x : Fin n → α) (ix : List (Fin n)) (v : Fin ix.length → α) : Fin n → α :=
  (List.finRange ix.length).foldl (fun y j => Function.update y (ix.get j) (v j)) x

/-- result of the update -/
structure Result (n m : Nat) where
  x : Fin n → ℚ
  P : Matrix (Fin n) (Fin n) ℚ
  S : Matrix (Fin m) (Fin m) ℚ

/-- `kfupdate(x, P, H, v, R)` -/
noncomputable def kfupdate (x : Fin n → ℚ) (P : Matrix (Fin n) (Fin n) ℚ)
    (H : Matrix (Fin m) (Fin n) ℚ) (v : Fin m → ℚ) (R : Matrix (Fin m) (Fin m) ℚ) :
    Py (Result n m) :=
  let ix := active P
  let x_ : Fin ix.length → ℚ := fun a => x (ix.get a)
  let P_ := P.submatrix ix.get ix.get
  let H_ := H.submatrix id ix.get
  let PHt := P_ * H_ᵀ
  let S := H_ * PHt + R
  if S.det = 0 then .error .zeroDivision
  else
    let K := PHt * S⁻¹
    let x_ := fun a => x_ a + K.mulVec v a
    let P_ := P_ - K * H_ * P_
    let x' := assign x ix x_
    -- sP = P[ix, :]; sP[:, ix] = P_
    let sP : Fin ix.length → Fin n → ℚ :=
      fun a => assign (fun c => P (ix.get a) c) ix (fun b => P_ a b)
    -- P[ix, :] = sP
    .ok ⟨x', Matrix.of (assign (fun i j => P i j) ix sP), S⟩

end Verif.KfUpdate
