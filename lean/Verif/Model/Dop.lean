import Mathlib.Analysis.SpecialFunctions.Trigonometric.Basic
import Mathlib.LinearAlgebra.Matrix.NonsingularInverse
import Mathlib.LinearAlgebra.Matrix.Notation
/-!
Model of the dilution of precision: `dops_h`, `dops` (lines 1367-1396 of `src/cssrlib/gnss.py`).

Real numbers are exact.  `np.linalg.inv` raises `LinAlgError` for singular matrices.
-/

noncomputable section

namespace Verif.Dop
open Real

inductive Res where
  /-- `None` -/
  | none
  /-- `LinAlgError` -/
  | singular
  /-- `[gdop, pdop, hdop, vdop]` -/
  | val (g p h v : ℝ)

abbrev Row := Fin 4 → ℝ

/-- `np.dot(H.T, H)` -/
def gram (H : List Row) : Matrix (Fin 4) (Fin 4) ℝ := Matrix.of fun i j => (H.map fun h => h i * h j).sum

/-- `dops_h`: lines 1367-1376 -/
def dopsH (H : List Row) : Res :=
  if (gram H).det = 0 then .singular
  else
    let dop := (gram H)⁻¹.diag
    let hdop := sqrt (dop 0 + dop 1)
    let vdop := sqrt (dop 2)
    let pdop := sqrt (dop 0 + dop 1 + dop 2)
    let gdop := sqrt (dop 0 + dop 1 + dop 2 + dop 3)
    .val gdop pdop hdop vdop

/-- lines 1387-1392 -/
def row (az el : ℝ) : Row := ![cos el * sin az, cos el * cos az, sin el, 1]

/-- the loop of `dops`: lines 1384-1393; `H` has rows of zeros from `n` on -/
def fill (elmin : ℝ) : List (ℝ × ℝ) → List Row × Nat → List Row × Nat
  | [], s => s
  | (az, el) :: l, (H, n) => fill elmin l (if el < elmin then (H, n) else (H.set n (row az el), n + 1))

/-- `dops(az, el, elmin)`: lines 1379-1396; pairs of azimuth and elevation -/
def dops (l : List (ℝ × ℝ)) (elmin : ℝ := 0) : Res :=
  let (H, n) := fill elmin l (List.replicate l.length (fun _ => 0), 0)
  if n < 4 then .none else dopsH H

end Verif.Dop
