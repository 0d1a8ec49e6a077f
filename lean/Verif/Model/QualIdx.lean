import Verif.Model.Cssr
import Mathlib.Analysis.SpecialFunctions.Log.Basic
/-!
# Quality index

Model of `cssre.quality2qi` (`src/cssrlib/cssrlib.py`), with real numbers in place of floats: at a value that lies exactly on a
level of the index, rounding of the logarithm may give the level below, which is not modelled.
-/
namespace Verif.QualIdx
open Verif

/-- `int(x)`: cut towards zero -/
noncomputable def trunc (x : ℝ) : Int := if 0 ≤ x then ⌊x⌋ else -⌊-x⌋

/-- `quality2qi(y)`: cssrlib.py lines 1504-1510.  The logarithm of a negative number is NaN, that of zero is minus infinity: `int`
raises. -/
noncomputable def quality2qi (y : ℝ) : Py (Int × Int) :=
  if y * 1000 + 1 < 0 then .error .valueError
  else if y * 1000 + 1 = 0 then .error .overflow
  else
    let n3 := Real.log 3
    let n := Real.log (y * 1000 + 1) / n3
    let cls := trunc n
    .ok (cls, trunc ((Real.exp ((n - cls) * n3) - 1) / (1 / 4)))

end Verif.QualIdx
