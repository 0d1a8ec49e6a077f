import Verif.Bits
import Mathlib.Data.Rat.Floor
/-!
Model of the signed-field scaling functions: `sval` (cssrlib.py lines 484-488, cssr_has.py
31-36, cssr_bds.py 74-79, sbas.py 369-373, dgps.py 105-109) and `ival` (rtcm.py 4199-4206).

A floating-point result is an exact rational; `numpy.nan` is `none`.
-/

namespace Verif

/-- a float that may be NaN -/
abbrev Val := Option ℚ

namespace Sval

/-- `cssr.sval(u, n, scl)`: cssrlib.py lines 484-488 -/
def sval (u : Int) (n : Nat) (scl : ℚ) : Val :=
  if u = -2 ^ (n - 1) then none else some (u * scl)

/-- `cssr_has.sval`: cssr_has.py lines 31-36 -/
def svalHas (u : Int) (n : Nat) (scl : ℚ) : Val :=
  if u = -2 ^ (n - 1) ∨ u = 2 ^ (n - 1) - 1 then none else some (u * scl)

/-- `cssr_bds.sval`: cssr_bds.py lines 74-79 -/
def svalBds (u : Int) (n : Nat) (scl : ℚ) : Val :=
  if u = -2 ^ (n - 1) ∨ u = -(2 ^ (n - 1) - 1) then none else some (u * scl)

/-- `sbasDec.sval`, `dgpsDec.sval`: sbas.py lines 369-373, dgps.py lines 105-109 -/
def svalSbas (u : Int) (n : Nat) (scl : ℚ) : Val :=
  if u = 2 ^ (n - 1) - 1 then none else some (u * scl)

/-- Python `round(x)` (ties to the even neighbour) -/
def pyRound (x : ℚ) : Int :=
  let f := ⌊x⌋
  if x - f < 1 / 2 then f
  else if x - f > 1 / 2 then f + 1
  else if f % 2 = 0 then f else f + 1

/-- `rtcme.ival(y, nbit, scl)`: rtcm.py lines 4199-4206; `scl` is a non-zero literal at every
call. -/
def ival (y : Val) (nbit : Nat) (scl : ℚ) : Int :=
  match y with
  | none => -(2 ^ (nbit - 1))
  | some y => pyRound (y / scl)

/-- reading a signed field and scaling it, e.g. cssrlib.py lines 664-667 -/
def readVal (sv : Int → Nat → ℚ → Val) (b : BitBuf) (i n : Nat) (scl : ℚ) : Py Val :=
  match readS b i n with
  | .ok u => .ok (sv u n scl)
  | .error e => .error e

/-- scaling a value and writing the signed field, e.g. rtcm.py lines 4614-4622 -/
def writeVal (b : BitBuf) (i n : Nat) (scl : ℚ) (y : Val) : Py BitBuf :=
  writeS b i n (ival y n scl)

end Sval
end Verif
