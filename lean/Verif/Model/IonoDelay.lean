import Verif.Py
import Verif.Model.Kepler
import Mathlib.Analysis.SpecialFunctions.Trigonometric.Inverse
import Mathlib.Algebra.Order.Floor.Ring
/-!
Model of ionospheric delays: `ionppp` (lines 1478-1498 of `src/cssrlib/gnss.py`), `ionKlobuchar`, `ionmodel` (lines 16-56 of
`src/cssrlib/pntpos.py`).

Real numbers are exact; the constants `rCST.PI` and `rCST.HALFPI`, which differ from π and π/2 by less than 1e-14, are taken as
these.  The seconds of week and the result of `ionoSBAS` (C26, C27) are arguments.
-/

noncomputable section

namespace Verif.IonoDelay
open Real Verif

/-- gnss.py line 38 -/
def d2r : ℝ := 17453292519943295 / 10 ^ 18

/-- `ap`: lines 1481-1482 -/
def central (el re hion : ℝ) : ℝ := π / 2 - el - arcsin (re / (re + hion) * cos el)

/-- the longitude is on the far side of the pole: lines 1490-1491 -/
def farSide (lat az ap : ℝ) : Prop :=
  (70 * d2r < lat ∧ tan (π / 2 - lat) < tan ap * cos az) ∨ (lat < -70 * d2r ∧ tan (π / 2 + lat) < -tan ap * cos az)

open Classical in
/-- `ionppp(pos, az, el, re, hion)`: lines 1478-1498; slant factor, latitude, longitude -/
def ionppp (lat lon az el re hion : ℝ) : Py (ℝ × ℝ × ℝ) :=
  let rp := re / (re + hion) * cos el
  let ap := central el re hion
  let latp := arcsin (sin lat * cos ap + cos lat * sin ap * cos az)
  if cos latp = 0 then .error .zeroDivision
  else
    let lonp := if farSide lat az ap then lon + π - arcsin (sin ap * sin az / cos latp)
      else lon + arcsin (sin ap * sin az / cos latp)
    if sqrt (1 - rp * rp) = 0 then .error .zeroDivision
    else .ok (1 / sqrt (1 - rp * rp), latp, lonp)

/-- the two rows of `nav.ion` -/
structure Ion where
  a : Fin 4 → ℝ
  b : Fin 4 → ℝ

/-- `h@ion[k, :]` -/
def poly (c : Fin 4 → ℝ) (x : ℝ) : ℝ := c 0 + x * c 1 + x ^ 2 * c 2 + x ^ 3 * c 3

/-- lines 18-22: geomagnetic latitude and longitude of the pierce point, in half turns -/
def psi (el : ℝ) : ℝ := 137 / 10000 / (el / π + 11 / 100) - 22 / 1000
def phiI (lat az el : ℝ) : ℝ := max (-416 / 1000) (min (416 / 1000) (lat / π + psi el * cos az))
def lamI (lat lon az el : ℝ) : ℝ := lon / π + psi el * sin az / cos (phiI lat az el * π)
def phiM (lat lon az el : ℝ) : ℝ := phiI lat az el + 64 / 1000 * cos ((lamI lat lon az el - 1617 / 1000) * π)

/-- lines 24-25 -/
def localTime (lam tow : ℝ) : ℝ :=
  let tt := 43200 * lam + tow
  tt - ⌊tt / 86400⌋ * 86400

/-- line 26 -/
def slant (el : ℝ) : ℝ := 1 + 16 * (53 / 100 - el / π) ^ 3

/-- lines 28-35 -/
def vertical (ion : Ion) (phi tt : ℝ) : ℝ :=
  let amp := max (poly ion.a phi) 0
  let per := max (poly ion.b phi) 72000
  let x := 2 * π * (tt - 50400) / per
  if |x| < 157 / 100 then 5 / 10 ^ 9 + amp * (1 + x * x * (-(1 / 2) + x * x / 24)) else 5 / 10 ^ 9

/-- `ionKlobuchar`: lines 16-37 -/
def ionKlobuchar (tow lat lon az el : ℝ) (ion : Ion) : ℝ :=
  Kepler.clight * slant el * vertical ion (phiM lat lon az el) (localTime (lamI lat lon az el) tow)

inductive Model where
  | klobuchar
  | sbas
  | none
  deriving DecidableEq

open Classical in
/-- `ionmodel`: lines 40-56; `klob` the result of `ionKlobuchar`, `iodi` of the corrections if there are any, `sbas` what
`ionoSBAS` returns -/
def ionmodel (m : Model) (klob : ℝ) (iodi : Option Int) (sbas : Option (ℝ × ℝ)) : Py ℝ :=
  match m with
  | .klobuchar => .ok klob
  | .sbas =>
    match iodi with
    | Option.none => .ok klob
    | some i =>
      if i < 0 then .ok klob
      else
        match sbas with
        | Option.none => .error .typeError
        | some (d, _) => .ok (if d = 0 then klob else d)
  | .none => .ok 0

end Verif.IonoDelay
