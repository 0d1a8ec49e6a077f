import Verif.Py
import Mathlib.Analysis.SpecialFunctions.Trigonometric.Basic
import Mathlib.Analysis.SpecialFunctions.Exp
/-!
# Variances of the measurements

Model of `pppos.varerr` (`src/cssrlib/pppssr.py`), `stdpos.varerr` (`src/cssrlib/pntpos.py`) and `vardgps`
(`src/cssrlib/dgps.py`) over the real numbers.  `none` stands for a result that is not a finite number (NaN or infinity).
-/
namespace Verif.MeasVar
open Verif

/-- `max(np.sin(el), 0.1*rCST.D2R)`: pppssr.py line 266, pntpos.py line 221 -/
noncomputable def sEl (el : ℝ) : ℝ := max (Real.sin el) (1 / 10 * (Real.pi / 180))

/-- `a**2+(b/s_el)**2` with the factor: pppssr.py lines 268-270, pntpos.py lines 223-225 -/
noncomputable def elVar (fact e1 e2 el : ℝ) : ℝ := (fact * e1) ^ 2 + (fact * e2 / sEl el) ^ 2

/-- `pppos.varerr(nav, el, f)`: pppssr.py lines 264-270; signals `f` from `nf` on are ranges; `e1`, `e2`: `nav.err[1]`,
`nav.err[2]` -/
noncomputable def varerrPpp (nf : Nat) (eratio : List ℝ) (e1 e2 el : ℝ) (f : Nat) : Py ℝ := do
  let fact ← if f ≥ nf then pyGet eratio (f - nf) else pure 1
  pure (elVar fact e1 e2 el)

/-- `rCST.RE_WGS84`: gnss.py line 34 -/
noncomputable def re : ℝ := 6378137

/-- obliquity factor with the height `h` of the receiver: dgps.py line 28 -/
noncomputable def obliquity (el h : ℝ) : Option ℝ :=
  if re + h = 0 then none
  else
    let q := 1 - (re * Real.cos el / (re + h)) ^ 2
    if 0 < q then some (1 / Real.sqrt q) else none

/-- `vardgps(el, nav)`: dgps.py lines 18-41; height `h` of the position in the state (`ecef2pos`), length of the baseline in km -/
noncomputable def vardgps (el h baseline : ℝ) : Option ℝ := do
  let d := el * (180 / Real.pi)
  let mp := 0.13 + 0.53 * Real.exp (-d / 10)
  let fpp ← obliquity el h
  let iono := fpp * 0.004 * (baseline + 2 * 100 * 0.07)
  let air := 0.11 ^ 2 + mp ^ 2
  let pr := (0.16 + 1.07 * Real.exp (-d / 15.5)) ^ 2 / 1 + 0.08 ^ 2
  pure (pr + air + iono ^ 2)

/-- `stdpos.varerr(nav, el, f)`: pntpos.py lines 213-226; outer exceptions, inner `none` as above -/
noncomputable def varerrStd (smode : Nat) (h baseline : ℝ) (eratio : List ℝ) (e1 e2 el : ℝ) (f : Nat) : Py (Option ℝ) :=
  if smode = 2 then .ok (vardgps el h baseline)
  else do
    let fact ← pyGet eratio f
    pure (some (elVar fact e1 e2 el))

end Verif.MeasVar
