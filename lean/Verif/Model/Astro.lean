import Verif.Model.Time
import Mathlib.Analysis.SpecialFunctions.Trigonometric.Inverse
import Mathlib.Analysis.SpecialFunctions.Log.Basic
import Mathlib.Analysis.SpecialFunctions.Complex.Arg
import Mathlib.LinearAlgebra.Matrix.Determinant.Basic
import Mathlib.LinearAlgebra.Matrix.Notation
/-!
Model of Sun, Moon, rotation of the Earth, relativistic delay and tides: `src/cssrlib/ppp.py` lines 137-376 and the second copy in
`src/cssrlib/peph.py` lines 1108-1240.

Simplifications: floats are real numbers (rational ones for sidereal time); the arguments `f` of `ast_args` and the nutation `nut_iau1980`
(tables of numbers) are parameters, that is arbitrary functions of time; `tidedispIERS2010` (external library) is not modelled.
-/

namespace Verif.Astro
open Verif.Time Matrix

abbrev V := Fin 3 → ℝ
abbrev M := Matrix (Fin 3) (Fin 3) ℝ

/-- `Rx`: ppp.py lines 160-164 -/
noncomputable def Rx (t : ℝ) : M := !![1, 0, 0; 0, Real.cos t, Real.sin t; 0, -Real.sin t, Real.cos t]

/-- `Ry`: ppp.py lines 167-171 -/
noncomputable def Ry (t : ℝ) : M := !![Real.cos t, 0, -Real.sin t; 0, 1, 0; Real.sin t, 0, Real.cos t]

/-- `Rz`: ppp.py lines 174-178 -/
noncomputable def Rz (t : ℝ) : M := !![Real.cos t, Real.sin t, 0; -Real.sin t, Real.cos t, 0; 0, 0, 1]

/-- `np.fmod(x, y)` -/
def fmod (x y : ℚ) : ℚ := x - y * truncQ (x / y)

def J2000 : GTime := epoch2time ⟨2000, 1, 1, 12, 0, 0⟩

/-- seconds in a century: gnss.py line 44 -/
def century : ℚ := 86400 * 36525

/-- `utc2gmst(t, ut1_utc)` in seconds of sidereal time (the code multiplies by 2π/86400): ppp.py lines 181-193, peph.py lines 1117-1128 -/
def gmst (t : GTime) (ut1 : ℚ) : ℚ :=
  let ep := time2epoch (timeadd t ut1)
  let tut0 := epoch2time ⟨ep.year, ep.mon, ep.day, 0, 0, 0⟩
  let ut := ep.hour * 3600 + ep.min * 60 + ep.sec
  let t1 := timediff tut0 J2000 / century
  let gmst0 := 24110.54841 + 8640184.812866 * t1 + 0.093104 * t1 ^ 2 - 6.2e-6 * t1 ^ 3
  fmod (gmst0 + 1.002737909350795 * ut) 86400

/-- seconds of sidereal time as an angle -/
noncomputable def ang (s : ℚ) : ℝ := s * (2 * Real.pi / 86400)

noncomputable def as2r : ℝ := Real.pi / 180 / 3600

/-- nutation: angles in longitude and obliquity, and the argument `f[4]`, for the time in centuries -/
structure Nut where
  dpsi : ℝ → ℝ
  deps : ℝ → ℝ
  om : ℝ → ℝ

/-- common part of both `eci2ecef`: ppp.py lines 201-222, peph.py lines 1155-1173; `c` is the second coefficient of `ze`, which differs -/
noncomputable def matrixU (c : ℝ) (n : Nut) (t : ℝ) (gm : ℝ) (xp yp : ℝ) : M :=
  let ze := (2306.2181 * t + c * t ^ 2 + 0.017998 * t ^ 3) * as2r
  let th := (2004.3109 * t - 0.42665 * t ^ 2 - 0.041833 * t ^ 3) * as2r
  let z := (2306.2181 * t + 1.09468 * t ^ 2 + 0.018203 * t ^ 3) * as2r
  let eps := (84381.448 - 46.8150 * t - 0.00059 * t ^ 2 + 0.001813 * t ^ 3) * as2r
  let P := Rz (-z) * Ry th * Rz (-ze)
  let N := Rx (-eps - n.deps t) * Rz (-n.dpsi t) * Rx eps
  let gast := gm + n.dpsi t * Real.cos eps + (0.00264 * Real.sin (n.om t) + 0.000063 * Real.sin (2 * n.om t)) * as2r
  let W := Ry (-xp) * Rx (-yp)
  W * Rz gast * N * P

/-- `eci2ecef(tgps, erpv)` of ppp.py, lines 196-224: matrix and sidereal time -/
noncomputable def eci2ecef (n : Nut) (tgps : GTime) (xp yp : ℝ) (ut1 : ℚ) : M × ℚ :=
  let tutc := gpst2utc tgps
  let t := (timediff tgps J2000 + 19 + 32.184) / century
  let gm := gmst tutc ut1
  (matrixU 0.30188 n t (ang gm) xp yp, gm)

/-- `eci2ecef(tutc, erpv)` of peph.py, lines 1150-1175 -/
noncomputable def eci2ecefP (n : Nut) (tutc : GTime) (xp yp : ℝ) (ut1 : ℚ) : M × ℚ :=
  let tgps := utc2gpst tutc
  let t := (timediff tgps J2000 + 19 + 32.184) / century
  let gm := gmst tutc ut1
  (matrixU 0.20188 n t (ang gm) xp yp, gm)

noncomputable def rad (x : ℝ) : ℝ := x * (Real.pi / 180)

/-- distance of the Sun: ppp.py lines 237, 242, peph.py lines 1207, 1210 -/
noncomputable def sunDist (t : ℝ) : ℝ :=
  let Ms := rad (357.5277233 + 35999.05034 * t)
  149597870691 * (1.000140612 - 0.016708617 * Real.cos Ms - 0.000139589 * Real.cos (2 * Ms))

/-- the Sun in the celestial frame: ppp.py lines 233-245, peph.py lines 1205-1213 -/
noncomputable def sunEci (t : ℝ) : V :=
  let eps := rad (23.439291 - 0.0130042 * t)
  let Ms := rad (357.5277233 + 35999.05034 * t)
  let ls := rad (280.460 + 36000.770 * t + 1.914666471 * Real.sin Ms + 0.019994643 * Real.sin (2 * Ms))
  fun k => sunDist t * (![Real.cos ls, Real.cos eps * Real.sin ls, Real.sin eps * Real.sin ls] : V) k

/-- distance of the Moon: ppp.py lines 251-253, peph.py lines 1220-1221; `f` are the arguments of `ast_args` -/
noncomputable def moonDist (f : Fin 5 → ℝ) : ℝ :=
  6378137 / Real.sin (rad (0.9508 + 0.0518 * Real.cos (f 0) + 0.0095 * Real.cos (f 0 - 2 * f 3) + 0.0078 * Real.cos (2 * f 3)
    + 0.0028 * Real.cos (2 * f 0)))

/-- the Moon in the celestial frame: ppp.py lines 247-259, peph.py lines 1214-1226 -/
noncomputable def moonEci (f : Fin 5 → ℝ) (t : ℝ) : V :=
  let eps := rad (23.439291 - 0.0130042 * t)
  let lm := rad (218.32 + 481267.883 * t + 6.29 * Real.sin (f 0) - 1.27 * Real.sin (f 0 - 2 * f 3) + 0.66 * Real.sin (2 * f 3)
    + 0.21 * Real.sin (2 * f 0) - 0.19 * Real.sin (f 1) - 0.11 * Real.sin (2 * f 2))
  let pm := rad (5.13 * Real.sin (f 2) + 0.28 * Real.sin (f 0 + f 2) - 0.28 * Real.sin (f 2 - f 0) - 0.17 * Real.sin (f 2 - 2 * f 3))
  fun k => moonDist f * (![Real.cos pm * Real.cos lm, Real.cos eps * Real.cos pm * Real.sin lm - Real.sin eps * Real.sin pm,
    Real.sin eps * Real.cos pm * Real.sin lm + Real.cos eps * Real.sin pm] : V) k

/-- `sunmoonpos(tutc, erpv)` of ppp.py, lines 227-265: the matrix is computed with `eci2ecef(tutc, erpv)` -/
noncomputable def sunmoon (n : Nut) (f : ℝ → Fin 5 → ℝ) (tutc : GTime) (xp yp : ℝ) (ut1 : ℚ) : V × V × ℚ :=
  let t : ℝ := (timediff (timeadd tutc ut1) J2000 / century : ℚ)
  let U := eci2ecef n tutc xp yp ut1
  (U.1 *ᵥ sunEci t, U.1 *ᵥ moonEci (f t) t, U.2)

/-- `sunmoonpos` of peph.py, lines 1230-1240 -/
noncomputable def sunmoonP (n : Nut) (f : ℝ → Fin 5 → ℝ) (tutc : GTime) (xp yp : ℝ) (ut1 : ℚ) : V × V × ℚ :=
  let t : ℝ := (timediff (timeadd tutc ut1) J2000 / century : ℚ)
  let U := eci2ecefP n tutc xp yp ut1
  (U.1 *ᵥ sunEci t, U.1 *ᵥ moonEci (f t) t, U.2)

/-- `np.linalg.norm` -/
noncomputable def len (v : V) : ℝ := Real.sqrt (v ⬝ᵥ v)

/-- `shapiro(rsat, rrcv)`: ppp.py lines 268-274; `none` is the infinite result of a division by zero -/
noncomputable def shapiro (rsat rrcv : V) : Option ℝ :=
  let rs := len rsat
  let rr := len rrcv
  let rrs := len (rsat - rrcv)
  if rs + rr - rrs = 0 then none
  else some (2 * 3.986004415e14 / 299792458 ^ 2 * Real.log ((rs + rr + rrs) / (rs + rr - rrs)))

/-- `tide_pl(eu, rp, GMp, pos)`: ppp.py lines 315-344 -/
noncomputable def tidePl (eu rp : V) (GMp : ℝ) (lat lon : ℝ) : V :=
  let r := len rp
  let ep : V := fun k => rp k / r
  let K2 := GMp / 3.986004415e14 * 6378137 ^ 4 / r ^ 3
  let K3 := K2 * 6378137 / r
  let latp := Real.arcsin (ep 2)
  let lonp := Complex.arg ⟨ep 0, ep 1⟩
  let p := (3 * Real.sin lat ^ 2 - 1) / 2
  let H2 := 0.6078 - 0.0006 * p
  let L2 := 0.0847 + 0.0002 * p
  let a := ep ⬝ᵥ eu
  let dp := K2 * 3 * L2 * a + K3 * 0.0156 * (7.5 * a ^ 2 - 1.5)
  let dlon := lon - lonp
  let du := K2 * (H2 * (1.5 * a ^ 2 - 0.5) - 3 * L2 * a ^ 2) + K3 * a * (0.293 * (2.5 * a ^ 2 - 1.5) - 0.0156 * (7.5 * a ^ 2 - 1.5))
    + 3 / 4 * 0.0025 * K2 * Real.sin (2 * latp) * Real.sin (2 * lat) * Real.sin dlon
    + 3 / 4 * 0.0022 * K2 * (Real.cos latp * Real.cos lat) ^ 2 * Real.sin (2 * dlon)
  fun k => dp * ep k + du * eu k

/-- `solid_tide(rsun, rmoon, pos, E, gmst)`: ppp.py lines 347-366; the rows of `E` are east, north and up -/
noncomputable def solidTide (rsun rmoon : V) (lat lon : ℝ) (E : Fin 3 → V) (gm : ℝ) (flag : Bool := true) : V :=
  let eu := E 2
  let dr1 := tidePl eu rsun 1.327124e20 lat lon
  let dr2 := tidePl eu rmoon 4.902801e12 lat lon
  let du := -0.012 * Real.sin (2 * lat) * Real.sin (gm + lon)
  fun k =>
    let dr := dr1 k + dr2 k + du * eu k
    if flag then dr + (0.1196 * (1.5 * Real.sin lat ^ 2 - 0.5) * E 2 k + 0.0247 * Real.sin (2 * lat) * E 1 k) else dr

end Verif.Astro
