import Verif.Model.Kepler
import Mathlib.Analysis.SpecialFunctions.Trigonometric.Arctan
import Mathlib.LinearAlgebra.Matrix.NonsingularInverse
import Mathlib.LinearAlgebra.Matrix.Notation
/-!
Model of positions and directions: `vnorm`, `geodist`, `xyz2enu`, `enu2xyz`, `ecef2pos`, `pos2ecef`, `ecef2enu`, `deg2dms`,
`satazel` (lines 1329-1340, 1399-1475, 1501-1506 of `src/cssrlib/gnss.py`).

Real numbers are exact.  Division by zero, which gives inf or nan in numpy, is total here: the theorems exclude it, except for
the latitude on the axis of the earth, which is modelled as numpy has it.
-/

noncomputable section

namespace Verif.Frame
open Real Verif.Kepler

/-- gnss.py lines 30, 34, 35 -/
def omge : ℝ := 72921151467 / 10 ^ 15
def re : ℝ := 6378137
def fe : ℝ := 1 / (298257223563 / 10 ^ 9)
/-- lines 1418, 1446 -/
def e2 : ℝ := fe * (2 - fe)

def nrm (a : V3) : ℝ := sqrt (dot a a)
def vsub (a b : V3) : V3 := ⟨a.x - b.x, a.y - b.y, a.z - b.z⟩
def vdiv (a : V3) (r : ℝ) : V3 := ⟨a.x / r, a.y / r, a.z / r⟩

/-- `vnorm`: lines 1329-1331 -/
def vnorm (r : V3) : V3 := vdiv r (nrm r)

/-- `geodist`: lines 1334-1340 -/
def geodist (rs rr : V3) : ℝ × V3 :=
  let e := vsub rs rr
  let r := nrm e
  (r + omge * (rs.x * rr.y - rs.y * rr.x) / clight, vdiv e r)

/-- `xyz2enu`: lines 1399-1408; latitude, longitude -/
def xyz2enu (lat lon : ℝ) : Matrix (Fin 3) (Fin 3) ℝ :=
  let sp := sin lat
  let cp := cos lat
  let sl := sin lon
  let cl := cos lon
  !![-sl, cl, 0; -sp * cl, -sp * sl, cp; cp * cl, cp * sl, sp]

/-- `enu2xyz`: lines 1411-1413, the inverse matrix -/
def enu2xyz (lat lon : ℝ) : Matrix (Fin 3) (Fin 3) ℝ := (xyz2enu lat lon)⁻¹

def vec (a : V3) : Fin 3 → ℝ := ![a.x, a.y, a.z]

/-- `ecef2enu`: lines 1454-1458 -/
def ecef2enu (lat lon : ℝ) (r : V3) : V3 :=
  let e := (xyz2enu lat lon).mulVec (vec r)
  ⟨e 0, e 1, e 2⟩

/-- `satazel`: lines 1501-1506; azimuth, elevation -/
def satazel (lat lon : ℝ) (e : V3) : ℝ × ℝ :=
  let enu := ecef2enu lat lon e
  (arctan2 enu.x enu.y, arcsin enu.z)

/-- the loop of `ecef2pos`: lines 1423-1430 -/
def posLoop (r2 rz : ℝ) : Nat → ℝ → ℝ → ℝ × ℝ
  | 0, z, v => (z, v)
  | n + 1, z, _ =>
    let zk := z
    let sp := z / sqrt (r2 + z ^ 2)
    let v := re / sqrt (1 - e2 * sp ^ 2)
    let z := rz + v * e2 * sp
    if |z - zk| < 1 / 10 ^ 4 then (z, v) else posLoop r2 rz n z v

/-- `np.arctan(z/q)` with `q` not negative -/
def arctanDiv (z q : ℝ) : ℝ :=
  if q = 0 then (if 0 < z then π / 2 else if z < 0 then -(π / 2) else 0) else arctan (z / q)

/-- latitude, longitude, height -/
@[ext] structure Pos where
  lat : ℝ
  lon : ℝ
  hgt : ℝ

/-- `ecef2pos`: lines 1416-1434 -/
def ecef2pos (r : V3) : Pos :=
  let r2 := r.x ^ 2 + r.y ^ 2
  let (z, v) := posLoop r2 r.z 1000 r.z re
  ⟨arctanDiv z (sqrt r2), arctan2 r.y r.x, sqrt (r2 + z ^ 2) - v⟩

/-- `pos2ecef`: lines 1437-1451; also the argument afterwards -/
def pos2ecef (pos : Pos) (isdeg : Bool := false) : V3 × Pos :=
  let pos := if isdeg then { pos with lat := pos.lat * (π / 180), lon := pos.lon * (π / 180) } else pos
  let v := re / sqrt (1 - e2 * sin pos.lat ^ 2)
  (⟨(v + pos.hgt) * cos pos.lat * cos pos.lon, (v + pos.hgt) * cos pos.lat * sin pos.lon, (v * (1 - e2) + pos.hgt) * sin pos.lat⟩, pos)

/-- `deg2dms`: lines 1461-1475 -/
def deg2dms (deg : ℝ) : ℝ × ℝ × ℝ :=
  let sign : ℝ := if deg < 0 then -1 else 1
  let a := |deg|
  let d : ℝ := ⌊a⌋
  let a := (a - d) * 60
  let m : ℝ := ⌊a⌋
  let a := (a - m) * 60
  (d * sign, m, a)

end Verif.Frame
