import Verif.Model.Sat
import Mathlib.Analysis.SpecialFunctions.Trigonometric.Basic
import Mathlib.Analysis.SpecialFunctions.Complex.Arg
/-!
Model of the evaluation of broadcast ephemerides: `dtadjust`, `eccentricAnomaly`, `sys2MuOmega`, `eph2pos`, `eph2clk`,
`eph2rel` and `alm2pos` (lines 45-52, 129-258, 878-914 of `src/cssrlib/ephemeris.py`).

Real numbers are exact.  Times are seconds of one scale, their difference (`timediff`, C04) is subtraction.  The number of the
satellite enters by constellation and PRN.
-/

noncomputable section

namespace Verif.Kepler
open Real Verif.Sat

/-- a vector -/
@[ext] structure V3 where
  x : ℝ
  y : ℝ
  z : ℝ

def dot (a b : V3) : ℝ := a.x * b.x + a.y * b.y + a.z * b.z
/-- `x*p + y*q` (`xo@np.array([p, q])`) -/
def comb (a : ℝ) (p : V3) (b : ℝ) (q : V3) : V3 := ⟨a * p.x + b * q.x, a * p.y + b * q.y, a * p.z + b * q.z⟩
def V3.add (a b : V3) : V3 := ⟨a.x + b.x, a.y + b.y, a.z + b.z⟩

/-- `Eph` (gnss.py lines 710-761): the fields used -/
structure Eph where
  sys : Sys
  prn : Int
  mode : Nat := 0
  A : ℝ
  e : ℝ
  M0 : ℝ
  deln : ℝ
  delnd : ℝ := 0
  Adot : ℝ := 0
  OMG0 : ℝ
  OMGd : ℝ
  omg : ℝ
  i0 : ℝ
  idot : ℝ
  cuc : ℝ
  cus : ℝ
  crc : ℝ
  crs : ℝ
  cic : ℝ
  cis : ℝ
  toe : ℝ
  toes : ℝ
  toc : ℝ
  af0 : ℝ
  af1 : ℝ
  af2 : ℝ

/-- gnss.py lines 21-33, 85-86 -/
def clight : ℝ := 299792458
def muGps : ℝ := 398600500000000
def muGal : ℝ := 398600441800000
def omgeGps : ℝ := 72921151467 / 10 ^ 15
def omgeBds : ℝ := 7292115 / 10 ^ 11
def cos5 : ℝ := 9961946980917456 / 10 ^ 16
def sin5 : ℝ := -871557427476582 / 10 ^ 16

/-- `dtadjust`: lines 45-52 -/
def dtadjust (t1 t2 : ℝ) : ℝ :=
  let dt := t1 - t2
  if 604800 < dt then dt - 604800
  else if dt < -604800 then dt + 604800
  else dt

/-- the loop of `eccentricAnomaly`: lines 134-139; `n` iterations left -/
def eccLoop (M e : ℝ) : Nat → ℝ → ℝ → ℝ × ℝ
  | 0, E, sE => (E, sE)
  | n + 1, E, _ =>
    let s := sin E
    let E' := M + e * s
    if |E - E'| < 1 / 10 ^ 12 then (E', s) else eccLoop M e n E' s

/-- `eccentricAnomaly(M, e)`: lines 129-141 -/
def eccentricAnomaly (M e : ℝ) : ℝ × ℝ := eccLoop M e 10 M 0

/-- `sys2MuOmega`: lines 144-154 -/
def muOf : Sys → ℝ
  | .gal => muGal
  | .bds => muGal
  | _ => muGps
def omgeOf : Sys → ℝ
  | .gal => omgeGps
  | .bds => omgeBds
  | _ => omgeGps

/-- `np.arctan2` -/
def arctan2 (y x : ℝ) : ℝ := Complex.arg ⟨x, y⟩

/-- lines 162-168: mean motion, semi-major axis at the time -/
def meanMotion (k : Eph) (dt : ℝ) : ℝ :=
  sqrt (muOf k.sys / k.A ^ 3) + (if 0 < k.mode then k.deln + 1 / 2 * dt * k.delnd else k.deln)
def axis (k : Eph) (dt : ℝ) : ℝ := if 0 < k.mode then k.A + dt * k.Adot else k.A

/-- line 169 -/
def meanAnomaly (k : Eph) (dt : ℝ) : ℝ := k.M0 + meanMotion k dt * dt

/-- orbit at one time: distance, argument of latitude, inclination -/
structure Elem where
  phi : ℝ
  r : ℝ
  u : ℝ
  inc : ℝ

/-- lines 176-189 -/
def elem (k : Eph) (dt E sE : ℝ) : Elem :=
  let nus := sqrt (1 - k.e ^ 2) * sE
  let nuc := cos E - k.e
  let nue := 1 - k.e * cos E
  let phi := arctan2 nus nuc + k.omg
  let c2 := cos (2 * phi)
  let s2 := sin (2 * phi)
  { phi := phi
    u := phi + (k.cuc * c2 + k.cus * s2)
    r := axis k dt * nue + (k.crc * c2 + k.crs * s2)
    inc := k.i0 + k.idot * dt + (k.cic * c2 + k.cis * s2) }

/-- line 193: BeiDou GEO -/
def isGeo (k : Eph) : Bool := k.sys = .bds && (k.prn ≤ 5 || k.prn ≥ 59)

/-- lines 194, 207: longitude of the ascending node -/
def node (k : Eph) (dt : ℝ) : ℝ :=
  if isGeo k then k.OMG0 + k.OMGd * dt - omgeOf k.sys * k.toes
  else k.OMG0 + k.OMGd * dt - omgeOf k.sys * (k.toes + dt)

/-- lines 197-198, 210-211 -/
def axisP (om : ℝ) : V3 := ⟨cos om, sin om, 0⟩
def axisQ (om i : ℝ) : V3 := ⟨-cos i * sin om, cos i * cos om, sin i⟩

/-- lines 200-205 -/
def rotGeo (a : ℝ) (g : V3) : V3 :=
  let so := sin a
  let co := cos a
  ⟨co * g.x + so * cos5 * g.y + so * sin5 * g.z,
   -so * g.x + co * cos5 * g.y + co * sin5 * g.z,
   0 * g.x - sin5 * g.y + cos5 * g.z⟩

/-- lines 188-212: position -/
def position (k : Eph) (dt E sE : ℝ) : V3 :=
  let o := elem k dt E sE
  let om := node k dt
  let rg := comb (o.r * cos o.u) (axisP om) (o.r * sin o.u) (axisQ om o.inc)
  if isGeo k then rotGeo (omgeOf k.sys * dt) rg else rg

/-- lines 214-230: velocity -/
def velocity (k : Eph) (dt E sE : ℝ) : V3 :=
  let o := elem k dt E sE
  let om := node k dt
  let p := axisP om
  let q := axisQ om o.inc
  let h0 := cos o.u
  let h1 := sin o.u
  let qq : V3 := ⟨sin o.inc * sin om, -sin o.inc * cos om, cos o.inc⟩
  let nue := 1 - k.e * cos E
  let ed := meanMotion k dt / nue
  let nud := sqrt (1 - k.e ^ 2) / nue * ed
  let d0 := 2 * nud * (-h1)
  let d1 := 2 * nud * h0
  let ud := nud + (k.cuc * d0 + k.cus * d1)
  let rd := axis k dt * k.e * sE * ed + (k.crc * d0 + k.crs * d1)
  let xd0 := rd * h0 + o.r * ud * (-h1)
  let xd1 := rd * h1 + o.r * ud * h0
  let incd := k.idot + (k.cic * d0 + k.cis * d1)
  let omegd := k.OMGd - omgeOf k.sys
  let pd : V3 := ⟨-p.y * omegd, p.x * omegd, 0 * omegd⟩
  let qd : V3 := ⟨-q.y * omegd + qq.x * incd, q.x * omegd + qq.y * incd, 0 * omegd + qq.z * incd⟩
  (comb (o.r * h0) pd (o.r * h1) qd).add (comb xd0 p xd1 q)

/-- line 173: the relativistic effect -/
def relOf (k : Eph) (sE : ℝ) : ℝ := -2 * sqrt (muOf k.sys * k.A) * k.e * sE / clight ^ 2

/-- `eph2pos(t, eph, True)`: lines 157-232; position, velocity, clock -/
def eph2pos (t : ℝ) (k : Eph) : V3 × V3 × ℝ :=
  let dt := dtadjust t k.toe
  let (E, sE) := eccentricAnomaly (meanAnomaly k dt) k.e
  let dtc := dtadjust t k.toc
  (position k dt E sE, velocity k dt E sE, k.af0 + k.af1 * dtc + k.af2 * dtc ^ 2 + relOf k sE)

/-- `eph2clk`: lines 235-241 -/
def eph2clk (t : ℝ) (k : Eph) : ℝ :=
  let p := fun x => k.af0 + k.af1 * x + k.af2 * x ^ 2
  let t0 := t - k.toc
  let t1 := t0 - p t0
  let t2 := t1 - p t1
  p t2

/-- `eph2rel`: lines 244-258 -/
def eph2rel (t : ℝ) (k : Eph) : ℝ :=
  let dt := dtadjust t k.toe
  relOf k (eccentricAnomaly (meanAnomaly k dt) k.e).2

/-- `Alm` (gnss.py lines 831-850): the fields used -/
structure Alm where
  sys : Sys
  prn : Int
  A : ℝ
  e : ℝ
  M0 : ℝ
  OMG0 : ℝ
  OMGd : ℝ
  omg : ℝ
  i0 : ℝ
  toa : ℝ
  toas : ℝ
  af0 : ℝ
  af1 : ℝ

/-- `alm2pos`: lines 878-914; position, clock -/
def alm2pos (t : ℝ) (a : Alm) : V3 × ℝ :=
  let dt := dtadjust t a.toa
  let n0 := sqrt (muOf a.sys / a.A ^ 3)
  let M := a.M0 + n0 * dt
  let (E, sE) := eccentricAnomaly M a.e
  let u := arctan2 (sqrt (1 - a.e ^ 2) * sE) (cos E - a.e) + a.omg
  let r := a.A * (1 - a.e * cos E)
  let om := a.OMG0 + (a.OMGd - omgeOf a.sys) * dt - omgeOf a.sys * a.toas
  let x := r * cos u
  let y := r * sin u
  (⟨x * cos om - y * cos a.i0 * sin om, x * sin om + y * cos a.i0 * cos om, y * sin a.i0⟩, a.af0 + a.af1 * dt)

end Verif.Kepler
