import Verif.Model.KfUpdate
import Verif.Model.Sat
import Mathlib.Data.Matrix.Diagonal
/-!
Model of single point positioning: class `stdpos` in `src/cssrlib/pntpos.py`, lines 60-62 (`ICB`), 213-589 (`varerr`, `udstate`,
`zdres`, `sdres`, `ddcov`, `process`), with the dimensions set by `__init__` (lines 98-106).

Numbers are exact rationals.  Satellite positions, editing, distances, directions, elevations, troposphere, ionosphere and the
variance of `vardgps` are inputs (functions of the state where they depend on it); `kfupdate` is that of `Verif.KfUpdate`.
Satellites are referred to by number; the list of an epoch has no repetitions.  Not modelled: carrier smoothing
(`Verif.Csmooth`), a base station (`obsb`), wavelengths (used for carrier smoothing only), `dops`, log output.
-/

namespace Verif.Std
open Verif.Sat Verif.KfUpdate

/-- size of the state: lines 98-106; `k`: kinematic (`pmode > 0`) -/
def dim (k : Bool) : Nat := if k then 8 else 4

abbrev Vec (k : Bool) := Fin (dim k) → ℚ
abbrev Cov (k : Bool) := Matrix (Fin (dim k)) (Fin (dim k)) ℚ

/-- `ICB()`: lines 60-62 -/
def icb : (k : Bool) → Fin (dim k)
  | false => (3 : Fin 4)
  | true => (6 : Fin 8)

/-- options: number of signals, mode of the range (`rmode`), factors of the noise, `err[1]`, `err[2]`, least sine of the
elevation (line 221), threshold of the clock reset, process noise -/
structure Cfg (k : Bool) where
  nf : Nat
  rmode : Int
  eratio : List ℚ
  err1 : ℚ
  err2 : ℚ
  smin : ℚ
  th : ℚ
  q : Vec k

/-- filter, time of the last solution, status, number of satellites used -/
structure Nav (k : Bool) where
  x : Vec k
  P : Cov k
  t : ℚ
  smode : Int
  nsat : Nat

/-- what is computed for a satellite: distance, direction, sine of the elevation, whether it is below the mask, troposphere,
ionosphere, variance for DGPS -/
structure Geo where
  r : ℚ
  e : Fin 3 → ℚ
  sinEl : ℚ
  low : Bool
  trop : ℚ
  iono : ℚ
  varD : ℚ

/-- corrections: none, DGPS, others -/
inductive Cs where
  | none | dgps | other
  deriving DecidableEq

/-- an epoch: time, satellites, constellations with signals (`obs.sig`), ranges, corrections, number of satellites with
position (`satposs`), satellite clocks, satellites with a flag (`nav.edt`), satellites left (`qcedit`), geometry -/
structure Ep (k : Bool) where
  t : ℚ
  sat : List Nat
  sigs : List Sys
  P : Nat → List ℚ
  cs : Cs
  npos : Nat
  dts : Nat → ℚ
  edt : Nat → Bool
  sel : Nat → Bool
  geo : Vec k → Nat → Geo

variable {k : Bool}

/-- `varerr`: lines 213-226 -/
def varerr (c : Cfg k) (smode : Int) (g : Geo) (f : Nat) : Py ℚ :=
  if smode = 2 then .ok g.varD
  else do
    let s := max g.sinEl c.smin
    let fact ← pyGet c.eratio f
    let a := fact * c.err1
    let b := fact * c.err2
    pure (a ^ 2 + (b / s) ^ 2)

/-- the transition of the state: lines 244-248 -/
def advance : (k : Bool) → ℚ → Vec k → Vec k
  | false, _, x => x
  | true, tt, x => fun (i : Fin 8) =>
    if i.val < 3 then x i + x (i + 3 : Fin 8) * tt
    else if i = 6 then x i + x (7 : Fin 8) * tt
    else x i

/-- `Phi`: lines 242, 249-250 -/
def phi (k : Bool) (tt : ℚ) : Cov k := Matrix.of fun i j =>
  if k = true ∧ i.val < 3 ∧ 3 ≤ j.val ∧ j.val < 6 then (if j.val = i.val + 3 then tt else 0)
  else if k = true ∧ i.val = 6 ∧ j.val = 7 then tt
  else if i = j then 1 else 0

/-- `udstate`: lines 228-257 -/
def udstate (c : Cfg k) (n : Nav k) (t : ℚ) : Nav k :=
  let tt := t - n.t
  { n with
    x := advance k tt n.x
    P := phi k tt * n.P * (phi k tt).transpose + Matrix.diagonal fun i => c.q i * tt }

def clight : ℚ := 299792458

/-- `(FREQ_G1/FREQ_G2)**2`: gnss.py lines 49-50 -/
def gam1 : ℚ := (157542 / 122760) ^ 2
/-- `(FREQ_S1/FREQ_S5)**2`: gnss.py lines 80-81 -/
def gam2 : ℚ := (157542 / 117645) ^ 2

/-- the range used: lines 348-359 -/
def range (rmode : Int) (P : List ℚ) : Py ℚ :=
  if rmode = 0 then pyGet P 0
  else do
    let gam ← if rmode = 1 then .ok gam1 else if rmode = 2 then .ok gam2 else .error .unboundLocal
    let p1 ← pyGet P 1
    let p0 ← pyGet P 0
    pure ((p1 - gam * p0) / (1 - gam))

/-- residual of one satellite, `y[i, 0]`: lines 293-366 -/
def zd (c : Cfg k) (ep : Ep k) (x : Vec k) (s : Nat) : Py ℚ :=
  let g := ep.geo x s
  if ep.edt s then .ok 0
  else if g.low then .ok 0
  else do
    let r := g.r + (x (icb k) - clight * ep.dts s)
    let pr ← range c.rmode (ep.P s)
    let iono := if c.rmode = 0 then g.iono else 0
    if c.nf = 0 then .error .indexError else pure (pr - (r + g.trop + iono))

/-- one row of the measurements: satellite, signal, innovation, direction, variance -/
structure Row where
  sat : Nat
  f : Nat
  v : ℚ
  e : Fin 3 → ℚ
  w : ℚ

/-- one row: lines 432-443; `y` has the residuals in column 0 only -/
def row (c : Cfg k) (smode : Int) (ep : Ep k) (x : Vec k) (y : Nat → ℚ) (f s : Nat) : Py Row := do
  let w ← varerr c smode (ep.geo x s) f
  pure ⟨s, f, if f = 0 then y s else 0, (ep.geo x s).e, w⟩

/-- number of signals: line 398 -/
def nsig (c : Cfg k) : Nat := if c.rmode = 0 then c.nf else 1

/-- satellites of one constellation that are not edited: lines 420-430 -/
def ofSys (ep : Ep k) (sat : List Nat) (sys : Sys) : List Nat :=
  sat.filter fun s => (sat2prn s).1 = sys && !ep.edt s

/-- `sdres`: lines 372-459 -/
def sdres (c : Cfg k) (smode : Int) (ep : Ep k) (x : Vec k) (y : Nat → ℚ) (sat : List Nat) : Py (List Row) :=
  (ep.sigs.flatMap fun sys => (List.range (nsig c)).flatMap fun f => (ofSys ep sat sys).map fun s => (f, s)).mapM
    fun p => row c smode ep x y p.1 p.2

/-- `np.mean` -/
def mean (l : List ℚ) : ℚ := l.sum / l.length

/-- clock reset: lines 566-572; the new state and innovations (`th` is not negative; without rows the mean is NaN) -/
def reset (c : Cfg k) (x : Vec k) (l : List Row) : Vec k × List Row :=
  if l ≠ [] ∧ c.th < |mean (l.map Row.v)| then
    let m := mean ((l.map Row.v).filter fun v => v ≠ 0)
    (Function.update x (icb k) m, l.map fun r => if r.v ≠ 0 then { r with v := r.v - m } else r)
  else (x, l)

/-- design matrix: lines 436-437 -/
def design (k : Bool) (l : List Row) : Matrix (Fin l.length) (Fin (dim k)) ℚ := Matrix.of fun i j =>
  if h : j.val < 3 then -(l.get i).e ⟨j.val, h⟩ else if j = icb k then 1 else 0

/-- `ddcov`: lines 461-470; the rows of all signals fill the diagonal -/
def cov (l : List Row) : Matrix (Fin l.length) (Fin l.length) ℚ := Matrix.diagonal fun i => (l.get i).w

/-- filter update with the rows: line 578 -/
noncomputable def update (x : Vec k) (P : Cov k) (l : List Row) : Py (Vec k × Cov k) := do
  let r ← kfupdate x P (design k l) (fun i => (l.get i).v) (cov l)
  pure (r.x, r.P)

/-- satellites used: lines 507-509 -/
def used (ep : Ep k) : List Nat := ep.sat.filter ep.sel

/-- `y` by satellite: all satellites of the epoch are computed (line 540), edited ones are 0 -/
def resid (c : Cfg k) (ep : Ep k) (x : Vec k) : Py (List (Nat × ℚ)) :=
  ep.sat.mapM fun s => do let y ← zd c ep x s; pure (s, y)

def look (l : List (Nat × ℚ)) (s : Nat) : ℚ := ((l.find? fun p => p.1 = s).map Prod.snd).getD 0

/-- `process`: lines 472-589; the value returned is `none` or 0.  Lines 556-559 are not reached: at least four satellites
are left by then. -/
noncomputable def process (c : Cfg k) (n : Nav k) (ep : Ep k) : Py (Nav k × Option Int) :=
  if ep.sat = [] then .ok (n, none)
  else
    let n := if ep.cs = .dgps then { n with smode := 2 } else n
    if ep.npos < 4 then .ok (n, none)
    else if (used ep).length < 4 then .ok ({ n with t := ep.t, nsat := (used ep).length }, none)
    else do
      let n := udstate c n ep.t
      let y ← resid c ep n.x
      let l ← sdres c n.smode ep n.x (look y) (used ep)
      let (x, l) := reset c n.x l
      let (x, P) ← update x n.P l
      pure ({ x := x, P := P, t := ep.t, smode := if ep.cs = .none then 1 else 2, nsat := (used ep).length }, some 0)

/-- epochs one after the other -/
noncomputable def run (c : Cfg k) (n : Nav k) (l : List (Ep k)) : Py (Nav k) :=
  l.foldlM (fun n ep => do let r ← process c n ep; pure r.1) n

end Verif.Std
