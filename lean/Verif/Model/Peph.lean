import Verif.Model.Time
import Verif.Model.Sat
import Mathlib.Algebra.Field.Defs
import Mathlib.Analysis.SpecialFunctions.Trigonometric.Basic
/-!
Model of precise-ephemeris interpolation and of the antenna / bias lookup
(`src/cssrlib/peph.py`).

Not modelled here: the SP3 (see `Model/Sp3.lean`), ANTEX and SINEX file parsers, the error variances (`vare`, `varc`) and the
antenna corrections.  Numbers are exact (a field, or the reals where sine and cosine occur).
-/

namespace Verif.Peph
open Verif.Time

/-! ## Interpolation -/

section
variable {K : Type} [Field K]

/-- one pass of the inner loop of `interppol` (lines 303-304): `i = 0 .. m-1`, in place -/
def interpPass (x : Nat → K) (j m : Nat) (y : Nat → K) : Nat → K :=
  (List.range m).foldl (fun y i k =>
    if k = i then (x (i + j) * y i - x i * y (i + 1)) / (x (i + j) - x i) else y k) y

/-- `interppol(x, y, n)`: peph.py lines 301-305 -/
def interppol (x : Nat → K) (y : Nat → K) (n : Nat) : K :=
  ((List.range' 1 (n - 1)).foldl (fun y j => interpPass x j (n - j) y) y) 0

end

/-! ## Epoch search -/

/-- the bisection loop: peph.py lines 317-323 (also 394-400); `lt k` is the test
`timediff(table[k].time, time) < 0`, which raises when the table has no entry `k` -/
def bisect (lt : Nat → Py Bool) (i j : Nat) : Py Nat :=
  if h : i < j then do
    let k := (i + j) / 2
    if ← lt k then bisect lt (k + 1) j else bisect lt i k
  else .ok i
termination_by j - i
decreasing_by all_goals omega

/-- `NMAX`, `MAXDTE`: lines 20-21 -/
def nmax : Nat := 10
def maxDte : ℚ := 900

/-- `index = 0 if i <= 0 else i-1`: line 324 -/
def indexOf (i : Nat) : Nat := if i = 0 then 0 else i - 1

/-- start of the interpolation window: lines 326-330 -/
def windowOf (ne index : Nat) : Int :=
  let i : Int := (index : Int) - ((nmax + 1) / 2 : Nat)
  if i < 0 then 0 else if i + nmax ≥ ne then ne - nmax - 1 else i

/-- the test `timediff(table[k].time, time) < 0` -/
def before (ts : List GTime) (time : GTime) (k : Nat) : Py Bool := do
  let t ← pyGet ts k
  return decide (timediff t time < 0)

/-- lines 313-330 of `pephpos`: `none` is the early `return None`; otherwise (index, window).
`ne` is the epoch counter `nav.ne`, `ts` the epochs of `nav.peph`. -/
def pephSearch (ne : Nat) (ts : List GTime) (time : GTime) : Py (Option (Nat × Int)) := do
  if ne < nmax + 1 then return none
  let t0 ← pyGet ts 0
  if timediff time t0 < -maxDte then return none
  let t1 ← pyGet ts (ne - 1)
  if timediff time t1 > maxDte then return none
  let i ← bisect (before ts time) 0 (ne - 1)
  return some (indexOf i, windowOf ne (indexOf i))

/-- lines 390-401 of `pephclk` -/
def pclkSearch (nc : Nat) (ts : List GTime) (time : GTime) : Py (Option Nat) := do
  if nc < 2 then return none
  let t0 ← pyGet ts 0
  if timediff time t0 < -maxDte then return none
  let t1 ← pyGet ts (nc - 1)
  if timediff time t1 > maxDte then return none
  let i ← bisect (before ts time) 0 (nc - 1)
  return some (indexOf i)

/-- one epoch of the clock table; `none` is NaN -/
structure ClkEp where
  time : GTime
  clk : Int → ℚ

/-- `pephclk(time, sat, nav)`, the clock value: lines 386-429.  Missing clocks are zero in the
table. -/
def pephclk (nc : Nat) (tab : List ClkEp) (time : GTime) (sat : Int) : Py (Option ℚ) := do
  match ← pclkSearch nc (tab.map (·.time)) time with
  | none => return none
  | some index =>
    let p0 ← pyGet tab index
    let p1 ← pyGet tab (index + 1)
    let t0 := timediff time p0.time
    let t1 := timediff time p1.time
    let c0 := p0.clk sat
    let c1 := p1.clk sat
    if t0 ≤ 0 then return (if c0 = 0 then none else some c0)
    else if t1 ≥ 0 then return (if c1 = 0 then none else some c1)
    else if c0 ≠ 0 ∧ c1 ≠ 0 then return some ((c1 * t0 - c0 * t1) / (t0 - t1))
    else return none

/-- `rCST.OMGE`: gnss.py line 30 -/
noncomputable def omge : ℝ := 7.2921151467e-5

/-- one epoch of the orbit table: position of a satellite (`peph_t`, lines 26-34) -/
structure PosEp where
  time : GTime
  pos : Int → Fin 3 → ℝ
  clk : Int → ℝ

/-- a node of the window turned into the Earth-fixed frame of the requested epoch: lines 337-343 -/
noncomputable def rotated (p : Fin 3 → ℝ) (t : ℝ) : Fin 3 → ℝ
  | 0 => Real.cos (omge * t) * p 0 - Real.sin (omge * t) * p 1
  | 1 => Real.sin (omge * t) * p 0 + Real.cos (omge * t) * p 1
  | 2 => p 2

/-- `pephpos(time, sat, nav)`, the position: lines 307-346.  A satellite without position and
clock (all zero) in one node of the window gives `None`; missing (NaN) values are not modelled. -/
noncomputable def pephpos (ne : Nat) (tab : List PosEp) (time : GTime) (sat : Int) : Py (Option (Fin 3 → ℝ)) := do
  match ← pephSearch ne (tab.map (·.time)) time with
  | none => return none
  | some (_, w) =>
    let nodes ← (List.range (nmax + 1)).mapM (fun j : Nat => pyGetI tab (w + j))
    if nodes.any (fun p => decide (p.pos sat 0 = 0 ∧ p.pos sat 1 = 0 ∧ p.pos sat 2 = 0 ∧ p.clk sat = 0)) then
      return none
    let t : Nat → ℝ := fun j => (nodes.map fun p => ((timediff p.time time : ℚ) : ℝ)).getD j 0
    let p : Fin 3 → Nat → ℝ := fun a j =>
      (nodes.map fun p => rotated (p.pos sat) ((timediff p.time time : ℚ) : ℝ) a).getD j 0
    return some (fun a => interppol t (p a) (nmax + 1))

/-! ## Antenna and bias tables -/

/-- `pcv_t`: lines 491-501; `sat` is `none` for a receiver antenna -/
structure Pcv (α : Type) where
  sat : Option Int
  type : String
  ts : GTime := {}
  te : GTime := {}
  tag : α

/-- the `name` argument: antenna type or satellite number -/
inductive Name where
  | str (s : String)
  | sat (n : Int)

def Pcv.hasName {α} (p : Pcv α) : Name → Bool
  | .str s => decide (p.type = s)
  | .sat n => decide (p.sat = some n)

/-- `searchpcv(pcvs, name, time)`: lines 614-639 -/
def searchpcv {α} (pcvs : List (Pcv α)) (name : Name) (time : GTime) : Option (Pcv α) :=
  match pcvs with
  | [] => none
  | p :: ps =>
    if !p.hasName name then searchpcv ps name time
    else if p.ts.time ≠ 0 ∧ timediff p.ts time > 0 then searchpcv ps name time
    else if p.te.time ≠ 0 ∧ timediff p.te time < 0 then searchpcv ps name time
    else some p

/-- `bias_t`: lines 1243-1252; `Sg` is the type of signal codes -/
structure Bias (Sg : Type) where
  sat : Int
  tst : GTime
  ted : GTime
  sig1 : Sg
  sig2 : Sg
  bias : ℚ
  std : ℚ

/-- `doy2time(ep)`: lines 1260-1268 -/
def doy2time (year doy sec : Int) : GTime :=
  let year := if year = 0 ∧ doy = 0 ∧ sec = 0 then 3000 else year
  let days := (year - 1970) * 365 + (year - 1969) / 4 + doy - 1
  { time := days * 86400 + sec, sec := 0 }

section
variable {Sg : Type} [DecidableEq Sg]

/-- `getosb(sat, time, sig)`: lines 1286-1300; `none` is NaN -/
def getosb (osb : List (Bias Sg)) (sat : Int) (time : GTime) (sig : Sg) : Option ℚ :=
  match osb with
  | [] => none
  | b :: bs =>
    if b.sat = sat ∧ b.sig1 = sig ∧ timediff time b.tst ≥ 0 ∧ timediff time b.ted < 0 then some b.bias
    else getosb bs sat time sig

/-- `getosbstd`: lines 1302-1316 -/
def getosbstd (osb : List (Bias Sg)) (sat : Int) (time : GTime) (sig : Sg) : Option ℚ :=
  match osb with
  | [] => none
  | b :: bs =>
    if b.sat = sat ∧ b.sig1 = sig ∧ timediff time b.tst ≥ 0 ∧ timediff time b.ted < 0 then some b.std
    else getosbstd bs sat time sig

/-- `getdcb`: lines 1270-1284; `dcb.code1` does not exist on `bias_t` (`AttributeError`) -/
def getdcb (dcb : List (Bias Sg)) (sat : Int) (time : GTime) (sig : Sg) : Py (Option (ℚ × ℚ)) :=
  match dcb with
  | [] => .ok none
  | b :: bs =>
    if b.sat = sat ∧ b.sig2 = sig ∧ timediff time b.tst ≥ 0 ∧ timediff time b.ted < 0 then .error .attributeError
    else getdcb bs sat time sig

end

end Verif.Peph
