import Verif.Model.Edit
import Mathlib.Algebra.BigOperators.Group.Finset.Basic
import Mathlib.Algebra.BigOperators.Ring.Finset
/-!
Model of the time update of the filter: `pppos.udstate` and `pppos.initx` in `src/cssrlib/pppssr.py`.

Vectors and matrices are functions of their indices; numbers are exact rationals.  Satellite numbers are assumed to be
1..MAXSAT and the layout of the state is that of `Verif.C47.layout`, so that every index is inside its array.
Not modelled: log output (`monlevel = 0`) and NaN.
-/

namespace Verif.Ud
open Verif.Sat Verif.Sig
open Verif.Ppp (nsat sats)

/-- options and tables: `nav.pmode`, elapsed time `tt`, sizes `nx`, `na`, `nq`, process noise `q`, `nf`, whether slant
delays are estimated (`niono > 0`), `maxout`, initial deviations, GLONASS channels, and whether a satellite has a flag in
`nav.edt` -/
structure Cfg where
  pmode : Int
  tt : ℚ
  nx : Nat
  na : Nat
  nq : Nat
  q : Nat → ℚ
  nf : Nat
  iono : Bool
  maxout : Int
  sigN : ℚ
  sigI : ℚ
  gloCh : Dict Nat Int := []
  edt : Nat → Bool

/-- states, covariances, outage counters (by satellite number and signal) -/
structure St where
  x : Nat → ℚ
  P : Nat → Nat → ℚ
  outc : Nat → Nat → Int

/-- observations: satellites, columns, ranges and phases by row and column, signals -/
structure Obs where
  sat : List Nat
  cols : Nat
  P : Nat → Nat → ℚ
  L : Nat → Nat → ℚ
  sig : Sys → Option (Typ → Option (List Sig))

/-- `IB(s, f, na)`: lines 251-254 -/
def IB (c : Cfg) (s f : Nat) : Nat := c.na + nsat * f + s - 1
/-- `II(s, na)`: lines 256-258 -/
def II (c : Cfg) (s : Nat) : Nat := c.na - nsat + s - 1

/-- `initx(x0, v0, i)`: lines 245-249 -/
def initx (st : St) (x0 v0 : ℚ) (i : Nat) : St :=
  { st with
    x := fun k => if k = i then x0 else st.x k
    P := fun a b => if a = i ∨ b = i then (if a = b then v0 else 0) else st.P a b }

/-- the transition matrix: lines 296-303 -/
def phi (c : Cfg) (i j : Nat) : ℚ :=
  if 0 < c.pmode ∧ i < 3 ∧ 3 ≤ j ∧ j < 6 then (if j = i + 3 then c.tt else 0)
  else if i = j then 1 else 0

/-- prediction: lines 301-310 -/
def predict (c : Cfg) (st : St) : St :=
  { st with
    x := fun i => if 0 < c.pmode ∧ i < 3 then st.x i + st.x (i + 3) * c.tt else st.x i
    P := fun i j =>
      (∑ b ∈ Finset.range c.nx, (∑ a ∈ Finset.range c.nx, phi c i a * st.P a b) * phi c j b) +
        (if i = j ∧ i < c.nq then c.q i * c.tt else 0) }

/-- reset of one satellite: lines 321-348 -/
def resetSat (c : Cfg) (o : Obs) (f : Nat) (st : St) (s : Nat) : St :=
  let n := st.outc s f + 1
  let st := { st with outc := fun t g => if t = s ∧ g = f then n else st.outc t g }
  let reset := decide (n > c.maxout) || c.edt s
  if (o.sig (sat2prn s).1).isNone then st
  else
    let j := IB c s f
    let st := if reset ∧ st.x j ≠ 0 then
        let st := initx st 0 0 j
        { st with outc := fun t g => if t = s ∧ g = f then 0 else st.outc t g }
      else st
    if c.iono then
      let j := II c s
      if reset ∧ st.x j ≠ 0 then initx st 0 0 j else st
    else st

/-- `frequency(k)`: gnss.py lines 556-633; `none` is `None` -/
def freq (g : Sig) (k : Option Int) : Option ℚ :=
  let band := (g.sig.tdiv 100).toNat
  if g.sys = .glo ∧ k = none ∧ band ≤ 2 then none
  else Msm.frequency g.sys band (k.getD 0)

/-- a number needed where `None` raises TypeError -/
def need (x : Option ℚ) : Py ℚ :=
  match x with
  | some a => .ok a
  | none => .error .typeError

def sigList (o : Obs) (sys : Sys) (t : Typ) : Py (List Sig) :=
  match (o.sig sys).bind fun d => d t with
  | some l => .ok l
  | none => .error .keyError

def col (o : Obs) (m : Nat → Nat → ℚ) (i f : Nat) : Py ℚ :=
  if f < o.cols then .ok (m i f) else .error .indexError

/-- slant delay at the frequency of the first signal: lines 372-399; `none`: the satellite is skipped.  Returns the delay and
`f1`.  Where both frequencies are equal the code gets an infinite delay, the model raises. -/
def slant (c : Cfg) (o : Obs) (i s : Nat) : Py (Option (ℚ × ℚ)) :=
  let sys := (sat2prn s).1
  if 1 < c.nf ∧ c.iono = true then do
    let l ← sigList o sys .C
    let sig1 ← pyGet l 0
    let sig2 ← pyGet l 1
    let pr1 ← col o o.P i 0
    let pr2 ← col o o.P i 1
    if pr1 = 0 ∨ pr2 = 0 then pure none
    else if sys = .glo ∧ Dict.mem c.gloCh s = false then pure none
    else do
      let k := if sys = .glo then Dict.get? c.gloCh s else none
      let f1 ← need (freq sig1 k)
      let f2 ← need (freq sig2 k)
      if f2 = 0 ∨ 1 - (f1 / f2) ^ 2 = 0 then .error .zeroDivision
      else pure (some ((pr1 - pr2) / (1 - (f1 / f2) ^ 2), f1))
  else .ok (some (0, 0))

/-- phase ambiguity in cycles and slant delay from the measurements of row `i`: lines 369-417 -/
def meas (c : Cfg) (o : Obs) (f i s : Nat) : Py (ℚ × ℚ) :=
  let sys := (sat2prn s).1
  if c.edt s then .ok (0, 0)
  else do
    let d ← slant c o i s
    match d with
    | none => pure (0, 0)
    | some (ion, f1) => do
      let l ← sigList o sys .L
      let sig ← pyGet l f
      let k ← if sys = .glo then (do let k ← Dict.getItem c.gloCh s; pure (some k)) else .ok none
      let fi ← need (freq sig k)
      let lam := Msm.clight / fi
      let cp ← col o o.L i f
      let pr ← col o o.P i f
      if cp = 0 ∨ pr = 0 then pure (0, ion)
      else pure (cp - pr / lam + 2 * ion / lam * (f1 / fi) ^ 2, ion)

/-- initialisation of the states of one row: lines 437-457 -/
def initRow (c : Cfg) (f : Nat) (st : St) (r : Nat × ℚ × ℚ) : St :=
  let j := IB c r.1 f
  let st := if r.2.1 ≠ 0 ∧ st.x j = 0 then initx st r.2.1 (c.sigN ^ 2) j else st
  if c.iono then
    let j := II c r.1
    if r.2.2 ≠ 0 ∧ st.x j = 0 then initx st r.2.2 (c.sigI ^ 2) j else st
  else st

/-- the rows of signal `f` -/
def rows (c : Cfg) (o : Obs) (f : Nat) : Py (List (Nat × ℚ × ℚ)) :=
  (List.range o.sat.length).mapM fun i => do
    let s ← pyGet o.sat i
    let m ← meas c o f i s
    pure (s, m)

/-- one signal: lines 314-463 -/
def signal (c : Cfg) (o : Obs) (st : St) (f : Nat) : Py St := do
  let st := sats.foldl (resetSat c o f) st
  let r ← rows c o f
  pure (r.foldl (initRow c f) st)

/-- `udstate(obs)`: lines 281-465 -/
def udstate (c : Cfg) (o : Obs) (st : St) : Py St :=
  (List.range c.nf).foldlM (signal c o) (predict c st)

end Verif.Ud
