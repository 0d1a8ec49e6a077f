import Verif.Model.Sdres
import Verif.Model.Udstate
/-!
Model of the corrections of the measurements by signal biases and of the undifferenced residuals: `pppos.find_bias` (lines
467-499) and `pppos.zdres` (lines 501-773) of `src/cssrlib/pppssr.py`.

Geometry, troposphere, relativistic effect, slant delays, phase wind-up and antenna corrections are inputs by satellite (they
do not depend on the biases; which reference signals the antenna corrections use is not modelled).  Biases are rationals or NaN
(`none`).  Every constellation has `nf` ranges and phases; other numbers of signals are an exception (NumPy would broadcast
vectors of length 1).
-/

namespace Verif.Zd
open Verif.Sat Verif.Sig
open Verif.Ud (need freq)

/-- biases by satellite and signal -/
abbrev Tab := Option (Dict Nat (Dict Sig (Option ℚ)))

/-- corrections of a network (0: global): bits of `cstat`, tables, satellites -/
structure Lc where
  cOn : Bool
  pOn : Bool
  cb : Tab
  pb : Tab
  satN : List Nat

/-- `sCSSRTYPE` -/
def clas : Nat := 0
def hasSis : Nat := 2
def hasIdd : Nat := 3
def bdsPpp : Nat := 4
def pvs : Nat := 7

/-- `rSigRnx('GC2P')` etc. -/
def g2P (t : Typ) : Sig := ⟨.gps, t, 216⟩
def g2W (t : Typ) : Sig := ⟨.gps, t, 223⟩

/-- the table `find_bias` uses: by the type of the first signal -/
def tabOf (lc : Lc) (t : Typ) : Tab := if t = .C then lc.cb else lc.pb

/-- lines 486-491: the biases of the satellite are changed where they are stored -/
def patch (mode : Nat) (t : Typ) (d : Dict Sig (Option ℚ)) : Dict Sig (Option ℚ) :=
  if mode = hasSis ∨ mode = hasIdd then
    if t = .C ∨ t = .L then
      match Dict.get? d (g2P t) with
      | some b => Dict.set d (g2W t) b
      | none => d
    else d
  else d

/-- lines 493-498: one signal -/
def lookSig (d : Dict Sig (Option ℚ)) (g : Sig) : Py (Option ℚ) :=
  match Dict.get? d g with
  | some b => .ok b
  | none => do
    let x ← toAtt g ['X']
    pure ((Dict.get? d x).getD (some 0))

/-- replace the biases of a satellite -/
def setTab (lc : Lc) (t : Typ) (tab : Tab) : Lc := if t = .C then { lc with cb := tab } else { lc with pb := tab }

/-- `find_bias(cs, sigref, sat, inet)`: lines 467-499; the biases and the changed corrections -/
def findBias (mode : Nat) (lc : Lc) (sigs : List Sig) (sat : Nat) : Py (List (Option ℚ) × Lc) :=
  match sigs with
  | [] => .ok ([], lc)
  | g :: _ =>
    match tabOf lc g.typ with
    | none => .ok (sigs.map fun _ => some 0, lc)
    | some tab =>
      match Dict.get? tab sat with
      | none => .ok (sigs.map fun _ => some 0, lc)
      | some d => do
        let d := patch mode g.typ d
        let v ← sigs.mapM (lookSig d)
        pure (v, setTab lc g.typ (some (Dict.set tab sat d)))

/-- NaN propagates -/
def addN (a b : Option ℚ) : Option ℚ := match a, b with | some a, some b => some (a + b) | _, _ => none
def negN (a : Option ℚ) : Option ℚ := a.map fun x => -x

/-- `a += b` for vectors -/
def addV (a b : List (Option ℚ)) : Py (List (Option ℚ)) :=
  if a.length = b.length then .ok (List.zipWith addN a b) else .error .valueError

/-- the corrections: service, networks -/
structure Cs where
  mode : Nat
  lc : Nat → Lc

def Cs.put (cs : Cs) (n : Nat) (l : Lc) : Cs := { cs with lc := fun k => if k = n then l else cs.lc k }

/-- lines 565-566, 572-573: global biases; `on` selects the bit of `cstat` -/
def gather0 (cs : Cs) (nf : Nat) (on : Lc → Bool) (sigs : List Sig) (sat : Nat) : Py (List (Option ℚ) × Cs) :=
  if on (cs.lc 0) then do
    let r ← findBias cs.mode (cs.lc 0) sigs sat
    pure (r.1, cs.put 0 r.2)
  else pure (List.replicate nf (some 0), cs)

/-- lines 565-577 for one type: global biases, then those of the network -/
def gather (cs : Cs) (inet : Int) (nf : Nat) (on : Lc → Bool) (sigs : List Sig) (sat : Nat) :
    Py (List (Option ℚ) × Cs) := do
  let (v, cs) ← gather0 cs nf on sigs sat
  if 0 < inet ∧ on (cs.lc inet.toNat) = true then do
    let r ← findBias cs.mode (cs.lc inet.toNat) sigs sat
    let v ← addV v r.1
    pure (v, cs.put inet.toNat r.2)
  else pure (v, cs)

/-- lines 563-584 -/
def cssrBias (cs : Cs) (inet : Int) (nf : Nat) (pr cp : List Sig) (sat : Nat) :
    Py (List (Option ℚ) × List (Option ℚ) × Cs) := do
  let (c, cs) ← gather cs inet nf Lc.cOn pr sat
  let (p, cs) ← gather cs inet nf Lc.pOn cp sat
  if cs.mode = clas ∨ cs.mode = bdsPpp ∨ cs.mode = pvs then pure (c.map negN, p.map negN, cs) else pure (c, p, cs)

def clight : ℚ := 299792458

/-- sources of biases: `nav.ephopt == 4` (Bias-SINEX in nanoseconds by satellite and signal), CSSR, none -/
inductive Src where
  | sinex (osb : Nat → Sig → Option ℚ)
  | cssr (cs : Cs)
  | none

/-- lines 548-584: ranges, phases, source after the lookup -/
def biases (src : Src) (inet : Int) (nf : Nat) (sys : Sys) (pr cp : List Sig) (sat : Nat) :
    Py (List (Option ℚ) × List (Option ℚ) × Src) :=
  match src with
  | .sinex osb =>
    let m := fun g : Sig => (osb sat g).map fun b => -b * (clight * (1 / 1000000000))
    .ok (pr.map m, if sys ≠ .glo then cp.map m else List.replicate nf (some 0), src)
  | .cssr cs => do
    let (c, p, cs) ← cssrBias cs inet nf pr cp sat
    pure (c, p, .cssr cs)
  | .none => .ok (List.replicate nf (some 0), List.replicate nf (some 0), .none)

/-- inputs of one satellite: geometric distance, elevation above the mask, relativistic effect, satellite clock, tropospheric
delay, slant electron content, phase wind-up [cycles], antenna corrections of receiver and satellite (`none`: unavailable),
measured phases and ranges -/
structure Geo where
  r : ℚ
  up : Bool
  rel : ℚ
  dts : ℚ
  trop : ℚ
  stec : ℚ
  phw : ℚ
  rxP : Option (Nat → ℚ)
  rxL : Option (Nat → ℚ)
  txP : Option (Nat → ℚ)
  txL : Option (Nat → ℚ)
  L : Nat → ℚ
  P : Nat → ℚ

structure In where
  nf : Nat
  ionoOpt : Int
  inet : Int
  sat : List Nat
  edt : Nat → Bool
  /-- `cs.lc[inet].sat_n` -/
  satN : List Nat
  sig : Sys → Option (Typ → Option (List Sig))
  gloCh : Dict Nat Int := []
  geo : Nat → Geo

def sigs (v : In) (m : Sys) (t : Typ) : Py (List Sig) :=
  match (v.sig m).bind fun d => d t with
  | some l => .ok l
  | none => .error .keyError

/-- lines 539-546 -/
def freqs (v : In) (m : Sys) (sat : Nat) (cp : List Sig) : Py (List ℚ) :=
  if m = .glo then cp.mapM fun g => do
    let k ← Dict.getItem v.gloCh sat
    need (freq g (some k))
  else cp.mapM fun g => need (freq g none)

/-- the values of a vector without NaN -/
def vals (l : List (Option ℚ)) : Nat → ℚ := fun k => (l.getD k none).getD 0

/-- lines 760-771: the row of a satellite -/
def rowOf (v : In) (g : Geo) (fr : Nat → ℚ) (cb pb : Nat → ℚ) (rxP rxL txP txL : Nat → ℚ) : Nat → ℚ := fun k =>
  let iono := fun f => if v.ionoOpt = 2 ∧ 0 < v.inet then 403 * 10 ^ 15 / (fr f * fr f) * g.stec else 0
  let r := g.r + (g.rel - clight * g.dts)
  if k < v.nf then
    g.L k * (clight / fr k) - (r + (g.trop + rxL k + txL k - iono k - pb k + clight / fr k * g.phw))
  else if k < 2 * v.nf then
    let f := k - v.nf
    g.P f - (r + (g.trop + rxP f + txP f + iono f - cb f))
  else 0

/-- one satellite: lines 519-771; the row (0 when it is left out) and the corrections after the lookup -/
def sat1 (v : In) (src : Src) (i s : Nat) : Py ((Nat → ℚ) × Src) :=
  if v.edt s then .ok (fun _ => 0, src)
  else if 0 < v.inet ∧ s ∉ v.satN then .ok (fun _ => 0, src)
  else do
    let m := (sat2prn s).1
    let pr ← sigs v m .C
    let cp ← sigs v m .L
    if pr.length ≠ v.nf ∨ cp.length ≠ v.nf then .error .valueError
    else do
      let fr ← freqs v m s cp
      let (cb, pb, src) ← biases src v.inet v.nf m pr cp s
      if cb.any (·.isNone) || pb.any (·.isNone) then pure (fun _ => 0, src)
      else
        let g := v.geo i
        if g.up = false then pure (fun _ => 0, src)
        else match g.rxP, g.rxL, g.txP, g.txL with
          | some rxP, some rxL, some txP, some txL =>
            pure (rowOf v g (fun k => fr.getD k 0) (vals cb) (vals pb) rxP rxL txP txL, src)
          | _, _, _, _ => pure (fun _ => 0, src)

/-- all satellites -/
def zdres (v : In) (src : Src) : Py (List (Nat → ℚ) × Src) :=
  (List.range v.sat.length).foldlM (fun a i => do
    let s ← pyGet v.sat i
    let r ← sat1 v a.2 i s
    pure (a.1 ++ [r.1], r.2)) ([], src)

end Verif.Zd
