import Verif.Py
import Verif.Model.Sat
import Verif.Model.Time
/-!
Model of the use of corrections in `satpos` (`src/cssrlib/ephemeris.py` lines 262-483) and
`satposs` (lines 486-736) for broadcast ephemerides with SSR/SBAS/DGPS corrections (`cs` given,
`nav.ephopt != 4`): the gates, the in-place update of the stored orbit correction, and how the
corrections enter the position and clock.

Numbers are exact rationals, NaN is `none`.  The search for the broadcast ephemeris, its
evaluation and the local orbital frame are parameters (`Env`).  The dictionaries of the correction
object are assumed to have been created (they are `None` before the first message of their kind).
Not modelled: the book-keeping in `nav` (`sis`, `dsis`, `time_p`, `glo_ch`) apart from the size of
its vectors, and the health flags.
-/

namespace Verif.Sp
open Verif.Sat Verif.Time

abbrev Num := Option ℚ
abbrev V3 := ℚ × ℚ × ℚ
abbrev N3 := Num × Num × Num

def Num.add (a b : Num) : Num := match a, b with | some x, some y => some (x + y) | _, _ => none
def Num.mul (a : Num) (x : ℚ) : Num := a.map (· * x)

/-- `a + b*x` element by element -/
def N3.axpy (a b : N3) (x : ℚ) : N3 :=
  (Num.add a.1 (Num.mul b.1 x), Num.add a.2.1 (Num.mul b.2.1 x), Num.add a.2.2 (Num.mul b.2.2 x))

/-- the vector, unless a component is NaN -/
def N3.val (a : N3) : Option V3 :=
  match a.1, a.2.1, a.2.2 with
  | some x, some y, some z => some (x, y, z)
  | _, _, _ => none

/-- `sCSSRTYPE`: cssrlib.py lines 20-32 -/
inductive Mode where
  | clas | madoca | hasSis | hasIdd | bds | igs | rtcm | pvs | sbasL1 | sbasL5 | dgps | std
  deriving DecidableEq, Repr

/-- corrections in Cartesian components with rates -/
def Mode.direct (m : Mode) : Prop := m = .pvs ∨ m = .sbasL1 ∨ m = .sbasL5
instance (m : Mode) : Decidable m.direct := by unfold Mode.direct; infer_instance

/-- the fields of the correction object that are read -/
structure Cs where
  mode : Mode
  iodssr : Int
  iodssrP : Int
  /-- `iodssr_c[ORBIT]`, `iodssr_c[CLOCK]` -/
  iodOrb : Int
  iodClk : Int
  satN : List Nat
  satNP : List Nat
  iode : Dict Nat Int
  dorb : Dict Nat N3
  dvel : Dict Nat N3
  /-- `t0[sat][ORBIT]`, `t0[sat][CLOCK]` -/
  t0Orb : Dict Nat GTime
  t0Clk : Dict Nat GTime
  iodc : Dict Nat Int
  iodcC : Dict Nat Int
  iodcCP : Dict Nat Int
  dclk : Dict Nat Num
  dclkP : Dict Nat Num
  ddft : Dict Nat Num
  /-- high-rate clock received, and its values -/
  hclkOn : Bool
  hclk : Dict Nat Num
  maskId : Int
  maskIdClk : Int
  navMode : Dict Sys Nat

/-- orbit gate: lines 341-352 and 574-585 -/
def orbGate (cs : Cs) (sat : Nat) : Bool :=
  (if cs.iodssr ≥ 0 ∧ cs.iodOrb = cs.iodssr then decide (sat ∈ cs.satN)
   else if cs.iodssrP ≥ 0 ∧ cs.iodOrb = cs.iodssrP then decide (sat ∈ cs.satNP)
   else false) && Dict.mem cs.iode sat

/-- lines 355-360 and 588-592: `dorb += ...` changes the stored array -/
def dorbStep (cs : Cs) (t : GTime) (sat : Nat) : Py (Cs × N3) := do
  let d ← Dict.getItem cs.dorb sat
  if cs.mode.direct then do
    let w ← Dict.getItem cs.dvel sat
    let t0 ← Dict.getItem cs.t0Orb sat
    let d' := d.axpy w (timediff t t0)
    pure ({ cs with dorb := Dict.set cs.dorb sat d' }, d')
  else pure (cs, d)

/-- lines 362-369 and 594-602 -/
def clkBds (cs : Cs) (sat : Nat) : Py (Option Num) := do
  let o ← Dict.getItem cs.iodc sat
  let c ← Dict.getItem cs.iodcC sat
  if o = c then do
    let d ← Dict.getItem cs.dclk sat
    pure (some d)
  else do
    let cp ← Dict.getItem cs.iodcCP sat
    if o = cp then do
      let d ← Dict.getItem cs.dclkP sat
      pure (some d)
    else pure none

/-- clock gate: lines 373-387 and 606-620 -/
def clkGate (cs : Cs) (sat : Nat) : Bool :=
  if cs.mode = .hasSis then cs.maskId = cs.maskIdClk || decide (sat ∈ cs.satNP)
  else if cs.iodClk = cs.iodssr then decide (sat ∈ cs.satN)
  else if cs.iodClk = cs.iodssrP then decide (sat ∈ cs.satNP)
  else false

/-- lines 391-394 and 627-630 -/
def addHclk (cs : Cs) (sat : Nat) (d : Num) : Num :=
  if cs.hclkOn then
    match Dict.get? cs.hclk sat with
    | some (some h) => Num.add d (some h)
    | _ => d
  else d

/-- lines 396-398 and 631-633 -/
def addRate (cs : Cs) (t : GTime) (sat : Nat) (d : Num) : Py Num :=
  if cs.mode.direct then do
    let r ← Dict.getItem cs.ddft sat
    let t0 ← Dict.getItem cs.t0Clk sat
    pure (Num.add d (Num.mul r (timediff t t0)))
  else pure d

/-- lines 371-398 and 604-633; `satposs` skips a satellite without clock correction, `satpos`
raises -/
def clkOther (poss : Bool) (cs : Cs) (t : GTime) (sat : Nat) : Py (Option Num) :=
  if clkGate cs sat = false then .ok none
  else match Dict.get? cs.dclk sat with
    | none => if poss then .ok none else .error .keyError
    | some d => do
      let d ← addRate cs t sat (addHclk cs sat d)
      pure (some d)

def clkStep (poss : Bool) (cs : Cs) (t : GTime) (sat : Nat) : Py (Option Num) :=
  if cs.mode = .bds then clkBds cs sat else clkOther poss cs t sat

/-- what is applied: issue of the ephemeris, orbit and clock correction, navigation message -/
structure Sel where
  iode : Int
  dorb : V3
  dclk : ℚ
  mode : Nat
  deriving DecidableEq

/-- lines 400-406 and 635-638 -/
def pick (cs : Cs) (sat : Nat) (sys : Sys) (d : N3) (c : Option Num) : Py (Option Sel) :=
  match c with
  | some (some c) =>
    match d.val with
    | some d =>
      match Dict.get? cs.iode sat, Dict.get? cs.navMode sys with
      | some e, some m => .ok (some ⟨e, d, c, m⟩)
      | _, _ => .error .keyError
    | none => .ok none
  | _ => .ok none

/-- lines 339-406 (`poss = false`) and 572-638 (`poss = true`): the selection of the corrections.
The correction object is returned as it is left, also when an exception is raised. -/
def select (poss : Bool) (cs : Cs) (t : GTime) (sat : Nat) (sys : Sys) : Cs × Py (Option Sel) :=
  if orbGate cs sat = false then (cs, .ok none)
  else match dorbStep cs t sat with
    | .error e => (cs, .error e)
    | .ok (cs', d) =>
      match clkStep poss cs' t sat with
      | .error e => (cs', .error e)
      | .ok c => (cs', pick cs' sat sys d c)

/-- the broadcast ephemerides -/
structure Env where
  Eph : Type
  /-- `findeph` -/
  find : GTime → Nat → Int → Nat → Option Eph
  /-- `eph2clk`, `geph2clk` -/
  clk : GTime → Eph → ℚ
  /-- `eph2pos`, `geph2pos` (with the relativistic term removed in `satpos`) -/
  pos : Bool → GTime → Eph → V3 × V3 × ℚ
  tgd : Eph → ℚ
  /-- `dorb@A` for the frame of lines 437-448 and 686-697 (first argument: PPP-B2b) -/
  frame : Bool → V3 → V3 → V3 → V3

def V3.sub (a b : V3) : V3 := (a.1 - b.1, a.2.1 - b.2.1, a.2.2 - b.2.2)

def clight : ℚ := 299792458

/-- position, velocity, clock -/
abbrev Res := V3 × V3 × ℚ

/-- lines 436-461 and 685-713: apply the corrections -/
def apply (env : Env) (poss : Bool) (m : Mode) (sys : Sys) (t : GTime) (e : env.Eph) (s : Sel) :
    Res :=
  let r := env.pos poss t e
  let de := if m.direct then s.dorb else env.frame (m = .bds) r.1 r.2.1 s.dorb
  let dt := r.2.2 + s.dclk / clight
  let dt := if (m.direct ∨ m = .dgps) ∧ sys = .gps then dt - env.tgd e else dt
  (V3.sub r.1 de, r.2.1, dt)

/-- `satpos(sat, t, nav, cs)`: lines 262-483 -/
def satpos (env : Env) (cs : Cs) (t : GTime) (sat : Nat) : Cs × Py (Option Res) :=
  let sys := (sat2prn sat).1
  match select false cs t sat sys with
  | (cs', .error e) => (cs', .error e)
  | (cs', .ok none) => (cs', .ok none)
  | (cs', .ok (some s)) =>
    match env.find t sat s.iode s.mode with
    | none => (cs', .ok none)
    | some e => (cs', .ok (some (apply env false cs'.mode sys t e s)))

/-- `obs`: epoch, satellites with their pseudoranges, constellations with signals -/
structure Obs where
  t : GTime
  sats : List (Nat × ℚ)
  keys : List Sys

/-- one satellite of `satposs`: lines 537-731.  The vectors `nav.dorb`, ... have MAXSAT elements
and are indexed by the satellite number. -/
def possOne (env : Env) (o : Obs) (cs : Cs) (sp : Nat × ℚ) : Cs × Py (Option Res) :=
  let sys := (sat2prn sp.1).1
  if sys ∉ o.keys then (cs, .ok none)
  else
    let t := timeadd o.t (-sp.2 / clight)
    match select true cs o.t sp.1 sys with
    | (cs', .error e) => (cs', .error e)
    | (cs', .ok none) => (cs', .ok none)
    | (cs', .ok (some s)) =>
      match env.find t sp.1 s.iode s.mode with
      | none => (cs', .ok none)
      | some e =>
        let t := timeadd t (-env.clk t e)
        if Dict.mem cs'.t0Orb sp.1 = false then (cs', .error .keyError)
        else if sp.1 ≥ 233 then (cs', .error .indexError)
        else (cs', .ok (some (apply env true cs'.mode sys t e s)))

/-- the loop of `satposs` -/
def satpossLoop (env : Env) (o : Obs) : List (Nat × ℚ) → Cs → Cs × Py (List (Option Res))
  | [], cs => (cs, .ok [])
  | sp :: l, cs =>
    match possOne env o cs sp with
    | (cs', .error e) => (cs', .error e)
    | (cs', .ok r) =>
      match satpossLoop env o l cs' with
      | (cs'', .error e) => (cs'', .error e)
      | (cs'', .ok rs) => (cs'', .ok (r :: rs))

/-- `satposs(obs, nav, cs)`: lines 486-736 -/
def satposs (env : Env) (o : Obs) (cs : Cs) : Cs × Py (List (Option Res)) :=
  satpossLoop env o o.sats cs

end Verif.Sp
