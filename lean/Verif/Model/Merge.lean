import Verif.Model.Cssr
/-!
Model of `merge_cssr` (`src/cssrlib/cssrlib.py` lines 1425-1478) and `check_validity`
(lines 1208-1217; the same code in cssr_pvs.py lines 96-104, dgps.py lines 111-119 and
sbas.py lines 398-406).

Correction values are of an arbitrary type in `merge_cssr`: they are only moved.  A table that is
`None`, or an attribute that does not exist yet, is `none`.  The tables `dclk`, `dorb`, … of the
object itself (not of a network) are the empty list in every decoder, which has no element just as
an empty dictionary; `nsig_n` is not modelled.  Sharing of values between the two objects is not
modelled, nor the state after an exception.
-/

namespace Verif.Merge
open Verif.Sat Verif.Time Verif.Cssr

/-- the tables of a network -/
inductive Fld where
  | dclk | iode | dorb | ura | cbias | pbias | stecQ | ci | dstec
  deriving DecidableEq

/-- `local_corr` (lines 219-265) as far as `merge_cssr` uses it -/
structure Net (α : Type) where
  satN : List Int := []
  nsatN : Nat := 0
  tab : Fld → Option (Dict Int α) := fun _ => none

/-- what using an absent table raises: `stec_quality` and `dstec` are attributes made by the
decoder, the others are initially `None` -/
def errOf : Fld → PyErr
  | .stecQ => .attributeError
  | .dstec => .attributeError
  | _ => .typeError

def Net.getTab {α} (n : Net α) (f : Fld) : Py (Dict Int α) :=
  match n.tab f with
  | some d => .ok d
  | none => .error (errOf f)

/-- `self.lc[inet].f[sat] = cs_.lc[inet].f[sat]` -/
def copyOne {α} (src : Net α) (sat : Int) (n : Net α) (f : Fld) : Py (Net α) := do
  let ds ← src.getTab f
  let v ← Dict.getItem ds sat
  let d ← n.getTab f
  pure { n with tab := fun g => if g = f then some (Dict.set d sat v) else n.tab g }

/-- `if sat in cs_.lc[inet].g: …` -/
def copyGroup {α} (src : Net α) (sat : Int) (n : Net α) (g : Fld × List Fld) : Py (Net α) := do
  let ds ← src.getTab g.1
  if Dict.mem ds sat then g.2.foldlM (copyOne src sat) n else pure n

/-- the tests of lines 1460-1476 and what is copied under each -/
def groups : List (Fld × List Fld) :=
  [(.dclk, [.dclk]), (.dorb, [.iode, .dorb]), (.ura, [.ura]), (.cbias, [.cbias]), (.pbias, [.pbias]),
   (.stecQ, [.stecQ, .ci, .dstec])]

/-- a satellite of the second network: lines 1458-1476 -/
def addSat {α} (src : Net α) (n : Net α) (sat : Int) : Py (Net α) :=
  groups.foldlM (copyGroup src sat) { n with satN := n.satN ++ [sat], nsatN := n.nsatN + 1 }

/-- `[x for x in b if x not in a]` -/
def missing (a b : List Int) : List Int := b.filter fun x => !a.contains x

/-- a network: lines 1455-1476 -/
def mergeNet {α} (n src : Net α) : Py (Net α) := (missing n.satN src.satN).foldlM (addSat src) n

/-- `uGNSS` values: gnss.py lines 137-150 -/
def sysNum : Sys → Int
  | .none => -1 | .gps => 0 | .gal => 1 | .qzs => 2 | .bds => 3 | .glo => 4 | .sbs => 5 | .irn => 6

/-- the tables of the object itself -/
inductive GFld where
  | dclk | dorb | iode | cbias | pbias | ura
  deriving DecidableEq

/-- `cssr` as far as `merge_cssr` uses it -/
structure St (α : Type) where
  facility : Int
  satN : List Int
  gnssN : List Int
  nsatN : Nat
  nsatG : List Nat
  sigN : Dict Int (List Nat)
  tab : GFld → Dict Int α
  lc : List (Net α)

/-- `if sat in self.f: self.g[sat] = cs_.g[sat]` for the `g` of the list -/
def copyG {α} (cs : St α) (sat : Int) (s : St α) (g : GFld × List GFld) : Py (St α) :=
  if Dict.mem (s.tab g.1) sat then
    g.2.foldlM (fun s f => do
      let v ← Dict.getItem (cs.tab f) sat
      pure { s with tab := fun h => if h = f then Dict.set (s.tab f) sat v else s.tab h }) s
  else pure s

def groupsG : List (GFld × List GFld) :=
  [(.dclk, [.dclk]), (.dorb, [.iode, .dorb]), (.cbias, [.cbias]), (.pbias, [.pbias]), (.ura, [.ura])]

/-- a satellite of the second object: lines 1432-1451 -/
def addSatG {α} (cs : St α) (s : St α) (sat : Int) : Py (St α) := do
  let sys := (sat2prn sat).1
  let i := (sysNum sys).toNat
  let c ← pyGet s.nsatG i
  let sg ← Dict.getItem cs.sigN sat
  groupsG.foldlM (copyG cs sat)
    { s with satN := s.satN ++ [sat], gnssN := s.gnssN ++ [sysNum sys], nsatN := s.nsatN + 1,
             nsatG := s.nsatG.set i (c + 1), sigN := Dict.set s.sigN sat sg }

/-- `merge_cssr(cs_)`: cssrlib.py lines 1425-1478.  `maxnet` is `MAXNET`. -/
def mergeCssr {α} (maxnet : Nat) (s cs : St α) : Py (Bool × St α) :=
  if s.facility ≠ cs.facility then .ok (false, s)
  else do
    let s ← (missing s.satN cs.satN).foldlM (addSatG cs) s
    let s ← (List.range (maxnet + 1)).foldlM (fun (s : St α) inet => do
      let src ← pyGet cs.lc inet
      let n ← pyGet s.lc inet
      let n ← mergeNet n src
      pure { s with lc := s.lc.set inet n }) s
    pure (true, s)

/-! ## `check_validity` -/

/-- the corrections without network -/
structure Cor where
  t0 : Dict Int (Dict CType GTime)
  dclk : Dict Int Val
  iode : Dict Int Int
  dorb : Dict Int (Val × Val × Val)

/-- `tmax` for clock and orbit: cssrlib.py lines 350-352; cssr_pvs.py line 64, dgps.py line 64,
sbas.py line 262 -/
structure Tmax where
  clk : ℚ
  orb : ℚ

def tmaxCssr : Tmax := ⟨30, 120⟩
def tmaxSbas : Tmax := ⟨120, 120⟩

/-- one satellite: cssrlib.py lines 1211-1217 -/
def checkSat (m : Tmax) (time : GTime) (c : Cor) (sat : Int) : Py Cor := do
  let t ← Dict.getItem c.t0 sat
  let tc ← Dict.getItem t .clock
  let c := if timediff time tc > m.clk then { c with dclk := Dict.set c.dclk sat (some 0) } else c
  let tob ← Dict.getItem t .orbit
  let c := if timediff time tob > m.orb then
      { c with iode := Dict.set c.iode sat (-1), dorb := Dict.set c.dorb sat (some 0, some 0, some 0) }
    else c
  pure c

/-- `check_validity(time)`: cssrlib.py lines 1208-1217 -/
def checkValidity (m : Tmax) (time : GTime) (satN : List Int) (c : Cor) : Py Cor :=
  satN.foldlM (checkSat m time) c

end Verif.Merge
