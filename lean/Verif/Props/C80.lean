import Verif.Model.GloNav
import Verif.Lemmas.Collect
import Verif.Lemmas.Time
import Verif.Props.C01
import Verif.Props.C05
import Verif.Props.C06
import Verif.Props.C08
import Verif.Props.C42
/-!
# C80 navigation messages of GLONASS and SBAS
-/

set_option linter.unusedSimpArgs false

namespace Verif.C80
open Verif.GloNav Verif.Time Verif.Lay Verif.Slots Verif.Col
open Verif.Sat (Sys sat2prn)
open Verif.Rawnav (sc2rad getbitg)
open Verif.CopyBuff (copyBuff)
open Verif.C06 (instant offsetUtc)

/-! ## Specification -/

/-- names of the fields; the sign of a field `x` in sign and magnitude is `sx` -/
inductive F where
  | idle | m | rsv | P1 | tkH | tkM | tkS | svx | vx | sax | ax | spx | px | ham | Bn | P2 | tb | svy | vy | say | ay | spy
  | py | P3 | sgamn | gamn | P | ln | svz | vz | saz | az | spz | pz | staun | taun | sdtaun | dtaun | En | P4 | FT | rsv2 | NT
  | slot | M | NA | stauC | tauC | N4 | stauGps | tauGps | mt | svid | svh | valid | KP | A | ts | PS | Ee | Et | Re | Rt | sFe
  | Fe | sFt | Ft | sbeta | beta | sdtauC | dtauC | sdx | dx | sdy | dy | sdz | dz | sisc | isc | tin | psi | sn | wmax | win
  | dw | tau1 | tau2 | pre | iodn | t0 | ura | af0 | af1 | crc
  deriving DecidableEq

def val (L : Layout F) (m : BitBuf) (f : F) : Int := num L m 0 f

/-- a number in sign and magnitude -/
def sm (s v : Int) : Int := if s = 0 then v else -v

/-- seconds from 1 January 1970 to a time of day in Moscow of the day `NT` of the four-year interval `N4`; see `gep_days` -/
def gloUtc (N4 NT : Int) (sod : ℚ) : ℚ := 820454400 + 86400 * (1461 * (N4 - 1) + NT - 1) + sod - 10800

/-! ### FDMA -/

def f1 : Layout F := [
  (.idle, 1, false), (.m, 4, false), (.rsv, 2, false), (.P1, 2, false), (.tkH, 5, false), (.tkM, 6, false), (.tkS, 1, false),
  (.svx, 1, false), (.vx, 23, false), (.sax, 1, false), (.ax, 4, false), (.spx, 1, false), (.px, 26, false), (.ham, 8, false)]
def f2 : Layout F := [
  (.idle, 1, false), (.m, 4, false), (.Bn, 3, false), (.P2, 1, false), (.tb, 7, false), (.rsv, 5, false), (.svy, 1, false),
  (.vy, 23, false), (.say, 1, false), (.ay, 4, false), (.spy, 1, false), (.py, 26, false), (.ham, 8, false)]
def f3 : Layout F := [
  (.idle, 1, false), (.m, 4, false), (.P3, 1, false), (.sgamn, 1, false), (.gamn, 10, false), (.rsv, 1, false), (.P, 2, false),
  (.ln, 1, false), (.svz, 1, false), (.vz, 23, false), (.saz, 1, false), (.az, 4, false), (.spz, 1, false), (.pz, 26, false),
  (.ham, 8, false)]
def f4 : Layout F := [
  (.idle, 1, false), (.m, 4, false), (.staun, 1, false), (.taun, 21, false), (.sdtaun, 1, false), (.dtaun, 4, false),
  (.En, 5, false), (.rsv, 14, false), (.P4, 1, false), (.FT, 4, false), (.rsv2, 3, false), (.NT, 11, false), (.slot, 5, false),
  (.M, 2, false), (.ham, 8, false)]
def f5 : Layout F := [
  (.idle, 1, false), (.m, 4, false), (.NA, 11, false), (.stauC, 1, false), (.tauC, 31, false), (.rsv, 1, false),
  (.N4, 5, false), (.stauGps, 1, false), (.tauGps, 21, false), (.ln, 1, false), (.ham, 8, false)]

/-- a call with the current week and time of week and the frequency number -/
structure GCall where
  week : Int
  time : ℚ
  freq : Int
  sat : Int
  msg : BitBuf

/-- number of a string -/
def strNo (c : GCall) : Int := val f1 c.msg .m

/-- the last call with the string `k` of a satellite -/
def lastStr (cs : List GCall) (sat : Int) (k : Int) : Option GCall :=
  (cs.filter fun c => c.sat = sat ∧ strNo c = k).getLast?

/-- the time of day nearest to another one; see `near_spec` -/
def near (t tod : ℚ) : ℚ := if t < tod - 43200 then t + 86400 else if t > tod + 43200 then t - 86400 else t

/-- the start of the day of a time of week -/
def dayOf (time : ℚ) : ℚ := 86400 * ⌊time / 86400⌋

/-- the ephemeris of strings; the numbers `tauC` and `tauGps` are zero without a fifth string -/
def fdmaOf (week : Int) (time : ℚ) (sat freq : Int) (x y z w : BitBuf) (v : Option BitBuf) : Geph :=
  let a := val f1 x; let b := val f2 y; let c := val f3 z; let d := val f4 w
  let tod := time - dayOf time
  let tof := near (a .tkH * 3600 + a .tkM * 60 + a .tkS * 30 - 10800) tod
  let toe := near (b .tb * 900 - 10800) tod
  { sat, iode := b .tb, frq := freq, svh := b .Bn, sva := d .FT, age := d .En,
    toe := utc2gpst (gpst2time week (dayOf time + toe)), toes := toe, tof := utc2gpst (gpst2time week (dayOf time + tof)),
    pos := ⟨sm (a .spx) (a .px) * (1 / 2 ^ 11) * 1000, sm (b .spy) (b .py) * (1 / 2 ^ 11) * 1000, sm (c .spz) (c .pz) * (1 / 2 ^ 11) * 1000⟩,
    vel := ⟨sm (a .svx) (a .vx) * (1 / 2 ^ 20) * 1000, sm (b .svy) (b .vy) * (1 / 2 ^ 20) * 1000, sm (c .svz) (c .vz) * (1 / 2 ^ 20) * 1000⟩,
    acc := ⟨sm (a .sax) (a .ax) * (1 / 2 ^ 30) * 1000, sm (b .say) (b .ay) * (1 / 2 ^ 30) * 1000, sm (c .saz) (c .az) * (1 / 2 ^ 30) * 1000⟩,
    taun := sm (d .staun) (d .taun) * (1 / 2 ^ 30), gamn := sm (c .sgamn) (c .gamn) * (1 / 2 ^ 40),
    dtaun := sm (d .sdtaun) (d .dtaun) * (1 / 2 ^ 30), mode := 0,
    flag := d .M * 128 + d .P4 * 64 + c .P3 * 32 + b .P2 * 16 + a .P1 * 4 + c .P,
    tauC := match v with | none => 0 | some v => sm (val f5 v .stauC) (val f5 v .tauC) * (1 / 2 ^ 31),
    tauGps := match v with | none => 0 | some v => sm (val f5 v .stauGps) (val f5 v .tauGps) * (1 / 2 ^ 30) }

/-- what a call returns after the calls `cs`: strings 1 to 4 received one after the other every two seconds -/
def fdmaResult (cs : List GCall) (c : GCall) : Option Geph :=
  if strNo c < 1 ∨ 5 < strNo c then none else
    match lastStr (cs ++ [c]) c.sat 1, lastStr (cs ++ [c]) c.sat 2, lastStr (cs ++ [c]) c.sat 3, lastStr (cs ++ [c]) c.sat 4 with
    | some x, some y, some z, some w =>
      if ⌊y.time⌋ = ⌊x.time⌋ + 2 ∧ ⌊z.time⌋ = ⌊y.time⌋ + 2 ∧ ⌊w.time⌋ = ⌊z.time⌋ + 2 then
        some (fdmaOf c.week c.time c.sat c.freq x.msg y.msg z.msg w.msg ((lastStr (cs ++ [c]) c.sat 5).map (·.msg)))
      else none
    | _, _, _, _ => none

/-- satellites of GLONASS -/
def Dom (sat : Int) : Prop := 149 ≤ sat ∧ sat ≤ 180

def GoodF (c : GCall) : Prop := Dom c.sat ∧ 96 ≤ c.msg.length ∧ 0 ≤ c.time ∧ c.time < 2 ^ 32

/-! ### CDMA -/

/-- L1OC, without the preamble of 12 bits -/
def a10 : Layout F := [
  (.mt, 6, false), (.svid, 6, false), (.svh, 1, false), (.valid, 1, false), (.P1, 4, false), (.P2, 1, false), (.KP, 2, false),
  (.A, 1, false), (.ts, 16, false), (.N4, 5, false), (.NT, 11, false), (.M, 3, false), (.PS, 6, false), (.tb, 10, false),
  (.Ee, 8, false), (.Et, 8, false), (.Re, 2, false), (.Rt, 2, false), (.sFe, 1, false), (.Fe, 4, false), (.sFt, 1, false),
  (.Ft, 4, false), (.staun, 1, false), (.taun, 31, false), (.sgamn, 1, false), (.gamn, 18, false), (.sbeta, 1, false),
  (.beta, 14, false), (.stauC, 1, false), (.tauC, 39, false), (.sdtauC, 1, false), (.dtauC, 12, false)]
def a11 : Layout F := [
  (.mt, 6, false), (.svid, 6, false), (.svh, 1, false), (.valid, 1, false), (.P1, 4, false), (.P2, 1, false), (.KP, 2, false),
  (.A, 1, false), (.ts, 16, false), (.spx, 1, false), (.px, 39, false), (.spy, 1, false), (.py, 39, false), (.spz, 1, false),
  (.pz, 39, false), (.svx, 1, false), (.vx, 34, false), (.svy, 1, false), (.vy, 34, false)]
def a12 : Layout F := [
  (.mt, 6, false), (.svid, 6, false), (.svh, 1, false), (.valid, 1, false), (.P1, 4, false), (.P2, 1, false), (.KP, 2, false),
  (.A, 1, false), (.ts, 16, false), (.svz, 1, false), (.vz, 34, false), (.sax, 1, false), (.ax, 14, false), (.say, 1, false),
  (.ay, 14, false), (.saz, 1, false), (.az, 14, false), (.sdx, 1, false), (.dx, 12, false), (.sdy, 1, false), (.dy, 12, false),
  (.sdz, 1, false), (.dz, 12, false), (.sisc, 1, false), (.isc, 17, false), (.stauGps, 1, false), (.tauGps, 29, false)]
/-- L3OC, without the preamble of 20 bits -/
def b10 : Layout F := [
  (.mt, 6, false), (.ts, 15, false), (.svid, 6, false), (.svh, 1, false), (.valid, 1, false), (.P1, 4, false), (.P2, 1, false),
  (.KP, 2, false), (.A, 1, false), (.N4, 5, false), (.NT, 11, false), (.M, 3, false), (.PS, 6, false), (.tb, 10, false),
  (.Ee, 8, false), (.Et, 8, false), (.Re, 2, false), (.Rt, 2, false), (.sFe, 1, false), (.Fe, 4, false), (.sFt, 1, false),
  (.Ft, 4, false), (.staun, 1, false), (.taun, 31, false), (.sgamn, 1, false), (.gamn, 18, false), (.sbeta, 1, false),
  (.beta, 14, false), (.stauC, 1, false), (.tauC, 39, false), (.sdtauC, 1, false), (.dtauC, 12, false)]
def b11 : Layout F := [
  (.mt, 6, false), (.ts, 15, false), (.svid, 6, false), (.svh, 1, false), (.valid, 1, false), (.P1, 4, false), (.P2, 1, false),
  (.KP, 2, false), (.A, 1, false), (.spx, 1, false), (.px, 39, false), (.spy, 1, false), (.py, 39, false), (.spz, 1, false),
  (.pz, 39, false), (.svx, 1, false), (.vx, 34, false), (.svy, 1, false), (.vy, 34, false)]
def b12 : Layout F := [
  (.mt, 6, false), (.ts, 15, false), (.svid, 6, false), (.svh, 1, false), (.valid, 1, false), (.P1, 4, false), (.P2, 1, false),
  (.KP, 2, false), (.A, 1, false), (.svz, 1, false), (.vz, 34, false), (.sax, 1, false), (.ax, 14, false), (.say, 1, false),
  (.ay, 14, false), (.saz, 1, false), (.az, 14, false), (.sdx, 1, false), (.dx, 12, false), (.sdy, 1, false), (.dy, 12, false),
  (.sdz, 1, false), (.dz, 12, false), (.sisc, 1, false), (.isc, 17, false), (.stauGps, 1, false), (.tauGps, 29, false)]
def b16 : Layout F := [
  (.mt, 6, false), (.ts, 15, false), (.svid, 6, false), (.svh, 1, false), (.valid, 1, false), (.P1, 4, false), (.P2, 1, false),
  (.KP, 2, false), (.A, 1, false), (.tin, 22, false), (.psi, 15, false), (.sn, 1, false), (.wmax, 17, false),
  (.win, 17, false), (.dw, 15, false), (.tau1, 13, false), (.tau2, 17, false)]

/-- what is kept of a message on L1: 222 bits, with zeros for the rest of the string -/
def body1 (m : BitBuf) : BitBuf := (m.drop 12).take 222 ++ List.replicate 34 false
/-- what is kept of a message on L3 -/
def body3 (m : BitBuf) : BitBuf := (m.drop 20).take 256

def pre1 (m : BitBuf) : Nat := bitsToNat (m.take 12)
def pre3 (m : BitBuf) : Nat := bitsToNat (m.take 20)

/-- the types of messages that are kept -/
def kind1 (c : Call) : Option Nat :=
  if val a10 c.msg .mt = 10 then some 0 else if val a10 c.msg .mt = 11 then some 1 else if val a10 c.msg .mt = 12 then some 2 else none
def kind3 (c : Call) : Option Nat :=
  if val b10 c.msg .mt = 10 then some 0 else if val b10 c.msg .mt = 11 then some 1 else if val b10 c.msg .mt = 12 then some 2
  else if val b10 c.msg .mt = 16 then some 3 else if val b10 c.msg .mt = 25 then some 4 else none

/-- the messages with a right preamble -/
def strings1 (cs : List Call) : List Call := (cs.filter fun c => pre1 c.msg = 0x5f1).map fun c => ⟨c.sat, body1 c.msg⟩
def strings3 (cs : List Call) : List Call := (cs.filter fun c => pre3 c.msg = 0x494e).map fun c => ⟨c.sat, body3 c.msg⟩

/-- the ephemeris of strings of type 10, 11 and 12 on L1 -/
def l1ocOf (sat : Int) (x y z : BitBuf) : Geph :=
  let a := val a10 x; let b := val a11 y; let c := val a12 z
  let toe := gep2time (a .N4) (a .NT) (a .tb * 90)
  { sat, iode := a .tb, svh := a .svh, toe, toes := (time2gpst toe).2, tof := gep2time (a .N4) (a .NT) (a .ts * 2),
    pos := ⟨sm (b .spx) (b .px) * (1 / 2 ^ 20) * 1000, sm (b .spy) (b .py) * (1 / 2 ^ 20) * 1000, sm (b .spz) (b .pz) * (1 / 2 ^ 20) * 1000⟩,
    vel := ⟨sm (b .svx) (b .vx) * (1 / 2 ^ 30) * 1000, sm (b .svy) (b .vy) * (1 / 2 ^ 30) * 1000, sm (c .svz) (c .vz) * (1 / 2 ^ 30) * 1000⟩,
    acc := ⟨sm (c .sax) (c .ax) * (1 / 2 ^ 39) * 1000, sm (c .say) (c .ay) * (1 / 2 ^ 39) * 1000, sm (c .saz) (c .az) * (1 / 2 ^ 39) * 1000⟩,
    taun := sm (a .staun) (a .taun) * (1 / 2 ^ 38), gamn := sm (a .sgamn) (a .gamn) * (1 / 2 ^ 48),
    beta := sm (a .sbeta) (a .beta) * (1 / 2 ^ 57), mode := 1, status := a .valid, flag := a .P2,
    tauC := sm (a .stauC) (a .tauC) * (1 / 2 ^ 31), dtauC := sm (a .sdtauC) (a .dtauC) * (1 / 2 ^ 49),
    tauGps := sm (c .stauGps) (c .tauGps) * (1 / 2 ^ 38), urai := (sm (a .sFe) (a .Fe), sm (a .sFt) (a .Ft)),
    dpos := ⟨sm (c .sdx) (c .dx) * (1 / 2 ^ 10), sm (c .sdy) (c .dy) * (1 / 2 ^ 10), sm (c .sdz) (c .dz) * (1 / 2 ^ 10)⟩,
    aode := a .Ee * (1 / 4), aodc := a .Et * (1 / 4), src := a .Re * 4 + a .Rt, sattype := a .M,
    isc := ⟨0, sm (c .sisc) (c .isc) * (1 / 2 ^ 38), 0⟩ }

/-- the ephemeris of strings of type 10, 11, 12 and 16 on L3 -/
def l3ocOf (sat : Int) (x y z w : BitBuf) : Geph :=
  let a := val b10 x; let b := val b11 y; let c := val b12 z; let d := val b16 w
  let toe := gep2time (a .N4) (a .NT) (a .tb * 90)
  { sat, iode := a .tb, svh := a .svh, toe, toes := (time2gpst toe).2, tof := gep2time (a .N4) (a .NT) (a .ts * 3),
    pos := ⟨sm (b .spx) (b .px) * (1 / 2 ^ 20) * 1000, sm (b .spy) (b .py) * (1 / 2 ^ 20) * 1000, sm (b .spz) (b .pz) * (1 / 2 ^ 20) * 1000⟩,
    vel := ⟨sm (b .svx) (b .vx) * (1 / 2 ^ 30) * 1000, sm (b .svy) (b .vy) * (1 / 2 ^ 30) * 1000, sm (c .svz) (c .vz) * (1 / 2 ^ 30) * 1000⟩,
    acc := ⟨sm (c .sax) (c .ax) * (1 / 2 ^ 39) * 1000, sm (c .say) (c .ay) * (1 / 2 ^ 39) * 1000, sm (c .saz) (c .az) * (1 / 2 ^ 39) * 1000⟩,
    taun := sm (a .staun) (a .taun) * (1 / 2 ^ 38), gamn := sm (a .sgamn) (a .gamn) * (1 / 2 ^ 48),
    beta := sm (a .sbeta) (a .beta) * (1 / 2 ^ 57), mode := 3, status := a .valid, flag := a .P2,
    tauC := sm (a .stauC) (a .tauC) * (1 / 2 ^ 31), dtauC := sm (a .sdtauC) (a .dtauC) * (1 / 2 ^ 49),
    tauGps := sm (c .stauGps) (c .tauGps) * (1 / 2 ^ 38), urai := (sm (a .sFe) (a .Fe), sm (a .sFt) (a .Ft)),
    dpos := ⟨sm (c .sdx) (c .dx) * (1 / 2 ^ 10), sm (c .sdy) (c .dy) * (1 / 2 ^ 10), sm (c .sdz) (c .dz) * (1 / 2 ^ 10)⟩,
    psi := d .psi * (1 / 2 ^ 14) * sc2rad, sn := d .sn, win := d .win * (1 / 2 ^ 26) * sc2rad, dw := d .dw * (1 / 2 ^ 30) * sc2rad,
    wmax := d .wmax * (1 / 2 ^ 26) * sc2rad, tin := d .tin * (1 / 2 ^ 5), tau1 := d .tau1 * (1 / 2 ^ 5), tau2 := d .tau2 * (1 / 2 ^ 5),
    aode := a .Ee * (1 / 4), aodc := a .Et * (1 / 4), src := a .Re * 4 + a .Rt, sattype := a .M,
    isc := ⟨0, 0, sm (c .sisc) (c .isc) * (1 / 2 ^ 38)⟩ }

/-- what a call returns after the calls `cs`: the last messages of the types 10, 11 and 12 -/
def l1Result (cs : List Call) (c : Call) : Option Geph :=
  if pre1 c.msg ≠ 0x5f1 ∨ kind1 ⟨c.sat, body1 c.msg⟩ = none then none else
    match last kind1 (strings1 (cs ++ [c])) c.sat 0, last kind1 (strings1 (cs ++ [c])) c.sat 1, last kind1 (strings1 (cs ++ [c])) c.sat 2 with
    | some x, some y, some z => some (l1ocOf c.sat x y z)
    | _, _, _ => none

/-- the same on L3; a message of type 16 not yet received counts as one of zeros -/
def l3Result (cs : List Call) (c : Call) : Option Geph :=
  if pre3 c.msg ≠ 0x494e ∨ kind3 ⟨c.sat, body3 c.msg⟩ = none then none else
    match last kind3 (strings3 (cs ++ [c])) c.sat 0, last kind3 (strings3 (cs ++ [c])) c.sat 1, last kind3 (strings3 (cs ++ [c])) c.sat 2 with
    | some x, some y, some z =>
      some (l3ocOf c.sat x y z ((last kind3 (strings3 (cs ++ [c])) c.sat 3).getD (List.replicate 256 false)))
    | _, _, _ => none

def Good1 (c : Call) : Prop := 234 ≤ c.msg.length
def Good3 (c : Call) : Prop := 276 ≤ c.msg.length

/-! ### SBAS -/

def sb : Layout F := [
  (.pre, 8, false), (.mt, 6, false), (.iodn, 8, false), (.t0, 13, false), (.ura, 4, false), (.px, 30, true), (.py, 30, true),
  (.pz, 25, true), (.vx, 17, true), (.vy, 17, true), (.vz, 18, true), (.ax, 10, true), (.ay, 10, true), (.az, 10, true),
  (.af0, 12, true), (.af1, 8, true), (.crc, 24, false)]

def ura : List ℚ := [2, 28 / 10, 4, 57 / 10, 8, 113 / 10, 16, 32, 64, 128, 256, 512, 1024, 2048, 4096, 0]

def sbsOf (week : Int) (tow : ℚ) (sat : Int) (m : BitBuf) : Seph :=
  let v := val sb m
  { sat, iodn := v .iodn, tof := gpst2time week tow, t0 := tod2tow (v .t0 * 16) (gpst2time week tow),
    svh := if v .ura = 15 then 1 else 0, sva := ura.getD (v .ura).toNat 0,
    pos := ⟨v .px * (8 / 100), v .py * (8 / 100), v .pz * (4 / 10)⟩,
    vel := ⟨v .vx * (625 / 1000000), v .vy * (625 / 1000000), v .vz * (4 / 1000)⟩,
    acc := ⟨v .ax * (125 / 10000000), v .ay * (125 / 10000000), v .az * (625 / 10000000)⟩,
    af0 := v .af0 * (1 / 2 ^ 31), af1 := v .af1 * (1 / 2 ^ 40), mode := 0 }

/-! ## Fields -/

theorem f1_idle (m : BitBuf) : val f1 m .idle = (bitsAt m 0 1 : Int) := num_u (by decide +kernel) _
theorem f1_m (m : BitBuf) : val f1 m .m = (bitsAt m 1 4 : Int) := num_u (by decide +kernel) _
theorem f1_rsv (m : BitBuf) : val f1 m .rsv = (bitsAt m 5 2 : Int) := num_u (by decide +kernel) _
theorem f1_P1 (m : BitBuf) : val f1 m .P1 = (bitsAt m 7 2 : Int) := num_u (by decide +kernel) _
theorem f1_tkH (m : BitBuf) : val f1 m .tkH = (bitsAt m 9 5 : Int) := num_u (by decide +kernel) _
theorem f1_tkM (m : BitBuf) : val f1 m .tkM = (bitsAt m 14 6 : Int) := num_u (by decide +kernel) _
theorem f1_tkS (m : BitBuf) : val f1 m .tkS = (bitsAt m 20 1 : Int) := num_u (by decide +kernel) _
theorem f1_svx (m : BitBuf) : val f1 m .svx = (bitsAt m 21 1 : Int) := num_u (by decide +kernel) _
theorem f1_vx (m : BitBuf) : val f1 m .vx = (bitsAt m 22 23 : Int) := num_u (by decide +kernel) _
theorem f1_sax (m : BitBuf) : val f1 m .sax = (bitsAt m 45 1 : Int) := num_u (by decide +kernel) _
theorem f1_ax (m : BitBuf) : val f1 m .ax = (bitsAt m 46 4 : Int) := num_u (by decide +kernel) _
theorem f1_spx (m : BitBuf) : val f1 m .spx = (bitsAt m 50 1 : Int) := num_u (by decide +kernel) _
theorem f1_px (m : BitBuf) : val f1 m .px = (bitsAt m 51 26 : Int) := num_u (by decide +kernel) _
theorem f1_ham (m : BitBuf) : val f1 m .ham = (bitsAt m 77 8 : Int) := num_u (by decide +kernel) _
theorem f2_idle (m : BitBuf) : val f2 m .idle = (bitsAt m 0 1 : Int) := num_u (by decide +kernel) _
theorem f2_m (m : BitBuf) : val f2 m .m = (bitsAt m 1 4 : Int) := num_u (by decide +kernel) _
theorem f2_Bn (m : BitBuf) : val f2 m .Bn = (bitsAt m 5 3 : Int) := num_u (by decide +kernel) _
theorem f2_P2 (m : BitBuf) : val f2 m .P2 = (bitsAt m 8 1 : Int) := num_u (by decide +kernel) _
theorem f2_tb (m : BitBuf) : val f2 m .tb = (bitsAt m 9 7 : Int) := num_u (by decide +kernel) _
theorem f2_rsv (m : BitBuf) : val f2 m .rsv = (bitsAt m 16 5 : Int) := num_u (by decide +kernel) _
theorem f2_svy (m : BitBuf) : val f2 m .svy = (bitsAt m 21 1 : Int) := num_u (by decide +kernel) _
theorem f2_vy (m : BitBuf) : val f2 m .vy = (bitsAt m 22 23 : Int) := num_u (by decide +kernel) _
theorem f2_say (m : BitBuf) : val f2 m .say = (bitsAt m 45 1 : Int) := num_u (by decide +kernel) _
theorem f2_ay (m : BitBuf) : val f2 m .ay = (bitsAt m 46 4 : Int) := num_u (by decide +kernel) _
theorem f2_spy (m : BitBuf) : val f2 m .spy = (bitsAt m 50 1 : Int) := num_u (by decide +kernel) _
theorem f2_py (m : BitBuf) : val f2 m .py = (bitsAt m 51 26 : Int) := num_u (by decide +kernel) _
theorem f2_ham (m : BitBuf) : val f2 m .ham = (bitsAt m 77 8 : Int) := num_u (by decide +kernel) _
theorem f3_idle (m : BitBuf) : val f3 m .idle = (bitsAt m 0 1 : Int) := num_u (by decide +kernel) _
theorem f3_m (m : BitBuf) : val f3 m .m = (bitsAt m 1 4 : Int) := num_u (by decide +kernel) _
theorem f3_P3 (m : BitBuf) : val f3 m .P3 = (bitsAt m 5 1 : Int) := num_u (by decide +kernel) _
theorem f3_sgamn (m : BitBuf) : val f3 m .sgamn = (bitsAt m 6 1 : Int) := num_u (by decide +kernel) _
theorem f3_gamn (m : BitBuf) : val f3 m .gamn = (bitsAt m 7 10 : Int) := num_u (by decide +kernel) _
theorem f3_rsv (m : BitBuf) : val f3 m .rsv = (bitsAt m 17 1 : Int) := num_u (by decide +kernel) _
theorem f3_P (m : BitBuf) : val f3 m .P = (bitsAt m 18 2 : Int) := num_u (by decide +kernel) _
theorem f3_ln (m : BitBuf) : val f3 m .ln = (bitsAt m 20 1 : Int) := num_u (by decide +kernel) _
theorem f3_svz (m : BitBuf) : val f3 m .svz = (bitsAt m 21 1 : Int) := num_u (by decide +kernel) _
theorem f3_vz (m : BitBuf) : val f3 m .vz = (bitsAt m 22 23 : Int) := num_u (by decide +kernel) _
theorem f3_saz (m : BitBuf) : val f3 m .saz = (bitsAt m 45 1 : Int) := num_u (by decide +kernel) _
theorem f3_az (m : BitBuf) : val f3 m .az = (bitsAt m 46 4 : Int) := num_u (by decide +kernel) _
theorem f3_spz (m : BitBuf) : val f3 m .spz = (bitsAt m 50 1 : Int) := num_u (by decide +kernel) _
theorem f3_pz (m : BitBuf) : val f3 m .pz = (bitsAt m 51 26 : Int) := num_u (by decide +kernel) _
theorem f3_ham (m : BitBuf) : val f3 m .ham = (bitsAt m 77 8 : Int) := num_u (by decide +kernel) _
theorem f4_idle (m : BitBuf) : val f4 m .idle = (bitsAt m 0 1 : Int) := num_u (by decide +kernel) _
theorem f4_m (m : BitBuf) : val f4 m .m = (bitsAt m 1 4 : Int) := num_u (by decide +kernel) _
theorem f4_staun (m : BitBuf) : val f4 m .staun = (bitsAt m 5 1 : Int) := num_u (by decide +kernel) _
theorem f4_taun (m : BitBuf) : val f4 m .taun = (bitsAt m 6 21 : Int) := num_u (by decide +kernel) _
theorem f4_sdtaun (m : BitBuf) : val f4 m .sdtaun = (bitsAt m 27 1 : Int) := num_u (by decide +kernel) _
theorem f4_dtaun (m : BitBuf) : val f4 m .dtaun = (bitsAt m 28 4 : Int) := num_u (by decide +kernel) _
theorem f4_En (m : BitBuf) : val f4 m .En = (bitsAt m 32 5 : Int) := num_u (by decide +kernel) _
theorem f4_rsv (m : BitBuf) : val f4 m .rsv = (bitsAt m 37 14 : Int) := num_u (by decide +kernel) _
theorem f4_P4 (m : BitBuf) : val f4 m .P4 = (bitsAt m 51 1 : Int) := num_u (by decide +kernel) _
theorem f4_FT (m : BitBuf) : val f4 m .FT = (bitsAt m 52 4 : Int) := num_u (by decide +kernel) _
theorem f4_rsv2 (m : BitBuf) : val f4 m .rsv2 = (bitsAt m 56 3 : Int) := num_u (by decide +kernel) _
theorem f4_NT (m : BitBuf) : val f4 m .NT = (bitsAt m 59 11 : Int) := num_u (by decide +kernel) _
theorem f4_slot (m : BitBuf) : val f4 m .slot = (bitsAt m 70 5 : Int) := num_u (by decide +kernel) _
theorem f4_M (m : BitBuf) : val f4 m .M = (bitsAt m 75 2 : Int) := num_u (by decide +kernel) _
theorem f4_ham (m : BitBuf) : val f4 m .ham = (bitsAt m 77 8 : Int) := num_u (by decide +kernel) _
theorem f5_idle (m : BitBuf) : val f5 m .idle = (bitsAt m 0 1 : Int) := num_u (by decide +kernel) _
theorem f5_m (m : BitBuf) : val f5 m .m = (bitsAt m 1 4 : Int) := num_u (by decide +kernel) _
theorem f5_NA (m : BitBuf) : val f5 m .NA = (bitsAt m 5 11 : Int) := num_u (by decide +kernel) _
theorem f5_stauC (m : BitBuf) : val f5 m .stauC = (bitsAt m 16 1 : Int) := num_u (by decide +kernel) _
theorem f5_tauC (m : BitBuf) : val f5 m .tauC = (bitsAt m 17 31 : Int) := num_u (by decide +kernel) _
theorem f5_rsv (m : BitBuf) : val f5 m .rsv = (bitsAt m 48 1 : Int) := num_u (by decide +kernel) _
theorem f5_N4 (m : BitBuf) : val f5 m .N4 = (bitsAt m 49 5 : Int) := num_u (by decide +kernel) _
theorem f5_stauGps (m : BitBuf) : val f5 m .stauGps = (bitsAt m 54 1 : Int) := num_u (by decide +kernel) _
theorem f5_tauGps (m : BitBuf) : val f5 m .tauGps = (bitsAt m 55 21 : Int) := num_u (by decide +kernel) _
theorem f5_ln (m : BitBuf) : val f5 m .ln = (bitsAt m 76 1 : Int) := num_u (by decide +kernel) _
theorem f5_ham (m : BitBuf) : val f5 m .ham = (bitsAt m 77 8 : Int) := num_u (by decide +kernel) _
theorem a10_mt (m : BitBuf) : val a10 m .mt = (bitsAt m 0 6 : Int) := num_u (by decide +kernel) _
theorem a10_svid (m : BitBuf) : val a10 m .svid = (bitsAt m 6 6 : Int) := num_u (by decide +kernel) _
theorem a10_svh (m : BitBuf) : val a10 m .svh = (bitsAt m 12 1 : Int) := num_u (by decide +kernel) _
theorem a10_valid (m : BitBuf) : val a10 m .valid = (bitsAt m 13 1 : Int) := num_u (by decide +kernel) _
theorem a10_P1 (m : BitBuf) : val a10 m .P1 = (bitsAt m 14 4 : Int) := num_u (by decide +kernel) _
theorem a10_P2 (m : BitBuf) : val a10 m .P2 = (bitsAt m 18 1 : Int) := num_u (by decide +kernel) _
theorem a10_KP (m : BitBuf) : val a10 m .KP = (bitsAt m 19 2 : Int) := num_u (by decide +kernel) _
theorem a10_A (m : BitBuf) : val a10 m .A = (bitsAt m 21 1 : Int) := num_u (by decide +kernel) _
theorem a10_ts (m : BitBuf) : val a10 m .ts = (bitsAt m 22 16 : Int) := num_u (by decide +kernel) _
theorem a10_N4 (m : BitBuf) : val a10 m .N4 = (bitsAt m 38 5 : Int) := num_u (by decide +kernel) _
theorem a10_NT (m : BitBuf) : val a10 m .NT = (bitsAt m 43 11 : Int) := num_u (by decide +kernel) _
theorem a10_M (m : BitBuf) : val a10 m .M = (bitsAt m 54 3 : Int) := num_u (by decide +kernel) _
theorem a10_PS (m : BitBuf) : val a10 m .PS = (bitsAt m 57 6 : Int) := num_u (by decide +kernel) _
theorem a10_tb (m : BitBuf) : val a10 m .tb = (bitsAt m 63 10 : Int) := num_u (by decide +kernel) _
theorem a10_Ee (m : BitBuf) : val a10 m .Ee = (bitsAt m 73 8 : Int) := num_u (by decide +kernel) _
theorem a10_Et (m : BitBuf) : val a10 m .Et = (bitsAt m 81 8 : Int) := num_u (by decide +kernel) _
theorem a10_Re (m : BitBuf) : val a10 m .Re = (bitsAt m 89 2 : Int) := num_u (by decide +kernel) _
theorem a10_Rt (m : BitBuf) : val a10 m .Rt = (bitsAt m 91 2 : Int) := num_u (by decide +kernel) _
theorem a10_sFe (m : BitBuf) : val a10 m .sFe = (bitsAt m 93 1 : Int) := num_u (by decide +kernel) _
theorem a10_Fe (m : BitBuf) : val a10 m .Fe = (bitsAt m 94 4 : Int) := num_u (by decide +kernel) _
theorem a10_sFt (m : BitBuf) : val a10 m .sFt = (bitsAt m 98 1 : Int) := num_u (by decide +kernel) _
theorem a10_Ft (m : BitBuf) : val a10 m .Ft = (bitsAt m 99 4 : Int) := num_u (by decide +kernel) _
theorem a10_staun (m : BitBuf) : val a10 m .staun = (bitsAt m 103 1 : Int) := num_u (by decide +kernel) _
theorem a10_taun (m : BitBuf) : val a10 m .taun = (bitsAt m 104 31 : Int) := num_u (by decide +kernel) _
theorem a10_sgamn (m : BitBuf) : val a10 m .sgamn = (bitsAt m 135 1 : Int) := num_u (by decide +kernel) _
theorem a10_gamn (m : BitBuf) : val a10 m .gamn = (bitsAt m 136 18 : Int) := num_u (by decide +kernel) _
theorem a10_sbeta (m : BitBuf) : val a10 m .sbeta = (bitsAt m 154 1 : Int) := num_u (by decide +kernel) _
theorem a10_beta (m : BitBuf) : val a10 m .beta = (bitsAt m 155 14 : Int) := num_u (by decide +kernel) _
theorem a10_stauC (m : BitBuf) : val a10 m .stauC = (bitsAt m 169 1 : Int) := num_u (by decide +kernel) _
theorem a10_tauC (m : BitBuf) : val a10 m .tauC = (bitsAt m 170 39 : Int) := num_u (by decide +kernel) _
theorem a10_sdtauC (m : BitBuf) : val a10 m .sdtauC = (bitsAt m 209 1 : Int) := num_u (by decide +kernel) _
theorem a10_dtauC (m : BitBuf) : val a10 m .dtauC = (bitsAt m 210 12 : Int) := num_u (by decide +kernel) _
theorem a11_mt (m : BitBuf) : val a11 m .mt = (bitsAt m 0 6 : Int) := num_u (by decide +kernel) _
theorem a11_svid (m : BitBuf) : val a11 m .svid = (bitsAt m 6 6 : Int) := num_u (by decide +kernel) _
theorem a11_svh (m : BitBuf) : val a11 m .svh = (bitsAt m 12 1 : Int) := num_u (by decide +kernel) _
theorem a11_valid (m : BitBuf) : val a11 m .valid = (bitsAt m 13 1 : Int) := num_u (by decide +kernel) _
theorem a11_P1 (m : BitBuf) : val a11 m .P1 = (bitsAt m 14 4 : Int) := num_u (by decide +kernel) _
theorem a11_P2 (m : BitBuf) : val a11 m .P2 = (bitsAt m 18 1 : Int) := num_u (by decide +kernel) _
theorem a11_KP (m : BitBuf) : val a11 m .KP = (bitsAt m 19 2 : Int) := num_u (by decide +kernel) _
theorem a11_A (m : BitBuf) : val a11 m .A = (bitsAt m 21 1 : Int) := num_u (by decide +kernel) _
theorem a11_ts (m : BitBuf) : val a11 m .ts = (bitsAt m 22 16 : Int) := num_u (by decide +kernel) _
theorem a11_spx (m : BitBuf) : val a11 m .spx = (bitsAt m 38 1 : Int) := num_u (by decide +kernel) _
theorem a11_px (m : BitBuf) : val a11 m .px = (bitsAt m 39 39 : Int) := num_u (by decide +kernel) _
theorem a11_spy (m : BitBuf) : val a11 m .spy = (bitsAt m 78 1 : Int) := num_u (by decide +kernel) _
theorem a11_py (m : BitBuf) : val a11 m .py = (bitsAt m 79 39 : Int) := num_u (by decide +kernel) _
theorem a11_spz (m : BitBuf) : val a11 m .spz = (bitsAt m 118 1 : Int) := num_u (by decide +kernel) _
theorem a11_pz (m : BitBuf) : val a11 m .pz = (bitsAt m 119 39 : Int) := num_u (by decide +kernel) _
theorem a11_svx (m : BitBuf) : val a11 m .svx = (bitsAt m 158 1 : Int) := num_u (by decide +kernel) _
theorem a11_vx (m : BitBuf) : val a11 m .vx = (bitsAt m 159 34 : Int) := num_u (by decide +kernel) _
theorem a11_svy (m : BitBuf) : val a11 m .svy = (bitsAt m 193 1 : Int) := num_u (by decide +kernel) _
theorem a11_vy (m : BitBuf) : val a11 m .vy = (bitsAt m 194 34 : Int) := num_u (by decide +kernel) _
theorem a12_mt (m : BitBuf) : val a12 m .mt = (bitsAt m 0 6 : Int) := num_u (by decide +kernel) _
theorem a12_svid (m : BitBuf) : val a12 m .svid = (bitsAt m 6 6 : Int) := num_u (by decide +kernel) _
theorem a12_svh (m : BitBuf) : val a12 m .svh = (bitsAt m 12 1 : Int) := num_u (by decide +kernel) _
theorem a12_valid (m : BitBuf) : val a12 m .valid = (bitsAt m 13 1 : Int) := num_u (by decide +kernel) _
theorem a12_P1 (m : BitBuf) : val a12 m .P1 = (bitsAt m 14 4 : Int) := num_u (by decide +kernel) _
theorem a12_P2 (m : BitBuf) : val a12 m .P2 = (bitsAt m 18 1 : Int) := num_u (by decide +kernel) _
theorem a12_KP (m : BitBuf) : val a12 m .KP = (bitsAt m 19 2 : Int) := num_u (by decide +kernel) _
theorem a12_A (m : BitBuf) : val a12 m .A = (bitsAt m 21 1 : Int) := num_u (by decide +kernel) _
theorem a12_ts (m : BitBuf) : val a12 m .ts = (bitsAt m 22 16 : Int) := num_u (by decide +kernel) _
theorem a12_svz (m : BitBuf) : val a12 m .svz = (bitsAt m 38 1 : Int) := num_u (by decide +kernel) _
theorem a12_vz (m : BitBuf) : val a12 m .vz = (bitsAt m 39 34 : Int) := num_u (by decide +kernel) _
theorem a12_sax (m : BitBuf) : val a12 m .sax = (bitsAt m 73 1 : Int) := num_u (by decide +kernel) _
theorem a12_ax (m : BitBuf) : val a12 m .ax = (bitsAt m 74 14 : Int) := num_u (by decide +kernel) _
theorem a12_say (m : BitBuf) : val a12 m .say = (bitsAt m 88 1 : Int) := num_u (by decide +kernel) _
theorem a12_ay (m : BitBuf) : val a12 m .ay = (bitsAt m 89 14 : Int) := num_u (by decide +kernel) _
theorem a12_saz (m : BitBuf) : val a12 m .saz = (bitsAt m 103 1 : Int) := num_u (by decide +kernel) _
theorem a12_az (m : BitBuf) : val a12 m .az = (bitsAt m 104 14 : Int) := num_u (by decide +kernel) _
theorem a12_sdx (m : BitBuf) : val a12 m .sdx = (bitsAt m 118 1 : Int) := num_u (by decide +kernel) _
theorem a12_dx (m : BitBuf) : val a12 m .dx = (bitsAt m 119 12 : Int) := num_u (by decide +kernel) _
theorem a12_sdy (m : BitBuf) : val a12 m .sdy = (bitsAt m 131 1 : Int) := num_u (by decide +kernel) _
theorem a12_dy (m : BitBuf) : val a12 m .dy = (bitsAt m 132 12 : Int) := num_u (by decide +kernel) _
theorem a12_sdz (m : BitBuf) : val a12 m .sdz = (bitsAt m 144 1 : Int) := num_u (by decide +kernel) _
theorem a12_dz (m : BitBuf) : val a12 m .dz = (bitsAt m 145 12 : Int) := num_u (by decide +kernel) _
theorem a12_sisc (m : BitBuf) : val a12 m .sisc = (bitsAt m 157 1 : Int) := num_u (by decide +kernel) _
theorem a12_isc (m : BitBuf) : val a12 m .isc = (bitsAt m 158 17 : Int) := num_u (by decide +kernel) _
theorem a12_stauGps (m : BitBuf) : val a12 m .stauGps = (bitsAt m 175 1 : Int) := num_u (by decide +kernel) _
theorem a12_tauGps (m : BitBuf) : val a12 m .tauGps = (bitsAt m 176 29 : Int) := num_u (by decide +kernel) _
theorem b10_mt (m : BitBuf) : val b10 m .mt = (bitsAt m 0 6 : Int) := num_u (by decide +kernel) _
theorem b10_ts (m : BitBuf) : val b10 m .ts = (bitsAt m 6 15 : Int) := num_u (by decide +kernel) _
theorem b10_svid (m : BitBuf) : val b10 m .svid = (bitsAt m 21 6 : Int) := num_u (by decide +kernel) _
theorem b10_svh (m : BitBuf) : val b10 m .svh = (bitsAt m 27 1 : Int) := num_u (by decide +kernel) _
theorem b10_valid (m : BitBuf) : val b10 m .valid = (bitsAt m 28 1 : Int) := num_u (by decide +kernel) _
theorem b10_P1 (m : BitBuf) : val b10 m .P1 = (bitsAt m 29 4 : Int) := num_u (by decide +kernel) _
theorem b10_P2 (m : BitBuf) : val b10 m .P2 = (bitsAt m 33 1 : Int) := num_u (by decide +kernel) _
theorem b10_KP (m : BitBuf) : val b10 m .KP = (bitsAt m 34 2 : Int) := num_u (by decide +kernel) _
theorem b10_A (m : BitBuf) : val b10 m .A = (bitsAt m 36 1 : Int) := num_u (by decide +kernel) _
theorem b10_N4 (m : BitBuf) : val b10 m .N4 = (bitsAt m 37 5 : Int) := num_u (by decide +kernel) _
theorem b10_NT (m : BitBuf) : val b10 m .NT = (bitsAt m 42 11 : Int) := num_u (by decide +kernel) _
theorem b10_M (m : BitBuf) : val b10 m .M = (bitsAt m 53 3 : Int) := num_u (by decide +kernel) _
theorem b10_PS (m : BitBuf) : val b10 m .PS = (bitsAt m 56 6 : Int) := num_u (by decide +kernel) _
theorem b10_tb (m : BitBuf) : val b10 m .tb = (bitsAt m 62 10 : Int) := num_u (by decide +kernel) _
theorem b10_Ee (m : BitBuf) : val b10 m .Ee = (bitsAt m 72 8 : Int) := num_u (by decide +kernel) _
theorem b10_Et (m : BitBuf) : val b10 m .Et = (bitsAt m 80 8 : Int) := num_u (by decide +kernel) _
theorem b10_Re (m : BitBuf) : val b10 m .Re = (bitsAt m 88 2 : Int) := num_u (by decide +kernel) _
theorem b10_Rt (m : BitBuf) : val b10 m .Rt = (bitsAt m 90 2 : Int) := num_u (by decide +kernel) _
theorem b10_sFe (m : BitBuf) : val b10 m .sFe = (bitsAt m 92 1 : Int) := num_u (by decide +kernel) _
theorem b10_Fe (m : BitBuf) : val b10 m .Fe = (bitsAt m 93 4 : Int) := num_u (by decide +kernel) _
theorem b10_sFt (m : BitBuf) : val b10 m .sFt = (bitsAt m 97 1 : Int) := num_u (by decide +kernel) _
theorem b10_Ft (m : BitBuf) : val b10 m .Ft = (bitsAt m 98 4 : Int) := num_u (by decide +kernel) _
theorem b10_staun (m : BitBuf) : val b10 m .staun = (bitsAt m 102 1 : Int) := num_u (by decide +kernel) _
theorem b10_taun (m : BitBuf) : val b10 m .taun = (bitsAt m 103 31 : Int) := num_u (by decide +kernel) _
theorem b10_sgamn (m : BitBuf) : val b10 m .sgamn = (bitsAt m 134 1 : Int) := num_u (by decide +kernel) _
theorem b10_gamn (m : BitBuf) : val b10 m .gamn = (bitsAt m 135 18 : Int) := num_u (by decide +kernel) _
theorem b10_sbeta (m : BitBuf) : val b10 m .sbeta = (bitsAt m 153 1 : Int) := num_u (by decide +kernel) _
theorem b10_beta (m : BitBuf) : val b10 m .beta = (bitsAt m 154 14 : Int) := num_u (by decide +kernel) _
theorem b10_stauC (m : BitBuf) : val b10 m .stauC = (bitsAt m 168 1 : Int) := num_u (by decide +kernel) _
theorem b10_tauC (m : BitBuf) : val b10 m .tauC = (bitsAt m 169 39 : Int) := num_u (by decide +kernel) _
theorem b10_sdtauC (m : BitBuf) : val b10 m .sdtauC = (bitsAt m 208 1 : Int) := num_u (by decide +kernel) _
theorem b10_dtauC (m : BitBuf) : val b10 m .dtauC = (bitsAt m 209 12 : Int) := num_u (by decide +kernel) _
theorem b11_mt (m : BitBuf) : val b11 m .mt = (bitsAt m 0 6 : Int) := num_u (by decide +kernel) _
theorem b11_ts (m : BitBuf) : val b11 m .ts = (bitsAt m 6 15 : Int) := num_u (by decide +kernel) _
theorem b11_svid (m : BitBuf) : val b11 m .svid = (bitsAt m 21 6 : Int) := num_u (by decide +kernel) _
theorem b11_svh (m : BitBuf) : val b11 m .svh = (bitsAt m 27 1 : Int) := num_u (by decide +kernel) _
theorem b11_valid (m : BitBuf) : val b11 m .valid = (bitsAt m 28 1 : Int) := num_u (by decide +kernel) _
theorem b11_P1 (m : BitBuf) : val b11 m .P1 = (bitsAt m 29 4 : Int) := num_u (by decide +kernel) _
theorem b11_P2 (m : BitBuf) : val b11 m .P2 = (bitsAt m 33 1 : Int) := num_u (by decide +kernel) _
theorem b11_KP (m : BitBuf) : val b11 m .KP = (bitsAt m 34 2 : Int) := num_u (by decide +kernel) _
theorem b11_A (m : BitBuf) : val b11 m .A = (bitsAt m 36 1 : Int) := num_u (by decide +kernel) _
theorem b11_spx (m : BitBuf) : val b11 m .spx = (bitsAt m 37 1 : Int) := num_u (by decide +kernel) _
theorem b11_px (m : BitBuf) : val b11 m .px = (bitsAt m 38 39 : Int) := num_u (by decide +kernel) _
theorem b11_spy (m : BitBuf) : val b11 m .spy = (bitsAt m 77 1 : Int) := num_u (by decide +kernel) _
theorem b11_py (m : BitBuf) : val b11 m .py = (bitsAt m 78 39 : Int) := num_u (by decide +kernel) _
theorem b11_spz (m : BitBuf) : val b11 m .spz = (bitsAt m 117 1 : Int) := num_u (by decide +kernel) _
theorem b11_pz (m : BitBuf) : val b11 m .pz = (bitsAt m 118 39 : Int) := num_u (by decide +kernel) _
theorem b11_svx (m : BitBuf) : val b11 m .svx = (bitsAt m 157 1 : Int) := num_u (by decide +kernel) _
theorem b11_vx (m : BitBuf) : val b11 m .vx = (bitsAt m 158 34 : Int) := num_u (by decide +kernel) _
theorem b11_svy (m : BitBuf) : val b11 m .svy = (bitsAt m 192 1 : Int) := num_u (by decide +kernel) _
theorem b11_vy (m : BitBuf) : val b11 m .vy = (bitsAt m 193 34 : Int) := num_u (by decide +kernel) _
theorem b12_mt (m : BitBuf) : val b12 m .mt = (bitsAt m 0 6 : Int) := num_u (by decide +kernel) _
theorem b12_ts (m : BitBuf) : val b12 m .ts = (bitsAt m 6 15 : Int) := num_u (by decide +kernel) _
theorem b12_svid (m : BitBuf) : val b12 m .svid = (bitsAt m 21 6 : Int) := num_u (by decide +kernel) _
theorem b12_svh (m : BitBuf) : val b12 m .svh = (bitsAt m 27 1 : Int) := num_u (by decide +kernel) _
theorem b12_valid (m : BitBuf) : val b12 m .valid = (bitsAt m 28 1 : Int) := num_u (by decide +kernel) _
theorem b12_P1 (m : BitBuf) : val b12 m .P1 = (bitsAt m 29 4 : Int) := num_u (by decide +kernel) _
theorem b12_P2 (m : BitBuf) : val b12 m .P2 = (bitsAt m 33 1 : Int) := num_u (by decide +kernel) _
theorem b12_KP (m : BitBuf) : val b12 m .KP = (bitsAt m 34 2 : Int) := num_u (by decide +kernel) _
theorem b12_A (m : BitBuf) : val b12 m .A = (bitsAt m 36 1 : Int) := num_u (by decide +kernel) _
theorem b12_svz (m : BitBuf) : val b12 m .svz = (bitsAt m 37 1 : Int) := num_u (by decide +kernel) _
theorem b12_vz (m : BitBuf) : val b12 m .vz = (bitsAt m 38 34 : Int) := num_u (by decide +kernel) _
theorem b12_sax (m : BitBuf) : val b12 m .sax = (bitsAt m 72 1 : Int) := num_u (by decide +kernel) _
theorem b12_ax (m : BitBuf) : val b12 m .ax = (bitsAt m 73 14 : Int) := num_u (by decide +kernel) _
theorem b12_say (m : BitBuf) : val b12 m .say = (bitsAt m 87 1 : Int) := num_u (by decide +kernel) _
theorem b12_ay (m : BitBuf) : val b12 m .ay = (bitsAt m 88 14 : Int) := num_u (by decide +kernel) _
theorem b12_saz (m : BitBuf) : val b12 m .saz = (bitsAt m 102 1 : Int) := num_u (by decide +kernel) _
theorem b12_az (m : BitBuf) : val b12 m .az = (bitsAt m 103 14 : Int) := num_u (by decide +kernel) _
theorem b12_sdx (m : BitBuf) : val b12 m .sdx = (bitsAt m 117 1 : Int) := num_u (by decide +kernel) _
theorem b12_dx (m : BitBuf) : val b12 m .dx = (bitsAt m 118 12 : Int) := num_u (by decide +kernel) _
theorem b12_sdy (m : BitBuf) : val b12 m .sdy = (bitsAt m 130 1 : Int) := num_u (by decide +kernel) _
theorem b12_dy (m : BitBuf) : val b12 m .dy = (bitsAt m 131 12 : Int) := num_u (by decide +kernel) _
theorem b12_sdz (m : BitBuf) : val b12 m .sdz = (bitsAt m 143 1 : Int) := num_u (by decide +kernel) _
theorem b12_dz (m : BitBuf) : val b12 m .dz = (bitsAt m 144 12 : Int) := num_u (by decide +kernel) _
theorem b12_sisc (m : BitBuf) : val b12 m .sisc = (bitsAt m 156 1 : Int) := num_u (by decide +kernel) _
theorem b12_isc (m : BitBuf) : val b12 m .isc = (bitsAt m 157 17 : Int) := num_u (by decide +kernel) _
theorem b12_stauGps (m : BitBuf) : val b12 m .stauGps = (bitsAt m 174 1 : Int) := num_u (by decide +kernel) _
theorem b12_tauGps (m : BitBuf) : val b12 m .tauGps = (bitsAt m 175 29 : Int) := num_u (by decide +kernel) _
theorem b16_mt (m : BitBuf) : val b16 m .mt = (bitsAt m 0 6 : Int) := num_u (by decide +kernel) _
theorem b16_ts (m : BitBuf) : val b16 m .ts = (bitsAt m 6 15 : Int) := num_u (by decide +kernel) _
theorem b16_svid (m : BitBuf) : val b16 m .svid = (bitsAt m 21 6 : Int) := num_u (by decide +kernel) _
theorem b16_svh (m : BitBuf) : val b16 m .svh = (bitsAt m 27 1 : Int) := num_u (by decide +kernel) _
theorem b16_valid (m : BitBuf) : val b16 m .valid = (bitsAt m 28 1 : Int) := num_u (by decide +kernel) _
theorem b16_P1 (m : BitBuf) : val b16 m .P1 = (bitsAt m 29 4 : Int) := num_u (by decide +kernel) _
theorem b16_P2 (m : BitBuf) : val b16 m .P2 = (bitsAt m 33 1 : Int) := num_u (by decide +kernel) _
theorem b16_KP (m : BitBuf) : val b16 m .KP = (bitsAt m 34 2 : Int) := num_u (by decide +kernel) _
theorem b16_A (m : BitBuf) : val b16 m .A = (bitsAt m 36 1 : Int) := num_u (by decide +kernel) _
theorem b16_tin (m : BitBuf) : val b16 m .tin = (bitsAt m 37 22 : Int) := num_u (by decide +kernel) _
theorem b16_psi (m : BitBuf) : val b16 m .psi = (bitsAt m 59 15 : Int) := num_u (by decide +kernel) _
theorem b16_sn (m : BitBuf) : val b16 m .sn = (bitsAt m 74 1 : Int) := num_u (by decide +kernel) _
theorem b16_wmax (m : BitBuf) : val b16 m .wmax = (bitsAt m 75 17 : Int) := num_u (by decide +kernel) _
theorem b16_win (m : BitBuf) : val b16 m .win = (bitsAt m 92 17 : Int) := num_u (by decide +kernel) _
theorem b16_dw (m : BitBuf) : val b16 m .dw = (bitsAt m 109 15 : Int) := num_u (by decide +kernel) _
theorem b16_tau1 (m : BitBuf) : val b16 m .tau1 = (bitsAt m 124 13 : Int) := num_u (by decide +kernel) _
theorem b16_tau2 (m : BitBuf) : val b16 m .tau2 = (bitsAt m 137 17 : Int) := num_u (by decide +kernel) _
theorem sb_pre (m : BitBuf) : val sb m .pre = (bitsAt m 0 8 : Int) := num_u (by decide +kernel) _
theorem sb_mt (m : BitBuf) : val sb m .mt = (bitsAt m 8 6 : Int) := num_u (by decide +kernel) _
theorem sb_iodn (m : BitBuf) : val sb m .iodn = (bitsAt m 14 8 : Int) := num_u (by decide +kernel) _
theorem sb_t0 (m : BitBuf) : val sb m .t0 = (bitsAt m 22 13 : Int) := num_u (by decide +kernel) _
theorem sb_ura (m : BitBuf) : val sb m .ura = (bitsAt m 35 4 : Int) := num_u (by decide +kernel) _
theorem sb_px (m : BitBuf) : val sb m .px = intAt m 39 30 := num_s (by decide +kernel) _
theorem sb_py (m : BitBuf) : val sb m .py = intAt m 69 30 := num_s (by decide +kernel) _
theorem sb_pz (m : BitBuf) : val sb m .pz = intAt m 99 25 := num_s (by decide +kernel) _
theorem sb_vx (m : BitBuf) : val sb m .vx = intAt m 124 17 := num_s (by decide +kernel) _
theorem sb_vy (m : BitBuf) : val sb m .vy = intAt m 141 17 := num_s (by decide +kernel) _
theorem sb_vz (m : BitBuf) : val sb m .vz = intAt m 158 18 := num_s (by decide +kernel) _
theorem sb_ax (m : BitBuf) : val sb m .ax = intAt m 176 10 := num_s (by decide +kernel) _
theorem sb_ay (m : BitBuf) : val sb m .ay = intAt m 186 10 := num_s (by decide +kernel) _
theorem sb_az (m : BitBuf) : val sb m .az = intAt m 196 10 := num_s (by decide +kernel) _
theorem sb_af0 (m : BitBuf) : val sb m .af0 = intAt m 206 12 := num_s (by decide +kernel) _
theorem sb_af1 (m : BitBuf) : val sb m .af1 = intAt m 218 8 := num_s (by decide +kernel) _
theorem sb_crc (m : BitBuf) : val sb m .crc = (bitsAt m 226 24 : Int) := num_u (by decide +kernel) _

variable {b : BitBuf} {a W : Nat} {m : BitBuf}

theorem _root_.Verif.Col.Seg.g (h : Seg b a W m) (o o' n' : Nat) {i n : Nat} (c : i = a + o ∧ o' = o + 1 ∧ n = n' + 1 ∧ o + n ≤ W) :
    getbitg b i n = .ok (sm (bitsAt m o 1) (bitsAt m o' n')) := by
  obtain ⟨c1, rfl, rfl, c4⟩ := c
  unfold getbitg
  rw [h.u o (i := i) (n := 1) (by omega), Py.okBind, Nat.add_sub_cancel, h.u (o + 1) (i := i + 1) (n := n') (by omega), Py.okBind]
  unfold sm
  by_cases c : bitsAt m o 1 = 0
  · rw [if_neg (not_not.2 c), if_pos (by exact_mod_cast c)]
    rfl
  · rw [if_pos c, if_neg (by exact_mod_cast c)]
    rfl

theorem copy_splice {src dst : BitBuf} {os od n : Nat} (hs : os + n ≤ src.length) (hd : od + n ≤ dst.length) :
    copyBuff src dst os od n = .ok (splice dst od ((src.drop os).take n)) := by
  obtain ⟨o, ho, hl, h1, h2⟩ := C08.copyBuff_bits src dst os od n hs hd
  rw [ho]
  congr 1
  apply List.ext_getElem?
  intro k
  have hfl : ((src.drop os).take n).length = n := by simp; omega
  rw [splice_getElem? _ _ _ (by rw [hfl]; exact hd), hfl]
  by_cases hk : k < od
  · rw [h2 k (Or.inl hk), if_neg (by omega)]
  · by_cases hk2 : k < od + n
    · rw [if_pos (by omega)]
      have := h1 (k - od) (by omega)
      rw [show od + (k - od) = k by omega] at this
      rw [this]
      simp only [List.getElem?_take, List.getElem?_drop]
      rw [if_pos (by omega)]
    · rw [if_neg (by omega), h2 k (Or.inr (by omega))]

/-! ## Times -/

/-- **C80.** The day of a four-year interval from 1996 is converted as in the calendar; the time of day is that of Moscow. -/
theorem gep_days (N4 NT : Int) (sod : ℚ) :
    instant (gep2time N4 NT sod) = gloUtc N4 NT sod + offsetUtc (gloUtc N4 NT sod) := by
  unfold gep2time
  have hd : ∀ j doy : Int, (1 ≤ j ∧ j ≤ 4) → doy = NT - (if j = 1 then 0 else 365 * (j - 1) + 1) →
      ((1996 + 4 * (N4 - 1) + j - 1 - 1970) * 365 + (1996 + 4 * (N4 - 1) + j - 1 - 1969) / 4 + doy - 1 : Int) =
        9496 + 1461 * (N4 - 1) + NT - 1 := by
    intro j doy hj hd
    split at hd <;> omega
  have key : ∀ p : Int × Int, (1 ≤ p.1 ∧ p.1 ≤ 4) → p.2 = NT - (if p.1 = 1 then 0 else 365 * (p.1 - 1) + 1) →
      instant (utc2gpst (timeadd ⟨((1996 + 4 * (N4 - 1) + p.1 - 1 - 1970) * 365 + (1996 + 4 * (N4 - 1) + p.1 - 1 - 1969) / 4 + p.2 - 1) * 86400 +
        truncQ sod, sod - truncQ sod⟩ (-10800))) = gloUtc N4 NT sod + offsetUtc (gloUtc N4 NT sod) := by
    intro p hj hp
    rw [hd p.1 p.2 hj hp, C06.utc2gpst_offset]
    have : instant (timeadd ⟨(9496 + 1461 * (N4 - 1) + NT - 1) * 86400 + truncQ sod, sod - truncQ sod⟩ (-10800)) = gloUtc N4 NT sod := by
      rw [C06.instant_tot, tot_timeadd]
      unfold GTime.tot gloUtc
      push_cast
      ring
    rw [this]
  by_cases c1 : NT ≤ 366
  · rw [if_pos c1]
    exact key (1, NT) ⟨by norm_num, by norm_num⟩ (by norm_num)
  rw [if_neg c1]
  by_cases c2 : NT ≤ 731
  · rw [if_pos c2]
    exact key (2, NT - 366) ⟨by norm_num, by norm_num⟩ (by norm_num)
  rw [if_neg c2]
  by_cases c3 : NT ≤ 1096
  · rw [if_pos c3]
    exact key (3, NT - 731) ⟨by norm_num, by norm_num⟩ (by norm_num)
  rw [if_neg c3]
  exact key (4, NT - 1096) ⟨by norm_num, by norm_num⟩ (by norm_num)

/-- 1 March 2000 is the day 61 of the interval 2; 31 December 2023 the day 1461 of the interval 7 -/
example : timediff ⟨951868800, 0⟩ ⟨820454400, 0⟩ = 86400 * (1461 * (2 - 1) + 61 - 1) ∧ (epoch2time ⟨2000, 3, 1, 0, 0, 0⟩).time = 951868800 ∧
    (epoch2time ⟨2023, 12, 31, 0, 0, 0⟩).time = 820454400 + 86400 * (1461 * (7 - 1) + 1461 - 1) := by decide +kernel

/-- **C80.** The time of day is changed by a whole number of days to one within half a day of the other. -/
theorem near_spec (t tod : ℚ) (h : -129600 ≤ t - tod ∧ t - tod ≤ 129600) :
    |near t tod - tod| ≤ 43200 ∧ ∃ d : Int, near t tod = t + 86400 * d := by
  unfold near
  rw [abs_le]
  split
  · exact ⟨by constructor <;> linarith, 1, by push_cast; ring⟩
  split
  · exact ⟨by constructor <;> linarith, -1, by push_cast; ring⟩
  · exact ⟨by constructor <;> linarith, 0, by push_cast; ring⟩

theorem bits_q (m : BitBuf) (i n : Nat) : (0 : ℚ) ≤ ((bitsAt m i n : Int) : ℚ) ∧ ((bitsAt m i n : Int) : ℚ) ≤ 2 ^ n - 1 := by
  have h := bits_lt m i n
  constructor
  · exact_mod_cast Nat.zero_le _
  · have : ((bitsAt m i n : Int) : ℚ) + 1 ≤ 2 ^ n := by exact_mod_cast h
    linarith

theorem day_tod (time : ℚ) : 0 ≤ time - dayOf time ∧ time - dayOf time < 86400 := by
  unfold dayOf
  have f1 := Int.floor_le (time / 86400)
  have f2 := Int.lt_floor_add_one (time / 86400)
  rw [le_div_iff₀ (by norm_num)] at f1
  rw [div_lt_iff₀ (by norm_num)] at f2
  constructor <;> linarith

/-- **C80.** Times of an ephemeris from FDMA: in UTC, the time of ephemeris and that of the frame are within half a day of the time
of the call (taken as UTC), and have the broadcast time of day in Moscow. -/
theorem fdma_times (week : Int) (time : ℚ) (sat freq : Int) (x y z w : BitBuf) (v : Option BitBuf) (h0 : 0 ≤ time) (h1 : time < 604800) :
    let e := fdmaOf week time sat freq x y z w v
    (∃ T : ℚ, instant e.toe = T + offsetUtc T ∧ |T - (315964800 + 604800 * week + time)| ≤ 43200 ∧
      ∃ d : Int, T + 10800 = 86400 * d + val f2 y .tb * 900) ∧
    (∃ T : ℚ, instant e.tof = T + offsetUtc T ∧ |T - (315964800 + 604800 * week + time)| ≤ 43200 ∧
      ∃ d : Int, T + 10800 = 86400 * d + (val f1 x .tkH * 3600 + val f1 x .tkM * 60 + val f1 x .tkS * 30)) := by
  intro e
  have key : ∀ t : ℚ, -10800 ≤ t → t ≤ 110000 →
      ∃ T : ℚ, instant (utc2gpst (gpst2time week (dayOf time + near t (time - dayOf time)))) = T + offsetUtc T ∧
        |T - (315964800 + 604800 * week + time)| ≤ 43200 ∧ ∃ d : Int, T + 10800 = 86400 * d + (t + 10800) := by
    intro t ht0 ht1
    have hd := day_tod time
    obtain ⟨hn, d, hd2⟩ := near_spec t (time - dayOf time) ⟨by linarith, by linarith⟩
    have hn' := abs_le.1 hn
    refine ⟨315964800 + 604800 * week + (dayOf time + near t (time - dayOf time)), ?_, ?_, ?_⟩
    · rw [C06.utc2gpst_offset]
      have : instant (gpst2time week (dayOf time + near t (time - dayOf time))) =
          315964800 + 604800 * week + (dayOf time + near t (time - dayOf time)) :=
        (C05.week_tow_instant _ _ ⟨by linarith, by linarith⟩).1
      rw [this]
    · rw [abs_le]
      constructor <;> linarith
    · refine ⟨3657 + 7 * week + ⌊time / 86400⌋ + d, ?_⟩
      rw [hd2]
      unfold dayOf
      push_cast
      ring
  constructor
  · have r := bits_q y 9 7
    rw [← f2_tb] at r
    have r0 := r.1
    have r1 := r.2
    norm_num only at r1
    obtain ⟨T, a1, a2, d, a3⟩ := key (val f2 y .tb * 900 - 10800) (by linarith) (by linarith)
    exact ⟨T, a1, a2, d, by linarith⟩
  · have r1 := bits_q x 9 5
    have r2 := bits_q x 14 6
    have r3 := bits_q x 20 1
    rw [← f1_tkH] at r1
    rw [← f1_tkM] at r2
    rw [← f1_tkS] at r3
    obtain ⟨r1, q1⟩ := r1
    obtain ⟨r2, q2⟩ := r2
    obtain ⟨r3, q3⟩ := r3
    norm_num only at q1 q2 q3
    obtain ⟨T, a1, a2, d, a3⟩ := key (val f1 x .tkH * 3600 + val f1 x .tkM * 60 + val f1 x .tkS * 30 - 10800) (by linarith) (by linarith)
    exact ⟨T, a1, a2, d, by linarith⟩

/-! ## FDMA -/

theorem sat_glo {sat : Int} (h : Dom sat) : sat2prn sat = (.glo, sat - 148) := by
  unfold Dom at h
  rcases C01.sat2prn_cases sat with x | x | x | x | x | x | x | x
  all_goals first | exact x.2.2 | omega

/-- the number of a string, from 0 -/
def kindF (c : Call) : Option Nat :=
  if 1 ≤ bitsAt c.msg 1 4 ∧ bitsAt c.msg 1 4 ≤ 5 then some (bitsAt c.msg 1 4 - 1) else none

/-- the same for the times, which are in front of the strings -/
def kindT (c : Call) : Option Nat := kindF ⟨c.sat, c.msg.drop 32⟩

def callF (c : GCall) : Call := ⟨c.sat, c.msg⟩
def callT (c : GCall) : Call := ⟨c.sat, natToBits 32 ⌊c.time⌋.toNat ++ c.msg⟩

theorem kindT_eq (c : GCall) : kindT (callT c) = kindF (callF c) := by
  unfold kindT callT callF
  rw [List.drop_left' (natToBits_length 32 _)]

theorem strNo_eq (c : GCall) : strNo c = bitsAt c.msg 1 4 := f1_m _

theorem kindF_some (c : GCall) {k : Nat} (hk : k < 5) : kindF (callF c) = some k ↔ strNo c = (k : Int) + 1 := by
  rw [strNo_eq]
  unfold kindF callF
  dsimp only
  split
  · rw [Option.some.injEq]; omega
  · simp only [reduceCtorEq, false_iff]; omega

theorem lastF (cs : List GCall) (s : Int) {k : Nat} (hk : k < 5) :
    last kindF (cs.map callF) s k = (lastStr cs s ((k : Int) + 1)).map (·.msg) := by
  unfold last lastStr
  rw [List.filter_map, List.getLast?_map, Option.map_map]
  have : ((fun c : Call => decide (c.sat = s ∧ kindF c = some k)) ∘ callF) = fun c => decide (c.sat = s ∧ strNo c = (k : Int) + 1) := by
    funext c
    simp only [Function.comp]
    congr 1
    rw [kindF_some c hk]
    rfl
  rw [this]
  rfl

theorem lastT (cs : List GCall) (s : Int) {k : Nat} (hk : k < 5) :
    last kindT (cs.map callT) s k = (lastStr cs s ((k : Int) + 1)).map fun c => natToBits 32 ⌊c.time⌋.toNat ++ c.msg := by
  unfold last lastStr
  rw [List.filter_map, List.getLast?_map, Option.map_map]
  have : ((fun c : Call => decide (c.sat = s ∧ kindT c = some k)) ∘ callT) = fun c => decide (c.sat = s ∧ strNo c = (k : Int) + 1) := by
    funext c
    simp only [Function.comp]
    congr 1
    rw [kindT_eq, kindF_some c hk]
    rfl
  rw [this]
  rfl

theorem fdma_try {week : Int} {time : ℚ} {sat freq : Int} {x y z w v : BitBuf} {p q r s : BitBuf} (h1 : Seg b 0 96 x) (h2 : Seg b 96 96 y)
    (h3 : Seg b (96 * 2) 96 z) (h4 : Seg b (96 * 3) 96 w) (h5 : Seg b (96 * 4) 96 v) (g1 : Seg b (8 * 60) 32 p) (g2 : Seg b (8 * 64) 32 q)
    (g3 : Seg b (8 * 68) 32 r) (g4 : Seg b (8 * 72) 32 s) :
    fdmaTry week time sat freq b = .ok (if (bitsAt x 1 4 = 1 ∧ bitsAt y 1 4 = 2 ∧ bitsAt z 1 4 = 3 ∧ bitsAt w 1 4 = 4) ∧
        (bitsAt q 0 32 : Int) = bitsAt p 0 32 + 2 ∧ (bitsAt r 0 32 : Int) = bitsAt q 0 32 + 2 ∧ (bitsAt s 0 32 : Int) = bitsAt r 0 32 + 2 then
      some (fdmaOf week time sat freq x y z w (if bitsAt v 1 4 = 5 then some v else none)) else none) := by
  unfold fdmaTry
  rw [h1.u 1 (i := 1) (n := 4) (by omega), Py.okBind, h2.u 1 (i := 96 + 1) (n := 4) (by omega), Py.okBind,
    h3.u 1 (i := 96 * 2 + 1) (n := 4) (by omega), Py.okBind, h4.u 1 (i := 96 * 3 + 1) (n := 4) (by omega), Py.okBind,
    h5.u 1 (i := 96 * 4 + 1) (n := 4) (by omega), Py.okBind, g1.u 0 (i := 8 * 60) (n := 32) (by omega), Py.okBind,
    g2.u 0 (i := 8 * 64) (n := 32) (by omega), Py.okBind, g3.u 0 (i := 8 * 68) (n := 32) (by omega), Py.okBind,
    g4.u 0 (i := 8 * 72) (n := 32) (by omega), Py.okBind]
  by_cases c1 : bitsAt x 1 4 ≠ 1 ∨ bitsAt y 1 4 ≠ 2 ∨ bitsAt z 1 4 ≠ 3 ∨ bitsAt w 1 4 ≠ 4
  · rw [if_pos c1, if_neg]
    · rfl
    · rintro ⟨h, -⟩
      omega
  rw [if_neg c1]
  by_cases c2 : (bitsAt s 0 32 : Int) - bitsAt r 0 32 ≠ 2 ∨ (bitsAt r 0 32 : Int) - bitsAt q 0 32 ≠ 2 ∨
      (bitsAt q 0 32 : Int) - bitsAt p 0 32 ≠ 2
  · rw [if_pos c2, if_neg]
    · rfl
    · rintro ⟨-, h⟩
      omega
  rw [if_neg c2]
  push Not at c1 c2
  rw [if_pos ⟨c1, by omega, by omega, by omega⟩]
  rw [h1.u 7 (i := 7) (n := 2) (by omega), Py.okBind]
  rw [h1.u 9 (i := 9) (n := 5) (by omega), Py.okBind]
  rw [h1.u 14 (i := 14) (n := 6) (by omega), Py.okBind]
  rw [h1.u 20 (i := 20) (n := 1) (by omega), Py.okBind]
  rw [h1.g 21 22 23 (i := 21) (n := 24) (by omega), Py.okBind]
  rw [h1.g 45 46 4 (i := 45) (n := 5) (by omega), Py.okBind]
  rw [h1.g 50 51 26 (i := 50) (n := 27) (by omega), Py.okBind]
  rw [h2.u 5 (i := 96 + 5) (n := 3) (by omega), Py.okBind]
  rw [h2.u 8 (i := 96 + 5 + 3) (n := 1) (by omega), Py.okBind]
  rw [h2.u 9 (i := 96 + 5 + 4) (n := 7) (by omega), Py.okBind]
  rw [h2.g 21 22 23 (i := 96 + 21) (n := 24) (by omega), Py.okBind]
  rw [h2.g 45 46 4 (i := 96 + 45) (n := 5) (by omega), Py.okBind]
  rw [h2.g 50 51 26 (i := 96 + 50) (n := 27) (by omega), Py.okBind]
  rw [h3.u 5 (i := 96 * 2 + 5) (n := 1) (by omega), Py.okBind]
  rw [h3.g 6 7 10 (i := 96 * 2 + 6) (n := 11) (by omega), Py.okBind]
  rw [h3.u 18 (i := 96 * 2 + 18) (n := 2) (by omega), Py.okBind]
  rw [h3.u 20 (i := 96 * 2 + 18 + 2) (n := 1) (by omega), Py.okBind]
  rw [h3.g 21 22 23 (i := 96 * 2 + 21) (n := 24) (by omega), Py.okBind]
  rw [h3.g 45 46 4 (i := 96 * 2 + 45) (n := 5) (by omega), Py.okBind]
  rw [h3.g 50 51 26 (i := 96 * 2 + 50) (n := 27) (by omega), Py.okBind]
  rw [h4.g 5 6 21 (i := 96 * 3 + 5) (n := 22) (by omega), Py.okBind]
  rw [h4.g 27 28 4 (i := 96 * 3 + 27) (n := 5) (by omega), Py.okBind]
  rw [h4.u 32 (i := 96 * 3 + 32) (n := 5) (by omega), Py.okBind]
  rw [h4.u 37 (i := 96 * 3 + 32 + 5) (n := 14) (by omega), Py.okBind]
  rw [h4.u 51 (i := 96 * 3 + 32 + 19) (n := 1) (by omega), Py.okBind]
  rw [h4.u 52 (i := 96 * 3 + 32 + 20) (n := 4) (by omega), Py.okBind]
  rw [h4.u 56 (i := 96 * 3 + 32 + 24) (n := 3) (by omega), Py.okBind]
  rw [h4.u 59 (i := 96 * 3 + 32 + 27) (n := 11) (by omega), Py.okBind]
  rw [h4.u 70 (i := 96 * 3 + 32 + 38) (n := 5) (by omega), Py.okBind]
  rw [h4.u 75 (i := 96 * 3 + 32 + 43) (n := 2) (by omega), Py.okBind]
  have h55 : string5 b (bitsAt v 1 4) =
      .ok ((match (if bitsAt v 1 4 = 5 then some v else none) with
          | none => 0 | some v => sm (val f5 v .stauC) (val f5 v .tauC) * (1 / 2 ^ 31) : ℚ),
        (match (if bitsAt v 1 4 = 5 then some v else none) with
          | none => 0 | some v => sm (val f5 v .stauGps) (val f5 v .tauGps) * (1 / 2 ^ 30) : ℚ)) := by
    unfold string5
    by_cases c5 : bitsAt v 1 4 = 5
    · rw [if_neg (not_not.2 c5), if_pos c5, h5.u 5 (i := 96 * 4 + 5) (n := 11) (by omega), Py.okBind, h5.g 16 17 31 (i := 96 * 4 + 16) (n := 32) (by omega), Py.okBind,
        h5.u 49 (i := 96 * 4 + 49) (n := 5) (by omega), Py.okBind, h5.g 54 55 21 (i := 96 * 4 + 54) (n := 22) (by omega), Py.okBind]
      simp only [f5_stauC, f5_tauC, f5_stauGps, f5_tauGps]
      rfl
    · rw [if_pos c5, if_neg c5]
      rfl
  rw [h55, Py.okBind]
  unfold fdmaOf near dayOf nearTod
  simp only [f1_idle, f1_m, f1_rsv, f1_P1, f1_tkH, f1_tkM, f1_tkS, f1_svx, f1_vx, f1_sax, f1_ax, f1_spx, f1_px, f1_ham, f2_idle, f2_m, f2_Bn, f2_P2, f2_tb, f2_rsv, f2_svy, f2_vy, f2_say, f2_ay, f2_spy, f2_py, f2_ham, f3_idle, f3_m, f3_P3, f3_sgamn, f3_gamn, f3_rsv, f3_P, f3_ln, f3_svz, f3_vz, f3_saz, f3_az, f3_spz, f3_pz, f3_ham, f4_idle, f4_m, f4_staun, f4_taun, f4_sdtaun, f4_dtaun, f4_En, f4_rsv, f4_P4, f4_FT, f4_rsv2, f4_NT, f4_slot, f4_M, f4_ham, f5_idle, f5_m, f5_NA, f5_stauC, f5_tauC, f5_rsv, f5_N4, f5_stauGps, f5_tauGps, f5_ln, f5_ham, sub_sub_cancel]
  rfl

/-- the buffer of a satellite -/
def bufF (st : Dict Int BitBuf) (sat : Int) : Option BitBuf := some ((Dict.get? st (sat - 148)).getD (List.replicate 640 false))

def StoredF (st : Dict Int BitBuf) (cs : List GCall) : Prop :=
  (Col.Inv kindF 96 (fun k => 96 * k) (fun k => k < 5) 640 Dom (bufF st) (cs.map callF) ∧
   Col.Inv kindT 32 (fun k => 480 + 32 * k) (fun k => k < 5) 640 Dom (bufF st) (cs.map callT)) ∧ ∀ c ∈ cs, GoodF c

theorem time_bits {c : GCall} (h : GoodF c) : bitsAt (natToBits 32 ⌊c.time⌋.toNat ++ c.msg) 0 32 = ⌊c.time⌋.toNat := by
  have h0 : 0 ≤ ⌊c.time⌋ := Int.floor_nonneg.2 h.2.2.1
  have h1 : ⌊c.time⌋ < 2 ^ 32 := by
    rw [Int.floor_lt]
    exact_mod_cast h.2.2.2
  unfold bitsAt
  rw [List.drop_zero, List.take_left' (natToBits_length 32 _)]
  rw [bitsToNat_natToBits, Nat.mod_eq_of_lt (by omega)]

theorem lastStr_mem {cs : List GCall} {s k : Int} {c : GCall} (h : lastStr cs s k = some c) : c ∈ cs ∧ strNo c = k := by
  have := List.mem_filter.1 (List.mem_of_getLast? h)
  exact ⟨this.1, (of_decide_eq_true this.2).2⟩

theorem fdma_parts (cs : List GCall) (c : GCall) (hg : ∀ x ∈ cs ++ [c], GoodF x) (hk : 1 ≤ strNo c ∧ strNo c ≤ 5) :
    let P := fun k => part kindF 96 ((cs ++ [c]).map callF) c.sat k
    let T := fun k => part kindT 32 ((cs ++ [c]).map callT) c.sat k
    fdmaResult cs c = if (bitsAt (P 0) 1 4 = 1 ∧ bitsAt (P 1) 1 4 = 2 ∧ bitsAt (P 2) 1 4 = 3 ∧ bitsAt (P 3) 1 4 = 4) ∧
        (bitsAt (T 1) 0 32 : Int) = bitsAt (T 0) 0 32 + 2 ∧ (bitsAt (T 2) 0 32 : Int) = bitsAt (T 1) 0 32 + 2 ∧
        (bitsAt (T 3) 0 32 : Int) = bitsAt (T 2) 0 32 + 2 then
      some (fdmaOf c.week c.time c.sat c.freq (P 0) (P 1) (P 2) (P 3) (if bitsAt (P 4) 1 4 = 5 then some (P 4) else none)) else none := by
  intro P T
  unfold fdmaResult
  rw [if_neg (by omega)]
  have hP : ∀ k, k < 5 → P k = ((lastStr (cs ++ [c]) c.sat ((k : Int) + 1)).map (·.msg)).getD (List.replicate 96 false) := by
    intro k hk
    show part _ _ _ _ _ = _
    unfold part
    rw [lastF _ _ hk]
  have hT : ∀ k, k < 5 → T k = ((lastStr (cs ++ [c]) c.sat ((k : Int) + 1)).map fun c => natToBits 32 ⌊c.time⌋.toNat ++ c.msg).getD
      (List.replicate 32 false) := by
    intro k hk
    show part _ _ _ _ _ = _
    unfold part
    rw [lastT _ _ hk]
  have hid : ∀ k : Nat, k < 5 → ∀ x, lastStr (cs ++ [c]) c.sat ((k : Int) + 1) = some x →
      bitsAt x.msg 1 4 = k + 1 ∧ (⌊x.time⌋.toNat : Int) = ⌊x.time⌋ ∧
        bitsAt (natToBits 32 ⌊x.time⌋.toNat ++ x.msg) 0 32 = ⌊x.time⌋.toNat := by
    intro k hk x hx
    obtain ⟨m1, m2⟩ := lastStr_mem hx
    rw [strNo_eq] at m2
    have hgx := hg x m1
    exact ⟨by omega, Int.toNat_of_nonneg (Int.floor_nonneg.2 hgx.2.2.1), time_bits hgx⟩
  have e0 := hP 0 (by omega)
  have e1 := hP 1 (by omega)
  have e2 := hP 2 (by omega)
  have e3 := hP 3 (by omega)
  have e4 := hP 4 (by omega)
  have t0 := hT 0 (by omega)
  have t1 := hT 1 (by omega)
  have t2 := hT 2 (by omega)
  have t3 := hT 3 (by omega)
  have i0 := hid 0 (by omega)
  have i1 := hid 1 (by omega)
  have i2 := hid 2 (by omega)
  have i3 := hid 3 (by omega)
  have i4 := hid 4 (by omega)
  norm_num at e0 e1 e2 e3 e4 t0 t1 t2 t3 i0 i1 i2 i3 i4
  rw [e0, e1, e2, e3, e4, t0, t1, t2, t3]
  generalize lastStr (cs ++ [c]) c.sat 1 = o1 at *
  generalize lastStr (cs ++ [c]) c.sat 2 = o2 at *
  generalize lastStr (cs ++ [c]) c.sat 3 = o3 at *
  generalize lastStr (cs ++ [c]) c.sat 4 = o4 at *
  generalize lastStr (cs ++ [c]) c.sat 5 = o5 at *
  have h5 : (o5.map (·.msg)) = if bitsAt ((o5.map (·.msg)).getD (List.replicate 96 false)) 1 4 = 5 then
      some ((o5.map (·.msg)).getD (List.replicate 96 false)) else none := by
    cases o5 with
    | none => rw [Option.map_none, Option.getD_none, bits_zeros, if_neg (by decide)]
    | some v => rw [Option.map_some, Option.getD_some, if_pos (i4 v rfl).1]
  rw [← h5]
  cases o1 with
  | none => rw [if_neg]; rintro ⟨⟨h, -⟩, -⟩; rw [Option.map_none, Option.getD_none, bits_zeros] at h; cases h
  | some x => cases o2 with
    | none => rw [if_neg]; rintro ⟨⟨-, h, -⟩, -⟩; rw [Option.map_none, Option.getD_none, bits_zeros] at h; cases h
    | some y => cases o3 with
      | none => rw [if_neg]; rintro ⟨⟨-, -, h, -⟩, -⟩; rw [Option.map_none, Option.getD_none, bits_zeros] at h; cases h
      | some z => cases o4 with
        | none => rw [if_neg]; rintro ⟨⟨-, -, -, h⟩, -⟩; rw [Option.map_none, Option.getD_none, bits_zeros] at h; cases h
        | some w =>
          obtain ⟨a1, a2, a3⟩ := i0 x rfl
          obtain ⟨b1, b2, b3⟩ := i1 y rfl
          obtain ⟨c1, c2, c3⟩ := i2 z rfl
          obtain ⟨d1, d2, d3⟩ := i3 w rfl
          simp only [Option.map_some, Option.getD_some]
          rw [a1, b1, c1, d1, a3, b3, c3, d3]
          apply if_congr _ rfl rfl
          omega

theorem item_lazy (st : Dict Int BitBuf) (p : Int) (Z : BitBuf) :
    (if st.mem p then st else st.set p Z).getItem p = .ok ((Dict.get? st p).getD Z) := by
  rw [Dict.getItem_ok_iff]
  unfold Dict.mem
  cases h : Dict.get? st p with
  | none => rw [if_neg (by simp), Dict.get?_set_self, Option.getD_none]
  | some x => rw [if_pos (by simp), h, Option.getD_some]

theorem set_lazy (st : Dict Int BitBuf) {p q : Int} (Z b : BitBuf) (h : q ≠ p) :
    Dict.get? ((if st.mem p then st else st.set p Z).set p b) q = Dict.get? st q := by
  rw [Dict.get?_set_ne _ _ h]
  split
  · rfl
  · exact Dict.get?_set_ne _ _ h

theorem fdma_step (st : Dict Int BitBuf) (cs : List GCall) (c : GCall) (hi : StoredF st cs) (hg : GoodF c) :
    ∃ st', decodeFdma st c.week c.time c.sat c.msg c.freq = .ok (st', fdmaResult cs c) ∧ StoredF st' (cs ++ [c]) := by
  have hall : ∀ x ∈ cs ++ [c], GoodF x := by
    intro x hx
    rcases List.mem_append.1 hx with h | h
    · exact hi.2 x h
    · rw [List.mem_singleton.1 h]; exact hg
  obtain ⟨bf, hb, hl, -⟩ := hi.1.1 c.sat hg.1
  have hlen := hg.2.1
  have hm := Seg.self hg.2.1
  unfold decodeFdma
  rw [sat_glo hg.1]
  dsimp only
  rw [hm.u 1 (i := 1) (n := 4) (by omega), Py.okBind]
  have hs := strNo_eq c
  by_cases c0 : bitsAt c.msg 1 4 = 0 ∨ bitsAt c.msg 1 4 > 5
  · rw [if_pos c0]
    refine ⟨st, ?_, ⟨?_, ?_⟩, hall⟩
    · unfold fdmaResult
      rw [if_pos (by omega)]
      rfl
    · rw [List.map_append]
      refine hi.1.1.same fun k hk => ?_
      rw [Ne, kindF_some c hk]
      omega
    · rw [List.map_append]
      refine hi.1.2.same fun k hk => ?_
      rw [Ne, kindT_eq, kindF_some c hk]
      omega
  rw [if_neg c0, item_lazy, Py.okBind]
  have hb' : (Dict.get? st (c.sat - 148)).getD (List.replicate (8 * 80) false) = bf := Option.some.inj hb
  rw [hb']
  obtain ⟨k, hk⟩ : ∃ k, bitsAt c.msg 1 4 = k + 1 := ⟨bitsAt c.msg 1 4 - 1, by omega⟩
  rw [hk, Nat.add_sub_cancel]
  have hk5 : k < 5 := by omega
  have hkind : kindF (callF c) = some k := (kindF_some c hk5).2 (by omega)
  have ht0 : 0 ≤ ⌊c.time⌋ := Int.floor_nonneg.2 hg.2.2.1
  have ht1 : ⌊c.time⌋ < 2 ^ 32 := by
    rw [Int.floor_lt]
    exact_mod_cast hg.2.2.2
  rw [copy_splice (by omega) (by omega), Py.okBind, List.drop_zero, show k * 12 * 8 = 96 * k by omega]
  have hv : (c.msg.take 96).length = 96 := by rw [List.length_take]; omega
  have hf1 : 96 * k + (c.msg.take 96).length ≤ bf.length := by omega
  have hf2 : 480 + 32 * k + (natToBits 32 ⌊c.time⌋.toNat).length ≤ (splice bf (96 * k) (c.msg.take 96)).length := by
    rw [splice_length _ _ _ hf1, natToBits_length]; omega
  have hp : packL (splice bf (96 * k) (c.msg.take 96)) (8 * (60 + k * 4)) (truncQ c.time) =
      .ok (splice (splice bf (96 * k) (c.msg.take 96)) (480 + 32 * k) (natToBits 32 ⌊c.time⌋.toNat)) := by
    unfold packL truncQ
    rw [if_pos hg.2.2.1, if_pos ht0]
    unfold writeU
    rw [natToBits_length] at hf2
    rw [if_pos (by omega), if_pos (by omega), show 8 * (60 + k * 4) = 480 + 32 * k by omega]
  rw [hp, Py.okBind]
  generalize hB : splice (splice bf (96 * k) (c.msg.take 96)) (480 + 32 * k) (natToBits 32 ⌊c.time⌋.toNat) = B
  have hlB : 640 ≤ B.length := by rw [← hB, splice_length _ _ _ hf2, splice_length _ _ _ hf1]; exact hl
  have hbuf : bufF (((if st.mem (c.sat - 148) then st else st.set (c.sat - 148) (List.replicate (8 * 80) false)).set (c.sat - 148) B)) c.sat =
      some B := by
    unfold bufF
    rw [Dict.get?_set_self, Option.getD_some]
  have hoth : ∀ s, s ≠ c.sat →
      bufF (((if st.mem (c.sat - 148) then st else st.set (c.sat - 148) (List.replicate (8 * 80) false)).set (c.sat - 148) B)) s = bufF st s := by
    intro s hs
    unfold bufF
    rw [set_lazy _ _ _ (by omega)]
  generalize ((if st.mem (c.sat - 148) then st else st.set (c.sat - 148) (List.replicate (8 * 80) false)).set (c.sat - 148) B) = st' at *
  have hS : StoredF st' (cs ++ [c]) := by
    refine ⟨⟨?_, ?_⟩, hall⟩
    · rw [List.map_append]
      refine Col.Inv.step hi.1.1 (c := callF c) hb hbuf (fun s _ hne => hoth s hne) hlB (fun k hk => by omega) hg.2.1 ?_
      intro j hj
      rw [← hB, Rawnav.splice_seg_other hf2 (by omega), splice_slots hv (by omega), hkind]
      simp only [Option.some.injEq]
      rfl
    · rw [List.map_append]
      refine Col.Inv.step hi.1.2 (c := callT c) hb hbuf (fun s _ hne => hoth s hne) hlB (fun k hk => by omega)
        (by unfold callT; rw [List.length_append, natToBits_length]; omega) ?_
      intro j hj
      rw [kindT_eq, hkind, ← hB]
      simp only [Option.some.injEq]
      by_cases e : k = j
      · rw [if_pos e, ← e]
        have := Rawnav.splice_seg_same hf2
        rw [natToBits_length] at this
        rw [this]
        unfold callT
        rw [List.take_left' (natToBits_length 32 _)]
      · rw [if_neg e, Rawnav.splice_seg_other hf2 (by rw [natToBits_length]; omega), Rawnav.splice_seg_other hf1 (by omega)]
  refine ⟨st', ?_, hS⟩
  obtain ⟨B1, q1, -, p1⟩ := hS.1.1 c.sat hg.1
  obtain ⟨B2, q2, -, p2⟩ := hS.1.2 c.sat hg.1
  rw [hbuf] at q1 q2
  cases q1
  cases q2
  rw [fdma_try (p1 0 (by omega)) (p1 1 (by omega)) (p1 2 (by omega)) (p1 3 (by omega)) (p1 4 (by omega)) (p2 0 (by omega)) (p2 1 (by omega))
    (p2 2 (by omega)) (p2 3 (by omega)), Py.okBind, fdma_parts cs c hall (by omega)]
  rfl

/-- **C80.** Starting with an empty store, for every sequence of strings of GLONASS satellites, each call returns what
`fdmaResult` says about the calls so far. -/
theorem fdma_history (cs : List GCall) (h : ∀ c ∈ cs, GoodF c) :
    ∃ d' rs, run (fun d c => decodeFdma d c.week c.time c.sat c.msg c.freq) [] cs = .ok (d', rs) ∧
      rs.length = cs.length ∧ ∀ i (hi : i < cs.length), rs[i]? = some (fdmaResult (cs.take i) cs[i]) :=
  history (Inv := StoredF) (Good := GoodF) fdma_step
    ⟨⟨Col.Inv.init (fun k hk => by omega) (fun _ _ => rfl), Col.Inv.init (fun k hk => by omega) (fun _ _ => rfl)⟩, by simp⟩ cs h

/-! ## CDMA -/

theorem cdma1 {sat : Int} {x y z : BitBuf} (h1 : Seg b 0 256 x) (h2 : Seg b 256 256 y) (h3 : Seg b 512 256 z)
    (h4 : Seg b 768 256 (List.replicate 256 false)) :
    decodeCdma sat b 1 = .ok (if bitsAt x 0 6 = 10 ∧ bitsAt y 0 6 = 11 ∧ bitsAt z 0 6 = 12 then some (l1ocOf sat x y z) else none) := by
  unfold decodeCdma
  rw [h1.u 0 (i := 0) (n := 6) (by omega), Py.okBind, h2.u 0 (i := 256) (n := 6) (by omega), Py.okBind,
    h3.u 0 (i := 512) (n := 6) (by omega), Py.okBind]
  by_cases c1 : bitsAt x 0 6 ≠ 10 ∨ bitsAt y 0 6 ≠ 11 ∨ bitsAt z 0 6 ≠ 12
  · rw [if_pos c1, if_neg]
    · rfl
    · rintro ⟨h, h', h''⟩
      omega
  rw [if_neg c1]
  push Not at c1
  rw [if_pos c1]
  unfold service
  rw [if_pos rfl]
  rw [h1.u 6 (i := 6) (n := 6) (by omega), Py.okBind]
  rw [h1.u 12 (i := 12) (n := 1) (by omega), Py.okBind]
  rw [h1.u 13 (i := 13) (n := 1) (by omega), Py.okBind]
  rw [h1.u 14 (i := 14) (n := 4) (by omega), Py.okBind]
  rw [h1.u 18 (i := 18) (n := 1) (by omega), Py.okBind]
  rw [h1.u 19 (i := 19) (n := 2) (by omega), Py.okBind]
  rw [h1.u 21 (i := 21) (n := 1) (by omega), Py.okBind]
  rw [h1.u 22 (i := 22) (n := 16) (by omega), Py.okBind]
  rw [show (pure (32, bitsAt x 12 1, bitsAt x 13 1, bitsAt x 18 1, bitsAt x 22 16) : Py (Nat × Nat × Nat × Nat × Nat)) = .ok _ from rfl, Py.okBind]
  dsimp only
  rw [h1.u 38 (i := 6 + 32) (n := 5) (by omega), Py.okBind]
  rw [h1.u 43 (i := 6 + 32 + 5) (n := 11) (by omega), Py.okBind]
  rw [h1.u 54 (i := 6 + 32 + 16) (n := 3) (by omega), Py.okBind]
  rw [h1.u 57 (i := 6 + 32 + 19) (n := 6) (by omega), Py.okBind]
  rw [h1.u 63 (i := 6 + 32 + 25) (n := 10) (by omega), Py.okBind]
  rw [h1.u 73 (i := 6 + 32 + 35) (n := 8) (by omega), Py.okBind]
  rw [h1.u 81 (i := 6 + 32 + 43) (n := 8) (by omega), Py.okBind]
  rw [h1.u 89 (i := 6 + 32 + 51) (n := 2) (by omega), Py.okBind]
  rw [h1.u 91 (i := 6 + 32 + 53) (n := 2) (by omega), Py.okBind]
  rw [h1.g 93 94 4 (i := 6 + 32 + 55) (n := 5) (by omega), Py.okBind]
  rw [h1.g 98 99 4 (i := 6 + 32 + 60) (n := 5) (by omega), Py.okBind]
  rw [h1.g 103 104 31 (i := 6 + 32 + 65) (n := 32) (by omega), Py.okBind]
  rw [h1.g 135 136 18 (i := 6 + 32 + 97) (n := 19) (by omega), Py.okBind]
  rw [h1.g 154 155 14 (i := 6 + 32 + 116) (n := 15) (by omega), Py.okBind]
  rw [h1.g 169 170 39 (i := 6 + 32 + 131) (n := 40) (by omega), Py.okBind]
  rw [h1.g 209 210 12 (i := 6 + 32 + 171) (n := 13) (by omega), Py.okBind]
  rw [h2.g 38 39 39 (i := 256 + 6 + 32) (n := 40) (by omega), Py.okBind]
  rw [h2.g 78 79 39 (i := 256 + 6 + 32 + 40) (n := 40) (by omega), Py.okBind]
  rw [h2.g 118 119 39 (i := 256 + 6 + 32 + 80) (n := 40) (by omega), Py.okBind]
  rw [h2.g 158 159 34 (i := 256 + 6 + 32 + 120) (n := 35) (by omega), Py.okBind]
  rw [h2.g 193 194 34 (i := 256 + 6 + 32 + 155) (n := 35) (by omega), Py.okBind]
  rw [h3.g 38 39 34 (i := 512 + 6 + 32) (n := 35) (by omega), Py.okBind]
  rw [h3.g 73 74 14 (i := 512 + 6 + 32 + 35) (n := 15) (by omega), Py.okBind]
  rw [h3.g 88 89 14 (i := 512 + 6 + 32 + 50) (n := 15) (by omega), Py.okBind]
  rw [h3.g 103 104 14 (i := 512 + 6 + 32 + 65) (n := 15) (by omega), Py.okBind]
  rw [h3.g 118 119 12 (i := 512 + 6 + 32 + 80) (n := 13) (by omega), Py.okBind]
  rw [h3.g 131 132 12 (i := 512 + 6 + 32 + 93) (n := 13) (by omega), Py.okBind]
  rw [h3.g 144 145 12 (i := 512 + 6 + 32 + 106) (n := 13) (by omega), Py.okBind]
  rw [h3.g 157 158 17 (i := 512 + 6 + 32 + 119) (n := 18) (by omega), Py.okBind]
  rw [h3.g 175 176 29 (i := 512 + 6 + 32 + 137) (n := 30) (by omega), Py.okBind]
  rw [h4.u 38 (i := 768 + 6 + 32) (n := 22) (by omega), Py.okBind]
  rw [h4.u 60 (i := 768 + 6 + 32 + 22) (n := 15) (by omega), Py.okBind]
  rw [h4.u 75 (i := 768 + 6 + 32 + 37) (n := 1) (by omega), Py.okBind]
  rw [h4.u 76 (i := 768 + 6 + 32 + 38) (n := 17) (by omega), Py.okBind]
  rw [h4.u 93 (i := 768 + 6 + 32 + 55) (n := 17) (by omega), Py.okBind]
  rw [h4.u 110 (i := 768 + 6 + 32 + 72) (n := 15) (by omega), Py.okBind]
  rw [h4.u 125 (i := 768 + 6 + 32 + 87) (n := 13) (by omega), Py.okBind]
  rw [h4.u 138 (i := 768 + 6 + 32 + 100) (n := 17) (by omega), Py.okBind]
  simp only [bits_zeros, Nat.cast_zero, Int.cast_zero, zero_mul]
  unfold l1ocOf
  simp only [a10_mt, a10_svid, a10_svh, a10_valid, a10_P1, a10_P2, a10_KP, a10_A, a10_ts, a10_N4, a10_NT, a10_M, a10_PS, a10_tb, a10_Ee, a10_Et, a10_Re, a10_Rt, a10_sFe, a10_Fe, a10_sFt, a10_Ft, a10_staun, a10_taun, a10_sgamn, a10_gamn, a10_sbeta, a10_beta, a10_stauC, a10_tauC, a10_sdtauC, a10_dtauC, a11_mt, a11_svid, a11_svh, a11_valid, a11_P1, a11_P2, a11_KP, a11_A, a11_ts, a11_spx, a11_px, a11_spy, a11_py, a11_spz, a11_pz, a11_svx, a11_vx, a11_svy, a11_vy, a12_mt, a12_svid, a12_svh, a12_valid, a12_P1, a12_P2, a12_KP, a12_A, a12_ts, a12_svz, a12_vz, a12_sax, a12_ax, a12_say, a12_ay, a12_saz, a12_az, a12_sdx, a12_dx, a12_sdy, a12_dy, a12_sdz, a12_dz, a12_sisc, a12_isc, a12_stauGps, a12_tauGps]
  rfl

theorem cdma3 {sat : Int} {x y z w : BitBuf} (h1 : Seg b 0 256 x) (h2 : Seg b 256 256 y) (h3 : Seg b 512 256 z)
    (h4 : Seg b 768 256 w) :
    decodeCdma sat b 3 = .ok (if bitsAt x 0 6 = 10 ∧ bitsAt y 0 6 = 11 ∧ bitsAt z 0 6 = 12 then some (l3ocOf sat x y z w) else none) := by
  unfold decodeCdma
  rw [h1.u 0 (i := 0) (n := 6) (by omega), Py.okBind, h2.u 0 (i := 256) (n := 6) (by omega), Py.okBind,
    h3.u 0 (i := 512) (n := 6) (by omega), Py.okBind]
  by_cases c1 : bitsAt x 0 6 ≠ 10 ∨ bitsAt y 0 6 ≠ 11 ∨ bitsAt z 0 6 ≠ 12
  · rw [if_pos c1, if_neg]
    · rfl
    · rintro ⟨h, h', h''⟩
      omega
  rw [if_neg c1]
  push Not at c1
  rw [if_pos c1]
  unfold service
  rw [if_neg (by decide)]
  rw [h1.u 6 (i := 6) (n := 15) (by omega), Py.okBind]
  rw [h1.u 21 (i := 21) (n := 6) (by omega), Py.okBind]
  rw [h1.u 27 (i := 27) (n := 1) (by omega), Py.okBind]
  rw [h1.u 28 (i := 28) (n := 1) (by omega), Py.okBind]
  rw [h1.u 29 (i := 29) (n := 4) (by omega), Py.okBind]
  rw [h1.u 33 (i := 33) (n := 1) (by omega), Py.okBind]
  rw [h1.u 34 (i := 34) (n := 2) (by omega), Py.okBind]
  rw [h1.u 36 (i := 36) (n := 1) (by omega), Py.okBind]
  rw [show (pure (31, bitsAt x 27 1, bitsAt x 28 1, bitsAt x 33 1, bitsAt x 6 15) : Py (Nat × Nat × Nat × Nat × Nat)) = .ok _ from rfl, Py.okBind]
  dsimp only
  rw [h1.u 37 (i := 6 + 31) (n := 5) (by omega), Py.okBind]
  rw [h1.u 42 (i := 6 + 31 + 5) (n := 11) (by omega), Py.okBind]
  rw [h1.u 53 (i := 6 + 31 + 16) (n := 3) (by omega), Py.okBind]
  rw [h1.u 56 (i := 6 + 31 + 19) (n := 6) (by omega), Py.okBind]
  rw [h1.u 62 (i := 6 + 31 + 25) (n := 10) (by omega), Py.okBind]
  rw [h1.u 72 (i := 6 + 31 + 35) (n := 8) (by omega), Py.okBind]
  rw [h1.u 80 (i := 6 + 31 + 43) (n := 8) (by omega), Py.okBind]
  rw [h1.u 88 (i := 6 + 31 + 51) (n := 2) (by omega), Py.okBind]
  rw [h1.u 90 (i := 6 + 31 + 53) (n := 2) (by omega), Py.okBind]
  rw [h1.g 92 93 4 (i := 6 + 31 + 55) (n := 5) (by omega), Py.okBind]
  rw [h1.g 97 98 4 (i := 6 + 31 + 60) (n := 5) (by omega), Py.okBind]
  rw [h1.g 102 103 31 (i := 6 + 31 + 65) (n := 32) (by omega), Py.okBind]
  rw [h1.g 134 135 18 (i := 6 + 31 + 97) (n := 19) (by omega), Py.okBind]
  rw [h1.g 153 154 14 (i := 6 + 31 + 116) (n := 15) (by omega), Py.okBind]
  rw [h1.g 168 169 39 (i := 6 + 31 + 131) (n := 40) (by omega), Py.okBind]
  rw [h1.g 208 209 12 (i := 6 + 31 + 171) (n := 13) (by omega), Py.okBind]
  rw [h2.g 37 38 39 (i := 256 + 6 + 31) (n := 40) (by omega), Py.okBind]
  rw [h2.g 77 78 39 (i := 256 + 6 + 31 + 40) (n := 40) (by omega), Py.okBind]
  rw [h2.g 117 118 39 (i := 256 + 6 + 31 + 80) (n := 40) (by omega), Py.okBind]
  rw [h2.g 157 158 34 (i := 256 + 6 + 31 + 120) (n := 35) (by omega), Py.okBind]
  rw [h2.g 192 193 34 (i := 256 + 6 + 31 + 155) (n := 35) (by omega), Py.okBind]
  rw [h3.g 37 38 34 (i := 512 + 6 + 31) (n := 35) (by omega), Py.okBind]
  rw [h3.g 72 73 14 (i := 512 + 6 + 31 + 35) (n := 15) (by omega), Py.okBind]
  rw [h3.g 87 88 14 (i := 512 + 6 + 31 + 50) (n := 15) (by omega), Py.okBind]
  rw [h3.g 102 103 14 (i := 512 + 6 + 31 + 65) (n := 15) (by omega), Py.okBind]
  rw [h3.g 117 118 12 (i := 512 + 6 + 31 + 80) (n := 13) (by omega), Py.okBind]
  rw [h3.g 130 131 12 (i := 512 + 6 + 31 + 93) (n := 13) (by omega), Py.okBind]
  rw [h3.g 143 144 12 (i := 512 + 6 + 31 + 106) (n := 13) (by omega), Py.okBind]
  rw [h3.g 156 157 17 (i := 512 + 6 + 31 + 119) (n := 18) (by omega), Py.okBind]
  rw [h3.g 174 175 29 (i := 512 + 6 + 31 + 137) (n := 30) (by omega), Py.okBind]
  rw [h4.u 37 (i := 768 + 6 + 31) (n := 22) (by omega), Py.okBind]
  rw [h4.u 59 (i := 768 + 6 + 31 + 22) (n := 15) (by omega), Py.okBind]
  rw [h4.u 74 (i := 768 + 6 + 31 + 37) (n := 1) (by omega), Py.okBind]
  rw [h4.u 75 (i := 768 + 6 + 31 + 38) (n := 17) (by omega), Py.okBind]
  rw [h4.u 92 (i := 768 + 6 + 31 + 55) (n := 17) (by omega), Py.okBind]
  rw [h4.u 109 (i := 768 + 6 + 31 + 72) (n := 15) (by omega), Py.okBind]
  rw [h4.u 124 (i := 768 + 6 + 31 + 87) (n := 13) (by omega), Py.okBind]
  rw [h4.u 137 (i := 768 + 6 + 31 + 100) (n := 17) (by omega), Py.okBind]
  unfold l3ocOf
  simp only [b10_mt, b10_ts, b10_svid, b10_svh, b10_valid, b10_P1, b10_P2, b10_KP, b10_A, b10_N4, b10_NT, b10_M, b10_PS, b10_tb, b10_Ee, b10_Et, b10_Re, b10_Rt, b10_sFe, b10_Fe, b10_sFt, b10_Ft, b10_staun, b10_taun, b10_sgamn, b10_gamn, b10_sbeta, b10_beta, b10_stauC, b10_tauC, b10_sdtauC, b10_dtauC, b11_mt, b11_ts, b11_svid, b11_svh, b11_valid, b11_P1, b11_P2, b11_KP, b11_A, b11_spx, b11_px, b11_spy, b11_py, b11_spz, b11_pz, b11_svx, b11_vx, b11_svy, b11_vy, b12_mt, b12_ts, b12_svid, b12_svh, b12_valid, b12_P1, b12_P2, b12_KP, b12_A, b12_svz, b12_vz, b12_sax, b12_ax, b12_say, b12_ay, b12_saz, b12_az, b12_sdx, b12_dx, b12_sdy, b12_dy, b12_sdz, b12_dz, b12_sisc, b12_isc, b12_stauGps, b12_tauGps, b16_mt, b16_ts, b16_svid, b16_svh, b16_valid, b16_P1, b16_P2, b16_KP, b16_A, b16_tin, b16_psi, b16_sn, b16_wmax, b16_win, b16_dw, b16_tau1, b16_tau2]
  rfl

/-- the buffer of a satellite -/
def bufC (st : Dict Int BitBuf) (sat : Int) : Option BitBuf := some ((Dict.get? st sat).getD (List.replicate 1280 false))

def Stored1 (st : Dict Int BitBuf) (cs : List Call) : Prop :=
  Col.Inv kind1 256 (fun k => 256 * k) (fun k => k < 5) 1280 (fun _ => True) (bufC st) (strings1 cs)
def Stored3 (st : Dict Int BitBuf) (cs : List Call) : Prop :=
  Col.Inv kind3 256 (fun k => 256 * k) (fun k => k < 5) 1280 (fun _ => True) (bufC st) (strings3 cs)

theorem kind1_eq (c : Call) : kind1 c = if bitsAt c.msg 0 6 = 10 then some 0 else if bitsAt c.msg 0 6 = 11 then some 1 else
    if bitsAt c.msg 0 6 = 12 then some 2 else none := by
  unfold kind1
  rw [a10_mt]
  norm_cast

theorem kind3_eq (c : Call) : kind3 c = if bitsAt c.msg 0 6 = 10 then some 0 else if bitsAt c.msg 0 6 = 11 then some 1 else
    if bitsAt c.msg 0 6 = 12 then some 2 else if bitsAt c.msg 0 6 = 16 then some 3 else if bitsAt c.msg 0 6 = 25 then some 4 else none := by
  unfold kind3
  rw [b10_mt]
  norm_cast

theorem kind1_some (c : Call) (k : Nat) : kind1 c = some k ↔ (bitsAt c.msg 0 6 = 10 ∧ k = 0) ∨ (bitsAt c.msg 0 6 = 11 ∧ k = 1) ∨
    (bitsAt c.msg 0 6 = 12 ∧ k = 2) := by
  rw [kind1_eq]
  split_ifs <;> simp only [Option.some.injEq, reduceCtorEq, false_iff] <;> omega

theorem kind3_some (c : Call) (k : Nat) : kind3 c = some k ↔ (bitsAt c.msg 0 6 = 10 ∧ k = 0) ∨ (bitsAt c.msg 0 6 = 11 ∧ k = 1) ∨
    (bitsAt c.msg 0 6 = 12 ∧ k = 2) ∨ (bitsAt c.msg 0 6 = 16 ∧ k = 3) ∨ (bitsAt c.msg 0 6 = 25 ∧ k = 4) := by
  rw [kind3_eq]
  split_ifs <;> simp only [Option.some.injEq, reduceCtorEq, false_iff] <;> omega

theorem kind1_none (c : Call) : kind1 c = none ↔ bitsAt c.msg 0 6 ≠ 10 ∧ bitsAt c.msg 0 6 ≠ 11 ∧ bitsAt c.msg 0 6 ≠ 12 := by
  rw [kind1_eq]
  split_ifs <;> simp only [reduceCtorEq, true_iff, false_iff] <;> omega

theorem kind3_none (c : Call) : kind3 c = none ↔ bitsAt c.msg 0 6 ≠ 10 ∧ bitsAt c.msg 0 6 ≠ 11 ∧ bitsAt c.msg 0 6 ≠ 12 ∧
    bitsAt c.msg 0 6 ≠ 16 ∧ bitsAt c.msg 0 6 ≠ 25 := by
  rw [kind3_eq]
  split_ifs <;> simp only [reduceCtorEq, true_iff, false_iff] <;> omega

theorem body1_id {m : BitBuf} (h : 234 ≤ m.length) : bitsAt (body1 m) 0 6 = bitsAt m 12 6 := by
  unfold bitsAt body1
  rw [List.drop_zero, List.take_append_of_le_length (by simp; omega), List.take_take]
  rfl

theorem body3_id (m : BitBuf) : bitsAt (body3 m) 0 6 = bitsAt m 20 6 := by
  unfold bitsAt body3
  rw [List.drop_zero, List.take_take]
  rfl

theorem body1_length {m : BitBuf} (h : 234 ≤ m.length) : (body1 m).length = 256 := by
  unfold body1
  simp
  omega

theorem body3_length {m : BitBuf} (h : 276 ≤ m.length) : (body3 m).length = 256 := by
  unfold body3
  simp
  omega

theorem strings1_append (cs : List Call) (c : Call) : strings1 (cs ++ [c]) =
    if pre1 c.msg = 0x5f1 then strings1 cs ++ [⟨c.sat, body1 c.msg⟩] else strings1 cs := by
  unfold strings1
  rw [List.filter_append, List.map_append]
  by_cases h : pre1 c.msg = 0x5f1
  · rw [if_pos h, List.filter_cons, if_pos (by simpa using h)]
    rfl
  · rw [if_neg h, List.filter_cons, if_neg (by simpa using h)]
    simp

theorem strings3_append (cs : List Call) (c : Call) : strings3 (cs ++ [c]) =
    if pre3 c.msg = 0x494e then strings3 cs ++ [⟨c.sat, body3 c.msg⟩] else strings3 cs := by
  unfold strings3
  rw [List.filter_append, List.map_append]
  by_cases h : pre3 c.msg = 0x494e
  · rw [if_pos h, List.filter_cons, if_pos (by simpa using h)]
    rfl
  · rw [if_neg h, List.filter_cons, if_neg (by simpa using h)]
    simp

/-- messages of L1 leave the end of a string zero -/
theorem tail1 (cs : List Call) (hcs : ∀ c ∈ cs, Good1 c) (s : Int) (k : Nat) :
    (((part kind1 256 (strings1 cs) s k).take 256).drop 222).take 34 = List.replicate 34 false := by
  unfold part
  cases h : last kind1 (strings1 cs) s k with
  | none => rw [Option.getD_none, List.take_replicate, List.drop_replicate, List.take_replicate]; rfl
  | some m =>
    rw [Option.getD_some]
    obtain ⟨c, hc, -, -, rfl⟩ := last_mem h
    obtain ⟨c', hc', rfl⟩ := List.mem_map.1 hc
    have := hcs c' (List.mem_filter.1 hc').1
    dsimp only
    rw [List.take_of_length_le (l := body1 c'.msg) (i := 256) (by rw [body1_length this])]
    unfold body1
    unfold Good1 at this
    rw [List.drop_left' (by rw [List.length_take, List.length_drop]; omega), List.take_replicate]
    rfl

theorem result1_parts (cs : List Call) (c : Call) (hp : pre1 c.msg = 0x5f1) (hk : kind1 ⟨c.sat, body1 c.msg⟩ ≠ none) :
    let P := fun k => part kind1 256 (strings1 (cs ++ [c])) c.sat k
    l1Result cs c = if bitsAt (P 0) 0 6 = 10 ∧ bitsAt (P 1) 0 6 = 11 ∧ bitsAt (P 2) 0 6 = 12 then some (l1ocOf c.sat (P 0) (P 1) (P 2)) else none := by
  intro P
  unfold l1Result
  rw [if_neg (by rintro (h | h); exacts [h hp, hk h])]
  have e0 : bitsAt (P 0) 0 6 = 10 ↔ _ := part_id (by omega) (fun c' _ h => by rw [kind1_some] at h; omega)
  have e1 : bitsAt (P 1) 0 6 = 11 ↔ _ := part_id (by omega) (fun c' _ h => by rw [kind1_some] at h; omega)
  have e2 : bitsAt (P 2) 0 6 = 12 ↔ _ := part_id (by omega) (fun c' _ h => by rw [kind1_some] at h; omega)
  rw [if_congr (and_congr e0 (and_congr e1 e2)) rfl rfl]
  show _ = if _ then some (l1ocOf c.sat (part _ _ _ _ _) (part _ _ _ _ _) (part _ _ _ _ _)) else none
  unfold part
  cases last kind1 (strings1 (cs ++ [c])) c.sat 0 <;> cases last kind1 (strings1 (cs ++ [c])) c.sat 1 <;>
    cases last kind1 (strings1 (cs ++ [c])) c.sat 2 <;> simp

theorem result3_parts (cs : List Call) (c : Call) (hp : pre3 c.msg = 0x494e) (hk : kind3 ⟨c.sat, body3 c.msg⟩ ≠ none) :
    let P := fun k => part kind3 256 (strings3 (cs ++ [c])) c.sat k
    l3Result cs c = if bitsAt (P 0) 0 6 = 10 ∧ bitsAt (P 1) 0 6 = 11 ∧ bitsAt (P 2) 0 6 = 12 then
      some (l3ocOf c.sat (P 0) (P 1) (P 2) (P 3)) else none := by
  intro P
  unfold l3Result
  rw [if_neg (by rintro (h | h); exacts [h hp, hk h])]
  have e0 : bitsAt (P 0) 0 6 = 10 ↔ _ := part_id (by omega) (fun c' _ h => by rw [kind3_some] at h; omega)
  have e1 : bitsAt (P 1) 0 6 = 11 ↔ _ := part_id (by omega) (fun c' _ h => by rw [kind3_some] at h; omega)
  have e2 : bitsAt (P 2) 0 6 = 12 ↔ _ := part_id (by omega) (fun c' _ h => by rw [kind3_some] at h; omega)
  rw [if_congr (and_congr e0 (and_congr e1 e2)) rfl rfl]
  show _ = if _ then some (l3ocOf c.sat (part _ _ _ _ _) (part _ _ _ _ _) (part _ _ _ _ _) (part _ _ _ _ _)) else none
  unfold part
  generalize (last kind3 (strings3 (cs ++ [c])) c.sat 3).getD _ = w
  cases last kind3 (strings3 (cs ++ [c])) c.sat 0 <;> cases last kind3 (strings3 (cs ++ [c])) c.sat 1 <;>
    cases last kind3 (strings3 (cs ++ [c])) c.sat 2 <;> simp

theorem l1_step (st : Dict Int BitBuf) (cs : List Call) (c : Call) (hi : Stored1 st cs ∧ ∀ c ∈ cs, Good1 c) (hg : Good1 c) :
    ∃ st', decodeL1oc st c.sat c.msg = .ok (st', l1Result cs c) ∧ Stored1 st' (cs ++ [c]) ∧ ∀ x ∈ cs ++ [c], Good1 x := by
  have hall : ∀ x ∈ cs ++ [c], Good1 x := by
    intro x hx
    rcases List.mem_append.1 hx with h | h
    · exact hi.2 x h
    · rw [List.mem_singleton.1 h]; exact hg
  obtain ⟨bf, hb, hl, hseg⟩ := hi.1 c.sat trivial
  have hm := Seg.self hg
  unfold Good1 at hg
  unfold decodeL1oc
  rw [hm.u 0 (i := 0) (n := 12) (by omega), Py.okBind, hm.u 12 (i := 12) (n := 6) (by omega), Py.okBind]
  have hpre : bitsAt c.msg 0 12 = pre1 c.msg := rfl
  rw [hpre]
  by_cases c0 : pre1 c.msg = 0x5f1
  swap
  · rw [if_pos c0]
    refine ⟨st, ?_, ?_, hall⟩
    · unfold l1Result
      rw [if_pos (Or.inl c0)]
      rfl
    · unfold Stored1
      rw [strings1_append, if_neg c0]
      exact hi.1
  rw [if_neg (not_not.2 c0), ← body1_id hg]
  have hkn := kind1_none ⟨c.sat, body1 c.msg⟩
  have hks := kind1_some ⟨c.sat, body1 c.msg⟩
  have hid : (⟨c.sat, body1 c.msg⟩ : Call).msg = body1 c.msg := rfl
  rw [hid] at hkn
  simp only [hid] at hks
  by_cases c1 : kind1 ⟨c.sat, body1 c.msg⟩ = none
  · rw [if_pos (hkn.1 c1)]
    refine ⟨st, ?_, ?_, hall⟩
    · unfold l1Result
      rw [if_pos (Or.inr c1)]
      rfl
    · unfold Stored1
      rw [strings1_append, if_pos c0]
      exact hi.1.same (fun k _ h => by rw [c1] at h; cases h)
  rw [if_neg (fun h => c1 (hkn.2 h))]
  dsimp only
  rw [item_lazy, Py.okBind]
  have hb' : (Dict.get? st c.sat).getD (List.replicate (8 * (32 * 5)) false) = bf := Option.some.inj hb
  rw [hb']
  obtain ⟨k, hk⟩ := Option.ne_none_iff_exists'.1 c1
  have hkk := (hks k).1 hk
  have hk' : (if bitsAt (body1 c.msg) 0 6 = 10 then 0 else if bitsAt (body1 c.msg) 0 6 = 11 then 1 else 2) = k := by
    split_ifs <;> omega
  rw [hk', copy_splice (by omega) (by omega), Py.okBind, show k * 32 * 8 = 256 * k by omega]
  have hv : ((c.msg.drop 12).take 222).length = 222 := by simp; omega
  have hf1 : 256 * k + ((c.msg.drop 12).take 222).length ≤ bf.length := by omega
  generalize hB : splice bf (256 * k) ((c.msg.drop 12).take 222) = B
  have hlB : 1280 ≤ B.length := by rw [← hB, splice_length _ _ _ hf1]; exact hl
  have hbuf : bufC (((if st.mem c.sat then st else st.set c.sat (List.replicate (8 * (32 * 5)) false)).set c.sat B)) c.sat = some B := by
    unfold bufC
    rw [Dict.get?_set_self, Option.getD_some]
  have hoth : ∀ s, s ≠ c.sat →
      bufC (((if st.mem c.sat then st else st.set c.sat (List.replicate (8 * (32 * 5)) false)).set c.sat B)) s = bufC st s := by
    intro s hs
    unfold bufC
    rw [set_lazy _ _ _ hs]
  generalize ((if st.mem c.sat then st else st.set c.sat (List.replicate (8 * (32 * 5)) false)).set c.sat B) = st' at *
  have hS : Stored1 st' (cs ++ [c]) := by
    unfold Stored1
    rw [strings1_append, if_pos c0]
    refine Col.Inv.step hi.1 (c := ⟨c.sat, body1 c.msg⟩) hb hbuf (fun s _ hne => hoth s hne) hlB (fun k hk => by omega)
      (by dsimp only; rw [body1_length hg]) ?_
    intro j hj
    rw [hk, ← hB]
    simp only [Option.some.injEq]
    by_cases e : k = j
    · rw [if_pos e, ← e, show 256 = 222 + 34 by rfl, List.take_add]
      have h1 := Rawnav.splice_seg_same hf1
      rw [hv] at h1
      have hz : ((bf.drop (256 * k + 222)).take 34) = List.replicate 34 false := by
        have h3 := (hseg k (by omega)).eq
        have h4 := tail1 cs hi.2 c.sat k
        rw [← h3] at h4
        rw [List.drop_take, List.drop_drop, List.take_take] at h4
        exact h4
      have h2 := Rawnav.splice_seg_other (a := 256 * k + 222) (w := 34) hf1 (by omega)
      rw [show (222 + 34) * k = 256 * k by omega, h1, List.drop_drop, h2, hz, ← show 256 = 222 + 34 by rfl,
        List.take_of_length_le (l := body1 c.msg) (i := 256) (by rw [body1_length hg])]
      rfl
    · rw [if_neg e, Rawnav.splice_seg_other hf1 (by omega)]
  refine ⟨st', ?_, hS, hall⟩
  obtain ⟨B1, q1, -, p1⟩ := hS c.sat trivial
  rw [hbuf] at q1
  cases q1
  have p3 := p1 3 (by omega)
  have hz : part kind1 256 (strings1 (cs ++ [c])) c.sat 3 = List.replicate 256 false := by
    unfold part
    cases h : last kind1 (strings1 (cs ++ [c])) c.sat 3 with
    | none => rfl
    | some m =>
      obtain ⟨c', -, -, h', -⟩ := last_mem h
      rw [kind1_some] at h'
      omega
  rw [hz] at p3
  rw [cdma1 (p1 0 (by omega)) (p1 1 (by omega)) (p1 2 (by omega)) p3, Py.okBind, result1_parts cs c c0 c1]
  rfl

theorem l3_step (st : Dict Int BitBuf) (cs : List Call) (c : Call) (hi : Stored3 st cs) (hg : Good3 c) :
    ∃ st', decodeL3oc st c.sat c.msg = .ok (st', l3Result cs c) ∧ Stored3 st' (cs ++ [c]) := by
  obtain ⟨bf, hb, hl, hseg⟩ := hi c.sat trivial
  have hm := Seg.self hg
  unfold Good3 at hg
  unfold decodeL3oc
  rw [hm.u 0 (i := 0) (n := 20) (by omega), Py.okBind, hm.u 20 (i := 20) (n := 6) (by omega), Py.okBind]
  have hpre : bitsAt c.msg 0 20 = pre3 c.msg := rfl
  rw [hpre]
  by_cases c0 : pre3 c.msg = 0x494e
  swap
  · rw [if_pos c0]
    refine ⟨st, ?_, ?_⟩
    · unfold l3Result
      rw [if_pos (Or.inl c0)]
      rfl
    · unfold Stored3
      rw [strings3_append, if_neg c0]
      exact hi
  rw [if_neg (not_not.2 c0), ← body3_id]
  have hkn := kind3_none ⟨c.sat, body3 c.msg⟩
  have hks := kind3_some ⟨c.sat, body3 c.msg⟩
  have hid : (⟨c.sat, body3 c.msg⟩ : Call).msg = body3 c.msg := rfl
  rw [hid] at hkn
  simp only [hid] at hks
  by_cases c1 : kind3 ⟨c.sat, body3 c.msg⟩ = none
  · rw [if_pos (hkn.1 c1)]
    refine ⟨st, ?_, ?_⟩
    · unfold l3Result
      rw [if_pos (Or.inr c1)]
      rfl
    · unfold Stored3
      rw [strings3_append, if_pos c0]
      exact hi.same (fun k _ h => by rw [c1] at h; cases h)
  rw [if_neg (fun h => c1 (hkn.2 h))]
  dsimp only
  rw [item_lazy, Py.okBind]
  have hb' : (Dict.get? st c.sat).getD (List.replicate (8 * (32 * 5)) false) = bf := Option.some.inj hb
  rw [hb']
  obtain ⟨k, hk⟩ := Option.ne_none_iff_exists'.1 c1
  have hkk := (hks k).1 hk
  have hk' : (if bitsAt (body3 c.msg) 0 6 = 10 then 0 else if bitsAt (body3 c.msg) 0 6 = 11 then 1 else if bitsAt (body3 c.msg) 0 6 = 12 then 2
      else if bitsAt (body3 c.msg) 0 6 = 16 then 3 else 4) = k := by
    split_ifs <;> omega
  rw [hk', copy_splice (by omega) (by omega), Py.okBind, show k * 32 * 8 = 256 * k by omega]
  have hv : ((c.msg.drop 20).take 256).length = 256 := by simp; omega
  have hf1 : 256 * k + ((c.msg.drop 20).take 256).length ≤ bf.length := by omega
  generalize hB : splice bf (256 * k) ((c.msg.drop 20).take 256) = B
  have hlB : 1280 ≤ B.length := by rw [← hB, splice_length _ _ _ hf1]; exact hl
  have hbuf : bufC (((if st.mem c.sat then st else st.set c.sat (List.replicate (8 * (32 * 5)) false)).set c.sat B)) c.sat = some B := by
    unfold bufC
    rw [Dict.get?_set_self, Option.getD_some]
  have hoth : ∀ s, s ≠ c.sat →
      bufC (((if st.mem c.sat then st else st.set c.sat (List.replicate (8 * (32 * 5)) false)).set c.sat B)) s = bufC st s := by
    intro s hs
    unfold bufC
    rw [set_lazy _ _ _ hs]
  generalize ((if st.mem c.sat then st else st.set c.sat (List.replicate (8 * (32 * 5)) false)).set c.sat B) = st' at *
  have hS : Stored3 st' (cs ++ [c]) := by
    unfold Stored3
    rw [strings3_append, if_pos c0]
    refine Col.Inv.step hi (c := ⟨c.sat, body3 c.msg⟩) hb hbuf (fun s _ hne => hoth s hne) hlB (fun k hk => by omega)
      (by dsimp only; rw [body3_length hg]) ?_
    intro j hj
    rw [hk, ← hB, splice_slots hv (by omega)]
    simp only [Option.some.injEq]
    rw [List.take_of_length_le (l := body3 c.msg) (i := 256) (by rw [body3_length hg])]
    rfl
  refine ⟨st', ?_, hS⟩
  obtain ⟨B1, q1, -, p1⟩ := hS c.sat trivial
  rw [hbuf] at q1
  cases q1
  rw [cdma3 (p1 0 (by omega)) (p1 1 (by omega)) (p1 2 (by omega)) (p1 3 (by omega)), Py.okBind, result3_parts cs c c0 c1]
  rfl

/-- **C80.** Starting with an empty store, for every sequence of L1OC messages, each call returns what `l1Result` says about the
calls so far. -/
theorem l1oc_history (cs : List Call) (h : ∀ c ∈ cs, Good1 c) :
    ∃ d' rs, run (fun d c => decodeL1oc d c.sat c.msg) [] cs = .ok (d', rs) ∧
      rs.length = cs.length ∧ ∀ i (hi : i < cs.length), rs[i]? = some (l1Result (cs.take i) cs[i]) :=
  history (Inv := fun d cs => Stored1 d cs ∧ ∀ c ∈ cs, Good1 c) (Good := Good1) l1_step
    ⟨Col.Inv.init (fun k hk => by omega) (fun _ _ => rfl), by simp⟩ cs h

/-- **C80.** The same for L3OC messages. -/
theorem l3oc_history (cs : List Call) (h : ∀ c ∈ cs, Good3 c) :
    ∃ d' rs, run (fun d c => decodeL3oc d c.sat c.msg) [] cs = .ok (d', rs) ∧
      rs.length = cs.length ∧ ∀ i (hi : i < cs.length), rs[i]? = some (l3Result (cs.take i) cs[i]) :=
  history (Inv := Stored3) (Good := Good3) l3_step (Col.Inv.init (fun k hk => by omega) (fun _ _ => rfl)) cs h

/-- **C80.** Times of an ephemeris from CDMA. -/
theorem cdma_times (sat : Int) (x y z w : BitBuf) :
    (let e := l1ocOf sat x y z
     let v := val a10 x
     instant e.toe = gloUtc (v .N4) (v .NT) (v .tb * 90) + offsetUtc (gloUtc (v .N4) (v .NT) (v .tb * 90)) ∧
     instant e.tof = gloUtc (v .N4) (v .NT) (v .ts * 2) + offsetUtc (gloUtc (v .N4) (v .NT) (v .ts * 2))) ∧
    (let e := l3ocOf sat x y z w
     let v := val b10 x
     instant e.toe = gloUtc (v .N4) (v .NT) (v .tb * 90) + offsetUtc (gloUtc (v .N4) (v .NT) (v .tb * 90)) ∧
     instant e.tof = gloUtc (v .N4) (v .NT) (v .ts * 3) + offsetUtc (gloUtc (v .N4) (v .NT) (v .ts * 3))) :=
  ⟨⟨gep_days _ _ _, gep_days _ _ _⟩, gep_days _ _ _, gep_days _ _ _⟩

/-! ## SBAS -/

theorem wk_norm (W : Int) {s : ℚ} (h : 0 ≤ s) : (gpst2time W s).Norm := by
  unfold gpst2time wk2time GTime.Norm truncQ
  dsimp only
  by_cases hc : s < -1000000000 ∨ s > 1000000000
  · rw [if_pos hc, if_pos (le_refl _)]
    norm_num
  · rw [if_neg hc, if_pos h]
    have h1 := Int.floor_le s
    have h2 := Int.lt_floor_add_one s
    constructor <;> linarith

theorem ura_ok {n : Nat} (h : n < 16) : pyGet uraT n = .ok (ura.getD n 0) := by
  rcases n with _ | _ | _ | _ | _ | _ | _ | _ | _ | _ | _ | _ | _ | _ | _ | _ | n
  all_goals first | rfl | omega

/-- **C80.** A message of an SBAS satellite gives an ephemeris exactly if it has one of the preambles and the type 9. -/
theorem sbas_message (week : Int) (tow : ℚ) (sat : Int) (m : BitBuf) (hm : 226 ≤ m.length) :
    decodeSbs week tow sat m = .ok (if (val sb m .pre = 0x53 ∨ val sb m .pre = 0x9a ∨ val sb m .pre = 0xc6) ∧ val sb m .mt = 9 then
      some (sbsOf week tow sat m) else none) := by
  have h := Seg.self hm
  unfold decodeSbs
  rw [h.u 0 (i := 0) (n := 8) (by omega), Py.okBind, h.u 8 (i := 8) (n := 6) (by omega), Py.okBind,
    h.u 14 (i := 14) (n := 8) (by omega), Py.okBind, sb_pre, sb_mt]
  by_cases c1 : bitsAt m 0 8 ≠ 0x53 ∧ bitsAt m 0 8 ≠ 0x9a ∧ bitsAt m 0 8 ≠ 0xc6
  · rw [if_pos c1, if_neg]
    · rfl
    · rintro ⟨h, -⟩
      omega
  rw [if_neg c1]
  by_cases c2 : bitsAt m 8 6 = 9
  swap
  · rw [if_pos c2, if_neg]
    · rfl
    · rintro ⟨-, h⟩
      omega
  rw [if_neg (not_not.2 c2), if_pos (by omega)]
  rw [h.u 22 (i := 22) (n := 13) (by omega), Py.okBind]
  rw [h.u 35 (i := 35) (n := 4) (by omega), Py.okBind]
  rw [h.s 39 (i := 39) (n := 30) (by omega), Py.okBind]
  rw [h.s 69 (i := 69) (n := 30) (by omega), Py.okBind]
  rw [h.s 99 (i := 99) (n := 25) (by omega), Py.okBind]
  rw [h.s 124 (i := 124) (n := 17) (by omega), Py.okBind]
  rw [h.s 141 (i := 141) (n := 17) (by omega), Py.okBind]
  rw [h.s 158 (i := 158) (n := 18) (by omega), Py.okBind]
  rw [h.s 176 (i := 176) (n := 10) (by omega), Py.okBind]
  rw [h.s 186 (i := 186) (n := 10) (by omega), Py.okBind]
  rw [h.s 196 (i := 196) (n := 10) (by omega), Py.okBind]
  rw [h.s 206 (i := 206) (n := 12) (by omega), Py.okBind]
  rw [h.s 218 (i := 218) (n := 8) (by omega), Py.okBind]
  rw [ura_ok (bits_lt m 35 4), Py.okBind]
  unfold sbsOf
  simp only [sb_pre, sb_mt, sb_iodn, sb_t0, sb_ura, sb_px, sb_py, sb_pz, sb_vx, sb_vy, sb_vz, sb_ax, sb_ay, sb_az, sb_af0, sb_af1, sb_crc, Int.toNat_natCast]
  have e : (if bitsAt m 35 4 ≠ 15 then (0 : Int) else 1) = if (bitsAt m 35 4 : Int) = 15 then 1 else 0 := by
    split_ifs <;> omega
  rw [e]
  rfl

/-- **C80.** The reference time of an SBAS ephemeris has the broadcast time of day and is within half a day of the time of the call. -/
theorem sbas_times (week : Int) (tow : ℚ) (sat : Int) (m : BitBuf) (hn : 0 ≤ tow ∧ tow < 604800) (h : val sb m .t0 < 5400) :
    let e := sbsOf week tow sat m
    instant e.tof = 315964800 + 604800 * week + tow ∧ (∃ d : Int, instant e.t0 = d * 86400 + val sb m .t0 * 16) ∧
      |timediff e.t0 e.tof| ≤ 43200 := by
  intro e
  refine ⟨(C05.week_tow_instant _ _ ⟨by linarith, by linarith⟩).1, ?_⟩
  have r := (bits_q m 22 13).1
  rw [← sb_t0] at r
  have h' : (val sb m .t0 : ℚ) < 5400 := by exact_mod_cast h
  exact C42.tod2tow_spec _ _ (wk_norm _ hn.1) (by linarith) (by linarith)

/-- **C80.** The fields of a message are the values that were encoded. -/
theorem val_encode {L : Layout F} {v : F → Int} (hN : (L.map (·.1)).Nodup) (hF : Fit L v) (post : BitBuf) {f : F}
    (hf : f ∈ L.map (·.1)) : val L (encode L v ++ post) f = v f := by
  have := At.intro [] (encode L v) post
  rw [List.nil_append] at this
  exact num_encode L v _ 0 this hF hN f hf

/-- the fields of a layout have different names, and the layouts fill the messages -/
example : (∀ L ∈ [f1, f2, f3, f4, f5, a10, a11, a12, b10, b11, b12, b16, sb], (L.map (·.1)).Nodup) ∧
    (∀ L ∈ [f1, f2, f3, f4, f5], size L = 85) ∧ size a10 = 222 ∧ size sb = 250 := by decide +kernel

/-! ## Examples -/

/-- values of a satellite -/
def sample (m : Int) : F → Int
  | .m => m | .mt => m | .pre => 0xc6 | .tkH => 13 | .tkM => 5 | .tb => 53 | .sax => 0 | .px => 9000 | .spx => 1 | .vy => 2047
  | .N4 => 8 | .NT => 600 | .ts => 300 | .t0 => 4000 | .ura => 15 | _ => 1

example : (∀ L ∈ [f1, f2, f3, f4, f5], Fit L (sample 3)) ∧ (∀ L ∈ [a10, a11, a12, b10, b11, b12, b16], Fit L (sample 10)) := by
  unfold Fit; decide +kernel

def str (L : Layout F) (m : Int) : BitBuf := encode L (sample m) ++ List.replicate 11 false

def calls : List GCall := [⟨2300, 36000, 1, 150, str f1 1⟩, ⟨2300, 36002, 1, 150, str f2 2⟩, ⟨2300, 36004, 1, 150, str f3 3⟩,
  ⟨2300, 36006, 1, 150, str f4 4⟩, ⟨2300, 36008, 1, 150, str f5 5⟩, ⟨2300, 36009, 1, 151, str f4 4⟩, ⟨2300, 36012, 1, 150, str f4 4⟩]

example : ∀ c ∈ calls, GoodF c := by
  intro c hc
  simp only [calls, List.mem_cons, List.not_mem_nil, or_false] at hc
  rcases hc with rfl | rfl | rfl | rfl | rfl | rfl | rfl <;>
    exact ⟨by unfold Dom; decide, by rw [str, List.length_append, encode_length]; decide +kernel, by norm_num, by norm_num⟩

example : (match run (fun d (c : GCall) => decodeFdma d c.week c.time c.sat c.msg c.freq) [] calls with
    | .ok (_, rs) => rs.map fun r => r.map fun e => (e.toes, e.pos.x, e.tauC)
    | .error _ => []) = [none, none, none, some (36900, -9000 * 1000 / 2048, 0),
      some (36900, -9000 * 1000 / 2048, -1 / 2 ^ 31), none, none] := by decide +kernel

def oc (p w : Nat) (L : Layout F) (m : Int) : BitBuf := natToBits w p ++ encode L (sample m) ++ List.replicate 200 false

def calls1 : List Call := [⟨150, oc 0x5f1 12 a11 11⟩, ⟨150, oc 0x5f1 12 a10 10⟩, ⟨150, oc 0x5f1 12 a12 12⟩, ⟨150, oc 0x5f2 12 a12 12⟩,
  ⟨150, oc 0x5f1 12 a10 13⟩]

example : ∀ c ∈ calls1, Good1 c := by
  unfold Good1
  decide +kernel

/-- on L1 the last six bits of a velocity are lost -/
example : (match run (fun d (c : Call) => decodeL1oc d c.sat c.msg) [] calls1 with
    | .ok (_, rs) => rs.map fun r => r.map fun e => (e.pos.x, e.vel.y * 2 ^ 30 / 1000, e.tof)
    | .error _ => []) = [none, none, some (-9000 * 1000 / 2 ^ 20, -1984, ⟨1755810618, 0⟩), none, none] := by
  decide +kernel

def calls3 : List Call := [⟨150, oc 0x494e 20 b11 11⟩, ⟨150, oc 0x494e 20 b10 10⟩, ⟨150, oc 0x494e 20 b12 12⟩, ⟨150, oc 0x494e 20 b16 16⟩,
  ⟨150, oc 0x494e 20 b10 17⟩, ⟨150, oc 0x494e 20 b10 25⟩]

example : ∀ c ∈ calls3, Good3 c := by
  unfold Good3
  decide +kernel

example : (match run (fun d (c : Call) => decodeL3oc d c.sat c.msg) [] calls3 with
    | .ok (_, rs) => rs.map fun r => r.map fun e => (e.pos.x, e.vel.y * 2 ^ 30 / 1000, e.tau1)
    | .error _ => []) = [none, none, some (-9000 * 1000 / 2 ^ 20, -2047, 0), some (-9000 * 1000 / 2 ^ 20, -2047, 1 / 32), none,
      some (-9000 * 1000 / 2 ^ 20, -2047, 1 / 32)] := by
  decide +kernel

example : (match decodeSbs 2300 61000 185 (encode sb (sample 9)) with
    | .ok (some e) => some (e.svh, e.sva, timediff e.t0 e.tof)
    | _ => none) = some (1, 0, 3000) := by decide +kernel

end Verif.C80
