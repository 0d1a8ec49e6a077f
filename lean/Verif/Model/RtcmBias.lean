import Verif.Model.RtcmSsr
import Verif.Model.Sig
/-!
Model of the RTCM and IGS SSR code and phase bias decoders, of the IGS SSR dispatch and of the code
bias encoder: `src/cssrlib/rtcm.py`.

As in `Verif.Model.RtcmSsr` only network 0 is modelled, the per-satellite reference times, `cstat`
and the log file are left out.
-/

namespace Verif.RtcmBias
open Verif.Sat Verif.Time Verif.Sval Verif.RtcmTypes Verif.RtcmSsr Verif.Sig

/-- tables of `ssig2rsig`: rtcm.py lines 851-938; signals as `uSIG` numbers -/
def ssigT : Sys → Option (List (Nat × Int))
  | .gps => some [(0, 103), (1, 116), (2, 123), (5, 203), (6, 204), (7, 219), (8, 212), (9, 224), (10, 216), (11, 223),
      (14, 509), (15, 517), (16, 524), (17, 119), (18, 112), (19, 124)]
  | .glo => some [(0, 103), (1, 116), (2, 203), (3, 216), (4, 401), (5, 402), (6, 601), (7, 602), (10, 309), (11, 317)]
  | .gal => some [(0, 101), (1, 102), (2, 103), (3, 124), (4, 126), (5, 509), (6, 517), (7, 524), (8, 709), (9, 717), (10, 724),
      (11, 809), (12, 817), (13, 824), (14, 601), (15, 602), (16, 603), (17, 624), (18, 626)]
  | .bds => some [(0, 209), (1, 217), (2, 224), (3, 609), (4, 617), (5, 624), (6, 709), (7, 717), (8, 724), (9, 104), (10, 116),
      (11, 124), (12, 504), (13, 516), (14, 524), (15, 101)]
  | .qzs => some [(0, 103), (1, 119), (2, 103), (3, 219), (4, 212), (5, 224), (6, 509), (7, 517), (8, 524), (9, 619), (10, 612),
      (11, 624), (12, 124), (17, 605), (19, 105)]
  | .sbs => some [(0, 103), (1, 509), (2, 517), (3, 524)]
  | _ => none

/-- `ssig2rsig(sys)`: rtcm.py lines 940-943, number of signals of the table -/
def ssigCount (sys : Sys) : Py Nat :=
  match ssigT sys with
  | none => .error .keyError
  | some t => .ok t.length

/-- `ssig2rsig(sys, utyp, ssig).str()`: rtcm.py lines 940-948 -/
def ssigStr (sys : Sys) (typ : Typ) (ssig : Nat) : Py (List Char) :=
  match ssigT sys with
  | none => .error .keyError
  | some t =>
    match Dict.get? t ssig with
    | none => .ok (str ⟨.none, .none, -1⟩)
    | some s => .ok (str ⟨sys, typ, s⟩)

/-- signal name to value -/
abbrev Row (α : Type) := Dict (List Char) α

/-- bias attributes of `lc[0]` and of the decoder -/
structure Bias where
  cbias : Dict Int (Row Val) := []
  pbias : Dict Int (Row Val) := []
  si : Dict Int (Row Bool) := []
  di : Dict Int (Row Nat) := []
  wl : Dict Int (Row Nat) := []
  yaw : Dict Int ℚ := []
  dyaw : Dict Int Val := []
  /-- `sat_b`, which the constructor does not create -/
  satB : Option (List Int) := none
  iexpb : Nat := 0
  iyaw : Bool := false

/-- the three forms of bias message: code bias, phase bias (1265-1270 and IGS), phase bias (85-89) -/
inductive Form where
  | code | phase | phase2
  deriving DecidableEq

/-- header of a bias message as returned by `decode_head` -/
structure BHead where
  udi : Nat
  mi : Bool
  iodssr : Nat
  iyaw : Option Bool
  nsat : Nat

/-- `decode_head(msg, i, sys)`: rtcm.py lines 987-1034, for the bias messages -/
def biasHead (d : Dec) (q : Bias) (f : Form) (sys : Sys) (b : BitBuf) (i : Nat) : Py (Dec × Bias × BHead × Nat) := do
  let (d, i) ← decodeHeadTime d sys b i
  let udi ← readU b i 4
  let mi ← readU b (i + 4) 1
  let i := i + 5
  let iodssr ← readU b i 4
  let pid ← readU b (i + 4) 16
  let sid ← readU b (i + 20) 4
  let i := i + 24
  let d := { d with pid := pid, sid := sid }
  let (q, iyaw, i) ← (match f with
    | .code => pure (q, none, i)
    | .phase => do
      let _ ← readU b i 1
      let _ ← readU b (i + 1) 1
      pure ({ q with iexpb := 0 }, none, i + 2)
    | .phase2 => do
      let y ← readU b i 1
      let x ← readU b (i + 1) 4
      pure ({ q with iexpb := x }, some (y == 1), i + 5))
  let nsat ← readU b i 6
  pure (d, q, ⟨udi, mi == 1, iodssr, iyaw, nsat⟩, i + 6)

/-- `if sat not in self.sat_b: self.sat_b.append(sat)` -/
def addSatB (q : Bias) (sat : Int) : Py Bias :=
  match q.satB with
  | none => .error .attributeError
  | some l => .ok (if sat ∈ l then q else { q with satB := some (l ++ [sat]) })

/-- `d[sat][rsig] = v` -/
def setRow {α : Type} (d : Dict Int (Row α)) (sat : Int) (g : List Char) (v : α) : Py (Dict Int (Row α)) := do
  let r ← Dict.getItem d sat
  pure (Dict.set d sat (Dict.set r g v))

/-- one code bias: rtcm.py lines 1205-1209 -/
def cbiasSig (sys : Sys) (b : BitBuf) (sat : Int) (s : Bias × Nat) : Py (Bias × Nat) := do
  let (q, i) := s
  let sig ← readU b i 5
  let cb ← readS b (i + 5) 14
  let rsig ← ssigStr sys .C sig
  let m ← setRow q.cbias sat rsig (sval cb 14 (1 / 100))
  pure ({ q with cbias := m }, i + 19)

/-- the satellite loop of `decode_cssr_cbias` (n satellites still to come): rtcm.py lines 1190-1209;
`break` ends it -/
def cbiasLoop (mt : Nat) (sys : Sys) (b : BitBuf) : Nat → Bias × Nat → Py (Bias × Nat)
  | 0, s => .ok s
  | n + 1, (q, i) => do
    let (i, sat) ← decodeSat mt sys b i
    let nsig ← readU b i 5
    let i := i + 5
    let q ← addSatB q sat
    let q := if Dict.mem q.cbias sat then q else { q with cbias := Dict.set q.cbias sat [] }
    let c ← ssigCount sys
    if nsig > c then pure (q, i)
    else do
      let s ← (List.range nsig).foldlM (fun s _ => cbiasSig sys b sat s) (q, i)
      cbiasLoop mt sys b n s

/-- `decode_cssr_cbias(msg, i)`: rtcm.py lines 1174-1215 -/
def decodeCbias (d : Dec) (q : Bias) (b : BitBuf) (i : Nat) : Py (Dec × Bias × Nat) := do
  let sys ← getSsrSys d.sysref d.msgtype
  let (d, q, v, i) ← biasHead d q .code sys b i
  let q := if timediff d.time (d.t0s .cbias) > 0 then { q with satB := some [], cbias := [] } else q
  let d := { d with
    iodssr := v.iodssr
    udi := fun c => if c = SC.cbias then v.udi else d.udi c
    mi := v.mi }
  let (q, i) ← cbiasLoop d.msgtype sys b v.nsat (q, i)
  pure ({ d with
    iodssrC := fun c => if c = SC.cbias then v.iodssr else d.iodssrC c
    t0s := fun c => if c = SC.cbias then d.time else d.t0s c }, q, i)

/-- one phase bias: rtcm.py lines 1269-1289 -/
def pbiasSig (f : Form) (sys : Sys) (b : BitBuf) (sat : Int) (s : Bias × Nat) : Py (Bias × Nat) := do
  let (q, i) := s
  let sig ← readU b i 5
  let si ← readU b (i + 5) 1
  let i := i + 6
  let rsig ← ssigStr sys .L sig
  let (q, i) ← (if f ≠ .phase2 then do
      let wl ← readU b i 2
      let m ← setRow q.wl sat rsig wl
      pure ({ q with wl := m }, i + 2)
    else pure (q, i))
  let di ← readU b i 4
  let pb ← readS b (i + 4) 20
  let m1 ← setRow q.pbias sat rsig (sval pb 20 (1 / 10000))
  let m2 ← setRow q.si sat rsig (si == 1)
  let m3 ← setRow q.di sat rsig di
  pure ({ q with pbias := m1, si := m2, di := m3 }, i + 24)

/-- the satellite loop of `decode_cssr_pbias`: rtcm.py lines 1240-1289 -/
def pbiasLoop (mt : Nat) (f : Form) (iyaw : Option Bool) (sys : Sys) (b : BitBuf) : Nat → Bias × Nat → Py (Bias × Nat)
  | 0, s => .ok s
  | n + 1, (q, i) => do
    let (i, sat) ← decodeSat mt sys b i
    let nsig ← readU b i 5
    let i := i + 5
    let (q, i) ← (if f ≠ .phase2 ∨ iyaw = some true then do
        let yaw ← readU b i 9
        let dyaw ← readS b (i + 9) 8
        pure ({ q with yaw := Dict.set q.yaw sat ((yaw : ℚ) * (1 / 256)),
                       dyaw := Dict.set q.dyaw sat (sval dyaw 8 (1 / 8192)) }, i + 17)
      else pure (q, i))
    let q ← addSatB q sat
    let q := if Dict.mem q.pbias sat then q else
      { q with pbias := Dict.set q.pbias sat [], si := Dict.set q.si sat [], di := Dict.set q.di sat [],
               wl := Dict.set q.wl sat [] }
    let c ← ssigCount sys
    if nsig > c then pure (q, i)
    else do
      let s ← (List.range nsig).foldlM (fun s _ => pbiasSig f sys b sat s) (q, i)
      pbiasLoop mt f iyaw sys b n s

/-- `decode_cssr_pbias(msg, i)`: rtcm.py lines 1217-1292, for `inet = 0` -/
def decodePbias (f : Form) (d : Dec) (q : Bias) (b : BitBuf) (i : Nat) : Py (Dec × Bias × Nat) := do
  let sys ← getSsrSys d.sysref d.msgtype
  let (d, q, v, i) ← biasHead d q f sys b i
  let q := if timediff d.time (d.t0s .pbias) > 0 then
    { q with satB := some [], pbias := [], si := [], di := [], wl := [] } else q
  let d := { d with
    iodssr := v.iodssr
    udi := fun c => if c = SC.pbias then v.udi else d.udi c
    mi := v.mi }
  let q := { q with iyaw := v.iyaw.getD true }
  let (q, i) ← pbiasLoop d.msgtype f v.iyaw sys b v.nsat (q, i)
  pure ({ d with
    iodssrC := fun c => if c = SC.pbias then v.iodssr else d.iodssrC c
    t0s := fun c => if c = SC.pbias then d.time else d.t0s c }, q, i)

/-- the SSR part of a decoder without biases, applied next to unchanged biases -/
def lift (q : Bias) (x : Py (Dec × Nat)) : Py (Option (Dec × Bias × Nat)) := do
  let (d, i) ← x
  pure (some (d, q, i))

/-- the method of an SSR message kind; `none`: not modelled -/
def ssrKind (f : Form) (c : SC) (d : Dec) (q : Bias) (b : BitBuf) (i : Nat) : Py (Option (Dec × Bias × Nat)) :=
  match c with
  | .orbit => lift q (decodeCssrOrb d b i)
  | .clock => lift q (decodeCssrClk d b i)
  | .oc => lift q (decodeCssrComb d b i)
  | .hclock => lift q (decodeCssrHclk d b i)
  | .ura => lift q (decodeCssrUra d b i)
  | .cbias => some <$> decodeCbias d q b i
  | .pbias => some <$> decodePbias f d q b i
  | _ => .ok none

/-- `decode_igsssr(msg, i)`: rtcm.py lines 1438-1477; the vertical TEC message is not modelled -/
def decodeIgs (d : Dec) (q : Bias) (b : BitBuf) (i : Nat) : Py (Option (Dec × Bias × Nat)) := do
  let _ ← readU b i 3
  let subtype ← readU b (i + 3) 8
  let i := i + 11
  if subtype = 201 then .ok none
  else do
    let (sys, k) ← igsKind subtype d.sysref
    let d := { d with sysref := sys }
    match k with
    | some c => ssrKind .phase c d q b i
    | none => pure (some (d, q, i))

/-- `rtcm.decode(msg)` for the SSR messages: rtcm.py lines 3946-4087; `skip` is `mask_pbias`;
`none`: another method is called -/
def decode (skip : Bool) (d : Dec) (q : Bias) (b : BitBuf) : Py (Option (Dec × Bias × Nat)) := do
  let m ← readU b 24 12
  let d := { d with msgtype := m }
  match decKind m with
  | some .orb => ssrKind .phase .orbit d q b 36
  | some .clk => ssrKind .phase .clock d q b 36
  | some .comb => ssrKind .phase .oc d q b 36
  | some .ura => ssrKind .phase .ura d q b 36
  | some .hclk => ssrKind .phase .hclock d q b 36
  | some .cbias => ssrKind .phase .cbias d q b 36
  | some .pbias =>
    if skip then pure (some (d, q, 36)) else ssrKind (if m < 90 then .phase2 else .phase) .pbias d q b 36
  | some .igsssr => decodeIgs d q b 36
  | _ => .ok none

end Verif.RtcmBias
