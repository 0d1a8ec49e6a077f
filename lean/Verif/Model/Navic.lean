import Verif.Model.Rawnav
/-!
# Navigation messages of NavIC (rawnav.py, class `RawNav`)

Byte buffers are bit buffers; values are exact rationals.  Slices in bytes are slices of eight times as many bits.
A format with several fields is a sequence of reads.
-/

namespace Verif.Navic
open Verif.Time
open Verif.Sat (Sys sat2prn)
open Verif.Rawnav (p2 sc2rad pySliceSet urai2sva)

/-- class `Eph`: gnss.py lines 710-761 (the attributes set by the two decoders, those not set with their default) -/
structure Eph where
  sat : Int
  week : Int
  code : Int
  svh : Int
  iodc : Int
  iode : Int
  af0 : ℚ
  af1 : ℚ
  af2 : ℚ
  urai : Int
  sva : ℚ
  tgd : ℚ
  isc : List ℚ
  A : ℚ
  Adot : ℚ
  deln : ℚ
  delnd : ℚ
  M0 : ℚ
  e : ℚ
  omg : ℚ
  integ : Int
  toes : ℚ
  OMG0 : ℚ
  i0 : ℚ
  OMGd : ℚ
  idot : ℚ
  cis : ℚ
  cic : ℚ
  crs : ℚ
  crc : ℚ
  cus : ℚ
  cuc : ℚ
  mode : Int
  tot : GTime
  toc : GTime
  toe : GTime
  deriving DecidableEq

/-- the ephemeris from the stored sub-frames: lines 1300-1371 -/
def lnavTry (week : Int) (sat : Int) (buff : BitBuf) : Py (Option Eph) := do
  let id1 ← readU buff 27 2
  let id2 ← readU buff (320 + 27) 2
  let tow1 ← readU buff 8 17
  let tow2 ← readU buff (320 + 8) 17
  if id1 ≠ 0 ∨ id2 ≠ 1 then return none
  if tow2 ≠ tow1 + 1 then return none
  -- subframe 1
  let wk ← readU buff 30 10
  let af0 ← readS buff 40 22
  let af1 ← readS buff 62 16
  let af2 ← readS buff 78 8
  let urai ← readU buff 86 4
  let toc ← readU buff 90 16
  let tgd ← readS buff 106 8
  let deln ← readS buff 114 22
  let iode ← readU buff 136 8
  let svh ← readU buff 154 2
  let cuc ← readS buff 156 15
  let cus ← readS buff 171 15
  let cic ← readS buff 186 15
  let cis ← readS buff 201 15
  let crc ← readS buff 216 15
  let crs ← readS buff 231 15
  let idot ← readS buff 246 14
  -- subframe 2
  let M0 ← readS buff (320 + 30) 32
  let toe ← readU buff (320 + 30 + 32) 16
  let e ← readU buff (320 + 30 + 48) 32
  let sA ← readU buff (320 + 30 + 80) 32
  let OMG0 ← readS buff (320 + 30 + 112) 32
  let omg ← readS buff (320 + 30 + 144) 32
  let OMGd ← readS buff (320 + 30 + 176) 22
  let i0 ← readS buff (320 + 30 + 198) 32
  let tow : ℚ := tow1 * 12
  let ephWeek : Int := wk + (week - wk + 512) / 1024 * 1024
  let sva ← urai2sva urai
  let toc : ℚ := toc * 16
  let toes : ℚ := toe * 16
  let week := if toes > tow + 302400 then week + 1 else if toes < tow - 302400 then week - 1 else week
  return some {
    sat, week := ephWeek, code := 0, svh, iodc := iode, iode, af0 := af0 * p2 31, af1 := af1 * p2 43, af2 := af2 * p2 55, urai, sva,
    tgd := tgd * p2 31, isc := [0, 0, 0, 0], A := (sA * p2 19) ^ 2, Adot := 0, deln := deln * p2 41 * sc2rad, delnd := 0,
    M0 := M0 * p2 31 * sc2rad, e := e * p2 33, omg := omg * p2 31 * sc2rad, integ := 0, toes, OMG0 := OMG0 * p2 31 * sc2rad,
    i0 := i0 * p2 31 * sc2rad, OMGd := OMGd * p2 41 * sc2rad, idot := idot * p2 43 * sc2rad, cis := cis * p2 28, cic := cic * p2 28,
    crs := crs * (625 / 10000), crc := crc * (625 / 10000), cus := cus * p2 28, cuc := cuc * p2 28, mode := 0, tot := gpst2time week tow,
    toc := gpst2time ephWeek toc, toe := gpst2time ephWeek toes }

/-- `decode_irn_lnav(week, time, sat, msg)`: lines 1283-1371; the store is `self.irn_nav` -/
def decodeLnav (st : Dict Int BitBuf) (week : Int) (sat : Int) (msg : BitBuf) : Py (Dict Int BitBuf × Option Eph) := do
  let (_, prn) := sat2prn sat
  let _ ← readU msg 0 8
  let _ ← readU msg 8 17
  let _ ← readU msg 25 1
  let _ ← readU msg 26 1
  let sid ← readU msg 27 2
  let b ← st.getItem (prn - 1)
  let b := pySliceSet b ((sid : Int) * 320) ((sid : Int) * 320 + 320) (msg.take 320)
  let st := st.set (prn - 1) b
  if sid > 2 then return (st, none)
  return (st, ← lnavTry week sat b)

/-- `decode_irn_l1nav_iono_grid(msg, i)`: lines 1373-1382 (the values are not kept) -/
def grid (buff : BitBuf) (i : Nat) : Py Unit := do
  let _ ← readU buff i 10
  let _ ← readU buff (i + 10) 4
  (List.range 15).forM fun k => do
    let _ ← readU buff (i + 14 + 13 * k) 10
    let _ ← readU buff (i + 14 + 13 * k + 10) 4
    return ()
  let _ ← readU buff (i + 14 + 195) 3
  return ()

/-- `decode_irn_l1nav_alm(msg, i)`: lines 1384-1389 (the values are not kept) -/
def alm (buff : BitBuf) (i : Nat) : Py Unit := do
  let _ ← readU buff i 13
  let _ ← readU buff (i + 13) 20
  let _ ← readU buff (i + 33) 16
  let _ ← readS buff (i + 49) 24
  let _ ← readS buff (i + 73) 19
  let _ ← readU buff (i + 92) 24
  let _ ← readS buff (i + 116) 24
  let _ ← readS buff (i + 140) 24
  let _ ← readS buff (i + 164) 24
  let _ ← readS buff (i + 188) 14
  let _ ← readS buff (i + 202) 11
  let _ ← readU buff (i + 213) 6
  return ()

/-- `decode_irn_l1nav_iono_nequick(msg, i)`: lines 1391-1400 (the values are not kept) -/
def nequick (buff : BitBuf) (i : Nat) : Py Unit := do
  (List.range 3).forM fun k => do
    let _ ← readS buff (i + 63 * k) 6
    let _ ← readS buff (i + 63 * k + 6) 6
    let _ ← readS buff (i + 63 * k + 12) 7
    let _ ← readS buff (i + 63 * k + 19) 7
    let _ ← readU buff (i + 63 * k + 26) 11
    let _ ← readS buff (i + 63 * k + 37) 11
    let _ ← readS buff (i + 63 * k + 48) 14
    let _ ← readU buff (i + 63 * k + 62) 1
    return ()
  let _ ← readU buff (i + 189) 2
  return ()

/-- `decode_irn_l1nav_iono_klob(msg, i)`: lines 1402-1414 (the values are not kept) -/
def klob (buff : BitBuf) (i : Nat) : Py Unit := do
  let _ ← readS buff i 8
  let _ ← readS buff (i + 8) 8
  let _ ← readS buff (i + 16) 10
  let _ ← readS buff (i + 26) 12
  let _ ← readS buff (i + 38) 8
  let _ ← readS buff (i + 46) 8
  let _ ← readS buff (i + 54) 11
  let _ ← readS buff (i + 65) 14
  let _ ← readU buff (i + 79) 6
  let _ ← readU buff (i + 85) 6
  let _ ← readS buff (i + 91) 5
  let _ ← readS buff (i + 96) 5
  let _ ← readU buff (i + 101) 2
  return ()

/-- `decode_irn_l1nav_eop(msg, i)`: lines 1416-1421 (the values are not kept) -/
def eop (buff : BitBuf) (i : Nat) : Py Unit := do
  let _ ← readU buff i 16
  let _ ← readS buff (i + 16) 21
  let _ ← readS buff (i + 37) 15
  let _ ← readS buff (i + 52) 21
  let _ ← readS buff (i + 73) 15
  let _ ← readS buff (i + 88) 31
  let _ ← readS buff (i + 119) 19
  return ()

/-- `decode_irn_l1nav_utc(msg, i)`: lines 1423-1445 (the values are not kept) -/
def utc (buff : BitBuf) (i : Nat) : Py Unit := do
  let _ ← readU buff i 3
  let _ ← readU buff (i + 3) 8
  let _ ← readU buff (i + 11) 13
  let _ ← readS buff (i + 24) 8
  let _ ← readU buff (i + 32) 13
  let _ ← readU buff (i + 45) 4
  let _ ← readS buff (i + 49) 8
  let _ ← readS buff (i + 57) 16
  let _ ← readS buff (i + 73) 13
  let _ ← readS buff (i + 86) 7
  let flg ← readU buff (i + 93) 1
  if flg ≠ 0 then
    let _ ← readS buff (i + 94) 16
    let _ ← readS buff (i + 94 + 16) 13
    let _ ← readS buff (i + 94 + 29) 7
  (List.range 3).forM fun k => do
    let _ ← readU buff (i + 130 + 33 * k) 3
    let flg ← readU buff (i + 130 + 33 * k + 3) 1
    if flg ≠ 0 then
      let _ ← readS buff (i + 130 + 33 * k + 4) 16
      let _ ← readS buff (i + 130 + 33 * k + 20) 13
    return ()

/-- message data of the third sub-frame: lines 1484-1498 -/
def sub3 (buff : BitBuf) (msgid : Nat) (i : Nat) : Py Unit := do
  if msgid = 5 then grid buff i
  else if msgid = 6 then alm buff i
  else if msgid = 8 then nequick buff i
  else if msgid = 10 then
    eop buff i
    klob buff (i + 138)
  else if msgid = 17 then utc buff i
  else return ()

/-- `sva_t[urai]` with an index that may be negative: lines 152-155 -/
def urai2svaI (urai : Int) : Py ℚ :=
  pyGetI [2, 28 / 10, 4, 57 / 10, 8, 113 / 10, 16, 32, 64, 128, 256, 512, 1024, 2048, 4096, 8192] urai

/-- `decode_irn_l1nav(week, time, sat, msg)`: lines 1447-1551 -/
def decodeL1nav (sat : Int) (msg : BitBuf) : Py (Option Eph) := do
  let (sys, prn_) := sat2prn sat
  let toi ← readU msg 0 9
  let wn ← readU msg 52 13
  let itow ← readU msg 65 8
  let _ ← readU msg 73 1
  let svh ← readU msg 74 1
  let iodec ← readU msg 75 4
  let urai ← readS msg 79 5
  let toec ← readU msg 84 11
  let dA ← readS msg 95 26
  let Adot ← readS msg 121 26
  let deln ← readS msg 147 19
  let delnd ← readS msg 166 23
  let M0 ← readS msg 189 33
  let e ← readU msg 222 33
  let omg ← readS msg 255 33
  let OMG0 ← readS msg 288 33
  let OMGd ← readS msg 321 25
  let i0 ← readS msg 346 33
  let idot ← readS msg 379 15
  let cis ← readS msg 394 16
  let cic ← readS msg 410 16
  let crs ← readS msg 426 24
  let crc ← readS msg 450 24
  let cus ← readS msg 474 21
  let cuc ← readS msg 495 21
  let af0 ← readS msg 516 29
  let af1 ← readS msg 545 22
  let af2 ← readS msg 567 15
  let tgd ← readS msg 582 12
  let isc1 ← readS msg 594 12
  let isc2 ← readS msg 606 12
  let rsf ← readU msg 618 1
  let prn ← readU msg 622 6
  if (prn : Int) ≠ prn_ then return none
  let tow : ℚ := ((itow * 7200 + toi * 18 : Nat) : Int)
  let msgid ← readU msg (52 + 1200) 6
  let _ ← readU msg (52 + 1200 + 6) 1
  sub3 msg msgid (52 + 1200 + 7)
  let sva ← urai2svaI urai
  let A0 : ℚ := if sys = .gps then 26559710 else 42164200
  let toes : ℚ := toec * 300
  let toe := gst2time wn toes
  return some {
    sat, week := wn, code := 2, svh, iodc := iodec, iode := iodec, af0 := af0 * p2 35, af1 := af1 * p2 50, af2 := af2 * p2 66, urai,
    sva, tgd := tgd * p2 35, isc := [0, 0, 0, 0, isc2 * p2 35, isc1 * p2 35], A := A0 + dA * p2 9, Adot := Adot * p2 21,
    deln := deln * p2 44 * sc2rad, delnd := delnd * p2 57 * sc2rad, M0 := M0 * p2 32 * sc2rad, e := e * p2 34,
    omg := omg * p2 32 * sc2rad, integ := rsf, toes, OMG0 := OMG0 * p2 32 * sc2rad, i0 := i0 * p2 32 * sc2rad,
    OMGd := OMGd * p2 44 * sc2rad, idot := idot * p2 44 * sc2rad, cis := cis * p2 30, cic := cic * p2 30, crs := crs * p2 8,
    crc := crc * p2 8, cus := cus * p2 30, cuc := cuc * p2 30, mode := 2, tot := gst2time wn tow, toc := toe, toe }

end Verif.Navic
