import Verif.Model.Rawnav
/-!
Model of the ephemeris messages of `rtcm` (`src/cssrlib/rtcm.py` lines 797-801 and 2547-2937).

Numbers are exact rationals; the constants `P2_n` and `SC2RAD` are those of `Verif.Model.Rawnav`.
`self.time` is the argument `time`.
-/

namespace Verif.RtcmEph
open Verif.Sat Verif.Time
open Verif.Rawnav (p2 sc2rad)

/-- class `Eph`: gnss.py lines 710-761 (the attributes set by the decoders below and their defaults) -/
structure Eph where
  sat : Int
  week : Int
  sva : Int
  code : Int := 0
  iode : Int
  iodc : Int
  svh : Int
  flag : Int := 0
  fit : Int := 0
  af0 : ℚ
  af1 : ℚ
  af2 : ℚ
  crs : ℚ
  crc : ℚ
  cus : ℚ
  cuc : ℚ
  cis : ℚ
  cic : ℚ
  e : ℚ
  A : ℚ
  deln : ℚ
  M0 : ℚ
  OMG0 : ℚ
  OMGd : ℚ
  omg : ℚ
  i0 : ℚ
  idot : ℚ
  tgd : ℚ
  tgdB : ℚ := 0
  toes : ℚ
  toe : GTime
  toc : GTime
  tot : GTime
  mode : Int
  deriving DecidableEq

/-- class `Geph`: gnss.py lines 764-800 -/
structure Geph where
  sat : Int
  frq : Int
  iode : Int
  svh : Int
  age : Int
  status : Nat
  pos : ℚ × ℚ × ℚ
  vel : ℚ × ℚ × ℚ
  acc : ℚ × ℚ × ℚ
  gamn : ℚ
  taun : ℚ
  dtaun : ℚ
  toe : GTime
  tof : GTime
  mode : Int
  deriving DecidableEq

/-- `adjustweek(week, tref)`: lines 797-801 -/
def adjustweek (week : Int) (tref : GTime) : Int :=
  (week % 1024) + (time2gpst tref).1 / 1024 * 1024

/-- `decode_gps_eph(msg, i)`: lines 2547-2602 -/
def decodeGps (time : GTime) (msg : BitBuf) (i : Nat) : Py (Nat × Eph) := do
  let prn ← readU msg i 6
  let week ← readU msg (i + 6) 10
  let sva ← readU msg (i + 16) 4
  let code ← readU msg (i + 20) 2
  let idot ← readS msg (i + 22) 14
  let i := i + 36
  let iode ← readU msg i 8
  let toc ← readU msg (i + 8) 16
  let af2 ← readS msg (i + 24) 8
  let af1 ← readS msg (i + 32) 16
  let af0 ← readS msg (i + 48) 22
  let i := i + 70
  let iodc ← readU msg i 10
  let crs ← readS msg (i + 10) 16
  let deln ← readS msg (i + 26) 16
  let M0 ← readS msg (i + 42) 32
  let cuc ← readS msg (i + 74) 16
  let i := i + 90
  let e ← readU msg i 32
  let cus ← readS msg (i + 32) 16
  let asq ← readU msg (i + 48) 32
  let toe ← readU msg (i + 80) 16
  let cic ← readS msg (i + 96) 16
  let i := i + 112
  let omg0 ← readS msg i 32
  let cis ← readS msg (i + 32) 16
  let i0 ← readS msg (i + 48) 32
  let crc ← readS msg (i + 80) 16
  let omg ← readS msg (i + 96) 32
  let i := i + 128
  let omgd ← readS msg i 24
  let tgd ← readS msg (i + 24) 8
  let svh ← readU msg (i + 32) 6
  let flag ← readU msg (i + 38) 1
  let fit ← readU msg (i + 39) 1
  let i := i + 40
  let week := adjustweek week time
  let sqrtA : ℚ := asq * p2 19
  return (i, {
    sat := prn2sat .gps prn, week, sva, code, idot := idot * p2 43 * sc2rad, iode,
    af2 := af2 * p2 55, af1 := af1 * p2 43, af0 := af0 * p2 31, iodc, crs := crs * p2 5,
    deln := deln * p2 43 * sc2rad, M0 := M0 * p2 31 * sc2rad, cuc := cuc * p2 29, e := e * p2 33,
    cus := cus * p2 29, toes := toe * 16, cic := cic * p2 29, OMG0 := omg0 * p2 31 * sc2rad,
    cis := cis * p2 29, i0 := i0 * p2 31 * sc2rad, crc := crc * p2 5, omg := omg * p2 31 * sc2rad,
    OMGd := omgd * p2 43 * sc2rad, tgd := tgd * p2 31, svh, flag, fit,
    toe := gpst2time week (toe * 16), toc := gpst2time week (toc * 16), tot := time,
    A := sqrtA * sqrtA, mode := 0 })

/-- `decode_glo_eph(msg, i)`: lines 2604-2669.  All three components of position, velocity and
acceleration are computed from the values read for x. -/
def decodeGlo (time : GTime) (msg : BitBuf) (i : Nat) : Py (Nat × Geph) := do
  let prn ← readU msg i 6
  let frq ← readU msg (i + 6) 5
  let _ ← readU msg (i + 11) 1
  let _ ← readU msg (i + 12) 1
  let P1 ← readU msg (i + 13) 2
  let i := i + 15
  let tkh ← readU msg i 5
  let tkm ← readU msg (i + 5) 6
  let tks ← readU msg (i + 11) 1
  let i := i + 12
  let bn ← readU msg i 1
  let P2 ← readU msg (i + 1) 1
  let tb ← readU msg (i + 2) 7
  let i := i + 9
  let xd ← readS msg i 24
  let x ← readS msg (i + 24) 27
  let xdd ← readS msg (i + 51) 5
  let i := i + 56
  let _ ← readS msg i 24
  let _ ← readS msg (i + 24) 27
  let _ ← readS msg (i + 51) 5
  let i := i + 56
  let _ ← readS msg i 24
  let _ ← readS msg (i + 24) 27
  let _ ← readS msg (i + 51) 5
  let i := i + 56
  let P3 ← readU msg i 1
  let gamn ← readS msg (i + 1) 11
  let P ← readU msg (i + 12) 2
  let _ ← readU msg (i + 14) 1
  let taun ← readS msg (i + 15) 22
  let dtaun ← readS msg (i + 37) 5
  let i := i + 42
  let en ← readU msg i 5
  let P4 ← readU msg (i + 5) 1
  let _ ← readU msg (i + 6) 4
  let _ ← readU msg (i + 10) 11
  let M ← readU msg (i + 21) 2
  let _ ← readU msg (i + 23) 1
  let _ ← readU msg (i + 24) 11
  let _ ← readS msg (i + 35) 32
  let _ ← readU msg (i + 67) 5
  let _ ← readS msg (i + 72) 22
  let _ ← readU msg (i + 94) 1
  let i := i + 102
  let vel : ℚ := xd * p2 20 * 1000
  let pos : ℚ := x * p2 11 * 1000
  let acc : ℚ := xdd * p2 30 * 1000
  let (week, tow) := time2gpst time
  let tod := tow - 86400 * ⌊tow / 86400⌋
  let tow := tow - tod
  let tof : ℚ := tkh * 3600 + tkm * 60 + tks * 30 - 10800
  let tof := if tof < tod - 43200 then tof + 86400 else if tof > tod + 43200 then tof - 86400 else tof
  let toe : ℚ := tb * 900 - 10800
  let toe := if toe < tod - 43200 then toe + 86400 else if toe > tod + 43200 then toe - 86400 else toe
  return (i, {
    sat := prn2sat .glo prn, frq := (frq : Int) - 7, iode := (tb &&& 0x7F : Nat), svh := bn,
    age := en, status := M <<< 7 ||| P4 <<< 6 ||| P3 <<< 5 ||| P2 <<< 4 ||| P1 <<< 2 ||| P,
    pos := (pos, pos, pos), vel := (vel, vel, vel), acc := (acc, acc, acc), gamn := gamn * p2 40,
    taun := taun * p2 30, dtaun := dtaun * p2 30, tof := utc2gpst (gpst2time week (tow + tof)),
    toe := utc2gpst (gpst2time week (tow + toe)), mode := 0 })

/-- `decode_gal_eph(msg, i)`: lines 2671-2736; `mt` is `self.msgtype` -/
def decodeGal (mt : Nat) (time : GTime) (msg : BitBuf) (i : Nat) : Py (Nat × Eph) := do
  let prn ← readU msg i 6
  let week ← readU msg (i + 6) 12
  let iod ← readU msg (i + 18) 10
  let sisa ← readU msg (i + 28) 8
  let idot ← readS msg (i + 36) 14
  let i := i + 50
  let toc ← readU msg i 14
  let af2 ← readS msg (i + 14) 6
  let af1 ← readS msg (i + 20) 21
  let af0 ← readS msg (i + 41) 31
  let i := i + 72
  let crs ← readS msg i 16
  let deln ← readS msg (i + 16) 16
  let M0 ← readS msg (i + 32) 32
  let cuc ← readS msg (i + 64) 16
  let i := i + 80
  let e ← readU msg i 32
  let cus ← readS msg (i + 32) 16
  let asq ← readU msg (i + 48) 32
  let toe ← readU msg (i + 80) 14
  let cic ← readS msg (i + 94) 16
  let i := i + 110
  let omg0 ← readS msg i 32
  let cis ← readS msg (i + 32) 16
  let i0 ← readS msg (i + 48) 32
  let crc ← readS msg (i + 80) 16
  let omg ← readS msg (i + 96) 32
  let i := i + 128
  let omgd ← readS msg i 24
  let tgd ← readS msg (i + 24) 10
  let i := i + 34
  let week := adjustweek week time
  let sqrtA : ℚ := asq * p2 19
  if mt = 1045 then do
    let hs ← readU msg i 2
    let dvs ← readU msg (i + 2) 1
    let i := i + 10
    return (i, {
      sat := prn2sat .gal prn, week, iode := iod, sva := sisa, idot := idot * p2 43 * sc2rad,
      af2 := af2 * p2 59, af1 := af1 * p2 46, af0 := af0 * p2 34, crs := crs * p2 5,
      deln := deln * p2 43 * sc2rad, M0 := M0 * p2 31 * sc2rad, cuc := cuc * p2 29, e := e * p2 33,
      cus := cus * p2 29, toes := toe * 60, cic := cic * p2 29, OMG0 := omg0 * p2 31 * sc2rad,
      cis := cis * p2 29, i0 := i0 * p2 31 * sc2rad, crc := crc * p2 5, omg := omg * p2 31 * sc2rad,
      OMGd := omgd * p2 43 * sc2rad, tgd := tgd * p2 32,
      toe := gpst2time week (toe * 60), toc := gpst2time week (toc * 60), tot := time,
      A := sqrtA * sqrtA, svh := ((hs <<< 7) + (dvs <<< 6) : Nat), code := 1 + 4 + 512, iodc := iod, mode := 1 })
  else do
    let tgd2 ← readS msg i 10
    let hs ← readU msg (i + 10) 2
    let dvs ← readU msg (i + 12) 1
    let hs1 ← readU msg (i + 13) 2
    let dvs1 ← readU msg (i + 15) 1
    let i := i + 18
    return (i, {
      sat := prn2sat .gal prn, week, iode := iod, sva := sisa, idot := idot * p2 43 * sc2rad,
      af2 := af2 * p2 59, af1 := af1 * p2 46, af0 := af0 * p2 34, crs := crs * p2 5,
      deln := deln * p2 43 * sc2rad, M0 := M0 * p2 31 * sc2rad, cuc := cuc * p2 29, e := e * p2 33,
      cus := cus * p2 29, toes := toe * 60, cic := cic * p2 29, OMG0 := omg0 * p2 31 * sc2rad,
      cis := cis * p2 29, i0 := i0 * p2 31 * sc2rad, crc := crc * p2 5, omg := omg * p2 31 * sc2rad,
      OMGd := omgd * p2 43 * sc2rad, tgd := tgd * p2 32, tgdB := tgd2 * p2 32,
      toe := gpst2time week (toe * 60), toc := gpst2time week (toc * 60), tot := time,
      A := sqrtA * sqrtA, svh := (((hs <<< 7) + (dvs <<< 6)) ||| ((hs1 <<< 1) + dvs1) : Nat),
      code := 1 + 4 + 512, iodc := iod, mode := 0 })

/-- `decode_qzs_eph(msg, i)`: lines 2738-2794 -/
def decodeQzs (time : GTime) (msg : BitBuf) (i : Nat) : Py (Nat × Eph) := do
  let svid ← readU msg i 4
  let toc ← readU msg (i + 4) 16
  let af2 ← readS msg (i + 20) 8
  let af1 ← readS msg (i + 28) 16
  let af0 ← readS msg (i + 44) 22
  let i := i + 66
  let iode ← readU msg i 8
  let crs ← readS msg (i + 8) 16
  let deln ← readS msg (i + 24) 16
  let M0 ← readS msg (i + 40) 32
  let cuc ← readS msg (i + 72) 16
  let i := i + 88
  let e ← readU msg i 32
  let cus ← readS msg (i + 32) 16
  let asq ← readU msg (i + 48) 32
  let toe ← readU msg (i + 80) 16
  let cic ← readS msg (i + 96) 16
  let i := i + 112
  let omg0 ← readS msg i 32
  let cis ← readS msg (i + 32) 16
  let i0 ← readS msg (i + 48) 32
  let crc ← readS msg (i + 80) 16
  let omg ← readS msg (i + 96) 32
  let i := i + 128
  let omgd ← readS msg i 24
  let idot ← readS msg (i + 24) 14
  let l2c ← readU msg (i + 38) 2
  let week ← readU msg (i + 40) 10
  let sva ← readU msg (i + 50) 4
  let i := i + 54
  let svh ← readU msg i 6
  let tgd ← readS msg (i + 6) 8
  let iodc ← readU msg (i + 14) 10
  let fit ← readU msg (i + 24) 1
  let i := i + 25
  let week := adjustweek week time
  let sqrtA : ℚ := asq * p2 19
  return (i, {
    sat := prn2sat .qzs (svid + 192 : Nat), af2 := af2 * p2 55, af1 := af1 * p2 43,
    af0 := af0 * p2 31, iode, crs := crs * p2 5, deln := deln * p2 43 * sc2rad, M0 := M0 * p2 31 * sc2rad,
    cuc := cuc * p2 29, e := e * p2 33, cus := cus * p2 29, toes := toe * 16, cic := cic * p2 29,
    OMG0 := omg0 * p2 31 * sc2rad, cis := cis * p2 29, i0 := i0 * p2 31 * sc2rad, crc := crc * p2 5,
    omg := omg * p2 31 * sc2rad, OMGd := omgd * p2 43 * sc2rad, idot := idot * p2 43 * sc2rad, code := l2c,
    week, sva, svh, tgd := tgd * p2 31, iodc, fit, toe := gpst2time week (toe * 16),
    toc := gpst2time week (toc * 16), tot := time, A := sqrtA * sqrtA, flag := 1, mode := 0 })

/-- `decode_bds_eph(msg, i)`: lines 2796-2847.  `cus` is read with 16 bits and `af2` is computed from
the value read for `af0`. -/
def decodeBds (time : GTime) (msg : BitBuf) (i : Nat) : Py (Nat × Eph) := do
  let prn ← readU msg i 6
  let week ← readU msg (i + 6) 13
  let ura ← readU msg (i + 19) 4
  let idot ← readS msg (i + 23) 14
  let i := i + 37
  let aode ← readU msg i 5
  let toc ← readU msg (i + 5) 17
  let _ ← readS msg (i + 22) 11
  let af1 ← readS msg (i + 33) 22
  let af0 ← readS msg (i + 55) 24
  let i := i + 79
  let aodc ← readU msg i 5
  let crs ← readS msg (i + 5) 18
  let deln ← readS msg (i + 23) 16
  let M0 ← readS msg (i + 39) 32
  let cuc ← readS msg (i + 71) 18
  let i := i + 89
  let e ← readU msg i 32
  let cus ← readS msg (i + 32) 16
  let asq ← readU msg (i + 48) 32
  let toe ← readU msg (i + 80) 17
  let cic ← readS msg (i + 97) 18
  let i := i + 115
  let omg0 ← readS msg i 32
  let cis ← readS msg (i + 32) 18
  let i0 ← readS msg (i + 50) 32
  let crc ← readS msg (i + 82) 18
  let omg ← readS msg (i + 100) 32
  let i := i + 132
  let omgd ← readS msg i 24
  let tgd1 ← readS msg (i + 24) 10
  let tgd2 ← readS msg (i + 34) 10
  let svh ← readU msg (i + 44) 1
  let i := i + 45
  let sqrtA : ℚ := asq * p2 19
  return (i, {
    sat := prn2sat .bds prn, week, sva := ura, idot := idot * p2 43 * sc2rad, iode := aode,
    af2 := af0 * p2 66, af1 := af1 * p2 50, af0 := af0 * p2 33, iodc := aodc, crs := crs * p2 6,
    deln := deln * p2 43 * sc2rad, M0 := M0 * p2 31 * sc2rad, cuc := cuc * p2 31, e := e * p2 33,
    cus := cus * p2 31, toes := toe * 8, cic := cic * p2 31, OMG0 := omg0 * p2 31 * sc2rad,
    cis := cis * p2 31, i0 := i0 * p2 31 * sc2rad, crc := crc * p2 6, omg := omg * p2 31 * sc2rad,
    OMGd := omgd * p2 43 * sc2rad, tgd := tgd1 * (1 / 10 ^ 10), tgdB := tgd2 * (1 / 10 ^ 10), svh,
    toe := bdt2gpst (bdt2time week (toe * 8)), toc := bdt2gpst (bdt2time week (toc * 8)), tot := time,
    A := sqrtA * sqrtA, mode := 0 })

/-- `decode_irn_eph(msg, i)`: lines 2849-2901.  `af2` is computed from the value read for `af0`. -/
def decodeIrn (time : GTime) (msg : BitBuf) (i : Nat) : Py (Nat × Eph) := do
  let prn ← readU msg i 6
  let week ← readU msg (i + 6) 10
  let af0 ← readS msg (i + 16) 22
  let af1 ← readS msg (i + 38) 16
  let _ ← readS msg (i + 54) 8
  let i := i + 62
  let ura ← readU msg i 4
  let toc ← readU msg (i + 4) 16
  let tgd ← readS msg (i + 20) 8
  let deln ← readS msg (i + 28) 22
  let iode ← readU msg (i + 50) 8
  let i := i + 68
  let svh ← readU msg i 2
  let cuc ← readS msg (i + 2) 15
  let cus ← readS msg (i + 17) 15
  let cic ← readS msg (i + 32) 15
  let i := i + 47
  let cis ← readS msg i 15
  let crc ← readS msg (i + 15) 15
  let crs ← readS msg (i + 30) 15
  let idot ← readS msg (i + 45) 14
  let M0 ← readS msg (i + 59) 32
  let i := i + 91
  let toe ← readU msg i 16
  let e ← readU msg (i + 16) 32
  let asq ← readU msg (i + 48) 32
  let omg0 ← readS msg (i + 80) 32
  let omg ← readS msg (i + 112) 32
  let i := i + 144
  let omgd ← readS msg i 22
  let i0 ← readS msg (i + 22) 32
  let i := i + 58
  let week := adjustweek week time
  let sqrtA : ℚ := asq * p2 19
  return (i, {
    sat := prn2sat .irn prn, week, af0 := af0 * p2 31, af1 := af1 * p2 43, af2 := af0 * p2 55,
    sva := ura, tgd := tgd * p2 31, deln := deln * p2 41 * sc2rad, iode, svh, cuc := cuc * p2 28,
    cus := cus * p2 28, cic := cic * p2 28, cis := cis * p2 28, crc := crc * (625 / 10000),
    crs := crs * (625 / 10000), idot := idot * p2 43 * sc2rad, M0 := M0 * p2 31 * sc2rad, toes := toe * 16,
    e := e * p2 33, OMG0 := omg0 * p2 31 * sc2rad, omg := omg * p2 31 * sc2rad,
    OMGd := omgd * p2 41 * sc2rad, i0 := i0 * p2 31 * sc2rad, toe := gpst2time week (toe * 16),
    toc := gpst2time week (toc * 16), tot := time, A := sqrtA * sqrtA, iodc := iode, mode := 0 })

/-- `decode_sbs_eph(msg, i)`: lines 2903-2937.  After reading the fields `self.P2_31` is evaluated,
which is no attribute of the decoder. -/
def decodeSbs (msg : BitBuf) (i : Nat) : Py (Nat × Unit) := do
  let _ ← readU msg i 6
  let _ ← readU msg (i + 6) 8
  let _ ← readU msg (i + 14) 13
  let _ ← readU msg (i + 27) 4
  let i := i + 31
  let _ ← readS msg i 30
  let _ ← readS msg (i + 30) 30
  let _ ← readS msg (i + 60) 25
  let i := i + 85
  let _ ← readS msg i 17
  let _ ← readS msg (i + 17) 17
  let _ ← readS msg (i + 34) 18
  let i := i + 52
  let _ ← readS msg i 10
  let _ ← readS msg (i + 10) 10
  let _ ← readS msg (i + 20) 10
  let i := i + 30
  let _ ← readS msg i 12
  let _ ← readS msg (i + 12) 8
  throw .attributeError

end Verif.RtcmEph
