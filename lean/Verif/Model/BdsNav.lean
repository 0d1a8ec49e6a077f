import Verif.Model.Rawnav
/-!
# BeiDou navigation messages D1 and D2 (rawnav.py, class `RawNav`)

Byte buffers are bit buffers; values are exact rationals (`P2_n` is 2^(-n), `1e-10` is 10^(-10)).
The store `self.bds_d12` is a dictionary with one buffer per satellite.
-/

namespace Verif.BdsNav
open Verif.Time
open Verif.Sat (Sys sat2prn)
open Verif.Rawnav (getbitu2 getbits2 getbitu3 getbits3 p2 sc2rad urai2sva pySliceSet buffers)

/-- class `Eph`: gnss.py lines 710-761 (the attributes set by the two decoders) -/
structure Eph where
  sat : Int
  svh : Int
  iodc : Int
  iode : Int
  week : Int
  toc : GTime
  toe : GTime
  tot : GTime
  tgd : ℚ
  tgdB : ℚ
  af0 : ℚ
  af1 : ℚ
  af2 : ℚ
  deln : ℚ
  cuc : ℚ
  cus : ℚ
  crc : ℚ
  crs : ℚ
  cic : ℚ
  cis : ℚ
  M0 : ℚ
  e : ℚ
  A : ℚ
  i0 : ℚ
  OMGd : ℚ
  idot : ℚ
  OMG0 : ℚ
  omg : ℚ
  sva : ℚ
  toes : ℚ
  flag : Int
  mode : Int
  deriving DecidableEq

/-- the week of the reference times: lines 1152-1155 and 1272-1275 -/
def adjWeek (week : Int) (toes sow : ℚ) : Int :=
  if toes > sow + 302400 then week + 1 else if toes < sow - 302400 then week - 1 else week

/-- the ephemeris from the stored sub-frames: lines 1094-1162 -/
def d1Try (sat : Int) (buff : BitBuf) : Py (Option Eph) := do
  let id1 ← readU buff 15 3
  let id2 ← readU buff (320 + 15) 3
  let id3 ← readU buff (320 * 2 + 15) 3
  let sow1 ← getbitu2 buff 18 8 30 12
  let _ ← getbitu2 buff (320 + 18) 8 (320 + 30) 12
  let _ ← getbitu2 buff (320 * 2 + 18) 8 (320 * 2 + 30) 12
  if id1 ≠ 1 ∨ id2 ≠ 2 ∨ id3 ≠ 3 then return none
  -- sub-frame 1
  let svh ← readU buff 42 1
  let iodc ← readU buff (42 + 1) 5
  let urai ← readU buff (42 + 6) 4
  let week ← readU buff 60 13
  let toc ← getbitu2 buff 73 9 90 8
  let tgd ← readS buff 98 10
  let tgdB ← getbits2 buff 108 4 120 6
  let af2 ← readS buff 214 11
  let af0 ← getbits2 buff 225 7 240 17
  let af1 ← getbits2 buff 257 5 270 17
  let iode ← readU buff 287 5
  -- sub-frame 2
  let deln ← getbits2 buff (320 + 42) 10 (320 + 60) 6
  let cuc ← getbits2 buff (320 + 66) 16 (320 + 90) 2
  let M0 ← getbits2 buff (320 + 92) 20 (320 + 120) 12
  let e ← getbitu2 buff (320 + 132) 10 (320 + 150) 22
  let cus ← readS buff (320 + 180) 18
  let crc ← getbits2 buff (320 + 198) 4 (320 + 210) 14
  let crs ← getbits2 buff (320 + 224) 8 (320 + 240) 10
  let sqrtA ← getbitu2 buff (320 + 250) 12 (320 + 270) 20
  let toe1 ← readU buff (320 + 290) 2
  -- sub-frame 3
  let toe2 ← getbitu2 buff (320 * 2 + 42) 10 (320 * 2 + 60) 5
  let i0 ← getbits2 buff (320 * 2 + 65) 17 (320 * 2 + 90) 15
  let cic ← getbits2 buff (320 * 2 + 105) 7 (320 * 2 + 120) 11
  let OMGd ← getbits2 buff (320 * 2 + 131) 11 (320 * 2 + 150) 13
  let cis ← getbits2 buff (320 * 2 + 163) 9 (320 * 2 + 180) 9
  let idot ← getbits2 buff (320 * 2 + 189) 13 (320 * 2 + 210) 1
  let OMG0 ← getbits2 buff (320 * 2 + 211) 21 (320 * 2 + 240) 11
  let omg ← getbits2 buff (320 * 2 + 251) 11 (320 * 2 + 270) 21
  let sva ← urai2sva urai
  let toes : ℚ := ((toe1 : Int) * 2 ^ 15 + toe2 : Int) * 8
  let week' := adjWeek week toes sow1
  let sqrtA : ℚ := sqrtA * p2 19
  return some {
    sat, svh, iodc, iode, week := week', toc := bdt2time week' (toc * 8), toe := bdt2time week' toes,
    tot := bdt2gpst (bdt2time week sow1), tgd := tgd * (1 / 10 ^ 10), tgdB := tgdB * (1 / 10 ^ 10),
    af0 := af0 * p2 33, af1 := af1 * p2 50, af2 := af2 * p2 66, deln := deln * p2 43 * sc2rad,
    cuc := cuc * p2 31, cus := cus * p2 31, crc := crc * p2 6, crs := crs * p2 6, cic := cic * p2 31,
    cis := cis * p2 31, M0 := M0 * p2 31 * sc2rad, e := e * p2 33, A := sqrtA ^ 2, i0 := i0 * p2 31 * sc2rad,
    OMGd := OMGd * p2 43 * sc2rad, idot := idot * p2 43 * sc2rad, OMG0 := OMG0 * p2 31 * sc2rad,
    omg := omg * p2 31 * sc2rad, sva, toes, flag := 1, mode := 0 }

/-- `decode_bds_d1(week, time, sat, msg)`: lines 1074-1162 (`i` is 0; `week` and `time` are not used) -/
def decodeD1 (d : Dict Int BitBuf) (sat : Int) (msg : BitBuf) : Py (Dict Int BitBuf × Option Eph) := do
  let prn := (sat2prn sat).2
  let pre ← readU msg 0 11
  let _ ← readU msg 11 4
  let sid ← readU msg 15 3
  let _ ← readU msg 18 8
  if pre ≠ 0x712 then return (d, none)
  if sid > 3 then return (d, none)
  let buff ← d.getItem (prn - 1)
  let i0 : Int := ((sid : Int) - 1) * 320
  let buff := pySliceSet buff i0 (i0 + 320) (msg.take 320)
  let d := d.set (prn - 1) buff
  return (d, ← d1Try sat buff)

/-- the loop of `decode_bds_d2`: lines 1184-1193.  The result is `none` if it returns early, and the
time of the first page otherwise.  `sow` holds the times of the pages seen so far (0 if not set); the
comparison for the third page has no effect. -/
def d2Loop (buff : BitBuf) : List Nat → (Nat → Int) → Py (Option (Nat → Int))
  | [], sow => return some sow
  | k :: ks, sow =>
    if k = 1 then d2Loop buff ks sow
    else do
      let page ← readU buff (160 * k + 42) 4
      if page ≠ k + 1 then return none
      let s ← getbitu2 buff (160 * k + 18) 8 (160 * k + 30) 12
      let sow := fun j => if j = k then s else sow j
      if k = 2 then d2Loop buff ks sow
      else if k > 0 ∧ sow k ≠ sow (k - 1) + 3 then return none
      else d2Loop buff ks sow

/-- the ephemeris from the stored pages: lines 1181-1281.  The last part of `sqrtA` is read from the
absolute position 120, and the middle part of `M0` has 12 bits. -/
def d2Try (sat : Int) (buff : BitBuf) : Py (Option Eph) := do
  match ← d2Loop buff (List.range 10) (fun _ => 0) with
  | none => return none
  | some sow =>
    -- page 1
    let svh ← readU buff 46 1
    let iodc ← readU buff (46 + 1) 5
    let urai ← readU buff 60 4
    let week ← readU buff (60 + 4) 13
    let toc ← getbitu2 buff 77 5 90 12
    let tgd ← readS buff 102 10
    let tgdB ← readS buff 120 10
    -- page 3
    let af0 ← getbits2 buff (160 * 2 + 100) 12 (160 * 2 + 120) 12
    let f1p3 ← readS buff (160 * 2 + 132) 4
    -- page 4
    let f1p4 ← getbitu2 buff (160 * 3 + 46) 6 (160 * 3 + 60) 12
    let af2 ← getbits2 buff (160 * 3 + 72) 10 (160 * 3 + 90) 1
    let iode ← readU buff (160 * 3 + 91) 5
    let deln ← readS buff (160 * 3 + 96) 16
    let cucp4 ← readS buff (160 * 3 + 120) 14
    -- page 5
    let cucp5 ← readU buff (160 * 4 + 46) 4
    let M0 ← getbits3 buff (160 * 4 + 50) 2 (160 * 4 + 60) 12 (160 * 4 + 90) 8
    let cus ← getbits2 buff (160 * 4 + 98) 14 (160 * 4 + 120) 4
    let ep5 ← readS buff (160 * 4 + 124) 10
    -- page 6
    let ep6 ← getbitu2 buff (160 * 5 + 46) 6 (160 * 5 + 60) 16
    let sqrtA ← getbitu3 buff (160 * 5 + 76) 6 (160 * 5 + 90) 22 120 4
    let cicp6 ← readS buff (160 * 5 + 124) 10
    -- page 7
    let cicp7 ← getbitu2 buff (160 * 6 + 46) 6 (160 * 6 + 60) 2
    let cis ← readS buff (160 * 6 + 62) 18
    let toe ← getbitu2 buff (160 * 6 + 80) 2 (160 * 6 + 90) 15
    let i0p7 ← getbits2 buff (160 * 6 + 105) 7 (160 * 6 + 120) 14
    -- page 8
    let i0p8 ← getbitu2 buff (160 * 7 + 46) 6 (160 * 7 + 60) 5
    let crc ← getbits2 buff (160 * 7 + 65) 17 (160 * 7 + 90) 1
    let crs ← readS buff (160 * 7 + 91) 18
    let OMGdp8 ← getbits2 buff (160 * 7 + 109) 3 (160 * 7 + 120) 16
    -- page 9
    let OMGdp9 ← readU buff (160 * 8 + 46) 5
    let OMG0 ← getbits3 buff (160 * 8 + 51) 1 (160 * 8 + 60) 22 (160 * 8 + 90) 9
    let omgp9 ← getbits2 buff (160 * 8 + 99) 13 (160 * 8 + 120) 14
    -- page 10
    let omgp10 ← readU buff (160 * 9 + 46) 5
    let idot ← getbits2 buff (160 * 9 + 51) 1 (160 * 9 + 60) 13
    let sva ← urai2sva urai
    let toes : ℚ := toe * 8
    let sow0 : ℚ := sow 0
    let week' := adjWeek week toes sow0
    let sqrtA : ℚ := sqrtA * p2 19
    return some {
      sat, svh, iodc, iode, week := week', toc := bdt2time week' (toc * 8), toe := bdt2time week' toes,
      tot := bdt2gpst (bdt2time week sow0), tgd := tgd * (1 / 10 ^ 10), tgdB := tgdB * (1 / 10 ^ 10),
      af0 := af0 * p2 33, af1 := (f1p3 * 2 ^ 18 + f1p4 : Int) * p2 50, af2 := af2 * p2 66,
      deln := deln * p2 43 * sc2rad, cuc := (cucp4 * 2 ^ 4 + cucp5 : Int) * p2 31, cus := cus * p2 31,
      crc := crc * p2 6, crs := crs * p2 6, cic := (cicp6 * 2 ^ 8 + cicp7 : Int) * p2 31, cis := cis * p2 31,
      M0 := M0 * p2 31 * sc2rad, e := (ep5 * 2 ^ 22 + ep6 : Int) * p2 33, A := sqrtA ^ 2,
      i0 := (i0p7 * 2 ^ 11 + i0p8 : Int) * p2 31 * sc2rad, OMGd := (OMGdp8 * 2 ^ 5 + OMGdp9 : Int) * p2 43 * sc2rad,
      idot := idot * p2 43 * sc2rad, OMG0 := OMG0 * p2 31 * sc2rad,
      omg := (omgp9 * 2 ^ 5 + omgp10 : Int) * p2 31 * sc2rad, sva, toes, flag := 2, mode := 0 }

/-- `decode_bds_d2(week, time, sat, msg)`: lines 1164-1281 -/
def decodeD2 (d : Dict Int BitBuf) (sat : Int) (msg : BitBuf) : Py (Dict Int BitBuf × Option Eph) := do
  let prn := (sat2prn sat).2
  let pre ← readU msg 0 11
  let _ ← readU msg 11 4
  let frame ← readU msg 15 3
  let _ ← readU msg 18 8
  let _ ← readU msg 26 4
  let _ ← readU msg 30 12
  let page ← readU msg 42 4
  if pre ≠ 0x712 then return (d, none)
  if frame = 1 ∧ (page ≥ 1 ∧ page ≤ 10) then
    let buff ← d.getItem (prn - 1)
    let i0 : Int := ((page : Int) - 1) * 160
    let buff := pySliceSet buff i0 (i0 + 160) (msg.take 160)
    let d := d.set (prn - 1) buff
    return (d, ← d2Try sat buff)
  else return (d, none)

end Verif.BdsNav
