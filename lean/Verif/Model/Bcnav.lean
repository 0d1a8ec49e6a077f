import Verif.Model.Rawnav
/-!
# B-CNAV1, B-CNAV2 and B-CNAV3 messages of BeiDou (rawnav.py, class `RawNav`)

Byte buffers are bit buffers; values are exact rationals.  A format with several fields is a sequence of reads.
-/

namespace Verif.Bcnav
open Verif.Time
open Verif.Sat (Sys sat2prn)
open Verif.Rawnav (p2 sc2rad)

/-- attributes set by `decode_bds_cnav_eph1` -/
structure Eph1 where
  toes : ℚ
  sattype : Int
  A : ℚ
  Adot : ℚ
  deln : ℚ
  delnd : ℚ
  M0 : ℚ
  e : ℚ
  omg : ℚ
  toe : GTime
  deriving DecidableEq

/-- attributes set by `decode_bds_cnav_eph2` -/
structure Eph2 where
  OMG0 : ℚ
  i0 : ℚ
  OMGd : ℚ
  idot : ℚ
  cis : ℚ
  cic : ℚ
  crs : ℚ
  crc : ℚ
  cus : ℚ
  cuc : ℚ
  deriving DecidableEq

/-- attributes set by `decode_bds_cnav_clk` -/
structure Clk where
  af0 : ℚ
  af1 : ℚ
  af2 : ℚ
  toc : GTime
  deriving DecidableEq

/-- class `Eph`: gnss.py lines 710-761 (the attributes set by the decoders, those not set with their default) -/
structure Eph where
  sat : Int
  week : Int
  iodc : Int
  iode : Int
  eph1 : Eph1
  eph2 : Eph2
  clk : Clk
  tgd : ℚ
  tgdB : ℚ
  isc : List ℚ
  svh : Int
  integ : Int
  sismai : Int
  sisai : List Int
  tops : ℚ
  tot : GTime
  mode : Int
  deriving DecidableEq

/-- `decode_bds_cnav_eph1(msg, eph, i)`: lines 774-792 -/
def eph1 (buff : BitBuf) (week : Int) (i : Nat) : Py Eph1 := do
  let toe ← readU buff i 11
  let sattype ← readU buff (i + 11) 2
  let dA ← readS buff (i + 13) 26
  let Adot ← readS buff (i + 39) 25
  let deln ← readS buff (i + 64) 17
  let delnd ← readS buff (i + 81) 23
  let M0 ← readS buff (i + 104) 33
  let ecc ← readU buff (i + 137) 33
  let omg ← readS buff (i + 170) 33
  let Aref : ℚ := if sattype = 3 then 27906100 else 42162200
  return {
    toes := toe * 300, sattype, A := Aref + dA * p2 9, Adot := Adot * p2 21, deln := deln * p2 44 * sc2rad,
    delnd := delnd * p2 57 * sc2rad, M0 := M0 * p2 32 * sc2rad, e := ecc * p2 34, omg := omg * p2 32 * sc2rad,
    toe := bdt2gpst (bdt2time week (toe * 300)) }

/-- `decode_bds_cnav_eph2(msg, eph, i)`: lines 794-810 -/
def eph2 (buff : BitBuf) (i : Nat) : Py Eph2 := do
  let OMG0 ← readS buff i 33
  let i0 ← readS buff (i + 33) 33
  let OMGd ← readS buff (i + 66) 19
  let idot ← readS buff (i + 85) 15
  let cis ← readS buff (i + 100) 16
  let cic ← readS buff (i + 116) 16
  let crs ← readS buff (i + 132) 24
  let crc ← readS buff (i + 156) 24
  let cus ← readS buff (i + 180) 21
  let cuc ← readS buff (i + 201) 21
  return {
    OMG0 := OMG0 * p2 32 * sc2rad, i0 := i0 * p2 32 * sc2rad, OMGd := OMGd * p2 44 * sc2rad, idot := idot * p2 44 * sc2rad,
    cis := cis * p2 30, cic := cic * p2 30, crs := crs * p2 8, crc := crc * p2 8, cus := cus * p2 30, cuc := cuc * p2 30 }

/-- `decode_bds_cnav_clk(msg, eph, i)`: lines 812-822 -/
def clk (buff : BitBuf) (week : Int) (i : Nat) : Py Clk := do
  let toc ← readU buff i 11
  let a0 ← readS buff (i + 11) 25
  let a1 ← readS buff (i + 36) 22
  let a2 ← readS buff (i + 58) 11
  return { af0 := a0 * p2 34, af1 := a1 * p2 50, af2 := a2 * p2 66, toc := bdt2gpst (bdt2time week (toc * 300)) }

/-- `decode_bds_cnav_iono(msg, i)`: lines 824-830 (the values are not kept) -/
def iono (buff : BitBuf) (i : Nat) : Py Unit := do
  let _ ← readU buff i 10
  let _ ← readS buff (i + 10) 8
  let _ ← readU buff (i + 18) 8
  let _ ← readU buff (i + 26) 8
  let _ ← readU buff (i + 34) 8
  let _ ← readS buff (i + 42) 8
  let _ ← readS buff (i + 50) 8
  let _ ← readS buff (i + 58) 8
  let _ ← readS buff (i + 66) 8
  return ()

/-- `decode_bds_cnav_utc(msg, i)`: lines 832-837 (the values are not kept) -/
def utc (buff : BitBuf) (i : Nat) : Py Unit := do
  let _ ← readS buff i 16
  let _ ← readS buff (i + 16) 13
  let _ ← readS buff (i + 29) 7
  let _ ← readS buff (i + 36) 8
  let _ ← readU buff (i + 44) 16
  let _ ← readU buff (i + 60) 13
  let _ ← readU buff (i + 73) 13
  let _ ← readU buff (i + 86) 3
  let _ ← readS buff (i + 89) 8
  return ()

/-- `decode_bds_cnav_eop(msg, i)`: lines 846-851 (the values are not kept) -/
def eop (buff : BitBuf) (i : Nat) : Py Unit := do
  let _ ← readU buff i 16
  let _ ← readS buff (i + 16) 21
  let _ ← readS buff (i + 37) 15
  let _ ← readS buff (i + 52) 21
  let _ ← readS buff (i + 73) 15
  let _ ← readS buff (i + 88) 31
  let _ ← readS buff (i + 119) 19
  return ()

/-- `decode_bds_cnav_sisai(msg, eph, i)`: lines 868-873 (`tops` and three of the four entries of `sisai`) -/
def sisai (buff : BitBuf) (i : Nat) : Py (ℚ × List Int) := do
  let top ← readU buff i 11
  let s1 ← readS buff (i + 11) 5
  let s2 ← readS buff (i + 16) 3
  let s3 ← readS buff (i + 19) 3
  return (top * 300, [s1, s2, s3])

/-- `decode_bds_b1c(week, time_, sat, msg)`: lines 875-934 -/
def decodeB1c (sat : Int) (msg : BitBuf) : Py (Option Eph) := do
  let soh ← readU msg (600 + 8 + 264) 8
  let soh : ℚ := soh * 18
  let week ← readU msg 0 13
  let how ← readU msg 13 8
  let iodc ← readU msg 21 10
  let iode ← readU msg 31 8
  if (iodc &&& 0xff) ≠ iode then return none
  let tow : ℚ := how * 3600 + soh
  let e1 ← eph1 msg week 39
  let e2 ← eph2 msg (39 + 203)
  let c ← clk msg week (39 + 203 + 222)
  let tgd_b2ap ← readS msg 533 12
  let isc_b1cd ← readS msg 545 12
  let tgd_b1cp ← readS msg 557 12
  let page ← readU msg 608 6
  let svh ← readU msg 614 2
  let integ ← readU msg 616 3
  let sismai ← readS msg 619 4
  let (s0, tops, s) ← (if page = 1 then do
      let s0 ← readU msg (608 + 15) 5
      let (tops, s) ← sisai msg (608 + 15 + 5)
      pure (s0, tops, s)
    else if page = 2 then do
      let (tops, s) ← sisai msg (608 + 15)
      pure (0, tops, s)
    else if page = 3 then do
      let s0 ← readU msg (608 + 15) 5
      pure (s0, 0, [0, 0, 0])
    else if page = 4 then do
      let (tops, s) ← sisai msg (608 + 15)
      pure (0, tops, s)
    else pure (0, 0, [0, 0, 0]) : Py (Nat × ℚ × List Int))
  if page ≠ 1 then return none
  return some {
    sat, week, iodc, iode, eph1 := e1, eph2 := e2, clk := c, tgd := tgd_b1cp * p2 34, tgdB := tgd_b2ap * p2 34,
    isc := [isc_b1cd * p2 34, 0, 0, 0, 0, 0], svh, integ, sismai, sisai := (s0 : Int) :: s, tops, tot := bdt2time week tow, mode := 1 }

/-- the loop `for k in range(len(msg)): buff[p+k] = msg[k]`: lines 949-950 and 1029-1030; a message that does not fit gives
an IndexError (the bytes before that point, which stay changed, are not modelled) -/
def put (buff : BitBuf) (p : Nat) (msg : BitBuf) : Py BitBuf :=
  if p + msg.length ≤ buff.length ∨ msg = [] then .ok (splice buff p msg) else .error .indexError

/-- the ephemeris from the stored messages of B-CNAV2: lines 952-1015 -/
def b2aTry (sat : Int) (buff : BitBuf) : Py (Option Eph) := do
  let id1 ← readU buff 6 6
  let sow1 ← readU buff 12 18
  let id2 ← readU buff (320 + 6) 6
  let sow2 ← readU buff (320 + 6 + 6) 18
  let id3 ← readU buff (320 * 2 + 6) 6
  let sow3 ← readU buff (320 * 2 + 6 + 6) 18
  let id4 ← readU buff (320 * 3 + 6) 6
  let _ ← readU buff (320 * 3 + 6 + 6) 18
  let id5 ← readU buff (320 * 4 + 6) 6
  let _ ← readU buff (320 * 4 + 6 + 6) 18
  if id1 ≠ 10 ∨ id2 ≠ 11 ∨ id3 ≠ 30 ∨ id5 ≠ 40 then return none
  if sow2 ≠ sow1 + 1 ∨ sow3 ≠ sow2 + 1 then return none
  let sow1 : ℚ := sow1 * 3
  let r4 ← (if id4 = 34 then do
      let r ← sisai buff (320 * 3 + 42)
      pure (0, r)
    else pure (0, 0, [0, 0, 0]) : Py (Nat × ℚ × List Int))
  let (s0, tops, s) ← (if id5 = 40 then do
      let s0 ← readU buff (320 * 4 + 42) 5
      let r ← sisai buff (320 * 4 + 42 + 5)
      pure (s0, r)
    else pure r4 : Py (Nat × ℚ × List Int))
  let week ← readU buff 30 13
  let ib2a ← readU buff 43 3
  let sismai ← readS buff 46 4
  let ib1c ← readU buff 50 3
  let iode ← readU buff 53 8
  let e1 ← eph1 buff week (30 + 31)
  let hs ← readU buff (320 + 30) 2
  let e2 ← eph2 buff (320 + 30 + 12)
  let c ← clk buff week (320 * 2 + 42)
  let iodc ← readU buff (320 * 2 + 42 + 69) 10
  let tgd_b2ap ← readS buff (320 * 2 + 42 + 69 + 10) 12
  let isc_b2ad ← readS buff (320 * 2 + 42 + 69 + 22) 12
  if (iodc &&& 0xff) ≠ iode then return none
  iono buff (320 * 2 + 42 + 69 + 34)
  let tgd_b1cp ← readS buff (320 * 2 + 42 + 69 + 34 + 74) 12
  return some {
    sat, week, iodc, iode, eph1 := e1, eph2 := e2, clk := c, tgd := tgd_b1cp * p2 34, tgdB := tgd_b2ap * p2 34,
    isc := [0, isc_b2ad * p2 34, 0, 0, 0, 0], svh := hs, integ := ((ib2a <<< 3 + ib1c : Nat) : Int), sismai, sisai := (s0 : Int) :: s, tops,
    tot := bdt2time week sow1, mode := 2 }

/-- `msg_t` of `decode_bds_b2a`: line 945 -/
def slot2 (sid : Nat) : Option Nat :=
  if sid = 10 then some 0 else if sid = 11 then some 1 else if sid = 30 then some 2 else if sid = 34 then some 3
  else if sid = 40 then some 4 else none

/-- `decode_bds_b2a(week, time_, sat, msg)`: lines 936-1015; the store is `self.bds_cnv2` -/
def decodeB2a (st : Dict Int BitBuf) (sat : Int) (msg : BitBuf) : Py (Dict Int BitBuf × Option Eph) := do
  let (_, prn) := sat2prn sat
  let _ ← readU msg 0 6
  let sid ← readU msg 6 6
  let _ ← readU msg 12 18
  match slot2 sid with
  | none => return (st, none)
  | some mid => do
    let b ← st.getItem (prn - 1)
    let b ← put b (320 * mid) msg
    return (st.set (prn - 1) b, ← b2aTry sat b)

/-- the ephemeris from the stored messages of B-CNAV3: lines 1032-1072; `eph1` is called before `eph.week` is set -/
def b2bTry (sat : Int) (buff : BitBuf) (ofst : Nat) : Py (Option Eph) := do
  let id1 ← readU buff ofst 6
  let sow1 ← readU buff (ofst + 6) 20
  let id2 ← readU buff (512 + ofst) 6
  let sow2 ← readU buff (512 + ofst + 6) 20
  let _ ← readU buff (512 * 2 + ofst) 6
  let _ ← readU buff (512 * 2 + ofst + 6) 20
  if id1 ≠ 10 ∨ id2 ≠ 30 then return none
  if sow2 ≠ sow1 + 1 then return none
  let e1 ← eph1 buff 0 (ofst + 30)
  let e2 ← eph2 buff (ofst + 30 + 203)
  let integ ← readU buff (ofst + 30 + 203 + 222) 3
  let sismai ← readS buff (ofst + 30 + 203 + 222 + 3) 4
  let week ← readU buff (512 + ofst + 26) 13
  let c ← clk buff week (512 + ofst + 26 + 17)
  let tgd ← readS buff (512 + ofst + 26 + 17 + 69) 12
  iono buff (512 + ofst + 26 + 17 + 69 + 12)
  utc buff (512 + ofst + 26 + 17 + 69 + 12 + 74)
  eop buff (512 + ofst + 26 + 17 + 69 + 12 + 74 + 97)
  let (tops, s) ← sisai buff (512 + ofst + 26 + 17 + 69 + 12 + 74 + 97 + 138)
  let s0 ← readU buff (512 + ofst + 26 + 17 + 69 + 12 + 74 + 97 + 138 + 22) 5
  let svh ← readU buff (512 + ofst + 26 + 17 + 69 + 12 + 74 + 97 + 138 + 22 + 5) 2
  return some {
    sat, week, iodc := 0, iode := 0, eph1 := e1, eph2 := e2, clk := c, tgd := tgd * p2 34, tgdB := 0, isc := [0, 0, 0, 0, 0, 0],
    svh, integ, sismai, sisai := (s0 : Int) :: s, tops, tot := bdt2time week (sow1 : Int), mode := 3 }

/-- `msg_t` of `decode_bds_b2b`: line 1026 -/
def slot3 (sid : Nat) : Option Nat :=
  if sid = 10 then some 0 else if sid = 30 then some 1 else if sid = 40 then some 2 else none

/-- `decode_bds_b2b(week, time_, sat, msg, ofst)`: lines 1017-1072 (default `ofst` 12); the store is `self.bds_cnv3` -/
def decodeB2b (st : Dict Int BitBuf) (sat : Int) (msg : BitBuf) (ofst : Nat := 12) : Py (Dict Int BitBuf × Option Eph) := do
  let (_, prn) := sat2prn sat
  let sid ← readU msg ofst 6
  let _ ← readU msg (ofst + 6) 20
  match slot3 sid with
  | none => return (st, none)
  | some mid => do
    let b ← st.getItem (prn - 1)
    let b ← put b (512 * mid) msg
    return (st.set (prn - 1) b, ← b2bTry sat b ofst)

end Verif.Bcnav
