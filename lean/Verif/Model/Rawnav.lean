import Verif.Bits
import Verif.Model.Sat
import Verif.Model.Time
/-!
# Raw navigation messages (rawnav.py, class `RawNav`)

Byte buffers are bit buffers (`Verif.Bits`); messages consist of whole bytes.  Values are exact
rationals; the power-of-two factors `rCST.P2_n` are modelled as 2^(-n).
-/

namespace Verif.Rawnav
open Verif.Time
open Verif.Sat (Sys sat2prn)

/-! ## Field access -/

/-- `u2s(u, blen)`: rawnav.py lines 111-114 -/
def u2s (u : Int) (blen : Nat) : Int :=
  if (u.toNat / 2 ^ (blen - 1)) % 2 = 1 then u - 2 ^ blen else u

/-- `getbitu2`: rawnav.py lines 116-118 -/
def getbitu2 (b : BitBuf) (p1 l1 p2 l2 : Nat) : Py Int := do
  let a ← readU b p1 l1
  let c ← readU b p2 l2
  return (a : Int) * 2 ^ l2 + c

/-- `getbits2`: rawnav.py lines 120-126 -/
def getbits2 (b : BitBuf) (p1 l1 p2 l2 : Nat) : Py Int := do
  let s ← readU b p1 1
  if s ≠ 0 then
    let a ← readS b p1 l1
    let c ← readU b p2 l2
    return a * 2 ^ l2 + c
  else getbitu2 b p1 l1 p2 l2

/-- `getbitu3`: rawnav.py lines 128-131 -/
def getbitu3 (b : BitBuf) (p1 l1 p2 l2 p3 l3 : Nat) : Py Int := do
  let a ← readU b p1 l1
  let c ← readU b p2 l2
  let d ← readU b p3 l3
  return (a : Int) * 2 ^ (l2 + l3) + (c : Int) * 2 ^ l3 + d

/-- `getbits3`: rawnav.py lines 133-140 -/
def getbits3 (b : BitBuf) (p1 l1 p2 l2 p3 l3 : Nat) : Py Int := do
  let s ← readU b p1 1
  if s ≠ 0 then
    let a ← readS b p1 l1
    let c ← readU b p2 l2
    let d ← readU b p3 l3
    return a * 2 ^ (l2 + l3) + (c : Int) * 2 ^ l3 + d
  else getbitu3 b p1 l1 p2 l2 p3 l3

/-- `getbitg`: rawnav.py lines 142-144 -/
def getbitg (b : BitBuf) (pos len : Nat) : Py Int := do
  let s ← readU b pos 1
  let v ← readU b (pos + 1) (len - 1)
  return if s ≠ 0 then -(v : Int) else v

/-! ## Ephemerides -/

/-- class `Eph`: gnss.py lines 710-761 (the attributes the modelled decoders set).  `tot`, `toc`,
`toe` are times. -/
structure Eph where
  sat : Int
  iode : Int := 0
  iodc : Int := 0
  af0 : ℚ := 0
  af1 : ℚ := 0
  af2 : ℚ := 0
  week : Int := 0
  toc : GTime := ⟨0, 0⟩
  toe : GTime := ⟨0, 0⟩
  tot : GTime := ⟨0, 0⟩
  crs : ℚ := 0
  crc : ℚ := 0
  cus : ℚ := 0
  cuc : ℚ := 0
  cis : ℚ := 0
  cic : ℚ := 0
  e : ℚ := 0
  i0 : ℚ := 0
  A : ℚ := 0
  deln : ℚ := 0
  M0 : ℚ := 0
  OMG0 : ℚ := 0
  OMGd : ℚ := 0
  omg : ℚ := 0
  idot : ℚ := 0
  tgd : ℚ := 0
  tgdB : ℚ := 0
  /-- `none`: NaN -/
  sva : Option ℚ := some 0
  svh : Int := 0
  toes : ℚ := 0
  l2p : Int := 0
  code : Int := 0
  mode : Int := 0
  deriving DecidableEq

/-- `rCST.P2_n`: gnss.py lines 90-133 -/
def p2 (n : Nat) : ℚ := 1 / 2 ^ n
/-- `rCST.SC2RAD`: gnss.py line 134 -/
def sc2rad : ℚ := 31415926535898 / 10000000000000

/-- `urai2sva`: rawnav.py lines 146-155 -/
def urai2sva (urai : Nat) : Py ℚ :=
  pyGet [2, 28 / 10, 4, 57 / 10, 8, 113 / 10, 16, 32, 64, 128, 256, 512, 1024, 2048, 4096, 8192] urai

/-- `sisa2sva`: rawnav.py lines 157-171 -/
def sisa2sva (sisa : Nat) : Option ℚ :=
  if sisa < 50 then some (sisa * (1 / 100))
  else if sisa < 75 then some (sisa * (2 / 100) - 5 / 10)
  else if sisa < 100 then some (sisa * (4 / 100) - 2)
  else if sisa < 126 then some (sisa * (16 / 100) - 14)
  else if sisa = 255 then some (-1)
  else none

/-- position denoted by a slice bound -/
def clampIdx (n : Nat) (i : Int) : Nat :=
  if i < 0 then (i + n).toNat else min i.toNat n

/-- `l[s:t] = v` -/
def pySliceSet (l : BitBuf) (s t : Int) (v : BitBuf) : BitBuf :=
  let lo := clampIdx l.length s
  let hi := clampIdx l.length t
  l.take lo ++ v ++ l.drop (max lo hi)

/-- the buffers of the decoder: rawnav.py lines 63-85 -/
structure Nav where
  gpsLnav : Dict Int BitBuf
  qzsLnav : Dict Int BitBuf
  galInav : Dict Int BitBuf
  galFnav : Dict Int BitBuf

/-- `{k: bytearray(200) for k in range(n)}` -/
def buffers (n : Nat) : Dict Int BitBuf :=
  (List.range n).map fun k : Nat => ((k : Int), List.replicate 1600 false)

/-- constructor: rawnav.py lines 63-85 -/
def Nav.init : Nav :=
  { gpsLnav := buffers 32, qzsLnav := buffers 17, galInav := buffers 36, galFnav := buffers 36 }

/-! ## GPS/QZSS LNAV -/

/-- `bs.unpack('s32', bs.pack('u8u24', a, b))[0]` -/
def mergeS (a b : Nat) : Py Int := readS (natToBits 8 a ++ natToBits 24 b) 0 32
/-- `bs.unpack('u32', bs.pack('u8u24', a, b))[0]` -/
def mergeU (a b : Nat) : Py Nat := readU (natToBits 8 a ++ natToBits 24 b) 0 32

/-- integer parameters of an LNAV ephemeris -/
structure LnavRaw where
  tow : Nat
  wn : Nat
  code : Nat
  urai : Nat
  svh : Nat
  l2p : Nat
  tgd : Int
  iodc : Nat
  toc : Nat
  af2 : Int
  af1 : Int
  af0 : Int
  iode : Nat
  crs : Int
  deln : Int
  M0 : Int
  cuc : Int
  e : Int
  cus : Int
  sqrtA : Nat
  toe : Nat
  cic : Int
  OMG0 : Int
  cis : Int
  inc0 : Int
  crc : Int
  omg : Int
  OMGd : Int
  iode2 : Nat
  idot : Int
  deriving DecidableEq

/-- reading of the three stored sub-frames: rawnav.py lines 391-433 -/
def lnavRaw (b : BitBuf) : Py LnavRaw := do
  let tow ← readU b (32 + 2) 17
  let wn ← readU b (32 * 2 + 2) 10
  let code ← readU b (32 * 2 + 2 + 10) 2
  let urai ← readU b (32 * 2 + 2 + 12) 4
  let svh ← readU b (32 * 2 + 2 + 16) 6
  let iodc_ ← readU b (32 * 2 + 2 + 22) 2
  let l2p ← readU b (32 * 3 + 2) 1
  let tgd ← readS b (32 * 6 + 2 + 16) 8
  let iodc ← readU b (32 * 7 + 2) 8
  let toc ← readU b (32 * 7 + 2 + 8) 16
  let af2 ← readS b (32 * 8 + 2) 8
  let af1 ← readS b (32 * 8 + 2 + 8) 16
  let af0 ← readS b (32 * 9 + 2) 22
  let iodc := iodc ||| iodc_ <<< 8
  let iode ← readU b (320 + 32 * 2 + 2) 8
  let crs ← readS b (320 + 32 * 2 + 2 + 8) 16
  let deln ← readS b (320 + 32 * 3 + 2) 16
  let M0_ ← readU b (320 + 32 * 3 + 2 + 16) 8
  let M0 ← readU b (320 + 32 * 4 + 2) 24
  let M0 ← mergeS M0_ M0
  let cuc ← readS b (320 + 32 * 5 + 2) 16
  let e_ ← readU b (320 + 32 * 5 + 2 + 16) 8
  let e ← readU b (320 + 32 * 6 + 2) 24
  let e ← mergeS e_ e
  let cus ← readS b (320 + 32 * 7 + 2) 16
  let sa_ ← readU b (320 + 32 * 7 + 2 + 16) 8
  let sa ← readU b (320 + 32 * 8 + 2) 24
  let sqrtA ← mergeU sa_ sa
  let toe ← readU b (320 + 32 * 9 + 2) 16
  let cic ← readS b (640 + 32 * 2 + 2) 16
  let OMG0_ ← readU b (640 + 32 * 2 + 2 + 16) 8
  let OMG0 ← readU b (640 + 32 * 3 + 2) 24
  let OMG0 ← mergeS OMG0_ OMG0
  let cis ← readS b (640 + 32 * 4 + 2) 16
  let inc0_ ← readU b (640 + 32 * 4 + 2 + 16) 8
  let inc0 ← readU b (640 + 32 * 5 + 2) 24
  let inc0 ← mergeS inc0_ inc0
  let crc ← readS b (640 + 32 * 6 + 2) 16
  let omg_ ← readU b (640 + 32 * 6 + 2 + 16) 8
  let omg ← readU b (640 + 32 * 7 + 2) 24
  let omg ← mergeS omg_ omg
  let OMGd ← readS b (640 + 32 * 8 + 2) 24
  let iode2 ← readU b (640 + 32 * 9 + 2) 8
  let idot ← readS b (640 + 32 * 9 + 2 + 8) 14
  return { tow, wn, code, urai, svh, l2p, tgd, iodc, toc, af2, af1, af0, iode, crs, deln, M0, cuc, e
           cus, sqrtA, toe, cic, OMG0, cis, inc0, crc, omg, OMGd, iode2, idot }

/-- week of the clock reference time: rawnav.py lines 467-470 (and 261-264, 349-352) -/
def adjWeek (week : Int) (toc tow : ℚ) : Int :=
  if toc < tow - 302400 then week + 1 else if toc > tow + 302400 then week - 1 else week

/-- scaling: rawnav.py lines 438-474 -/
def lnavEph (week : Int) (sat : Int) (r : LnavRaw) : Py Eph := do
  let wk := week.fdiv 1024 * 1024 + r.wn
  let sva ← urai2sva r.urai
  let toc : ℚ := r.toc * 16
  let toes : ℚ := r.toe * 16
  let tow : ℚ := r.tow * 6
  let sqrtA : ℚ := r.sqrtA * p2 19
  let wk' := adjWeek wk toc tow
  return {
    sat := sat, week := wk', l2p := r.l2p, code := r.code, svh := r.svh, sva := some sva
    tgd := r.tgd * p2 31, iodc := r.iodc, af2 := r.af2 * p2 55, af1 := r.af1 * p2 43
    af0 := r.af0 * p2 31, iode := r.iode, crs := r.crs * p2 5, deln := r.deln * p2 43 * sc2rad
    M0 := r.M0 * p2 31 * sc2rad, cuc := r.cuc * p2 29, e := r.e * p2 33, cus := r.cus * p2 29
    A := sqrtA ^ 2, toes := toes, cic := r.cic * p2 29, OMG0 := r.OMG0 * p2 31 * sc2rad
    cis := r.cis * p2 29, i0 := r.inc0 * p2 31 * sc2rad, crc := r.crc * p2 5
    omg := r.omg * p2 31 * sc2rad, OMGd := r.OMGd * p2 43 * sc2rad, idot := r.idot * p2 43 * sc2rad
    mode := 0, tot := bdt2time wk tow, toc := gpst2time wk' toc, toe := gpst2time wk' toes }

/-- the decision and the ephemeris from the buffer of one satellite: rawnav.py lines 383-474 -/
def lnavTry (week sat : Int) (b : BitBuf) : Py (Option Eph) := do
  let id1 ← readU b 53 3
  let id2 ← readU b (320 + 53) 3
  let id3 ← readU b (320 * 2 + 53) 3
  if id1 ≠ 1 ∨ id2 ≠ 2 ∨ id3 ≠ 3 then return none
  let r ← lnavRaw b
  if r.iode ≠ r.iode2 ∨ r.iode ≠ r.iodc % 256 then return none
  return some (← lnavEph week sat r)

/-- storing a sub-frame: rawnav.py line 380 -/
def lnavStore (b : BitBuf) (sid : Nat) (msg : BitBuf) : BitBuf :=
  pySliceSet b (((sid : Int) - 1) * 320) (((sid : Int) - 1) * 320 + 320) (msg.take 320)

/-- `decode_gps_lnav(week, time, sat, msg)`: rawnav.py lines 363-474 -/
def decodeGpsLnav (n : Nav) (week sat : Int) (msg : BitBuf) : Py (Nav × Option Eph) := do
  let (sys, prn) := sat2prn sat
  let preamble ← readU msg 2 8
  if preamble ≠ 0x8b then return (n, none)
  match sys with
  | .gps => do
    let b ← n.gpsLnav.getItem (prn - 1)
    let sid ← readU msg 53 3
    let b := lnavStore b sid msg
    let n := { n with gpsLnav := n.gpsLnav.set (prn - 1) b }
    return (n, ← lnavTry week sat b)
  | .qzs => do
    let b ← n.qzsLnav.getItem (prn - 193)
    let sid ← readU msg 53 3
    let b := lnavStore b sid msg
    let n := { n with qzsLnav := n.qzsLnav.set (prn - 193) b }
    return (n, ← lnavTry week sat b)
  | _ => return (n, none)

/-! ## Galileo I/NAV -/

structure InavRaw where
  iod : Nat
  wn : Nat
  tow : Nat
  toe : Nat
  M0 : Int
  e : Nat
  sqrtA : Nat
  OMG0 : Int
  i0 : Int
  omg : Int
  idot : Int
  OMGd : Int
  deln : Int
  cuc : Int
  cus : Int
  crc : Int
  crs : Int
  sisa : Nat
  cic : Int
  cis : Int
  toc : Nat
  af0 : Int
  af1 : Int
  af2 : Int
  bgda : Int
  bgdb : Int
  e5bHs : Nat
  e1bHs : Nat
  e5bDvs : Nat
  e1bDvs : Nat
  deriving DecidableEq

/-- reading of the five stored words: rawnav.py lines 198, 208-219 -/
def inavRaw (b : BitBuf) : Py InavRaw := do
  let iod ← readU b (128 + 6) 10
  let wn ← readU b (128 * 5 + 73) 12
  let tow ← readU b (128 * 5 + 73 + 12) 20
  let toe ← readU b (128 + 16) 14
  let M0 ← readS b (128 + 16 + 14) 32
  let e ← readU b (128 + 16 + 46) 32
  let sqrtA ← readU b (128 + 16 + 78) 32
  let OMG0 ← readS b (128 * 2 + 16) 32
  let i0 ← readS b (128 * 2 + 16 + 32) 32
  let omg ← readS b (128 * 2 + 16 + 64) 32
  let idot ← readS b (128 * 2 + 16 + 96) 14
  let OMGd ← readS b (128 * 3 + 16) 24
  let deln ← readS b (128 * 3 + 16 + 24) 16
  let cuc ← readS b (128 * 3 + 16 + 40) 16
  let cus ← readS b (128 * 3 + 16 + 56) 16
  let crc ← readS b (128 * 3 + 16 + 72) 16
  let crs ← readS b (128 * 3 + 16 + 88) 16
  let sisa ← readU b (128 * 3 + 16 + 104) 8
  let _svid ← readU b (128 * 4 + 16) 6
  let cic ← readS b (128 * 4 + 16 + 6) 16
  let cis ← readS b (128 * 4 + 16 + 22) 16
  let toc ← readU b (128 * 4 + 16 + 38) 14
  let af0 ← readS b (128 * 4 + 16 + 52) 31
  let af1 ← readS b (128 * 4 + 16 + 83) 21
  let af2 ← readS b (128 * 4 + 16 + 104) 6
  let bgda ← readS b (128 * 5 + 6 + 41) 10
  let bgdb ← readS b (128 * 5 + 6 + 51) 10
  let e5bHs ← readU b (128 * 5 + 6 + 61) 2
  let e1bHs ← readU b (128 * 5 + 6 + 63) 2
  let e5bDvs ← readU b (128 * 5 + 6 + 65) 1
  let e1bDvs ← readU b (128 * 5 + 6 + 66) 1
  return { iod, wn, tow, toe, M0, e, sqrtA, OMG0, i0, omg, idot, OMGd, deln, cuc, cus, crc, crs, sisa
           cic, cis, toc, af0, af1, af2, bgda, bgdb, e5bHs, e1bHs, e5bDvs, e1bDvs }

/-- data source code: rawnav.py lines 246-256 -/
def inavCode (type : Int) : Int :=
  let c : Int := if type = 0 then 1 else if type = 1 then 2 else if type = 2 then 4 else 0
  if type = 0 ∨ type = 2 then c + 512 else if type = 1 then c + 256 else c

/-- scaling: rawnav.py lines 209, 221-275 -/
def inavEph (sat type : Int) (r : InavRaw) : Eph :=
  let toc : ℚ := r.toc * 60
  let toes : ℚ := r.toe * 60
  let wk' := adjWeek r.wn toc r.tow
  let sqrtA : ℚ := r.sqrtA * p2 19
  { sat := sat, week := r.wn + 1024, M0 := r.M0 * p2 31 * sc2rad, deln := r.deln * p2 43 * sc2rad
    e := r.e * p2 33, A := sqrtA ^ 2, OMG0 := r.OMG0 * p2 31 * sc2rad, i0 := r.i0 * p2 31 * sc2rad
    omg := r.omg * p2 31 * sc2rad, OMGd := r.OMGd * p2 43 * sc2rad, idot := r.idot * p2 43 * sc2rad
    cuc := r.cuc * p2 29, cus := r.cus * p2 29, crc := r.crc * p2 5, crs := r.crs * p2 5
    cic := r.cic * p2 29, cis := r.cis * p2 29, toes := toes, af0 := r.af0 * p2 34
    af1 := r.af1 * p2 46, af2 := r.af2 * p2 59, iode := r.iod, iodc := r.iod, sva := sisa2sva r.sisa
    code := inavCode type, tot := gst2time r.wn r.tow, toe := gst2time wk' toes, toc := gst2time wk' toc
    tgd := r.bgda * p2 32, tgdB := r.bgdb * p2 32
    svh := (r.e5bHs <<< 7 ||| r.e5bDvs <<< 6 ||| r.e1bHs <<< 1 ||| r.e1bDvs : Nat), mode := 0 }

/-- decision and ephemeris from the buffer of one satellite: rawnav.py lines 197-276 -/
def inavTry (sat type : Int) (b : BitBuf) : Py (Option Eph) := do
  let sid1 ← readU b 128 6
  let iod1 ← readU b (128 + 6) 10
  let sid2 ← readU b (128 * 2) 6
  let iod2 ← readU b (128 * 2 + 6) 10
  let sid3 ← readU b (128 * 3) 6
  let iod3 ← readU b (128 * 3 + 6) 10
  let sid4 ← readU b (128 * 4) 6
  let iod4 ← readU b (128 * 4 + 6) 10
  let sid5 ← readU b (128 * 5) 6
  if sid1 ≠ 1 ∨ sid2 ≠ 2 ∨ sid3 ≠ 3 ∨ sid4 ≠ 4 ∨ sid5 ≠ 5 then return none
  if iod1 ≠ iod2 ∨ iod1 ≠ iod3 ∨ iod1 ≠ iod4 then return none
  let r ← inavRaw b
  return some (inavEph sat type r)

/-- `buff[j] = v` for a byte -/
def putByte (b : BitBuf) (j : Nat) (v : Nat) : Py BitBuf :=
  if 8 * j + 8 ≤ b.length then writeU b (8 * j) 8 v else .error .indexError

/-- `n` bytes of the message from bit `i` on, written to the buffer from byte `j` on:
rawnav.py lines 189-191 and 193-195 -/
def copyBytes (msg : BitBuf) (n : Nat) (i j : Nat) (b : BitBuf) : Py BitBuf :=
  (List.range n).foldlM (init := b) fun b k => do putByte b (j + k) (← readU msg (i + 8 * k) 8)

/-- `decode_gal_inav(week, time, sat, type_, msg)`: rawnav.py lines 173-276.  `week` and `time` are
not used. -/
def decodeGalInav (n : Nav) (sat type : Int) (msg : BitBuf) : Py (Nav × Option Eph) := do
  let (_, prn) := sat2prn sat
  let _ ← readU msg 0 2
  let sid ← readU msg 2 6
  let _ ← readU msg 8 10
  if sid = 0 ∨ sid > 5 then return (n, none)
  let b ← n.galInav.getItem (prn - 1)
  let b ← copyBytes msg 14 2 (sid * 16) b
  let b ← copyBytes msg 2 122 (sid * 16 + 14) b
  let n := { n with galInav := n.galInav.set (prn - 1) b }
  return (n, ← inavTry sat type b)

/-! ## Galileo F/NAV -/

structure FnavRaw where
  iod : Nat
  toc : Nat
  af0 : Int
  af1 : Int
  af2 : Int
  sisa : Nat
  bgda : Int
  e5aHs : Nat
  wn : Nat
  tow : Nat
  e5aDvs : Nat
  M0 : Int
  OMGd : Int
  e : Nat
  sqrtA : Nat
  OMG0 : Int
  idot : Int
  i0 : Int
  omg : Int
  deln : Int
  cuc : Int
  cus : Int
  crc : Int
  crs : Int
  toe : Nat
  cic : Int
  cis : Int
  deriving DecidableEq

/-- reading of the four stored pages: rawnav.py lines 294, 304-315 -/
def fnavRaw (b : BitBuf) : Py FnavRaw := do
  let iod ← readU b 12 10
  let toc ← readU b 22 14
  let af0 ← readS b (22 + 14) 31
  let af1 ← readS b (22 + 45) 21
  let af2 ← readS b (22 + 66) 6
  let sisa ← readU b 94 8
  let bgda ← readS b (94 + 49) 10
  let e5aHs ← readU b (94 + 59) 2
  let wn ← readU b (94 + 61) 12
  let tow ← readU b (94 + 73) 20
  let e5aDvs ← readU b (94 + 93) 1
  let M0 ← readS b (248 + 16) 32
  let OMGd ← readS b (248 + 16 + 32) 24
  let e ← readU b (248 + 16 + 56) 32
  let sqrtA ← readU b (248 + 16 + 88) 32
  let OMG0 ← readS b (248 + 16 + 120) 32
  let idot ← readS b (248 + 16 + 152) 14
  let i0 ← readS b (248 * 2 + 16) 32
  let omg ← readS b (248 * 2 + 16 + 32) 32
  let deln ← readS b (248 * 2 + 16 + 64) 16
  let cuc ← readS b (248 * 2 + 16 + 80) 16
  let cus ← readS b (248 * 2 + 16 + 96) 16
  let crc ← readS b (248 * 2 + 16 + 112) 16
  let crs ← readS b (248 * 2 + 16 + 128) 16
  let toe ← readU b (248 * 2 + 16 + 144) 14
  let cic ← readS b (248 * 3 + 16) 16
  let cis ← readS b (248 * 3 + 16 + 16) 16
  return { iod, toc, af0, af1, af2, sisa, bgda, e5aHs, wn, tow, e5aDvs, M0, OMGd, e, sqrtA, OMG0
           idot, i0, omg, deln, cuc, cus, crc, crs, toe, cic, cis }

/-- scaling: rawnav.py lines 317-360 -/
def fnavEph (sat : Int) (r : FnavRaw) : Eph :=
  let toc : ℚ := r.toc * 60
  let toes : ℚ := r.toe * 60
  let wk' := adjWeek r.wn toc r.tow
  let sqrtA : ℚ := r.sqrtA * p2 19
  { sat := sat, week := r.wn + 1024, M0 := r.M0 * p2 31 * sc2rad, deln := r.deln * p2 43 * sc2rad
    e := r.e * p2 33, A := sqrtA ^ 2, OMG0 := r.OMG0 * p2 31 * sc2rad, i0 := r.i0 * p2 31 * sc2rad
    omg := r.omg * p2 31 * sc2rad, OMGd := r.OMGd * p2 43 * sc2rad, idot := r.idot * p2 43 * sc2rad
    cuc := r.cuc * p2 29, cus := r.cus * p2 29, crc := r.crc * p2 5, crs := r.crs * p2 5
    cic := r.cic * p2 29, cis := r.cis * p2 29, toes := toes, af0 := r.af0 * p2 34
    af1 := r.af1 * p2 46, af2 := r.af2 * p2 59, iode := r.iod, iodc := r.iod, sva := sisa2sva r.sisa
    code := 2 + 256, tot := gst2time r.wn r.tow, toe := gst2time wk' toes, toc := gst2time wk' toc
    tgd := r.bgda * p2 32, tgdB := 0, svh := (r.e5aHs <<< 4 ||| r.e5aDvs <<< 3 : Nat), mode := 1 }

/-- decision and ephemeris from the buffer: rawnav.py lines 293-361 -/
def fnavTry (sat : Int) (svid : Nat) (b : BitBuf) : Py (Option Eph) := do
  let sid1 ← readU b 0 6
  let svid1 ← readU b 6 6
  let iod1 ← readU b 12 10
  let sid2 ← readU b 248 6
  let iod2 ← readU b (248 + 6) 10
  let sid3 ← readU b (248 * 2) 6
  let iod3 ← readU b (248 * 2 + 6) 10
  let sid4 ← readU b (248 * 3) 6
  let iod4 ← readU b (248 * 3 + 6) 10
  if svid ≠ svid1 ∨ sid1 ≠ 1 ∨ sid2 ≠ 2 ∨ sid3 ≠ 3 ∨ sid4 ≠ 4 then return none
  if iod1 ≠ iod2 ∨ iod1 ≠ iod3 ∨ iod1 ≠ iod4 then return none
  let r ← fnavRaw b
  return some (fnavEph sat r)

/-- `buff[(sid-1)*31+k] = msg[k]` for 31 bytes; a negative index counts from the end:
rawnav.py lines 289-291 -/
def fnavStore (b : BitBuf) (sid : Nat) (msg : BitBuf) : Py BitBuf :=
  (List.range 31).foldlM (init := b) fun b k => do
    let v ← (if 8 * k + 8 ≤ msg.length then readU msg (8 * k) 8 else .error .indexError)
    let j : Int := ((sid : Int) - 1) * 31 + k
    let j := if j < 0 then j + b.length / 8 else j
    if j < 0 then .error .indexError
    else putByte b j.toNat v

/-- `decode_gal_fnav(week, time, sat, type_, msg)`: rawnav.py lines 278-361 -/
def decodeGalFnav (n : Nav) (sat : Int) (msg : BitBuf) : Py (Nav × Option Eph) := do
  let (_, prn) := sat2prn sat
  let sid ← readU msg 0 6
  let svid ← readU msg 6 6
  let _ ← readU msg 12 10
  if sid > 4 then return (n, none)
  let b ← n.galFnav.getItem (prn - 1)
  let b ← fnavStore b sid msg
  let n := { n with galFnav := n.galFnav.set (prn - 1) b }
  return (n, ← fnavTry sat svid b)

end Verif.Rawnav
