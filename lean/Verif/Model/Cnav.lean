import Verif.Model.Rawnav
/-!
# CNAV and CNAV/2 messages of GPS and QZSS (rawnav.py, class `RawNav`)

Byte buffers are bit buffers; values are exact rationals.  Slices in bytes are slices of eight times as many bits.
A format with several fields is a sequence of reads.
-/

namespace Verif.Cnav
open Verif.Time
open Verif.Sat (Sys sat2prn)
open Verif.Rawnav (p2 sc2rad pySliceSet)

/-- class `Eph`: gnss.py lines 710-761 (the attributes set by the two decoders) -/
structure Eph where
  sat : Int
  week : Int
  code : Int
  svh : Int
  af0 : ℚ
  af1 : ℚ
  af2 : ℚ
  urai : List Int
  tops : ℚ
  A : ℚ
  Adot : ℚ
  deln : ℚ
  delnd : ℚ
  M0 : ℚ
  e : ℚ
  omg : ℚ
  integ : Nat
  wnOp : Int
  toes : ℚ
  OMG0 : ℚ
  i0 : ℚ
  OMGd : ℚ
  idot : ℚ
  cis : ℚ
  cic : ℚ
  crs : ℚ
  crc : ℚ
  cus : ℚ
  cuc : ℚ
  mode : Int
  tot : GTime
  toc : GTime
  toe : GTime
  top : GTime
  tgd : ℚ
  isc : List ℚ
  deriving DecidableEq

/-- reference semi-major axis: lines 613 and 734 -/
def axis : Sys → ℚ
  | .gps => 26559710
  | _ => 42164200

/-- week of the reference times: lines 649-652 and 764-767 -/
def adjWeek (week : Int) (t tow : ℚ) : Int :=
  if t < tow - 302400 then week + 1 else if t > tow + 302400 then week - 1 else week

/-- `decode_gps_cnav_gd(msg, eph, i)`: lines 476-482 (the four values) -/
def groupDelay (buff : BitBuf) (i : Nat) : Py (List ℚ) := do
  let isc1 ← readS buff i 13
  let isc2 ← readS buff (i + 13) 13
  let isc3 ← readS buff (i + 26) 13
  let isc4 ← readS buff (i + 39) 13
  return [isc1 * p2 35, isc2 * p2 35, isc3 * p2 35, isc4 * p2 35]

/-- `decode_gps_cnav_iono(msg, i)`: lines 484-493 (the values are not kept) -/
def iono (buff : BitBuf) (i : Nat) : Py Unit := do
  let _ ← readS buff i 8
  let _ ← readS buff (i + 8) 8
  let _ ← readS buff (i + 16) 8
  let _ ← readS buff (i + 24) 8
  let _ ← readS buff (i + 32) 8
  let _ ← readS buff (i + 40) 8
  let _ ← readS buff (i + 48) 8
  let _ ← readS buff (i + 56) 8
  return ()

/-- `decode_gps_cnav_utc(msg, i)`: lines 495-500 (the values are not kept) -/
def utc (buff : BitBuf) (i : Nat) : Py Unit := do
  let _ ← readS buff i 16
  let _ ← readS buff (i + 16) 13
  let _ ← readS buff (i + 29) 7
  let _ ← readS buff (i + 36) 8
  let _ ← readU buff (i + 44) 16
  let _ ← readU buff (i + 60) 13
  let _ ← readU buff (i + 73) 13
  let _ ← readU buff (i + 86) 4
  let _ ← readS buff (i + 90) 8
  return ()

/-- the ephemeris from the stored messages: lines 537-662 -/
def cnavTry (sys : Sys) (sat : Int) (buff : BitBuf) : Py (Option Eph) := do
  let id1 ← readU buff 14 6
  let id2 ← readU buff (304 + 14) 6
  let id3 ← readU buff (304 * 2 + 14) 6
  if id1 ≠ 10 ∨ id2 ≠ 11 then return none
  if id3 / 10 ≠ 3 ∧ (sys = .qzs ∧ id3 ≠ 61) then return none
  let toe1 ← readU buff 70 11
  let toe2 ← readU buff (304 + 38) 11
  let toc ← readU buff (304 * 2 + 60) 11
  if toe1 ≠ toe2 ∨ toe1 ≠ toc then return none
  let tow ← readU buff 20 17
  let alert ← readU buff 37 1
  let tow : ℚ := tow * 6
  -- type 10
  let wn ← readU buff 38 13
  let svh ← readU buff 51 3
  let _ ← readU buff 54 11
  let ura_ed ← readS buff 65 5
  let _ ← readU buff 70 11
  let dA ← readS buff 81 26
  let Adot ← readS buff 107 25
  let deln ← readS buff 132 17
  let delnd ← readS buff 149 23
  let M0 ← readS buff 172 33
  let e ← readU buff 205 33
  let omg ← readS buff 238 33
  let isf ← readU buff 271 1
  let esf ← readU buff 272 1
  -- type 11
  let toe ← readU buff (304 + 38) 11
  let OMG0 ← readS buff (304 + 38 + 11) 33
  let i0 ← readS buff (304 + 38 + 44) 33
  let OMGd ← readS buff (304 + 38 + 77) 17
  let idot ← readS buff (304 + 38 + 94) 15
  let cis ← readS buff (304 + 38 + 109) 16
  let cic ← readS buff (304 + 38 + 125) 16
  let crs ← readS buff (304 + 38 + 141) 24
  let crc ← readS buff (304 + 38 + 165) 24
  let cus ← readS buff (304 + 38 + 189) 21
  let cuc ← readS buff (304 + 38 + 210) 21
  -- type 3x or type 61
  let top ← readU buff (304 * 2 + 38) 11
  let ura0 ← readS buff (304 * 2 + 38 + 11) 5
  let ura1 ← readU buff (304 * 2 + 38 + 16) 3
  let ura2 ← readU buff (304 * 2 + 38 + 19) 3
  let toc ← readU buff (304 * 2 + 38 + 22) 11
  let af0 ← readS buff (304 * 2 + 38 + 33) 26
  let af1 ← readS buff (304 * 2 + 38 + 59) 20
  let af2 ← readS buff (304 * 2 + 38 + 79) 10
  if id3 = 30 ∨ id3 = 61 then
    let tgd ← readS buff (304 * 2 + 127) 13
    let isc ← groupDelay buff (304 * 2 + 127 + 13)
    iono buff (304 * 2 + 127 + 13 + 52)
    let wn_op ← readU buff (304 * 2 + 127 + 13 + 52 + 64) 8
    let toc : ℚ := toc * 300
    let toes : ℚ := toe * 300
    let week := adjWeek wn toc tow
    let wnOp : Int := (wn : Int) / 256 * 256 + wn_op
    return some {
      sat, week, code := 1, svh, af0 := af0 * p2 35, af1 := af1 * p2 48, af2 := af2 * p2 60, urai := [ura0, ura1, ura2, ura_ed],
      tops := top * 300, A := axis sys + dA * p2 9, Adot := Adot * p2 21, deln := deln * p2 44 * sc2rad,
      delnd := delnd * p2 57 * sc2rad, M0 := M0 * p2 32 * sc2rad, e := e * p2 34, omg := omg * p2 32 * sc2rad,
      integ := (alert <<< 2) ||| (esf <<< 1) ||| isf, wnOp, toes, OMG0 := OMG0 * p2 32 * sc2rad, i0 := i0 * p2 32 * sc2rad,
      OMGd := (OMGd * p2 44 - 26 / 10 ^ 10) * sc2rad, idot := idot * p2 44 * sc2rad, cis := cis * p2 30, cic := cic * p2 30,
      crs := crs * p2 8, crc := crc * p2 8, cus := cus * p2 30, cuc := cuc * p2 30, mode := 1, tot := gpst2time wn tow,
      toc := gpst2time week toc, toe := gpst2time week toes, top := gpst2time wnOp (top * 300), tgd := tgd * p2 35,
      isc := isc ++ [0, 0] }
  else if id3 = 31 then
    let _ ← readU buff (304 * 2 + 127) 13
    let _ ← readU buff (304 * 2 + 127 + 13) 8
    return none
  else return none

/-- the stores `self.gps_cnav` and `self.qzs_cnav` -/
structure Store where
  gps : Dict Int BitBuf
  qzs : Dict Int BitBuf

/-- constructor: lines 71-77 -/
def Store.init : Store := { gps := Rawnav.buffers 32, qzs := Rawnav.buffers 17 }

/-- storing a message: lines 527-534 -/
def store (sys : Sys) (sid : Nat) (buff msg : BitBuf) : BitBuf :=
  if sid = 10 ∨ sid = 11 then
    pySliceSet buff (((sid : Int) - 10) * 304) (((sid : Int) - 10) * 304 + 304) (msg.take 304)
  else if (sid ≥ 30 ∧ sid ≤ 37) ∨ (sys = .qzs ∧ sid = 61) then pySliceSet buff (2 * 304) (2 * 304 + 304) (msg.take 304)
  else buff

/-- the part of `decode_gps_cnav` common to both systems: lines 515-662 -/
def cnavBody (sys : Sys) (prn : Int) (sat : Int) (buff msg : BitBuf) : Py (BitBuf × Option Eph) := do
  let pre ← readU msg 0 8
  let prn_ ← readU msg 8 6
  let sid ← readU msg 14 6
  let prn_ : Int := if sys = .qzs then (prn_ : Int) + 192 else prn_
  if pre ≠ 0x8b ∨ prn ≠ prn_ then return (buff, none)
  if ¬ (sid = 10 ∨ sid = 11 ∨ sid = 12 ∨ sid = 15 ∨ sid = 60 ∨ sid = 61) ∧ (sid < 30 ∨ sid > 37) then return (buff, none)
  let buff := store sys sid buff msg
  return (buff, ← cnavTry sys sat buff)

/-- `decode_gps_cnav(week, time, sat, msg)`: lines 502-662 (`week` and `time` are not used; the buffer is changed in
place) -/
def decodeCnav (st : Store) (sat : Int) (msg : BitBuf) : Py (Store × Option Eph) := do
  let (sys, prn) := sat2prn sat
  match sys with
  | .gps => do
    let b ← st.gps.getItem (prn - 1)
    let (b, r) ← cnavBody .gps prn sat b msg
    return ({ st with gps := st.gps.set (prn - 1) b }, r)
  | .qzs => do
    let b ← st.qzs.getItem (prn - 193)
    let (b, r) ← cnavBody .qzs prn sat b msg
    return ({ st with qzs := st.qzs.set (prn - 193) b }, r)
  | _ => return (st, none)

/-- `decode_gps_cnav2(week, time, sat, msg)`: lines 664-772 -/
def decodeCnav2 (sat : Int) (msg : BitBuf) : Py (Option Eph) := do
  let (sys, _) := sat2prn sat
  let toi ← readU msg 0 9
  let wn ← readU msg 52 13
  let itow ← readU msg 65 8
  let top ← readU msg 73 11
  let svh ← readU msg 84 1
  let ura_ed ← readS msg 85 5
  let toe ← readU msg 90 11
  let dA ← readS msg 101 26
  let Adot ← readS msg 127 25
  let deln ← readS msg 152 17
  let delnd ← readS msg 169 23
  let M0 ← readS msg 192 33
  let e ← readU msg 225 33
  let omg ← readS msg 258 33
  let OMG0 ← readS msg 291 33
  let i0 ← readS msg 324 33
  let OMGd ← readS msg 357 17
  let idot ← readS msg 374 15
  let cis ← readS msg 389 16
  let cic ← readS msg 405 16
  let crs ← readS msg 421 24
  let crc ← readS msg 445 24
  let cus ← readS msg 469 21
  let cuc ← readS msg 490 21
  let ura0 ← readS msg 511 5
  let ura1 ← readU msg 516 3
  let ura2 ← readU msg 519 3
  let af0 ← readS msg 522 26
  let af1 ← readS msg 548 20
  let af2 ← readS msg 568 10
  let tgd ← readS msg 578 13
  let isc1 ← readS msg 591 13
  let isc2 ← readS msg 604 13
  let isf ← readU msg 617 1
  let wn_op ← readU msg 618 8
  let esf ← readU msg 626 1
  let tow : ℚ := ((itow * 7200 + toi * 18 : Nat) : Int)
  let _ ← readU msg 1252 8
  let page ← readU msg 1260 6
  if page = 1 ∨ page = 61 then
    utc msg 1266
    iono msg (1266 + 98)
    let isc ← groupDelay msg (1266 + 98 + 64)
    let toes : ℚ := toe * 300
    let week := adjWeek wn (toe : Int) tow
    let wnOp : Int := (wn : Int) / 256 * 256 + wn_op
    return some {
      sat, week, code := 2, svh, af0 := af0 * p2 35, af1 := af1 * p2 48, af2 := af2 * p2 60, urai := [ura0, ura1, ura2, ura_ed],
      tops := top * 300, A := axis sys + dA * p2 9, Adot := Adot * p2 21, deln := deln * p2 44 * sc2rad,
      delnd := delnd * p2 57 * sc2rad, M0 := M0 * p2 32 * sc2rad, e := e * p2 34, omg := omg * p2 32 * sc2rad,
      integ := if sys = .gps then isf else (esf <<< 1) ||| isf, wnOp, toes, OMG0 := OMG0 * p2 32 * sc2rad,
      i0 := i0 * p2 32 * sc2rad, OMGd := (OMGd * p2 44 - 26 / 10 ^ 10) * sc2rad, idot := idot * p2 44 * sc2rad,
      cis := cis * p2 30, cic := cic * p2 30, crs := crs * p2 8, crc := crc * p2 8, cus := cus * p2 30, cuc := cuc * p2 30,
      mode := 2, tot := gpst2time wn tow, toc := gpst2time week toes, toe := gpst2time week toes,
      top := gpst2time wnOp (top * 300), tgd := tgd * p2 35, isc := isc ++ [isc2 * p2 35, isc1 * p2 35] }
  else return none

end Verif.Cnav
