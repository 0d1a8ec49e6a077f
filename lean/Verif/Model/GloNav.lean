import Verif.Model.Rawnav
import Verif.Model.CopyBuff
/-!
# Navigation messages of GLONASS and SBAS (rawnav.py, class `RawNav`)

Byte buffers are bit buffers; values are exact rationals.  Slices in bytes are slices of eight times as many bits.
A format with several fields is a sequence of reads.
-/

namespace Verif.GloNav
open Verif.Time
open Verif.Sat (Sys sat2prn)
open Verif.Rawnav (p2 sc2rad getbitg)
open Verif.CopyBuff (copyBuff)

/-- three components of a vector -/
structure V3 where
  x : ℚ
  y : ℚ
  z : ℚ
  deriving DecidableEq

/-- class `Geph`: gnss.py lines 764-810 -/
structure Geph where
  sat : Int
  iode : Int := 0
  frq : Int := 0
  svh : Int := 0
  sva : Int := 0
  age : Int := 0
  toe : GTime := ⟨0, 0⟩
  toes : ℚ := 0
  tof : GTime := ⟨0, 0⟩
  pos : V3 := ⟨0, 0, 0⟩
  vel : V3 := ⟨0, 0, 0⟩
  acc : V3 := ⟨0, 0, 0⟩
  taun : ℚ := 0
  gamn : ℚ := 0
  beta : ℚ := 0
  dtaun : ℚ := 0
  mode : Int := 0
  status : Int := 0
  flag : Int := 0
  tauC : ℚ := 0
  dtauC : ℚ := 0
  tauGps : ℚ := 0
  urai : Int × Int := (0, 0)
  dpos : V3 := ⟨0, 0, 0⟩
  psi : ℚ := 0
  sn : Int := 0
  win : ℚ := 0
  dw : ℚ := 0
  wmax : ℚ := 0
  aode : ℚ := 0
  aodc : ℚ := 0
  tin : ℚ := 0
  tau1 : ℚ := 0
  tau2 : ℚ := 0
  src : Int := 0
  sattype : Int := 0
  isc : V3 := ⟨0, 0, 0⟩
  deriving DecidableEq

/-- class `Seph`: gnss.py lines 813-828 -/
structure Seph where
  sat : Int
  iodn : Int
  t0 : GTime
  tof : GTime
  svh : Int
  sva : ℚ
  pos : V3
  vel : V3
  acc : V3
  af0 : ℚ
  af1 : ℚ
  mode : Int
  deriving DecidableEq

/-- `gep2time(N4, Nt, sod)`: rawnav.py lines 35-57; `//` rounds down -/
def gep2time (N4 Nt : Int) (sod : ℚ) : GTime :=
  let (j, doy) : Int × Int :=
    if Nt ≤ 366 then (1, Nt) else if Nt ≤ 731 then (2, Nt - 366) else if Nt ≤ 1096 then (3, Nt - 731) else (4, Nt - 1096)
  let year := 1996 + 4 * (N4 - 1) + j - 1
  let days := (year - 1970) * 365 + (year - 1969) / 4 + doy - 1
  let sec := truncQ sod
  utc2gpst (timeadd ⟨days * 86400 + sec, sod - sec⟩ (-10800))

/-- `st.pack_into('>L', buff, …, v)` (at the bit `p`); `struct.error` is the error of `writeU` -/
def packL (b : BitBuf) (p : Nat) (v : Int) : Py BitBuf := if 0 ≤ v then writeU b p 32 v.toNat else .error .bitstruct

/-- the second of the day nearest to `tod`: lines 1670-1674 and 1677-1681 -/
def nearTod (t tod : ℚ) : ℚ := if t < tod - 43200 then t + 86400 else if t > tod + 43200 then t - 86400 else t

/-- string 5: lines 1644-1653 -/
def string5 (b : BitBuf) (id5 : Nat) : Py (ℚ × ℚ) := do
  if id5 ≠ 5 then return (0, 0)
  let _ ← readU b (96 * 4 + 5) 11
  let c ← getbitg b (96 * 4 + 16) 32
  let _ ← readU b (96 * 4 + 49) 5
  let g ← getbitg b (96 * 4 + 54) 22
  return ((c : ℚ) * p2 31, (g : ℚ) * p2 30)

/-- the ephemeris from the stored strings: lines 1581-1687 -/
def fdmaTry (week : Int) (time : ℚ) (sat freq : Int) (b : BitBuf) : Py (Option Geph) := do
  let id1 ← readU b 1 4
  let id2 ← readU b (96 + 1) 4
  let id3 ← readU b (96 * 2 + 1) 4
  let id4 ← readU b (96 * 3 + 1) 4
  let id5 ← readU b (96 * 4 + 1) 4
  let t1 ← readU b (8 * 60) 32
  let t2 ← readU b (8 * 64) 32
  let t3 ← readU b (8 * 68) 32
  let t4 ← readU b (8 * 72) 32
  if id1 ≠ 1 ∨ id2 ≠ 2 ∨ id3 ≠ 3 ∨ id4 ≠ 4 then return none
  if (t4 : Int) - t3 ≠ 2 ∨ (t3 : Int) - t2 ≠ 2 ∨ (t2 : Int) - t1 ≠ 2 then return none
  -- string 1
  let P1 ← readU b 7 2
  let tkH ← readU b 9 5
  let tkM ← readU b 14 6
  let tkS ← readU b 20 1
  let vx ← getbitg b 21 24
  let ax ← getbitg b 45 5
  let px ← getbitg b 50 27
  -- string 2
  let Bn ← readU b (96 + 5) 3
  let P2 ← readU b (96 + 5 + 3) 1
  let tb ← readU b (96 + 5 + 4) 7
  let vy ← getbitg b (96 + 21) 24
  let ay ← getbitg b (96 + 45) 5
  let py ← getbitg b (96 + 50) 27
  -- string 3
  let P3 ← readU b (96 * 2 + 5) 1
  let gamn ← getbitg b (96 * 2 + 6) 11
  let P ← readU b (96 * 2 + 18) 2
  let _ ← readU b (96 * 2 + 18 + 2) 1
  let vz ← getbitg b (96 * 2 + 21) 24
  let az ← getbitg b (96 * 2 + 45) 5
  let pz ← getbitg b (96 * 2 + 50) 27
  -- string 4
  let taun ← getbitg b (96 * 3 + 5) 22
  let dtaun ← getbitg b (96 * 3 + 27) 5
  let En ← readU b (96 * 3 + 32) 5
  let _ ← readU b (96 * 3 + 32 + 5) 14
  let P4 ← readU b (96 * 3 + 32 + 19) 1
  let FT ← readU b (96 * 3 + 32 + 20) 4
  let _ ← readU b (96 * 3 + 32 + 24) 3
  let _ ← readU b (96 * 3 + 32 + 27) 11
  let _ ← readU b (96 * 3 + 32 + 38) 5
  let M ← readU b (96 * 3 + 32 + 43) 2
  -- string 5
  let (tauC, tauGps) ← string5 b id5
  let tod := time - 86400 * ⌊time / 86400⌋
  let day := time - tod
  let tk : ℚ := tkH * 3600 + tkM * 60 + tkS * 30
  let tof := nearTod (tk - 10800) tod
  let toe := nearTod (tb * 900 - 10800) tod
  return some {
    sat, iode := tb, frq := freq, svh := Bn, sva := FT, age := En, toe := utc2gpst (gpst2time week (day + toe)), toes := toe,
    tof := utc2gpst (gpst2time week (day + tof)), pos := ⟨px * p2 11 * 1000, py * p2 11 * 1000, pz * p2 11 * 1000⟩,
    vel := ⟨vx * p2 20 * 1000, vy * p2 20 * 1000, vz * p2 20 * 1000⟩, acc := ⟨ax * p2 30 * 1000, ay * p2 30 * 1000, az * p2 30 * 1000⟩,
    taun := taun * p2 30, gamn := gamn * p2 40, dtaun := dtaun * p2 30, mode := 0,
    flag := M * 128 + P4 * 64 + P3 * 32 + P2 * 16 + P1 * 4 + P, tauC, tauGps }

/-- `decode_glo_fdma(week, time, sat, msg, freq)`: lines 1553-1687; the store is `self.glo_ca` -/
def decodeFdma (st : Dict Int BitBuf) (week : Int) (time : ℚ) (sat : Int) (msg : BitBuf) (freq : Int := 0) :
    Py (Dict Int BitBuf × Option Geph) := do
  let (_, prn) := sat2prn sat
  let sid ← readU msg 1 4
  if sid = 0 ∨ sid > 5 then return (st, none)
  let st := if st.mem prn then st else st.set prn (List.replicate (8 * 80) false)
  let b ← st.getItem prn
  let b ← copyBuff msg b 0 ((sid - 1) * 12 * 8) 96
  let b ← packL b (8 * (60 + (sid - 1) * 4)) (truncQ time)
  return (st.set prn b, ← fdmaTry week time sat freq b)

/-- the service field of string 10: lines 1749-1759 (its length, svh, valid, P2, ts) -/
def service (b : BitBuf) (stype : Int) : Py (Nat × Nat × Nat × Nat × Nat) := do
  if stype = 1 then
    let _ ← readU b 6 6
    let svh ← readU b 12 1
    let valid ← readU b 13 1
    let _ ← readU b 14 4
    let P2 ← readU b 18 1
    let _ ← readU b 19 2
    let _ ← readU b 21 1
    let ts ← readU b 22 16
    return (32, svh, valid, P2, ts)
  else
    let ts ← readU b 6 15
    let _ ← readU b 21 6
    let svh ← readU b 27 1
    let valid ← readU b 28 1
    let _ ← readU b 29 4
    let P2 ← readU b 33 1
    let _ ← readU b 34 2
    let _ ← readU b 36 1
    return (31, svh, valid, P2, ts)

/-- `decode_glo_cdma(week, time, sat, buff, stype)`: lines 1729-1865 (week and time are not used) -/
def decodeCdma (sat : Int) (b : BitBuf) (stype : Int) : Py (Option Geph) := do
  let sid10 ← readU b 0 6
  let sid11 ← readU b 256 6
  let sid12 ← readU b 512 6
  if sid10 ≠ 10 ∨ sid11 ≠ 11 ∨ sid12 ≠ 12 then return none
  -- MT10
  let (blen, svh, valid, P2, ts) ← service b stype
  let N4 ← readU b (6 + blen) 5
  let Nt ← readU b (6 + blen + 5) 11
  let M ← readU b (6 + blen + 16) 3
  let _ ← readU b (6 + blen + 19) 6
  let tb ← readU b (6 + blen + 25) 10
  let Ee ← readU b (6 + blen + 35) 8
  let Et ← readU b (6 + blen + 43) 8
  let Re ← readU b (6 + blen + 51) 2
  let Rt ← readU b (6 + blen + 53) 2
  let fe ← getbitg b (6 + blen + 55) 5
  let ft ← getbitg b (6 + blen + 60) 5
  let taun ← getbitg b (6 + blen + 65) 32
  let gamn ← getbitg b (6 + blen + 97) 19
  let beta ← getbitg b (6 + blen + 116) 15
  let tauC ← getbitg b (6 + blen + 131) 40
  let dtauC ← getbitg b (6 + blen + 171) 13
  -- MT11
  let px ← getbitg b (256 + 6 + blen) 40
  let py ← getbitg b (256 + 6 + blen + 40) 40
  let pz ← getbitg b (256 + 6 + blen + 80) 40
  let vx ← getbitg b (256 + 6 + blen + 120) 35
  let vy ← getbitg b (256 + 6 + blen + 155) 35
  -- MT12
  let vz ← getbitg b (512 + 6 + blen) 35
  let ax ← getbitg b (512 + 6 + blen + 35) 15
  let ay ← getbitg b (512 + 6 + blen + 50) 15
  let az ← getbitg b (512 + 6 + blen + 65) 15
  let dx ← getbitg b (512 + 6 + blen + 80) 13
  let dy ← getbitg b (512 + 6 + blen + 93) 13
  let dz ← getbitg b (512 + 6 + blen + 106) 13
  let isc ← getbitg b (512 + 6 + blen + 119) 18
  let tauGps ← getbitg b (512 + 6 + blen + 137) 30
  -- MT16
  let tin ← readU b (768 + 6 + blen) 22
  let psi ← readU b (768 + 6 + blen + 22) 15
  let sn ← readU b (768 + 6 + blen + 37) 1
  let wmax ← readU b (768 + 6 + blen + 38) 17
  let win ← readU b (768 + 6 + blen + 55) 17
  let dw ← readU b (768 + 6 + blen + 72) 15
  let tau1 ← readU b (768 + 6 + blen + 87) 13
  let tau2 ← readU b (768 + 6 + blen + 100) 17
  let toe := gep2time N4 Nt (tb * 90)
  let scl : ℚ := if stype = 1 then 2 else 3
  let isc : ℚ := isc * p2 38
  return some {
    sat, iode := tb, svh, toe, toes := (time2gpst toe).2, tof := gep2time N4 Nt (ts * scl),
    pos := ⟨px * p2 20 * 1000, py * p2 20 * 1000, pz * p2 20 * 1000⟩, vel := ⟨vx * p2 30 * 1000, vy * p2 30 * 1000, vz * p2 30 * 1000⟩,
    acc := ⟨ax * p2 39 * 1000, ay * p2 39 * 1000, az * p2 39 * 1000⟩, taun := taun * p2 38, gamn := gamn * p2 48, beta := beta * p2 57,
    mode := stype, status := valid, flag := P2, tauC := tauC * p2 31, dtauC := dtauC * p2 49, tauGps := tauGps * p2 38, urai := (fe, ft),
    dpos := ⟨dx * p2 10, dy * p2 10, dz * p2 10⟩, psi := psi * p2 14 * sc2rad, sn, win := win * p2 26 * sc2rad, dw := dw * p2 30 * sc2rad,
    wmax := wmax * p2 26 * sc2rad, aode := Ee * (1 / 4), aodc := Et * (1 / 4), tin := tin * p2 5, tau1 := tau1 * p2 5, tau2 := tau2 * p2 5,
    src := Re * 4 + Rt, sattype := M, isc := if stype = 1 then ⟨0, isc, 0⟩ else ⟨0, 0, isc⟩ }

/-- `decode_glo_l1oc(week, time, sat, msg)`: lines 1689-1707; the store is `self.glo_l1oc` -/
def decodeL1oc (st : Dict Int BitBuf) (sat : Int) (msg : BitBuf) : Py (Dict Int BitBuf × Option Geph) := do
  let pre ← readU msg 0 12
  let sid ← readU msg 12 6
  if pre ≠ 0x5f1 then return (st, none)
  if sid ≠ 10 ∧ sid ≠ 11 ∧ sid ≠ 12 then return (st, none)
  let st := if st.mem sat then st else st.set sat (List.replicate (8 * (32 * 5)) false)
  let b ← st.getItem sat
  let k := if sid = 10 then 0 else if sid = 11 then 1 else 2
  let b ← copyBuff msg b 12 (k * 32 * 8) 222
  return (st.set sat b, ← decodeCdma sat b 1)

/-- `decode_glo_l3oc(week, time, sat, msg)`: lines 1709-1727; the store is `self.glo_l3oc` -/
def decodeL3oc (st : Dict Int BitBuf) (sat : Int) (msg : BitBuf) : Py (Dict Int BitBuf × Option Geph) := do
  let pre ← readU msg 0 20
  let sid ← readU msg 20 6
  if pre ≠ 0x494e then return (st, none)
  if sid ≠ 10 ∧ sid ≠ 11 ∧ sid ≠ 12 ∧ sid ≠ 16 ∧ sid ≠ 25 then return (st, none)
  let st := if st.mem sat then st else st.set sat (List.replicate (8 * (32 * 5)) false)
  let b ← st.getItem sat
  let k := if sid = 10 then 0 else if sid = 11 then 1 else if sid = 12 then 2 else if sid = 16 then 3 else 4
  let b ← copyBuff msg b 20 (k * 32 * 8) 256
  return (st.set sat b, ← decodeCdma sat b 3)

/-- `ura_t`: lines 1869-1870 -/
def uraT : List ℚ := [2, 28 / 10, 4, 57 / 10, 8, 113 / 10, 16, 32, 64, 128, 256, 512, 1024, 2048, 4096, 0]

/-- `decode_sbs_l1(week, tow, sat, msg)`: lines 1867-1909 -/
def decodeSbs (week : Int) (tow : ℚ) (sat : Int) (b : BitBuf) : Py (Option Seph) := do
  let pre ← readU b 0 8
  let mt ← readU b 8 6
  let iodn ← readU b 14 8
  if pre ≠ 0x53 ∧ pre ≠ 0x9a ∧ pre ≠ 0xc6 then return none
  if mt ≠ 9 then return none
  let t0 ← readU b 22 13
  let ura ← readU b 35 4
  let xg ← readS b 39 30
  let yg ← readS b 69 30
  let zg ← readS b 99 25
  let vxg ← readS b 124 17
  let vyg ← readS b 141 17
  let vzg ← readS b 158 18
  let axg ← readS b 176 10
  let ayg ← readS b 186 10
  let azg ← readS b 196 10
  let af0 ← readS b 206 12
  let af1 ← readS b 218 8
  let tof := gpst2time week tow
  let sva ← pyGet uraT ura
  return some {
    sat, iodn, tof, t0 := tod2tow (t0 * 16) tof, svh := if ura ≠ 15 then 0 else 1, sva, pos := ⟨xg * (8 / 100), yg * (8 / 100), zg * (4 / 10)⟩,
    vel := ⟨vxg * (625 / 1000000), vyg * (625 / 1000000), vzg * (4 / 1000)⟩,
    acc := ⟨axg * (125 / 10000000), ayg * (125 / 10000000), azg * (625 / 10000000)⟩, af0 := af0 * p2 31, af1 := af1 * p2 40, mode := 0 }

end Verif.GloNav
