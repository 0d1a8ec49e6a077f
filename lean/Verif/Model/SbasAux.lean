import Verif.Model.Sbas
import Verif.Model.Rawnav
import Mathlib.Data.Matrix.Basic
import Mathlib.LinearAlgebra.Matrix.Notation
/-!
The rest of the SBAS decoder, class `sbasDec` of `src/cssrlib/sbas.py`: message types 9 (ranging), 10 (degradation
parameters), 12 (UTC), 17 (almanac), 27 (service), 28 (covariance), the covariance part of 32, 37 (OBAD parameters),
39 and 40 (ephemeris) and 47 (dual-frequency almanac), and the whole `decode_cssr` with the transmissions of QZSS.

Floats are exact rationals, NaN is `none`; `np.array` of numbers are lists.  Status bits and logging are left out.  When an
exception is raised the partially updated object is not modelled.  A format with several fields is a sequence of reads.
-/

namespace Verif.SbasAux
open Verif.Sat Verif.Sval Verif.Time
open Verif.Rawnav (sc2rad)

/-- three components of a vector -/
structure V3 where
  x : Val
  y : Val
  z : Val
  deriving DecidableEq

/-- class `Seph`: gnss.py lines 813-828; `tof` and the constants `iodn`, `svh`, `mode` are left out -/
structure Seph where
  sat : Int
  t0 : GTime
  sva : ℚ
  pos : V3
  vel : V3
  acc : V3
  af0 : Val
  af1 : Val
  deriving DecidableEq

/-- class `Eph` (gnss.py lines 710-762) with the attributes set by the message types 39 and 40 -/
structure Eph where
  sat : Int
  cuc : Val := some 0
  cus : Val := some 0
  idot : Val := some 0
  omg : Val := some 0
  Omg0 : Val := some 0
  M0 : Val := some 0
  af0 : Val := some 0
  af1 : Val := some 0
  i0 : ℚ := 0
  e : ℚ := 0
  a : ℚ := 0
  toe : GTime := ⟨0, 0⟩
  toc : GTime := ⟨0, 0⟩
  deriving DecidableEq

/-- entries of `self.Alm`: `Salm` (sbas.py lines 28-37) or `Alm` (gnss.py lines 831-850); the rate of the node is written
to the attribute `OMDd` -/
inductive Almanac where
  | salm (svh : Int) (pos vel : V3) (t0 : GTime)
  | alm (A e i0 omg OMG0 OMDd M0 : ℚ) (toa : GTime)
  deriving DecidableEq

/-- class `SBASService`: sbas.py lines 40-55 -/
structure Service where
  iods : Int := -1
  nmsg : Int := 0
  snum : Int := 0
  nreg : Int := 0
  priority : Int := 0
  dUDREin : Int := 0
  dUDREout : Int := 0
  /-- `lat1[k], lon1[k], lat2[k], lon2[k]` -/
  regions : List (Int × Int × Int × Int) := List.replicate 5 (0, 0, 0, 0)
  shape : Int := 0
  deriving DecidableEq

/-- class `paramOBAD`: sbas.py lines 58-78; `udrei` is in `Sbas.St`, `t0` is not used here -/
structure Obad where
  tid : Int := 0
  dt32 : ℚ := 0
  dt39 : ℚ := 0
  Cer : ℚ := 0
  Ccov : ℚ := 0
  Icorr : List (Sys × ℚ) := []
  Ccorr : List (Sys × ℚ) := []
  Rcorr : List (Sys × ℚ) := []
  dfreiTbl : List ℚ := List.replicate 16 0
  cov : Dict Int (Matrix (Fin 4) (Fin 4) ℚ) := []
  dfrei : Dict Int Int := []
  dRcorr : Dict Int ℚ := []
  scl : Dict Int ℚ := []

/-- attributes of `sbasDec` not in `Sbas.St`: sbas.py lines 247-294 -/
structure St where
  base : Sbas.St := {}
  degPrm : List ℚ := List.replicate 16 0
  obad : Obad := {}
  satRef : Int := -1
  iodg : Int := -1
  seph : Option Seph := none
  eph : Option Eph := none
  alm : Dict Int Almanac := []
  sinfo : Service := {}

/-- `ura_t`: sbas.py lines 296-297 -/
def uraT : List ℚ := [2, 28 / 10, 4, 57 / 10, 8, 113 / 10, 16, 32, 64, 128, 256, 512, 1024, 2048, 4096, 0]

/-- `decode_sbas_ranging`: sbas.py lines 495-530 -/
def ranging (s : St) (msg : BitBuf) (i : Nat) : Py St := do
  let t0 ← readU msg (i + 8) 13
  let ura ← readU msg (i + 21) 4
  let xg ← readS msg (i + 25) 30
  let yg ← readS msg (i + 55) 30
  let zg ← readS msg (i + 85) 25
  let vxg ← readS msg (i + 110) 17
  let vyg ← readS msg (i + 127) 17
  let vzg ← readS msg (i + 144) 18
  let axg ← readS msg (i + 162) 10
  let ayg ← readS msg (i + 172) 10
  let azg ← readS msg (i + 182) 10
  let af0 ← readS msg (i + 192) 12
  let af1 ← readS msg (i + 204) 8
  if s.satRef ≤ 0 then pure s else do
  let sva ← pyGet uraT ura
  pure { s with seph := some {
    sat := s.satRef
    t0 := tod2tow (t0 * 16) s.base.time
    sva := sva
    pos := ⟨svalSbas xg 30 (8 / 100), svalSbas yg 30 (8 / 100), svalSbas zg 25 (4 / 10)⟩
    vel := ⟨svalSbas vxg 17 (625 / 1000000), svalSbas vyg 17 (625 / 1000000), svalSbas vzg 18 (4 / 1000)⟩
    acc := ⟨svalSbas axg 10 (125 / 10000000), svalSbas ayg 10 (125 / 10000000), svalSbas azg 10 (625 / 10000000)⟩
    af0 := svalSbas af0 12 (1 / 2 ^ 31)
    af1 := svalSbas af1 8 (1 / 2 ^ 40) } }

/-- `decode_sbas_degradation_param`: sbas.py lines 532-549 -/
def degradationParam (s : St) (msg : BitBuf) (i : Nat) : Py St := do
  let brrc ← readU msg i 10
  let cltcLsb ← readU msg (i + 10) 10
  let cltcV1 ← readU msg (i + 20) 10
  let iltcV1 ← readU msg (i + 30) 9
  let cltcV0 ← readU msg (i + 39) 10
  let iltcV0 ← readU msg (i + 49) 9
  let cgeoLsb ← readU msg (i + 58) 10
  let cgeoV ← readU msg (i + 68) 10
  let igeo ← readU msg (i + 78) 9
  let cer ← readU msg (i + 87) 6
  let cionoS ← readU msg (i + 93) 10
  let iiono ← readU msg (i + 103) 9
  let cionoR ← readU msg (i + 112) 10
  let rssUdre ← readU msg (i + 122) 1
  let rssIono ← readU msg (i + 123) 1
  let ccov ← readU msg (i + 124) 7
  pure { s with degPrm := [brrc * (2 / 1000), cltcLsb * (2 / 1000), cltcV1 * (5 / 10000), iltcV1, cltcV0 * (2 / 1000), iltcV0,
    cgeoLsb * (5 / 10000), cgeoV * (5 / 100000), igeo, cer * (1 / 2), cionoS * (1 / 1000), iiono, cionoR * (5 / 1000000),
    rssUdre, rssIono, ccov * (1 / 10)] }

/-- `decode_sbas_utc`: sbas.py lines 551-559; the values are not used -/
def utc (s : St) (msg : BitBuf) (i : Nat) : Py St := do
  let _ ← readS msg i 24
  let _ ← readS msg (i + 24) 32
  let _ ← readU msg (i + 56) 8
  let _ ← readU msg (i + 64) 8
  let _ ← readS msg (i + 72) 8
  let _ ← readU msg (i + 80) 8
  let _ ← readU msg (i + 88) 8
  let _ ← readS msg (i + 96) 8
  let _ ← readU msg (i + 104) 3
  let _ ← readU msg (i + 107) 20
  let _ ← readU msg (i + 127) 10
  let _ ← readU msg (i + 137) 1
  let _ ← readS msg (i + 138) 24
  pure s

/-- one satellite of `decode_sbas_almanac`: sbas.py lines 568-590 -/
def almItem (s : St) (msg : BitBuf) (t0 : GTime) (i : Nat) : Py St := do
  let prn ← readU msg (i + 2) 8
  let svh ← readU msg (i + 10) 8
  let x ← readS msg (i + 18) 15
  let y ← readS msg (i + 33) 15
  let z ← readS msg (i + 48) 9
  let vx ← readS msg (i + 57) 3
  let vy ← readS msg (i + 60) 3
  let vz ← readS msg (i + 63) 4
  if prn = 0 then pure s else
  let al : Almanac := .salm svh ⟨svalSbas x 15 2600, svalSbas y 15 2600, svalSbas z 9 26000⟩
    ⟨svalSbas vx 3 10, svalSbas vy 3 10, svalSbas vz 4 60⟩ t0
  pure { s with alm := Dict.set s.alm (prn2sat .sbs prn) al }

/-- `decode_sbas_almanac`: sbas.py lines 561-593 -/
def almanac (s : St) (msg : BitBuf) (i : Nat) : Py St := do
  let ta ← readU msg 201 11
  let t0 := tod2tow (ta * 64) s.base.time
  let s ← almItem s msg t0 i
  let s ← almItem s msg t0 (i + 67)
  almItem s msg t0 (i + 134)

/-- one region of `decode_sbas_service`: sbas.py lines 744-749 -/
def region (msg : BitBuf) (i : Nat) : Py (Int × Int × Int × Int) := do
  let lat1 ← readS msg i 8
  let lon1 ← readS msg (i + 8) 9
  let lat2 ← readS msg (i + 17) 8
  let lon2 ← readS msg (i + 25) 9
  pure (lat1, lon1, lat2, lon2)

/-- `decode_sbas_service`: sbas.py lines 728-754 -/
def service (s : St) (msg : BitBuf) (i : Nat) : Py St := do
  let iods ← readU msg i 3
  let ns ← readU msg (i + 3) 3
  let sm ← readU msg (i + 6) 3
  let nreg ← readU msg (i + 9) 3
  let code ← readU msg (i + 12) 2
  let dudre1 ← readU msg (i + 14) 4
  let dudre2 ← readU msg (i + 18) 4
  let r0 ← region msg (i + 22)
  let r1 ← region msg (i + 56)
  let r2 ← region msg (i + 90)
  let r3 ← region msg (i + 124)
  let r4 ← region msg (i + 158)
  let shape ← readU msg (i + 192) 1
  let si : Service := ⟨iods, ns, sm, nreg, code, dudre1, dudre2, [r0, r1, r2, r3, r4], shape⟩
  pure { s with sinfo := si }

/-- `decode_cov`: sbas.py lines 756-768 -/
def cov (msg : BitBuf) (i : Nat) : Py (Matrix (Fin 4) (Fin 4) ℚ × ℚ) := do
  let scale ← readU msg i 3
  let e11 ← readU msg (i + 3) 9
  let e22 ← readU msg (i + 12) 9
  let e33 ← readU msg (i + 21) 9
  let e44 ← readU msg (i + 30) 9
  let e12 ← readS msg (i + 39) 10
  let e13 ← readS msg (i + 49) 10
  let e14 ← readS msg (i + 59) 10
  let e23 ← readS msg (i + 69) 10
  let _ ← readS msg (i + 79) 10
  let e34 ← readS msg (i + 89) 10
  let scl : ℚ := (2 : ℚ) ^ ((scale : Int) - 5)
  let r : Matrix (Fin 4) (Fin 4) ℚ := scl • !![(e11 : ℚ), e12, e13, e14; 0, e22, e23, e23; 0, 0, e33, e34; 0, 0, 0, e44]
  pure (r.transpose * r, scl)

/-- one satellite of `decode_sbas_cov`: sbas.py lines 779-784 -/
def covItem (s : St) (msg : BitBuf) (i : Nat) : Py St := do
  let slot ← readU msg i 6
  let (c, scl) ← cov msg (i + 6)
  let sat ← pyGet s.base.sat slot
  pure { s with obad := { s.obad with cov := Dict.set s.obad.cov sat c, scl := Dict.set s.obad.scl sat scl } }

/-- `decode_sbas_cov`: sbas.py lines 770-786 -/
def cov28 (s : St) (msg : BitBuf) (i : Nat) : Py St := do
  let iodp ← readU msg i 2
  if (iodp : Int) ≠ s.base.iodp then pure s else do
  let s ← covItem s msg (i + 2)
  covItem s msg (i + 107)

/-- part of `decode_cssr_orb` about the covariance: sbas.py lines 1053-1058 and 1067-1084; `base` is the state after the
corrections are stored -/
def corr32 (s : St) (base : Sbas.St) (msg : BitBuf) (i : Nat) : Py St := do
  let slot ← readU msg i 8
  if slot = 0 then pure { s with base := base } else do
  let (c, scl) ← cov msg (i + 109)
  let dfrei ← readU msg (i + 208) 4
  let dRcorr ← readU msg (i + 212) 4
  let sat := Sbas.slot2sat slot
  if sat = 0 then pure { s with base := base } else
  pure { s with base := base, obad := { s.obad with
    cov := Dict.set s.obad.cov sat c, dfrei := Dict.set s.obad.dfrei sat dfrei, dRcorr := Dict.set s.obad.dRcorr sat (dRcorr / 15),
    scl := Dict.set s.obad.scl sat scl } }

/-- `sys_t`: sbas.py lines 912-913 -/
def sysT : List Sys := [.gps, .glo, .gal, .bds, .sbs, .qzs]

/-- `scl_dfrei_t`: sbas.py lines 304-305 -/
def sclT : List ℚ := [1 / 16, 1 / 8, 1 / 8, 1 / 8, 1 / 8, 1 / 4, 1 / 4, 1 / 4, 1 / 4, 1 / 4, 1 / 2, 1 / 2, 1, 3, 6]

/-- parameters of one system: sbas.py lines 920-925 -/
def obadSys (msg : BitBuf) (i : Nat) (sys : Sys) : Py (Sys × ℚ × ℚ × ℚ) := do
  let icorr ← readU msg i 5
  let ccorr ← readU msg (i + 5) 8
  let rcorr ← readU msg (i + 13) 8
  pure (sys, icorr * 6, ccorr * (1 / 100), rcorr * (2 / 10))

/-- `decode_dfmc_obad`: sbas.py lines 901-935 -/
def obad37 (s : St) (msg : BitBuf) (i : Nat) : Py St := do
  let iv32 ← readU msg i 6
  let iv39 ← readU msg (i + 6) 6
  let cer ← readU msg (i + 12) 6
  let ccov ← readU msg (i + 18) 7
  let l ← (sysT.zipIdx).mapM fun x : Sys × Nat => obadSys msg (i + 25 + 21 * x.2) x.1
  let t ← (sclT.zipIdx).mapM fun x : ℚ × Nat => do
    let v ← readU msg (i + 151 + 4 * x.2) 4
    pure (v * x.1)
  let tid ← readU msg (i + 211) 3
  pure { s with obad := { s.obad with
    dt32 := iv32 * 6, dt39 := iv39 * 6, Cer := cer * (1 / 2), Ccov := ccov * (1 / 10)
    Icorr := l.map fun x => (x.1, x.2.1), Ccorr := l.map fun x => (x.1, x.2.2.1), Rcorr := l.map fun x => (x.1, x.2.2.2)
    dfreiTbl := t ++ s.obad.dfreiTbl.drop 15, tid := tid } }

/-- `decode_dfmc_eph_mt39`: sbas.py lines 937-963 -/
def eph39 (s : St) (msg : BitBuf) (i : Nat) : Py St := do
  let slotd ← readU msg i 6
  let iodg ← readU msg (i + 6) 2
  let _ ← readU msg (i + 8) 5
  let cuc ← readS msg (i + 13) 19
  let cus ← readS msg (i + 32) 19
  let idot ← readS msg (i + 51) 22
  let omg ← readS msg (i + 73) 34
  let Omg0 ← readS msg (i + 107) 34
  let M0 ← readS msg (i + 141) 34
  let af0 ← readS msg (i + 175) 25
  let af1 ← readS msg (i + 200) 16
  pure { s with iodg := iodg, eph := some {
    sat := Sbas.slot2sat slotd
    cuc := svalSbas cuc 19 (sc2rad * (1 / 2 ^ 19) * (1 / 10000))
    cus := svalSbas cus 19 (sc2rad * (1 / 2 ^ 19) * (1 / 10000))
    idot := svalSbas idot 22 (7 / 6 * sc2rad * (1 / 2 ^ 21) * (1 / 1000000))
    omg := svalSbas omg 34 (sc2rad * (1 / 2 ^ 33))
    Omg0 := svalSbas Omg0 34 (sc2rad * (1 / 2 ^ 33))
    M0 := svalSbas M0 34 (sc2rad * (1 / 2 ^ 33))
    af0 := svalSbas af0 25 (2 / 100 / 299792458)
    af1 := svalSbas af1 16 (4 / 100000 / 299792458) } }

/-- `decode_dfmc_eph_mt40`: sbas.py lines 965-993; without a first part (`self.Eph` is `None`) the issue is -1, which no message
has -/
def eph40 (s : St) (msg : BitBuf) (i : Nat) : Py St := do
  let iodg ← readU msg i 2
  if (iodg : Int) ≠ s.iodg then pure s else do
  let i0 ← readU msg (i + 2) 33
  let e ← readU msg (i + 35) 30
  let a ← readU msg (i + 65) 31
  let te ← readU msg (i + 96) 13
  match s.eph with
  | none => .error .attributeError
  | some eph => do
    let toe := tod2tow (te * 16) s.base.time
    let (c, scl) ← cov msg (i + 109)
    let dfrei ← readU msg (i + 208) 4
    let dRcorr ← readU msg (i + 212) 4
    pure { s with
      eph := some { eph with i0 := i0 * sc2rad * (1 / 2 ^ 33), e := e * (1 / 2 ^ 30), a := a * (2 / 100), toe := toe, toc := toe }
      obad := { s.obad with
        cov := Dict.set s.obad.cov eph.sat c, dfrei := Dict.set s.obad.dfrei eph.sat dfrei,
        dRcorr := Dict.set s.obad.dRcorr eph.sat (dRcorr / 15), scl := Dict.set s.obad.scl eph.sat scl } }

/-- one satellite of `decode_dfmc_alm`: sbas.py lines 998-1018 -/
def alm47Item (s : St) (msg : BitBuf) (i : Nat) : Py St := do
  let slotd ← readU msg i 6
  let _ ← readU msg (i + 6) 5
  let _ ← readU msg (i + 11) 1
  if slotd = 0 then pure s else do
  let a ← readU msg (i + 12) 16
  let e ← readU msg (i + 28) 8
  let i0 ← readU msg (i + 36) 13
  let omg ← readS msg (i + 49) 14
  let Omg0 ← readS msg (i + 63) 14
  let OmgD ← readS msg (i + 77) 8
  let M0 ← readS msg (i + 85) 15
  let ta ← readU msg (i + 100) 6
  let al : Almanac := .alm (a * 650) (e * (1 / 2 ^ 8)) (i0 * sc2rad * (1 / 2 ^ 13)) (omg * sc2rad * (1 / 2 ^ 13))
    (Omg0 * sc2rad * (1 / 2 ^ 13)) (OmgD * (1 / 1000000000)) (M0 * sc2rad * (1 / 2 ^ 14)) (tod2tow (ta * 1800) s.base.time)
  pure { s with alm := Dict.set s.alm (prn2sat .sbs (slotd + 119)) al }

/-- `decode_dfmc_alm`: sbas.py lines 995-1022 -/
def alm47 (s : St) (msg : BitBuf) (i : Nat) : Py St := do
  let s ← alm47Item s msg i
  alm47Item s msg (i + 106)

/-- `decode_tvs_mc`: sbas.py lines 1098-1103 -/
def tvs (pre mt : Nat) : Py Nat :=
  if mt / 16 = 1 then
    (if pre = 0x53 then .ok 31 else if pre = 0x9a then .ok 37 else if pre = 0xc6 then .ok 47 else .error .keyError)
  else if mt / 16 = 0 then .ok 34 else if mt / 16 = 2 then .ok 32 else if mt / 16 = 3 then .ok 63 else .error .keyError

/-- message type and start of the data: sbas.py lines 1108-1118 -/
def header (src prn : Nat) (msg : BitBuf) : Py (Nat × Nat) :=
  if src = 1 ∧ prn ≥ 184 ∧ prn ≤ 189 then do
    let pre ← readU msg 0 8
    let mt ← readU msg 8 6
    let mt ← tvs pre mt
    pure (mt, 10)
  else if src = 0 then do
    let _ ← readU msg 0 8
    let mt ← readU msg 8 6
    pure (mt, 14)
  else do
    let _ ← readU msg 0 4
    let mt ← readU msg 4 6
    pure (mt, 10)

/-- the transmitting satellite: sbas.py lines 1122-1126 -/
def setRef (s : St) (prn : Nat) : St :=
  if prn = 0 then s else { s with satRef := if prn ≥ 193 then prn2sat .qzs prn else prn2sat .sbs prn }

/-- a message type changing the corrections only -/
def withBase (s : St) (r : Py (Sbas.St × Nat)) : Py St := do
  let (b, _) ← r
  pure { s with base := b }

/-- the branches of `decode_cssr`: sbas.py lines 1128-1181 -/
def body (s : St) (mt i : Nat) (msg : BitBuf) : Py St :=
  if mt = 1 then withBase s (Sbas.mask1 s.base msg i)
  else if mt = 2 ∨ mt = 3 ∨ mt = 4 ∨ mt = 5 then withBase s (Sbas.fastCorr s.base msg mt i)
  else if mt = 6 then withBase s (Sbas.integrity s.base msg i)
  else if mt = 7 then withBase s (Sbas.degradation s.base msg i)
  else if mt = 9 then ranging s msg i
  else if mt = 10 then degradationParam s msg i
  else if mt = 12 then utc s msg i
  else if mt = 17 then almanac s msg i
  else if mt = 18 then withBase s (Sbas.igpMask s.base msg i)
  else if mt = 24 then withBase s (Sbas.mixed s.base msg i)
  else if mt = 25 then withBase s (Sbas.longCorr s.base msg i)
  else if mt = 26 then withBase s (Sbas.iono s.base msg i)
  else if mt = 27 then service s msg i
  else if mt = 28 then cov28 s msg i
  else if mt = 31 then withBase s (Sbas.mask31 s.base msg i)
  else if mt = 32 then do
    let (b, _) ← Sbas.corr32 s.base msg i
    corr32 s b msg i
  else if mt = 34 then withBase s (Sbas.mt34 s.base msg i)
  else if mt = 35 ∨ mt = 36 then withBase s (Sbas.mt3536 s.base msg i)
  else if mt = 37 then obad37 s msg i
  else if mt = 39 then eph39 s msg i
  else if mt = 40 then eph40 s msg i
  else if mt = 47 then alm47 s msg i
  else pure s

/-- `decode_cssr(msg, 0, src, prn)`: sbas.py lines 1105-1185 -/
def decode (s : St) (src prn : Nat) (msg : BitBuf) : Py St := do
  let (mt, i) ← header src prn msg
  body (setRef s prn) mt i msg

end Verif.SbasAux
