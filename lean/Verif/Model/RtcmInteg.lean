import Verif.Model.RtcmSsr
import Verif.Model.Mask
/-!
Model of the RTCM integrity messages (class `rtcm`, and `encode_integrity_ssr` of class `rtcme`, of `src/cssrlib/rtcm.py`).

A decoder returns what it stores in `self.integ` as a record; the dictionaries of a message are lists in the order of decoding, keyed by
constellation and satellite.  Scaled values are exact rationals.  The attribute `integ.time` and the log file are left out.
-/

namespace Verif.RtcmInteg
open Verif.Sat Verif.Sval Verif.RtcmSsr Verif.Mask

/-- `bs.unpack_from(fmt, msg, i)`: the values of consecutive fields, width and two's complement -/
def flds (b : BitBuf) (i : Nat) : List (Nat × Bool) → Py (List Int)
  | [] => return []
  | (n, s) :: L => do
    let v ← if s then readS b i n else (readU b i n).map Int.ofNat
    let r ← flds b (i + n) L
    return v :: r

/-- the format of unsigned fields -/
def us (l : List Nat) : List (Nat × Bool) := l.map fun n => (n, false)

/-- element of an unpacked tuple -/
def el (l : List Int) (k : Nat) : Int := l.getD k 0

/-- `for x in l: …`: a loop that reads a record for every element -/
def each {α R : Type} (f : α → Nat → Py (R × Nat)) : List α → Nat → Py (List (α × R) × Nat)
  | [], i => return ([], i)
  | a :: l, i => do
    let (r, i) ← f a i
    let (rs, i) ← each f l i
    return ((a, r) :: rs, i)

/-- `for k in range(n): …`: rows of a table -/
def rows {R : Type} (f : Nat → Py (R × Nat)) : Nat → Nat → Py (List R × Nat)
  | 0, i => return ([], i)
  | n + 1, i => do
    let (r, i) ← f i
    let (rs, i) ← rows f n i
    return (r :: rs, i)

/-- `Integrity.sys_tbl`: lines 82-83 -/
def sysTbl (k : Nat) : Py Sys :=
  match k with
  | 0 => .ok .gps | 1 => .ok .glo | 2 => .ok .gal | 3 => .ok .bds | 4 => .ok .qzs | 5 => .ok .irn
  | _ => .error .keyError

/-- `Integrity.vp_tbl`: lines 181-182 -/
def vpTbl : List Int := [1, 2, 5, 10, 15, 30, 60, 120, 240, 300, 600, 900, 1800, 3600, 7200, 10800]

/-- `decode_mask` of a field of the message -/
def maskOf (v : Int) (n o : Nat) : List Nat := (decodeMask v.toNat n o).1

structure Head where
  tow : ℚ
  pid : Int
  vp : Int
  udi : ℚ
  aid : Option Int
  deriving DecidableEq

/-- `decode_integ_head`: lines 3338-3356 -/
def decodeHead (mt : Nat) (b : BitBuf) (i : Nat) : Py (Head × Nat) := do
  let h ← flds b i (us [30, 12, 4, 16])
  let i := i + 62
  let vp ← pyGet vpTbl (el h 2).toNat
  let hd : Head := ⟨el h 0 * (1 / 1000), el h 1, vp, el h 3 * (1 / 10), none⟩
  if mt ≠ 2000 then
    let a ← flds b i (us [10])
    return ({ hd with aid := some (el a 0) }, i + 10)
  else return (hd, i)

/-- a record for every satellite of a mask -/
def sats {R : Type} (sys : Sys) (f : Nat → Py (R × Nat)) (svid : List Nat) (i : Nat) : Py (List (Int × R) × Nat) := do
  let (l, i) ← each (fun _ i => f i) svid i
  return (l.map fun x => (svid2sat sys x.1, x.2), i)

/-- the body of a loop over the constellations of a mask, e.g. lines 3376-3377 -/
def oneConst {R : Type} (f : Sys → Nat → Py (R × Nat)) (k i : Nat) : Py ((Sys × R) × Nat) := do
  let sys ← sysTbl k
  let (r, i) ← f sys i
  return ((sys, r), i)

/-- a record for every constellation of the mask -/
def consts {R : Type} (f : Sys → Nat → Py (R × Nat)) (mask : Int) (i : Nat) : Py (List (Sys × R) × Nat) := do
  let (l, i) ← each (oneConst f) (maskOf mask 16 0) i
  return (l.map (·.2), i)

/-! ### minimum integrity -/

structure MinSat where
  freq : List Nat
  iodFreq : Int
  ists : Int
  msts : Int
  deriving DecidableEq

structure MinSys where
  iod : Int
  sts : Int
  mst : List Nat
  src : Int
  sats : List (Int × MinSat)
  deriving DecidableEq

/-- lines 3410-3423 -/
def minSat (b : BitBuf) (i : Nat) : Py (MinSat × Nat) := do
  let m ← flds b i (us [8])
  let d ← flds b (i + 8) (us [2])
  let s ← flds b (i + 10) (us [8])
  let t ← flds b (i + 18) (us [8])
  return (⟨maskOf (el m 0) 8 0, el d 0, el s 0, el t 0⟩, i + 26)

/-- lines 3380-3407 -/
def minSys (b : BitBuf) (sys : Sys) (i : Nat) : Py (MinSys × Nat) := do
  let m ← flds b i (us [64, 2])
  let s ← flds b (i + 66) (us [64, 64, 3])
  let (l, i) ← sats sys (minSat b) (maskOf (el m 0) 64 1) (i + 197)
  return (⟨el m 1, el s 0, maskOf (el s 1) 64 (if sys = .qzs then 193 else 1), el s 2, l⟩, i)

/-- `decode_integrity_min`: lines 3358-3434.  The tables are stored inside the loop over the constellations, so a message without any
leaves the old ones. -/
def decodeMin (mt : Nat) (old : List (Sys × MinSys)) (b : BitBuf) (i : Nat) : Py (Head × List (Sys × MinSys) × Nat) := do
  let (h, i) ← decodeHead mt b i
  let c ← flds b i (us [16, 16, 16])
  let (l, i) ← consts (minSys b) (el c 0) (i + 48)
  return (h, if l.isEmpty then old else l, i)

/-! ### extended integrity -/

structure ExtSat where
  paSc : Int
  sigObC : Int
  paSp : Int
  bObC : Int
  sigObP : Int
  bObP : Int
  deriving DecidableEq

structure ExtSys where
  mfdS : Int
  mfdC : Int
  tauC : Int
  sigC : Int
  tauP : Int
  sigP : Int
  paCc : Int
  paCp : Int
  sats : List (Int × ExtSat)
  deriving DecidableEq

structure Ext where
  ilvl : Int
  ttt : ℚ
  stype : Int
  paug : Option Int
  fc : Int
  iodP : Int
  sys : List (Sys × ExtSys)
  deriving DecidableEq

/-- lines 3556-3566 -/
def extSat (b : BitBuf) (i : Nat) : Py (ExtSat × Nat) := do
  let v ← flds b i (us [4, 5, 4, 4, 5, 4])
  return (⟨el v 0, el v 1, el v 2, el v 3, el v 4, el v 5⟩, i + 26)

/-- lines 3486-3536 -/
def extSys (b : BitBuf) (sys : Sys) (i : Nat) : Py (ExtSys × Nat) := do
  let a ← flds b i (us [4, 4])
  let v ← flds b (i + 8) (us [4, 5, 4, 5, 4, 4])
  let m ← flds b (i + 34) (us [64])
  let (l, i) ← sats sys (extSat b) (maskOf (el m 0) 64 1) (i + 98)
  return (⟨el a 0, el a 1, el v 0, el v 1, el v 2, el v 3, el v 4, el v 5, l⟩, i)

/-- the optional probability: lines 3459-3465 -/
def extPaug (b : BitBuf) (i : Nat) : Py (Option Int × Nat) := do
  let f ← flds b i (us [1])
  if el f 0 ≠ 0 then
    let p ← flds b (i + 1) (us [4])
    return (some (el p 0), i + 5)
  else return (none, i + 1)

/-- `decode_integrity_ext`: lines 3436-3568; the cursor moves by 82 bits over three fields of 30 bits -/
def decodeExt (mt : Nat) (b : BitBuf) (i : Nat) : Py (Head × Ext × Nat) := do
  let (h, i) ← decodeHead mt b i
  let v ← flds b i (us [8, 7, 15])
  let i := i + 82
  let m ← flds b i (us [16])
  let (paug, i) ← extPaug b (i + 16)
  let c ← flds b i (us [1, 6])
  let (l, i) ← consts (extSys b) (el m 0) (i + 7)
  return (h, ⟨el v 0, (el v 1 + 1) * (1 / 10), el v 2, paug, el c 0, el c 1, l⟩, i)

/-- `decode_integrity_ext_sis_local`: lines 3570-3650.  `[0]` is applied to the tuple, so that the three names are unpacked from an integer. -/
def decodeSisLocal (mt : Nat) (b : BitBuf) (i : Nat) : Py (Head × Nat) := do
  let (_, i) ← decodeHead mt b i
  let _ ← flds b i (us [6, 16, 1])
  .error .typeError

/-! ### service area -/

structure Area where
  atype : Int
  iodSa : Int
  cf : Int
  fT : Int
  seq : Int
  /-- `f_ir`, `f_ttd`, `f_exs` of the extended message -/
  ext : Option (Int × Int × Int)
  /-- rows of `pos_v`; `none`: `pos_v` is left as it was -/
  pos : Option (List (Val × Val × Val))
  deriving DecidableEq

def deg (u : Int) (n : Nat) : Val := sval u n (11 / 10 ^ 9)

/-- lines 3683-3694 -/
def areaPoint (b : BitBuf) (i : Nat) : Py ((Val × Val × Val) × Nat) := do
  let v ← flds b i [(34, true), (35, true)]
  return ((deg (el v 0) 34, deg (el v 1) 35, some 0), i + 69)

/-- lines 3661-3676 -/
def areaHead (ext : Bool) (b : BitBuf) (i : Nat) : Py ((Int × Int × Option (Int × Int × Int)) × Nat) := do
  if ext then
    let s ← flds b i (us [5])
    let v ← flds b (i + 5) (us [2, 2, 3, 3])
    return ((el v 2, el s 0, some (el v 0, el v 1, el v 3)), i + 15)
  else
    let t ← flds b i (us [3])
    let s ← flds b (i + 3) (us [5])
    return ((el t 0, el s 0, none), i + 8)

/-- lines 3678-3705 -/
def areaPos (atype : Int) (b : BitBuf) (i : Nat) : Py (Option (List (Val × Val × Val)) × Nat) := do
  if atype = 1 then
    let n ← flds b i (us [8])
    let (l, i) ← rows (areaPoint b) (el n 0).toNat (i + 8)
    return (some l, i)
  else if atype = 0 then
    let v ← flds b i [(34, true), (35, true), (20, false)]
    return (some [(deg (el v 0) 34, deg (el v 1) 35, some (el v 2 : ℚ))], i + 89)
  else return (none, i)

/-- `decode_integrity_service_area`: lines 3652-3706 -/
def decodeArea (mt : Nat) (ext : Bool) (b : BitBuf) (i : Nat) : Py (Head × Area × Nat) := do
  let (h, i) ← decodeHead mt b i
  let v ← flds b i (us [2, 6, 1])
  let (x, i) ← areaHead ext b (i + 9)
  let (pos, i) ← areaPos (el v 0) b i
  return (h, ⟨el v 0, el v 1, el v 2, x.1, x.2.1, x.2.2, pos⟩, i)

/-! ### quality indicator -/

/-- lines 3722-3724 -/
def quality (b : BitBuf) (i : Nat) : Py (ℚ × Nat) := do
  let v ← flds b i (us [8])
  return (el v 0 * (1 / 10), i + 8)

/-- `decode_integrity_quality`: lines 3708-3725; network and indicators -/
def decodeQuality (mt : Nat) (b : BitBuf) (i : Nat) : Py (Head × (Int × List ℚ) × Nat) := do
  let (h, i) ← decodeHead mt b i
  let v ← flds b i (us [8, 8])
  let (l, i) ← rows (quality b) (maskOf (el v 1) 8 0).length (i + 16)
  return (h, (el v 0, l), i)

/-! ### carrier to noise and gain control -/

/-- lines 3761-3768 -/
def cnrSig (b : BitBuf) (_ : Nat) (i : Nat) : Py ((Int × Int × Int) × Nat) := do
  let v ← flds b i (us [8, 1, 8])
  return ((el v 0, el v 1, el v 2), i + 17)

/-- lines 3756-3768; signal number, then ratio, kind and gain -/
def cnrSat (b : BitBuf) (i : Nat) : Py (List (Nat × Int × Int × Int) × Nat) := do
  let m ← flds b i (us [8, 2])
  each (cnrSig b) (maskOf (el m 0) 8 0) (i + 10)

def cnrSys (b : BitBuf) (sys : Sys) (i : Nat) : Py (List (Int × List (Nat × Int × Int × Int)) × Nat) := do
  let m ← flds b i (us [64, 2])
  sats sys (cnrSat b) (maskOf (el m 0) 64 1) (i + 66)

/-- `decode_integrity_cnr_acg`: lines 3727-3770; the entries of the constellations of the message are replaced in the dictionaries -/
def decodeCnr (mt : Nat) (b : BitBuf) (i : Nat) : Py (Head × List (Sys × List (Int × List (Nat × Int × Int × Int))) × Nat) := do
  let (h, i) ← decodeHead mt b i
  let m ← flds b i (us [16])
  let (l, i) ← consts (cnrSys b) (el m 0) (i + 16)
  return (h, l, i)

/-- `cnr_lvl`: lines 268-278 -/
def cnrLvl (idx : Int) : ℚ :=
  if idx > 0 ∧ idx < 20 then idx - 1
  else if idx < 245 then 19 + (idx - 20) * (2 / 10)
  else 64 + (idx - 245)

/-! ### maps -/

/-- lines 3805-3810: azimuth and mask of a slice -/
def slices (b : BitBuf) : Nat → Int → Nat → Py (List (Int × Int) × Nat)
  | 0, _, i => return ([], i)
  | n + 1, az, i => do
    let v ← flds b i (us [9, 7])
    let az := az + el v 0
    let (r, i) ← slices b n az (i + 16)
    return ((az, el v 1) :: r, i)

/-- lines 3790-3813: position and slices -/
def vmapArea (b : BitBuf) (i : Nat) : Py (((ℚ × ℚ × ℚ) × List (Int × Int)) × Nat) := do
  let v ← flds b i [(34, true), (35, true), (14, true), (6, false)]
  let (l, i) ← slices b (el v 3).toNat 0 (i + 89)
  return (((el v 0 * (11 / 10 ^ 9), el v 1 * (11 / 10 ^ 9), (el v 2 : ℚ)), l), i)

/-- `decode_integrity_vmap`: lines 3772-3815; continuation flag, sequence number, areas -/
def decodeVmap (mt : Nat) (b : BitBuf) (i : Nat) : Py (Head × (Int × Int × List ((ℚ × ℚ × ℚ) × List (Int × Int))) × Nat) := do
  let (h, i) ← decodeHead mt b i
  let v ← flds b i (us [8, 1, 5])
  let (l, i) ← rows (vmapArea b) (el v 0).toNat (i + 14)
  return (h, (el v 1, el v 2, l), i)

/-- `mu_k_t`, `sig_k_t`: lines 146-150 -/
def muK : List ℚ := [0, 4 / 100, 7 / 100, 10 / 100, 20 / 100, 30 / 100, 50 / 100, 1, 2, 5, 10, 20, 50, 80, 100, -1]
def sigK : List ℚ := [0, 4 / 100, 7 / 100, 10 / 100, 20 / 100, 25 / 100, 30 / 100, 40 / 100, 50 / 100, 70 / 100, 1, 2, 5, 7, 10, -1]

/-- lines 3855-3867 -/
def gmm (b : BitBuf) (i : Nat) : Py (List ℚ × Nat) := do
  let v ← flds b i (us [4, 4, 4])
  let e ← pyGet muK (el v 1).toNat
  let s ← pyGet sigK (el v 2).toNat
  return ([el v 0 * (625 / 10000), e, s], i + 12)

/-- lines 3877-3890 -/
def mbm (jm : Bool) (b : BitBuf) (sig : Nat) (i : Nat) : Py (List ℚ × Nat) := do
  let v ← flds b i [(4, false), (5, true), (5, true)]
  let a ← pyGet sigK (el v 0).toNat
  if jm then
    let d ← flds b (i + 14) (us [8])
    return ([(sig : ℚ), a, el v 1 * (25 / 100), el v 2 * (625 / 10000), el d 0 * (3515625 / 10 ^ 7)], i + 22)
  else return ([(sig : ℚ), a, el v 1 * (25 / 100), el v 2 * (625 / 10000)], i + 14)

/-- lines 3837-3892: position and parameters of an area; `none`: no parameters are stored -/
def mmapArea (id : Int) (b : BitBuf) (i : Nat) : Py (((ℚ × ℚ × ℚ) × Option (List (List ℚ))) × Nat) := do
  let m ← if id = 1 ∨ id = 2 then flds b i (us [8]) else .ok []
  let i := if id = 1 ∨ id = 2 then i + 8 else i
  let v ← flds b i [(34, true), (35, true), (14, true)]
  let i := i + 83
  let pos : ℚ × ℚ × ℚ := (el v 0 * (11 / 10 ^ 9), el v 1 * (11 / 10 ^ 9), (el v 2 : ℚ))
  if id = 0 then
    let n ← flds b i (us [2])
    let (l, i) ← rows (gmm b) (el n 0).toNat (i + 2)
    return ((pos, some l), i)
  else if id = 1 ∨ id = 2 then
    let (l, i) ← each (mbm (id = 2) b) (maskOf (el m 0) 8 0) i
    return ((pos, some (l.map (·.2))), i)
  else return ((pos, none), i)

/-- `decode_integrity_mmap`: lines 3817-3894; model, continuation flag, sequence number, areas -/
def decodeMmap (mt : Nat) (b : BitBuf) (i : Nat) :
    Py (Head × (Int × Int × Int × List ((ℚ × ℚ × ℚ) × Option (List (List ℚ)))) × Nat) := do
  let (h, i) ← decodeHead mt b i
  let v ← flds b i (us [8, 3, 1, 5])
  let (l, i) ← rows (mmapArea (el v 1) b) (el v 0).toNat (i + 17)
  return (h, (el v 1, el v 2, el v 3, l), i)

/-! ### integrity of SSR -/

structure Ssr where
  pidssr : Int
  sidssr : Int
  iodssr : Int
  /-- issue of the mask and flags of the satellites -/
  sys : List (Sys × Int × List (Int × Int))
  /-- excluded satellites -/
  satE : List Int
  deriving DecidableEq

/-- lines 3921-3922 -/
def ssrSat (b : BitBuf) (i : Nat) : Py (Int × Nat) := do
  let v ← flds b i (us [2])
  return (el v 0, i + 2)

/-- lines 3912-3922 -/
def ssrSys (b : BitBuf) (sys : Sys) (i : Nat) : Py ((Int × List (Int × Int)) × Nat) := do
  let m ← flds b i (us [64, 2])
  let (l, i) ← sats sys (ssrSat b) (maskOf (el m 0) 64 1) (i + 66)
  return ((el m 1, l), i)

/-- `decode_integrity_ssr`: lines 3896-3931; the list of exclusions is lines 3923-3924 -/
def decodeSsr (mt : Nat) (b : BitBuf) (i : Nat) : Py (Head × Ssr × Nat) := do
  let (h, i) ← decodeHead mt b i
  let p ← flds b i (us [16, 4, 4])
  let m ← flds b (i + 24) (us [16])
  let (l, i) ← consts (ssrSys b) (el m 0) (i + 40)
  return (h, ⟨el p 0, el p 1, el p 2, l, l.flatMap fun x => (x.2.2.filter fun y => y.2 = 1).map (·.1)⟩, i)

/-! ### encoder -/

/-- what `encode_integrity_ssr` reads: `integ.pid`, the provider, solution and issue of the SSR, `integ.tow`, `integ.vp`, `integ.udi`, and
constellations with issue and flags in the order of the dictionaries -/
structure Enc where
  ipid : Int
  pid : Int
  sid : Int
  iodssr : Int
  tow : ℚ
  vp : ℚ
  udi : ℚ
  sys : List (Sys × Int × List (Int × Int))

/-- `sys_r_tbl`: line 196 -/
def sysR : Sys → Py Int
  | .gps => .ok 0 | .glo => .ok 1 | .gal => .ok 2 | .bds => .ok 3 | .qzs => .ok 4 | .irn => .ok 5
  | _ => .error .keyError

/-- `int(x)` -/
def pyTrunc (x : ℚ) : Int := if 0 ≤ x then ⌊x⌋ else -⌊-x⌋

/-- `vp_r_tbl[int(vp)]`: lines 197 and 4382 -/
def vpR (vp : ℚ) : Py Int :=
  match vpTbl.findIdx? (· = pyTrunc vp) with
  | some k => .ok k
  | none => .error .keyError

/-- lines 4391-4393 -/
def svidOf (sat : Int) : Int := (sat2prn sat).2 - (if (sat2prn sat).1 = .qzs then 192 else 0)

/-- lines 4386-4401 -/
def encSys (p : Pos) (x : Sys × Int × List (Int × Int)) : Py Pos := do
  let m ← encodeMask (x.2.2.map fun y => svidOf y.1) 64 1
  let p ← putU p 64 m
  let p ← putU p 2 x.2.1
  x.2.2.foldlM (fun p y => putU p 2 y.2) p

/-- `encode_integrity_ssr`: lines 4354-4403 -/
def encodeSsr (e : Enc) (p : Pos) : Py Pos := do
  let g ← e.sys.mapM fun x => sysR x.1
  let mask ← encodeMask g 16 0
  let p ← putU p 12 e.ipid
  let p ← putU p 16 e.pid
  let p ← putU p 4 e.sid
  let p ← putU p 4 e.iodssr
  let p ← putU p 30 (pyTrunc (e.tow * 1000))
  let p ← putU p 16 mask
  let vp ← vpR e.vp
  let p ← putU p 4 vp
  let p ← putU p 16 (pyTrunc (e.udi * 10))
  e.sys.foldlM encSys p

/-! ### metadata (MT60), antenna and total electron content -/

/-- `encode_ssr_metadata`: lines 4405-4418; issue, provider, solution, number of entries -/
def encodeMeta (iod pid sid nm : Int) (p : Pos) : Py Pos := do
  let p ← putU p 4 iod
  let p ← putU p 16 pid
  let p ← putU p 4 sid
  let p ← putU p 5 nm
  if nm = 0 then return (p.1, p.2 + 7) else return p

/-- the entry of `decode_ssr_metadata`: lines 2970-2998, the position after it -/
def metaEntry (b : BitBuf) (i : Nat) : Py Nat := do
  let v ← flds b i (us [5, 1, 1])
  let mi := el v 2 ≠ 0
  let i := if mi then i + 10 else i + 7
  let f ← flds b i (us [1])
  let i := if el f 0 ≠ 0 then i + 7 else i + 1
  let m ← if mi then flds b i (us [1]) else .ok [0]
  let i := if mi then i + 1 else i
  let mpi := el m 0 ≠ 0
  let n ← if mpi then flds b i (us [8]) else .ok [0]
  let i := if mpi then i + 8 + (el n 0).toNat else i
  if el v 0 = 7 then
    let _ ← flds b i (us [4, 4])
    return i + 8
  else return i

/-- `decode_ssr_metadata`: lines 2946-3000 -/
def decodeMeta (b : BitBuf) (i : Nat) : Py ((Int × Int × Int × Int) × Nat) := do
  let v ← flds b i (us [4, 16, 4, 5])
  let r := (el v 0, el v 1, el v 2, el v 3)
  if el v 3 = 0 then return (r, i + 36)
  else
    let j ← metaEntry b (i + 29)
    return (r, j)

end Verif.RtcmInteg
