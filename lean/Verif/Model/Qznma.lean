import Verif.Model.Sat
import Verif.Model.CopyBuff
/-! Model of the QZSS navigation message authentication decoder, class `qznma`
(`src/cssrlib/qznma.py`).

Byte strings are bit lists.  The signature verification and the public key files are parameters
(`Prim`), with no assumption about them except that the key files do not change.  Not modelled:
the text format of the recorded navigation files (`genfromtxt`: a load is given the messages of
one satellite in file order), printing, the state left behind by a call that raises. -/

namespace Verif.Qznma
open Verif.CopyBuff (copyBuff)
open Verif.Sat (Sys prn2sat sat2prn)

/-- `bytearray(n)` -/
def zeros (n : Nat) : BitBuf := List.replicate (8 * n) false

/-- `b[i:i+n] = v` for a non-negative byte index `i` -/
def setSlice (b : BitBuf) (i n : Nat) (v : BitBuf) : BitBuf :=
  b.take (8 * i) ++ v ++ b.drop (8 * (i + n))

/-- `b[i]` -/
def byteAt (b : BitBuf) (i : Nat) : Py Nat :=
  if 8 * i + 8 ≤ b.length then .ok (bitsToNat ((b.drop (8 * i)).take 8)) else .error .indexError

/-- the signature primitive and the key directory -/
structure Prim (PK : Type) where
  /-- `load_pubkey` of the file of a key number: osnma.py lines 51-75 -/
  loadKey : Nat → Py (Option PK)
  /-- `pk.verify(raw2der(ds), data)`; `false` is `InvalidSignature` -/
  sig : PK → BitBuf → BitBuf → Py Bool

/-- `NavMsg`: lines 43-58 (`sys`, `toe`, `toc`, `iodc` are only printed and left out) -/
structure NavMsg where
  navid : Nat
  iodn : Nat
  tow : Nat
  msg : BitBuf
  deriving DecidableEq

/-- `NavParam`: lines 60-87 -/
structure NavParam where
  keyid : Nat
  ds : BitBuf
  salt : Nat
  mt : Nat := 0
  nid : Nat := 0
  rtow : Nat := 0
  svid : Nat := 0
  iode1 : Nat := 0
  iode2 : Nat := 0
  iodc : Nat := 0
  deriving DecidableEq

/-- `{sat: {iodn: {mt: message}}}` -/
abbrev Store := Dict Int (Dict Nat (Dict Nat NavMsg))

/-- the fields of `qznma`: lines 92-114.  `navmode` is never changed (`navmodeT`). -/
structure St (PK : Type) where
  navmsg : Store := []
  pk : Option PK := none
  rds : Dict Int BitBuf := []
  flagE : Dict Int Nat := []
  mask : Dict Int Nat := []
  towP : Dict Int Int := []
  buff : Dict Int BitBuf := []
  vstatus : Dict Int (Dict Nat Nat) := []
  vcntMin : Nat := 1
  nsat : Dict Sys Nat := [(.gps, 0), (.gal, 0), (.qzs, 0)]
  satT : List Int := []
  npr : Dict Int (Option NavParam) := []

/-! `uNavId`: lines 30-39 -/
abbrev LNAV : Nat := 1
abbrev CNAV : Nat := 2
abbrev CNAV2 : Nat := 3
abbrev FNAV : Nat := 4
abbrev INAV : Nat := 5

/-- `self.navmode`: lines 108-110 -/
def navmodeT : Dict Sys Nat := [(.gps, LNAV), (.gal, INAV), (.qzs, LNAV)]

/-- keys of `self.cnav_mt_t` and their values: lines 112-113 -/
def cnavMtT : Dict Nat Nat :=
  [(10, 1), (11, 2), (30, 3), (31, 3), (32, 3), (33, 3), (35, 3), (36, 3), (37, 3), (61, 3)]

/-! ## Masked copies -/

/-- read a field, mask it, write it: the loop body of `lnav_to_mnav` (lines 323-327) and of the
three other functions -/
def maskCopy (src dst : BitBuf) (is id n mask : Nat) : Py BitBuf := do
  let d ← readU src is n
  writeU dst id n (d &&& mask)

/-- `mask_t` of `lnav_to_mnav`: lines 302-321 -/
def lnavMask (qzs : Bool) : List (List Nat) :=
  if qzs then
    [[0xfffffc, 0xffff80, 0xffffff, 0xffffff, 0xffffff, 0xffffff, 0xffffff, 0xffffff, 0xffffff, 0xfffffc],
     [0xfffffc, 0xffff80, 0xffffff, 0xffffff, 0xffffff, 0xffffff, 0xffffff, 0xffffff, 0xffffff, 0xfffffc],
     [0xfffffc, 0xffff80, 0xffffff, 0xffffff, 0xffffff, 0xffffff, 0xffffff, 0xffffff, 0xffffff, 0xfffffc]]
  else
    [[0xff0003, 0xfffffc, 0xffffff, 0xffffff, 0xffffff, 0xffffff, 0xffffff, 0xffffff, 0xffffff, 0xfffffc],
     [0xff0003, 0xfffffc, 0xffffff, 0xffffff, 0xffffff, 0xffffff, 0xffffff, 0xffffff, 0xffffff, 0xffff80],
     [0xff0003, 0xfffffc, 0xffffff, 0xffffff, 0xffffff, 0xffffff, 0xffffff, 0xffffff, 0xffffff, 0xfffffc]]

/-- `mask_t[sid][k]` -/
def entry (t : List (List Nat)) (sid k : Nat) : Nat := (t.getD sid []).getD k 0

/-- `lnav_to_mnav(msg, sys)`: lines 297-329 -/
def lnavToMnav (msg : BitBuf) (qzs : Bool) : Py BitBuf :=
  (List.range 3).foldlM (fun m sid => (List.range 10).foldlM (fun m k =>
    maskCopy msg m (sid * 320 + 32 * k + 2) (sid * 300 + 30 * k) 30
      (entry (lnavMask qzs) sid k * 2 ^ 6)) m) (zeros 113)

/-- `mask_t` of `cnav2_to_mnav`: lines 335-339 -/
def cnav2Mask : List Nat :=
  [0xffffffff, 0x7fffffff, 0xffffffff, 0xffffffff, 0xffffffff, 0xffffffff, 0xffffffff, 0xffffffff,
   0xffffffff, 0xffffffff, 0xffffffff, 0xffffffff, 0xffffffff, 0xffffffff, 0xffffffff, 0xffffffff,
   0xffffffff, 0xfffffbff]

/-- `cnav2_to_mnav(toi, msg)`: lines 331-349 -/
def cnav2ToMnav (toi : Nat) (msg : BitBuf) : Py BitBuf := do
  let m ← writeU (zeros 77) 0 9 toi
  (List.range 18).foldlM (fun m k =>
    maskCopy msg m (52 + 32 * k) (9 + 32 * k) 32 (cnav2Mask.getD k 0)) m

/-- `mask_t` of `cnav_to_mnav`: lines 356-378 -/
def cnavMask (qzs : Bool) : List (List Nat) :=
  if qzs then
    [[0xff03ffff, 0xfbffffff, 0xffffffff, 0xffffffff, 0xffffffff, 0xffffffff, 0xffffffff, 0xffffffff,
      0xfffef000],
     [0xff03ffff, 0xfbffffff, 0xffffffff, 0xffffffff, 0xffffffff, 0xffffffff, 0xffffffff, 0xffffffff,
      0xfffff000],
     [0xff03ffff, 0xfbffffff, 0xffffffff, 0xfffffffe, 0x00000000, 0x00000000, 0x00000000, 0x00000000,
      0x00000000]]
  else
    [[0xfffc0fff, 0xffffffff, 0xffffffff, 0xffffffff, 0xffffffff, 0xffffffff, 0xffffffff, 0xffffffff,
      0xfffff000],
     [0xfffc0fff, 0xffffffff, 0xffffffff, 0xffffffff, 0xffffffff, 0xffffffff, 0xffffffff, 0xffffffff,
      0xfffff000],
     [0xfffc0fff, 0xffffffff, 0xffffffff, 0xfffffffe, 0x00000000, 0x00000000, 0x00000000, 0x00000000,
      0x00000000]]

/-- `cnav_to_mnav(msg, sys)`: lines 351-386 -/
def cnavToMnav (msg : BitBuf) (qzs : Bool) : Py BitBuf :=
  (List.range 3).foldlM (fun m sid => (List.range 9).foldlM (fun m k =>
    maskCopy msg m (sid * 304 + 32 * k) (sid * 300 + 32 * k) 32
      (entry (cnavMask qzs) sid k)) m) (zeros 113)

/-- `mask_t` of `fnav_to_mnav`: lines 393-394 -/
def fnavMask : List Nat :=
  [0xffffffff, 0xffffffff, 0xffffffff, 0xffffffff, 0xffffffff, 0xffffffff, 0xfffffc00, 0x0003f]

/-- `fnav_to_mnav(msg)`: lines 388-402 -/
def fnavToMnav (msg : BitBuf) : Py BitBuf :=
  (List.range 4).foldlM (fun m sid => (List.range 8).foldlM (fun m k =>
    maskCopy msg m (sid * 248 + 32 * k) (sid * 244 + 32 * k) (if k < 7 then 32 else 20)
      (fnavMask.getD k 0)) m) (zeros 122)

/-! ## Integrity of assembled navigation messages -/

/-- `chk_gps_lnav`: lines 607-641; `none` is the returned `None` -/
def chkGpsLnav (buff : BitBuf) : Py (Option NavMsg) := do
  let id1 ← readU buff 53 3
  let id2 ← readU buff (320 + 53) 3
  let id3 ← readU buff (320 * 2 + 53) 3
  if id1 ≠ 1 ∨ id2 ≠ 2 ∨ id3 ≠ 3 then return none
  let iodcH ← readU buff (32 * 2 + 2 + 22) 2
  let iodcL ← readU buff (32 * 7 + 2) 8
  let iodc := iodcL ||| (iodcH <<< 8)
  let iode1 ← readU buff (320 + 32 * 2 + 2) 8
  let iode2 ← readU buff (320 * 2 + 32 * 9 + 2) 8
  if iode1 ≠ iode2 ∨ iode1 ≠ iodc &&& 0xff then return none
  let tow ← readU buff (32 + 2) 17
  let _ ← readU buff (32 * 7 + 8 + 2) 16
  let _ ← readU buff (32 * 9 + 2) 16
  return some { navid := LNAV, iodn := iode1, tow := tow * 6, msg := buff }

/-- `chk_gps_cnav`: lines 643-678 -/
def chkGpsCnav (buff : BitBuf) : Py (Option NavMsg) := do
  let id1 ← readU buff 14 6
  let id2 ← readU buff (304 + 14) 6
  let id3 ← readU buff (304 * 2 + 14) 6
  if id1 ≠ 10 ∨ id2 ≠ 11 ∨ ¬ cnavMtT.mem id3 then return none
  let tow1 ← readU buff 20 17
  let toe1 ← readU buff 70 11
  let toe2 ← readU buff (304 + 38) 11
  let toc ← readU buff (304 * 2 + 60) 11
  if toe1 ≠ toe2 ∨ toe1 ≠ toc then return none
  return some { navid := CNAV, iodn := toe1, tow := tow1 * 6, msg := buff }

/-- `if iodn not in self.navmsg[sat]: self.navmsg[sat][iodn] = {mode: navmsg}`: lines 140-142,
174-176, 702-704 -/
def storeFirst (st : Store) (sat : Int) (mode : Nat) (m : NavMsg) : Py Store := do
  let d ← Dict.getItem st sat
  if d.mem m.iodn then return st
  return st.set sat (d.set m.iodn [(mode, m)])

/-- `if sat not in self.navmsg: self.navmsg[sat] = {}` -/
def ensureSat (st : Store) (sat : Int) : Store := if st.mem sat then st else st.set sat []

/-- `self.navmsg[sat][iodn]` created if absent; nothing if the message type is there already,
otherwise stored: lines 212-234 and 281-295 -/
def storeAdd (st : Store) (sat : Int) (mode : Nat) (m : NavMsg) : Py Store := do
  let d ← Dict.getItem st sat
  let e := (d.get? m.iodn).getD []
  return st.set sat (d.set m.iodn (if e.mem mode then e else e.set mode m))

/-- loop body of `load_navmsg_lnav`: lines 128-142.  For `sid = 0` the slice `buff[-40:0]` starts
after its end, so the message is inserted before the last 40 bytes. -/
def loadLnavMsg (sat : Int) (a : Store × BitBuf) (msg : BitBuf) : Py (Store × BitBuf) := do
  let (st, buff) := a
  let sid ← readU msg 53 3
  if sid > 3 then return (st, buff)
  let buff := if sid = 0 then setSlice buff (buff.length / 8 - 40) 0 (msg.take 320)
    else setSlice buff ((sid - 1) * 40) 40 (msg.take 320)
  match ← chkGpsLnav buff with
  | none => return (st, buff)
  | some m => return (← storeFirst st sat LNAV m, buff)

/-- `load_navmsg_lnav` for the messages of one satellite: lines 116-142 -/
def loadLnav (st : Store) (prn : Int) (msgs : List BitBuf) : Py Store := do
  let sat := prn2sat .gps prn
  return (← msgs.foldlM (loadLnavMsg sat) (ensureSat st sat, zeros 120)).1

/-- loop body of `load_navmsg_cnav`: lines 156-176 -/
def loadCnavMsg (sat : Int) (a : Store × BitBuf) (msg : BitBuf) : Py (Store × BitBuf) := do
  let (st, buff) := a
  let _ ← readU msg 8 6
  let mt ← readU msg 14 6
  match cnavMtT.get? mt with
  | none => return (st, buff)
  | some sid =>
    let buff := setSlice buff ((sid - 1) * 38) 38 (msg.take 304)
    match ← chkGpsCnav buff with
    | none => return (st, buff)
    | some m => return (← storeFirst st sat CNAV m, buff)

/-- `load_navmsg_cnav` for the messages of one satellite: lines 144-176 -/
def loadCnav (st : Store) (prn : Int) (msgs : List BitBuf) : Py Store := do
  let sat := prn2sat .gps prn
  return (← msgs.foldlM (loadCnavMsg sat) (ensureSat st sat, zeros 114)).1

/-- loop body of `load_navmsg_fnav`: lines 190-234.  For `sid = 0` the indices are negative and
address the last of the four pages. -/
def loadFnavMsg (sat : Int) (a : Store × BitBuf) (msg : BitBuf) : Py (Store × BitBuf) := do
  let (st, buff) := a
  let sid ← readU msg 0 6
  if sid > 4 then return (st, buff)
  if msg.length < 248 then throw .indexError
  let buff := setSlice buff (if sid = 0 then 93 else (sid - 1) * 31) 31 (msg.take 248)
  let sid1 ← readU buff 0 6
  let iod1 ← readU buff 12 10
  let _ ← readU buff 22 14
  let sid2 ← readU buff 248 6
  let iod2 ← readU buff (248 + 6) 10
  let sid3 ← readU buff (248 * 2) 6
  let iod3 ← readU buff (248 * 2 + 6) 10
  let sid4 ← readU buff (248 * 3) 6
  let iod4 ← readU buff (248 * 3 + 6) 10
  if sid1 ≠ 1 ∨ sid2 ≠ 2 ∨ sid3 ≠ 3 ∨ sid4 ≠ 4 then return (st, buff)
  if iod1 ≠ iod2 ∨ iod1 ≠ iod3 ∨ iod1 ≠ iod4 then return (st, buff)
  let tow1 ← readU buff 167 20
  return (← storeAdd st sat FNAV { navid := FNAV, iodn := iod1, tow := tow1, msg := buff }, buff)

/-- `load_navmsg_fnav` for the messages of one satellite: lines 178-234 -/
def loadFnav (st : Store) (prn : Int) (msgs : List BitBuf) : Py Store := do
  let sat := prn2sat .gal prn
  return (← msgs.foldlM (loadFnavMsg sat) (ensureSat st sat, zeros 124)).1

/-- loop body of `load_navmsg_inav`: lines 249-295 -/
def loadInavMsg (sat : Int) (a : Store × BitBuf) (msg : BitBuf) : Py (Store × BitBuf) := do
  let (st, buff) := a
  let sid ← readU msg 2 6
  let _ ← readU msg 8 10
  if sid = 0 ∨ sid > 5 then return (st, buff)
  let j := (sid - 1) * 16 * 8
  let buff ← copyBuff msg buff 2 j 112
  let buff ← copyBuff msg buff 122 (j + 112) 16
  let sid1 ← readU buff 0 6
  let iod1 ← readU buff 6 10
  let sid2 ← readU buff 128 6
  let iod2 ← readU buff (128 + 6) 10
  let sid3 ← readU buff (128 * 2) 6
  let iod3 ← readU buff (128 * 2 + 6) 10
  let sid4 ← readU buff (128 * 3) 6
  let iod4 ← readU buff (128 * 3 + 6) 10
  let sid5 ← readU buff (128 * 4) 6
  let tow ← readU buff (128 * 4 + 85) 20
  if sid ≠ 5 ∨ sid1 ≠ 1 ∨ sid2 ≠ 2 ∨ sid3 ≠ 3 ∨ sid4 ≠ 4 ∨ sid5 ≠ 5 then return (st, buff)
  if iod1 ≠ iod2 ∨ iod1 ≠ iod3 ∨ iod1 ≠ iod4 then return (st, buff)
  return (← storeAdd st sat INAV { navid := INAV, iodn := iod1, tow := tow, msg := buff }, buff)

/-- `load_navmsg_inav` for the messages of one satellite: lines 236-295 -/
def loadInav (st : Store) (prn : Int) (msgs : List BitBuf) : Py Store := do
  let sat := prn2sat .gal prn
  return (← msgs.foldlM (loadInavMsg sat) (ensureSat st sat, zeros 80)).1

/-! ## Authentication -/

/-- `svid2sat(svid)`: lines 408-419 -/
def svid2sat (svid : Nat) : Py Int :=
  if svid ≤ 63 then .ok (prn2sat .gps svid)
  else if svid ≤ 127 then .ok (prn2sat .gal (svid - 64))
  else if svid ≤ 191 then .ok (prn2sat .sbs svid)
  else if svid ≤ 202 then .ok (prn2sat .qzs svid)
  else .error .unboundLocal

/-- the branches of `decode_gnss_rds` that build the message to be verified: lines 464-499.
`cnav2_to_mnav` is called without its first argument. -/
def buildMnav (mt : Nat) (msg : BitBuf) (rtow : Nat) : Py BitBuf :=
  if mt = LNAV then do
    let m ← lnavToMnav msg false
    let m ← writeU m (300 * 0 + 30) 17 rtow
    let m ← writeU m (300 * 1 + 30) 17 (rtow + 1)
    writeU m (300 * 2 + 30) 17 (rtow + 2)
  else if mt = CNAV then do
    let m ← cnavToMnav msg false
    let m ← writeU m (300 * 0 + 20) 17 rtow
    let m ← writeU m (300 * 1 + 20) 17 (rtow + 1)
    writeU m (300 * 2 + 20) 17 (rtow + 2)
  else if mt = CNAV2 then .error .typeError
  else if mt = FNAV then do
    let m ← fnavToMnav msg
    let m ← writeU m (244 * 0 + 167) 20 rtow
    let m ← writeU m (244 * 1 + 194) 20 (rtow + 10)
    let m ← writeU m (244 * 2 + 186) 20 (rtow + 20)
    writeU m (244 * 3 + 189) 20 (rtow + 30)
  else if mt = INAV then writeU msg (128 * 4 + 85) 20 rtow
  else .error .unboundLocal

/-- the sixteen 32 bit words of the signature -/
def readBits (b : BitBuf) (i n : Nat) : Py BitBuf :=
  if i + n ≤ b.length then .ok ((b.drop i).take n) else .error .bitstruct

/-- `self.navmsg[sat][iode1][mt]` if all three keys exist -/
def lookup (st : Store) (sat : Int) (iode mt : Nat) : Option NavMsg :=
  (st.get? sat).bind fun d => (d.get? iode).bind fun e => e.get? mt

/-- `decode_gnss_rds(tow, msg, i)`: lines 421-501; `none` is `(None, None)` -/
def decodeGnssRds (st : Store) (msg : BitBuf) (i : Nat) : Py (Option (NavParam × BitBuf)) := do
  let nid ← readU msg i 4
  let rtow ← readU msg (i + 4) 20
  let svid ← readU msg (i + 24) 8
  let mt ← readU msg (i + 32) 4
  let iode1 ← readU msg (i + 36) 11
  let iode2 ← readU msg (i + 47) 11
  let iodc ← readU msg (i + 58) 11
  let keyid ← readU msg (i + 69) 8
  let ds ← readBits msg (i + 77) 512
  let salt ← readU msg (i + 589) 16
  let sat ← svid2sat svid
  if svid = 0 then return none
  match lookup st sat iode1 mt with
  | none => return none
  | some nm =>
    let mnav ← buildMnav mt nm.msg rtow
    return some ({ keyid, ds, salt, mt, nid, rtow, svid, iode1, iode2, iodc }, mnav)

/-- `self.pk` after the attempt to load it; `none` in the second component means the caller
returns `False`: lines 528-534 and 722-728 -/
def getKey {PK : Type} (p : Prim PK) (pk : Option PK) (keyid : Nat) : Py (Option PK) :=
  match pk with
  | some k => .ok (some k)
  | none => p.loadKey keyid

/-- `self.vstatus[sat][iode]` created as 1 or incremented: lines 552-558, 739-744 -/
def bump (v : Dict Int (Dict Nat Nat)) (sat : Int) (iode : Nat) : Dict Int (Dict Nat Nat) :=
  let d := (v.get? sat).getD []
  v.set sat (d.set iode (match d.get? iode with | none => 1 | some n => n + 1))

/-- `blen, mlen` of `verify_gnss_nav`: lines 505-514 -/
def gnssLen (mt : Nat) : Py (Nat × Nat) :=
  if mt = LNAV then .ok (125, 900)
  else if mt = CNAV then .ok (125, 900)
  else if mt = CNAV2 then .ok (89, 609)
  else if mt = FNAV then .ok (134, 976)
  else if mt = INAV then .ok (92, 640)
  else .error .unboundLocal

/-- `rand_` of `verify_gnss_nav`: lines 516-523 -/
def gnssRand (npr : NavParam) (mnav : BitBuf) : Py BitBuf := do
  let (blen, mlen) ← gnssLen npr.mt
  let r := zeros blen
  let r ← writeU r 0 4 npr.nid
  let r ← writeU r 4 20 npr.rtow
  let r ← writeU r 24 8 npr.svid
  let r ← writeU r 32 4 npr.mt
  let r ← writeU r 36 11 npr.iode1
  let r ← writeU r 47 11 npr.iode2
  let r ← writeU r 58 11 npr.iodc
  let r ← writeU r 69 8 npr.keyid
  let r ← copyBuff mnav r 0 77 mlen
  writeU r (77 + mlen) 16 npr.salt

/-- the bookkeeping of `verify_gnss_nav` after a good signature: lines 551-565 -/
def markGnss {PK : Type} (s : St PK) (sat : Int) (iode mt : Nat) : Py (St PK) := do
  let vstatus := bump s.vstatus sat iode
  let sys := (sat2prn sat).1
  let nsat := if s.nsat.mem sys then s.nsat else s.nsat.set sys 0
  if ¬ s.satT.contains sat then
    let nm ← Dict.getItem navmodeT sys
    if nm = mt then
      let n ← Dict.getItem nsat sys
      return { s with vstatus, nsat := nsat.set sys (n + 1), satT := s.satT ++ [sat] }
    else return { s with vstatus, nsat }
  else return { s with vstatus, nsat }

/-- `verify_gnss_nav(npr, mnav)`: lines 503-567 -/
def verifyGnss {PK : Type} (p : Prim PK) (s : St PK) (npr : NavParam) (mnav : BitBuf) :
    Py (St PK × Bool) := do
  let r ← gnssRand npr mnav
  let sat ← svid2sat npr.svid
  match ← getKey p s.pk npr.keyid with
  | none => return (s, false)
  | some pk =>
    let s := { s with pk := some pk }
    if ← p.sig pk npr.ds r then
      return (← markGnss s sat npr.iode1 npr.mt, true)
    else return (s, false)

/-- `blen, mlen` of `verify_qzss_nav`: lines 708-713 -/
def qzssLen (mode : Nat) : Py (Nat × Nat) :=
  if mode = LNAV then .ok (116, 900)
  else if mode = CNAV then .ok (137, 900)
  else if mode = CNAV2 then .ok (100, 609)
  else .error .unboundLocal

/-- `rand_ = bytearray(blen); rand_[0] = npr.keyid`: lines 717-718 -/
def keyByte (blen keyid : Nat) : Py BitBuf :=
  if keyid < 256 then .ok (splice (zeros blen) 0 (natToBits 8 keyid)) else .error .valueError

/-- `rand_` of `verify_qzss_nav`: lines 715-720 -/
def qzssRand (npr : NavParam) (msg : BitBuf) (mode : Nat) : Py BitBuf := do
  let (blen, mlen) ← qzssLen mode
  let r ← keyByte blen npr.keyid
  let r := setSlice r 1 ((mlen + 7) / 8) msg
  writeU r (8 + mlen) 16 npr.salt

/-- the bookkeeping of `verify_qzss_nav` after a good signature: lines 738-748 -/
def markQzss {PK : Type} (s : St PK) (sat : Int) (iode : Nat) : Py (St PK) := do
  let vstatus := bump s.vstatus sat iode
  if ¬ s.satT.contains sat then
    let n ← Dict.getItem s.nsat .qzs
    return { s with vstatus, nsat := s.nsat.set .qzs (n + 1), satT := s.satT ++ [sat] }
  else return { s with vstatus }

/-- `verify_qzss_nav(sat, npr, msg, mode)`: lines 706-750; `npr` is `None` when no signature is
complete, and then its attributes do not exist -/
def verifyQzss {PK : Type} (p : Prim PK) (s : St PK) (sat : Int) (npr : Option NavParam)
    (msg : BitBuf) (mode : Nat) : Py (St PK × Bool) := do
  match npr with
  | none => throw .attributeError
  | some npr =>
    let r ← qzssRand npr msg mode
    match ← getKey p s.pk npr.keyid with
    | none => return (s, false)
    | some pk =>
      let s := { s with pk := some pk }
      if ← p.sig pk npr.ds r then return (← markQzss s sat npr.iode1, true)
      else return (s, false)

/-- the pages of the signature: lines 572-594, result is the buffer and the new mask -/
def rdsPage (rds : BitBuf) (mask : Nat) (mode : Nat) (msg : BitBuf) : Py (BitBuf × Nat) :=
  if mode = LNAV then do
    let sid ← readU msg (32 * 2 + 2 + 8) 2
    let d ← readU msg (32 * 2 + 2 + 10) 14
    if sid > 0 then
      let i0 := (sid - 1) * 180
      let rds ← writeU rds i0 14 d
      let rds ← (List.range 7).foldlM (fun r k => do
        let d ← readU msg (32 * (k + 3) + 2) 24
        writeU r (i0 + 14 + 24 * k) 24 d) rds
      return (rds, mask ||| 1 <<< (sid - 1))
    else return (rds, mask)
  else if mode = CNAV then do
    let sid ← readU msg 38 2
    if sid > 0 then
      return (← copyBuff msg rds 40 ((sid - 1) * 236) 236, mask ||| 1 <<< (sid - 1))
    else return (rds, mask)
  else if mode = CNAV2 then do
    let sid ← readU msg 1266 2
    if sid > 0 then
      return (← copyBuff msg rds 1268 ((sid - 1) * 234) 234, mask ||| 1 <<< (sid - 1))
    else return (rds, mask)
  else return (rds, mask)

/-- `gen_rds(sat, mode, msg)`: lines 569-605 -/
def genRds {PK : Type} (s : St PK) (sat : Int) (mode : Nat) (msg : BitBuf) :
    Py (St PK × Option NavParam) := do
  let (rds, mask) ← rdsPage (← Dict.getItem s.rds sat) (← Dict.getItem s.mask sat) mode msg
  let s := { s with rds := s.rds.set sat rds, mask := s.mask.set sat mask }
  if mask = 7 then
    let keyid ← byteAt rds 0
    let h ← byteAt rds 65
    let l ← byteAt rds 66
    return (s, some { keyid, ds := (rds.drop 8).take 512, salt := (h <<< 8) ||| l, mt := mode })
  else return (s, none)

/-- the buffer of a satellite seen for the first time: lines 684-686 -/
def ensureBuff {PK : Type} (s : St PK) (sat : Int) : St PK :=
  if s.buff.mem sat then s
  else { s with buff := s.buff.set sat (zeros 120), navmsg := s.navmsg.set sat [] }

/-- the integrity check of `msg2nav`: lines 693-698 -/
def chkNav (mode : Nat) (b : BitBuf) : Py (Option NavMsg) :=
  if mode = LNAV then chkGpsLnav b else if mode = CNAV then chkGpsCnav b else .ok none

/-- `msg2nav(sat, i0, msg, mode)`: lines 680-704 -/
def msg2nav {PK : Type} (s : St PK) (sat : Int) (i0 : Nat) (msg : BitBuf) (mode : Nat) :
    Py (St PK) := do
  let blen := if mode = LNAV then 40 else 38
  let s := ensureBuff s sat
  let b ← Dict.getItem s.buff sat
  let b := setSlice b ((i0 - 1) * blen) blen (msg.take (8 * blen))
  let f ← Dict.getItem s.flagE sat
  let s := { s with buff := s.buff.set sat b, flagE := s.flagE.set sat (f ||| 1 <<< (i0 - 1)) }
  match ← chkNav mode b with
  | none => return s
  | some nm => return { s with navmsg := ← storeFirst s.navmsg sat mode nm }

/-- the dictionary entries of a satellite seen for the first time: lines 786-791 -/
def initSat {PK : Type} (s : St PK) (sat : Int) : St PK :=
  if s.flagE.mem sat then s
  else { s with flagE := s.flagE.set sat 0, towP := s.towP.set sat (-1), mask := s.mask.set sat 0,
                npr := s.npr.set sat none, rds := s.rds.set sat (zeros 89) }

/-- a signature page: `gen_rds` and the bookkeeping of a completed one (lines 802-807, 829-834,
857-861); `clear` is whether `flag_e` is reset too -/
def rdsStep {PK : Type} (s : St PK) (sat : Int) (mode : Nat) (msg : BitBuf) (tow : Int)
    (clear : Bool) : Py (St PK) := do
  let (s, npr) ← genRds s sat mode msg
  let s := { s with npr := s.npr.set sat npr }
  if (← Dict.getItem s.mask sat) = 7 then
    let s := { s with towP := s.towP.set sat tow, mask := s.mask.set sat 0 }
    return if clear then { s with flagE := s.flagE.set sat 0 } else s
  else return s

/-- lines 814 and 842 -/
def mnavOf (mode : Nat) (b : BitBuf) : Py BitBuf :=
  if mode = LNAV then lnavToMnav b true else cnavToMnav b true

/-- verification once three messages are collected: lines 812-821 and 840-849 -/
def collected {PK : Type} (p : Prim PK) (s : St PK) (sat : Int) (mode : Nat) : Py (St PK) := do
  if (← Dict.getItem s.flagE sat) = 7 then
    let s := { s with flagE := s.flagE.set sat 0 }
    let b ← Dict.getItem s.buff sat
    let mnav ← mnavOf mode b
    return (← verifyQzss p s sat (← Dict.getItem s.npr sat) mnav mode).1
  else return s

/-- an LNAV sub-frame: lines 799-810 -/
def lnavIn {PK : Type} (s : St PK) (sat : Int) (sid : Nat) (tow ki : Int) (msg : BitBuf) :
    Py (St PK) :=
  if sid = 4 ∨ sid = 5 then do
    let _ ← readU msg (32 * 2 + 2) 2
    let svid ← readU msg (32 * 2 + 4) 6
    if svid = 60 then rdsStep s sat LNAV msg tow true else pure s
  else if ki = 1 ∨ ki = 2 ∨ ki = 3 then msg2nav s sat ki.toNat msg LNAV
  else pure s

/-- a CNAV message: lines 829-838 -/
def cnavIn {PK : Type} (s : St PK) (sat : Int) (msgid : Nat) (tow ki : Int) (msg : BitBuf) :
    Py (St PK) :=
  if msgid = 60 then rdsStep s sat CNAV msg tow true
  else if ki = 1 ∨ ki = 2 ∨ ki = 3 then msg2nav s sat ki.toNat msg CNAV
  else pure s

/-- one authentication record of the L6 message: lines 880-883 -/
def verifyRec {PK : Type} (p : Prim PK) (s : St PK) (r : Option (NavParam × BitBuf)) : Py (St PK) :=
  match r with
  | some (npr, mnav) => do return (← verifyGnss p s npr mnav).1
  | none => .ok s

/-- `decode`, the part for the navigation message `msg`: lines 784-871 -/
def decodeNav {PK : Type} (p : Prim PK) (s : St PK) (msg : BitBuf) (sat : Int) (navmode : Nat) :
    Py (St PK) := do
  let s := initSat s sat
  if navmode = LNAV then
    let sid ← readU msg 53 3
    let tow ← readU msg (32 + 2) 17
    let tow : Int := tow * 6
    let ki := Int.fdiv (tow - (← Dict.getItem s.towP sat)) 6
    let s ← lnavIn s sat sid tow ki msg
    collected p s sat LNAV
  else if navmode = CNAV then
    let msgid ← readU msg 14 6
    let tow ← readU msg 20 17
    let _ ← readU msg 37 1
    let tow : Int := tow * 6
    let ki := Int.fdiv (tow - (← Dict.getItem s.towP sat)) 6
    let s ← cnavIn s sat msgid tow ki msg
    collected p s sat CNAV
  else if navmode = CNAV2 then
    let toi ← readU msg 0 9
    let itow ← readU msg 65 8
    let tow : Int := itow * 7200 + toi * 18
    let _ ← readU msg 1252 8
    let page ← readU msg 1260 6
    if page = 60 then rdsStep s sat CNAV2 msg tow false
    else if tow = (← Dict.getItem s.towP sat) + 18 then do
      let mnav ← cnav2ToMnav toi msg
      return (← verifyQzss p s sat (← Dict.getItem s.npr sat) mnav CNAV2).1
    else return s
  else return s

/-- `decode`, the part for the L6 message `msg_n`: lines 873-883 -/
def decodeL6 {PK : Type} (p : Prim PK) (s : St PK) (msgN : BitBuf) : Py (St PK) := do
  let mid ← readU msgN 40 8
  let _ ← readU msgN 48 1
  if (mid >>> 5) &&& 0x7 = 3 then
    let r1 ← decodeGnssRds s.navmsg msgN 49
    let r2 ← decodeGnssRds s.navmsg msgN (49 + 605)
    let s ← verifyRec p s r1
    verifyRec p s r2
  else return s

/-- `decode(tow, msg, msg_n, sat, navmode)`: lines 779-885; `tow` is only printed -/
def decode {PK : Type} (p : Prim PK) (s : St PK) (msg msgN : Option BitBuf) (sat : Int)
    (navmode : Nat) : Py (St PK) := do
  let s ← (msg.map fun m => decodeNav p s m sat navmode).getD (.ok s)
  (msgN.map fun m => decodeL6 p s m).getD (.ok s)

/-- `count_valid_sat()`: lines 752-761 -/
def countValidSat {PK : Type} (s : St PK) : Nat :=
  (s.vstatus.filter fun e => e.2.any fun q => decide (s.vcntMin ≤ q.2)).length

end Verif.Qznma
