import Verif.Model.Sat
import Verif.Model.Time
import Verif.Model.CopyBuff
/-! Model of the Galileo OSNMA decoder, class `osnma` (`src/cssrlib/osnma.py`).

Byte strings are bit lists (`BitBuf`), so `x[i:j]` is a slice of `8*(j-i)` bits.  The hash, the
message authentication codes, the ECDSA verification and the decompression of public keys are
parameters (`Prim`), with no assumption about them.  Not modelled: reading the XML file of public
keys (`load_mt`: the keys and the tree root are part of the initial state), printing and logging,
the sharing of class-level buffers between several `osnma` objects, the state left behind by a
call that raises.  Satellite numbers outside 1..36 are modelled as an `IndexError`. -/

namespace Verif.Osnma
open Verif.CopyBuff (copyBuff)

/-- `b[i:j]` -/
def slice (b : BitBuf) (i j : Nat) : BitBuf := (b.drop (8 * i)).take (8 * (j - i))

/-- `b[i:j] = v` for `i ≤ j` -/
def setSlice (b : BitBuf) (i j : Nat) (v : BitBuf) : BitBuf := b.take (8 * i) ++ v ++ b.drop (8 * j)

/-- `b[i]` -/
def byteAt (b : BitBuf) (i : Nat) : Py Nat :=
  if 8 * i + 8 ≤ b.length then .ok (bitsToNat ((b.drop (8 * i)).take 8)) else .error .indexError

/-- `b[i] = v[0]` -/
def setByte (b : BitBuf) (i : Nat) (v : BitBuf) : Py BitBuf :=
  if 8 ≤ v.length ∧ 8 * i + 8 ≤ b.length then .ok (splice b (8 * i) (v.take 8))
  else .error .indexError

/-- `bytearray(n)` -/
def zeros (n : Nat) : BitBuf := List.replicate (8 * n) false

/-- the cryptographic primitives -/
structure Prim (PK : Type) where
  /-- `process_hash` with SHA-256 (0) or SHA3-256 (2) -/
  hash : Int → BitBuf → BitBuf
  /-- HMAC-SHA-256 (0) or CMAC-AES (1) of a message under a key; may raise for a bad key size -/
  mac : Int → BitBuf → BitBuf → Py BitBuf
  /-- `pk.verify` with key, signature, message, hash function; `false` is `InvalidSignature` -/
  sig : PK → BitBuf → BitBuf → Int → Py Bool
  /-- `from_encoded_point` for curve type 1 or 3 -/
  point : Nat → BitBuf → Py PK

/-- `taginfo`: lines 89-113 -/
structure Tag where
  gstSf : BitBuf
  prnD : Nat
  prnA : Nat
  adkd : Nat
  tag : BitBuf
  cnt : Nat
  navmsg : Option BitBuf
  iodnav : Int
  deriving DecidableEq

/-- the fields of `osnma`; `status` is split into its bits -/
structure St (PK : Type) where
  rootLoaded : Bool := false
  rootVerified : Bool := false
  chainVerified : Bool := false
  utcVerified : Bool := false
  posAuth : Bool := false
  pkrUpdated : Bool := false
  cid0 : Int := -1
  dsm : Dict Nat BitBuf := []
  flgDsm : Dict Nat Nat := []
  nb : Dict Nat Nat := []
  did0 : Nat := 0
  nmaHeader : Nat := 0
  pkid : Int := -1
  hf : Int := -1
  mf : Int := -1
  ks : Int := -1
  ts : Int := -1
  maclt : Int := -1
  wn : Int := -1
  towh : Int := -1
  alp : BitBuf := zeros 6
  ds : BitBuf := zeros 64
  kroot : BitBuf := zeros 16
  key : BitBuf := zeros 16
  keyP : BitBuf := zeros 16
  keyC : BitBuf := zeros 16
  gstSfC : BitBuf := zeros 4
  gstSf : BitBuf := zeros 4
  gstTow : Int := -1
  gstSfP : BitBuf := zeros 4
  nt : Nat := 0
  cnt : Nat → Nat := fun _ => 0
  hk : Nat → BitBuf := fun _ => zeros 15
  mack : Nat → BitBuf := fun _ => zeros 60
  tag : BitBuf := zeros 42
  mackP : Nat → BitBuf := fun _ => zeros 60
  mackC : Nat → BitBuf := fun _ => zeros 60
  tagList : List Tag := []
  rootMt : Option BitBuf := none
  pkList : Dict Int (Option PK) := []
  flgSlow : Bool := false
  nsat : Nat := 0
  prnA : Option Nat := none
  subfrm : Dict Int BitBuf := []
  subfrmN : Dict Int BitBuf := []
  subfrmP : Dict Int BitBuf := []
  vstatus : Dict (Nat × Int) Nat := []
  vcntMin : Nat := 1

/-- `klen_t`, `npk_len_t`, `tag_len_t`: lines 119-121 -/
def klenT : List Nat := [96, 104, 112, 120, 128, 160, 192, 224, 256]
def npkLenT : List Nat := [0, 264, 0, 536, 0]
def tagLenT : List Nat := [0, 0, 0, 0, 0, 20, 24, 28, 32, 40, 0, 0, 0, 0, 0, 0]

/-- `mode_t`: lines 123-136 -/
def modeT : Dict Int (List Nat) :=
  [(27, [1, 0, 0, 0, 1, 0, 1, 0, 0, 1, 1, 0]),
   (28, [1, 0, 0, 0, 1, 0, 0, 1, 0, 0, 1, 0, 0, 1, 0, 0, 1, 1, 0, 0]),
   (31, [1, 0, 0, 1, 0, 1, 0, 0, 1, 1]),
   (33, [1, 0, 1, 0, 1, 0, 1, 0, 0, 1, 0, 0]),
   (34, [1, 2, 1, 2, 1, 0, 1, 2, 0, 1, 0, 0]),
   (35, [1, 2, 1, 2, 1, 2, 1, 2, 2, 1, 2, 2]),
   (36, [1, 2, 1, 2, 1, 1, 2, 0, 1, 0]),
   (37, [1, 0, 1, 0, 1, 1, 0, 0, 1, 0]),
   (38, [1, 2, 1, 2, 1, 1, 2, 2, 1, 2]),
   (39, [1, 2, 1, 2, 1, 2, 0, 1]),
   (40, [1, 0, 1, 1, 1, 0, 0, 0]),
   (41, [1, 2, 1, 2, 1, 2, 2, 1])]

/-- `adkd_t`: lines 138-151 -/
def adkdT : Dict Int (List Nat) :=
  [(27, [0, 0, 0, 0, 12, 0, 0, 0, 0, 4, 12, 0]),
   (28, [0, 0, 0, 0, 0, 0, 0, 12, 0, 0, 0, 0, 0, 0, 0, 0, 4, 12, 0, 0]),
   (31, [0, 0, 0, 12, 0, 0, 0, 0, 12, 4]),
   (33, [0, 0, 4, 0, 12, 0, 0, 0, 0, 12, 0, 12]),
   (34, [0, 0, 4, 0, 12, 0, 0, 0, 0, 12, 0, 12]),
   (35, [0, 0, 4, 0, 12, 0, 0, 0, 0, 12, 0, 0]),
   (36, [0, 0, 4, 0, 12, 0, 0, 0, 12, 12]),
   (37, [0, 0, 4, 0, 12, 0, 0, 0, 12, 0]),
   (38, [0, 0, 4, 0, 12, 0, 0, 0, 12, 0]),
   (39, [0, 0, 4, 0, 0, 0, 0, 12]),
   (40, [0, 0, 4, 12, 0, 0, 0, 12]),
   (41, [0, 0, 4, 0, 0, 0, 0, 12])]

variable {PK : Type}

/-- `bs.pack('u12u20', wn, tow)` -/
def packGst (wn tow : Int) : Py BitBuf :=
  if 0 ≤ wn ∧ wn < 4096 ∧ 0 ≤ tow ∧ tow < 1048576 then
    .ok (natToBits 12 wn.toNat ++ natToBits 20 tow.toNat)
  else .error .bitstruct

/-- `set_gst_sf`: lines 297-300 -/
def setGstSf (wn tow : Int) : Py BitBuf := packGst wn (tow / 30 * 30)

/-- `difftime`: lines 199-205 -/
def difftime (t1 t2 : BitBuf) : Py Int := do
  let wn1 ← readU t1 0 12
  let tow1 ← readU t1 12 20
  let wn2 ← readU t2 0 12
  let tow2 ← readU t2 12 20
  pure (((wn1 : Int) - wn2) * 604800 + ((tow1 : Int) - tow2))

/-- `time2gst(gpst2time(wn, tow))` for whole seconds, as called in `decode` (line 844) -/
def gstOf (wn tow : Int) : Int × Int :=
  let sec := (wn - 1024) * 604800 + tow
  let week := sec.tdiv 604800
  (week, sec - week * 604800)

/-- the `hash_table` lookup (line 122), then the digest: lines 290-295 -/
def processHash (p : Prim PK) (s : St PK) (msg : BitBuf) : Py BitBuf :=
  if s.hf = 0 ∨ s.hf = 2 then .ok (p.hash s.hf msg) else .error .keyError

/-- the message signed with the root key: line 316 -/
def rootMsg (s : St PK) (lkB : Nat) (d : BitBuf) : BitBuf :=
  natToBits 8 s.nmaHeader ++ slice d 1 (13 + lkB)

/-- `verify_root_key`: lines 310-332 -/
def verifyRootKey (p : Prim PK) (s : St PK) : Py (St PK × Bool) := do
  if ¬ s.rootLoaded then pure (s, false)
  else
    let lk ← pyGetI klenT s.ks
    let d ← s.dsm.getItem s.did0
    if ¬ (s.hf = 0 ∨ s.hf = 2) then throw .keyError
    else
      match s.pkList.get? s.pkid with
      | none => pure (s, false)
      | some none => throw .attributeError
      | some (some pk) => do
        let r ← p.sig pk s.ds (rootMsg s (lk / 8) d) s.hf
        if r then pure ({ s with rootVerified := true }, true) else pure (s, false)

/-- `verify_pdk`: lines 334-340 -/
def verifyPdk (p : Prim PK) (s : St PK) (pdk : BitBuf) (did : Nat) : Py Bool := do
  let lk ← pyGetI klenT s.ks
  let d ← s.dsm.getItem did
  let h ← processHash p s (rootMsg s (lk / 8) d ++ s.ds)
  pure (h.take pdk.length = pdk)

/-- `verify_pdp`: lines 342-347 -/
def verifyPdp (p : Prim PK) (s : St PK) (mi pdp : BitBuf) : Py Bool :=
  match s.rootMt with
  | none => .error .typeError
  | some r => do
    let h ← processHash p s (r ++ mi)
    pure (h.take pdp.length = pdp)

/-- loop of `update_key_chain`: lines 353-360; `k` is the loop counter, `n` the steps to go -/
def chainLoop (p : Prim PK) (s : St PK) (klenB : Nat) (tow0 : Int) :
    (n k : Nat) → (key : BitBuf) → (wn : Int) → Py BitBuf
  | 0, _, key, _ => pure key
  | n + 1, k, key, wn => do
    let tow := tow0 - 30 * (k + 1)
    let tow' := if tow < 0 then tow + 604800 else tow
    let wn' := if tow < 0 then wn - 1 else wn
    let gst ← packGst wn' tow'
    let h ← processHash p s (key ++ gst ++ s.alp)
    chainLoop p s klenB tow0 n (k + 1) (h.take (8 * klenB)) wn'

/-- `update_key_chain`: lines 349-361 -/
def updateKeyChain (p : Prim PK) (s : St PK) (key : BitBuf) (wn tow0 ki : Int) : Py BitBuf := do
  let lk ← pyGetI klenT s.ks
  chainLoop p s (lk / 8) tow0 ki.toNat 0 key wn

/-- number of steps to the root key: lines 371-372 -/
def stepsToRoot (s : St PK) (gstWn : Int) : Int :=
  ((gstWn - s.wn) * 86400 * 7 + (s.gstTow - s.towh * 3600)) / 30 + 1

/-- `verify_key_chain`: lines 363-381 -/
def verifyKeyChain (p : Prim PK) (s : St PK) (key : BitBuf) (gstWn tow0 : Int) :
    Py (St PK × Bool) := do
  if ¬ s.rootVerified then pure (s, false)
  else
    let r ← (if s.chainVerified then do
        let k ← updateKeyChain p s key gstWn tow0 1
        pure (decide (k = s.keyP))
      else do
        let k ← updateKeyChain p s key gstWn tow0 (stepsToRoot s gstWn)
        pure (decide (k = s.kroot)))
    pure ({ s with chainVerified := r }, r)

/-- `decode_dsm_kroot`: lines 383-416 -/
def decodeDsmKroot (p : Prim PK) (s : St PK) (did : Nat) : Py (St PK × Bool) := do
  let d ← s.dsm.getItem did
  let nb ← readU d 0 4
  let pkid ← readU d 4 4
  let hf ← readU d 12 2
  let mf ← readU d 14 2
  let ks ← readU d 16 4
  let ts ← readU d 20 4
  let maclt ← readU d 24 8
  let wn ← readU d 36 12
  let towh ← readU d 48 8
  let nb := nb + 6
  let s := { s with pkid := pkid, hf := hf, mf := mf, ks := ks, ts := ts, maclt := maclt,
                    wn := wn, towh := towh, alp := slice d 7 13 }
  let lk ← pyGet klenT ks
  if (nb : Int) * 104 - 104 - lk - 512 < 0 then pure (s, false)
  else
    let lpdk := nb * 104 - 104 - lk - 512
    let i := 13 + lk / 8
    let s := { s with kroot := slice d 13 i, ds := slice d i (i + 64) }
    let pdk := slice d (i + 64) (i + 64 + (lpdk + 7) / 8)
    let r ← verifyPdk p s pdk did
    if ¬ r then pure (s, false)
    else pure ({ s with rootLoaded := true, did0 := did }, true)

/-- the four hash steps of the Merkle tree check: lines 448-455 -/
def merkle (p : Prim PK) (s : St PK) (itn : BitBuf) : (n k mid : Nat) → BitBuf → Py BitBuf
  | 0, _, _, x => pure x
  | n + 1, k, mid, x => do
    let b := slice itn (k * 32) ((k + 1) * 32)
    let x ← processHash p s (if mid % 2 = 0 then x ++ b else b ++ x)
    merkle p s itn n (k + 1) (mid / 2) x

/-- `decode_dsm_pkr`: lines 418-466 -/
def decodeDsmPkr (p : Prim PK) (s : St PK) (did : Nat) : Py (St PK × Bool) := do
  let d ← s.dsm.getItem did
  let nb ← readU d 0 4
  let mid ← readU d 4 4
  if nb < 7 ∨ nb > 10 then pure (s, false)
  else
    let npkt ← readU d 1032 4
    let npkid ← readU d 1036 4
    if npkt > 4 ∨ npkt = 0 ∨ npkt = 2 then pure (s, false)
    else
      let lnpk ← (if npkt = 4 then pure (104 * (nb + 6) - 1040) else pyGet npkLenT npkt)
      let i0 := 130 + lnpk / 8
      let npk := slice d 130 i0
      if ((nb : Int) + 6) * 104 - 1040 - lnpk < 0 then pure (s, false)
      else
        let pdp := slice d i0 (i0 + ((nb + 6) * 104 - 1040 - lnpk) / 8)
        let m0 ← byteAt d 129
        let mi := natToBits 8 m0 ++ npk
        let ok ← verifyPdp p s mi pdp
        if ¬ ok then pure (s, false)
        else do
          let x ← processHash p s mi
          let x ← merkle p s (slice d 1 129) 4 0 mid x
          if ¬ (some x = s.rootMt) then pure (s, false)
          else do
            let pk ← (if npkt = 1 ∨ npkt = 3 then do
                let k ← p.point npkt npk
                pure (some k)
              else pure none)
            pure ({ s with pkList := s.pkList.set npkid pk, pkrUpdated := true }, true)

/-- a new DSM identifier: lines 491-494 -/
def hkInit (s : St PK) (did : Nat) : St PK :=
  if s.flgDsm.mem did then s else
    { s with flgDsm := s.flgDsm.set did 0, dsm := s.dsm.set did (zeros 250),
             nb := s.nb.set did 0 }

/-- a new chain starts over: lines 496-501 -/
def hkChain (s : St PK) (cid did : Nat) : St PK :=
  let s := if s.cid0 < 0 then { s with cid0 := cid } else s
  if (cid : Int) ≠ s.cid0 then { s with cid0 := cid, flgDsm := s.flgDsm.set did 0 } else s

/-- storing the block and checking for completeness: lines 503-518 -/
def hkPut (s : St PK) (did bid : Nat) (data : BitBuf) : Py (St PK × Option Nat) := do
  let d ← s.dsm.getItem did
  let f ← s.flgDsm.getItem did
  let f := f ||| 1 <<< bid
  let s := { s with dsm := s.dsm.set did (setSlice d (bid * 13) (bid * 13 + 13) data),
                    flgDsm := s.flgDsm.set did f }
  let h2 ← byteAt data 0
  let s := if bid = 0 then { s with nb := s.nb.set did (h2 / 16 + 6) } else s
  let nb ← s.nb.getItem did
  pure (s, if nb > 0 ∧ f = (1 <<< nb) - 1 then some did else none)

/-- first part of `decode_hk`: lines 470-518.  Stores the block; the second component is the DSM
identifier when its message is complete and is to be decoded. -/
def hkStore (s : St PK) (hk : BitBuf) : Py (St PK × Option Nat) := do
  let h0 ← byteAt hk 0
  let s := { s with nmaHeader := h0 }
  let nmas ← readU hk 0 2
  let cid ← readU hk 2 2
  let cpks ← readU hk 4 3
  let did ← readU hk 8 4
  let bid ← readU hk 12 4
  if nmas ≠ 1 ∧ nmas ≠ 2 then pure (s, none)
  else if cpks = 0 then pure (s, none)
  else hkPut (hkChain (hkInit s did) cid did) did bid (slice hk 2 15)

/-- `decode_hk`: lines 468-527 -/
def decodeHk (p : Prim PK) (s : St PK) (hk : BitBuf) : Py (St PK × Bool) := do
  let (s, o) ← hkStore s hk
  match o with
  | none => pure (s, false)
  | some did => do
    let (s, r) ← (if did ≤ 11 then decodeDsmKroot p s did else decodeDsmPkr p s did)
    if r then pure ({ s with flgDsm := s.flgDsm.set did 0 }, true) else pure (s, false)

/-- `decode_tags_info(0)`: lines 529-543; tag, MACSEQ with the low bits cleared, cut-off point -/
def tagsInfo0 (s : St PK) : Py (BitBuf × BitBuf) := do
  let lt ← pyGetI tagLenT s.ts
  let ltB := lt / 8
  let t := slice s.tag 0 (ltB + 2)
  let q := slice t ltB (ltB + 2)
  let _ ← byteAt q 1
  pure (slice t 0 ltB, q.take 12 ++ List.replicate 4 false)

/-- `decode_tags_info(k)` for `k > 0`: lines 544-556 -/
def tagsInfo (s : St PK) (k : Nat) : Py (BitBuf × Nat × Nat) := do
  let lt ← pyGetI tagLenT s.ts
  let ltB := lt / 8
  let i0 := k * (ltB + 2)
  let t := slice s.tag i0 (i0 + (ltB + 2))
  let q := slice t ltB (ltB + 2)
  let prnD ← byteAt q 0
  let a ← byteAt q 1
  pure (slice t 0 ltB, prnD, a / 16)

/-- `self.prn_a` (set by the caller, no default) -/
def getPrnA (s : St PK) : Py Nat :=
  match s.prnA with
  | some a => .ok a
  | none => .error .attributeError

/-- loop of `verify_maclt`: lines 568-574 -/
def macltLoop (s : St PK) (mode adkdL : List Nat) (ofst : Nat) : (n k : Nat) → Py Bool
  | 0, _ => pure true
  | n + 1, k => do
    let (_, prnD, adkd) ← tagsInfo s (k + 1)
    let i := k + ofst + 1
    let m ← pyGet mode i
    let bad1 ← (if m = 1 then do
        let a ← getPrnA s
        pure (decide (prnD ≠ a))
      else pure false)
    if bad1 then pure false
    else
      let bad2 ← (if m ≠ 2 then do
          let e ← pyGet adkdL i
          pure (decide (adkd ≠ e))
        else pure false)
      if bad2 then pure false else macltLoop s mode adkdL ofst n (k + 1)

/-- offset into the tables: lines 566-567, 595-596 -/
def tblOfst (gstSfP : BitBuf) : Py Nat := do
  let _ ← readU gstSfP 0 12
  let tow ← readU gstSfP 12 20
  pure (if tow % 60 = 0 then 0 else 6)

/-- `verify_maclt`: lines 558-575 -/
def verifyMaclt (s : St PK) : Py Bool := do
  match modeT.get? s.maclt with
  | none => pure false
  | some mode =>
    let adkdL ← adkdT.getItem s.maclt
    if s.nt * 2 ≠ adkdL.length then pure false
    else
      let ofst ← tblOfst s.gstSfP
      macltLoop s mode adkdL ofst (s.nt - 1) 0

/-- `process_mac`: lines 577-586 (returning `False` makes both callers raise `TypeError`) -/
def processMac (p : Prim PK) (s : St PK) (msg : BitBuf) : Py BitBuf :=
  if s.mf = 0 ∨ s.mf = 1 then p.mac s.mf s.key msg else .error .typeError

/-- flexible tag information appended to the MACSEQ message: lines 598-603 -/
def flexLoop (s : St PK) (mode : List Nat) (ofst ltagB : Nat) : (n k : Nat) → BitBuf → Py BitBuf
  | 0, _, m => pure m
  | n + 1, k, m => do
    let x ← pyGet mode (k + ofst)
    let i0 := k * ltagB
    flexLoop s mode ofst ltagB n (k + 1)
      (if x ≠ 2 then m else m ++ slice s.tag (i0 + ltagB - 2) (i0 + ltagB))

/-- `verify_macseq`: lines 588-609 -/
def verifyMacseq (p : Prim PK) (s : St PK) : Py Bool := do
  let a ← getPrnA s
  if a ≥ 256 then throw .valueError
  else
    match modeT.get? s.maclt with
    | none => pure false
    | some mode =>
      let ofst ← tblOfst s.gstSfP
      let lt ← pyGetI tagLenT s.ts
      let msg ← flexLoop s mode ofst (lt / 8 + 2) s.nt 0 (natToBits 8 a ++ s.gstSfP)
      let c ← processMac p s msg
      let (_, q) ← tagsInfo0 s
      let mc ← readU c 0 12
      let m ← readU q 0 12
      pure (decide (m = mc))

/-- `save_mack`: lines 611-616 (one 60-byte slot per satellite) -/
def saveMack (s : St PK) (prn : Nat) : St PK :=
  { s with mackP := fun k => if k = prn then s.mackC prn else s.mackP k,
           mackC := fun k => if k = prn then s.mack prn else s.mackC k }

/-- `decode_mack`: lines 618-634 -/
def decodeMack (s : St PK) (prn : Nat) : Py (St PK) := do
  let lt ← pyGetI tagLenT s.ts
  let lk ← pyGetI klenT s.ks
  let nt := (480 - lk) / (lt + 16)
  let i0 := (lt + 16) / 8 * nt
  pure { s with nt := nt, tag := slice (s.mackP prn) 0 i0,
                keyP := slice (s.mackP prn) i0 (i0 + lk / 8),
                keyC := slice (s.mackC prn) i0 (i0 + lk / 8) }

/-- `load_gal_inav`: lines 636-656 (the page-format check only prints) -/
def loadGalInav (msg : BitBuf) : Py (BitBuf × BitBuf) := do
  let _ ← readU msg 0 1
  let _ ← readU msg 1 1
  let _ ← readU msg 120 1
  let _ ← readU msg 121 1
  let nav ← copyBuff msg (zeros 16) 2 0 112
  let nav ← copyBuff msg nav 122 112 16
  let nma ← copyBuff msg (zeros 5) 138 0 40
  pure (nav, nma)

/-- `save_gal_inav`: lines 658-676 -/
def saveGalInav (s : St PK) (nav : BitBuf) (prn tow : Nat) : Py (St PK) := do
  let mt ← readU nav 0 6
  let sat := Sat.prn2sat .gal prn
  let s := if s.subfrm.mem sat then s else
    { s with subfrm := s.subfrm.set sat (zeros 160), subfrmN := s.subfrmN.set sat (zeros 160),
             subfrmP := s.subfrmP.set sat (zeros 160) }
  let s ← (if tow % 30 = 1 then do
      let bp ← s.subfrmP.getItem sat
      let bn ← s.subfrmN.getItem sat
      pure { s with subfrm := s.subfrm.set sat bp, subfrmP := s.subfrmP.set sat bn }
    else pure s)
  if mt > 0 ∧ mt ≤ 10 then do
    let bn ← s.subfrmN.getItem sat
    let j := (mt - 1) * 16
    pure { s with subfrmN := s.subfrmN.set sat (setSlice bn j (j + 16) nav) }
  else pure s

/-- word types of the five words are 1..5: lines 687-690 -/
def typesOk (buff : BitBuf) : (n k : Nat) → Py Bool
  | 0, _ => pure true
  | n + 1, k => do
    let mt ← readU buff (k * 128) 6
    if mt ≠ k + 1 then pure false else typesOk buff n (k + 1)

/-- words 2..4 carry the issue number `iod1`: lines 692-696 -/
def iodOk (buff : BitBuf) (iod1 : Nat) : (n k : Nat) → Py Bool
  | 0, _ => pure true
  | n + 1, k => do
    let i ← readU buff (6 + k * 128) 10
    if i ≠ iod1 then pure false else iodOk buff iod1 n (k + 1)

/-- copying loop: lines 698-704 -/
def navLoop (buff : BitBuf) : (l : List Nat) → (mt j : Nat) → BitBuf → Py BitBuf
  | [], _, _, m => pure m
  | n :: l, mt, j, m => do
    let m ← copyBuff buff m (6 + mt * 128) j n
    navLoop buff l (mt + 1) (j + n) m

/-- `gen_gal_inavmsg`: lines 678-706 -/
def genInav (s : St PK) (prn : Nat) : Py (Option BitBuf) := do
  if prn < 1 ∨ prn > 36 then pure none
  else
    match s.subfrm.get? (Sat.prn2sat .gal prn) with
    | none => pure none
    | some buff =>
      let t ← typesOk buff 5 0
      if ¬ t then pure none
      else
        let iod1 ← readU buff 6 10
        let i ← iodOk buff iod1 3 1
        if ¬ i then pure none
        else do
          let m ← navLoop buff [120, 120, 122, 120, 67] 0 0 (zeros 69)
          pure (some m)

/-- `gen_gal_utcmsg`: lines 708-733 -/
def genUtc (s : St PK) : Py (Option BitBuf) := do
  let a ← getPrnA s
  match s.subfrm.get? (Sat.prn2sat .gal a) with
  | none => pure none
  | some buff =>
    let mt6 := slice buff 80 96
    let mt10 := slice buff 144 160
    let t1 ← readU mt6 0 6
    let t2 ← readU mt10 0 6
    if t1 ≠ 6 ∨ t2 ≠ 10 then pure none
    else do
      let m ← copyBuff mt6 (zeros 18) 6 0 99
      let m ← copyBuff mt10 m 86 99 42
      pure (some m)

/-- byte loop of `gen_msg`: lines 756-763; `n` bytes to go, `k` the index -/
def genLoop (msg : BitBuf) (rem : Nat) : (n k j : Nat) → BitBuf → Py BitBuf
  | 0, _, _, m => pure m
  | n + 1, k, j, m => do
    let b ← byteAt msg k
    if rem ≠ 0 ∧ n = 0 then do
      let m ← writeU m j rem (b / 2 ^ (8 - rem))
      genLoop msg rem n (k + 1) (j + rem) m
    else do
      let m ← writeU m j 8 b
      genLoop msg rem n (k + 1) (j + 8) m

/-- `gen_msg`: lines 735-764 -/
def genMsg (s : St PK) (adkd prnD : Nat) (gst : BitBuf) (ctr : Nat) (msg : BitBuf) : Py BitBuf := do
  let a ← getPrnA s
  let mlen := if adkd = 4 then 141 else 549
  let rem := mlen - mlen / 8 * 8
  let (m, j) ← (if adkd = 0 ∧ a = prnD then do
      let m := zeros ((mlen + 8 + 42 + 7) / 8)
      let m ← writeU m 0 8 a
      pure (m, 8)
    else do
      let m := zeros ((mlen + 16 + 42 + 7) / 8)
      let m ← writeU m 0 8 (if prnD = 255 then a else prnD)
      let m ← writeU m 8 8 a
      pure (m, 16))
  let g ← readU gst 0 32
  let m ← writeU m j 32 g
  let m ← writeU m (j + 32) 8 ctr
  let m ← writeU m (j + 40) 2 (s.nmaHeader / 64)
  genLoop msg rem (msg.length / 8) 0 (j + 42) m

/-- `verify_navmsg`: lines 766-778 -/
def verifyNavmsg (p : Prim PK) (s : St PK) (t : Tag) : Py Bool := do
  match t.navmsg with
  | none => pure false
  | some msg =>
    if msg = [] then pure false
    else do
      let m ← genMsg s t.adkd t.prnD t.gstSf t.cnt msg
      let c ← processMac p s m
      let lt ← pyGetI tagLenT s.ts
      pure (decide (c.take (8 * (lt / 8)) = t.tag))

/-- the key of `vstatus` for a tag: lines 786-787 -/
def tagKey (t : Tag) : Nat × Int := if t.adkd = 4 then (37, 0) else (t.prnD, t.iodnav)

/-- `save_auth_nav`: lines 780-797 -/
def saveAuthNav (s : St PK) (result : Bool) (t : Tag) : St PK × Bool :=
  if result then
    let n := match s.vstatus.get? (tagKey t) with
      | none => 1
      | some c => c + 1
    ({ s with vstatus := s.vstatus.set (tagKey t) n }, decide (n ≥ s.vcntMin))
  else (s, false)

/-- `chk_nav`: lines 799-805 -/
def chkNav (s : St PK) (prn : Nat) (iodnav : Int) : Bool :=
  match s.vstatus.get? (prn, iodnav) with
  | none => false
  | some c => decide (c ≥ s.vcntMin)

/-- `count_valid_sat`: lines 807-819 -/
def countValidSat (s : St PK) : Nat :=
  ((s.vstatus.filter fun e => e.1.1 ≠ 37 ∧ e.2 ≥ s.vcntMin).map (·.1.1)).dedup.length

/-- the constructor of `taginfo`: lines 100-113 -/
def mkTag (gst : BitBuf) (prnD prnA adkd : Nat) (tag : BitBuf) (cnt : Nat)
    (navmsg : Option BitBuf) : Py Tag := do
  let iod ← (match navmsg with
    | none => pure (-1 : Int)
    | some m => if adkd = 0 ∨ adkd = 12 then do
        let i ← readU m 0 10
        pure (i : Int)
      else pure (-1))
  pure ⟨gst, prnD, prnA, adkd, tag, cnt, navmsg, iod⟩

/-- tag value, satellite and data type of tag `k`: lines 924-931 -/
def tagHead (s : St PK) (k : Nat) : Py (BitBuf × Nat × Nat) :=
  if k = 0 then do
    let a ← getPrnA s
    let (t, _) ← tagsInfo0 s
    pure (t, a, 0)
  else tagsInfo s k

/-- the delayed tag put on the list: lines 932-938 -/
def slowAppend (s : St PK) (k : Nat) (tag : BitBuf) (prnD adkd : Nat) : Py (St PK) :=
  if k ≠ 0 ∧ adkd = 12 ∧ s.flgSlow then do
    let nav ← genInav s prnD
    let a ← getPrnA s
    let t ← mkTag s.gstSfP prnD a adkd tag (k + 1) nav
    pure { s with tagList := s.tagList ++ [t] }
  else pure s

/-- the data a tag refers to: lines 940-950 -/
def tagNav (s : St PK) (prnD adkd : Nat) : Py (Option BitBuf) :=
  if adkd = 12 then pure none
  else if adkd = 0 then genInav s prnD
  else if adkd = 4 then genUtc s
  else pure none

/-- verification of tag `k`: lines 924-971; `st` is the local `status` -/
def tagStep (p : Prim PK) (r : St PK × Bool) (k : Nat) : Py (St PK × Bool) := do
  let (s, st) := r
  let (tag, prnD, adkd) ← tagHead s k
  let s ← slowAppend s k tag prnD adkd
  let nav ← tagNav s prnD adkd
  match nav with
  | none => pure (s, st)
  | some m => do
    let a ← getPrnA s
    let t ← mkTag s.gstSfP prnD a adkd tag (k + 1) (some m)
    let res ← verifyNavmsg p s t
    let (s, st) := saveAuthNav s res t
    let s := if st = true ∧ adkd = 4 then { s with utcVerified := true } else s
    pure (s, st)

/-- slow MAC loop: lines 973-988.  Removing an element while iterating makes Python skip the
following element.  The result is the remaining list. -/
def slowLoop (p : Prim PK) : List Tag → St PK → Bool → Py (St PK × Bool × List Tag)
  | [], s, st => pure (s, st, [])
  | t :: rest, s, st => do
    let dt ← difftime s.gstSfP t.gstSf
    if dt = 300 then do
      let s := { s with prnA := some t.prnA }
      let res ← verifyNavmsg p s t
      let (s, st) := saveAuthNav s res t
      let (s, st, l) ← slowLoop p rest s st
      pure (s, st, t :: l)
    else if dt > 300 then
      match rest with
      | [] => pure (s, st, [])
      | y :: rest' => do
        let (s, st, l) ← slowLoop p rest' s st
        pure (s, st, y :: l)
    else do
      let (s, st, l) ← slowLoop p rest s st
      pure (s, st, t :: l)

/-- tag verification and bookkeeping: lines 923-992 -/
def tagStage (p : Prim PK) (s : St PK) (prn : Nat) : Py (St PK × Bool) := do
  let (s, st) ← (List.range s.nt).foldlM (tagStep p) (s, false)
  let (s, st) ← (if s.flgSlow then do
      let (s, st, l) ← slowLoop p s.tagList s st
      pure ({ s with tagList := l }, st)
    else pure (s, st))
  let n := countValidSat s
  pure ({ s with posAuth := s.posAuth || decide (n ≥ 4), nsat := n,
                 cnt := fun k => if k = prn then 0 else s.cnt k }, st)

/-- storing the page: lines 834-851 -/
def storePage (s : St PK) (nma : BitBuf) (wn tow prn : Nat) : Py (St PK) := do
  if prn < 1 ∨ prn > 36 then throw .indexError
  else
    let ki := tow % 30 / 2
    let s ← (if ki = 0 then do
        let m ← setByte (s.mack prn) 0 (zeros 1)
        pure { s with cnt := fun k => if k = prn then 0 else s.cnt k,
                      hk := fun k => if k = prn then zeros 15 else s.hk k,
                      mack := fun k => if k = prn then m else s.mack k }
      else pure s)
    let (gw, gt) := gstOf wn tow
    let gtow := gt / 30 * 30
    let sf ← setGstSf gw gtow
    let h ← setByte (s.hk prn) ki nma
    let m := setSlice (s.mack prn) (ki * 4) (ki * 4 + 4) (slice nma 1 5)
    pure { s with gstTow := gtow, gstSf := sf,
                  hk := fun k => if k = prn then h else s.hk k,
                  mack := fun k => if k = prn then m else s.mack k,
                  cnt := fun k => if k = prn then s.cnt prn ||| 1 <<< ki else s.cnt k }

/-- root key verification when needed: lines 863-871 -/
def rootStage (p : Prim PK) (s : St PK) : Py (St PK) :=
  if s.rootLoaded ∧ ¬ s.rootVerified then do
    let (s, _) ← verifyRootKey p s
    pure s
  else pure s

/-- key chain verification when needed: lines 877-892 -/
def chainStage (p : Prim PK) (s : St PK) (gstWn : Int) : Py (St PK) :=
  if s.rootVerified ∧ s.gstSf ≠ s.gstSfC then do
    let (s, r) ← verifyKeyChain p s s.keyC gstWn s.gstTow
    pure (if r then { s with gstSfC := s.gstSf, key := s.keyC } else s)
  else pure s

/-- MAC look-up table, MACSEQ and tags: lines 894-992 -/
def authStage (p : Prim PK) (s : St PK) (gstWn : Int) (prn : Nat) : Py (St PK × Bool) := do
  let sf ← setGstSf gstWn (s.gstTow - 30)
  let s := { s with gstSfP := sf }
  let r ← verifyMaclt s
  if ¬ r then pure (s, false)
  else
    let r ← verifyMacseq p s
    if ¬ r then pure (s, false)
    else tagStage p s prn

/-- up to the extraction of the keys and tags of a complete sub-frame: lines 853-861 -/
def subframe1 (p : Prim PK) (s : St PK) (prn : Nat) : Py (St PK) := do
  let s := saveMack s prn
  let (s, _) ← decodeHk p s (s.hk prn)
  pure s

/-- a complete sub-frame: lines 853-992 -/
def subframe (p : Prim PK) (s : St PK) (gstWn : Int) (prn : Nat) : Py (St PK × Bool) := do
  let s ← subframe1 p s prn
  let s ← rootStage p s
  if ¬ s.rootLoaded then pure (s, false)
  else
    let s ← decodeMack s prn
    let s ← chainStage p s gstWn
    if ¬ s.chainVerified then pure (s, false)
    else authStage p s gstWn prn

/-- `decode`: lines 821-992 -/
def decode (p : Prim PK) (s : St PK) (nma : BitBuf) (wn tow prn : Nat) : Py (St PK × Bool) := do
  let s ← storePage s nma wn tow prn
  if s.cnt prn = 0x7fff then subframe p s (gstOf wn tow).1 prn
  else pure (s, false)

/-- `load_pubkey_pkid`: lines 302-308 (the key is filed under the current `self.pkid`, the
argument is not used) -/
def loadPubkey (s : St PK) (pk : PK) (_pkid : Nat) : St PK :=
  { s with pkList := s.pkList.set s.pkid (some pk) }

end Verif.Osnma
