import Verif.Model.RtcmSsr
import Verif.Model.Mask
/-!
Model of the RTCM messages with local corrections, `src/cssrlib/rtcm.py`: grid definition
(`encode_ssr_grid`, `decode_ssr_grid`), tropospheric correction (`encode_ssr_trop`,
`decode_ssr_trop`) and regional ionospheric correction (`encode_ssr_iono`, `decode_ssr_iono`), with
the header of the two correction messages (which carries no number of satellites).

Simplifications: values are exact rationals, NaN is `none`; the indices, lengths and counts kept by
the encoder (`gid`, `inet`, `ofst`, `ng`, `nlen`, `mlen`) are natural numbers; the insertion order
of the dictionary `ci` of the encoder is the separate list `order`; the attributes already assigned
when an exception is raised are not followed; reference times and the log file are left out.
-/

namespace Verif.RtcmLoc
open Verif.Sat Verif.Time Verif.Sval Verif.RtcmTypes Verif.RtcmSsr

/-- `int(x)` of a number: truncation -/
def pyTrunc (x : ℚ) : Int := if 0 ≤ x then ⌊x⌋ else -⌊-x⌋

/-- `int(y/scl)`; `int(nan)` raises -/
def truncDiv (y : Val) (scl : ℚ) : Py Int :=
  match y with
  | none => .error .valueError
  | some y => .ok (pyTrunc (y / scl))

/-- sum and difference of numbers that may be NaN -/
def vadd (a b : Val) : Val := a.bind fun x => b.map fun y => x + y
def vsub (a b : Val) : Val := a.bind fun x => b.map fun y => x - y
def vmul (a b : Val) : Val := a.bind fun x => b.map fun y => x * y

/-- `bs.pack_into('sN', msg, i, self.ival(y-off, N, scl)); i += N` -/
def putV (p : Pos) (n : Nat) (scl off : ℚ) (y : Val) : Py Pos :=
  putS p n (ival (y.map fun y => y - off) n scl)

/-- `self.sval(bs.unpack_from('sN', msg, i)[0], N, scl)+off; i += N` -/
def rdV (b : BitBuf) (i n : Nat) (scl off : ℚ) : Py (Val × Nat) := do
  let u ← readS b i n
  pure ((sval u n scl).map (fun z => z + off), i + n)

/-- the corrections of one network (`cssrlib.local_corr`), as far as these messages use them -/
structure Net where
  flgTrop : Nat := 0
  flgStec : Nat := 0
  ct : Option (Vec × Vec) := none
  maph : Option Vec := none
  mapw : Option Vec := none
  dth : Option (List Val) := none
  dtw : Option (List Val) := none
  ng : Nat := 0
  ofst : Nat := 0
  satN : List Int := []
  ci : Option (Dict Int (List Val)) := none
  stype : Option (Dict Int Nat) := none
  dstec : Option (Dict Int (List Val)) := none
  deriving DecidableEq

/-- a row of the grid table -/
structure Row where
  nid : Int
  gid : Int
  lat : Val
  lon : Val
  alt : Val
  deriving DecidableEq

/-! ## Encoder -/

structure LEnc where
  h : Enc
  gid : Nat := 0
  inet : Nat := 0
  gtype : Nat := 0
  ofst : Nat := 0
  nlen : Nat := 0
  mlen : Nat := 0
  lc : List Net := []
  grid : List Row := []
  /-- keys of `lc[gid].ci` in the order of their insertion -/
  order : List Int := []
  /-- the attributes `dlat`, `dlon`, `nrow`, `ncol`, `gma`, `latmask`, `lonmask`, `egpmask` -/
  dlat : Val := none
  dlon : Val := none
  nrow : Nat := 0
  ncol : Nat := 0
  gma : Bool := false
  latmask : Nat := 0
  lonmask : Nat := 0
  egpmask : Nat := 0

/-- `encode_head(msg, i, sys)`: rtcm.py lines 4511-4554, for the sub-types `SSR_TROP` and
`SSR_STEC` (`sc` is the entry of `sc_t`) -/
def encodeHead (e : Enc) (sc : SC) (sys : Sys) (p : Pos) : Py Pos := do
  let p ← putU p (if e.msgtype = 4076 ∨ sys ≠ .glo then 20 else 17) e.tow
  let p ← putU p 4 (e.udi sc)
  let p ← putU p 1 e.mi.toNat
  let p ← putU p 4 e.iodssr
  let p ← putU p 16 e.pid
  putU p 4 e.sid

/-- one residual of a grid point: rtcm.py lines 4819-4822 and 4823-4826 -/
def putRes (n : Nat) (r : Option (List Val)) (k : Nat) (p : Pos) : Py Pos :=
  if n > 0 then
    match r with
    | none => .error .typeError
    | some l => do
      let y ← pyGet l k
      putS p n (ival y n (1 / 10000))
  else .ok p

/-- the loop over the grid points: rtcm.py lines 4818-4826, `c` points from number `k` on -/
def encodeRes (n m : Nat) (rh rw : Option (List Val)) : Nat → Nat → Pos → Py Pos
  | 0, _, p => .ok p
  | c + 1, k, p => do
    let p ← putRes n rh k p
    let p ← putRes m rw k p
    encodeRes n m rh rw c (k + 1) p

/-- unpacking of an attribute that may be `None` -/
def getSome {α : Type} : Option α → Py α
  | none => .error .typeError
  | some a => .ok a

/-- `encode_ssr_trop(msg, i)`: rtcm.py lines 4762-4830 -/
def encodeTrop (e : LEnc) (p : Pos) : Py Pos := do
  let p ← encodeHead e.h .trop .none p
  let net ← pyGet e.lc e.gid
  let rmi := net.flgTrop % 2
  let p ← putU p 10 e.gid
  let p ← putU p 1 rmi
  let (ah, bh, ch) ← getSome net.maph
  let (aw, bw, cw) ← getSome net.mapw
  let p ← putV p 11 (25 / 100000000) (118 / 100000) ah
  let p ← putV p 9 (5 / 1000000) (298 / 100000) bh
  let p ← putV p 9 (2 / 10000) (682 / 10000) ch
  let p ← putV p 13 (1 / 1000000) (104 / 1000000) aw
  let p ← putV p 6 (25 / 1000000) (15 / 10000) bw
  let p ← putV p 5 (2 / 1000) (48 / 1000) cw
  let (h, w) ← getSome net.ct
  let p ← putV p 13 (1 / 10000) (23 / 10) h.1
  let p ← putV p 15 (1 / 100000) 0 h.2.2
  let p ← putV p 15 (1 / 100000) 0 h.2.1
  let p ← putV p 13 (1 / 10000) (252 / 1000) w.1
  let p ← putV p 15 (1 / 100000) 0 w.2.2
  let p ← putV p 15 (1 / 100000) 0 w.2.1
  if rmi = 1 then
    let p ← putU p 12 net.ofst
    let p ← putU p 12 net.ng
    let p ← putU p 4 e.nlen
    let p ← putU p 4 e.mlen
    encodeRes e.nlen e.mlen net.dth net.dtw net.ng net.ofst p
  else .ok p

/-- `sat2svid(sat)`: rtcm.py lines 779-786 -/
def sat2svid (sat : Int) : Int :=
  let (sys, svid) := sat2prn sat
  if sys = .qzs then svid - 192 else if sys = .sbs then svid - 119 else svid

/-- the largest entry of `stype` of the satellites: rtcm.py lines 4855-4862 -/
def maxStype (d : Option (Dict Int Nat)) : List Int → Nat → Py Nat
  | [], m => .ok m
  | s :: l, m => do
    let d' ← getSome d
    let t ← Dict.getItem d' s
    maxStype d l (if m < t then t else m)

/-- the polynomial part of one satellite: rtcm.py lines 4873-4884 -/
def putPoly (ci : Option (Dict Int (List Val))) (pgi : Bool) (s : Int) (p : Pos) : Py Pos := do
  let d ← getSome ci
  let c ← Dict.getItem d s
  let c0 ← pyGet c 0
  let p ← putV p 17 (1 / 100) 0 c0
  if pgi then
    let c1 ← pyGet c 1
    let c2 ← pyGet c 2
    let p ← putV p 18 (1 / 1000) 0 c1
    putV p 18 (1 / 1000) 0 c2
  else .ok p

/-- the residual of a satellite at grid point `j`, with the second-order terms when the first of
them is not zero: rtcm.py lines 4907-4911 -/
def resOf (grid : List Row) (c : List Val) (d : List Val) (j : Nat) : Py Val := do
  let y ← pyGet d j
  let c3 ← pyGet c 3
  match c3 with
  | none => .ok y
  | some x =>
    if x ≠ 0 then
      let r ← pyGet grid j
      let r0 ← pyGet grid 0
      let dlat := vsub r.lat r0.lat
      let dlon := vsub r.lon r0.lon
      match c.drop 3 with
      | [a, b, f] =>
        .ok (vadd y (vadd (vadd (vmul (vmul dlat dlon) a) (vmul (vmul dlat dlat) b))
          (vmul (vmul dlon dlon) f)))
      | _ => .error .valueError
    else .ok y

/-- residuals of one satellite, `c` points from number `j` on: rtcm.py lines 4906-4915 -/
def putStecRes (grid : List Row) (c d : List Val) : Nat → Nat → Pos → Py Pos
  | 0, _, p => .ok p
  | n + 1, j, p => do
    let y ← resOf grid c d j
    let u ← truncDiv y (2 / 1000)
    let p ← putS p 18 u
    putStecRes grid c d n (j + 1) p

/-- the satellite loop of the residual part: rtcm.py lines 4904-4915; the entry of `dstec` is looked
up at each grid point -/
def putSatRes (grid : List Row) (net : Net) (s : Int) (p : Pos) : Py Pos := do
  let cs ← getSome net.ci
  let c ← Dict.getItem cs s
  if net.ng = 0 then .ok p else
  let ds ← getSome net.dstec
  let d ← Dict.getItem ds s
  putStecRes grid c d net.ng net.ofst p

/-- `encode_ssr_iono(msg, i)`: rtcm.py lines 4832-4917 -/
def encodeIono (e : LEnc) (p : Pos) : Py Pos := do
  let sys ← encSys e.h
  let p ← encodeHead e.h .stec sys p
  let net0 ← pyGet e.lc e.inet
  let pmi := net0.flgStec / 2 % 2
  let rmi := net0.flgStec % 2
  let p ← putU p 10 e.gid
  let p ← putU p 1 pmi
  let p ← putU p 1 rmi
  let net ← pyGet e.lc e.gid
  let _ ← getSome net.ci
  let sat := own sys e.order
  let st ← maxStype net.stype sat 0
  let mask ← Mask.encodeMask (sat.map sat2svid) 64
  let p ← putU p 64 mask
  let p ← if pmi = 1 then do
      let pgi := decide (st > 0)
      let p ← putU p 1 pgi.toNat
      encodeLoop (putPoly net.ci pgi) sat p
    else .ok p
  if rmi = 1 then
    let grid := e.grid.filter fun r => r.nid = (e.inet : Int)
    let _ ← pyGet grid 0
    let p ← putU p 12 net.ofst
    let p ← putU p 12 net.ng
    let p ← putU p 5 18
    let p ← putU p 3 1
    encodeLoop (putSatRes grid net) sat p
  else .ok p

/-- the relative points of grid type 0: rtcm.py lines 4445-4460; `prev` is the previous point -/
def putRel0 : List Row → Row → Pos → Py Pos
  | [], _, p => .ok p
  | r :: l, prev, p => do
    let a ← truncDiv (vsub r.lat prev.lat) (1 / 1000)
    let c ← truncDiv (vsub r.lon prev.lon) (1 / 1000)
    let h ← truncDiv (vsub r.alt prev.alt) (25 / 2)
    let p ← putS p 13 a
    let p ← putS p 14 c
    let p ← putS p 9 h
    putRel0 l r p

/-- the relative points of grid type 1: rtcm.py lines 4472-4482 -/
def putRel1 : List Row → Row → Pos → Py Pos
  | [], _, p => .ok p
  | r :: l, prev, p => do
    let a ← truncDiv (vsub r.lat prev.lat) (1 / 1000)
    let c ← truncDiv (vsub r.lon prev.lon) (1 / 1000)
    let p ← putS p 13 a
    let p ← putS p 14 c
    putRel1 l r p

/-- `bs.pack_into('u'+str(n), msg, i, v); i += n` with a computed length: no bits is an error -/
def putUn (p : Pos) (n : Nat) (v : Int) : Py Pos := if n = 0 then .error .bitstruct else putU p n v

/-- `encode_ssr_grid(msg, i)`: rtcm.py lines 4420-4509 -/
def encodeGrid (e : LEnc) (p : Pos) : Py Pos := do
  let p ← putU p 16 e.h.pid
  let p ← putU p 1 e.h.mi.toNat
  let p ← putU p 10 e.gid
  let p ← putU p 3 e.gtype
  let rows := e.grid.filter fun r => r.nid = (e.gid : Int)
  if e.gtype = 0 then
    match rows with
    | [] => .error .indexError
    | r :: l =>
      let a ← truncDiv r.lat (1 / 1000)
      let c ← truncDiv r.lon (1 / 1000)
      let h ← truncDiv (r.alt.map fun z => z + 1000) (25 / 2)
      let p ← putS p 18 a
      let p ← putS p 19 c
      let p ← putU p 10 h
      let p ← putU p 12 e.ofst
      let p ← putU p 8 l.length
      putRel0 l r p
  else if e.gtype = 1 then
    match rows with
    | [] => .error .indexError
    | r :: l =>
      let a ← truncDiv r.lat (1 / 1000)
      let c ← truncDiv r.lon (1 / 1000)
      let p ← putS p 18 a
      let p ← putS p 19 c
      let p ← putU p 12 e.ofst
      let p ← putU p 8 l.length
      putRel1 l r p
  else if e.gtype = 2 then
    match rows with
    | [] => .error .indexError
    | r :: _ =>
      let a ← truncDiv r.lat (1 / 1000)
      let c ← truncDiv r.lon (1 / 1000)
      let da ← truncDiv e.dlat (1 / 100)
      let dc ← truncDiv e.dlon (1 / 100)
      let p ← putS p 18 a
      let p ← putS p 19 c
      let p ← putU p 6 e.nrow
      let p ← putU p 6 e.ncol
      let p ← putU p 9 da
      let p ← putU p 10 dc
      let p ← putU p 1 e.gma.toNat
      if e.gma then
        let p ← putUn p e.nrow e.latmask
        let p ← putUn p e.ncol e.lonmask
        putUn p ((Mask.decodeMask e.latmask e.nrow 0).2 * (Mask.decodeMask e.lonmask e.ncol 0).2) e.egpmask
      else .ok p
  else .ok p

/-! ## Decoder -/

structure St where
  d : Dec := {}
  lc : List Net := List.replicate 33 {}
  gid : Nat := 0
  gtype : Nat := 0
  inet : Int := -1
  ofst : Nat := 0
  pmi : Bool := false
  rmi : Bool := false
  pgi : Bool := false
  grid : List Row := []
  dpos : List Vec := []
  pos0 : Vec := (some 0, some 0, some 0)

/-- `decode_head(msg, i, sys)`: rtcm.py lines 987-1034, for the sub-types `SSR_TROP` and
`SSR_STEC`; the result is the new state, `iodssr` and the position -/
def decodeHead (d : Dec) (sys : Sys) (b : BitBuf) (i : Nat) : Py (Dec × Nat × Nat) := do
  let (d, i) ← decodeHeadTime d sys b i
  let _ ← readU b i 4
  let _ ← readU b (i + 4) 1
  let iodssr ← readU b (i + 5) 4
  let pid ← readU b (i + 9) 16
  let sid ← readU b (i + 25) 4
  pure ({ d with pid := pid, sid := sid }, iodssr, i + 29)

/-- one residual: rtcm.py lines 3238-3247 -/
def rdRes (n : Nat) (b : BitBuf) (i : Nat) : Py (List Val × Nat) :=
  if n > 0 then do
    let u ← readS b i n
    pure ([sval u n (1 / 10000)], i + n)
  else .ok ([], i)

/-- the loop over the grid points: rtcm.py lines 3237-3247 -/
def decodeRes (n m : Nat) (b : BitBuf) : Nat → Nat → Py (List Val × List Val × Nat)
  | 0, i => .ok ([], [], i)
  | c + 1, i => do
    let (x, i) ← rdRes n b i
    let (y, i) ← rdRes m b i
    let (xs, ys, i) ← decodeRes n m b c i
    pure (x ++ xs, y ++ ys, i)

/-- `np.zeros(ofst+ng) if n > 0 else None`, filled from index `ofst` on -/
def resArray (n ofst : Nat) (l : List Val) : Option (List Val) :=
  if n > 0 then some (List.replicate ofst (some 0) ++ l) else none

/-- `decode_ssr_trop(msg, i)`: rtcm.py lines 3190-3265.  The names `rh`, `rw`, `ng`, `ofst` are
bound only with the residual part. -/
def decodeTrop (s : St) (b : BitBuf) (i : Nat) : Py (St × Nat) := do
  let (d, iodssr, i) ← decodeHead s.d .none b i
  let gid ← readU b i 10
  let rmi ← readU b (i + 10) 1
  let i := i + 11
  let (ah, i) ← rdV b i 11 (25 / 100000000) (118 / 100000)
  let (bh, i) ← rdV b i 9 (5 / 1000000) (298 / 100000)
  let (ch, i) ← rdV b i 9 (2 / 10000) (682 / 10000)
  let (aw, i) ← rdV b i 13 (1 / 1000000) (104 / 1000000)
  let (bw, i) ← rdV b i 6 (25 / 1000000) (15 / 10000)
  let (cw, i) ← rdV b i 5 (2 / 1000) (48 / 1000)
  let (h0, i) ← rdV b i 13 (1 / 10000) (23 / 10)
  let (h2, i) ← rdV b i 15 (1 / 100000) 0
  let (h1, i) ← rdV b i 15 (1 / 100000) 0
  let (w0, i) ← rdV b i 13 (1 / 10000) (252 / 1000)
  let (w2, i) ← rdV b i 15 (1 / 100000) 0
  let (w1, i) ← rdV b i 15 (1 / 100000) 0
  if rmi = 1 then
    let ofst ← readU b i 12
    let ng ← readU b (i + 12) 12
    let n ← readU b (i + 24) 4
    let m ← readU b (i + 28) 4
    let (rh, rw, i) ← decodeRes n m b ng (i + 32)
    let net ← pyGet s.lc gid
    let net' := { net with
      ct := some ((h0, h1, h2), (w0, w1, w2)), maph := some (ah, bh, ch), mapw := some (aw, bw, cw),
      dth := resArray n ofst rh, dtw := resArray m ofst rw, ng := ng, ofst := ofst }
    pure ({ s with
      d := { d with iodssr := iodssr }, rmi := true, lc := s.lc.set gid net' }, i)
  else
    let _ ← pyGet s.lc gid
    .error .unboundLocal

/-- the polynomial part: rtcm.py lines 3297-3314, for the satellites that are left -/
def rdPoly (pgi : Bool) (b : BitBuf) : List Int → Dict Int (List Val) → Dict Int Nat → Nat →
    Py (Dict Int (List Val) × Dict Int Nat × Nat)
  | [], ci, st, i => .ok (ci, st, i)
  | s :: l, ci, st, i => do
    let (c0, i) ← rdV b i 17 (1 / 100) 0
    if pgi then
      let (c1, i) ← rdV b i 18 (1 / 1000) 0
      let (c2, i) ← rdV b i 18 (1 / 1000) 0
      rdPoly pgi b l (ci.set s [c0, c1, c2]) (st.set s 1) i
    else rdPoly pgi b l (ci.set s [c0]) (st.set s 0) i

/-- residuals of one satellite: rtcm.py lines 3331-3334; a field of no bits cannot be unpacked -/
def rdStecRes (rlen : Nat) (scl : ℚ) (b : BitBuf) : Nat → Nat → Py (List Val × Nat)
  | 0, i => .ok ([], i)
  | c + 1, i => do
    if rlen = 0 then .error .bitstruct else
    let u ← readS b i rlen
    let (l, i) ← rdStecRes rlen scl b c (i + rlen)
    pure (sval u rlen scl :: l, i)

/-- the satellite loop of the residual part: rtcm.py lines 3328-3334 -/
def rdSatRes (rlen : Nat) (scl : ℚ) (ofst ng : Nat) (b : BitBuf) : List Int → Dict Int (List Val) → Nat →
    Py (Dict Int (List Val) × Nat)
  | [], ds, i => .ok (ds, i)
  | s :: l, ds, i => do
    let (r, i) ← rdStecRes rlen scl b ng i
    rdSatRes rlen scl ofst ng b l (ds.set s (List.replicate ofst (some 0) ++ r)) i

/-- `decode_ssr_iono(msg, i)`: rtcm.py lines 3267-3336 -/
def decodeIono (s : St) (b : BitBuf) (i : Nat) : Py (St × Nat) := do
  let sys ← getSsrSys s.d.sysref s.d.msgtype
  let (d, _, i) ← decodeHead s.d sys b i
  let gid ← readU b i 10
  let pmi ← readU b (i + 10) 1
  let rmi ← readU b (i + 11) 1
  let mask ← readU b (i + 12) 64
  let i := i + 76
  let sat := (Mask.decodeMask mask 64 1).1.map fun v : Nat => svid2sat sys v
  let net ← pyGet s.lc gid
  let net := { net with satN := sat }
  let s := { s with d := d, gid := gid, pmi := pmi == 1, rmi := rmi == 1 }
  let (net, pgi, i) ← if pmi = 1 then do
      let pgi ← readU b i 1
      let (ci, st, i) ← rdPoly (pgi == 1) b sat [] [] (i + 1)
      pure ({ net with ci := some ci, stype := some st }, pgi == 1, i)
    else pure (net, s.pgi, i)
  let (net, i) ← if rmi = 1 then do
      let ofst ← readU b i 12
      let ng ← readU b (i + 12) 12
      let rlen ← readU b (i + 24) 5
      let (scl, i) ← if rlen > 0 then do
          let sf ← readU b (i + 29) 3
          pure ((2 : ℚ) ^ sf / 1000, i + 32)
        else pure (1, i + 29)
      let (ds, i) ← rdSatRes rlen scl ofst ng b sat [] i
      pure ({ net with dstec := some ds, ng := ng, ofst := ofst }, i)
    else pure (net, i)
  pure ({ s with pgi := pgi, lc := s.lc.set gid net }, i)

/-- the relative points of grid type 0: rtcm.py lines 3078-3090, `c` points, `k` the number of the
last point -/
def rdRel0 (gid : Nat) (b : BitBuf) : Nat → Nat → Val → Val → Val → Nat → Py (List Row × List Vec × Nat)
  | 0, _, _, _, _, i => .ok ([], [], i)
  | c + 1, k, lat, lon, alt, i => do
    let u ← readS b i 13
    let v ← readS b (i + 13) 14
    let w ← readS b (i + 27) 9
    let dlat := sval u 13 (1 / 1000)
    let dlon := sval v 14 (1 / 1000)
    let dalt := sval w 9 (25 / 2)
    let lat := vadd lat dlat
    let lon := vadd lon dlon
    let alt := vadd alt dalt
    let (rs, ds, i) ← rdRel0 gid b c (k + 1) lat lon alt (i + 36)
    pure (⟨gid, (k + 1 : Nat), lat, lon, alt⟩ :: rs, (dlat, dlon, dalt) :: ds, i)

/-- `self.dpos[j, :] = v` on an array: a negative index counts from the end -/
def setRow (l : List Vec) (j : Int) (v : Vec) : Py (List Vec) :=
  if 0 ≤ j then pySet l j.toNat v
  else if 0 ≤ j + l.length then pySet l (j + l.length).toNat v
  else .error .indexError

/-- the relative points of grid type 1: rtcm.py lines 3103-3112, `c` points, `k` the number of the
next point -/
def rdRel1 (gid ofst : Nat) (b : BitBuf) : Nat → Nat → Val → Val → List Vec → Nat →
    Py (List Row × List Vec × Nat)
  | 0, _, _, _, dp, i => .ok ([], dp, i)
  | c + 1, k, lat, lon, dp, i => do
    let u ← readS b i 13
    let v ← readS b (i + 13) 14
    let dlat := sval u 13 (1 / 1000)
    let dlon := sval v 14 (1 / 1000)
    let lat := vadd lat dlat
    let lon := vadd lon dlon
    let dp ← setRow dp ((k : Int) - ofst) (dlat, dlon, some 0)
    let (rs, dp, i) ← rdRel1 gid ofst b c (k + 1) lat lon dp (i + 27)
    pure (⟨gid, k, lat, lon, some 0⟩ :: rs, dp, i)

/-- `decode_ssr_grid(msg, i)`: rtcm.py lines 3053-3153.  `np.array()` without argument (line 3122)
raises. -/
def decodeGrid (s : St) (b : BitBuf) (i : Nat) : Py (St × Nat) := do
  let pid ← readU b i 16
  let mi ← readU b (i + 16) 1
  let gid ← readU b (i + 17) 10
  let gtype ← readU b (i + 27) 3
  let i := i + 30
  let s := { s with
    d := { s.d with pid := pid, mi := mi == 1 }, gid := gid, gtype := gtype, inet := gid }
  if gtype = 0 then
    let a ← readS b i 18
    let c ← readS b (i + 18) 19
    let h ← readU b (i + 37) 10
    let ofst ← readU b (i + 47) 12
    let npnt ← readU b (i + 59) 8
    let lat := sval a 18 (1 / 1000)
    let lon := sval c 19 (1 / 1000)
    let alt := (sval h 10 (25 / 2)).map fun z => z - 1000
    let (rs, ds, i) ← rdRel0 gid b npnt ofst lat lon alt (i + 67)
    pure ({ s with
      grid := ⟨gid, ofst, lat, lon, alt⟩ :: rs, dpos := ds, pos0 := (lat, lon, alt), ofst := ofst }, i)
  else if gtype = 1 then
    let a ← readS b i 18
    let c ← readS b (i + 18) 19
    let ofst ← readU b (i + 37) 12
    let npnt ← readU b (i + 49) 8
    let lat := sval a 18 (1 / 1000)
    let lon := sval c 19 (1 / 1000)
    let (rs, ds, i) ← rdRel1 gid ofst b npnt 0 lat lon (List.replicate npnt (some 0, some 0, some 0)) (i + 57)
    pure ({ s with
      grid := ⟨gid, ofst, lat, lon, some 0⟩ :: rs, dpos := ds, pos0 := (lat, lon, some 0),
      ofst := ofst }, i)
  else if gtype = 2 then
    let _ ← readU b i 69
    .error .typeError
  else pure (s, i)

end Verif.RtcmLoc
