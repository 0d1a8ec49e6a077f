import Verif.Model.Sval
import Verif.Model.Mask
import Verif.Model.Sig
import Verif.Model.Time
/-!
Model of the Compact SSR message decoder, class `cssr` of `src/cssrlib/cssrlib.py`
(lines 253-1205), and of the parts of `cssr_has` (`src/cssrlib/cssr_has.py` lines 17-126) that
re-use it.

Simplifications, all of them outside the decoding logic:
* floats are exact rationals, NaN is `none`;
* the mapping-function parameters computed by `mapfParam` are represented by the time they are
  computed for; the grid definition file is the list of its network numbers;
* logging and `monlevel` output are left out;
* when an exception is raised the partially updated object is not modelled.
-/

namespace Verif.Cssr
open Verif.Sat Verif.Sig Verif.Mask Verif.Time Verif.Sval

/-- `sCType`: cssrlib.py lines 65-83 -/
inductive CType where
  | mask | orbit | clock | cbias | pbias | stec | trop | ura | auth | hclock | vtec
  deriving DecidableEq, Repr

/-- numeric value of `sCType` -/
def CType.num : CType → Nat
  | .mask => 0 | .orbit => 1 | .clock => 2 | .cbias => 3 | .pbias => 4 | .stec => 5 | .trop => 6
  | .ura => 7 | .auth => 8 | .hclock => 9 | .vtec => 10

/-- `gnss2sys(gnss)`: cssrlib.py lines 518-528; `-1` is `uGNSS.NONE` -/
def gnss2sys (gnss : Nat) : Sys :=
  match gnss with
  | 0 => .gps | 1 => .glo | 2 => .gal | 3 => .bds | 4 => .qzs | 5 => .sbs | 7 => .bds
  | _ => .none

/-- the signal tables of `ssig2rsig`: cssrlib.py lines 362-465 (signal numbers of `sSig*`,
lines 86-190, `uSIG` values of gnss.py lines 199-316) -/
def sigTbl : Sys → Option (List (Nat × Int))
  | .gps => some [(0, 103), (1, 116), (2, 123), (3, 119), (4, 112), (5, 124), (6, 219), (7, 212),
      (8, 224), (9, 216), (10, 223), (11, 509), (12, 517), (13, 524)]
  | .glo => some [(0, 103), (1, 116), (2, 203), (3, 216), (4, 401), (5, 402), (6, 424), (7, 601),
      (8, 602), (9, 624), (10, 309), (11, 317), (12, 324)]
  | .gal => some [(0, 102), (1, 103), (2, 124), (3, 509), (4, 517), (5, 524), (6, 709), (7, 717),
      (8, 724), (9, 809), (10, 817), (11, 824), (12, 602), (13, 603), (14, 624)]
  | .bds => some [(0, 209), (1, 217), (2, 224), (3, 609), (4, 617), (5, 624), (6, 709), (7, 717),
      (8, 724), (9, 104), (10, 116), (11, 124), (12, 504), (13, 516), (14, 524)]
  | .qzs => some [(0, 103), (1, 119), (2, 103), (3, 124), (4, 219), (5, 212), (6, 224), (7, 509),
      (8, 517), (9, 524), (10, 604), (11, 616), (12, 605), (13, 105)]
  | .sbs => some [(0, 103), (1, 509), (2, 517), (3, 524)]
  | .irn => some [(0, 104), (1, 116), (2, 124), (3, 524), (6, 901)]
  | .none => Option.none

/-- `ssig2rsig(sys, utyp, ssig)`: cssrlib.py lines 362-474 -/
def ssig2rsig (sys : Sys) (typ : Typ) (ssig : Nat) : Py Sig :=
  match sigTbl sys with
  | Option.none => .error .keyError
  | some t => match Dict.get? t ssig with
    | some g => .ok ⟨sys, typ, g⟩
    | Option.none => .error .keyError

/-- `quality_idx(cl, val)`: cssrlib.py lines 508-516 -/
def qualityIdx (cl val : Nat) : Val :=
  if cl = 7 ∧ val = 7 then some (54665 / 10000)
  else if cl = 0 ∧ val = 0 then Option.none
  else some (((3 : ℚ) ^ cl * (1 + (val : ℚ) / 4) - 1) / 1000)

/-- `local_corr`: cssrlib.py lines 219-260 -/
structure LC where
  cstat : Nat := 0
  iode : Dict Int Nat := []
  dorb : Dict Int (Val × Val × Val) := []
  dclk : Dict Int Val := []
  cbias : Dict Int (Dict Sig Val) := []
  pbias : Dict Int (Dict Sig Val) := []
  di : Dict Int (Dict Sig Nat) := []
  ura : Dict Int Val := []
  satN : List Int := []
  nsatN : Nat := 0
  netmask : Nat := 0
  svmask : Nat := 0
  flgStec : Nat := 0
  flgTrop : Nat := 0
  stecQ : Dict Int Val := []
  ci : Dict Int (List Val) := []
  stype : Dict Int Nat := []
  dstec : Dict Int (List Val) := []
  sSz : Dict Int Nat := []
  ng : Nat := 0
  tropQ : Val := Option.none
  mapAt : Option GTime := Option.none
  dth : List Val := []
  dtw : List Val := []
  ct0 : List Val := []
  ct1 : List Val := []
  ttype : Nat := 0
  t0 : Dict Int (Dict CType GTime) := []
  deriving DecidableEq

/-- field widths, scales and NaN convention of the class (cssrlib.py lines 332-339,
cssr_has.py lines 20-29) -/
structure Cfg where
  has : Bool
  dorbScl : ℚ × ℚ × ℚ
  dclkScl : ℚ
  dorbBlen : Nat × Nat × Nat
  dclkBlen : Nat
  cbBlen : Nat
  cbScl : ℚ
  pbBlen : Nat
  pbScl : ℚ

/-- cssrlib.py lines 332-339 -/
def cfgClas : Cfg := ⟨false, (16 / 10000, 64 / 10000, 64 / 10000), 16 / 10000, (15, 13, 13), 15,
  11, 2 / 100, 15, 1 / 1000⟩
/-- cssr_has.py lines 20-29 -/
def cfgHas : Cfg := ⟨true, (25 / 10000, 80 / 10000, 80 / 10000), 25 / 10000, (13, 12, 12), 13,
  11, 2 / 100, 11, 1 / 100⟩

/-- dispatch of `self.sval` -/
def Cfg.sval (c : Cfg) : Int → Nat → ℚ → Val := if c.has then svalHas else Sval.sval

/-- the decoder object (fields used by the message decoders) -/
structure St where
  cfg : Cfg
  week : Int := -1
  tow0 : Int := -1
  tow : Int := 0
  toh : Nat := 0
  time : GTime := ⟨0, 0⟩
  iodssr : Int := -1
  iodssrP : Int := -1
  iodssrC : CType → Int := fun _ => -1
  udi : CType → Nat := fun _ => 0
  ngnss : Nat := 0
  nsatN : Nat := 0
  nsigN : List Nat := []
  sysN : List Sys := []
  gnssN : List Nat := []
  satN : List Int := []
  nsigTotal : Nat := 0
  sigN : Dict Int (List Sig) := []
  nsigMax : Nat := 0
  nmIdx : List Nat := []
  /-- delta clock multipliers; `none` is `np.ones(16)` -/
  dcm : Option (Dict Sys Nat) := Option.none
  gnssIdx : List Sys := []
  nsatG : List Nat := []
  satNP : List Int := []
  sigNP : Dict Int (List Sig) := []
  flgNet : Bool := false
  inet : Int := -1
  subtype : Nat := 0
  sinfo : BitBuf := List.replicate 1280 false
  /-- network number of every line of the grid definition -/
  grid : Option (List Nat) := Option.none
  lc : List LC := List.replicate 33 {}

/-- header fields returned by `decode_head` -/
structure Head where
  udi : Nat
  mi : Nat
  iodssr : Int

/-- `decode_head` of `cssr`: cssrlib.py lines 548-565 -/
def decodeHeadClas (s : St) (msg : BitBuf) (i : Nat) (mask : Bool) : Py (St × Head × Nat) := do
  let (s, i) ← (if mask then do
      let tow ← readU msg i 20
      pure ({ s with tow := tow, tow0 := ((tow / 3600 * 3600 : Nat) : Int) }, i + 20)
    else do
      let dtow ← readU msg i 12
      pure (if s.tow0 ≥ 0 then { s with tow := s.tow0 + dtow } else s, i + 12))
  let s := if s.week ≥ 0 then { s with time := gpst2time s.week s.tow } else s
  let udi ← readU msg i 4
  let mi ← readU msg (i + 4) 1
  let iod ← readU msg (i + 5) 4
  pure (s, ⟨udi, mi, iod⟩, i + 9)

/-- `decode_head` of `cssr_has`: cssr_has.py lines 60-75 -/
def decodeHeadHas (s : St) (msg : BitBuf) (i : Nat) (mask : Bool) : Py (St × Head × Nat) := do
  let (udi, i) ← (if mask then pure (0, i) else do
      let u ← readU msg i 4
      pure (u, i + 4))
  let s := if s.tow0 ≥ 0 then
      let s := { s with tow := s.tow0 + s.toh }
      if s.week ≥ 0 then { s with time := gpst2time s.week s.tow } else s
    else s
  pure (s, ⟨udi, 0, s.iodssr⟩, i)

/-- dispatch of `self.decode_head` -/
def decodeHead (s : St) (msg : BitBuf) (i : Nat) (mask : Bool := false) : Py (St × Head × Nat) :=
  if s.cfg.has then decodeHeadHas s msg i mask else decodeHeadClas s msg i mask

/-- update of `self.lc[inet]` -/
def modLC (s : St) (inet : Nat) (f : LC → LC) : Py St :=
  match s.lc[inet]? with
  | some l => .ok { s with lc := s.lc.set inet (f l) }
  | Option.none => .error .indexError

/-- `set_t0(inet, sat, ctype, t)`: cssrlib.py lines 496-506 -/
def LC.setT0 (l : LC) (sat : Int) (c : CType) (t : GTime) : LC :=
  let z : GTime := ⟨0, 0⟩
  let d := (Dict.get? l.t0 sat).getD
    [(.clock, z), (.orbit, z), (.cbias, z), (.pbias, z), (.hclock, z)]
  { l with t0 := Dict.set l.t0 sat (Dict.set d c t) }

/-- `bs.unpack_from(('u'+str(n))*cnt, msg, i)`; a zero-width field is a bad format -/
def readMany (msg : BitBuf) (i n cnt : Nat) : Py (List Nat) :=
  if n = 0 ∧ cnt ≠ 0 then .error .bitstruct
  else (List.range cnt).mapM fun k => readU msg (i + n * k) n

/-- `bs.unpack_from(('s'+str(n))*cnt, msg, i)` -/
def readManyS (msg : BitBuf) (i n cnt : Nat) : Py (List Int) :=
  if n = 0 ∧ cnt ≠ 0 then .error .bitstruct
  else (List.range cnt).mapM fun k => readS msg (i + n * k) n

/-- satellite loop of the mask message: cssrlib.py lines 607-626 -/
def maskSat (gnss : Nat) (sys : Sys) (prn : List Nat) (cma : Nat) (vc : List Nat) (nsig : Nat)
    (sigR : List Sig) (s : St) (k : Nat) : Py St := do
  let p ← pyGet prn k
  let p := if gnss = 4 then p + 192 else if gnss = 7 then p + 18 else p
  let sat := prn2sat sys p
  let s := { s with sysN := s.sysN ++ [sys], satN := s.satN ++ [sat], gnssN := s.gnssN ++ [gnss] }
  if cma = 1 then do
    let v ← pyGet vc k
    let (sigS, nsigS) := decodeMask v nsig 0
    let sg ← sigS.mapM (pyGet sigR)
    pure { s with nsigN := s.nsigN ++ [nsigS], nsigTotal := s.nsigTotal + nsigS,
                  sigN := Dict.set s.sigN sat sg }
  else
    pure { s with nsigN := s.nsigN ++ [nsig], nsigTotal := s.nsigTotal + nsig,
                  sigN := Dict.set s.sigN sat sigR }

/-- constellation loop body of the mask message: cssrlib.py lines 592-630 -/
def maskGnss (msg : BitBuf) (si : St × Nat) : Py (St × Nat) := do
  let (s, i) := si
  let gnss ← readU msg i 4
  let svmask ← readU msg (i + 4) 40
  let sigmask ← readU msg (i + 44) 16
  let cma ← readU msg (i + 60) 1
  let sys := gnss2sys gnss
  let i := i + 61
  let (prn, nsat) := decodeMask svmask 40
  let (sig, nsig) := decodeMask sigmask 16 0
  let s := { s with gnssIdx := s.gnssIdx ++ [sys], nsatG := s.nsatG.set gnss nsat,
                    nsatN := s.nsatN + nsat }
  let vc ← (if cma = 1 then readMany msg i nsig nsat else pure [])
  let i := if cma = 1 then i + nsig * nsat else i
  let s := { s with nsigMax := max s.nsigMax nsig }
  let sigR ← sig.mapM (ssig2rsig sys .L)
  let s ← (List.range nsat).foldlM (maskSat gnss sys prn cma vc nsig sigR) s
  if s.cfg.has then do
    let nm ← readU msg i 3
    pure ({ s with nmIdx := s.nmIdx.set gnss nm }, i + 3)
  else pure (s, i)

/-- `decode_cssr_mask`: cssrlib.py lines 567-640 -/
def decodeCssrMask (s : St) (msg : BitBuf) (i : Nat) : Py (St × Int) := do
  let (s, head, i) ← decodeHead s msg i true
  let ngnss ← readU msg i 4
  let s := { s with ngnss := ngnss, flgNet := false }
  let i := i + 4
  let s := if s.iodssr ≠ head.iodssr then
      { s with satNP := s.satN, iodssrP := s.iodssr, sigNP := s.sigN } else s
  let s := { s with iodssr := head.iodssr, nsatN := 0, nsigN := [], sysN := [], gnssN := [],
                    satN := [], nsigTotal := 0, sigN := [], nsigMax := 0,
                    nmIdx := List.replicate 16 0, dcm := Option.none, gnssIdx := [],
                    nsatG := List.replicate 16 0 }
  let (s, i) ← (List.range ngnss).foldlM (fun si _ => maskGnss msg si) (s, i)
  let i := if s.cfg.has then i + 6 else i
  let s ← modLC s 0 fun l => { l with cstat := l.cstat ||| 1 <<< CType.mask.num }
  let s ← modLC s 0 fun l => l.setT0 0 .mask s.time
  pure (s, i)

/-- `decode_orb_sat`: cssrlib.py lines 642-660 -/
def decodeOrbSat (s : St) (msg : BitBuf) (i : Nat) (sat : Int) (sys : Sys) (inet : Nat) :
    Py (St × Nat) := do
  let c := s.cfg
  let n := if sys = .gal then 10 else 8
  let iode ← readU msg i n
  let dx ← readS msg (i + n) c.dorbBlen.1
  let dy ← readS msg (i + n + c.dorbBlen.1) c.dorbBlen.2.1
  let dz ← readS msg (i + n + c.dorbBlen.1 + c.dorbBlen.2.1) c.dorbBlen.2.2
  let v := (c.sval dx c.dorbBlen.1 c.dorbScl.1, c.sval dy c.dorbBlen.2.1 c.dorbScl.2.1,
    c.sval dz c.dorbBlen.2.2 c.dorbScl.2.2)
  let neg : Val → Val := Option.map (fun q => -q)
  let v := if c.has then (neg v.1, neg v.2.1, neg v.2.2) else v
  let s ← modLC s inet fun l =>
    { l with iode := Dict.set l.iode sat iode, dorb := Dict.set l.dorb sat v }
  pure (s, i + n + c.dorbBlen.1 + c.dorbBlen.2.1 + c.dorbBlen.2.2)

/-- `decode_clk_sat`: cssrlib.py lines 662-674 -/
def decodeClkSat (s : St) (msg : BitBuf) (i : Nat) (sat : Int) (inet : Nat) : Py (St × Nat) := do
  let c := s.cfg
  let d ← readS msg i c.dclkBlen
  let v := c.sval d c.dclkBlen c.dclkScl
  let v ← (if c.has then do
      let m ← (match s.dcm with
        | Option.none => pure 1
        | some t => Dict.getItem t (sat2prn sat).1)
      pure (v.map (fun q => q * (m : ℚ)))
    else pure v)
  let s ← modLC s inet fun l => { l with dclk := Dict.set l.dclk sat v }
  pure (s, i + c.dclkBlen)

/-- `decode_cbias_sat`: cssrlib.py lines 676-682; `self.lc[inet].cbias[sat]` must exist -/
def decodeCbiasSat (s : St) (msg : BitBuf) (i : Nat) (sat : Int) (rsig : Sig) (inet : Nat) :
    Py (St × Nat) := do
  let c := s.cfg
  let cb ← readS msg i c.cbBlen
  let l ← pyGet s.lc inet
  let d ← Dict.getItem l.cbias sat
  let s ← modLC s inet fun l =>
    { l with cbias := Dict.set l.cbias sat (Dict.set d rsig (c.sval cb c.cbBlen c.cbScl)) }
  pure (s, i + c.cbBlen)

/-- `decode_pbias_sat`: cssrlib.py lines 684-691 -/
def decodePbiasSat (s : St) (msg : BitBuf) (i : Nat) (sat : Int) (rsig : Sig) (inet : Nat) :
    Py (St × Nat) := do
  let c := s.cfg
  let pb ← readS msg i c.pbBlen
  let di ← readU msg (i + c.pbBlen) 2
  let l ← pyGet s.lc inet
  let d ← Dict.getItem l.pbias sat
  let e ← Dict.getItem l.di sat
  let s ← modLC s inet fun l =>
    { l with pbias := Dict.set l.pbias sat (Dict.set d rsig (c.sval pb c.pbBlen c.pbScl)),
             di := Dict.set l.di sat (Dict.set e rsig di) }
  pure (s, i + c.pbBlen + 2)

def setUdi (s : St) (c : CType) (u : Nat) : St :=
  { s with udi := fun c' => if c' = c then u else s.udi c' }
def setIodC (s : St) (c : CType) (u : Int) : St :=
  { s with iodssrC := fun c' => if c' = c then u else s.iodssrC c' }
def setStat (s : St) (inet : Nat) (c : CType) : Py St :=
  modLC s inet fun l => { l with cstat := l.cstat ||| 1 <<< c.num }

/-- `decode_cssr_orb`: cssrlib.py lines 693-709 -/
def decodeCssrOrb (s : St) (msg : BitBuf) (i : Nat) (inet : Nat := 0) : Py (St × Int) := do
  let (s, head, i) ← decodeHead s msg i
  let s := setUdi { s with flgNet := false } .orbit head.udi
  let s ← modLC s inet fun l => { l with dorb := [], iode := [] }
  let (s, i) ← (List.range s.nsatN).foldlM (fun (s, i) k => do
    let sat ← pyGet s.satN k
    let sys ← pyGet s.sysN k
    let (s, i) ← decodeOrbSat s msg i sat sys inet
    let s ← modLC s inet fun l => l.setT0 sat .orbit s.time
    pure (s, i)) (s, i)
  let s ← setStat (setIodC s .orbit head.iodssr) inet .orbit
  pure (s, i)

/-- the HAS delta clock multipliers: cssrlib.py lines 722-727 -/
def readDcm (s : St) (msg : BitBuf) (i : Nat) : Py (St × Nat) :=
  (List.range s.ngnss).foldlM (fun (s, i) k => do
    let sys ← pyGet s.gnssIdx k
    let m ← readU msg i 2
    pure ({ s with dcm := some (Dict.set (s.dcm.getD []) sys (m + 1)) }, i + 2))
    ({ s with dcm := some [] }, i)

/-- `decode_cssr_clk`: cssrlib.py lines 711-739 -/
def decodeCssrClk (s : St) (msg : BitBuf) (i : Nat) (inet : Nat := 0) : Py (St × Int) := do
  let (s, head, i) ← decodeHead s msg i
  let s := setUdi { s with flgNet := false } .clock head.udi
  let l0 ← pyGet s.lc 0
  if l0.cstat &&& (1 <<< CType.mask.num) ≠ 1 <<< CType.mask.num then pure (s, -1)
  else
    let (s, i) ← (if s.cfg.has then readDcm s msg i else pure (s, i))
    let s ← modLC s inet fun l => { l with dclk := [] }
    let (s, i) ← (List.range s.nsatN).foldlM (fun (s, i) k => do
      let sat ← pyGet s.satN k
      let (s, i) ← decodeClkSat s msg i sat inet
      let s ← modLC s inet fun l => l.setT0 sat .clock s.time
      pure (s, i)) (s, i)
    let s := if s.cfg.has then { s with satNP := s.satN } else s
    let s ← setStat (setIodC s .clock head.iodssr) inet .clock
    pure (s, i)

/-- `decode_cssr_cbias`: cssrlib.py lines 741-760 -/
def decodeCssrCbias (s : St) (msg : BitBuf) (i : Nat) (inet : Nat := 0) : Py (St × Int) := do
  let (s, head, i) ← decodeHead s msg i
  let s := setUdi { s with flgNet := false } .cbias head.udi
  let s ← modLC s inet fun l => { l with cbias := [] }
  let (s, i) ← (List.range s.nsatN).foldlM (fun (s, i) k => do
    let sat ← pyGet s.satN k
    let s ← modLC s inet fun l => { l with cbias := Dict.set l.cbias sat [] }
    let sigs ← Dict.getItem s.sigN sat
    sigs.foldlM (fun (s, i) g => do
      let (s, i) ← decodeCbiasSat s msg i sat (toTyp g .C) inet
      let s ← modLC s inet fun l => l.setT0 sat .cbias s.time
      pure (s, i)) (s, i)) (s, i)
  let s ← setStat (setIodC s .cbias head.iodssr) inet .cbias
  pure (s, i)

/-- `decode_cssr_pbias`: cssrlib.py lines 762-783 -/
def decodeCssrPbias (s : St) (msg : BitBuf) (i : Nat) (inet : Nat := 0) : Py (St × Int) := do
  let (s, head, i) ← decodeHead s msg i
  let s := setUdi { s with flgNet := false } .pbias head.udi
  let s ← modLC s inet fun l => { l with pbias := [], di := [] }
  let (s, i) ← (List.range s.nsatN).foldlM (fun (s, i) k => do
    let sat ← pyGet s.satN k
    let s ← modLC s inet fun l => { l with pbias := Dict.set l.pbias sat [], di := Dict.set l.di sat [] }
    let sigs ← Dict.getItem s.sigN sat
    sigs.foldlM (fun (s, i) g => do
      let (s, i) ← decodePbiasSat s msg i sat (toTyp g .L) inet
      let s ← modLC s inet fun l => l.setT0 sat .pbias s.time
      pure (s, i)) (s, i)) (s, i)
  let s ← setStat (setIodC s .pbias head.iodssr) inet .pbias
  pure (s, i)

/-- `decode_local_sat(netmask)`: cssrlib.py lines 530-537 -/
def decodeLocalSat (s : St) (netmask : Nat) : Py (List Int) :=
  (List.range s.nsatN).foldlM (fun acc k => do
    let b ← isset netmask s.nsatN k
    if b then do
      let sat ← pyGet s.satN k
      pure (acc ++ [sat])
    else pure acc) []

/-- `bs.unpack_from('u'+str(n), …)` with `n` possibly zero (a bad format) -/
def readUnz (msg : BitBuf) (i n : Nat) : Py Nat :=
  if n = 0 then .error .bitstruct else readU msg i n

/-- `decode_cssr_bias`: cssrlib.py lines 785-838.  The satellite mask `v` is only assigned when
the network flag is set, so the loop raises for a message without it. -/
def decodeCssrBias (s : St) (msg : BitBuf) (i : Nat) (inet : Nat := 0) : Py (St × Int) := do
  let (s, head, i) ← decodeHead s msg i
  let cb ← readU msg i 1
  let pb ← readU msg (i + 1) 1
  let net ← readU msg (i + 2) 1
  let s := { s with flgNet := net = 1 }
  let i := i + 3
  let (s, i, inet, mask) ← (if net = 1 then do
      let inet ← readU msg i 5
      let m ← readUnz msg (i + 5) s.nsatN
      let sats ← decodeLocalSat s m
      let i := i + 5 + s.nsatN
      let s ← modLC { s with inet := inet } inet fun l => { l with satN := sats, nsatN := sats.length }
      pure (s, i, inet, some m)
    else pure (s, i, inet, Option.none))
  let s ← (if cb = 1 then do
      let s ← modLC s inet fun l => { l with cbias := [] }
      pure (setUdi s .cbias head.udi)
    else pure s)
  let s ← (if pb = 1 then do
      let s ← modLC s inet fun l => { l with pbias := [], di := [] }
      pure (setUdi s .pbias head.udi)
    else pure s)
  let (s, i) ← (List.range s.nsatN).foldlM (fun (s, i) k => do
    let m ← (match mask with
      | some m => pure m
      | Option.none => throw .unboundLocal)
    let b ← isset m s.nsatN k
    if b then do
      let sat ← pyGet s.satN k
      let s ← (if cb = 1 then modLC s inet fun l => { l with cbias := Dict.set l.cbias sat [] }
        else pure s)
      let s ← (if pb = 1 then
          modLC s inet fun l => { l with pbias := Dict.set l.pbias sat [], di := Dict.set l.di sat [] }
        else pure s)
      let nsig ← pyGet s.nsigN k
      (List.range nsig).foldlM (fun (s, i) j => do
        let (s, i) ← (if cb = 1 then do
            let sigs ← Dict.getItem s.sigN sat
            let g ← pyGet sigs j
            let (s, i) ← decodeCbiasSat s msg i sat (toTyp g .C) inet
            let s ← modLC s inet fun l => l.setT0 sat .cbias s.time
            pure (s, i)
          else pure (s, i))
        if pb = 1 then do
          let sigs ← Dict.getItem s.sigN sat
          let g ← pyGet sigs j
          let (s, i) ← decodePbiasSat s msg i sat (toTyp g .L) inet
          let s ← modLC s inet fun l => l.setT0 sat .pbias s.time
          pure (s, i)
        else pure (s, i)) (s, i)
    else pure (s, i)) (s, i)
  let s ← (if cb = 1 then setStat (setIodC s .cbias head.iodssr) inet .cbias else pure s)
  let s ← (if pb = 1 then setStat (setIodC s .pbias head.iodssr) inet .pbias else pure s)
  pure (s, i)

/-- `decode_cssr_ura`: cssrlib.py lines 840-856 -/
def decodeCssrUra (s : St) (msg : BitBuf) (i : Nat) (inet : Nat := 0) : Py (St × Int) := do
  let (s, head, i) ← decodeHead s msg i
  if s.iodssr ≠ head.iodssr then pure (s, -1)
  else
    let s := setUdi s .ura head.udi
    let s ← modLC s inet fun l => { l with ura := [] }
    let (s, i) ← (List.range s.nsatN).foldlM (fun (s, i) k => do
      let sat ← pyGet s.satN k
      let cl ← readU msg i 3
      let v ← readU msg (i + 3) 3
      let s ← modLC s inet fun l => { l with ura := Dict.set l.ura sat (qualityIdx cl v) }
      pure (s, i + 6)) (s, i)
    let s ← setStat s inet .ura
    let s ← modLC s 0 fun l => l.setT0 0 .ura s.time
    pure (s, i)

/-- `decode_cssr_stec_coeff`: cssrlib.py lines 858-878 -/
def decodeStecCoeff (s : St) (msg : BitBuf) (stype : Nat) (i : Nat) : Py (List Val × Nat) := do
  let sv := s.cfg.sval
  let c0 ← readS msg i 14
  let i := i + 14
  let (c12, i) ← (if stype > 0 then do
      let a ← readS msg i 12
      let b ← readS msg (i + 12) 12
      pure ([sv a 12 (2 / 100), sv b 12 (2 / 100)], i + 24)
    else pure ([some 0, some 0], i))
  let (c3, i) ← (if stype > 1 then do
      let a ← readS msg i 10
      pure ([sv a 10 (2 / 100)], i + 10)
    else pure ([some 0], i))
  let (c45, i) ← (if stype > 2 then do
      let a ← readS msg i 8
      let b ← readS msg (i + 8) 8
      pure ([sv a 8 (5 / 1000), sv b 8 (5 / 1000)], i + 16)
    else pure ([some 0, some 0], i))
  pure ([sv c0 14 (5 / 100)] ++ c12 ++ c3 ++ c45, i)

/-- `decode_cssr_stec`: cssrlib.py lines 880-908 -/
def decodeCssrStec (s : St) (msg : BitBuf) (i : Nat) : Py (St × Int) := do
  let (s, head, i) ← decodeHead s msg i
  if s.iodssr ≠ head.iodssr then pure (s, -1)
  else
    let s := { s with flgNet := true }
    let stype ← readU msg i 2
    let inet ← readU msg (i + 2) 5
    let m ← readUnz msg (i + 7) s.nsatN
    let i := i + 7 + s.nsatN
    let sats ← decodeLocalSat s m
    let s ← modLC s inet fun l => { l with netmask := m, satN := sats, nsatN := sats.length,
                                           stecQ := [], flgStec := 2, ci := [], stype := [] }
    let s := setUdi s .stec head.udi
    let (s, i) ← sats.foldlM (fun (s, i) sat => do
      let s ← modLC s inet fun l => l.setT0 sat .stec s.time
      let cl ← readU msg i 3
      let v ← readU msg (i + 3) 3
      let i := i + 6
      let s ← modLC s inet fun l => { l with stecQ := Dict.set l.stecQ sat (qualityIdx cl v) }
      let (c, i) ← decodeStecCoeff s msg stype i
      let s ← modLC s inet fun l => { l with ci := Dict.set l.ci sat c }
      pure (s, i)) (s, i)
    let s ← setStat s inet .stec
    pure (s, i)

/-- `decode_cssr_grid`: cssrlib.py lines 910-975.  The inner dictionaries `dstec[sat][j]` have the keys
`0, 1, …` in this order and are modelled as lists; a satellite listed twice overwrites its entry. -/
def decodeCssrGrid (s : St) (msg : BitBuf) (i : Nat) : Py (St × Int) := do
  let (s, head, i) ← decodeHead s msg i
  if s.iodssr ≠ head.iodssr then pure (s, -1)
  else
    let sv := s.cfg.sval
    let ttype ← readU msg i 2
    let range ← readU msg (i + 2) 1
    let inet ← readU msg (i + 3) 5
    let m ← readUnz msg (i + 8) s.nsatN
    let cl ← readU msg (i + 8 + s.nsatN) 3
    let va ← readU msg (i + 11 + s.nsatN) 3
    let ng ← readU msg (i + 14 + s.nsatN) 6
    let i := i + 20 + s.nsatN
    let s := setUdi { s with flgNet := true } .trop head.udi
    let sats ← decodeLocalSat s m
    let s ← modLC s inet fun l => { l with netmask := m, satN := sats, nsatN := sats.length,
                                           ng := ng, tropQ := qualityIdx cl va }
    let grid ← (match s.grid with
      | some g => pure g
      | Option.none => throw .typeError)
    let s ← (if grid.contains inet then modLC s inet fun l => { l with mapAt := some s.time }
      else pure s)
    let sz := if range = 0 then 7 else 16
    let zero : List Val := List.replicate ng (some 0)
    let s ← modLC s inet fun l =>
      { l with dth := zero, dtw := zero, ct0 := [some (23 / 10), some 0, some 0, some 0],
               ct1 := [some (252 / 1000), some 0, some 0, some 0],
               dstec := sats.foldl (fun d sat => Dict.set d sat []) [],
               sSz := sats.foldl (fun d sat => Dict.set d sat sz) [],
               flgTrop := if ttype > 0 then 3 else 0 }
    let (s, i) ← (List.range ng).foldlM (fun (s, i) j => do
      let (s, i) ← (if ttype > 0 then do
          let h ← readS msg i 9
          let w ← readS msg (i + 9) 8
          let s ← modLC s inet fun l => { l with dth := l.dth.set j (sv h 9 (4 / 1000)),
                                                 dtw := l.dtw.set j (sv w 8 (4 / 1000)) }
          pure (s, i + 17)
        else pure (s, i))
      sats.foldlM (fun (s, i) sat => do
        let d ← readS msg i sz
        let l ← pyGet s.lc inet
        let old ← Dict.getItem l.dstec sat
        let s ← modLC s inet fun l =>
          { l with dstec := Dict.set l.dstec sat (old.take j ++ [sv d sz (4 / 100)]) }
        pure (s, i + sz)) (s, i)) (s, i)
    let s ← setStat s inet .trop
    let s ← sats.foldlM (fun s sat => modLC s inet fun l => l.setT0 sat .trop s.time) s
    pure (s, i)

/-- `decode_cssr_sinfo`: cssrlib.py lines 982-996 -/
def decodeCssrSinfo (s : St) (msg : BitBuf) (i : Nat) : Py (St × Int) := do
  let _mi ← readU msg i 1
  let cnt ← readU msg (i + 1) 3
  let dsize ← readU msg (i + 4) 2
  let s := { s with flgNet := false }
  let i := i + 6
  let n := dsize + 1
  let (s, i, _) ← (List.range n).foldlM (fun (s, i, j) _ => do
    let d ← readU msg i 40
    let b ← writeU s.sinfo j 40 d
    pure ({ s with sinfo := b }, i + 40, j + 40)) (s, i, n * 40 * cnt)
  pure (s, i)

/-- `decode_cssr_comb`: cssrlib.py lines 998-1037 -/
def decodeCssrComb (s : St) (msg : BitBuf) (i : Nat) (inet : Nat := 0) : Py (St × Int) := do
  let (s, head, i) ← decodeHead s msg i
  if s.iodssr ≠ head.iodssr then pure (s, -1)
  else
    let orb ← readU msg i 1
    let clk ← readU msg (i + 1) 1
    let net ← readU msg (i + 2) 1
    let i := i + 3
    let s := { s with flgNet := net = 1 }
    let (s, i, inet, mask) ← (if net = 1 then do
        let inet ← readU msg i 5
        let m ← readUnz msg (i + 5) s.nsatN
        let i := i + 5 + s.nsatN
        let s ← modLC { s with inet := inet } inet fun l => { l with svmask := m }
        pure (s, i, inet, m)
      else pure (s, i, inet, 0))
    let s ← (if orb = 1 then do
        let s ← modLC s inet fun l => { l with dorb := [], iode := [] }
        pure (setUdi s .orbit head.udi)
      else pure s)
    let s ← (if clk = 1 then do
        let s ← modLC s inet fun l => { l with dclk := [] }
        pure (setUdi s .clock head.udi)
      else pure s)
    let (s, i) ← (List.range s.nsatN).foldlM (fun (s, i) k => do
      let b ← (if net = 1 then isset mask s.nsatN k else pure true)
      if b then do
        let sat ← pyGet s.satN k
        let (s, i) ← (if orb = 1 then do
            let sys ← pyGet s.sysN k
            let (s, i) ← decodeOrbSat s msg i sat sys inet
            let s ← modLC s inet fun l => l.setT0 sat .orbit s.time
            pure (s, i)
          else pure (s, i))
        if clk = 1 then do
          let (s, i) ← decodeClkSat s msg i sat inet
          let s ← modLC s inet fun l => l.setT0 sat .clock s.time
          pure (s, i)
        else pure (s, i)
      else pure (s, i)) (s, i)
    let s ← (if clk = 1 then setStat s inet .clock else pure s)
    let s ← (if orb = 1 then setStat s inet .orbit else pure s)
    pure (s, i)

/-- `stec_sz_t`, `stec_scl_t`: cssrlib.py lines 278-279 -/
def stecSz : List Nat := [4, 4, 5, 7]
def stecScl : List ℚ := [4 / 100, 12 / 100, 16 / 100, 24 / 100]

/-- troposphere part of the atmospheric message: cssrlib.py lines 1053-1095 -/
def decodeAtmosTrop (s : St) (msg : BitBuf) (i trop inet ng : Nat) (udi : Nat) : Py (St × Nat) := do
  let sv := s.cfg.sval
  let (s, i) ← (if trop > 0 then do
      let cl ← readU msg i 3
      let va ← readU msg (i + 3) 3
      let s ← modLC s inet fun l => { l with tropQ := qualityIdx cl va }
      let s := setUdi s .trop udi
      let grid ← (match s.grid with
        | some g => pure g
        | Option.none => throw .typeError)
      let s ← (if grid.contains inet then modLC s inet fun l => { l with mapAt := some s.time }
        else throw .indexError)
      pure (s, i + 6)
    else pure (s, i))
  let z : List Val := [some 0, some 0, some 0, some 0]
  let s ← modLC s inet fun l => { l with ct0 := z, ct1 := z }
  let (s, i) ← (if trop &&& 2 ≠ 0 then do
      let tt ← readU msg i 2
      let t00 ← readS msg (i + 2) 9
      let i := i + 11
      let s ← modLC s inet fun l =>
        { l with ttype := tt, ct0 := l.ct0.set 0 ((sv t00 9 (4 / 1000)).map (· + 23 / 10)) }
      let (s, i) ← (if tt > 0 then do
          let a ← readS msg i 7
          let b ← readS msg (i + 7) 7
          let s ← modLC s inet fun l =>
            { l with ct0 := (l.ct0.set 1 (sv a 7 (2 / 1000))).set 2 (sv b 7 (2 / 1000)) }
          pure (s, i + 14)
        else pure (s, i))
      if tt > 1 then do
        let a ← readS msg i 7
        let s ← modLC s inet fun l => { l with ct0 := l.ct0.set 3 (sv a 7 (1 / 1000)) }
        pure (s, i + 7)
      else pure (s, i)
    else pure (s, i))
  if trop &&& 1 ≠ 0 then do
    let szf ← readU msg i 1
    let ofst ← readU msg (i + 1) 4
    let i := i + 5
    let sz := if szf = 0 then 6 else 8
    let vtr ← readManyS msg i sz ng
    let s ← modLC s inet fun l =>
      { l with ct1 := l.ct1.set 0 (some ((ofst : ℚ) * (2 / 100))),
               dtw := vtr.map fun v => sv v sz (4 / 1000) }
    pure (s, i + sz * ng)
  else pure (s, i)

/-- satellite loop of the atmospheric message: cssrlib.py lines 1111-1139 -/
def decodeAtmosSat (msg : BitBuf) (stec inet ng : Nat) (si : St × Nat) (sat : Int) :
    Py (St × Nat) := do
  let (s, i) := si
  let sv := s.cfg.sval
  let s ← modLC s inet fun l => l.setT0 sat .stec s.time
  let (s, i) ← (if stec > 0 then do
      let cl ← readU msg i 3
      let va ← readU msg (i + 3) 3
      let s ← modLC s inet fun l => { l with stecQ := Dict.set l.stecQ sat (qualityIdx cl va) }
      pure (s, i + 6)
    else pure (s, i))
  let (s, i) ← (if stec &&& 2 > 0 then do
      let st ← readU msg i 2
      let s ← modLC s inet fun l => { l with stype := Dict.set l.stype sat st }
      let (c, i) ← decodeStecCoeff s msg st (i + 2)
      let s ← modLC s inet fun l => { l with ci := Dict.set l.ci sat c }
      pure (s, i)
    else pure (s, i))
  if stec &&& 1 > 0 then do
    let szi ← readU msg i 2
    let i := i + 2
    let sz ← pyGet stecSz szi
    let scl ← pyGet stecScl szi
    let v ← readManyS msg i sz ng
    let s ← modLC s inet fun l =>
      { l with sSz := Dict.set l.sSz sat sz,
               dstec := Dict.set l.dstec sat (v.map fun u => sv u sz scl) }
    pure (s, i + sz * ng)
  else pure (s, i)

/-- `decode_cssr_atmos`: cssrlib.py lines 1039-1148 (`dfm['stec'] & 2 > 0` parses as
`dfm['stec'] & (2 > 0)` in C but as `(dfm['stec'] & 2) > 0` in Python) -/
def decodeCssrAtmos (s : St) (msg : BitBuf) (i : Nat) : Py (St × Int) := do
  let (s, head, i) ← decodeHead s msg i
  if s.iodssr ≠ head.iodssr then pure (s, -1)
  else
    let trop ← readU msg i 2
    let stec ← readU msg (i + 2) 2
    let inet ← readU msg (i + 4) 5
    let ng ← readU msg (i + 9) 6
    let s ← modLC { s with flgNet := true } inet fun l =>
      { l with ng := ng, flgTrop := trop, flgStec := stec }
    let i := i + 15
    let (s, i) ← decodeAtmosTrop s msg i trop inet ng head.udi
    let m ← readUnz msg i s.nsatN
    let i := i + s.nsatN
    let sats ← decodeLocalSat s m
    let s ← modLC s inet fun l => { l with netmask := m, satN := sats, nsatN := sats.length, stecQ := [] }
    let s := setUdi s .stec head.udi
    let s ← (if stec &&& 2 > 0 then modLC s inet fun l => { l with ci := [], stype := [] } else pure s)
    let s ← (if stec &&& 1 > 0 then modLC s inet fun l => { l with dstec := [], sSz := [] } else pure s)
    let (s, i) ← sats.foldlM (decodeAtmosSat msg stec inet ng) (s, i)
    let s ← (if trop > 0 then do
        let s ← setStat s inet .trop
        modLC s inet fun l => l.setT0 0 .trop s.time
      else pure s)
    let s ← (if stec > 0 then setStat s inet .stec else pure s)
    pure (s, i)

/-- one sub-type dispatch of `decode_cssr`: cssrlib.py lines 1158-1183 (an unknown sub-type
leaves the cursor unchanged) -/
def decodeSub (s : St) (msg : BitBuf) (i : Nat) (sub : Nat) : Py (St × Int) :=
  match sub with
  | 1 => decodeCssrMask s msg i
  | 2 => decodeCssrOrb s msg i
  | 3 => decodeCssrClk s msg i
  | 4 => decodeCssrCbias s msg i
  | 5 => decodeCssrPbias s msg i
  | 6 => decodeCssrBias s msg i
  | 7 => decodeCssrUra s msg i
  | 8 => decodeCssrStec s msg i
  | 9 => decodeCssrGrid s msg i
  | 10 => decodeCssrSinfo s msg i
  | 11 => decodeCssrComb s msg i
  | 12 => decodeCssrAtmos s msg i
  | _ => .ok (s, i)

/-- `decode_cssr(msg, i)`: cssrlib.py lines 1150-1193.  `fuel` bounds the number of messages in
the buffer: every round consumes at least the 16 bits of the message header, so `msg.length + 1`
rounds suffice (theorem `C12.fuel_enough`). -/
def decodeCssrLoop : (fuel : Nat) → (s : St) → (msg : BitBuf) → (i : Nat) → Py (St × Int)
  | 0, s, _, _ => .ok (s, 0)
  | fuel + 1, s, msg, i => do
    let mt ← readU msg i 12
    let sub ← readU msg (i + 12) 4
    if mt ≠ 4073 then pure (s, -1)
    else
      let (s, j) ← decodeSub { s with subtype := sub } msg (i + 16) sub
      if j ≤ 0 then pure (s, 0) else decodeCssrLoop fuel s msg j.toNat

def decodeCssr (s : St) (msg : BitBuf) (i : Nat := 0) : Py (St × Int) :=
  decodeCssrLoop (msg.length + 1) s msg i

/-- `chk_stat()`: cssrlib.py lines 1195-1205; `inetRef` is the Python list index `inet_ref`
(`-1` before a network has been chosen), `localPbias` the class attribute. -/
def chkStat (lc : List LC) (inetRef : Int) (localPbias : Bool) : Py Bool := do
  let g ← pyGet lc 0
  let l ← pyGetI lc inetRef
  if g.cstat &&& 0x0f ≠ 0x0f then pure false
  else if l.cstat &&& 0x60 ≠ 0x60 then pure false
  else if localPbias && (l.cstat &&& 0x10 != 0x10) then pure false
  else pure true

end Verif.Cssr
