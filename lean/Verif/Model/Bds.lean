import Verif.Model.Cssr
/-!
Model of the BeiDou PPP-B2b decoder, class `cssr_bds` of `src/cssrlib/cssr_bds.py`, and of the
part of `satposs`/`satpos` (`src/cssrlib/ephemeris.py` lines 358-369, 594-602) that combines its
orbit and clock corrections.

Simplifications: floats are exact rationals, NaN is `none`; logging is left out; when an exception
is raised the partially updated object is not modelled.
-/

namespace Verif.Bds
open Verif.Sat Verif.Sig Verif.Mask Verif.Time Verif.Sval
open Verif.Cssr (CType qualityIdx gnss2sys)

/-- signal tables of `ssig2rsig`: cssr_bds.py lines 26-63 (`uSIG` values of gnss.py 199-316) -/
def sigTbl : Sys → Option (List (Nat × Int))
  | .gps => some [(0, 103), (1, 116), (4, 112), (5, 124), (7, 212), (8, 224), (11, 509),
      (12, 517), (13, 524)]
  | .glo => some [(0, 103), (1, 116), (2, 203)]
  | .gal => some [(1, 102), (2, 103), (4, 517), (5, 509), (7, 709), (8, 717), (11, 603)]
  | .bds => some [(0, 209), (1, 104), (2, 116), (4, 504), (5, 516), (7, 704), (8, 716), (12, 609)]
  | _ => Option.none

/-- `ssig2rsig(sys, utyp, ssig)`: cssr_bds.py lines 25-72 -/
def ssig2rsig (sys : Sys) (typ : Typ) (ssig : Nat) : Py Sig :=
  match sigTbl sys with
  | Option.none => .error .keyError
  | some t => match Dict.get? t ssig with
    | some g => .ok ⟨sys, typ, g⟩
    | Option.none => .error .keyError

/-- `slot2prn(slot)`: cssr_bds.py lines 81-96 -/
def slot2prn (slot : Int) : Sys × Int :=
  if slot ≥ 1 ∧ slot ≤ 63 then (.bds, slot)
  else if slot ≤ 100 then (.gps, slot - 63)
  else if slot ≤ 137 then (.gal, slot - 100)
  else if slot ≤ 174 then (.glo, slot - 137)
  else (.none, 0)

/-- the satellite number of a slot as used by the decoders: cssr_bds.py lines 189-192, 240-241 -/
def slotSat (slot : Int) : Int := prn2sat (slot2prn slot).1 (slot2prn slot).2

/-- the decoder object: the attributes of `cssr`/`cssr_bds`/`local_corr` the decoder uses
(`lc[0]` only, `MAXNET` is 1 and every call uses `inet = 0`) -/
structure St where
  week : Int := -1
  tow0 : Int := -1
  tow : Int := 0
  tod : Nat := 0
  time : GTime := ⟨0, 0⟩
  iodssr : Int := -1
  iodssrP : Int := -1
  iodssrC : CType → Int := fun _ => -1
  iodp : Int := -1
  iodpP : Int := -1
  nsatN : Nat := 0
  ngnss : Nat := 0
  nsatG : List Nat := List.replicate 16 0
  sysN : List Sys := []
  satN : List Int := []
  gnssN : List Nat := []
  satNP : List Int := []
  cstat : Nat := 0
  iode : Dict Int Nat := []
  iodc : Dict Int Nat := []
  dorb : Dict Int (Val × Val × Val) := []
  iodcC : Dict Int Nat := []
  dclk : Dict Int Val := []
  iodcCP : Dict Int Nat := []
  dclkP : Dict Int Val := []
  cbias : Dict Int (Dict Sig Val) := []
  ura : Dict Int Val := []
  t0 : Dict Int (Dict CType GTime) := []

/-- `if sat not in t0: t0[sat] = {}; t0[sat][c] = time` -/
def setT0 (s : St) (sat : Int) (c : CType) : St :=
  { s with t0 := Dict.set s.t0 sat (Dict.set ((Dict.get? s.t0 sat).getD []) c s.time) }

def setStat (s : St) (c : CType) : St := { s with cstat := s.cstat ||| 1 <<< c.num }

def setIodC (s : St) (c : CType) (u : Int) : St :=
  { s with iodssrC := fun c' => if c' = c then u else s.iodssrC c' }

/-- `decode_head(msg, i, st)`: cssr_bds.py lines 98-111; returns the issue number -/
def decodeHead (s : St) (msg : BitBuf) (i : Nat) (mask : Bool := false) : Py (St × Nat × Nat) := do
  let tod ← readU msg i 17
  let _ ← readU msg (i + 17) 4
  let iod ← readU msg (i + 21) 2
  let s := { s with tod := tod }
  let s := if mask then { s with iodssr := iod } else s
  let s := if s.tow0 ≥ 0 then
      let s := { s with tow := s.tow0 + tod }
      if s.week ≥ 0 then { s with time := bdt2gpst (bdt2time s.week s.tow) } else s
    else s
  pure (s, iod, i + 23)

/-- `add_gnss(mask, blen, gnss)`: cssr_bds.py lines 113-124 -/
def addGnss (s : St) (mask blen gnss : Nat) : St :=
  let (prn, nsat) := decodeMask mask blen
  let sys := gnss2sys gnss
  { s with nsatG := s.nsatG.set gnss nsat
           nsatN := s.nsatN + nsat
           ngnss := if nsat > 0 then s.ngnss + 1 else s.ngnss
           sysN := s.sysN ++ prn.map fun _ => sys
           satN := s.satN ++ prn.map fun p : Nat => prn2sat sys (p : Int)
           gnssN := s.gnssN ++ prn.map fun _ => gnss }

/-- the branch of `decode_cssr_mask` taken when the mask number changes: cssr_bds.py
lines 137-173 -/
def newMask (s : St) (mb mg me mr : Nat) : St :=
  let s := { s with satNP := s.satN, iodssrP := s.iodssr, iodpP := s.iodp, nsatN := 0, sysN := [],
                    gnssN := [], satN := [], ngnss := 0, nsatG := List.replicate 16 0 }
  let s := addGnss (addGnss (addGnss (addGnss s mb 63 3) mg 37 0) me 37 2) mr 37 1
  { s with dclk := [], dorb := [], iode := [], iodc := [], iodcC := [], cbias := [], ura := [],
           dclkP := [], iodcCP := [] }

/-- `decode_cssr_mask`: cssr_bds.py lines 126-179 -/
def decodeMsgMask (s : St) (msg : BitBuf) (i : Nat) : Py (St × Int) := do
  let (s, iod, i) ← decodeHead s msg i true
  let iodp ← readU msg i 4
  let s := { s with iodp := iodp }
  let mb ← readU msg (i + 4) 63
  let mg ← readU msg (i + 67) 37
  let me ← readU msg (i + 104) 37
  let mr ← readU msg (i + 141) 37
  let s := if s.iodp ≠ s.iodpP then newMask s mb mg me mr else s
  let s := { s with iodssr := iod }
  pure (setStat s .mask, ((i + 178 : Nat) : Int))

/-- `decode_cssr_orb_sat`: cssr_bds.py lines 181-217 -/
def orbSat (s : St) (msg : BitBuf) (i : Nat) (satN : List Int) : Py (St × Nat) := do
  let slot ← readU msg i 9
  let iodn ← readU msg (i + 9) 10
  let iodc ← readU msg (i + 19) 3
  let dx ← readS msg (i + 22) 15
  let dy ← readS msg (i + 37) 13
  let dz ← readS msg (i + 50) 13
  let ucls ← readU msg (i + 63) 3
  let uval ← readU msg (i + 66) 3
  let (sys, prn) := slot2prn slot
  if sys = .none then pure (s, i + 69)
  else
    let sat := prn2sat sys prn
    if sat ∉ satN then pure (s, i + 69)
    else
      let iodn := if sys = .gps ∨ sys = .bds then iodn &&& 0xff else iodn
      let s := { s with
        iode := Dict.set s.iode sat iodn
        iodc := Dict.set s.iodc sat iodc
        dorb := Dict.set s.dorb sat (svalBds dx 15 (16 / 10000), svalBds dy 13 (64 / 10000),
          svalBds dz 13 (64 / 10000))
        ura := Dict.set s.ura sat (qualityIdx ucls uval) }
      pure (setT0 s sat .orbit, i + 69)

/-- `decode_cssr_orb` (message type 2): cssr_bds.py lines 219-233 -/
def decodeMsgOrb (s : St) (msg : BitBuf) (i : Nat) : Py (St × Int) := do
  let (s, iod, i) ← decodeHead s msg i
  if s.iodssr ≠ iod then pure (s, -1)
  else
    let satN := s.satN
    let (s, i) ← (List.range 6).foldlM (fun (s, i) _ => orbSat s msg i satN) (s, i)
    pure (setStat (setIodC s .orbit iod) .orbit, ((i + 19 : Nat) : Int))

/-- satellite loop body of `decode_cssr_cbias`: cssr_bds.py lines 247-266.  A satellite outside the
mask is skipped without skipping its biases. -/
def cbiasSat (s : St) (msg : BitBuf) (i : Nat) : Py (St × Nat) := do
  let slot ← readU msg i 9
  let nsig ← readU msg (i + 9) 4
  let (sys, prn) := slot2prn slot
  let sat := prn2sat sys prn
  if sat ∉ s.satN then pure (s, i + 13)
  else
    let s := setT0 s sat .cbias
    let (d, i) ← (List.range nsig).foldlM (fun ((d, i) : Dict Sig Val × Nat) _ => do
      let sig ← readU msg i 4
      let cb ← readS msg (i + 4) 12
      let g ← ssig2rsig sys .C sig
      pure (Dict.set d g (svalBds cb 12 (17 / 1000)), i + 16)) ([], i + 13)
    pure ({ s with cbias := Dict.set s.cbias sat d }, i)

/-- `decode_cssr_cbias` (message type 3): cssr_bds.py lines 235-271 -/
def decodeMsgCbias (s : St) (msg : BitBuf) (i : Nat) : Py (St × Int) := do
  let (s, iod, i) ← decodeHead s msg i
  if s.iodssr ≠ iod then pure (s, -1)
  else
    let nsat ← readU msg i 5
    let (s, i) ← (List.range nsat).foldlM (fun (s, i) _ => cbiasSat s msg i) (s, i + 5)
    pure (setStat (setIodC s .cbias iod) .cbias, (i : Int))

/-- `decode_cssr_clk_sat`: cssr_bds.py lines 273-287 -/
def clkSat (s : St) (msg : BitBuf) (i : Nat) (sat : Int) : Py (St × Nat) := do
  let iodc ← readU msg i 3
  let dclk ← readS msg (i + 3) 15
  let s ← (match Dict.get? s.iodcC sat with
    | some c => if iodc ≠ c then do
        let d ← Dict.getItem s.dclk sat
        pure { s with iodcCP := Dict.set s.iodcCP sat c, dclkP := Dict.set s.dclkP sat d }
      else pure s
    | Option.none => pure s)
  pure ({ s with iodcC := Dict.set s.iodcC sat iodc,
                 dclk := Dict.set s.dclk sat ((svalBds dclk 15 (16 / 10000)).map (fun q => -q)) },
    i + 18)

/-- `decode_cssr_clk` (message type 4): cssr_bds.py lines 289-314 -/
def decodeMsgClk (s : St) (msg : BitBuf) (i : Nat) : Py (St × Int) := do
  let (s, iod, i) ← decodeHead s msg i
  if s.iodssr ≠ iod then pure (s, -1)
  else
    let iodp ← readU msg i 4
    let st1 ← readU msg (i + 4) 5
    let i := i + 9
    if (iodp : Int) ≠ s.iodp then pure (s, ((i + 23 * 18 + 10 : Nat) : Int))
    else
      let (s, i) ← (List.range 23).foldlM (fun (s, i) k => do
        let idx := st1 * 23 + k
        if idx < s.nsatN then do
          let sat ← pyGet s.satN idx
          let (s, i) ← clkSat s msg i sat
          pure (setT0 s sat .clock, i)
        else pure (s, i)) (s, i)
      pure (setStat (setIodC s .clock iod) .clock, ((i + 10 : Nat) : Int))

/-- `decode_cssr_ura` (message type 5): cssr_bds.py lines 316-334 -/
def decodeMsgUra (s : St) (msg : BitBuf) (i : Nat) : Py (St × Int) := do
  let (s, iod, i) ← decodeHead s msg i
  if s.iodssr ≠ iod then pure (s, -1)
  else
    let _ ← readU msg i 4
    let st2 ← readU msg (i + 4) 3
    let (s, i) ← (List.range 70).foldlM (fun (s, i) k => do
      let c ← readU msg i 3
      let v ← readU msg (i + 3) 3
      let idx := st2 * 70 + k
      if idx < s.nsatN then do
        let sat ← pyGet s.satN idx
        pure ({ s with ura := Dict.set s.ura sat (qualityIdx c v) }, i + 6)
      else pure (s, i + 6)) (s, i + 7)
    pure (setStat s .ura, (i : Int))

/-- `decode_cssr_comb1` (message type 6): cssr_bds.py lines 336-357.  As in the code the two counts
are read but not skipped, and the issue number is not compared. -/
def decodeMsgComb1 (s : St) (msg : BitBuf) (i : Nat) : Py (St × Int) := do
  let numc ← readU msg i 5
  let numo ← readU msg (i + 5) 3
  let satN := s.satN
  let (s, i) ← (if numc > 0 then do
      let slotS ← readU msg (i + 27) 9
      (List.range numc).foldlM (fun (s, i) k => do
        let sat ← pyGet s.satN (slotS + k)
        clkSat s msg i sat) (s, i + 36)
    else pure (s, i))
  let (s, i) ← (if numo > 0 then do
      let _ ← readU msg i 23
      (List.range numo).foldlM (fun (s, i) _ => orbSat s msg i satN) (s, i + 23)
    else pure (s, i))
  pure (s, (i : Int))

/-- `decode_cssr_comb2` (message type 7): cssr_bds.py lines 356-377.  `slot` is the tuple returned
by `unpack_from`, so `slot >= 1` in `slot2prn` raises when the message has a clock part. -/
def decodeMsgComb2 (s : St) (msg : BitBuf) (i : Nat) : Py (St × Int) := do
  let numc ← readU msg i 5
  let numo ← readU msg (i + 5) 3
  let satN := s.satN
  if numc > 0 then do
    let _ ← readU msg i 23
    let _ ← readU msg (i + 23) 9
    .error .typeError
  else
    let (s, i) ← (if numo > 0 then do
        let _ ← readU msg i 23
        (List.range numo).foldlM (fun (s, i) _ => orbSat s msg i satN) (s, i + 23)
      else pure (s, i))
    pure (s, (i : Int))

/-- `decode_cssr(msg, i)`: cssr_bds.py lines 379-410; the cursor is dropped at the end -/
def decodeCssr (s : St) (msg : BitBuf) (i : Nat := 0) : Py St := do
  let mt ← readU msg i 6
  let i := i + 6
  let r ← (match mt with
    | 1 => decodeMsgMask s msg i
    | 2 => decodeMsgOrb s msg i
    | 3 => decodeMsgCbias s msg i
    | 4 => decodeMsgClk s msg i
    | 5 => decodeMsgUra s msg i
    | 6 => decodeMsgComb1 s msg i
    | 7 => decodeMsgComb2 s msg i
    | _ => pure (s, (i : Int)))
  pure r.1

/-- clock/orbit combination for a PPP-B2b decoder in `satposs` and `satpos`: ephemeris.py lines
570-602 and 337-369.  `none`: the satellite is skipped; `some (iode, dorb, dclk)`: the corrections
that are applied. -/
def select (s : St) (sat : Int) : Py (Option (Nat × (Val × Val × Val) × Val)) := do
  let ok ← (if s.iodssr ≥ 0 ∧ s.iodssrC .orbit = s.iodssr then pure (decide (sat ∈ s.satN))
    else if s.iodssrP ≥ 0 ∧ s.iodssrC .orbit = s.iodssrP then pure (decide (sat ∈ s.satNP))
    else pure false)
  if ok = false then pure Option.none
  else match Dict.get? s.iode sat with
    | Option.none => pure Option.none
    | some iode => do
      let dorb ← Dict.getItem s.dorb sat
      let o ← Dict.getItem s.iodc sat
      let c ← Dict.getItem s.iodcC sat
      let r ← (if o = c then do
          let d ← Dict.getItem s.dclk sat
          pure (some d)
        else do
          let cp ← Dict.getItem s.iodcCP sat
          if o = cp then do
            let d ← Dict.getItem s.dclkP sat
            pure (some d)
          else pure Option.none)
      match r with
      | Option.none => pure Option.none
      | some d =>
        if d = Option.none ∨ dorb.1 = Option.none ∨ dorb.2.1 = Option.none ∨ dorb.2.2 = Option.none
        then pure Option.none
        else pure (some (iode, dorb, d))

end Verif.Bds
