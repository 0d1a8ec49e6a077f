import Verif.Model.Sat
import Verif.Model.Mask
import Verif.Model.Sval
import Verif.Model.Time
/-!
Model of the SBAS decoder, class `sbasDec` of `src/cssrlib/sbas.py`: message types 1 (mask), 2-5
(fast corrections), 6 (integrity), 7 (degradation factors), 18 and 26 (ionosphere), 24 and 25
(long-term corrections), 31 (dual-frequency mask), 32 (dual-frequency corrections) and 34-36
(dual-frequency integrity).

Simplifications: floats are exact rationals, NaN is `none`; `lc[0].t0[sat]` is split into one
dictionary per correction kind (the default entries `set_t0` creates for the other kinds are left
out); the covariance part of message type 32 (`decode_cov`, `obad`), the status bits `cstat` and
logging are left out; message types 9, 10, 12, 17, 27, 28, 37, 39, 40, 47, which touch none of the
modelled attributes, leave the state unchanged.  When an exception is raised the partially updated
object is not modelled.
-/

namespace Verif.Sbas
open Verif.Sat Verif.Mask Verif.Sval Verif.Time

structure St where
  time : GTime := ⟨0, 0⟩
  sat : List Int := []
  satN : List Int := []
  satNP : List Int := []
  nsat : Nat := 0
  iodp : Int := -1
  iodi : Int := -1
  iodm : Int := -1
  iodssr : Int := -1
  iodssrP : Int := -1
  iodssrClk : Int := -1
  iodssrOrb : Int := -1
  hclk : Dict Int Val := []
  udrei : Dict Int Nat := []
  ai : Dict Int Nat := []
  iode : Dict Int Nat := []
  dorb : Dict Int (Val × Val × Val) := []
  dclk : Dict Int Val := []
  dvel : Dict Int (Val × Val × Val) := []
  ddft : Dict Int Val := []
  t0H : Dict Int GTime := []
  t0C : Dict Int GTime := []
  t0O : Dict Int GTime := []
  igpIdx : Dict Nat (List Nat) := []
  vtec : Dict Nat (List Val) := []
  givei : Dict Nat (List Nat) := []
  t0V : Dict Nat GTime := []

/-- `-x` of a float -/
def neg : Val → Val := Option.map fun x => -x

/-- `slot2sat(slot)`: sbas.py lines 375-396 -/
def slot2sat (slot : Int) : Int :=
  if slot ≥ 1 ∧ slot ≤ 32 then prn2sat .gps slot
  else if slot ≥ 38 ∧ slot ≤ 69 then prn2sat .glo (slot - 37)
  else if slot ≥ 75 ∧ slot ≤ 110 then prn2sat .gal (slot - 74)
  else if slot ≥ 120 ∧ slot ≤ 158 then prn2sat .sbs slot
  else if slot ≥ 159 ∧ slot ≤ 195 then prn2sat .bds (slot - 158)
  else if slot ≥ 197 ∧ slot ≤ 205 then prn2sat .qzs (slot - 4)
  else 0

/-- the satellites of a mask field -/
def maskSats (sys : Sys) (mask bitlen : Nat) (ofst : Nat := 1) : List Int :=
  (decodeMask mask bitlen ofst).1.map fun p : Nat => prn2sat sys (p : Int)

/-- `decode_sbas_mask`: sbas.py lines 407-432 -/
def mask1 (s : St) (msg : BitBuf) (i : Nat) : Py (St × Nat) := do
  let gps ← readU msg i 37
  let glo ← readU msg (i + 37) 24
  let sbs ← readU msg (i + 119) 39
  let iodp ← readU msg (i + 210) 2
  pure ({ s with sat := maskSats .gps gps 37 ++ maskSats .glo glo 24 ++ maskSats .sbs sbs 39 120
                 iodp := iodp, iodssr := iodp }, i + 212)

/-- first loop of `decode_sbas_fast_corr_blk`: sbas.py lines 436-442; `k` counts up, `n` are left -/
def fastLoop (s : St) (msg : BitBuf) (i typ : Nat) : Nat → Nat → Py (St × Nat)
  | _, 0 => .ok (s, i)
  | k, n + 1 => do
    let fc ← readS msg i 12
    match s.sat[typ * 13 + k]? with
    | none => pure (s, i + 12)
    | some sat =>
      let s' := { s with hclk := Dict.set s.hclk sat (neg (svalSbas fc 12 (1 / 8))) }
      fastLoop s' msg (i + 12) typ (k + 1) n

/-- second loop of `decode_sbas_fast_corr_blk`: sbas.py lines 443-450 -/
def udreiLoop (s : St) (msg : BitBuf) (i typ : Nat) : Nat → Nat → Py (St × Nat)
  | _, 0 => .ok (s, i)
  | k, n + 1 => do
    let u ← readU msg i 4
    match s.sat[typ * 13 + k]? with
    | none => pure (s, i + 4)
    | some sat =>
      let s' := { s with udrei := Dict.set s.udrei sat u, t0H := Dict.set s.t0H sat s.time }
      udreiLoop s' msg (i + 4) typ (k + 1) n

/-- `decode_sbas_fast_corr_blk`: sbas.py lines 434-453 -/
def fastBlk (s : St) (msg : BitBuf) (i n typ : Nat) : Py (St × Nat) := do
  let (s, i) ← fastLoop s msg i typ 0 n
  udreiLoop s msg i typ 0 n

/-- `decode_sbas_fast_corr`: sbas.py lines 455-467 (message types 2-5) -/
def fastCorr (s : St) (msg : BitBuf) (mt i : Nat) : Py (St × Nat) := do
  let _iodf ← readU msg i 2
  let iodp ← readU msg (i + 2) 2
  if (iodp : Int) ≠ s.iodp then pure (s, i + 4 + 208) else
  fastBlk s msg (i + 4) 13 (mt - 2)

/-- loops of `decode_sbas_integrity` and `decode_sbas_fast_degradation`: the 4-bit fields of the
first 51 satellites -/
def perSat (msg : BitBuf) (sat : List Int) (d : Dict Int Nat) (i : Nat) : Nat → Nat → Py (Dict Int Nat × Nat)
  | _, 0 => .ok (d, i)
  | k, n + 1 =>
    match sat[k]? with
    | none => .ok (d, i)
    | some x => do
      let u ← readU msg i 4
      perSat msg sat (Dict.set d x u) (i + 4) (k + 1) n

/-- `decode_sbas_integrity`: sbas.py lines 469-478 -/
def integrity (s : St) (msg : BitBuf) (i : Nat) : Py (St × Nat) := do
  let _ ← readU msg i 8
  let (d, i) ← perSat msg s.sat s.udrei (i + 8) 0 51
  pure ({ s with udrei := d }, i)

/-- `decode_sbas_fast_degradation`: sbas.py lines 480-492 -/
def degradation (s : St) (msg : BitBuf) (i : Nat) : Py (St × Nat) := do
  let _lat ← readU msg i 4
  let iodp ← readU msg (i + 4) 2
  if (iodp : Int) ≠ s.iodp then pure (s, i + 8 + 204) else do
  let (d, i) ← perSat msg s.sat s.ai (i + 8) 0 51
  pure ({ s with ai := d }, i)

/-- `decode_sbas_igpmask`: sbas.py lines 595-614 -/
def igpMask (s : St) (msg : BitBuf) (i : Nat) : Py (St × Nat) := do
  let _nb ← readU msg i 4
  let band ← readU msg (i + 4) 4
  let iodi ← readU msg (i + 8) 2
  let bits ← (List.range 201).mapM fun k : Nat => readU msg (i + 10 + k) 1
  let idx := (List.range 201).filter fun k => bits[k]? = some 1
  pure ({ s with igpIdx := Dict.set s.igpIdx band idx, iodi := iodi
                 vtec := if Dict.mem s.vtec band then s.vtec else Dict.set s.vtec band (List.replicate idx.length (some 0))
                 givei := if Dict.mem s.givei band then s.givei else Dict.set s.givei band (List.replicate idx.length 0) },
        i + 212)

/-- the fields of one long-term correction -/
structure Long where
  slot : Nat
  iodn : Nat
  dx : Int
  dy : Int
  dz : Int
  db : Int
  dxd : Int := 0
  dyd : Int := 0
  dzd : Int := 0
  dbd : Int := 0

/-- `add_sbas_corr`: sbas.py lines 616-641; `clk` is `rCST.P2_31*rCST.CLIGHT` -/
def addCorr (s : St) (l : Long) : St :=
  let sat := slot2sat l.slot
  { s with
    satN := if sat ∈ s.satN then s.satN else s.satN ++ [sat]
    iode := Dict.set s.iode sat l.iodn
    dorb := Dict.set s.dorb sat (neg (svalSbas l.dx 11 (1 / 8)), neg (svalSbas l.dy 11 (1 / 8)), neg (svalSbas l.dz 11 (1 / 8)))
    dclk := Dict.set s.dclk sat (svalSbas l.db 11 (299792458 / 2 ^ 31))
    dvel := Dict.set s.dvel sat (neg (svalSbas l.dxd 8 (1 / 2 ^ 11)), neg (svalSbas l.dyd 8 (1 / 2 ^ 11)), neg (svalSbas l.dzd 8 (1 / 2 ^ 11)))
    ddft := Dict.set s.ddft sat (svalSbas l.dbd 8 (299792458 / 2 ^ 39))
    t0C := Dict.set s.t0C sat s.time
    t0O := Dict.set s.t0O sat s.time }

/-- fields without velocity (51 bits): sbas.py lines 655-657 -/
def readShort (msg : BitBuf) (i : Nat) : Py Long := do
  let slot ← readU msg i 6
  let iodn ← readU msg (i + 6) 8
  let dx ← readS msg (i + 14) 9
  let dy ← readS msg (i + 23) 9
  let dz ← readS msg (i + 32) 9
  let db ← readS msg (i + 41) 10
  pure ⟨slot, iodn, dx, dy, dz, db, 0, 0, 0, 0⟩

/-- fields with velocity (90 bits): sbas.py lines 664-665 -/
def readLong (msg : BitBuf) (i : Nat) : Py Long := do
  let slot ← readU msg i 6
  let iodn ← readU msg (i + 6) 8
  let dx ← readS msg (i + 14) 11
  let dy ← readS msg (i + 25) 11
  let dz ← readS msg (i + 36) 11
  let db ← readS msg (i + 47) 11
  let dxd ← readS msg (i + 58) 8
  let dyd ← readS msg (i + 66) 8
  let dzd ← readS msg (i + 74) 8
  let dbd ← readS msg (i + 82) 8
  pure ⟨slot, iodn, dx, dy, dz, db, dxd, dyd, dzd, dbd⟩

/-- `if slot > 0: self.add_sbas_corr(...)`: sbas.py lines 658-659 -/
def addIf (s : St) (l : Long) : St := if l.slot > 0 then addCorr s l else s

/-- `decode_sbas_lcorr_half`: sbas.py lines 643-675 -/
def lcorrHalf (s : St) (msg : BitBuf) (i : Nat) : Py (St × Nat) := do
  let vc ← readU msg i 1
  let i := i + 1
  let iodp ← readU msg (i + if vc = 0 then 102 else 103) 2
  if (iodp : Int) ≠ s.iodp then pure (s, i) else
  if vc = 0 then do
    let a ← readShort msg i
    let b ← readShort msg (i + 51)
    let s := addIf (addIf s a) b
    pure ({ s with iodssrClk := iodp, iodssrOrb := iodp }, i + 105)
  else do
    let a ← readLong msg i
    let _toa ← readU msg (i + 90) 13
    let s := addCorr s a
    pure ({ s with iodssrClk := iodp, iodssrOrb := iodp }, i + 105)

/-- `decode_sbas_mixed_corr`: sbas.py lines 677-689 -/
def mixed (s : St) (msg : BitBuf) (i : Nat) : Py (St × Nat) := do
  let iodp ← readU msg (i + 96) 2
  let typ ← readU msg (i + 98) 2
  let _iodf ← readU msg (i + 100) 2
  if (iodp : Int) ≠ s.iodp then pure (s, i + 208) else do
  let (s, i) ← fastBlk s msg i 6 typ
  lcorrHalf s msg i

/-- `decode_sbas_long_corr`: sbas.py lines 691-695 -/
def longCorr (s : St) (msg : BitBuf) (i : Nat) : Py (St × Nat) := do
  let (s, i) ← lcorrHalf s msg i
  lcorrHalf s msg i

/-- loop of `decode_sbas_iono`: sbas.py lines 711-720 -/
def ionoLoop (msg : BitBuf) (bid nigp : Nat) (v : List Val) (g : List Nat) (i : Nat) :
    Nat → Nat → Py (List Val × List Nat × Nat)
  | _, 0 => .ok (v, g, i)
  | k, n + 1 => do
    let vd ← readU msg i 9
    let gi ← readU msg (i + 9) 4
    if bid * 15 + k ≥ nigp then pure (v, g, i + 13) else
    ionoLoop msg bid nigp (v.set (bid * 15 + k) (if vd < 511 then some (vd * (1 / 8)) else none))
      (g.set (bid * 15 + k) gi) (i + 13) (k + 1) n

/-- `decode_sbas_iono`: sbas.py lines 697-726 -/
def iono (s : St) (msg : BitBuf) (i : Nat) : Py (St × Nat) := do
  let iodi ← readU msg (i + 203) 2
  if (iodi : Int) ≠ s.iodi then pure (s, i + 212) else do
  let band ← readU msg i 4
  let bid ← readU msg (i + 4) 4
  match Dict.get? s.vtec band, Dict.get? s.givei band with
  | some v, some g => do
    let (v', g', i) ← ionoLoop msg bid v.length v g (i + 8) 0 15
    pure ({ s with vtec := Dict.set s.vtec band v', givei := Dict.set s.givei band g'
                   t0V := Dict.set s.t0V (band + 1) s.time }, i + 9)
  | some _, none => .error .keyError
  | none, _ => pure (s, i + 8 + 204)

/-- `decode_dfmc_mask`: sbas.py lines 790-838 (message type 31) -/
def mask31 (s : St) (msg : BitBuf) (i : Nat) : Py (St × Nat) := do
  let gps ← readU msg i 32
  let glo ← readU msg (i + 37) 32
  let gal ← readU msg (i + 74) 36
  let sbs ← readU msg (i + 119) 39
  let bds ← readU msg (i + 158) 37
  let qzs ← readU msg (i + 196) 9
  let iodm ← readU msg (i + 214) 2
  let s := if (iodm : Int) ≠ s.iodssr then { s with iodssrP := s.iodssr, satNP := s.satN } else s
  let sats := maskSats .gps gps 32 ++ maskSats .glo glo 32 ++ maskSats .gal gal 36 ++
    maskSats .sbs sbs 39 120 ++ maskSats .bds bds 37 ++ maskSats .qzs qzs 9 193
  pure ({ s with iodm := iodm, iodssr := iodm, satN := sats, nsat := sats.length }, i + 216)

/-- `add_dfmc_corr`: sbas.py lines 1021-1049; `time0` is the reference epoch of the message -/
def addDfmc (s : St) (l : Long) (time0 : GTime) : St :=
  let sat := slot2sat l.slot
  { s with
    satN := if sat ∈ s.satN then s.satN else s.satN ++ [sat]
    iode := Dict.set s.iode sat l.iodn
    dorb := Dict.set s.dorb sat (neg (svalSbas l.dx 11 (1 / 16)), neg (svalSbas l.dy 11 (1 / 16)), neg (svalSbas l.dz 11 (1 / 16)))
    dclk := Dict.set s.dclk sat (svalSbas l.db 12 (1 / 32))
    dvel := Dict.set s.dvel sat (neg (svalSbas l.dxd 8 (1 / 2 ^ 11)), neg (svalSbas l.dyd 8 (1 / 2 ^ 11)), neg (svalSbas l.dzd 8 (1 / 2 ^ 11)))
    ddft := Dict.set s.ddft sat (svalSbas l.dbd 9 (1 / 2 ^ 12))
    t0C := Dict.set s.t0C sat time0
    t0O := Dict.set s.t0O sat time0 }

/-- `decode_cssr_orb`: sbas.py lines 1051-1095 (message type 32), without the covariance -/
def corr32 (s : St) (msg : BitBuf) (i : Nat) : Py (St × Nat) := do
  let slot ← readU msg i 8
  let iodn ← readU msg (i + 8) 10
  if slot = 0 then pure (s, i + 18 + 198) else do
  let dx ← readS msg (i + 18) 11
  let dy ← readS msg (i + 29) 11
  let dz ← readS msg (i + 40) 11
  let db ← readS msg (i + 51) 12
  let dxd ← readS msg (i + 63) 8
  let dyd ← readS msg (i + 71) 8
  let dzd ← readS msg (i + 79) 8
  let dbd ← readS msg (i + 87) 9
  let t0 ← readU msg (i + 96) 13
  let _cov ← readU msg (i + 109) 99
  let _dfrei ← readU msg (i + 208) 8
  let s := addDfmc s ⟨slot, iodn, dx, dy, dz, db, dxd, dyd, dzd, dbd⟩ (tod2tow (t0 * 16) s.time)
  if slot2sat slot = 0 then pure (s, i + 216) else
  pure ({ s with iodssrClk := s.iodssr, iodssrOrb := s.iodssr }, i + 216)

/-- `decode_dfmc_integrity_mt34`: sbas.py lines 847-872; `self.dfrei` does not exist -/
def mt34 (s : St) (msg : BitBuf) (i : Nat) : Py (St × Nat) := do
  let iodm ← readU msg 214 2
  if (iodm : Int) ≠ s.iodm then pure (s, i + 216) else do
  let ci ← (List.range 92).mapM fun k : Nat => readU msg (i + 2 * k) 2
  let _ ← readU msg (i + 184) 28
  if (ci.take s.nsat).any (fun c => decide (c ≠ 0)) then .error .attributeError else
  if s.nsat > 92 then .error .indexError else pure (s, i + 216)

/-- `decode_dfmc_integrity_mt35`, `decode_dfmc_integrity_mt36`: sbas.py lines 874-899 -/
def mt3536 (s : St) (msg : BitBuf) (i : Nat) : Py (St × Nat) := do
  let iodm ← readU msg 214 2
  if (iodm : Int) ≠ s.iodm then pure (s, i + 216) else do
  let _ ← readU msg i 4
  .error .attributeError

/-- `decode_cssr`: sbas.py lines 1105-1185 for one message; `l5` is `src = 1` (the QZSS
transmission numbers 184-189 are not modelled) -/
def decode (s : St) (l5 : Bool) (msg : BitBuf) : Py St := do
  let mt ← readU msg (if l5 then 4 else 8) 6
  let i := if l5 then 10 else 14
  let (s, _) ←
    if mt = 1 then mask1 s msg i
    else if mt = 2 ∨ mt = 3 ∨ mt = 4 ∨ mt = 5 then fastCorr s msg mt i
    else if mt = 6 then integrity s msg i
    else if mt = 7 then degradation s msg i
    else if mt = 18 then igpMask s msg i
    else if mt = 24 then mixed s msg i
    else if mt = 25 then longCorr s msg i
    else if mt = 26 then iono s msg i
    else if mt = 31 then mask31 s msg i
    else if mt = 32 then corr32 s msg i
    else if mt = 34 then mt34 s msg i
    else if mt = 35 ∨ mt = 36 then mt3536 s msg i
    else pure (s, i)
  pure s

end Verif.Sbas
