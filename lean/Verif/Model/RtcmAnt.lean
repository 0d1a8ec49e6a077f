import Verif.Model.RtcmInteg
/-!
Model of three SSR messages of class `rtcm` (`src/cssrlib/rtcm.py`): satellite antennas (`decode_ssr_satant`), extended phase
biases (`decode_ssr_pbias_ex`), ionosphere maps (`decode_vtec`); and of `cssr.set_t0` (`src/cssrlib/cssrlib.py`).

Scaled values are exact rationals.  The antenna decoder returns the records in the order of decoding, `store` puts them into
`self.antc`; what is stored before a read beyond the end of the buffer is not modelled.
-/

namespace Verif.RtcmAnt
open Verif.Sat Verif.Sval Verif.RtcmInteg Verif.Time
open Verif.RtcmSsr (Dec decodeHeadTime)

/-! ### satellite antennas -/

/-- `satAntCorr`: lines 71-76; a value may be NaN -/
structure Corr where
  nadc : Option Val
  naddc : Option (List Val)
  deriving DecidableEq

/-- lines 3034-3039 -/
def nadir (b : BitBuf) (i : Nat) : Py (Option Val × Nat) := do
  let v ← flds b i (us [1])
  if el v 0 = 1 then do
    let x ← flds b (i + 1) [(12, true)]
    return (some (sval (el x 0) 12 (1 / 1000)), i + 13)
  else return (none, i + 1)

/-- lines 3044-3046 -/
def angle (n : Nat) (b : BitBuf) (i : Nat) : Py (Val × Nat) := do
  let x ← flds b i [(n, true)]
  return (sval (el x 0) n (1 / 1000), i + n)

/-- lines 3042-3048; `nde`: the range extension, where there are corrections by angle -/
def angles (nde : Option Nat) (b : BitBuf) (i : Nat) : Py (Option (List Val) × Nat) :=
  match nde with
  | none => return (none, i)
  | some nde => do
    let (l, i) ← rows (angle (3 + nde) b) (nde + 1) i
    return (some l, i)

/-- lines 3032-3050 -/
def antFreq (nde : Option Nat) (b : BitBuf) (_ : Nat) (i : Nat) : Py (Corr × Nat) := do
  let (n, i) ← nadir b i
  let (a, i) ← angles nde b i
  return (⟨n, a⟩, i)

/-- lines 3027-3050 -/
def antSat (nde : Option Nat) (b : BitBuf) (i : Nat) : Py (List (Nat × Corr) × Nat) := do
  let m ← flds b i (us [1, 6])
  each (antFreq nde b) (maskOf (el m 1) 6 0) (i + 7)

/-- lines 3013-3017 -/
def antExt (ndi : Bool) (b : BitBuf) (i : Nat) : Py (Option Nat × Nat) :=
  if ndi then do
    let v ← flds b i (us [5, 4])
    return (some (el v 1).toNat, i + 9)
  else return (none, i)

/-- `decode_ssr_satant(msg, i)`: lines 3002-3051 -/
def decodeSatant (sys : Sys) (b : BitBuf) (i : Nat) : Py (List (Int × List (Nat × Corr)) × Nat) := do
  let h ← flds b i (us [16, 6, 1, 1, 1])
  let (nde, i) ← antExt (el h 4 = 1) b (i + 25)
  let m ← flds b i (us [1, 64])
  sats sys (antSat nde b) (maskOf (el m 1) 64 1) (i + 65)

/-- `get_ssr_sys` for the message types of satellite antennas: lines 471-474 -/
def antSys (mt : Nat) : Py Sys :=
  match mt with
  | 80 => .ok .gps | 81 => .ok .glo | 82 => .ok .gal | 83 => .ok .bds | 84 => .ok .qzs
  | _ => .error .keyError

/-- `self.antc[sat][freq] = …`: lines 3025-3026, 3050 -/
def store (a : Dict Int (Dict Nat Corr)) (l : List (Int × List (Nat × Corr))) : Dict Int (Dict Nat Corr) :=
  l.foldl (fun a x => a.set x.1 (x.2.foldl (fun d y => d.set y.1 y.2) ((a.get? x.1).getD []))) a

/-! ### extended phase biases -/

/-- `decode_head` for this sub-type: lines 987-1015: the dictionary `v` is created for other sub-types only (lines 1002-1005), so
`v['iodssr'] = …` raises -/
def headEx (d : Dec) (sys : Sys) (b : BitBuf) (i : Nat) : Py (Dec × Nat × Nat) := do
  let (_, i) ← decodeHeadTime d sys b i
  let _ ← flds b i (us [4, 16, 4])
  .error .unboundLocal

/-- `decode_ssr_pbias_ex(msg, i)`: lines 3155-3188; phase biases by satellite and signal; the result: the groups -/
def decodePbiasEx (d : Dec) (iexpb : Nat) (pbias : List (Int × List Nat)) (sys : Sys) (b : BitBuf) (i : Nat) :
    Py (Option (List (Int × List (Nat × Int))) × Nat) := do
  let (_, _, i) ← headEx d sys b i
  let x ← flds b i (us [4])
  if el x 0 ≠ iexpb then return (none, i)
  else do
    let (l, i) ← pbias.foldlM (fun (s : List (Int × List (Nat × Int)) × Nat) y => do
      let (r, i) ← each (fun _ i => do return (el (← flds b i (us [2])) 0, i + 2)) y.2 s.2
      return (s.1 ++ [(y.1, r)], i)) ([], i + 4)
    return (some l, i)

/-! ### ionosphere maps -/

/-- what `self.lc[inet].t0` holds for a key: a dictionary by type of correction, or a time -/
inductive T0 where
  | row (d : Dict Nat GTime)
  | time (t : GTime)
  deriving DecidableEq

/-- `set_t0(inet, sat, ctype, t)`: cssrlib.py lines 496-506; types CLOCK 2, ORBIT 1, CBIAS 3, PBIAS 4, HCLOCK 9 -/
def setT0 (d : Dict Int T0) (sat : Int) (ctype : Nat) (t : GTime) : Py (Dict Int T0) :=
  match d.get? sat with
  | none => .ok (d.set sat (.row (Dict.set (([2, 1, 3, 4, 9] : List Nat).map fun c => (c, (⟨0, 0⟩ : GTime))) ctype t)))
  | some (.row r) => .ok (d.set sat (.row (r.set ctype t)))
  | some (.time _) => .error .typeError

/-- `sCType.VTEC` -/
def ctVtec : Nat := 10

/-- lines 1410-1429: the first coefficient of the first layer is the tuple of `unpack_from`, which `sval` multiplies by a float -/
def layers (n : Int) (b : BitBuf) (i : Nat) : Py Nat :=
  if n = 0 then return i
  else do
    let _ ← flds b i (us [8, 4, 4])
    let _ ← flds b (i + 16) [(16, true)]
    .error .typeError

/-- `decode_vtec(msg, i)`: lines 1403-1436 with `decode_head` (lines 987-1015) for this sub-type; the result: decoder, issue of
data, times of the corrections, end -/
def decodeVtec (d : Dec) (t0 : Dict Int T0) (b : BitBuf) (i : Nat) : Py (Dec × Int × Dict Int T0 × Nat) := do
  let (d, i) ← decodeHeadTime d .none b i
  let h ← flds b i (us [4, 1, 4, 16, 4])
  let q ← flds b (i + 29) (us [9, 2])
  let i ← layers (el q 1) b (i + 40)
  let t0 ← setT0 (t0.set ctVtec (.time d.time)) 0 ctVtec d.time
  return ({ d with pid := (el h 3).toNat, sid := (el h 4).toNat }, el h 2, t0, i)

end Verif.RtcmAnt
