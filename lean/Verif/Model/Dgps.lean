import Verif.Bits
import Verif.Model.Mask
import Verif.Model.Sat
import Mathlib.Data.Rat.Defs
import Mathlib.Analysis.SpecialFunctions.Trigonometric.Basic
/-!
Model of the QZSS sub-metre (DGPS) corrections: `dgpsDec` (`src/cssrlib/dgps.py` lines 44-316).

A message is the list of its bits.  Each function returns the state as it is left together with
the result, so that the state after an exception is known.  Numbers are exact rationals; station
coordinates are kept in degrees.  The vector `dorb[sat]` is always zero, so only its keys are
kept.  Not modelled: reference times (`t0`), the status bits `cstat`, `check_validity`, the
disaster reports (message types 43 and 44; see `Camf`) and the variance model.
-/

namespace Verif.Dgps
open Verif.Sat Verif.Mask

/-- the corrections of one station: `local_corr` (cssrlib.py lines 219-260) -/
structure Lc where
  iode : Dict Nat Nat := []
  dclk : Dict Nat ℚ := []
  dorb : List Nat := []
  satN : List Nat := []

/-- latitude, longitude [deg], height [m] -/
abbrev Pos := ℚ × ℚ × ℚ

structure St where
  nsat : Nat := 0
  /-- satellites of the mask -/
  sat : List Nat := []
  /-- satellites in use -/
  satN : List Nat := []
  satNP : List Nat := []
  iodp : Int := -1
  iodi : Int := -1
  iodssr : Int := -1
  iodssrP : Int := -1
  iodn : Dict Nat Nat := []
  lc : List Lc
  iodpC : Dict Nat Int := []
  iodOrb : Int := -1
  iodClk : Int := -1
  inet : Int := -1
  posr : List Pos

/-- lines 81-94: the stations known from the start -/
def posr0 : List Pos :=
  [(43150/1000, 141220/1000, 50), (38270/1000, 140740/1000, 200), (0, 0, 0),
   (36580/1000, 140550/1000, 150), (0, 0, 0), (36400/1000, 136410/1000, 50),
   (34710/1000, 135040/1000, 200), (34350/1000, 132450/1000, 50),
   (33600/1000, 130230/1000, 50), (30550/1000, 130940/1000, 100),
   (28420/1000, 129690/1000, 50), (26150/1000, 127690/1000, 100),
   (24730/1000, 125350/1000, 100), (24370/1000, 124130/1000, 100),
   (27090/1000, 142190/1000, 100)] ++ List.replicate 49 (0, 0, 0)

/-- constructor: lines 48-103.  `self.MAXNET = 1` is set after the base class has created
32 + 1 correction objects. -/
def init : St := { lc := List.replicate 33 {}, posr := posr0 }

/-- lines 136-150, one round; `k` rounds left.  An empty entry (63) does not advance the
position. -/
def mt47Loop (b : BitBuf) : Nat → Nat → List Pos → List Pos × Py Unit
  | 0, _, p => (p, .ok ())
  | k + 1, i, p =>
    match readU b i 6, readS b (i + 6) 15, readS b (i + 21) 15, readU b (i + 36) 6 with
    | .ok code, .ok lat, .ok lon, .ok alt =>
      if code = 63 then mt47Loop b k i p
      else mt47Loop b k (i + 42)
        (p.set code ((lat : ℚ) * 5 / 1000, (lon : ℚ) * 5 / 1000 + 115, (alt : ℚ) * 50 - 100))
    | _, _, _, _ => (p, .error .bitstruct)

def mt47 (s : St) (b : BitBuf) : St × Py Unit :=
  let r := mt47Loop b 5 14 s.posr
  ({ s with posr := r.1 }, r.2)

/-- lines 164, 97-101: constellation, width of its field, PRN offset -/
def maskSys : List (Sys × Nat × Nat) :=
  [(.gps, 64, 0), (.qzs, 9, 192), (.glo, 36, 0), (.gal, 36, 0), (.bds, 36, 0)]

/-- lines 165-169: the satellites of the fields from bit `i` on -/
def maskSats (b : BitBuf) : Nat → List (Sys × Nat × Nat) → Py (List Nat)
  | _, [] => .ok []
  | i, (sys, n, o) :: l =>
    match readU b i n, maskSats b (i + n) l with
    | .ok v, .ok r =>
      .ok ((decodeMask v n 1).1.map (fun p : Nat => (prn2sat sys ((p : Int) + o)).toNat) ++ r)
    | .error e, _ => .error e
    | _, .error e => .error e

/-- `decode_mt48`: lines 152-177 -/
def mt48 (s : St) (b : BitBuf) : St × Py Unit :=
  let s := { s with iodssrP := s.iodp, satNP := s.satN, nsat := 0 }
  match readU b 14 2, maskSats b 16 maskSys with
  | .ok iodp, .ok sats =>
    ({ s with iodp := iodp, iodssr := iodp, satN := sats, sat := sats, nsat := sats.length },
      .ok ())
  | _, _ => (s, .error .bitstruct)

/-- `(mask >> (23-k-1)) & 1 == 0` -/
def clear23 (mask k : Nat) : Bool := (mask >>> (23 - k - 1)) &&& 1 == 0

/-- lines 193-200 -/
def mt49Loop (s : St) (b : BitBuf) (mask : Nat) :
    List Nat → Nat → Dict Nat Nat → Dict Nat Nat × Py Unit
  | [], _, d => (d, .ok ())
  | k :: ks, i, d =>
    if clear23 mask k || decide (k ≥ s.nsat) then mt49Loop s b mask ks i d
    else
      match readU b i 8 with
      | .error e => (d, .error e)
      | .ok v =>
        match pyGet s.sat k with
        | .error e => (d, .error e)
        | .ok sat => mt49Loop s b mask ks (i + 8) (d.set sat v)

/-- `decode_mt49`: lines 179-201 -/
def mt49 (s : St) (b : BitBuf) : St × Py Unit :=
  match readU b 223 2 with
  | .error e => (s, .error e)
  | .ok iodp =>
    if (iodp : Int) ≠ s.iodp then (s, .ok ())
    else
      match readU b 14 2, readU b 16 23 with
      | .ok iodi, .ok mask =>
        let r := mt49Loop s b mask (List.range 23) 39 []
        ({ s with iodi := iodi, iodn := r.1 }, r.2)
      | _, _ => (s, .error .bitstruct)

/-- lines 218-241: `n` values have been read so far; the loop ends after the fifteenth -/
def mt50Loop (s : St) (b : BitBuf) (mask : Nat) : List Nat → Nat → Nat → Lc → Lc × Py Unit
  | [], _, _, lc => (lc, .ok ())
  | k :: ks, i, n, lc =>
    if k ≥ s.nsat then mt50Loop s b mask ks i n lc
    else
      match pyGet s.sat k with
      | .error e => (lc, .error e)
      | .ok sat =>
        let lc := { lc with dorb := lc.dorb ++ [sat] }
        if clear23 mask k then mt50Loop s b mask ks i n lc
        else
          match readS b i 12 with
          | .error e => (lc, .error e)
          | .ok v =>
            let lc := { lc with satN := lc.satN ++ [sat] }
            match s.iodn.get? sat with
            | none => (lc, .error .keyError)
            | some d =>
              let lc := { lc with iode := lc.iode.set sat d
                                  dclk := lc.dclk.set sat ((v : ℚ) * 4 / 100) }
              if n + 1 > 14 then (lc, .ok ())
              else mt50Loop s b mask ks (i + 12) (n + 1) lc

/-- `decode_mt50`: lines 202-247 -/
def mt50 (s : St) (b : BitBuf) : St × Py Unit :=
  match readU b 14 2, readU b 16 2, readU b 18 6, readU b 24 1, readU b 25 23 with
  | .ok iodp, .ok iodi, .ok code, .ok h, .ok mask =>
    if (iodp : Int) ≠ s.iodp ∨ (iodi : Int) ≠ s.iodi ∨ h = 1 then (s, .ok ())
    else if code + 1 < s.lc.length then
      match mt50Loop s b mask (List.range 23) 48 0 {} with
      | (lc, .ok ()) =>
        ({ s with lc := s.lc.set (code + 1) lc
                  iodpC := s.iodpC.set (code + 1) iodp }, .ok ())
      | (lc, .error e) => ({ s with lc := s.lc.set (code + 1) lc }, .error e)
    else (s, .error .indexError)
  | _, _, _, _, _ => (s, .error .bitstruct)

/-- `decode_mt51`: lines 249-258; there is no attribute `svh` -/
def mt51 (s : St) (b : BitBuf) : St × Py Unit :=
  match readU b 14 181 with
  | .ok _ => (s, .error .attributeError)
  | .error e => (s, .error e)

/-- `decode_cssr` for messages other than disaster reports: lines 260-286 -/
def decode (s : St) (b : BitBuf) : St × Py Unit :=
  match readU b 8 6 with
  | .error e => (s, .error e)
  | .ok mt =>
    if mt = 47 then mt47 s b
    else if mt = 48 then mt48 s b
    else if mt = 49 then mt49 s b
    else if mt = 50 then mt50 s b
    else if mt = 51 then mt51 s b
    else (s, .ok ())

/-- `np.argmin` of the values `f` over a non-empty list of indices: the first minimal one -/
def argmin {α : Type} [LinearOrder α] (f : Nat → α) : Nat → List Nat → Nat
  | best, [] => best
  | best, k :: ks => if f k < f best then argmin f k ks else argmin f best ks

/-- line 292: stations with coordinates -/
def known (p : List Pos) : List Nat :=
  (List.range p.length).filter fun k => match p[k]? with
    | some q => q.1 ^ 2 + q.2.1 ^ 2 > 0
    | none => false

/-- `get_station`: lines 288-299; `d` is the distance of line 296 -/
def getStation {α : Type} [LinearOrder α] (d : Pos → α) (p : List Pos) : Option Nat :=
  match known p with
  | [] => none
  | k :: ks => some (argmin (fun j => d (p.getD j (0, 0, 0))) k ks)

/-- lines 295-296: distance of a station from the user at latitude `la`, longitude `lo` [rad] -/
noncomputable def dist (la lo : ℝ) (q : Pos) : ℝ :=
  Real.sqrt (((q.1 : ℝ) * (Real.pi / 180) - la) ^ 2 +
    (((q.2.1 : ℝ) * (Real.pi / 180) - lo) * Real.cos la) ^ 2) * 6378137

/-- `set_dgps_corr`: lines 301-316.  The corrections of station 0 of the list `lc` are those
used. -/
def setCorr {α : Type} [LinearOrder α] (d : Pos → α) (s : St) : St × Py Unit :=
  if s.iodp < 0 ∨ s.iodi < 0 then (s, .ok ())
  else
    let inet : Int := match getStation d s.posr with
      | some k => k + 1
      | none => 0
    let s := { s with inet := inet }
    match s.lc[inet.toNat]? with
    | none => (s, .error .indexError)
    | some l =>
      if l.satN = [] then (s, .ok ())
      else
        let s := { s with satN := l.satN }
        match s.iodpC.get? inet.toNat with
        | none => (s, .error .keyError)
        | some i =>
          ({ s with iodOrb := i
                    iodClk := i
                    lc := s.lc.set 0 { (s.lc.getD 0 {}) with
                      iode := l.iode, dclk := l.dclk, dorb := l.dorb } }, .ok ())

end Verif.Dgps
