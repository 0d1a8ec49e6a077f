import Verif.Model.RtcmInteg
import Verif.Model.Time
/-!
Model of the JMA disaster reports of QZSS (class `jmaDec` of `src/cssrlib/ewss.py`, lines 272-583, 588-834 and 865-903).

The decoder has `monlevel` 0, so nothing is printed.  The tables of texts are files that are not part of the repository: of those
that are used without printing the model has the set of defined codes.  The state after an exception is not modelled.
`params` is one constructor for each kind of report.  Degrees and magnitudes are exact rationals.
-/

namespace Verif.Jma
open Verif.Time Verif.RtcmInteg

/-- the codes that have a text: `longm_t`, `sil_t`, `siu_t`, `vo_t`, `reg_v_t`, `dw_t`, lines 228-253 -/
structure Tables where
  longm : Int → Bool
  sil : Int → Bool
  siu : Int → Bool
  vo : Int → Bool
  regV : Int → Bool
  dw : Int → Bool

/-- `self.tb`: one time or a list of times -/
inductive Tb where
  | one (t : GTime)
  | many (l : List GTime)
  deriving DecidableEq

/-- `self.params`.  The third element of `[de, ma, ep, …]` in lines 342 and 402 is the date of the decoder, because `ep` has been
overwritten in lines 334 and 393. -/
inductive Params where
  | none
  | quake (reg : List Nat) (depth : Int) (mag : ℚ) (ep : Epoch) (lo hi : Int)
  | hypo (co : List Int) (depth : Int) (mag : ℚ) (ep : Epoch)
  | intensity (es reg : List Int)
  | nankai (txt : List Int) (pn pm : Int)
  | tsunami (co : List Int) (dw : Int) (l : List (Int × Int))
  | npTsunami (tp : Int) (l : List (Int × Int))
  | volcano (du dw vo : Int) (reg : List Int)
  | ash (dw vo : Int) (l : List (Int × Int × Int))
  | weather (ar : Int) (l : List (Int × Int))
  | flood (l : List (Int × Int))
  | typhoon (dt du tn sr ic pr w1 w2 : Int)
  | marine (l : List (Int × Int))
  deriving DecidableEq

/-- the attributes of the decoder: lines 177-183, 259-270; `time` is set by the caller -/
structure St where
  time : GTime
  year : Int
  month : Int
  rc : Int
  dc : Int
  it : Int
  vn : Int
  ta : GTime
  tb : Tb
  pos : ℚ × ℚ
  params : Params
  pidx : Nat
  msg : List Int
  deriving DecidableEq

/-- `table[code]` -/
def look (t : Int → Bool) (k : Int) : Py Unit := if t k then .ok () else .error .keyError

/-- two texts of a range, one if the limits agree: lines 282-285, 300-303 -/
def lookRange (t u : Int → Bool) (lo hi : Int) : Py Unit := do
  if lo = hi then look t lo
  else
    look t lo
    look u hi

/-- `epoch2time([year, month, day, hour, minute, 0.0])` -/
def date (y mo d h mi : Int) : GTime := epoch2time ⟨y, mo, d, h, mi, 0⟩

/-- the report time with year and month of the decoder, e.g. lines 334-337: `ep = time2epoch(self.time)` and so on.
`h`: month, day, hour, minute -/
def stamp (s : St) (h : List Int) : St :=
  let ep := time2epoch s.time
  { s with year := ep.year, month := ep.mon, ta := date ep.year (el h 0) (el h 1) (el h 2) (el h 3) }

/-- a loop over one number -/
def num (n : Nat) (b : BitBuf) (i : Nat) : Py (Int × Nat) := do
  let v ← flds b i (us [n])
  return (el v 0, i + n)

/-- a loop over two numbers -/
def num2 (n m : Nat) (b : BitBuf) (i : Nat) : Py ((Int × Int) × Nat) := do
  let v ← flds b i (us [n, m])
  return ((el v 0, el v 1), i + (n + m))

/-- positions of the bits that are set: lines 305-310 -/
def setBits (k : Nat) : List Int → List Nat
  | [] => []
  | v :: l => if v > 0 then k :: setBits (k + 1) l else setBits (k + 1) l

/-- degrees, minutes and seconds with sign: lines 364-371 -/
def angle (v : List Int) : ℚ :=
  let x : ℚ := el v 1 + el v 2 / 60 + el v 3 / 3600
  if el v 0 = 1 then -x else x

/-- lines 272-344 -/
def earthquake (T : Tables) (b : BitBuf) (s : St) (i : Nat) : Py (St × Nat) := do
  let h ← flds b i (us [4, 5, 5, 6])
  let a ← flds b (i + 20) (us [2, 4])
  let g ← flds b (i + 26) (us [3, 3])
  lookRange T.longm T.longm (el g 0) (el g 1)
  let (_, i) ← rows (num 9 b) 3 (i + 32)
  let t ← flds b i (us [5, 5, 6])
  let d ← flds b (i + 16) (us [9, 7])
  let e ← flds b (i + 32) (us [10, 4, 4])
  lookRange T.sil T.siu (el e 1) (el e 2)
  let (r, i) ← rows (num 1 b) 80 (i + 50)
  let v ← flds b (i + 4) (us [6])
  let s := stamp { s with it := el a 0, vn := el v 0 } h
  return ({ s with tb := .one (date s.year (el h 0) (el t 0) (el t 1) (el t 2))
                   params := .quake (setBits 0 r) (el d 0) (el d 1 * (1 / 10)) (time2epoch s.time) (el e 1) (el e 2) }, i + 16)

/-- lines 346-404 -/
def hypocenter (b : BitBuf) (s : St) (i : Nat) : Py (St × Nat) := do
  let h ← flds b i (us [4, 5, 5, 6])
  let a ← flds b (i + 20) (us [2, 10])
  let (co, i) ← rows (num 9 b) 3 (i + 32)
  let _ ← flds b i (us [5, 5, 6])
  let d ← flds b (i + 16) (us [9, 7, 10])
  let x ← flds b (i + 42) (us [1, 7, 6, 6])
  let y ← flds b (i + 62) (us [1, 8, 6, 6])
  let v ← flds b (i + 134) (us [6])
  let s := stamp { s with it := el a 0, vn := el v 0 } h
  return ({ s with pos := (angle x, angle y)
                   params := .hypo co (el d 0) (el d 1 * (1 / 10)) (time2epoch s.time) }, i + 146)

/-- lines 406-448 -/
def intensity (b : BitBuf) (s : St) (i : Nat) : Py (St × Nat) := do
  let h ← flds b i (us [4, 5, 5, 6])
  let a ← flds b (i + 20) (us [2, 10])
  let t ← flds b (i + 32) (us [5, 5, 6])
  let (l, i) ← rows (num2 3 6 b) 16 (i + 48)
  let v ← flds b (i + 1) (us [6])
  let s := stamp { s with it := el a 0, vn := el v 0 } h
  let l := l.filter fun x => !(x.1 == 0 && x.2 == 0)
  return ({ s with tb := .one (date s.year (el h 0) (el t 0) (el t 1) (el t 2))
                   params := .intensity (l.map Prod.fst) (l.map Prod.snd) }, i + 13)

/-- slice assignment `x[i:j] = y` of a bytearray, i ≤ j -/
def splice (x : List Int) (i j : Nat) (y : List Int) : List Int := x.take i ++ y ++ x.drop j

/-- one page of the text: lines 464-465; page 0 shifts by -1 -/
def page (s : St) (pn : Nat) (txt : List Int) : Py St :=
  if pn = 0 then .error .valueError
  else .ok { s with pidx := s.pidx ||| 1 <<< (pn - 1), msg := splice s.msg ((pn - 1) * 18) (pn * 18) txt }

/-- lines 451-488 -/
def nankai (b : BitBuf) (s : St) (i : Nat) : Py (St × Nat) := do
  let h ← flds b i (us [4, 5, 5, 6])
  let a ← flds b (i + 20) (us [2, 10, 4])
  let (txt, i) ← rows (num 8 b) 18 (i + 36)
  let p ← flds b i (us [6, 6])
  let s ← page s (el p 0).toNat txt
  let v ← flds b (i + 13) (us [6])
  let s := stamp { s with it := el a 0, vn := el v 0 } h
  return ({ s with params := .nankai txt (el p 0) (el p 1) }, i + 25)

/-- the body of a loop over tsunami arrivals: lines 527-531, 564-567 -/
def arrival (n m : Nat) (b : BitBuf) (i : Nat) : Py (List Int × Nat) := do
  let t ← flds b i (us [1, 5, 6])
  let v ← flds b (i + 12) (us [n, m])
  return (t ++ v, i + (12 + (n + m)))

/-- lines 490-549 -/
def tsunami (b : BitBuf) (s : St) (i : Nat) : Py (St × Nat) := do
  let h ← flds b i (us [4, 5, 5, 6])
  let a ← flds b (i + 20) (us [2, 10])
  let (co, i) ← rows (num 9 b) 3 (i + 32)
  let w ← flds b i (us [4])
  let s := stamp { s with it := el a 0 } h
  let (l, i) ← rows (arrival 4 10 b) 5 (i + 4)
  let l := l.filter fun x => !(el x 0 == 0 && el x 1 == 0 && el x 2 == 0 && el x 3 == 0 && el x 4 == 0)
  let v ← flds b i (us [6])
  return ({ s with vn := el v 0
                   tb := .many (l.map fun x => date s.year (el h 0) (el x 0) (el x 1) (el x 2))
                   params := .tsunami co (el w 0) (l.map fun x => (el x 3, el x 4)) }, i + 12)

/-- lines 551-586; the arrivals are dated before `self.year` is set -/
def npTsunami (b : BitBuf) (s : St) (i : Nat) : Py (St × Nat) := do
  let h ← flds b i (us [4, 5, 5, 6])
  let a ← flds b (i + 20) (us [2, 10, 3])
  let (l, i) ← rows (arrival 9 7 b) 5 (i + 35)
  let v ← flds b (i + 18) (us [6])
  let tb := Tb.many (l.map fun x => date s.year (el h 0) (el x 0) (el x 1) (el x 2))
  let s := stamp { s with it := el a 0, vn := el v 0 } h
  return ({ s with tb := tb, params := .npTsunami (el a 2) (l.map fun x => (el x 3, el x 4)) }, i + 30)

/-- lines 588-628 -/
def volcano (b : BitBuf) (s : St) (i : Nat) : Py (St × Nat) := do
  let h ← flds b i (us [4, 5, 5, 6])
  let a ← flds b (i + 20) (us [2, 7, 3])
  let t ← flds b (i + 32) (us [5, 5, 6])
  let w ← flds b (i + 48) (us [7, 12])
  let (r, i) ← rows (num 23 b) 5 (i + 67)
  let v ← flds b (i + 11) (us [6])
  let s := stamp { s with it := el a 0, vn := el v 0 } h
  return ({ s with tb := .one (date s.year (el h 0) (el t 0) (el t 1) (el t 2))
                   params := .volcano (el a 2) (el w 0) (el w 1) (r.filter fun x => decide (x > 0)) }, i + 23)

/-- lines 651-659: the texts are looked up also if nothing is printed -/
def ashRow (T : Tables) (b : BitBuf) (i : Nat) : Py ((Int × Int × Int) × Nat) := do
  let v ← flds b i (us [3, 3, 23])
  if el v 2 > 0 then do
    look T.regV (el v 2)
    look T.dw (el v 1)
    return ((el v 0, el v 1, el v 2), i + 29)
  else return ((el v 0, el v 1, el v 2), i + 29)

/-- lines 630-671 -/
def ashFall (T : Tables) (b : BitBuf) (s : St) (i : Nat) : Py (St × Nat) := do
  let h ← flds b i (us [4, 5, 5, 6])
  let a ← flds b (i + 20) (us [2])
  let t ← flds b (i + 32) (us [5, 5, 6, 2, 12])
  look T.vo (el t 4)
  let (l, i) ← rows (ashRow T b) 4 (i + 62)
  let l := l.filter fun x => decide (x.2.2 > 0)
  let s := stamp { s with it := el a 0 } h
  let v ← flds b (i + 15) (us [6])
  return ({ s with vn := el v 0
                   tb := .one (date s.year (el h 0) (el t 0) (el t 1) (el t 2))
                   params := .ash (el t 3) (el t 4) l }, i + 27)

/-- lines 673-706 -/
def weather (b : BitBuf) (s : St) (i : Nat) : Py (St × Nat) := do
  let h ← flds b i (us [4, 5, 5, 6])
  let a ← flds b (i + 20) (us [2, 10, 3])
  let (l, i) ← rows (num2 5 19 b) 6 (i + 35)
  let l := l.filter fun x => !(x.1 == 0 || x.2 == 0)
  let v ← flds b (i + 14) (us [6])
  let s := stamp { s with it := el a 0, vn := el v 0 } h
  return ({ s with params := .weather (el a 2) l }, i + 26)

/-- lines 708-741 -/
def flood (b : BitBuf) (s : St) (i : Nat) : Py (St × Nat) := do
  let h ← flds b i (us [4, 5, 5, 6])
  let a ← flds b (i + 20) (us [2, 10])
  let (l, i) ← rows (num2 4 40 b) 3 (i + 32)
  let l := l.filter fun x => !(x.1 == 0 && x.2 == 0)
  let v ← flds b (i + 29) (us [6])
  let s := stamp { s with it := el a 0, vn := el v 0 } h
  return ({ s with params := .flood l }, i + 41)

/-- lines 743-800; `self.month` is the month of the report -/
def typhoon (b : BitBuf) (s : St) (i : Nat) : Py (St × Nat) := do
  let h ← flds b i (us [4, 5, 5, 6])
  let a ← flds b (i + 20) (us [2, 10, 5, 5, 6, 3])
  let w ← flds b (i + 59) (us [7, 7, 4, 4])
  let x ← flds b (i + 81) (us [1, 7, 6, 6])
  let y ← flds b (i + 101) (us [1, 8, 6, 6])
  let p ← flds b (i + 122) (us [11, 7, 7])
  let v ← flds b (i + 193) (us [6])
  let s := stamp { s with it := el a 0, vn := el v 0 } h
  return ({ s with month := el h 0
                   tb := .one (date s.year (el h 0) (el a 2) (el a 3) (el a 4))
                   pos := (angle x, angle y)
                   params := .typhoon (el a 5) (el w 0) (el w 1) (el w 2) (el w 3) (el p 0) (el p 1) (el p 2) }, i + 205)

/-- lines 802-834 -/
def marine (b : BitBuf) (s : St) (i : Nat) : Py (St × Nat) := do
  let h ← flds b i (us [4, 5, 5, 6])
  let a ← flds b (i + 20) (us [2])
  let s := stamp { s with it := el a 0 } h
  let (l, i) ← rows (num2 5 14 b) 8 (i + 32)
  let l := l.filter fun x => !(x.1 == 0 && x.2 == 0)
  let v ← flds b (i + 9) (us [6])
  return ({ s with month := el h 0, vn := el v 0, params := .marine l }, i + 21)

/-- the decoder of a kind of report: lines 878-903 -/
def body (T : Tables) (b : BitBuf) (dc : Int) (s : St) (i : Nat) : Py (St × Nat) :=
  if dc = 1 then earthquake T b s i
  else if dc = 2 then hypocenter b s i
  else if dc = 3 then intensity b s i
  else if dc = 4 then nankai b s i
  else if dc = 5 then tsunami b s i
  else if dc = 6 then npTsunami b s i
  else if dc = 8 then volcano b s i
  else if dc = 9 then ashFall T b s i
  else if dc = 10 then weather b s i
  else if dc = 11 then flood b s i
  else if dc = 12 then typhoon b s i
  else if dc = 14 then marine b s i
  else .ok (s, i)

/-- `dc_m_t`: lines 203-214 -/
def kinds : List Int := [1, 2, 3, 4, 5, 6, 8, 9, 10, 11, 12, 14]

/-- `rc_m_t`: line 202 -/
def classes : List Int := [3, 7]

/-- `decode(msg, i)`: lines 865-903; returns -1, or `None` for a report that was decoded -/
def decode (T : Tables) (b : BitBuf) (s : St) (i : Nat) : Py (St × Option Int) := do
  let a ← flds b i (us [3, 4])
  let s := { s with rc := el a 0, dc := el a 1 }
  if el a 1 ∉ kinds ∨ el a 0 ∉ classes then return (s, some (-1))
  else
    let (s, _) ← body T b (el a 1) s (i + 7)
    return (s, none)

end Verif.Jma
