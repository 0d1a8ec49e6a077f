import Verif.Model.Time
import Verif.Model.Sat
/-!
Model of the readers of almanac files, `loadyuma` and `loadXmlAlmanac`, in `src/cssrlib/ephemeris.py`.

A line of a Yuma file is given by the text before the colon, and what `float` and `int` make of the text behind it.  Of the XML
reader the model has the week and the health; the scaling of the other elements is left out.  The clock of the computer is an
argument.
-/

namespace Verif.Yuma
open Verif.Sat Verif.Time

/-- the kind of a line -/
inductive Key where
  | comment | id | health | ecc | toas | incl | rate | sqrtA | node | perigee | mean | af0 | af1 | week | other
  deriving DecidableEq

/-- the text before the colon: lines 808-841 -/
def keyOf (v : String) : Key :=
  if v.startsWith "*" then .comment
  else if v = "ID" then .id
  else if v = "Health" then .health
  else if v = "Eccentricity" then .ecc
  else if v = "Time of Applicability(s)" then .toas
  else if v = "Orbital Inclination(rad)" then .incl
  else if v = "Rate of Right Ascen(r/s)" then .rate
  else if v = "SQRT(A)  (m 1/2)" then .sqrtA
  else if v = "Right Ascen at Week(rad)" ∨ v = "Right Ascen at TOA(rad)" then .node
  else if v = "Argument of Perigee(rad)" then .perigee
  else if v = "Mean Anom(rad)" then .mean
  else if v = "Af0(s)" then .af0
  else if v = "Af1(s/s)" then .af1
  else if v = "week" then .week
  else .other

structure Ln where
  key : Key
  f : ℚ := 0
  n : Int := 0

/-- `Alm`: gnss.py lines 831-850 -/
structure Alm where
  sat : Int
  af0 : ℚ := 0
  af1 : ℚ := 0
  toa : GTime := ⟨0, 0⟩
  toas : ℚ := 0
  week : Int := 0
  e : ℚ := 0
  i0 : ℚ := 0
  A : ℚ := 0
  M0 : ℚ := 0
  OMG0 : ℚ := 0
  OMGd : ℚ := 0
  omg : ℚ := 0
  svh : Int := 0
  deriving DecidableEq

/-- the week of the clock: lines 794-801; `none`: constellations without Yuma files -/
def weekRef (sys : Sys) (now : GTime) : Option Int :=
  if sys = .gps ∨ sys = .qzs then some (time2gpst now).1
  else if sys = .gal then some (time2gst now).1
  else if sys = .bds then some (time2bdt now).1
  else none

/-- lines 842-845 -/
def fullWeek (wref v : Int) : Int :=
  let w := v + wref / 1023 * 1023
  if w > wref then w - 1023 else w

/-- lines 848-853 -/
def toaOf (sys : Sys) (w : Int) (s : ℚ) : GTime :=
  if sys = .gps ∨ sys = .qzs then gpst2time w s else if sys = .gal then gst2time w s else bdt2time w s

/-- lines 815-853: a line with an element -/
def upd (sys : Sys) (wref : Int) (l : Ln) (a : Alm) : Alm :=
  match l.key with
  | .health => { a with svh := l.n }
  | .ecc => { a with e := l.f }
  | .toas => { a with toas := l.f }
  | .incl => { a with i0 := l.f }
  | .rate => { a with OMGd := l.f }
  | .sqrtA => { a with A := l.f ^ 2 }
  | .node => { a with OMG0 := l.f }
  | .perigee => { a with omg := l.f }
  | .mean => { a with M0 := l.f }
  | .af0 => { a with af0 := l.f }
  | .af1 => { a with af1 := l.f }
  | .week => { a with week := fullWeek wref l.n, toa := toaOf sys (fullWeek wref l.n) a.toas }
  | _ => a

/-- the variables of the loop: the almanacs in the list other than `alm`; `alm`, if it has a value; whether `alm` is in the list
(the object itself: later lines change it there) -/
structure St where
  done : List Alm := []
  cur : Option Alm := none
  inList : Bool := false

/-- the list `alm_t` -/
def St.list (s : St) : List Alm := s.done ++ if s.inList then s.cur.toList else []

/-- the body of the loop: lines 806-857 -/
def step (sys : Sys) (wref : Int) (s : St) (l : Ln) : Py St :=
  match l.key with
  | .comment | .other => .ok s
  | .id => .ok ⟨s.list, some { sat := prn2sat sys l.n }, false⟩
  | _ =>
    match s.cur with
    | none => .error .unboundLocal
    | some a => .ok ⟨s.done, some (upd sys wref l a), s.inList || l.key == .week⟩

/-- `loadyuma(fname, sys)`: lines 791-857 -/
def loadyuma (sys : Sys) (now : GTime) (ls : List Ln) : Py (List Alm) :=
  match weekRef sys now with
  | none => .ok []
  | some wref => do
    let s ← ls.foldlM (step sys wref) {}
    return s.list

/-- `loadXmlAlmanac`: week of the date of issue and week of the almanac (lines 749-750, 782-784), health (line 785) -/
def xmlWeek (issue : GTime) (wna : Int) : Int := (time2gst issue).1 / 4 * 4 + wna
def xmlHealth (e5a e5b e1b : Nat) : Nat := (e5a <<< 4) ||| (e5b <<< 2) ||| e1b

end Verif.Yuma
