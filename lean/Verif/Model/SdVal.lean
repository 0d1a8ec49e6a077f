import Verif.Model.Sdres
import Verif.Model.Udstate
/-!
Model of the values of the single (and, for relative positioning, double) differences and of their design matrix:
`pppos.sdres` in `src/cssrlib/pppssr.py`, lines 773-1005.  Which differences are formed is `Verif.Sd.sdres`.

The wet mapping function and the lines of sight are inputs.  Numbers are exact rationals.  Satellite numbers are assumed to be
1..MAXSAT.
-/

namespace Verif.SdVal
open Verif.Sat Verif.Sig Verif.Sd
open Verif.Ud (need freq)
open Verif.Ppp (nsat pyIdx IT)

/-- input of `sdres`: the part that selects the differences, sizes and options, states, lines of sight and wet mapping by
position in the list, signals, GLONASS channels; `dd`: the residuals of the base follow those of the rover -/
structure In where
  sel : Sd.In ℚ
  nx : Nat
  na : Nat
  trop : Bool
  iono : Bool
  dd : Bool
  x : Nat → ℚ
  e : Nat → Nat → ℚ
  mapw : Nat → ℚ
  sig : Sys → Option (Typ → Option (List Sig))
  gloCh : Dict Nat Int := []

def sigAt (v : In) (m : Sys) (t : Typ) (f : Nat) : Py Sig :=
  match (v.sig m).bind fun d => d t with
  | some l => pyGet l f
  | none => .error .keyError

/-- the channel argument of `frequency` and `wavelength` -/
def chan (v : In) (m : Sys) (s : Nat) : Py (Option Int) :=
  if m = .glo then do
    let k ← Dict.getItem v.gloCh s
    pure (some k)
  else .ok none

/-- assignment to an element of the row -/
def put (H : Nat → ℚ) (a : Nat) (w : ℚ) : Nat → ℚ := fun k => if k = a then w else H k

/-- a difference and its row of the design matrix -/
abbrev DVal := ℚ × (Nat → ℚ)

/-- lines 855, 862 -/
def sigOf (v : In) (m : Sys) (f : Nat) : Py Sig :=
  if f < v.sel.nf then sigAt v m .L f else sigAt v m .C (f % v.sel.nf)

/-- signal, frequency and coefficient of the slant delay: lines 846-869; satellite `sj` -/
def look (v : In) (m : Sys) (f sj : Nat) : Py (Sig × ℚ × ℚ) := do
  let g0 ← sigAt v m .L 0
  let freq0 ← need (freq g0 (if m = .glo then some 0 else none))
  let sig ← sigOf v m f
  let k ← chan v m sj
  let fj ← need (freq sig k)
  pure (sig, fj, if f < v.sel.nf then -(freq0 / fj) ^ 2 else (freq0 / fj) ^ 2)

/-- lines 890-900 -/
def start (v : In) (r : Row) : DVal :=
  let ns := v.sel.sat.length
  let y := v.sel.y
  (if v.dd then (y r.i r.f - y (r.i + ns) r.f) - (y r.j r.f - y (r.j + ns) r.f) else y r.i r.f - y r.j r.f,
    fun k => if k < 3 then -v.e r.i k + v.e r.j k else 0)

/-- lines 902-912 -/
def tropPart (v : In) (r : Row) (a : DVal) : Py DVal :=
  if v.trop then
    match pyIdx v.nx (IT v.na) with
    | some k => .ok (a.1 - (v.mapw r.i - v.mapw r.j) * v.x k, put a.2 k (v.mapw r.i - v.mapw r.j))
    | none => .error .indexError
  else .ok a

/-- lines 924-932 -/
def ionPart (v : In) (si sj : Nat) (mu : ℚ) (a : DVal) : DVal :=
  let ii := v.na - nsat + si - 1
  let ij := v.na - nsat + sj - 1
  if v.iono then (a.1 - mu * (v.x ii - v.x ij), put (put a.2 ii mu) ij (-mu)) else a

/-- lines 947-961 -/
def ambPart (v : In) (m : Sys) (f si sj : Nat) (sig : Sig) (fj : ℚ) (a : DVal) : Py DVal :=
  if f < v.sel.nf then do
    let bi := v.na + nsat * f + si - 1
    let bj := v.na + nsat * f + sj - 1
    let ki ← chan v m si
    let fi ← need (freq sig ki)
    let lami := Msm.clight / fi
    let lamj := if m = .glo then Msm.clight / fj else lami
    pure (a.1 - lami * (v.x bi - v.x bj), put (put a.2 bi lami) bj (-lamj))
  else .ok a

/-- one difference: lines 846-966 -/
def rowVal (v : In) (m : Sys) (r : Row) : Py DVal := do
  let si ← pyGet v.sel.sat r.i
  let sj ← pyGet v.sel.sat r.j
  let (sig, fj, mu) ← look v m r.f sj
  let a ← tropPart v r (start v r)
  ambPart v m r.f si sj sig fj (ionPart v si sj mu a)

/-- the difference of a row: its constellation is that of its satellites -/
def rowAt (v : In) (r : Row) : Py DVal :=
  match Sd.sysAt v.sel r.j with
  | some m => rowVal v m r
  | none => .error .indexError

/-- `sdres`: the differences in the order of the rows.  Frequencies are looked up for every satellite, whether or not a
difference is formed (which of several exceptions is raised first is not modelled) -/
def values (v : In) : Py (List DVal) := do
  let r ← Sd.sdres v.sel
  let _ ← v.sel.keys.mapM fun m => (List.range (v.sel.nf * 2)).mapM fun f =>
    (Sd.sysidx v.sel m).mapM fun j => do
      let s ← pyGet v.sel.sat j
      look v m f s
  r.2.mapM (rowAt v)

end Verif.SdVal
