import Verif.Py
import Mathlib.Data.Rat.Defs
/-!
# Pairing of the observations of base and rover

Model of `rtkpos.base_process` (`src/cssrlib/rtk.py`) after the editing of both observations (`Verif.Edit`), and of the
selection of the rows of the rover in `pppos.process` (`src/cssrlib/pppssr.py`).
Residuals, unit vectors and observations are arrays of rows; their values are rationals.
-/
namespace Verif.BasePair
open Verif

/-- order of a stable sort (`argsort(kind='mergesort')`): by value, equal values by position -/
def le (a b : Nat × Nat) : Bool := decide (a.1 < b.1) || (decide (a.1 = b.1) && decide (a.2 ≤ b.2))

/-- insertion into a sorted list; numpy uses another algorithm, the result of a stable sort is the same -/
def ins (x : Nat × Nat) : List (Nat × Nat) → List (Nat × Nat)
  | [] => [x]
  | a :: l => if le x a then x :: a :: l else a :: ins x l

def sortP : List (Nat × Nat) → List (Nat × Nat)
  | [] => []
  | a :: l => ins a (sortP l)

/-- `aux[1:] == aux[:-1]`: the elements equal to the next one -/
def adj : List (Nat × Nat) → List (Nat × Nat)
  | a :: b :: l => if a.1 = b.1 then a :: adj (b :: l) else adj (b :: l)
  | _ => []

/-- `np.intersect1d(a, b, assume_unique=True, return_indices=True)`: values, and indices in the concatenation of `a` and
`b`; as called in rtk.py lines 40-42 -/
def isect (a b : List Nat) : List (Nat × Nat) := adj (sortP (a ++ b).zipIdx)

abbrev Row := List ℚ

/-- `x[idx, :]` -/
def take (x : List Row) (idx : List Nat) : Py (List Row) := idx.mapM fun i => pyGet x i

/-- numpy broadcasting of two dimensions -/
def bc {α : Type} (n : Nat) (l : List α) : Py (List α) :=
  if l.length = n then .ok l else
  match l with
  | [a] => .ok (List.replicate n a)
  | _ => .error .valueError

/-- `a - b` of two rows -/
def subRow (a b : Row) : Py Row :=
  if a.length = 1 then .ok (b.map fun y => a.headD 0 - y) else do
  let b ← bc a.length b
  pure (List.zipWith (· - ·) a b)

/-- `a - b` of two arrays -/
def sub (a b : List Row) : Py (List Row) :=
  if a.length = 1 then b.mapM fun y => subRow (a.headD []) y else do
  let b ← bc a.length b
  (a.zip b).mapM fun p => subRow p.1 p.2

structure Obs where
  sat : List Nat
  L : List Row
  P : List Row

structure Out where
  /-- lower half of the residuals and unit vectors; the upper half is zero -/
  y : List Row
  e : List Row
  iu : List Nat
  sat : List Nat
  L : List Row
  P : List Row

/-- `base_process`: rtk.py lines 40-56, `edU` and `edR` the satellites left by the editing of rover and base, `yr` and
`er` the residuals and unit vectors of the base -/
def base (edU edR : List Nat) (obs obsb : Obs) (yr er : List Row) : Py Out := do
  let satEd := (isect edU edR).map Prod.fst
  let ir := (isect obsb.sat satEd).map Prod.snd
  let iu := (isect obs.sat satEd).map Prod.snd
  let ns := iu.length
  let y ← take yr ir
  let y ← bc ns y
  let e ← take er ir
  let e ← bc ns e
  let sat ← iu.mapM fun i => pyGet obs.sat i
  let l1 ← take obs.L iu
  let l2 ← take obsb.L ir
  let l ← sub l1 l2
  let p1 ← take obs.P iu
  let p2 ← take obsb.P ir
  let p ← sub p1 p2
  pure ⟨y, e, iu, sat, l, p⟩

/-- the rows handed to the measurement update: pppssr.py lines 1454-1456, `yu` and `eu` of the rover -/
def rows (o : Out) (obs : Obs) (yu eu : List Row) : Py (List Nat × List Row × List Row) := do
  let sat ← o.iu.mapM fun i => pyGet obs.sat i
  let y ← take yu o.iu
  let e ← take eu o.iu
  pure (sat, y ++ o.y, e ++ o.e)

end Verif.BasePair
