import Verif.Model.Sat
import Mathlib.Algebra.Order.Ring.Rat
/-!
Model of the index arithmetic and ambiguity bookkeeping of the PPP filter
(`src/cssrlib/pppssr.py`): the layout of the state vector and its process noise (`__init__`
lines 86-101 and 172-218, `IB`, `II`, `IT` lines 251-262), the selection of double differences
(`ddidx`, lines 1074-1111), the restoration of fixed ambiguities (`restamb`, lines 1050-1072) and
the constraints of fix-and-hold (`holdamb`, lines 1156-1185).

Vectors are functions of the index (that every index used lies inside the vector is
`Verif.C47.layout`); numbers are exact rationals.
-/

namespace Verif.Ppp
open Verif.Sat

/-- `uGNSS.MAXSAT` -/
def nsat : Nat := 233

/-! ### Layout -/

/-- the options that determine the layout: `nav.pmode`, `nav.trop_opt`, `nav.iono_opt`, `nav.nf` -/
structure Opt where
  pmode : Int
  trop : Int
  iono : Int
  nf : Nat
  deriving DecidableEq, Repr

/-- `ntrop`, `niono`, the position/velocity part, `na` (= `nq`), `nx`: lines 86-101 -/
def Opt.ntrop (o : Opt) : Nat := if o.trop = 1 then 1 else 0
def Opt.niono (o : Opt) : Nat := if o.iono = 1 then nsat else 0
def Opt.base (o : Opt) : Nat := if o.pmode = 0 then 3 else 6
def Opt.na (o : Opt) : Nat := o.base + o.ntrop + o.niono
def Opt.nx (o : Opt) : Nat := o.na + nsat * o.nf

/-- `IB(s, f, na)`: lines 251-254 -/
def IB (s f : Int) (na : Int) : Int := na + nsat * f + s - 1
/-- `II(s, na)`: lines 256-258 -/
def II (s na : Int) : Int := na - nsat + s - 1
/-- `IT(na)`: lines 260-262 -/
def IT (na : Int) : Int := na - nsat - 1

/-- the element of a vector of length `n` that Python addresses by the index `i`
(negative indices count from the end); `none` = IndexError -/
def pyIdx (n : Nat) (i : Int) : Option Nat :=
  if 0 ≤ i ∧ i < n then some i.toNat
  else if i < 0 ∧ 0 ≤ i + n then some (i + n).toNat
  else none

/-- the sources of process noise -/
inductive Noise where
  | zero | pos | vel | ztd | ion | amb
  deriving DecidableEq, Repr

/-- slice assignment `q[a:b] = c` on the vector of length `n` -/
def assignSlice (n a b : Nat) (c : Noise) (q : Nat → Noise) : Nat → Noise :=
  fun i => if a ≤ i ∧ i < b ∧ i < n then c else q i

/-- the process noise vector `nav.q` (length `nq = na`): lines 187-218 -/
def Opt.q (o : Opt) : Nat → Noise :=
  let n := o.na
  let q : Nat → Noise := fun _ => .zero
  let q := assignSlice n 0 3 .pos q
  let q := if o.pmode ≥ 1 then assignSlice n 3 6 .vel q else q
  let q := if o.trop = 1 then
      (if o.pmode ≥ 1 then assignSlice n 6 7 .ztd q else assignSlice n 3 4 .ztd q) else q
  let q := if o.iono = 1 then
      (if o.pmode ≥ 1 then assignSlice n 7 (7 + nsat) .ion q
        else assignSlice n 4 (4 + nsat) .ion q) else q
  if o.pmode ≥ 1 then assignSlice n (7 + nsat) (7 + (nsat * o.nf + 1)) .amb q
  else assignSlice n (4 + nsat) (4 + (nsat * o.nf + 1)) .amb q

/-! ### Double differences -/

/-- the constellations in the order of `range(uGNSS.GNSSMAX)` -/
def systems : List Sys := [.gps, .gal, .qzs, .bds, .glo, .sbs, .irn]

/-- satellite numbers 1..MAXSAT -/
def sats : List Nat := (List.range nsat).map (· + 1)

/-- what `ddidx` looks at: number of frequencies, `na`, states, satellites in view, validity
flags `vsat` (per satellite number and frequency), elevations, `elmaskar` -/
structure Nav where
  nf : Nat
  na : Nat
  x : Nat → ℚ
  sat : List Nat
  vsat : Nat → Nat → Int
  el : Nat → ℚ
  elmask : ℚ

/-- the index of the ambiguity as a natural number (`i = k + s - 1` in the loops) -/
def amb (v : Nav) (s f : Nat) : Nat := v.na + nsat * f + (s - 1)

/-- the negation of the skip condition of lines 1089-1091 and 1101-1103 -/
def usable (v : Nav) (s f : Nat) : Bool :=
  s ∈ v.sat && v.x (amb v s f) != 0 && v.vsat s f != 0

abbrev Fix := Nat → Nat → Nat

def Fix.set (t : Fix) (s f c : Nat) : Fix := fun s' f' => if s' = s ∧ f' = f then c else t s' f'

/-- first inner loop: lines 1084-1096.  Returns the loop variable `i` after the loop. -/
def refLoop (v : Nav) (m : Sys) (f : Nat) : List Nat → Nat → Fix → Nat × Fix
  | [], i, t => (i, t)
  | s :: ss, _, t =>
    let i := amb v s f
    if (sat2prn s).1 ≠ m then refLoop v m f ss i t
    else if ¬ usable v s f then refLoop v m f ss i t
    else if v.el s ≥ v.elmask then (i, t.set s f 2)
    else refLoop v m f ss i (t.set s f 1)

/-- second inner loop: lines 1097-1108.  `ix` has room for MAXSAT rows. -/
def pairLoop (v : Nav) (m : Sys) (f i : Nat) :
    List Nat → List (Nat × Nat) → Fix → Py (List (Nat × Nat) × Fix)
  | [], ix, t => .ok (ix, t)
  | s :: ss, ix, t =>
    let j := amb v s f
    if (sat2prn s).1 ≠ m then pairLoop v m f i ss ix t
    else if i = j ∨ ¬ usable v s f then pairLoop v m f i ss ix t
    else if v.el s ≥ v.elmask then
      if ix.length < nsat then pairLoop v m f i ss (ix ++ [(i, j)]) (t.set s f 2)
      else .error .indexError
    else pairLoop v m f i ss ix t

/-- one constellation and frequency -/
def ddGroup (v : Nav) (r : List (Nat × Nat) × Fix) (mf : Sys × Nat) : Py (List (Nat × Nat) × Fix) :=
  let i := refLoop v mf.1 mf.2 sats (amb v 1 mf.2) r.2
  pairLoop v mf.1 mf.2 i.1 sats r.1 i.2

/-- the order of the outer loops -/
def groupsOrder (nf : Nat) : List (Sys × Nat) :=
  systems.flatMap fun m => (List.range nf).map fun f => (m, f)

/-- `ddidx(nav, sat)`: lines 1074-1111 -/
def ddidx (v : Nav) : Py (List (Nat × Nat) × Fix) :=
  (groupsOrder v.nf).foldlM (ddGroup v) ([], fun _ _ => 0)

/-- the list `index` of `restamb` and `holdamb`: lines 1060-1065, 1166-1171 -/
def fixedIdx (v : Nav) (t : Fix) (mf : Sys × Nat) : List Nat :=
  (sats.filter fun s : Nat => (sat2prn s).1 = mf.1 ∧ t s mf.2 = 2).map fun s : Nat => amb v s mf.2

def upd (x : Nat → ℚ) (i : Nat) (a : ℚ) : Nat → ℚ := fun k => if k = i then a else x k

/-- lines 1069-1071 -/
def restInner (bias : List ℚ) (r : Nat) : List Nat → (Nat → ℚ) × Nat → Py ((Nat → ℚ) × Nat)
  | [], a => .ok a
  | j :: js, a => do
    let b ← pyGet bias a.2
    let a' := (upd a.1 j (a.1 r - b), a.2 + 1)
    restInner bias r js a'

/-- one constellation and frequency of `restamb` -/
def restGroup (v : Nav) (t : Fix) (bias : List ℚ) (a : (Nat → ℚ) × Nat) (mf : Sys × Nat) :
    Py ((Nat → ℚ) × Nat) :=
  match fixedIdx v t mf with
  | r :: j :: js => restInner bias r (j :: js) (upd a.1 r (v.x r), a.2)
  | _ => .ok a

/-- `restamb(bias, nb)`: lines 1050-1072; `xa` is `nav.xa` -/
def restamb (v : Nav) (xa : Nat → ℚ) (t : Fix) (bias : List ℚ) : Py (Nat → ℚ) := do
  let start : Nat → ℚ := fun i => if i < v.na then xa i else v.x i
  let r ← (groupsOrder v.nf).foldlM (restGroup v t bias) (start, 0)
  pure r.1

/-- the constraints of `holdamb`: rows `(index[0], index[i])` with their innovation `v[nv]`
(lines 1173-1179); the matrix row has +1 and -1 at the two indices -/
def holdRows (v : Nav) (t : Fix) (xa : Nat → ℚ) : List ((Nat × Nat) × ℚ) :=
  (groupsOrder v.nf).flatMap fun mf =>
    match fixedIdx v t mf with
    | r :: js => js.map fun j => ((r, j), (xa r - xa j) - (v.x r - v.x j))
    | [] => []

end Verif.Ppp
