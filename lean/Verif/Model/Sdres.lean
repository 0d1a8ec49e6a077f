import Verif.Model.Sat
import Mathlib.Algebra.Order.Field.Basic
import Mathlib.Data.Matrix.Mul
import Mathlib.LinearAlgebra.Matrix.NonsingularInverse
/-!
Model of the single differencing of the PPP filter and of its update
(`src/cssrlib/pppssr.py`): which differences `sdres` forms (lines 813-1003), their variances
`varerr` (lines 264-270), the covariance `ddcov` (lines 1009-1020) and `kfupdate`
(lines 1022-1048).

Of `sdres` the selection of the pairs, the counters and the variances are modelled; the values of
the residuals and of the design matrix are not (the design matrix is an arbitrary matrix in
`kfupdate`).  Numbers are elements of an arbitrary ordered field (rationals in the examples, reals
in the theorems).  The sine of the elevations is an input.  `nav.err`, `nav.eratio` are inputs;
an `eratio` shorter than the number of frequencies (IndexError) is not modelled.
-/

namespace Verif.Sd
open Verif.Sat

structure In (K : Type) where
  /-- `obs.sig.keys()`: the keys of a dictionary -/
  keys : List Sys
  nf : Nat
  sat : List Nat
  el : Nat → K
  sinEl : Nat → K
  y : Nat → Nat → K
  edt : Nat → Bool
  /-- `0.1*rCST.D2R`, `nav.err[1]`, `nav.err[2]`, `nav.eratio` -/
  lo : K
  err1 : K
  err2 : K
  eratio : Nat → K

structure Row where
  i : Nat
  j : Nat
  f : Nat
  deriving DecidableEq, Repr

variable {K : Type} [Field K] [LinearOrder K]

/-- `varerr(nav, el, f)`: lines 264-270 -/
def varerr (v : In K) (s f : Nat) : K :=
  let sel := max (v.sinEl s) v.lo
  let fact := if f ≥ v.nf then v.eratio (f - v.nf) else 1
  let a := fact * v.err1
  let b := fact * v.err2
  a ^ 2 + (b / sel) ^ 2

/-- the constellation of the satellite at position `k` of the list -/
def sysAt (v : In K) (k : Nat) : Option Sys := v.sat[k]?.map fun s : Nat => (sat2prn s).1

/-- `sysidx(sat, sys)`: lines 272-279 -/
def sysidx (v : In K) (m : Sys) : List Nat :=
  (List.range v.sat.length).filter fun k => sysAt v k = some m

/-- `np.argmax`: the first of the largest -/
def argmax (el : Nat → K) : Nat → List Nat → Nat
  | b, [] => b
  | b, k :: ks => if el b < el k then argmax el k ks else argmax el b ks

/-- the differences of one constellation and signal: lines 831-1001;
`none` when the constellation has no satellites (`continue` in line 837) -/
def groupRows (v : In K) (m : Sys) (f : Nat) : Option (List Row) :=
  match sysidx v m with
  | [] => none
  | k :: ks =>
    let i := argmax v.el k ks
    some (((k :: ks).filter fun j => ¬ (v.edt j ∨ v.y i f = 0 ∨ v.y j f = 0 ∨ i = j)).map
      fun j => ⟨i, j, f⟩)

/-- one pass of the loops; the vectors have room for `ns*nf*2` differences in `2*nc*nf` groups -/
def sdGroup (v : In K) (a : List Nat × List Row) (mf : Sys × Nat) : Py (List Nat × List Row) :=
  match groupRows v mf.1 mf.2 with
  | none => .ok a
  | some rs =>
    if (rs = [] ∨ a.1.length < 2 * v.keys.length * v.nf) ∧
        a.2.length + rs.length ≤ v.sat.length * v.nf * 2 then
      .ok (a.1 ++ [rs.length], a.2 ++ rs)
    else .error .indexError

/-- `sdres`: the group sizes `nb[0:b]` and the differences -/
def sdres (v : In K) : Py (List Nat × List Row) :=
  (v.keys.flatMap fun m => (List.range (v.nf * 2)).map fun f => (m, f)).foldlM (sdGroup v) ([], [])

/-- the vectors `Ri`, `Rj` -/
def Ri (v : In K) (rows : List Row) (p : Nat) : K :=
  match rows[p]? with | none => 0 | some r => varerr v r.i r.f
def Rj (v : In K) (rows : List Row) (p : Nat) : K :=
  match rows[p]? with | none => 0 | some r => varerr v r.j r.f

def upd2 (R : Nat → Nat → K) (p q : Nat) (a : K) : Nat → Nat → K :=
  fun p' q' => if p' = p ∧ q' = q then a else R p' q'

/-- lines 1015-1018: one element -/
def ddElem (Ri Rj : Nat → K) (k i j : Nat) (R : Nat → Nat → K) : Nat → Nat → K :=
  let R := upd2 R (k + i) (k + j) (Ri (k + i))
  if i = j then upd2 R (k + i) (k + j) (R (k + i) (k + j) + Rj (k + i)) else R

/-- lines 1013-1018: one group -/
def ddBlock (Ri Rj : Nat → K) (k n : Nat) (R : Nat → Nat → K) : Nat → Nat → K :=
  (List.range n).foldl (fun R i => (List.range n).foldl (fun R j => ddElem Ri Rj k i j R) R) R

/-- `ddcov(nb, n, Ri, Rj, nv)`: lines 1009-1020 -/
def ddcov (nb : List Nat) (Ri Rj : Nat → K) : Nat → Nat → K :=
  (nb.foldl (fun (s : (Nat → Nat → K) × Nat) n => (ddBlock Ri Rj s.2 n s.1, s.2 + n))
    (fun _ _ => 0, 0)).1

/-- the covariance returned by `sdres` -/
def cov (v : In K) (nb : List Nat) (rows : List Row) : Nat → Nat → K :=
  ddcov nb (Ri v rows) (Rj v rows)

/-! ### The filter update -/

open Matrix

variable {n m : Type} [Fintype n] [DecidableEq n] [Fintype m] [DecidableEq m]

/-- Joseph form of the covariance for a gain `G`: lines 1045-1046 -/
def joseph (P : Matrix n n K) (H : Matrix m n K) (R : Matrix m m K) (G : Matrix n m K) :
    Matrix n n K :=
  (1 - G * H) * P * (1 - G * H)ᵀ + G * R * Gᵀ

/-- `S`: line 1041 -/
def innov (P : Matrix n n K) (H : Matrix m n K) (R : Matrix m m K) : Matrix m m K :=
  H * (P * Hᵀ) + R

/-- `K`: line 1042 -/
noncomputable def gain (P : Matrix n n K) (H : Matrix m n K) (R : Matrix m m K) : Matrix n m K :=
  P * Hᵀ * (innov P H R)⁻¹

/-- `kfupdate(x, P, H, v, R)`: lines 1022-1048; `none` when `np.linalg.inv` raises `LinAlgError`
(singular matrix) -/
noncomputable def kfupdate [DecidableEq K] (x : n → K) (P : Matrix n n K) (H : Matrix m n K)
    (v : m → K) (R : Matrix m m K) : Option ((n → K) × Matrix n n K × Matrix m m K) :=
  if (innov P H R).det = 0 then none
  else
    let G := gain P H R
    some (x + G *ᵥ v, joseph P H R G, innov P H R)

end Verif.Sd
