import Verif.Model.RtcmInteg
import Verif.Model.Mdc
import Mathlib.Analysis.SpecialFunctions.Trigonometric.Basic
/-!
Model of the coverage areas of the ionosphere corrections of MADOCA-PPP, class `cssr_mdc` of `src/cssrlib/cssr_mdc.py`: the coverage message, the
test whether a position is in an area, offset from the reference point and value of the correction.

Simplifications: floats are rational numbers in the message and real numbers in the geometry; printing is left out; the order of the
entries of a Python dictionary is not kept (the lookup of an area is in `Model/Mdc.lean`).
-/

namespace Verif.MdcArea
open Verif.RtcmInteg

/-- `areaInfo`: lines 16-26 -/
inductive Area where
  | rect (latr lonr lats lons : ℚ)
  | circ (latr lonr rng : ℚ)

structure St where
  tow0 : Int := -1
  reg : Int := -1
  alrt : Int := 0
  pnt : Dict Int (Dict Int Area) := []

/-- one area: lines 134-151 -/
def area (b : BitBuf) (i : Nat) : Py ((Int × Area) × Nat) := do
  let h ← flds b i [(5, false), (1, false)]
  if el h 1 = 0 then do
    let v ← flds b (i + 6) [(11, true), (12, false), (8, false), (8, false)]
    pure ((el h 0, .rect (el v 0 / 10) (el v 1 / 10) (el v 2 / 10) (el v 3 / 10)), i + 45)
  else do
    let v ← flds b (i + 6) [(15, true), (16, false), (8, false)]
    pure ((el h 0, .circ (el v 0 / 100) (el v 1 / 100) (el v 2 * 10)), i + 45)

/-- lines 142, 149: the areas are put into the table one after the other -/
def put (t : Dict Int Area) : List (Int × Area) → Dict Int Area
  | [] => t
  | x :: l => put (Dict.set t x.1 x.2) l

/-- `decode_mdc_stec_area(buff, i)`: lines 120-152 -/
def areaMsg (s : St) (b : BitBuf) (i : Nat) : Py (St × Nat) := do
  let h ← flds b i [(20, false), (4, false), (1, false), (4, false)]
  let r ← flds b (i + 29) [(8, false), (1, false), (16, false), (5, false)]
  let (l, i) ← rows (area b) (el r 3).toNat (i + 59)
  let old := (Dict.get? s.pnt (el r 0)).getD []
  pure ({ s with tow0 := el h 0 / 3600 * 3600, reg := el r 0, alrt := el r 1, pnt := Dict.set s.pnt (el r 0) (put old l) }, i)

/-- `np.rad2deg` -/
noncomputable def deg (x : ℝ) : ℝ := x * (180 / Real.pi)

/-- the test of `find_grid_index`: lines 66, 72-85 -/
def inside (a : Area) (lat lon : ℝ) : Prop :=
  match a with
  | .rect latr lonr lats lons =>
    (latr - lats : ℝ) ≤ deg lat ∧ deg lat ≤ latr + lats ∧ (lonr - lons : ℝ) ≤ deg lon ∧ deg lon ≤ lonr + lons
  | .circ latr lonr rng =>
    let dn := (deg lat - latr) * (Real.pi / 180) * 6378137
    let de := (deg lon - lonr) * (Real.pi / 180) * 6378137 * Real.cos (lonr * (Real.pi / 180))
    Real.sqrt (dn ^ 2 + de ^ 2) ≤ rng

/-- reference point -/
def Area.ref : Area → ℚ × ℚ
  | .rect a b _ _ => (a, b)
  | .circ a b _ => (a, b)

/-- `get_dpos(pos)`: lines 90-101 -/
noncomputable def dpos (pnt : Dict Int (Dict Int Area)) (reg num : Int) (lat lon : ℝ) : Py (ℝ × ℝ) :=
  if reg < 0 ∨ num < 0 then .ok (0, 0)
  else do
    let t ← Dict.getItem pnt reg
    let a ← Dict.getItem t num
    pure (deg lat - a.ref.1, deg lon - a.ref.2)

/-- the loop of `get_stec`: lines 115-116 -/
noncomputable def values (ci : Dict Int (List ℝ)) (v : List ℝ) : List Int → Py (List ℝ)
  | [] => .ok []
  | s :: l => do
    let c ← Dict.getItem ci s
    let r ← values ci v l
    pure ((List.zipWith (· * ·) v c).sum :: r)

/-- `get_stec(dlat, dlon)`: lines 103-118; `n` is the number of satellites outside the areas -/
noncomputable def stec (inet : Int) (n : Nat) (sats : List Int) (ci : Dict Int (List ℝ)) (dlat dlon : ℝ) : Py (List ℝ) :=
  if inet < 0 then .ok (List.replicate n 0)
  else values ci [1, dlat, dlon, dlat * dlon, dlat ^ 2, dlon ^ 2] sats

end Verif.MdcArea
