import Verif.Py
import Verif.Model.Sval
import Mathlib.Algebra.BigOperators.Group.List.Basic
/-!
Model of the user side of the local corrections, `src/cssrlib/cssrlib.py`: selection of the grid
points round the rover (`find_grid_index`, lines 1300-1343), the offset from the reference point
(`get_dpos`, lines 1345-1352) and the interpolation of the tropospheric and slant ionospheric
corrections (`get_trop`, lines 1354-1368; `get_stec`, lines 1370-1390).

Simplifications: floating-point numbers are exact rationals and `numpy.nan` is `none`.  The
tangent-plane offsets of the grid points from the rover and their distances (lines 1303-1307: a
cosine and a square root) are given: a grid point carries `x` (`dlat`), `y` (`dlon`) and `r`.
`numpy.argsort` leaves the order of equal distances open, so the sort is a parameter.
`nsat_n` of a network is the length of its `sat_n` (both are always written together).
-/

namespace Verif.Grid

/-- a row of the grid table, seen from the rover: cssrlib.py lines 1292-1298, 1303-1307 -/
structure Pt where
  nid : Int
  gid : Int
  lat : ℚ := 0
  lon : ℚ := 0
  x : ℚ
  y : ℚ
  r : ℚ
  deriving DecidableEq

/-- `grid_index`: a scalar when one point is used, otherwise an array (lines 1312, 1341) -/
inductive Index where
  | one (gid : Int)
  | many (gids : List Int)
  deriving DecidableEq

/-- what `find_grid_index` stores -/
structure Sel where
  inet : Int
  ngrid : Nat
  index : Index
  weight : List ℚ
  deriving DecidableEq

/-- `np.argmin(r)`: the first row with the smallest distance (line 1308) -/
def nearest : List Pt → Option Pt
  | [] => none
  | p :: t => match nearest t with
    | none => some p
    | some q => if q.r < p.r then some q else some p

/-- `vn1@v` with `vn1` the normal of `a` (lines 1331-1336) -/
def normDot (a v : ℚ × ℚ) : ℚ := -a.2 * v.1 + a.1 * v.2

/-- `v[:, 1:] + vp`: position relative to the nearest point (lines 1327-1330) -/
def rel (p1 q : Pt) : ℚ × ℚ := (q.x + -p1.x, q.y + -p1.y)

/-- the test on the fourth point: cssrlib.py lines 1326-1337 -/
def between (p1 p2 p3 q : Pt) : Bool :=
  let vp : ℚ × ℚ := (-p1.x, -p1.y)
  let s1 := normDot (rel p1 p2) vp
  let s2 := normDot (rel p1 p3) vp
  decide (s1 * normDot (rel p1 p2) (rel p1 q) ≥ 0) && decide (s2 * normDot (rel p1 p3) (rel p1 q) ≥ 0)

/-- the points used, from the sorted points of the network: cssrlib.py lines 1317-1339 -/
def choose : List Pt → List Pt
  | p1 :: p2 :: p3 :: q :: t =>
    match (q :: t).find? (between p1 p2 p3) with
    | some p4 => [p1, p2, p3, p4]
    | none => [p1, p2, p3]
  | l => l

/-- `rp/np.sum(rp)` with `rp = 1./rn`: cssrlib.py lines 1340-1341 -/
def weights (l : List Pt) : List ℚ := l.map fun p => 1 / p.r / (l.map fun q => 1 / q.r).sum

/-- `find_grid_index(pos)`: cssrlib.py lines 1300-1343.  `argmin` of an empty table raises. -/
def findGridIndex (srt : List Pt → List Pt) (grid : List Pt) : Py Sel :=
  match nearest grid with
  | none => .error .valueError
  | some p =>
    if p.r < 5000 then .ok ⟨p.nid, 1, .one p.gid, [1]⟩
    else
      let net := grid.filter fun q => q.nid = p.nid
      let used := choose (srt net)
      .ok ⟨p.nid, min net.length 4, .many (used.map (·.gid)), weights used⟩

/-- `get_dpos(pos)`: cssrlib.py lines 1345-1352, position in degrees -/
def getDpos (grid : List Pt) (inet : Int) (lat lon : ℚ) : Py (ℚ × ℚ) :=
  match grid.filter fun q => q.nid = inet with
  | [] => .error .indexError
  | g :: _ => .ok (lat - g.lat, lon - g.lon)

/-- sum of two floats -/
def vadd : Val → Val → Val
  | some a, some b => some (a + b)
  | _, _ => none

/-- product of a number and a float -/
def smul (a : ℚ) : Val → Val
  | some b => some (a * b)
  | none => none

/-- `p @ c` of two vectors (ValueError when the lengths differ) -/
def dot (p : List ℚ) (c : List Val) : Py Val :=
  if p.length = c.length then .ok ((List.zipWith smul p c).foldr vadd (some 0)) else .error .valueError

/-- `d[self.grid_index-1] @ self.grid_weight`; a scalar has no `@` -/
def residual (ix : Index) (w : List ℚ) (d : List Val) : Py Val :=
  match ix with
  | .one g => do
    let _ ← pyGetI d (g - 1)
    .error .typeError
  | .many gs => do
    let v ← gs.mapM fun g => pyGetI d (g - 1)
    dot w v

/-- the corrections of a network; `none` is Python's `None` -/
structure Net where
  flgTrop : Nat := 0
  ct : Option (List Val × List Val) := none
  dth : Option (List Val) := none
  dtw : Option (List Val) := none
  flgStec : Nat := 0
  satN : List Int := []
  ci : Dict Int (List Val) := []
  dstec : Dict Int (List Val) := []

/-- the functional term of `get_trop`: cssrlib.py lines 1359-1362 -/
def tropFun (n : Net) (dlat dlon : ℚ) : Py (Val × Val) :=
  if n.flgTrop.testBit 1 then
    match n.ct with
    | none => .error .typeError
    | some (a, b) => do
      let h ← dot [1, dlat, dlon, dlat * dlon] a
      let w ← dot [1, dlat, dlon, dlat * dlon] b
      pure (h, w)
  else .ok (some 0, some 0)

/-- `v += residual` unless the array is `None` -/
def addRes (v : Val) (ix : Index) (w : List ℚ) : Option (List Val) → Py Val
  | none => .ok v
  | some d => do
    let r ← residual ix w d
    pure (vadd v r)

/-- `get_trop(dlat, dlon)`: cssrlib.py lines 1354-1368 -/
def getTrop (n : Net) (ix : Index) (w : List ℚ) (dlat dlon : ℚ) : Py (Val × Val) := do
  let (h, wt) ← tropFun n dlat dlon
  if n.flgTrop.testBit 0 then do
    let h ← addRes h ix w n.dth
    let wt ← addRes wt ix w n.dtw
    pure (h, wt)
  else pure (h, wt)

/-- the functional term of `get_stec` for a satellite: cssrlib.py lines 1377-1382 -/
def stecFun (n : Net) (sat : Int) (dlat dlon : ℚ) : Py Val :=
  if n.flgStec.testBit 1 then do
    let ci ← Dict.getItem n.ci sat
    if ci.length = 3 then dot [1, dlat, dlon] ci
    else dot [1, dlat, dlon, dlat * dlon, dlat ^ 2, dlon ^ 2] ci
  else .ok (some 0)

/-- one satellite of `get_stec`: cssrlib.py lines 1376-1389 -/
def stecSat (n : Net) (ix : Index) (w : List ℚ) (dlat dlon : ℚ) (sat : Int) : Py Val := do
  let v ← stecFun n sat dlat dlon
  if n.flgStec.testBit 0 then do
    let d ← Dict.getItem n.dstec sat
    let r ← residual ix w d
    pure (vadd v r)
  else pure v

/-- `get_stec(dlat, dlon)`: cssrlib.py lines 1370-1390 -/
def getStec (n : Net) (ix : Index) (w : List ℚ) (dlat dlon : ℚ) : Py (List Val) :=
  n.satN.mapM (stecSat n ix w dlat dlon)

end Verif.Grid
