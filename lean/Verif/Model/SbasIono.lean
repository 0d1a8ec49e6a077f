import Verif.Model.Sbas
/-!
# Model of the SBAS ionospheric grid (src/cssrlib/sbas.py)

Angles are in degrees and exact; the pierce point and slant factor come from `ionppp`
(trigonometry, not modelled) and are arguments.
-/

namespace Verif.SbasIono
open Verif Verif.Sbas

/-- latitudes of a full meridian: sbas.py lines 320-322 -/
def p0 : List Int := [-85, -75, -65] ++ (List.range 23).map (fun k : Nat => (-55 : Int) + 5 * k) ++ [65, 75, 85]

/-- one meridian of a band 0-8: sbas.py lines 331-345 -/
def meridian (band k : Nat) : List (Int × Int) :=
  let s := band % 2
  let kr := band - s
  let lats := if k % 2 = 0 then
      if k = kr then (if s = 0 then p0.drop 1 else p0.take 28) else (p0.drop 1).take 27
    else (p0.drop 3).take 23
  lats.map fun la => (la, -180 + 40 * (band : Int) + k * 5)

/-- one parallel of a band 9-10: sbas.py lines 347-366 -/
def parallel (lat0 : Int) (k : Nat) : List (Int × Int) :=
  let lat := lat0 + k * lat0.sign * 5
  let lons := if k = 0 then (List.range 72).map fun j : Nat => (-180 : Int) + 5 * j
    else if k = 4 then (List.range 12).map fun j : Nat => (if lat0 > 0 then (-180 : Int) else -170) + 30 * j
    else (List.range 36).map fun j : Nat => (-180 : Int) + 10 * j
  lons.map fun lo => (lat, lo)

/-- `init_sbas_gp`: sbas.py lines 316-366 -/
def igpTable (band : Nat) : List (Int × Int) :=
  if band ≤ 8 then (List.range 8).flatMap (meridian band)
  else if band ≤ 10 then (List.range 5).flatMap (parallel (if band = 9 then 60 else -60))
  else []

/-- corners of the cell around a point, and position inside it -/
structure Cell where
  latp : List Int
  lonp : List Int
  x : ℚ
  y : ℚ

/-- `q//n*n` -/
def fl (q : ℚ) (n : Int) : Int := (q / n).floor * n

/-- `searchIGP`, first part: sbas.py lines 82-121 -/
def cell (lat lon : ℚ) : Cell :=
  let lon := if lon ≥ 180 then lon - 360 else lon
  let wrap (l : List Int) : List Int := l.map fun v => if v = 180 then -180 else v
  if lat ≥ -55 ∧ lat < 55 then
    let la := fl lat 5
    let lo := fl lon 5
    ⟨[la, la + 5, la, la + 5], wrap [lo, lo, lo + 5, lo + 5], (lon - lo) / 5, (lat - la) / 5⟩
  else
    let la := fl (lat - 5) 10 + 5
    let lo := fl lon 10
    let lons :=
      if lat ≥ 75 ∧ lat < 85 then [lo, fl lon 90, lo + 10, fl lon 90 + 90]
      else if lat ≥ -85 ∧ lat < -75 then [fl (lon - 50) 90 + 40, lo, fl (lon - 50) 90 + 40 + 90, lo + 10]
      else if lat ≥ 85 then [fl lon 90, fl lon 90, fl lon 90, fl lon 90]
      else if lat < -85 then
        [fl (lon - 50) 90 + 40, fl (lon - 50) 90 + 40, fl (lon - 50) 90 + 40, fl (lon - 50) 90 + 40]
      else [lo, lo, lo + 10, lo + 10]
    ⟨[la, la + 10, la, la + 10], wrap lons, (lon - lo) / 10, (lat - la) / 10⟩

/-- grid data of the decoder: mask, delays and indicators of each band -/
structure Grid where
  idx : Dict Nat (List Nat) := []
  vtec : Dict Nat (List Val) := []
  givei : Dict Nat (List Nat) := []

/-- one corner in one band: sbas.py lines 131-137 -/
def corner (gp : List (Int × Int)) (v : List Val) (g : List Nat) (la lo : Int) : Py (Option (Val × Nat)) :=
  match gp.findIdx? (fun p => p = (la, lo)) with
  | none => .ok none
  | some k =>
    if g.length < k then .ok none else
    match g[k]? with
    | none => .error .indexError
    | some gi =>
      if gi = 0 then .ok none else
      match v[k]? with
      | none => .error .indexError
      | some vt => .ok (some (vt, gi))

abbrev Found := Dict Nat (Val × Nat) × Nat

/-- corners `i`, `i+1`, … of one band: sbas.py lines 130-138 -/
def corners (gp : List (Int × Int)) (v : List Val) (g : List Nat) (band : Nat) : Found → List (Nat × Int × Int) → Py Found
  | f, [] => .ok f
  | f, (i, la, lo) :: cs => do
    let r ← corner gp v g la lo
    let f' := match r with
      | none => f
      | some p => (Dict.set f.1 i p, band + 1)
    corners gp v g band f' cs

/-- bands in turn: sbas.py lines 125-138 -/
def bands (gr : Grid) (cs : List (Nat × Int × Int)) : Found → List Nat → Py Found
  | f, [] => .ok f
  | f, b :: bs =>
    match Dict.get? gr.vtec b, Dict.get? gr.givei b with
    | some v, some g =>
      match Dict.get? gr.idx b with
      | none => .error .keyError
      | some idx => do
        let gp ← idx.mapM fun k : Nat => match (igpTable b)[k]? with
          | some p => Except.ok p
          | none => Except.error PyErr.indexError
        let f' ← corners gp v g b f cs
        bands gr cs f' bs
    | _, _ => bands gr cs f bs

/-- the four corners numbered 0-3 -/
def numbered (c : Cell) : List (Nat × Int × Int) :=
  (List.range 4).zip (c.latp.zip c.lonp)

/-- `searchIGP`: sbas.py lines 82-140 (`MAXBAND` = 11) -/
def search (gr : Grid) (inet : Nat) (lat lon : ℚ) : Py Found :=
  bands gr (numbered (cell lat lon)) ([], inet) (List.range 11)

/-- the triangles and the weights of their first two corners: sbas.py lines 152, 171 -/
def triangles (x y : ℚ) : List ((Nat × Nat × Nat) × ℚ × ℚ) :=
  [((1, 2, 0), y, x), ((0, 3, 2), 1 - x, y), ((0, 3, 1), 1 - y, x), ((1, 2, 3), 1 - x, 1 - y)]

/-- weights of the four corners: sbas.py lines 164-183; `none` = rejected -/
def weights (av : Nat → Bool) (x y : ℚ) : Option (List ℚ) :=
  if av 0 ∧ av 1 ∧ av 2 ∧ av 3 then some [(1 - x) * (1 - y), (1 - x) * y, x * (1 - y), x * y]
  else match (triangles x y).find? fun t => av t.1.1 ∧ av t.1.2.1 ∧ av t.1.2.2 with
    | none => none
    | some ((a, b, c), p, q) =>
      let w := (((List.replicate 4 (0 : ℚ)).set a p).set b q).set c (1 - p - q)
      if 1 - p - q < 0 then none else some w

/-- variances of the indicators: sbas.py lines 149-150 -/
def giveiT : List ℚ := [84 / 10000, 333 / 10000, 749 / 10000, 1331 / 10000, 2079 / 10000, 2994 / 10000, 4075 / 10000, 5322 / 10000,
  6735 / 10000, 8315 / 10000, 11974 / 10000, 18709 / 10000, 33260 / 10000, 20787 / 1000, 1870826 / 10000, 0]

/-- accumulation: sbas.py lines 188-193 -/
def accum (igp : Dict Nat (Val × Nat)) (w : List ℚ) (dt : ℚ) : List Nat → Val × ℚ → Val × ℚ
  | [], r => r
  | i :: is, (d, var) =>
    match Dict.get? igp i with
    | none => accum igp w dt is (d, var)
    | some (vt, gi) =>
      accum igp w dt is (match d, vt with
        | some d, some vt => some (d + (w.getD i 0) * vt)
        | _, _ => none, var + (w.getD i 0) * (giveiT.getD gi 0) * (9 / 100000000) * |dt|)

/-- `ionoSBAS` once the pierce point is known: sbas.py lines 158-198.  `age` is the age of the grid
of a network (`timediff(t, cs.lc[cs.inet].t0[0][VTEC])`). -/
def ionoSBAS (gr : Grid) (inet : Nat) (sf lat lon : ℚ) (age : Nat → Option ℚ) : Py (Val × ℚ) := do
  let f ← search gr inet lat lon
  let c := cell lat lon
  if f.1.length < 3 then pure (some 0, 0) else
  match weights (fun i => (Dict.get? f.1 i).isSome) c.x c.y with
  | none => pure (some 0, 0)
  | some w =>
    match age f.2 with
    | none => .error .keyError
    | some dt =>
      let (d, var) := accum f.1 w dt (List.range 4) (some 0, 0)
      pure (d.map (· * sf), var * sf ^ 2)

end Verif.SbasIono
