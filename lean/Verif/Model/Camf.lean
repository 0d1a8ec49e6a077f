import Verif.Bits
import Verif.Model.Time
/-!
Model of the common alert message decoder: `camfDec.decode` and `camfDec.decode_ext`
(`src/cssrlib/ewss.py` lines 1241-1352 and 1353-1671).

The tables loaded from files (hazards, guidance lists, regions, snow depths, prefectures,
municipalities) are parameters: only which keys they have matters.  Texts are represented by
their table index.  Numbers are exact rationals.  Printing is modelled only where it can raise
(`monlevel > 0` with undefined names).
-/

namespace Verif.Camf
open Verif.Time

/-- the tables read from files -/
structure Tables where
  hazard : Nat → Bool
  region : Nat → Bool
  listA : Nat → Bool
  listB : Nat → Bool
  d14 : Nat → Bool
  pref : Nat → Bool
  /-- number of rows of the municipality table with a given code -/
  city : Nat → Nat

/-- `r_t`: lines 937-941 -/
def rTbl : List ℚ :=
  [216/1000, 292/1000, 395/1000, 535/1000, 723/1000, 978/1000, 1322/1000, 1788/1000,
   2418/1000, 3269/1000, 4421/1000, 5979/1000, 8085/1000, 10933/1000, 14784/1000, 19992/1000,
   27035/1000, 36559/1000, 49439/1000, 66855/1000, 90407/1000, 122255/1000, 165324/1000,
   223564/1000, 302322/1000, 408824/1000, 552846/1000, 747603/1000, 1010970/1000,
   1367116/1000, 1848727/1000, 2500]

/-- keys of `guid_t`: lines 1187-1198 -/
def guidKeys : List Nat := [0, 1, 2, 3, 4, 5, 6, 7, 127, 255]
/-- keys of `guid_la_t`: lines 1201-1215 -/
def guidLaKeys : List Nat := [0, 1, 127, 128, 129, 130, 131, 132, 133, 134, 135, 136, 255]

/-- what a complete message sets -/
structure Alert where
  mt : Nat
  region : Nat
  pid : Nat
  hazard : Nat
  severity : Nat
  onset : GTime
  duration : Nat
  sel : Nat
  ver : Nat
  /-- `(ia, ib)` or `(inst, info)` -/
  guide : Nat × Nat
  lat : ℚ
  lon : ℚ
  major : ℚ
  minor : ℚ
  az : ℚ
  subj : Nat
  /-- relative position of the hazard centre (subject 1) -/
  dlat : ℚ
  dlon : ℚ
  /-- second ellipse (subject 2): distance, axes, angle -/
  dist : ℚ
  major2 : ℚ
  minor2 : ℚ
  theta : ℚ
  /-- table indices of the details (subject 3) -/
  detail : List Nat

/-- state kept between messages -/
structure St where
  time : GTime := {}
  sel : Nat := 0
  pid : Nat := 0
  last : Option Alert := none

/-- look up a tuple of `n` entries -/
def tup (n : Nat) (i : Nat) : Py Nat := if i < n then .ok i else .error .indexError
/-- look up a dictionary -/
def key (d : Nat → Bool) (i : Nat) : Py Nat := if d i then .ok i else .error .keyError

/-- fields of the given widths from bit `i` on -/
def fields (b : BitBuf) : Nat → List Nat → Py (List Nat)
  | _, [] => .ok []
  | i, w :: ws => do
    let x ← readU b i w
    let r ← fields b (i + w) ws
    pure (x :: r)

/-- a look-up per field -/
def lookups : List (Nat → Py Nat) → List Nat → Py (List Nat)
  | f :: fs, x :: xs => do
    let y ← f x
    let r ← lookups fs xs
    pure (y :: r)
  | _, _ => .ok []

/-- widths and tables of one kind of details -/
def part (b : BitBuf) (i : Nat) (l : List (Nat × (Nat → Py Nat))) : Py (List Nat) := do
  let v ← fields b i (l.map (·.1))
  lookups (l.map (·.2)) v

/-- the tests of lines 1505-1575 in order; the test for `THazard.WINDCHILL` (line 1575) raises
because that member does not exist (the member is `WIND_CHILL`), so nothing after it is reached -/
def details (T : Tables) (b : BitBuf) (i : Nat) (hcat : Nat) : Py (List Nat) :=
  if hcat = 36 then  -- earthquake
    part b i [(4, tup 9), (3, tup 8), (4, .ok), (4, tup 16)]
  else if hcat = 43 ∨ hcat = 44 then part b i [(3, tup 8)]  -- tsunami
  else if hcat = 63 ∨ hcat = 71 then part b i [(4, tup 16)]  -- cold and heat wave
  else if hcat = 80 then part b i [(3, tup 5), (4, tup 13), (3, tup 8)]  -- hurricane
  else if hcat = 82 then part b i [(3, tup 5), (4, tup 13), (3, tup 8)]  -- typhoon
  else if hcat = 79 then part b i [(4, tup 13), (3, tup 8), (3, tup 6)]  -- tornado
  else if hcat = 77 then part b i [(4, tup 13), (3, tup 8), (3, tup 6), (3, tup 6)]  -- storm
  else if hcat = 70 then part b i [(3, tup 11)]  -- hail
  else if hcat = 74 then part b i [(3, tup 8), (4, tup 10)]  -- rainfall
  else if hcat = 76 then part b i [(5, key T.d14), (4, tup 10)]  -- snowfall
  else if hcat = 68 then part b i [(2, tup 4)]  -- flood
  else if hcat = 72 then part b i [(3, tup 6)]  -- lightning
  else .error .attributeError

/-- lines 1393-1402: hazard onset; `week` is the GPS week of the decoder's time -/
def onset (now : GTime) (wn tow : Nat) : GTime :=
  let week := (time2gpst now).1 + wn
  let tow : Int := ((tow : Int) - 1) * 60 + 86400
  if tow ≥ 604800 then gpst2time (week + 1) ((tow - 604800 : Int) : ℚ)
  else gpst2time week ((tow : Int) : ℚ)

/-- line 1478: the step of the table of radii below an entry -/
def radStep (k : Nat) : ℚ := if k > 0 then rTbl.getD k 0 - rTbl.getD (k - 1) 0 else rTbl.getD 0 0

/-- lines 1488-1491 -/
def refine (c : Nat) : ℚ := -10 + (if c ≤ 63 then (c : ℚ) else (c : ℚ) + 1) * 20 / 128

/-- the guidance: lines 1414-1433; `none`: unsupported region -/
def guide (T : Tables) (b : BitBuf) (i : Nat) (sel regi pid : Nat) : Py (Option (Nat × Nat)) :=
  if sel = 0 then do
    let ia ← readU b i 5
    let ib ← readU b (i + 5) 5
    let x ← key T.listA ia
    let y ← key T.listB ib
    pure (some (x, y))
  else if regi = 111 then do
    let inst ← readU b i 2
    let info ← readU b (i + 2) 8
    if pid = 2 ∨ pid = 3 then
      if info ∈ guidLaKeys then pure (some (inst, info)) else .error .keyError
    else
      if info ∈ guidKeys then pure (some (inst, info)) else .error .keyError
  else pure none

/-- the specific settings: lines 1462-1659; modifies the alert -/
def specific (T : Tables) (b : BitBuf) (i : Nat) (smai smii : Nat) (a : Alert) : Py Alert :=
  if a.subj = 0 then do
    let c1 ← readU b i 3
    let c2 ← readU b (i + 3) 3
    let c3 ← readU b (i + 6) 3
    let c4 ← readU b (i + 9) 3
    pure { a with lat := a.lat + c1 * (343/1000000)
                  lon := a.lon + c2 * (343325/1000000000)
                  major := a.major - c3 * (1/8) * radStep smai
                  minor := a.minor - c4 * (1/8) * radStep smii }
  else if a.subj = 1 then do
    let c5 ← readU b i 7
    let c6 ← readU b (i + 7) 7
    pure { a with dlat := refine c5, dlon := refine c6 }
  else if a.subj = 2 then do
    let c7 ← readU b i 2
    let c8 ← readU b (i + 2) 3
    let c9 ← readU b (i + 5) 5
    let _ ← readU b (i + 10) 5
    pure { a with dist := c7 * a.major
                  major2 := a.major * (c8 + 1) * (1/4)
                  minor2 := a.minor * (c8 + 1) * (1/4)
                  theta := c9 * (45/4) }
  else do
    let d ← details T b i a.hazard
    pure { a with detail := d }

/-- the target area and specific settings: lines 1447-1660, from bit `i + 56` of the message on -/
def area (T : Tables) (b : BitBuf) (i : Nat) (a : Alert) : Py Alert := do
  let lati ← readU b (i + 56) 16
  let loni ← readU b (i + 72) 17
  let smai ← readU b (i + 89) 5
  let smii ← readU b (i + 94) 5
  let azi ← readU b (i + 99) 6
  let subj ← readU b (i + 105) 2
  specific T b (i + 107) smai smii
    { a with lat := -90 + 180 / 65535 * lati
             lon := -180 + 360 / 131071 * loni
             major := rTbl.getD smai 0
             minor := rTbl.getD smii 0
             az := -90 + 180 / 64 * azi
             subj := subj }

/-- lines 1382-1671: a message with a known hazard -/
def body (T : Tables) (mon : Bool) (b : BitBuf) (i : Nat) (s : St) (mt regi pid hcat sev : Nat) :
    Py (St × Nat) := do
  let wn ← readU b (i + 25) 1
  let tow ← readU b (i + 26) 14
  let dur ← readU b (i + 40) 2
  let sel ← readU b (i + 42) 1
  let ver ← readU b (i + 43) 3
  let g ← guide T b (i + 46) sel regi pid
  match g with
  | none => pure ({ s with sel := sel }, i + 46 + 76)
  | some g => do
    let a ← area T b i
      { mt := mt, region := regi, pid := pid, hazard := hcat, severity := sev
        onset := onset s.time wn tow, duration := dur, sel := sel, ver := ver + 1, guide := g
        lat := 0, lon := 0, major := 0, minor := 0, az := 0, subj := 0, dlat := 0, dlon := 0
        dist := 0, major2 := 0, minor2 := 0, theta := 0, detail := [] }
    -- lines 1662-1665: `inst`, `info` and `s` exist only for national guidance
    if mon = true ∧ sel = 0 then .error .unboundLocal
    else pure ({ s with sel := sel, last := some a }, i + 46 + 10 + 49 + 2 + 15)

/-- `camfDec.decode(msg, i)`: lines 1353-1671 -/
def decode (T : Tables) (mon : Bool) (b : BitBuf) (i : Nat) (s : St) : Py (St × Nat) := do
  let mt ← readU b i 2
  let regi ← readU b (i + 2) 9
  let pid ← readU b (i + 11) 5
  let _ ← key T.region regi
  let s := { s with pid := pid }
  let hcat ← readU b (i + 16) 7
  let sev ← readU b (i + 23) 2
  if T.hazard hcat = false then pure (s, i + 25 + 97)
  else body T mon b i s mt regi pid hcat sev

/-- municipality of a J-Alert extension: lines 1332-1336; the first row is used -/
def cityStep (T : Tables) (b : BitBuf) : Nat → Nat → Py Nat
  | 0, i => .ok i
  | k + 1, i => do
    let mc ← readU b i 16
    if mc > 0 ∧ T.city mc = 0 then .error .indexError
    else cityStep T b k (i + 16)

/-- prefectures: lines 1316-1319 -/
def prefStep (T : Tables) (ex9 : Nat) : List Nat → Py Unit
  | [] => .ok ()
  | k :: ks => do
    if (ex9 >>> (46 - k)) &&& 1 ≠ 0 ∧ T.pref (k + 1) = false then .error .keyError
    else prefStep T ex9 ks

/-- `camfDec.decode_ext(msg, i)`: lines 1241-1352 -/
def decodeExt (T : Tables) (b : BitBuf) (i : Nat) (s : St) : Py Nat :=
  if s.sel = 0 then do
    let _ ← readU b (i + 68) 6
    pure (i + 68 + 6)
  else if s.pid = 1 then do
    let ex1 ← readU b i 16
    let _ ← readU b (i + 16) 35
    let _ ← readU b (i + 51) 23
    -- `.item()` raises unless there is exactly one row
    if ex1 = 0 then pure (i + 51 + 23)
    else if T.city ex1 ≤ 1 then pure (i + 51 + 23)
    else .error .valueError
  else if s.pid = 2 ∨ s.pid = 3 then do
    let ex8 ← readU b i 1
    let i' ← (if ex8 = 0 then do
        let ex9 ← readU b (i + 1) 47
        let _ ← prefStep T ex9 (List.range 47)
        pure (i + 1 + 64)
      else cityStep T b 4 (i + 1))
    let _ ← readU b i' 9
    pure (i' + 9)
  else pure i

end Verif.Camf
