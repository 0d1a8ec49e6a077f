import Verif.Model.Time
import Verif.Model.Sat
/-!
# Model of the RINEX 4 navigation writer and reader (`rinex.py`)

A file is a list of lines.  A data line has four columns of 19 characters, each a number or blank; a
blank column is read as 0 (`flt`, lines 127-133).  Numbers are exact rationals: the rounding of
`{:19.12E}` to 13 digits is not modelled, nor are lines shorter than the full width the writer pads to.
`eph.A` is represented by its root `sqA`, which is what the file contains.  The suppression of
repeated records (`rec_eph`) is the subject of C41 and left out here.
-/

namespace Verif.Rnxnav
open Verif.Time Verif.Sat

/-- clock polynomial -/
structure Clock where
  af0 : ℚ := 0
  af1 : ℚ := 0
  af2 : ℚ := 0
  deriving DecidableEq

/-- Keplerian elements and harmonic corrections -/
structure Orbit where
  crs : ℚ := 0
  deln : ℚ := 0
  M0 : ℚ := 0
  cuc : ℚ := 0
  e : ℚ := 0
  cus : ℚ := 0
  sqA : ℚ := 0
  cic : ℚ := 0
  OMG0 : ℚ := 0
  cis : ℚ := 0
  i0 : ℚ := 0
  crc : ℚ := 0
  omg : ℚ := 0
  OMGd : ℚ := 0
  idot : ℚ := 0
  deriving DecidableEq

/-- `Eph`: gnss.py lines 710-761; `urai`, `sisai`, `isc` by element, `uraS` is the single number stored
in `urai` for NavIC L1 -/
structure Eph where
  sat : Int := 0
  mode : Nat := 0
  toc : GTime := {}
  toe : GTime := {}
  tot : GTime := {}
  clk : Clock := {}
  orb : Orbit := {}
  iode : Int := 0
  iodc : Int := 0
  week : Int := 0
  toes : ℚ := 0
  tops : ℚ := 0
  Adot : ℚ := 0
  delnd : ℚ := 0
  code : Int := 0
  l2p : Int := 0
  sva : ℚ := 0
  svh : Int := 0
  fit : Int := 0
  integ : Int := 0
  sattype : Int := 0
  sismai : Int := 0
  wnop : Int := 0
  tgd : ℚ := 0
  tgdb : ℚ := 0
  ura0 : Int := 0
  ura1 : Int := 0
  ura2 : Int := 0
  ura3 : Int := 0
  uraS : ℚ := 0
  sis0 : Int := 0
  sis1 : Int := 0
  sis2 : Int := 0
  sis3 : Int := 0
  isc0 : ℚ := 0
  isc1 : ℚ := 0
  isc2 : ℚ := 0
  isc3 : ℚ := 0
  isc4 : ℚ := 0
  isc5 : ℚ := 0
  deriving DecidableEq

/-- message labels -/
inductive Lbl where
  | d1 | d2 | cnv1 | cnv2 | cnv3 | lnav | cnav | inav | fnav | l1nv
  deriving DecidableEq

/-- a line of the file -/
inductive Line where
  /-- `> EPH G01 LNAV` -/
  | eph (lbl : Lbl)
  /-- satellite, date with whole seconds, three columns -/
  | epoch (id : List Char) (ep : Epoch) (f1 f2 f3 : ℚ)
  | data (f0 f1 f2 f3 : Option ℚ)
  deriving DecidableEq

/-- six lines written for every message: rinex.py lines 1246-1259 -/
def common (e : Eph) (id : List Char) (lbl : Lbl) (ep : Epoch) (v1 v2 : ℚ) : List Line :=
  [.eph lbl,
   .epoch id { ep with sec := (truncQ ep.sec : Int) } e.clk.af0 e.clk.af1 e.clk.af2,
   .data (some v1) (some e.orb.crs) (some e.orb.deln) (some e.orb.M0),
   .data (some e.orb.cuc) (some e.orb.e) (some e.orb.cus) (some e.orb.sqA),
   .data (some v2) (some e.orb.cic) (some e.orb.OMG0) (some e.orb.cis),
   .data (some e.orb.i0) (some e.orb.crc) (some e.orb.omg) (some e.orb.OMGd)]

/-- label and the two variable columns: lines 1208-1244; `none`: nothing is written -/
def label (sys : Sys) (prn : Int) (e : Eph) : Option (Lbl × ℚ × ℚ) :=
  match sys with
  | .bds =>
    if e.mode = 0 then some (if prn > 5 ∧ prn < 59 then .d1 else .d2, (e.iode : ℚ), e.toes)
    else if e.mode = 1 then some (.cnv1, e.Adot, e.toes)
    else if e.mode = 2 then some (.cnv2, e.Adot, e.toes)
    else if e.mode = 3 then some (.cnv3, e.Adot, e.toes)
    else Option.none
  | .gps | .qzs =>
    if e.mode = 0 then some (.lnav, (e.iode : ℚ), e.toes)
    else some (if e.mode = 1 then .cnav else .cnv2, e.Adot, e.tops)
  | .gal => some (if e.mode = 0 then .inav else .fnav, (e.iode : ℚ), e.toes)
  | .irn =>
    if e.mode = 0 then some (.lnav, (e.iode : ℚ), e.toes)
    else some (.l1nv, e.Adot, (e.iode : ℚ))
  | _ => Option.none

/-- the other lines: lines 1261-1367 -/
def tail (sys : Sys) (e : Eph) (tot : ℚ) : List Line :=
  match sys with
  | .bds =>
    if e.mode = 0 then
      [.data (some e.orb.idot) none (some (e.week : ℚ)) none,
       .data (some e.sva) (some (e.svh : ℚ)) (some e.tgd) (some e.tgdb),
       .data (some tot) (some (e.iodc : ℚ)) none none]
    else
      [.data (some e.orb.idot) (some e.delnd) (some (e.sattype : ℚ)) (some e.tops),
       .data (some (e.sis0 : ℚ)) (some (e.sis1 : ℚ)) (some (e.sis2 : ℚ)) (some (e.sis3 : ℚ))] ++
      (if e.mode = 1 then [.data (some e.isc0) none (some e.tgd) (some e.tgdb)]
       else if e.mode = 2 then [.data none (some e.isc1) (some e.tgd) (some e.tgdb)]
       else []) ++
      (if e.mode ≤ 2 then
        [.data (some (e.sismai : ℚ)) (some (e.svh : ℚ)) (some (e.integ : ℚ)) (some (e.iodc : ℚ)),
         .data (some tot) none none (some (e.iode : ℚ))]
       else
        [.data (some (e.sismai : ℚ)) (some (e.svh : ℚ)) (some (e.integ : ℚ)) (some e.tgd),
         .data (some tot) none none none])
  | .gps | .qzs =>
    if e.mode = 0 then
      [.data (some e.orb.idot) (some (e.code : ℚ)) (some (e.week : ℚ)) (some (e.l2p : ℚ)),
       .data (some e.sva) (some (e.svh : ℚ)) (some e.tgd) (some (e.iodc : ℚ)),
       .data (some tot) (some (e.fit : ℚ)) none none]
    else
      [.data (some e.orb.idot) (some e.delnd) (some (e.ura0 : ℚ)) (some (e.ura1 : ℚ)),
       .data (some (e.ura3 : ℚ)) (some (e.svh : ℚ)) (some e.tgd) (some (e.ura2 : ℚ)),
       .data (some e.isc0) (some e.isc1) (some e.isc2) (some e.isc3)] ++
      (if e.mode = 2 then [.data (some e.isc4) (some e.isc5) none none] else []) ++
      [.data (some tot) (some (e.wnop : ℚ)) (some (e.integ : ℚ)) none]
  | .gal =>
    [.data (some e.orb.idot) (some (e.code : ℚ)) (some (e.week : ℚ)) none,
     .data (some e.sva) (some (e.svh : ℚ)) (some e.tgd) (some e.tgdb),
     .data (some tot) none none none]
  | .irn =>
    if e.mode = 0 then
      [.data (some e.orb.idot) none (some (e.week : ℚ)) none,
       .data (some e.sva) (some (e.svh : ℚ)) (some e.tgd) none,
       .data (some tot) none none none]
    else if e.mode = 2 then
      [.data (some e.orb.idot) (some e.delnd) none (some (e.integ : ℚ))] ++
      (if e.integ = 0 then
        [.data (some e.uraS) (some (e.svh : ℚ)) (some e.tgd) none,
         .data (some e.isc5) (some e.isc4) none none]
       else
        [.data (some e.uraS) (some (e.svh : ℚ)) none (some e.tgd),
         .data none none (some e.isc5) (some e.isc4)]) ++
      [.data (some tot) none none none]
    else []
  | _ => []

/-- `rnx_nav_body(eph)`: lines 1188-1367 -/
def write (e : Eph) : List Line :=
  match sat2id e.sat with
  | Option.none => []
  | some id =>
    let (sys, prn) := sat2prn e.sat
    let ep := if sys = .bds then time2epoch (gpst2bdt e.toc) else time2epoch e.toc
    let tot := if sys = .bds then (time2bdt e.tot).2 else (time2gpst e.tot).2
    match label sys prn e with
    | Option.none => []
    | some (lbl, v1, v2) => common e id lbl ep v1 v2 ++ tail sys e tot

/-! ### The reader -/

/-- `flt(line, c)` of a column -/
def flt (f : Option ℚ) : ℚ := f.getD 0

/-- `int(flt(line, c))` -/
def fi (f : Option ℚ) : Int := truncQ (flt f)

/-- `line = fnav.readline()` followed by reading columns: anything but a data line (also the end of
the file) has text where a number is expected -/
def readl : List Line → Py ((Option ℚ × Option ℚ × Option ℚ × Option ℚ) × List Line)
  | .data a b c d :: r => .ok ((a, b, c, d), r)
  | _ => .error .valueError

/-- `mode_nav` of a label: lines 354-369 -/
def modeOf : Lbl → Nat
  | .cnav | .cnv1 | .fnav => 1
  | .cnv2 | .l1nv => 2
  | .cnv3 => 3
  | .d1 | .d2 | .lnav | .inav => 0

/-- Python `a & m` for `m ≥ 0` -/
def andI (a : Int) (m : Nat) : Int := (Int.emod a (2 ^ 64)).toNat &&& m

/-- the columns of lines #1 to #4: lines 560-605 -/
def readOrbit (sys : Sys) (mode : Nat) (e : Eph) (r : List Line) : Py (Eph × List Line) := do
  let ((a0, a1, a2, a3), r) ← readl r
  let e :=
    if sys = .gal ∨ (sys = .irn ∧ mode = 0) then { e with iode := fi a0, iodc := fi a0 }
    else if mode > 0 then { e with Adot := flt a0 } else { e with iode := fi a0 }
  let e := { e with orb := { e.orb with crs := flt a1, deln := flt a2, M0 := flt a3 } }
  let ((b0, b1, b2, b3), r) ← readl r
  let e := { e with orb := { e.orb with cuc := flt b0, e := flt b1, cus := flt b2, sqA := flt b3 } }
  let ((c0, c1, c2, c3), r) ← readl r
  let e :=
    if sys = .irn ∧ mode = 2 then { e with iode := e.iodc }
    else if (sys = .gps ∨ sys = .qzs) ∧ mode > 0 then
      { e with tops := flt c0, week := (time2gpst e.toc).1, toes := (time2gpst e.toc).2 }
    else { e with toes := flt c0 }
  let e := { e with orb := { e.orb with cic := flt c1, OMG0 := flt c2, cis := flt c3 } }
  let ((d0, d1, d2, d3), r) ← readl r
  .ok ({ e with orb := { e.orb with i0 := flt d0, crc := flt d1, omg := flt d2, OMGd := flt d3 } }, r)

/-- lines #5 and #6: lines 607-667 -/
def readHealth (sys : Sys) (mode : Nat) (e : Eph) (r : List Line) : Py (Eph × List Line) := do
  let ((a0, a1, a2, a3), r) ← readl r
  let e := { e with orb := { e.orb with idot := flt a0 } }
  let e :=
    if sys = .gal ∨ mode = 0 then { e with code := fi a1, week := fi a2 }
    else
      let e := { e with delnd := flt a1 }
      if sys = .bds then { e with sattype := fi a2, tops := ((fi a3 : Int) : ℚ) }
      else if sys = .irn ∧ mode = 2 then { e with integ := fi a3 }
      else { e with ura0 := fi a2, ura1 := fi a3, ura2 := 0, ura3 := 0 }
  let ((b0, b1, b2, b3), r) ← readl r
  let e :=
    if sys = .bds ∧ mode > 0 then { e with sis0 := fi b0, sis1 := fi b1, sis2 := fi b2, sis3 := fi b3 }
    else if sys = .irn then
      let e := if mode = 0 then { e with sva := flt b0 } else { e with uraS := flt b0 }
      let e := { e with svh := fi b1 }
      if mode = 2 ∧ e.integ = (1 : Int) then { e with tgd := ((fi b3 : Int) : ℚ) } else { e with tgd := ((fi b2 : Int) : ℚ) }
    else
      let e := { e with sva := ((fi b0 : Int) : ℚ), svh := fi b1, tgd := flt b2 }
      let e :=
        if sys = .gps ∨ sys = .qzs then
          if mode = 0 then { e with iodc := fi b3 } else { e with ura2 := fi b3, ura3 := fi b0 }
        else if sys = .gal then
          if andI (e.code / 512) 1 = 1 then { e with tgdb := e.tgd, tgd := flt b3 } else { e with tgdb := flt b3 }
        else { e with tgdb := flt b3 }
      if sys = .qzs then { e with code := andI e.svh 17, svh := andI e.svh 238 } else e
  .ok (e, r)

/-- line #7 and following, with `tot`: lines 669-732 -/
def readTail (sys : Sys) (mode : Nat) (e : Eph) (r : List Line) : Py (Eph × ℚ × List Line) := do
  if sys = .bds then
    if mode = 0 then
      let ((a0, a1, _, _), r) ← readl r
      .ok ({ e with iodc := fi a1 }, flt a0, r)
    else
      let (e, r) ← (if mode < 3 then do
          let ((a0, a1, a2, a3), r) ← readl r
          let e := if mode = 1 then { e with isc0 := flt a0 } else if mode = 2 then { e with isc1 := flt a1 } else e
          (.ok ({ e with tgd := flt a2, tgdb := flt a3 }, r) : Py (Eph × List Line))
        else .ok (e, r))
      let ((b0, b1, b2, b3), r) ← readl r
      let e := { e with sismai := fi b0, svh := fi b1, integ := fi b2 }
      let e := if mode < 3 then { e with iodc := fi b3 } else { e with tgdb := flt b3 }
      let ((c0, _, _, c3), r) ← readl r
      .ok (if mode < 3 then { e with iode := fi c3 } else e, flt c0, r)
  else if sys = .irn then
    let ((a0, a1, a2, a3), r) ← readl r
    if mode > 0 then
      let e := if e.integ = 0 then { e with isc5 := flt a0, isc4 := flt a1 } else { e with isc5 := flt a2, isc4 := flt a3 }
      let ((b0, _, _, _), r) ← readl r
      .ok (e, flt b0, r)
    else .ok (e, flt a0, r)
  else if sys = .gal then
    let ((a0, _, _, _), r) ← readl r
    .ok (e, flt a0, r)
  else
    let ((a0, a1, a2, a3), r) ← readl r
    if mode = 0 then .ok ({ e with fit := fi a1 }, flt a0, r)
    else
      let e := { e with isc0 := flt a0, isc1 := flt a1, isc2 := flt a2, isc3 := flt a3 }
      let ((b0, b1, b2, _), r) ← readl r
      if mode = 2 then
        let e := { e with isc4 := flt b0, isc5 := flt b1 }
        let ((c0, c1, c2, _), r) ← readl r
        .ok ({ e with wnop := fi c1, integ := fi c2 }, ((fi c0 : Int) : ℚ), r)
      else .ok ({ e with wnop := fi b1, integ := fi b2 }, ((fi b0 : Int) : ℚ), r)

/-- the times: lines 734-742 -/
def finish (sys : Sys) (mode : Nat) (e : Eph) (tot : ℚ) : Eph :=
  if sys = .bds then
    let week := if mode > 0 then (time2bdt e.toc).1 else e.week
    { e with
      week := week, toc := bdt2gpst e.toc, toe := bdt2gpst (bdt2time week e.toes),
      tot := bdt2gpst (bdt2time week tot) }
  else { e with toe := gpst2time e.week e.toes, tot := gpst2time e.week tot }

/-- one ephemeris after its epoch line: lines 536-744 -/
def readEph (sys : Sys) (mode : Nat) (id : List Char) (ep : Epoch) (f1 f2 f3 : ℚ) (r : List Line) :
    Py (Eph × List Line) := do
  let prn ← pyInt (id.tail.take 2)
  let prn := if sys = .qzs then prn + 192 else prn
  let e : Eph := { sat := prn2sat sys prn, mode := mode, toc := epoch2time ep, clk := ⟨f1, f2, f3⟩ }
  let (e, r) ← readOrbit sys mode e r
  let (e, r) ← readHealth sys mode e r
  let (e, tot, r) ← readTail sys mode e r
  .ok (finish sys mode e tot, r)

/-- the loop over the lines after the header for version 4: lines 376-744 without the records of
GLONASS and SBAS and those starting with `> STO`, `> EOP`, `> ION`.  `mode` is `mode_nav`; `fuel` is
any bound of the number of lines. -/
def readLoop : Nat → List Line → Nat → List Eph → Py (List Eph)
  | 0, _, _, acc => .ok acc
  | _, [], _, acc => .ok acc
  | fuel + 1, .eph lbl :: r, _, acc =>
    match r with
    | [] => .error .indexError
    | .epoch id ep f1 f2 f3 :: r' =>
      let sys := char2sys (id.headD ' ')
      if sys = .gps ∨ sys = .gal ∨ sys = .qzs ∨ sys = .bds ∨ sys = .irn then
        match readEph sys (modeOf lbl) id ep f1 f2 f3 r' with
        | .error e => .error e
        | .ok (e, r'') => readLoop fuel r'' (modeOf lbl) (acc ++ [e])
      else readLoop fuel r' (modeOf lbl) acc
    | _ :: r' => readLoop fuel r' (modeOf lbl) acc
  | fuel + 1, .epoch id ep f1 f2 f3 :: r', mode, acc =>
    let sys := char2sys (id.headD ' ')
    if sys = .gps ∨ sys = .gal ∨ sys = .qzs ∨ sys = .bds ∨ sys = .irn then
      match readEph sys mode id ep f1 f2 f3 r' with
      | .error e => .error e
      | .ok (e, r'') => readLoop fuel r'' mode (acc ++ [e])
    else readLoop fuel r' mode acc
  | fuel + 1, .data _ _ _ _ :: r, mode, acc => readLoop fuel r mode acc

/-- reading a file -/
def readNav (file : List Line) : Py (List Eph) := readLoop file.length file 0 []

end Verif.Rnxnav
