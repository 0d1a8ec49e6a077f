import Verif.Model.Cssr
/-!
Model of the wide-area ionospheric part of the MADOCA-PPP decoder, class `cssr_mdc` of
`src/cssrlib/cssr_mdc.py`: region/area to slot conversion (lines 51-61, 154-168), area lookup
(lines 63-88) and the STEC correction message (lines 170-236).

Whether a position lies inside an area (lines 73-84, rectangle or circle, floating point) is a
parameter.  Each slot keeps the fields the STEC message writes.
-/

namespace Verif.Mdc
open Verif.Sat Verif.Time

/-- `narea_t`: cssr_mdc.py line 51, in dictionary order -/
def nareaT : List (Int × Int) := [(1, 8), (2, 16), (3, 5), (4, 1), (5, 8)]

/-- the loop of `get_inet`: cssr_mdc.py lines 161-164 -/
def offset (reg : Int) : List (Int × Int) → Int → Int
  | [], inet => inet
  | (r, n) :: t, inet => if r ≥ reg then inet else offset reg t (inet + n)

/-- `get_inet(reg, area)`: cssr_mdc.py lines 154-168 -/
def getInet (reg area : Int) : Int :=
  if reg < 0 ∨ area < 0 then -1 else offset reg nareaT 0 + area

/-- number of local-correction slots: 33 from the base class (cssrlib.py lines 324-325, `MAXNET` 32)
and `MAXNET+1 = 39` more (cssr_mdc.py lines 54-55) -/
def nslot : Nat := 72

/-- the area loop of `find_grid_index`: the first area containing the position -/
def findArea {α} (inside : α → Bool) : List (Int × α) → Option Int
  | [] => none
  | (a, p) :: t => if inside p then some a else findArea inside t

/-- the region loop of `find_grid_index`: cssr_mdc.py lines 69-84; `break` leaves only the inner
loop -/
def findRegion {α} (inside : α → Bool) (pnt : List (Int × List (Int × α))) (ra : Int × Int) : Int × Int :=
  pnt.foldl (fun (ra : Int × Int) (e : Int × List (Int × α)) =>
    match findArea inside e.2 with
    | some a => (e.1, a)
    | none => ra) ra

/-- `find_grid_index(pos)`: cssr_mdc.py lines 63-88.  Returns `(reg, area, inet)`. -/
def findGridIndex {α} (inside : α → Bool) (pnt : List (Int × List (Int × α))) : Int × Int × Int :=
  let ra := findRegion inside pnt (-1, -1)
  (ra.1, ra.2, getInet ra.1 ra.2)

/-- what a STEC message stores for a slot -/
structure Slot where
  satN : List Int := []
  nsatN : Nat := 0
  ci : Dict Int (List ℚ) := []
  qi : Dict Int Nat := []
  stype : Dict Int Nat := []
  t0 : Option GTime := none
  stec : Bool := false
  inetRef : Int := -1

structure St where
  week : Int := -1
  tow0 : Int := -1
  reg : Int := -1
  area : Int := -1
  lc : List Slot := List.replicate nslot {}

/-- `sys_t`: cssr_mdc.py line 183 -/
def sysT : List Sys := [.gps, .glo, .gal, .bds, .qzs]

/-- per-satellite part of the STEC message: cssr_mdc.py lines 196-222 -/
def stecSat (buff : BitBuf) (sys : Sys) (stype : Nat) (s : Slot × Nat) : Py (Slot × Nat) := do
  let (s, i) := s
  let prn ← readU buff i 6
  let qi ← readU buff (i + 6) 6
  let c00 ← readS buff (i + 12) 14
  let i := i + 26
  let prn := if sys = .qzs then prn + 192 else prn
  let sat := prn2sat sys prn
  let (c01, c10, i) ← (if stype > 0 then do
      let a ← readS buff i 12
      let b ← readS buff (i + 12) 12
      pure (a, b, i + 24)
    else pure (0, 0, i))
  let (c11, i) ← (if stype > 1 then do
      let a ← readS buff i 10
      pure (a, i + 10)
    else pure (0, i))
  let (c02, c20, i) ← (if stype > 2 then do
      let a ← readS buff i 8
      let b ← readS buff (i + 8) 8
      pure (a, b, i + 16)
    else pure (0, 0, i))
  pure ({ s with qi := Dict.set s.qi sat qi, stype := Dict.set s.stype sat stype,
                 satN := s.satN ++ [sat],
                 ci := Dict.set s.ci sat [c00 * (5 / 100), c01 * (2 / 100), c10 * (2 / 100),
                   c11 * (2 / 100), c02 * (5 / 1000), c20 * (5 / 1000)] }, i)

/-- `decode_mdc_stec_corr` (message type 2): cssr_mdc.py lines 170-236 -/
def decodeStecCorr (s : St) (buff : BitBuf) (i : Nat := 0) : Py (St × Nat) := do
  let dtow ← readU buff i 12
  let _ ← readU buff (i + 12) 4
  let _ ← readU buff (i + 16) 1
  let iod ← readU buff (i + 17) 4
  let i := i + 21
  let reg ← readU buff i 8
  let area ← readU buff (i + 8) 5
  let stype ← readU buff (i + 13) 2
  let i := i + 15
  let s := { s with reg := reg, area := area }
  let nsat ← Cssr.readMany buff i 5 5
  let i := i + 25
  let inet := (getInet reg area).toNat
  let (sl, i) ← (List.range 5).foldlM (fun (p : Slot × Nat) g => do
    let sys ← pyGet sysT g
    let n ← pyGet nsat g
    (List.range n).foldlM (fun p _ => stecSat buff sys stype p) p) (({} : Slot), i)
  let sl := { sl with nsatN := nsat.sum, t0 := some (gpst2time s.week (s.tow0 + dtow)), stec := true,
                      inetRef := iod }
  let lc ← pySet s.lc inet sl
  pure ({ s with lc := lc }, i)

end Verif.Mdc
