import Verif.Model.Mask
import Verif.Model.Sat
import Verif.Model.Sval
/-!
# Model of the RTCM multi-signal messages (src/cssrlib/rtcm.py, `decode_msm`, lines 2280-2466)

The signal table `msm2rsig` together with the carrier frequencies is an argument of the cell part:
`none` = the signal number is not in the table (KeyError), a frequency `none` = `frequency()`
returns None.  The observation epoch is not modelled.  Floats are exact rationals.
-/

namespace Verif.Msm
open Verif Verif.Sval Verif.Sat Verif.Mask

/-- what may be compared with `in` at line 2454 -/
inductive PyObj where
  | int (n : Nat)
  | list (l : List Nat)
deriving DecidableEq

/-- carrier frequency of a signal number, as a function of the GLONASS frequency channel -/
abbrev Freqs := Nat → Option (Int → Option ℚ)

def clight : ℚ := 299792458
/-- metres per light-millisecond: line 2332 -/
def rms : ℚ := clight / 1000

/-- `n` unsigned fields of width `w` from bit `i` on -/
def readArrU (msg : BitBuf) (i w n : Nat) : Py (List Nat) := (List.range n).mapM fun k : Nat => readU msg (i + w * k) w
def readArrS (msg : BitBuf) (i w n : Nat) : Py (List Int) := (List.range n).mapM fun k : Nat => readS msg (i + w * k) w

/-- the same if `c`, otherwise nothing is read -/
def optU (c : Bool) (msg : BitBuf) (i w n : Nat) : Py (List Nat) := if c then readArrU msg i w n else .ok (List.replicate n 0)
def optS (c : Bool) (msg : BitBuf) (i w n : Nat) : Py (List Int) := if c then readArrS msg i w n else .ok []

/-- message types with extended information and range rates -/
def ext (msm : Nat) : Bool := msm = 5 ∨ msm = 7

/-- cell masks of the satellites: lines 2311-2318; the signal indices of each satellite -/
def cellMasks (msg : BitBuf) (nsig : Nat) : Nat → Nat → Py (List (List Nat) × Nat)
  | i, 0 => .ok ([], i)
  | i, n + 1 => do
    if nsig = 0 then .error .valueError else do
    let m ← readU msg i nsig
    let (rest, i') ← cellMasks msg nsig (i + nsig) n
    pure ((decodeMask m nsig 0).1 :: rest, i')

/-- rough range from its two parts: lines 2343-2356 -/
def rough (v f : Nat) : ℚ :=
  let r := if v ≠ 255 then v * rms else 0
  if r ≠ 0 then r + f * (1 / 2 ^ 10) * rms else r

/-- satellite part: lines 2334-2361; rough ranges and extended information -/
def satPart (msg : BitBuf) (msm nsat i : Nat) : Py (List ℚ × List Nat × Nat) :=
  if 1 ≤ msm ∧ msm ≤ 3 then do
    let v ← readArrU msg i 10 nsat
    pure (v.map fun v : Nat => if v ≠ 1023 then (v : ℚ) * rms else 0, List.replicate nsat 0, i + 10 * nsat)
  else do
    let v ← readArrU msg i 8 nsat
    let ex ← optU (ext msm) msg (i + 8 * nsat) 4 nsat
    let i := i + 8 * nsat + (if ext msm then 4 * nsat else 0)
    let f ← readArrU msg i 10 nsat
    let _ ← optS (ext msm) msg (i + 10 * nsat) 14 nsat
    pure (List.zipWith rough v f, ex, i + 10 * nsat + (if ext msm then 14 * nsat else 0))

/-- values of one cell -/
structure Cell where
  pr : Val
  cp : Val
  cnr : ℚ
  lock : Nat
  half : Nat

/-- pseudoranges: lines 2364-2370 -/
def prPart (msg : BitBuf) (msm n i : Nat) : Py (List Val × Nat) :=
  if msm ≠ 2 then do
    let sz := if msm < 6 then 15 else 20
    let scl : ℚ := if msm < 6 then 1 / 2 ^ 24 else 1 / 2 ^ 29
    let v ← readArrS msg i sz n
    pure (v.map fun u => sval u sz (scl * rms), i + sz * n)
  else pure (List.replicate n none, i)

/-- phases, lock times and half-cycle flags: lines 2372-2388 -/
def cpPart (msg : BitBuf) (msm n i : Nat) : Py (List Val × List Nat × List Nat × Nat) :=
  if msm > 1 then do
    let sz := if msm < 6 then 22 else 24
    let scl : ℚ := if msm < 6 then 1 / 2 ^ 29 else 1 / 2 ^ 31
    let v ← readArrS msg i sz n
    let i := i + sz * n
    let lz := if msm < 6 then 4 else 10
    let l ← readArrU msg i lz n
    let h ← readArrU msg (i + lz * n) 1 n
    pure (v.map fun u => sval u sz (scl * rms), l, h, i + lz * n + n)
  else pure (List.replicate n none, List.replicate n 0, List.replicate n 0, i)

/-- signal strengths and fine range rates (read, not used): lines 2390-2402 -/
def cnrPart (msg : BitBuf) (msm n i : Nat) : Py (List ℚ × Nat) := do
  let sz := if msm < 6 then 6 else 10
  let scl : ℚ := if msm < 6 then 1 else 1 / 16
  let s ← optU (msm > 3) msg i sz n
  let i := i + (if msm > 3 then sz * n else 0)
  let _ ← optS (ext msm) msg i 15 n
  pure (s.map fun u : Nat => (u : ℚ) * scl, i + (if ext msm then 15 * n else 0))

/-- values of one satellite, one entry per signal: lines 2429-2433 -/
structure Row where
  P : List Val
  L : List Val
  S : List ℚ
  ll : List Nat
  hf : List Nat

def addV (a : Val) (r : ℚ) : Val := a.map (· + r)

/-- cells of one satellite: lines 2440-2453 -/
def fillRow (fr : Nat → Option ℚ) (sig : List Nat) (cells : List Cell) (r : ℚ) (ofst : Nat) : Row → Nat → List Nat → Py Row
  | row, _, [] => .ok row
  | row, j, s :: ss =>
    match fr s with
    | none => .error .typeError
    | some f =>
      match cells[j + ofst]? with
      | none => .error .indexError
      | some c =>
        let x := sig.idxOf s
        let row' : Row := { P := row.P.set x (addV c.pr r), L := row.L.set x ((addV c.cp r).map fun v => v * f / clight),
                            S := row.S.set x c.cnr, ll := row.ll.set x c.lock, hf := row.hf.set x c.half }
        fillRow fr sig cells r ofst row' (j + 1) ss

/-- loss-of-lock flags: lines 2462-2471 -/
def lliRow (sig : List Nat) (sigN : List PyObj) (ll hf prev : List Nat) : List Nat → List Nat → Py (List Nat)
  | row, [] => .ok row
  | row, j :: js =>
    match sig[j]? with
    | none => .error .indexError
    | some s =>
      if PyObj.int s ∉ sigN then lliRow sig sigN ll hf prev row js else
      match ll[j]?, prev[j]?, hf[j]? with
      | some l, some p, some h =>
        let x := sig.idxOf s
        let row := if l < p then row.set x (row.getD x 0 ||| 1) else row
        let row := if h > 0 then row.set x (row.getD x 0 ||| 3) else row
        lliRow sig sigN ll hf prev row js
      | _, _, _ => .error .indexError

/-- decoded observations -/
structure Out where
  sat : List Int := []
  P : List (List Val) := []
  L : List (List Val) := []
  S : List (List ℚ) := []
  lli : List (List Nat) := []

/-- frequency channel from the extended information: lines 2435-2438 -/
def channel (sys : Sys) (ex : Nat) : Int := if sys = .glo ∧ ex ≤ 13 then (ex : Int) - 7 else 0

def lliSat (lock : Dict Int (List Nat)) (sat : Int) (sig : List Nat) (sigN : List PyObj) (row : Row) : Py (List Nat) :=
  match Dict.get? lock sat with
  | some prev => lliRow sig sigN row.ll row.hf prev (List.replicate sig.length 0) (List.range sig.length)
  | none => .ok (List.replicate sig.length 0)

/-- satellites in turn: lines 2423-2473 -/
def fillRows (sys : Sys) (fq : Freqs) (sig : List Nat) (cells : List Cell) (sigN : List PyObj) :
    Nat → Dict Int (List Nat) → List (Int × List Nat × ℚ × Nat) → Py (Out × Dict Int (List Nat))
  | _, lock, [] => .ok ({}, lock)
  | ofst, lock, (sat, idxs, r, ex) :: rest => do
    let ids := idxs.filterMap fun k : Nat => sig[k]?
    let n := sig.length
    let z : Row := ⟨List.replicate n (some 0), List.replicate n (some 0), List.replicate n 0, List.replicate n 0, List.replicate n 0⟩
    let row ← fillRow (fun s => (fq s).bind fun f => f (channel sys ex)) sig cells r ofst z 0 ids
    let lli ← lliSat lock sat sig sigN row
    let lock' := Dict.set lock sat row.ll
    let (o, lock'') ← fillRows sys fq sig cells sigN (ofst + ids.length) lock' rest
    pure (⟨sat :: o.sat, row.P :: o.P, row.L :: o.L, row.S :: o.S, lli :: o.lli⟩, lock'')

/-- first satellite number of a mask: lines 2293-2298 -/
def firstPrn : Sys → Nat
  | .qzs => 193
  | .sbs => 120
  | _ => 1

/-- `decode_msm(msg, i)` for message `msm` (1-7) of constellation `sys`, as called at line 4007 (more
than 64 cells: -1 is returned, which the caller cannot unpack) -/
def decodeMsm (fq : Freqs) (sys : Sys) (msm : Nat) (lock : Dict Int (List Nat)) (msg : BitBuf) (i : Nat) :
    Py (Nat × Out × Dict Int (List Nat)) := do
  let _ ← readU msg i 46
  let _ ← readU msg (i + 53) 8
  let svmask ← readU msg (i + 61) 64
  let sigmask ← readU msg (i + 125) 32
  let prn := (decodeMask svmask 64 (firstPrn sys)).1
  let sig := (decodeMask sigmask 32 1).1
  if prn.length * sig.length > 64 then .error .typeError else do
  let (masks, i) ← cellMasks msg sig.length (i + 157) prn.length
  let ncell := (masks.map List.length).sum
  let (r, ex, i) ← satPart msg msm prn.length i
  let (pr, i) ← prPart msg msm ncell i
  let (cp, ll, hf, i) ← cpPart msg msm ncell i
  let (cnr, i) ← cnrPart msg msm ncell i
  let cells := (List.range ncell).map fun m : Nat => (⟨pr.getD m none, cp.getD m none, cnr.getD m 0, ll.getD m 0, hf.getD m 0⟩ : Cell)
  if sig.any (fun s => (fq s).isNone) then .error .keyError else do
  let sigN := masks.map fun idxs => PyObj.list (idxs.filterMap fun k : Nat => sig[k]?)
  let rows := (List.range prn.length).map fun k : Nat => (prn2sat sys (prn.getD k 0 : Nat), masks.getD k [], r.getD k 0, ex.getD k 0)
  let (o, lock) ← fillRows sys fq sig cells sigN 0 lock rows
  pure (i, o, lock)

/-- `msm2rsig`: rtcm.py lines 609-718; band and attribute of a signal number, per constellation -/
def sigTable : Sys → List (Nat × Nat × Char)
  | .gps => [(2, 1, 'C'), (3, 1, 'P'), (4, 1, 'W'), (8, 2, 'C'), (9, 2, 'P'), (10, 2, 'W'), (15, 2, 'S'), (16, 2, 'L'), (17, 2, 'X'),
      (22, 5, 'I'), (23, 5, 'Q'), (24, 5, 'X'), (30, 1, 'S'), (31, 1, 'L'), (32, 1, 'X')]
  | .glo => [(2, 1, 'C'), (3, 1, 'P'), (8, 2, 'C'), (9, 2, 'P'), (10, 4, 'A'), (11, 4, 'B'), (12, 4, 'X'), (13, 6, 'A'), (14, 6, 'X'),
      (15, 3, 'I'), (16, 3, 'Q'), (17, 3, 'X')]
  | .gal => [(2, 1, 'C'), (3, 1, 'A'), (4, 1, 'B'), (5, 1, 'X'), (6, 1, 'Z'), (8, 6, 'C'), (9, 6, 'A'), (10, 6, 'B'), (11, 6, 'X'), (12, 6, 'Z'),
      (14, 7, 'I'), (15, 7, 'Q'), (16, 7, 'X'), (18, 8, 'I'), (19, 8, 'Q'), (20, 8, 'X'), (22, 5, 'I'), (23, 5, 'Q'), (24, 5, 'X')]
  | .bds => [(2, 2, 'I'), (3, 2, 'Q'), (4, 2, 'X'), (8, 6, 'I'), (9, 6, 'Q'), (10, 6, 'X'), (14, 7, 'I'), (15, 7, 'Q'), (16, 7, 'X'),
      (22, 5, 'D'), (23, 5, 'P'), (24, 5, 'X'), (25, 7, 'D'), (30, 1, 'D'), (31, 1, 'P'), (32, 1, 'X')]
  | .qzs => [(2, 1, 'C'), (3, 1, 'E'), (9, 6, 'S'), (10, 6, 'L'), (11, 6, 'X'), (15, 2, 'S'), (16, 2, 'L'), (17, 2, 'X'), (22, 5, 'I'),
      (23, 5, 'Q'), (24, 5, 'X'), (30, 1, 'S'), (31, 1, 'L'), (32, 1, 'X')]
  | .sbs => [(2, 1, 'C'), (22, 5, 'I'), (23, 5, 'Q'), (24, 5, 'X')]
  | .irn => [(8, 9, 'A'), (22, 5, 'A')]
  | _ => []

/-- `rSigRnx.frequency(k)`: gnss.py lines 556-633 -/
def frequency (sys : Sys) (band : Nat) (k : Int) : Option ℚ :=
  match sys, band with
  | .gps, 1 | .gal, 1 | .bds, 1 | .qzs, 1 | .sbs, 1 | .irn, 1 => some 1575420000
  | .gps, 2 | .qzs, 2 => some 1227600000
  | .gps, 5 | .gal, 5 | .bds, 5 | .qzs, 5 | .sbs, 5 => some 1176450000
  | .glo, 1 => some (1602000000 + k * 562500)
  | .glo, 2 => some (1246000000 + k * 437500)
  | .glo, 3 => some 1202025000
  | .glo, 4 => some 1600995000
  | .glo, 5 => some 1248065000
  | .gal, 6 | .qzs, 6 => some 1278750000
  | .gal, 7 | .bds, 7 => some 1207140000
  | .gal, 8 | .bds, 8 | .irn, 5 => some 1191795000
  | .bds, 2 => some 1561098000
  | .bds, 6 => some 1268520000
  | .irn, 9 => some 2492028000
  | _, _ => none

/-- the frequencies used by the decoder for constellation `sys` -/
def freqs (sys : Sys) : Freqs := fun s =>
  ((sigTable sys).find? fun e => e.1 = s).map fun e => fun k => frequency sys e.2.1 k

end Verif.Msm
