import Verif.Model.Sig
import Verif.Model.Time
/-!
Model of parts of `src/cssrlib/rinex.py`: the observation header reader
(`rnxdec._decode_obsh`, lines 811-866), epoch synchronisation (`sync_obs`, lines 987-1000) and
the choice which ephemerides are written (`rnxenc.rnx_nav_body`, `rnx_gnav_body`,
`rnx_snav_body`, lines 1188-1250, 1369-1386, 1441-1453).

A text line is a list of characters; a file is the list of the lines not yet read.
-/

namespace Verif.Rinex
open Verif.Sat Verif.Sig Verif.Time

abbrev Line := List Char

/-- Python slice `l[a:b]` with non-negative bounds -/
def slice (l : Line) (a b : Nat) : Line := (l.take b).drop a

/-- helper of `split`: `acc` is the word read so far, reversed -/
def splitAux : List Char → List Char → List (List Char)
  | acc, [] => if acc = [] then [] else [acc.reverse]
  | acc, c :: cs =>
    if isSpace c then
      if acc = [] then splitAux [] cs else acc.reverse :: splitAux [] cs
    else splitAux (c :: acc) cs

/-- Python `str.split()` -/
def split (s : List Char) : List (List Char) := splitAux [] s

/-! ### Observation header -/

/-- the part of the decoder's state set by the header: `sig_map` and `glo_ch` -/
structure Hdr where
  sigMap : Dict Sys (Dict Nat Sig) := []
  gloCh : Dict Int Int := []
  deriving DecidableEq, Repr

/-- `for _ in range(n): line2 = self.fobs.readline(); sigs += line2[7:60].split()`
(lines 842-844).  `readline` at the end of the file gives the empty text. -/
def readCont : Nat → List Line → List (List Char) × List Line
  | 0, ls => ([], ls)
  | n + 1, ls =>
    let (s, r) := readCont n ls.tail
    (split (slice (ls.headD []) 7 60) ++ s, r)

/-- the conversion loop: lines 848-852 -/
def storeSigs (gns : Sys) : Nat → List (List Char) → Hdr → Py Hdr
  | _, [], h => .ok h
  | i, s :: ss, h => do
    let r ← ofSysStr gns s
    let m := (h.sigMap.get? gns).getD []
    storeSigs gns (i + 1) ss { h with sigMap := h.sigMap.set gns (m.set i r) }

/-- the GLONASS slot loop: lines 859-865.  `k` satellites are still to be read, `i` is the
loop variable, `line` the line in use. -/
def readSlots : Nat → Nat → Line → List Line → Hdr → Py (Hdr × List Line)
  | 0, _, _, ls, h => .ok (h, ls)
  | k + 1, i, line, ls, h => do
    let adv := decide (0 < i ∧ i % 8 = 0)
    let line := if adv then ls.headD [] else line
    let ls := if adv then ls.tail else ls
    let j := i % 8
    let sat ← id2sat (slice line (4 + 7 * j) (7 + 7 * j))
    let ch ← pyInt (slice line (8 + 7 * j) (10 + 7 * j))
    readSlots k (i + 1) line ls { h with gloCh := h.gloCh.set sat ch }

/-- number of continuation lines read: `int(nsig/14)` (line 842); none for a negative count -/
def contLines (nsig : Int) : Nat := (nsig.tdiv 14).toNat

/-- one header record, the line and the lines after it: lines 837-865.  Records with other
labels (receiver, antenna, position, times) set fields that are not modelled; they are taken
as read without error, and the label is looked for in the label columns only. -/
def headerLine (line : Line) (ls : List Line) (h : Hdr) : Py (Hdr × List Line) :=
  if slice line 60 79 = "SYS / # / OBS TYPES".toList then
    match line with
    | [] => .error .indexError
    | c :: _ => do
      let gns := char2sys c
      let nsig ← pyInt (slice line 3 6)
      let sigs := split (slice line 7 60)
      let cont := readCont (contLines nsig) ls
      let h ← storeSigs gns 0 (sigs ++ cont.1) h
      pure (h, cont.2)
  else if slice line 60 80 = "GLONASS SLOT / FRQ #".toList then do
    let nsat ← pyInt (slice line 0 3)
    readSlots nsat.toNat 0 line ls h
  else .ok (h, ls)

/-- `_decode_obsh`: lines 811-866 without the version test.  `fuel` bounds the number of
records; the number of lines suffices (`Verif.C39.header_fuel`). -/
def headerLoop : Nat → List Line → Hdr → Py (Hdr × List Line)
  | 0, ls, h => .ok (h, ls)
  | _, [], h => .ok (h, [])
  | fuel + 1, line :: ls, h =>
    if slice line 60 73 = "END OF HEADER".toList then .ok (h, ls)
    else do
      let r ← headerLine line ls h
      headerLoop fuel r.2 r.1

def header (ls : List Line) (h : Hdr) : Py (Hdr × List Line) := headerLoop ls.length ls h

/-! ### Synchronisation -/

/-- an observation epoch: its time, and the rest of the `Obs` object -/
structure Obs (α : Type) where
  t : GTime
  body : α
  deriving DecidableEq

/-- `decode_obs`: the next epoch of the file, or a fresh `Obs()` (time 0, nothing in it) at the
end of the file (lines 868-984).  The file is the list of epochs left; reading one epoch's text
is not modelled here. -/
def decodeObs {α} (empty : α) : List (Obs α) → Obs α × List (Obs α)
  | [] => (⟨⟨0, 0⟩, empty⟩, [])
  | o :: os => (o, os)

/-- the state of `sync_obs` between iterations: the two current epochs and the two files -/
structure SyncSt (α : Type) where
  obs : Obs α
  obsb : Obs α
  f : List (Obs α)
  fb : List (Obs α)
  deriving DecidableEq

/-- one turn of the `while True` loop (lines 991-998): `none` = `break` -/
def syncStep {α} (empty : α) (th : ℚ) (s : SyncSt α) : Option (SyncSt α) :=
  let dt := timediff s.obs.t s.obsb.t
  if |dt| ≤ th then none
  else if dt > th then
    let r := decodeObs empty s.fb
    some { s with obsb := r.1, fb := r.2 }
  else if dt < th then
    let r := decodeObs empty s.f
    some { s with obs := r.1, f := r.2 }
  else some s

/-- the loop, at most `n` turns: `none` = still running -/
def syncLoop {α} (empty : α) (th : ℚ) : Nat → SyncSt α → Option (SyncSt α)
  | 0, _ => none
  | n + 1, s =>
    match syncStep empty th s with
    | none => some s
    | some s' => syncLoop empty th n s'

/-- the state at the first test (lines 989-990) -/
def syncInit {α} (empty : α) (f fb : List (Obs α)) : SyncSt α :=
  let r := decodeObs empty f
  let b := decodeObs empty fb
  ⟨r.1, b.1, r.2, b.2⟩

/-- `sync_obs` given `n` turns: the pair returned and the files left -/
def syncObs {α} (empty : α) (th : ℚ) (n : Nat) (f fb : List (Obs α)) : Option (SyncSt α) :=
  syncLoop empty th n (syncInit empty f fb)

/-! ### Which ephemerides are written -/

/-- the three record writers -/
inductive Kind where
  | nav | gnav | snav
  deriving DecidableEq, Repr

/-- what the writers' choice depends on: the writer called and the satellite, message type
(`mode`) and issue (`iode`, for SBAS `iodn`) of the ephemeris -/
structure Ev where
  kind : Kind
  sat : Int
  mode : Int
  iod : Int
  deriving DecidableEq, Repr

/-- the label of the record, `none` when the writer returns without writing:
lines 1209-1250 (`rnx_nav_body`), 1383-1400 (`rnx_gnav_body`), 1453-1454 (`rnx_snav_body`) -/
def label (e : Ev) : Option String :=
  let (sys, prn) := sat2prn e.sat
  match e.kind with
  | .nav =>
    match sys with
    | .bds =>
      if e.mode = 0 then some (if 5 < prn ∧ prn < 59 then "D1" else "D2")
      else if e.mode = 1 then some "CNV1"
      else if e.mode = 2 then some "CNV2"
      else if e.mode = 3 then some "CNV3"
      else none
    | .gps | .qzs => some (if e.mode = 0 then "LNAV" else if e.mode = 1 then "CNAV" else "CNV2")
    | .gal => some (if e.mode = 0 then "INAV" else "FNAV")
    | .irn => some (if e.mode = 0 then "LNAV" else "L1NV")
    | _ => none
  | .gnav =>
    if sys = .glo then
      some (if e.mode = 0 then "FDMA" else if e.mode = 1 then "L1OC" else "L3OC")
    else none
  | .snav => if sys = .sbs then some "SBAS" else none

/-- the writer's state: `rec_eph` (satellite → message type → last issue) and the records
written so far, in order.  Only the issue of the remembered pair is ever used. -/
structure Enc where
  recEph : Dict Int (Dict Int Int) := []
  out : List Ev := []
  deriving DecidableEq, Repr

/-- `rnx_nav_body`, `rnx_gnav_body`, `rnx_snav_body` up to the first write: lines 1188-1252,
1369-1381, 1441-1454.  The fields of the record are not modelled (formatting is taken not to
raise). -/
def body (s : Enc) (e : Ev) : Enc :=
  let done :=
    match s.recEph.get? e.sat with
    | some m => m.get? e.mode == some e.iod
    | none => false
  if done then s
  else
    let m := (s.recEph.get? e.sat).getD []
    let s := { s with recEph := s.recEph.set e.sat (m.set e.mode e.iod) }
    match label e with
    | none => s
    | some _ => { s with out := s.out ++ [e] }

end Verif.Rinex
