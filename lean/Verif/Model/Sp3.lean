import Verif.Model.Time
import Verif.Model.Sig
import Verif.Model.Rinex
/-!
Model of the reader and the writer of SP3 files: class `peph` in `src/cssrlib/peph.py`: `parse_satlist` (lines 55-61),
`parse_acclist` (lines 63-69), `parse_sp3` (lines 71-204), `write_sp3` (lines 206-299), and the table of an epoch (`peph_t`, lines
26-36).

The lists of satellites and accuracies are modelled on characters.  For the body a file is a list of lines, each already split
into its columns: what `float` and `int` make of a column is a number (all four columns of a record are numbers).  Of the header
the body depends on the number of satellites, the P/V flag and the two bases.  Numbers are exact rationals; writing rounds them
by a function `rnd` (`{:13.6f}`) and times by `tm` (`{:011.8f}` of the seconds).
-/

namespace Verif.Sp3
open Verif.Time Verif.Sat

abbrev Line := List Char

/-- the satellites or accuracies read so far: `self.sat` or `self.acc` (arrays of `nsat` zeros), `self.cnt` -/
structure Lst where
  arr : List Int
  cnt : Nat

/-- number of entries of a line: lines 56, 64 -/
def entries (line : Line) : Nat := (Sig.strip (Rinex.slice line 9 60)).length / 3

/-- `parse_satlist(line)`: lines 55-61 -/
def satlist (line : Line) (l : Lst) : Py Lst :=
  (List.range (entries line)).foldlM (fun l k => do
    let svid := Rinex.slice line (9 + 3 * k) (12 + 3 * k)
    let n ← pyInt svid.tail
    if 0 < n then do
      let s ← id2sat svid
      let arr ← pySet l.arr l.cnt s
      pure ⟨arr, l.cnt + 1⟩
    else pure l) l

/-- `parse_acclist(line)`: lines 63-69 -/
def acclist (nsat : Nat) (line : Line) (l : Lst) : Py Lst :=
  (List.range (entries line)).foldlM (fun l k => do
    let a ← pyInt (Rinex.slice line (9 + 3 * k) (12 + 3 * k))
    if l.cnt < nsat then do
      let arr ← pySet l.arr l.cnt a
      pure ⟨arr, l.cnt + 1⟩
    else pure ⟨l.arr, l.cnt + 1⟩) l

/-! ## Body -/

/-- a record: `P` or `V`, satellite (`id2sat`), columns, flags of prediction (orbit, clock), columns of the deviations with
blanks as 0 where the line has at least 74 characters -/
structure Rec where
  isP : Bool
  sat : Int
  val : Nat → ℚ
  predO : Bool := false
  predC : Bool := false
  std : Option (Nat → Int) := none

/-- a line of the body: `* `, `P`/`V`, `EOF`, `/*`, or another -/
inductive Ln where
  | epoch (t : GTime)
  | data (r : Rec)
  | eof
  | comment
  | other

/-- `peph_t`: lines 26-36, by row and column; `none` is NaN -/
structure Pe where
  time : GTime
  pos : Nat → Nat → Option ℚ := fun _ _ => none
  vel : Nat → Nat → Option ℚ := fun _ _ => none
  std : Nat → Nat → ℚ := fun _ _ => 0
  vst : Nat → Nat → ℚ := fun _ _ => 0

def set2 {α : Type} (m : Nat → Nat → α) (i j : Nat) (v : α) : Nat → Nat → α := fun a b => if a = i ∧ b = j then v else m a b

/-- row `sat_ - 1` of an array with `MAXSAT` rows; negative indices count from the end -/
def rowOf (sat : Int) : Py Nat :=
  let i := sat - 1
  if 0 ≤ i ∧ i < maxSat then .ok i.toNat
  else if i < 0 ∧ 0 ≤ i + maxSat then .ok (i + maxSat).toNat
  else .error .indexError

/-- lines 169-176: column `j` is left out -/
def skip (opt : Nat) (r : Rec) (j : Nat) : Bool :=
  let pred := if j < 3 then r.predO else r.predC
  (opt.testBit 0 && pred) || (opt.testBit 1 && !pred)

/-- lines 168-185: one column; the table and the flag `v` -/
def column (opt : Nat) (r : Rec) (i : Nat) (st : Pe × Bool) (j : Nat) : Pe × Bool :=
  if skip opt r j then st
  else if 1 / 1000000 ≤ |r.val j - 999999999999 / 1000000| then
    let scl : ℚ := if j < 3 then 1000 else 1 / 1000000
    if r.isP then ({ st.1 with pos := set2 st.1.pos i j (some (r.val j * scl)) }, true)
    else if st.2 then ({ st.1 with vel := set2 st.1.vel i j (some (r.val j * scl * (1 / 10000))) }, st.2)
    else st
  else st

/-- lines 188-200: one deviation; `v` is used for its value -/
def deviation (base : ℚ × ℚ) (r : Rec) (d : Nat → Int) (i : Nat) (st : Pe × Bool) (j : Nat) : Pe × Bool :=
  let b := if j < 3 then base.1 else base.2
  let scl : ℚ := if j < 3 then 1 / 1000 else 1 / 1000000000000
  if 0 < b ∧ 0 < d j then
    let v := b ^ (d j).toNat * scl
    if r.isP then ({ st.1 with std := set2 st.1.std i j v }, true)
    else ({ st.1 with vst := set2 st.1.vst i j (v * (1 / 10000)) }, true)
  else st

/-- lines 157-200: one record -/
def record (opt : Nat) (base : ℚ × ℚ) (st : Pe × Bool) (r : Rec) : Py (Pe × Bool) := do
  let i ← rowOf r.sat
  let st := (List.range 4).foldl (column opt r i) st
  match r.std with
  | none => pure st
  | some d => pure ((List.range 4).foldl (deviation base r d i) st)

/-- lines 152-155: the lines of an epoch; at the end of the file `line[0]` raises -/
def records (opt : Nat) (base : ℚ × ℚ) : Nat → List Ln → Pe × Bool → Py ((Pe × Bool) × List Ln)
  | 0, ls, st => .ok (st, ls)
  | _ + 1, [], _ => .error .indexError
  | n + 1, .data r :: ls, st => do
    let st ← record opt base st r
    records opt base n ls st
  | n + 1, _ :: ls, st => records opt base n ls st

/-- `nav.ne`, `nav.peph`, the table and flag `v` of the last epoch -/
structure Nav where
  ne : Nat
  peph : List Pe
  cur : Option (Pe × Bool) := none

/-- lines 201-202 -/
def keep (n : Nav) : Nav :=
  match n.cur with
  | some (pe, true) => { n with peph := n.peph ++ [pe] }
  | _ => n

/-- lines 76-82, 141-202 in the body (status 10); `fuel` is the number of lines -/
def body (opt nline : Nat) (base : ℚ × ℚ) : Nat → List Ln → Nav → Py Nav
  | 0, _, n => .ok n
  | _ + 1, [], n => .ok n
  | _ + 1, .eof :: _, n => .ok n
  | f + 1, .comment :: ls, n => body opt nline base f ls n
  | f + 1, .epoch t :: ls, n => do
    let (st, ls) ← records opt base nline ls ({ time := t }, false)
    body opt nline base f ls (keep { n with ne := n.ne + 1, cur := some st })
  | f + 1, _ :: ls, n => body opt nline base f ls (keep n)

/-- the body of a file, flag `P` -/
def read (opt nsat : Nat) (base : ℚ × ℚ) (ls : List Ln) (n : Nav) : Py Nav := body opt nsat base ls.length ls n

/-- lines 282-295: record of one satellite; the columns of `val` are those written -/
def outRec (rnd : ℚ → ℚ) (pe : Pe) (sat : Nat) : Rec where
  isP := true
  sat := sat
  val := fun j =>
    if j < 3 then
      match pe.pos (sat - 1) 0, pe.pos (sat - 1) 1, pe.pos (sat - 1) 2 with
      | some x, some y, some z => rnd ((if j = 0 then x else if j = 1 then y else z) * (1 / 1000))
      | _, _, _ => rnd 0
    else
      match pe.pos (sat - 1) 3 with
      | some c => rnd (c * 1000000)
      | none => rnd (999999999999 / 1000000000000 * 1000000)

/-- lines 273-299: the data section -/
def write (rnd : ℚ → ℚ) (tm : GTime → GTime) (sats : List Nat) (l : List Pe) : List Ln :=
  (l.flatMap fun pe => .epoch (tm pe.time) :: sats.map fun s => .data (outRec rnd pe s)) ++ [.eof]

end Verif.Sp3
