import Verif.Model.Rinex
/-!
Model of the observation part of `rnxdec` (`src/cssrlib/rinex.py`): the signal selection
(`setSignals`, `getSignals`, lines 63-85), the replacement of signals that the file does not
have (`autoSubstituteSignals`, lines 87-125) and the reader of one observation epoch
(`decode_obs`, lines 868-984).

`float(text)` is a parameter `num : List Char → Py ℚ`: the theorems hold whatever it accepts and
returns.  `int(text)` is `pyInt` after `strip` (ASCII digits, no underscores).  A file is the
list of the lines not yet read.
-/

namespace Verif.Rinex
open Verif.Sat Verif.Sig Verif.Time

/-- `sig_tab`: constellation, type, list of signals -/
abbrev Tab := Dict Sys (Dict Typ (List Sig))

/-- the selection kept by the decoder: `sig_tab` and `nsig` (lines 41-42) -/
structure Sel where
  tab : Tab := []
  nsig : Typ → Nat := fun _ => 0

/-- one turn of the first loop of `setSignals`: lines 66-74 -/
def addSignal (tab : Tab) (s : Sig) : Py Tab :=
  let tab := if tab.mem s.sys then tab else tab.set s.sys []
  let d := (tab.get? s.sys).getD []
  let d := if d.mem s.typ then d else d.set s.typ []
  let ss := (d.get? s.typ).getD []
  if s ∈ ss then .error .valueError
  else .ok (tab.set s.sys (d.set s.typ (ss ++ [s])))

/-- one turn of the second loop of `setSignals`: lines 76-78.  `nsig` has no entry for
`uTYP.NONE`. -/
def growNsig (n : Typ → Nat) (e : Typ × List Sig) : Py (Typ → Nat) :=
  if e.1 = .none then .error .keyError
  else .ok (fun t => if t = e.1 then max (n t) e.2.length else n t)

/-- `setSignals(sigList)`: lines 63-78 -/
def setSignals (sel : Sel) (sigs : List Sig) : Py Sel := do
  let tab ← sigs.foldlM addSignal sel.tab
  let nsig ← tab.foldlM (fun n e => e.2.foldlM growNsig n) sel.nsig
  pure ⟨tab, nsig⟩

/-- `getSignals(sys, typ)`: lines 80-85 -/
def getSignals (tab : Tab) (sys : Sys) (typ : Typ) : List Sig :=
  match tab.get? sys with
  | Option.none => []
  | some d => (d.get? typ).getD []

/-! ### Replacement of signals -/

/-- the attributes tried: lines 103-120 -/
def attsFor (sys : Sys) (s : Sig) : List Char :=
  let b := (str s).getD 1 ' '
  let a := (str s).getD 2 ' '
  if sys = .gps ∧ inStr b "12" then (if inStr a "CW" then ['C', 'W'] else ['S', 'L', 'X'])
  else if sys = .gps ∧ inStr b "5" then ['I', 'Q', 'X']
  else if sys = .gal ∧ inStr b "578" then ['I', 'Q', 'X']
  else if sys = .gal ∧ inStr b "16" then ['B', 'C', 'X']
  else if sys = .qzs ∧ inStr b "126" then ['S', 'L', 'X']
  else if sys = .qzs ∧ inStr b "5" then ['I', 'Q', 'X']
  else if sys = .bds ∧ inStr b "157" then ['P', 'X']
  else []

/-- `sig in self.sig_map[sys].values()` -/
def hasSig (m : Dict Nat Sig) (s : Sig) : Bool := m.any (fun p => p.2 = s)

/-- the loop over the attributes: lines 122-124; `cur` is the entry of the table -/
def tryAtts (m : Dict Nat Sig) (s : Sig) : List Char → Sig → Py Sig
  | [], cur => .ok cur
  | a :: as, cur => do
    let r ← toAtt s [a]
    tryAtts m s as (if hasSig m r then r else cur)

/-- the new entry for one selected signal: lines 96-124 -/
def substitute (map : Dict Sys (Dict Nat Sig)) (sys : Sys) (s : Sig) : Py Sig :=
  match map.get? sys with
  | Option.none => .ok s
  | some m => if hasSig m s then .ok s else tryAtts m s (attsFor sys s) s

/-- `autoSubstituteSignals()`: lines 87-124.  The entries do not influence each other. -/
def autoSubstitute (map : Dict Sys (Dict Nat Sig)) (tab : Tab) : Py Tab :=
  tab.mapM fun e => do
    let d ← e.2.mapM fun f => do
      let ss ← f.2.mapM (substitute map e.1)
      pure (f.1, ss)
    pure (e.1, d)

/-! ### Epochs -/

/-- the measurements of one satellite: `pr`, `cp`, `dp`, `cn`, `ll` (lines 922-931) -/
structure Row where
  pr : List ℚ
  cp : List ℚ
  dp : List ℚ
  cn : List ℚ
  ll : List Nat
  deriving DecidableEq

/-- the value at column `i`: lines 943, 948 -/
def field (num : List Char → Py ℚ) (line : Line) (i : Nat) : Py ℚ :=
  let s := strip (slice line (16 * i + 3) (16 * i + 17))
  if s = [] then .ok 0 else num s

/-- the loss-of-lock flag at column `i`: lines 944, 949 -/
def lliAt (line : Line) (i : Nat) : Nat := if line[16 * i + 17]? = some '1' then 1 else 0

/-- `sig_map[sys].items()` in order.  The header reader enters the indices 0, 1, 2, … in
ascending order (`Verif.C69.header_columns`), and Python keeps the order of first entry. -/
def columns (m : Dict Nat Sig) : List (Nat × Sig) :=
  (List.range m.length).filterMap fun i => (m.get? i).map fun s => (i, s)

/-- one turn of the loop over the signals: lines 933-965 -/
def column (num : List Char → Py ℚ) (line : Line) (d : Dict Typ (List Sig)) (r : Row)
    (c : Nat × Sig) : Py Row :=
  match d.get? c.2.typ with
  | Option.none => .ok r
  | some ss =>
    if c.2 ∉ ss then .ok r
    else do
      let v ← field num line c.1
      let j := ss.idxOf c.2
      match c.2.typ with
      | .C => do
        let x ← pySet r.pr j v
        pure { r with pr := x }
      | .L => do
        let x ← pySet r.cp j v
        let y ← pySet r.ll j (lliAt line c.1)
        pure { r with cp := x, ll := y }
      | .D => do
        let x ← pySet r.dp j v
        pure { r with dp := x }
      | .S => do
        let x ← pySet r.cn j v
        pure { r with cn := x }
      | .none => pure r

/-- satellite number: lines 915-920 -/
def satOf (sys : Sys) (prn : Int) : Int :=
  if sys = .qzs then prn2sat sys (prn + 192)
  else if sys = .sbs then prn2sat sys (prn + 100)
  else prn2sat sys prn

/-- one satellite line: lines 900-974; `none` if it is skipped -/
def satLine (num : List Char → Py ℚ) (map : Dict Sys (Dict Nat Sig)) (tab : Tab) (line : Line) :
    Py (Option (Int × Row)) :=
  match line with
  | [] => .error .indexError
  | c :: _ =>
    let sys := char2sys c
    match map.get? sys with
    | Option.none => .ok Option.none
    | some m =>
      match tab.get? sys with
      | Option.none => .ok Option.none
      | some d => do
        let prn ← pyInt (strip (slice line 1 3))
        let z (t : Typ) : List ℚ := List.replicate (getSignals tab sys t).length 0
        let r ← (columns m).foldlM (column num line d)
          ⟨z .C, z .L, z .D, z .S, List.replicate (getSignals tab sys .L).length 0⟩
        pure (some (satOf sys prn, r))

/-- `for _ in range(nsat)`: lines 898-974.  `readline` at the end of the file gives the empty
text, and its first character is an index error. -/
def satLoop (num : List Char → Py ℚ) (map : Dict Sys (Dict Nat Sig)) (tab : Tab) :
    Nat → List Line → Py (List (Int × Row) × List Line)
  | 0, ls => .ok ([], ls)
  | n + 1, ls => do
    let r ← satLine num map tab (ls.headD [])
    let (rs, rest) ← satLoop num map tab n ls.tail
    pure (r.toList ++ rs, rest)

/-- `numpy.reshape` of a flat array -/
def reshape {α : Type} (l : List α) (n k : Nat) : Py (List (List α)) :=
  if l.length = n * k then .ok ((List.range n).map fun i => (l.drop (i * k)).take k)
  else .error .valueError

/-- the fields of `Obs` filled by the reader -/
structure Epochs where
  t : GTime
  sat : List Int
  P : List (List ℚ)
  L : List (List ℚ)
  D : List (List ℚ)
  S : List (List ℚ)
  lli : List (List Nat)
  deriving DecidableEq

/-- the epoch line: lines 878-886 -/
def epochLine (num : List Char → Py ℚ) (line : Line) : Py (Nat × GTime) := do
  let nsat ← pyInt (strip (slice line 32 35))
  let year ← pyInt (strip (slice line 2 6))
  let mon ← pyInt (strip (slice line 7 9))
  let day ← pyInt (strip (slice line 10 12))
  let hour ← pyInt (strip (slice line 13 15))
  let min ← pyInt (strip (slice line 16 18))
  let sec ← num (slice line 19 29)
  pure (nsat.toNat, epoch2time ⟨year, mon, day, hour, min, sec⟩)

/-- the arrays of an epoch: lines 888-896, 969-980.  `numpy.append` without an axis flattens. -/
def gather (nsig : Typ → Nat) (t : GTime) (rs : List (Int × Row)) : Py Epochs := do
  let n := rs.length
  let P ← reshape (rs.flatMap fun r => r.2.pr) n (nsig .C)
  let L ← reshape (rs.flatMap fun r => r.2.cp) n (nsig .L)
  let D ← reshape (rs.flatMap fun r => r.2.dp) n (nsig .D)
  let S ← reshape (rs.flatMap fun r => r.2.cn) n (nsig .S)
  let lli ← reshape (rs.flatMap fun r => r.2.ll) n (nsig .L)
  pure ⟨t, rs.map (·.1), P, L, D, S, lli⟩

/-- `decode_obs()`: lines 868-984; `none` is the empty `Obs` returned at the end of the file -/
def decodeEpoch (num : List Char → Py ℚ) (map : Dict Sys (Dict Nat Sig)) (sel : Sel) :
    List Line → Py (Option Epochs × List Line)
  | [] => .ok (Option.none, [])
  | [] :: _ => .error .indexError
  | (c :: l) :: ls =>
    if c ≠ '>' then decodeEpoch num map sel ls
    else do
      let (n, t) ← epochLine num (c :: l)
      let (rs, rest) ← satLoop num map sel.tab n ls
      let o ← gather sel.nsig t rs
      pure (some o, rest)

end Verif.Rinex
