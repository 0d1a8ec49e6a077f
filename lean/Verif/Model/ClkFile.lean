import Verif.Model.Rinex
/-!
Model of the reader of clock files, `rnxdec.decode_clk` (`src/cssrlib/rinex.py`, lines 748-797), with `decode_time` (lines 143-152) and
the class `pclk_t` (lines 19-28).

`float(text)` is a parameter `num`.  A file is the list of its lines.
-/

namespace Verif.ClkFile
open Verif.Sat Verif.Sig Verif.Time Verif.Rinex

/-- `pclk_t`: time, clocks and standard deviations, one for each satellite (lines 19-28) -/
structure Pclk where
  time : GTime
  clk : List ℚ
  std : List ℚ
  deriving DecidableEq

/-- `pclk_t()` with its time set: lines 22-28, 786-787 -/
def fresh (t : GTime) : Pclk := ⟨t, List.replicate 233 0, List.replicate 233 0⟩

/-- `nav.nc` and `nav.pclk` -/
structure St where
  nc : Nat
  pclk : List Pclk
  deriving DecidableEq

/-- `decode_time(s, ofst, slen)`: lines 143-152 -/
def decodeTime (num : Line → Py ℚ) (s : Line) (o n : Nat) : Py GTime := do
  let year ← pyInt (slice s o (o + 4))
  let month ← pyInt (slice s (o + 5) (o + 7))
  let day ← pyInt (slice s (o + 8) (o + 10))
  let hour ← pyInt (slice s (o + 11) (o + 13))
  let minute ← pyInt (slice s (o + 14) (o + 16))
  let sec ← num (slice s (o + 17) (o + n + 17))
  pure (epoch2time ⟨year, month, day, hour, minute, sec⟩)

/-- `a[i] = v` for an array: a negative index counts from the end -/
def setI (l : List ℚ) (i : Int) (v : ℚ) : Py (List ℚ) :=
  let j := if i < 0 then i + l.length else i
  if 0 ≤ j ∧ j < l.length then .ok (l.set j.toNat v) else .error .indexError

/-- the entry of the table for the time of a record: lines 784-788 -/
def place (st : St) (t : GTime) : Py St :=
  let new : St := ⟨st.nc + 1, st.pclk ++ [fresh t]⟩
  if st.nc = 0 then .ok new
  else match st.pclk.getLast? with
    | Option.none => .error .indexError
    | some p => if |timediff p.time t| > 1 / 10 ^ 9 then .ok new else .ok st

/-- lines 794-795 -/
def write (st : St) (sat : Int) (c s : ℚ) : Py St := do
  let p ← pyGet st.pclk (st.nc - 1)
  let a ← setI p.clk (sat - 1) c
  let b ← setI p.std (sat - 1) s
  pure { st with pclk := st.pclk.set (st.nc - 1) { p with clk := a, std := b } }

/-- satellite of a record: lines 776-780.  Only QZSS numbers are shifted. -/
def satOf (sys : Sys) (prn : Int) : Int := prn2sat sys (if sys = .qzs then prn + 192 else prn)

/-- one line of the data section: lines 773-795; `offs` is `None` if the header has no version -/
def record (num : Line → Py ℚ) (offs : Option Nat) (st : St) (line : Line) : Py St :=
  if slice line 0 2 ≠ "AS".toList then .ok st
  else do
    let c ← pyGet line 3
    let prn ← pyInt (slice line 4 7)
    match offs with
    | Option.none => .error .typeError
    | some o => do
      let t ← decodeTime num line (o + 8) 9
      let st ← place st t
      let nrec ← pyInt (slice line (o + 35) (o + 37))
      let clk ← num (slice line (o + 40) (o + 59))
      let std ← if 2 ≤ nrec then num (slice line (o + 61) (o + 80)) else pure 0
      write st (satOf (char2sys c) prn) clk std

/-- `text in line` -/
def inLine (p : Line) : Line → Bool
  | [] => p.isEmpty
  | c :: l => p.isPrefixOf (c :: l) || inLine p l

/-- the header: lines 761-768; gives the offset and the lines after it.  `'…' in line` is a search in the whole line. -/
def head (num : Line → Py ℚ) : Option Nat → List Line → Py (Option Nat × List Line)
  | o, [] => .ok (o, [])
  | o, l :: ls => do
    let o ← if inLine "RINEX VERSION / TYPE".toList l then do
        let v ← num (slice l 0 20)
        pure (some (if v < 304 / 100 then 0 else 5))
      else pure o
    if inLine "END OF HEADER".toList l then pure (o, ls) else head num o ls

/-- `decode_clk(clkfile, nav)`: lines 748-797.  The table is emptied, the number of its entries is not. -/
def decodeClk (num : Line → Py ℚ) (nc : Nat) (file : List Line) : Py St := do
  let (o, ls) ← head num Option.none file
  ls.foldlM (record num o) ⟨nc, []⟩

end Verif.ClkFile
