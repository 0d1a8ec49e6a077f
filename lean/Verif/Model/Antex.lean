import Verif.Model.Sig
import Verif.Model.Time
/-!
# Antenna files

Model of `atxdec.readpcv` (`src/cssrlib/peph.py`).  A line is given by the label that the chain of conditions finds, and its
numbers; lines with less than 60 characters, comments and lines without a known label are `other`.  Numbers are exact rationals.
Not modelled: dates with less than six numbers (`str2time` returns -1).
-/
namespace Verif.Antex
open Verif Verif.Sat Verif.Sig Verif.Time

inductive Ln where
  /-- START OF ANTENNA, END OF ANTENNA -/
  | start | stop
  /-- TYPE / SERIAL NO: columns 0-19 and 20-39 -/
  | typ (ty code : List Char)
  /-- VALID FROM, VALID UNTIL -/
  | since (t : GTime) | upto (t : GTime)
  /-- START OF FREQUENCY: columns 3 and 5; END OF FREQUENCY -/
  | freq (c b : Char) | endFreq
  | neu (v : List ℚ) | zen (v : List ℚ) | noazi (v : List ℚ)
  | other

/-- `rSigRnx()`: gnss.py lines 358-367 -/
def noSig : Sig := ⟨.none, .none, -1⟩

/-- `pcv_t`: peph.py lines 491-501; `sat` `none` is a receiver antenna -/
structure Pcv where
  sat : Option Int := some 0
  code : List Char := []
  typ : List Char := []
  ts : GTime := ⟨0, 0⟩
  te : GTime := ⟨0, 0⟩
  off : Dict Sig (ℚ × ℚ × ℚ) := []
  var : Dict Sig (List ℚ) := []
  zen : List ℚ := [0, 0, 0]
  nv : Int := 0

structure St where
  on : Bool := false
  sig : Sig := noSig
  pcv : Pcv := {}
  pcvs : List Pcv := []
  pcvr : List Pcv := []

/-- `var[0:n]` -/
def cut (v : List ℚ) (n : Int) : List ℚ := v.take (if n < 0 then (v.length + n).toNat else n.toNat)

/-- lines 534-568: a line inside an antenna -/
def inside (s : St) : Ln → Py St
  | .typ ty code =>
    let code := strip code
    if code = [] then .ok { s with pcv := { s.pcv with typ := ty, code := code, sat := none } }
    else do
      let n ← id2sat code
      pure { s with pcv := { s.pcv with typ := ty, code := code, sat := some n } }
  | .since t => .ok { s with pcv := { s.pcv with ts := t } }
  | .upto t => .ok { s with pcv := { s.pcv with te := t } }
  | .freq c b => do
    let g ← ofSysStr (char2sys c) ['L', b]
    pure { s with sig := g }
  | .endFreq => .ok { s with sig := noSig }
  | .neu v => do
    let a ← pyGet v 0
    let b ← pyGet v 1
    let c ← pyGet v 2
    let o := if s.pcv.sat.isSome then (a, b, c) else (b, a, c)
    pure { s with pcv := { s.pcv with off := s.pcv.off.set s.sig o } }
  | .zen v => do
    let b ← pyGet v 1
    let a ← pyGet v 0
    let d ← pyGet v 2
    if d = 0 then .error .zeroDivision else
    pure { s with pcv := { s.pcv with zen := v, nv := truncQ ((b - a) / d) + 1 } }
  | .noazi v =>
    let v := if (v.length : Int) > s.pcv.nv then cut v s.pcv.nv else v
    .ok { s with pcv := { s.pcv with var := s.pcv.var.set s.sig v } }
  | .start | .stop | .other => .ok s

/-- lines 523-533 and the rest of the loop -/
def step (only : Bool) (s : St) (l : Ln) : Py St :=
  match l with
  | .start => .ok { s with pcv := {}, on := true }
  | .stop =>
    if s.pcv.sat = none then .ok { s with pcvr := s.pcvr ++ [s.pcv], on := false }
    else if only then .ok { s with on := false }
    else .ok { s with pcvs := s.pcvs ++ [s.pcv], on := false }
  | l => if s.on then inside s l else .ok s

/-- `readpcv(fname, onlyReceiver)`: lines 511-569; the antennas of files read before are kept -/
def readpcv (only : Bool) (pcvs pcvr : List Pcv) (ls : List Ln) : Py (List Pcv × List Pcv) := do
  let s ← ls.foldlM (step only) { pcvs := pcvs, pcvr := pcvr }
  pure (s.pcvs, s.pcvr)

end Verif.Antex
