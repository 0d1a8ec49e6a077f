import Verif.Model.Antex
/-!
# Antenna files of NGS

Model of `atxdec.readngspcv` (`src/cssrlib/peph.py`).  A line is given by its text and the numbers in it, exact rationals; lines
whose numbers cannot be converted are not modelled (`float` raises `ValueError`).
-/
namespace Verif.NgsAnt
open Verif Verif.Sig

structure Ln where
  /-- `len(line) >= 62 and line[61] == '|'`: the heading of the file -/
  cmt : Bool
  /-- `line[0] != ' '` -/
  head : Bool
  text : List Char
  /-- numbers in columns 3 to 29 -/
  neu : List ℚ
  /-- numbers of the whole line -/
  nums : List ℚ

structure St where
  n : Nat := 0
  pcv : Antex.Pcv := {}
  var : List ℚ := []
  pcvr : List Antex.Pcv := []

/-- `rSigRnx('GL1')`, `rSigRnx('GL2')`: lines 578-579 -/
def sig1 : Py Sig := ofStr ['G', 'L', '1']
def sig2 : Py Sig := ofStr ['G', 'L', '2']

/-- `neu[[1, 0, 2]]` -/
def enu (v : List ℚ) : Py (ℚ × ℚ × ℚ) := do
  let e ← pyGet v 1
  let n ← pyGet v 0
  let u ← pyGet v 2
  pure (e, n, u)

/-- the body of the loop: lines 583-611 (`code` is 0 in the code, empty here) -/
def step (g1 g2 : Sig) (s : St) (l : Ln) : Py St :=
  if l.cmt then .ok s
  else
    match (if l.head then 0 else s.n) + 1 with
    | 1 => .ok { s with n := 1, pcv := { sat := none, code := [], typ := l.text.take 20, zen := [0, 90, 5], nv := 19 } }
    | 2 => do
      let o ← enu l.neu
      pure { s with n := 2, pcv := { s.pcv with off := s.pcv.off.set g1 o } }
    | 3 => .ok { s with n := 3, var := l.nums }
    | 4 => .ok { s with n := 4, var := s.var ++ l.nums, pcv := { s.pcv with var := s.pcv.var.set g1 (s.var ++ l.nums) } }
    | 5 => do
      let o ← enu l.neu
      pure { s with n := 5, pcv := { s.pcv with off := s.pcv.off.set g2 o } }
    | 6 => .ok { s with n := 6, var := l.nums }
    | 7 =>
      let pcv := { s.pcv with var := s.pcv.var.set g2 (s.var ++ l.nums) }
      .ok { s with n := 7, var := s.var ++ l.nums, pcv := pcv, pcvr := s.pcvr ++ [pcv] }
    | n => .ok { s with n := n }

/-- `readngspcv(fname)`: lines 571-611; the antennas of files read before are kept -/
def readngspcv (pcvr : List Antex.Pcv) (ls : List Ln) : Py (List Antex.Pcv) := do
  let g1 ← sig1
  let g2 ← sig2
  let s ← ls.foldlM (step g1 g2) { pcvr := pcvr }
  pure s.pcvr

end Verif.NgsAnt
