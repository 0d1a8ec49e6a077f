import Verif.Model.RnxEnc
/-!
Model of the records of the observation header written by `rnxenc.rnx_obs_header` (`src/cssrlib/rinex.py`, lines 1083-1131) that name
the observation types of each constellation.  The texts of the observation types are given by `str` of the signals.
-/

namespace Verif.Rinex
open Verif.Sat Verif.Sig

/-- one observation type: `fh.write(" {:3s}".format(...)); n += 1` (lines 1103-1104, 1109-1110, 1116-1117, 1123-1124) -/
def putCode (st : Nat × Line) (s : List Char) : Nat × Line := (st.1 + 1, st.2 ++ ' ' :: pad 3 s)

/-- the change of line after 13 types: lines 1105-1107, 1111-1113, 1118-1120 -/
def brk (st : Nat × Line) : Nat × Line :=
  if st.1 = 13 then (st.1, st.2 ++ (pad 2 [] ++ pad 20 "SYS / # / OBS TYPES".toList ++ ['\n'] ++ pad 6 [])) else st

/-- the end of the turn of the loop: lines 1126-1131 -/
def endSig (nsig : Nat) (st : Nat × Line) : Nat × Line :=
  if st.1 = 13 then brk st
  else if (nsig : Int) - 1 ≤ st.1 then
    (st.1, st.2 ++ ([' ', ' '] ++ List.replicate (4 * (13 - nsig % 13)) ' ' ++ pad 20 "SYS / # / OBS TYPES \n".toList))
  else st

/-- a type that is written when the constellation has such types: lines 1115-1117, 1122-1124 -/
def putOpt (st : Nat × Line) (k : Nat) : Option (List (List Char)) → Py (Nat × Line)
  | Option.none => .ok st
  | some l => do
    let s ← pyGet l k
    pure (putCode st s)

/-- one turn of the loop over the signals: lines 1103-1131 -/
def sigTurn (nsig : Nat) (pr cp : List (List Char)) (dp cn : Option (List (List Char))) (st : Nat × Line) (k : Nat) :
    Py (Nat × Line) := do
  let p ← pyGet pr k
  let st := brk (putCode st p)
  let l ← pyGet cp k
  let st := brk (putCode st l)
  let st' ← putOpt st k dp
  let st := if dp.isSome then brk st' else st'
  let st ← putOpt st k cn
  pure (endSig nsig st)

/-- the record of one constellation with letter `c` (`none` if `sys_t` has no letter): lines 1084-1131 -/
def typesText (c : Option Char) (pr cp : List (List Char)) (dp cn : Option (List (List Char))) : Py Line :=
  let nsig := pr.length + cp.length + (dp.getD []).length + (cn.getD []).length
  if nsig = 0 then .ok []
  else match c with
    | Option.none => .error .keyError
    | some c => do
      let r ← (List.range pr.length).foldlM (sigTurn nsig pr cp dp cn) (0, [c, ' ', ' '] ++ ralign 3 ' ' nsig)
      pure r.2

/-- the loop over the constellations: lines 1083-1131.  `sig_tab[sys]` must have entries for pseudorange and phase. -/
def allTypes (tab : Tab) : Py Line := do
  let ts ← tab.mapM fun e => do
    let pr ← e.2.getItem .C
    let cp ← e.2.getItem .L
    typesText (sysChar e.1) (pr.map str) (cp.map str) ((e.2.get? .D).map (·.map str)) ((e.2.get? .S).map (·.map str))
  pure ts.flatten

end Verif.Rinex
