import Verif.Model.CopyBuff
/-! Model of the QZSS L6 frame assembly, `decode_l6msg` (`src/cssrlib/cssrlib.py` lines
1392-1423) with the initial values of lines 303-317.  Printing is left out; when an exception is
raised the state is not modelled. -/

namespace Verif.L6
open Verif.CopyBuff

/-- the fields of `cssr` used by the assembly; `fcnt = -1`: no frame in progress -/
structure St where
  fcnt : Int := -1
  facility : Int := -1
  pattern : Int := -1
  sid : Int := -1
  buff : BitBuf := List.replicate 20000 false
  buffP : Option BitBuf := none
  deriving DecidableEq

/-- `facility_t` -/
def facilityT : List (List Nat) := [[0, 2, 1, 3], [2, 0, 3, 1]]

/-- facility number of the sub-frame: lines 1408-1411 -/
def facilityNo (vendor pt fac : Nat) : Py Nat :=
  if vendor = 5 then do
    let row ← pyGet facilityT pt
    pyGet row fac
  else pure fac

/-- state updates between the header and the copy: lines 1403-1417 -/
def l6State (s : St) (sid facility pt : Nat) : St :=
  let s := if sid = 1 then
      { s with fcnt := 0, buffP := some s.buff, buff := List.replicate 20000 false }
    else s
  let s := if s.facility ≥ 0 ∧ (facility : Int) ≠ s.facility then { s with fcnt := -1 } else s
  { s with facility := facility, pattern := pt, sid := sid }

/-- `decode_l6msg(msg, ofst)`; the Boolean is `false` for the return value `-1` and `true` for
a normal end -/
def decodeL6 (s : St) (msg : BitBuf) (ofst : Nat) : Py (St × Bool) := do
  let i := ofst * 8
  let preamble ← readU msg i 32
  let _prn ← readU msg (i + 32) 8
  let vendor ← readU msg (i + 40) 3
  let fac ← readU msg (i + 43) 2
  let pt ← readU msg (i + 45) 2
  let sid ← readU msg (i + 47) 1
  let _alert ← readU msg (i + 48) 1
  if preamble ≠ 0x1acffc1d then pure (s, false)
  else
    let i := i + 49
    let facility ← facilityNo vendor pt fac
    let s := l6State s sid facility pt
    if s.fcnt < 0 then pure (s, false)
    else
      let b ← copyBuff msg s.buff i (1695 * s.fcnt.toNat) 1695
      pure ({ s with buff := b, fcnt := s.fcnt + 1 }, true)

end Verif.L6
