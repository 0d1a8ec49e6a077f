import Verif.Bits
import Verif.Py
import Mathlib.Data.Rat.Defs
/-!
Model of the station messages of `rtcm` (`src/cssrlib/rtcm.py` lines 2467-2545 and 2939-2944).

`text` stands for `bytes.decode()`: it maps bytes to a text or raises.  Numbers are exact rationals.
What an exception leaves behind in the attributes is not modelled.
-/

namespace Verif.RtcmSta

/-- the attributes of the decoder set by these messages; `none` where the constructor sets `None` or
nothing -/
structure Sta where
  refid : Option Nat := none
  npStaid : Option Nat := none
  sti : Option Nat := none
  posArp : Option (ℚ × ℚ × ℚ) := none
  antHeight : Option ℚ := none
  antDesc : Option String := none
  antId : Option Nat := none
  antSerial : Option String := none
  rcvType : Option String := none
  firmVer : Option String := none
  rcvSerial : Option String := none
  gloBias : Option (List ℚ) := none
  ustr : Option String := none
  deriving DecidableEq

/-- `msg[j:j+n]` of the bytes of the message: a slice ends where the message ends -/
def slice (msg : BitBuf) (j n : Nat) : List Nat :=
  (List.range n).filterMap fun k =>
    if 8 * (j + k) + 8 ≤ msg.length then some (bitsToNat ((msg.drop (8 * (j + k))).take 8)) else none

/-- one text with its length: lines 2480-2485 (and 2487-2492, 2493-2497, 2498-2502) -/
def readText (text : List Nat → Py String) (msg : BitBuf) (i j : Nat) : Py (String × Nat × Nat) := do
  let nc ← readU msg i 8
  let i := i + 8
  let j := j + 1
  let t ← text (slice msg j nc)
  return (t, i + 8 * nc, j + nc)

/-- `decode_ant_desc(msg, i)`: lines 2467-2504 -/
def decodeAntDesc (text : List Nat → Py String) (mt : Nat) (s : Sta) (msg : BitBuf) (i : Nat) : Py (Nat × Sta) := do
  let refid ← readU msg i 12
  let nc ← readU msg (i + 12) 8
  let i := i + 20
  let j := 7
  let desc ← text (slice msg j nc)
  let i := i + 8 * nc
  let id ← readU msg i 8
  let i := i + 8
  let j := j + (nc + 1)
  let s := { s with refid := some refid, antDesc := some desc, antId := some id }
  let (i, j, s) ← (if mt = 1008 ∨ mt = 1033 then do
      let (t, i, j) ← readText text msg i j
      pure (i, j, { s with antSerial := some t })
    else pure (i, j, s) : Py (Nat × Nat × Sta))
  if mt = 1033 then do
    let (t, i, j) ← readText text msg i j
    let (f, i, j) ← readText text msg i j
    let (r, i, _) ← readText text msg i j
    return (i, { s with rcvType := some t, firmVer := some f, rcvSerial := some r })
  else return (i, s)

/-- `decode_sta_pos(msg, i)`: lines 2506-2533 -/
def decodeStaPos (mt : Nat) (s : Sta) (msg : BitBuf) (i : Nat) : Py (Nat × Sta) := do
  let (i, s) ← (if mt = 1032 then do
      let n ← readU msg i 12
      pure (i + 12, { s with npStaid := some n })
    else pure (i, s) : Py (Nat × Sta))
  let refid ← readU msg i 12
  let i := i + 18
  let s := { s with refid := some refid }
  let (i, s) ← (if mt = 1005 ∨ mt = 1006 then do
      let ind ← readU msg i 4
      pure (i + 4, { s with sti := some (ind &&& 1) })
    else pure (i, s) : Py (Nat × Sta))
  let xp ← readS msg i 38
  let i := i + 38
  let i := if mt = 1005 ∨ mt = 1006 then i + 2 else i
  let yp ← readS msg i 38
  let i := i + 38
  let i := if mt = 1005 ∨ mt = 1006 then i + 2 else i
  let zp ← readS msg i 38
  let i := i + 38
  let s := { s with posArp := some (xp * (1 / 10 ^ 4), yp * (1 / 10 ^ 4), zp * (1 / 10 ^ 4)) }
  if mt = 1006 then do
    let h ← readU msg i 16
    return (i + 16, { s with antHeight := some (h * (1 / 10 ^ 4)) })
  else return (i, s)

/-- the loop of `decode_glo_bias`: lines 2540-2543, over the remaining `k` -/
def biasLoop (mask : Nat) (msg : BitBuf) : List Nat → Nat → Py (Nat × List ℚ)
  | [], i => .ok (i, [])
  | k :: ks, i =>
    if (mask >>> (3 - k)) &&& 1 = 1 then do
      let v ← readS msg i 16
      let (i, r) ← biasLoop mask msg ks (i + 16)
      return (i, v * (2 / 100) :: r)
    else do
      let (i, r) ← biasLoop mask msg ks i
      return (i, 0 :: r)

/-- `decode_glo_bias(msg, i)`: lines 2535-2545 -/
def decodeGloBias (s : Sta) (msg : BitBuf) (i : Nat) : Py (Nat × Sta) := do
  let refid ← readU msg i 12
  let _ ← readU msg (i + 12) 1
  let _ ← readU msg (i + 13) 3
  let sigmask ← readU msg (i + 16) 4
  let (i, r) ← biasLoop sigmask msg [0, 1, 2, 3] (i + 20)
  return (i, { s with refid := some refid, gloBias := some r })

/-- `decode_unicode_text(msg, i)`: lines 2939-2944 -/
def decodeUnicode (text : List Nat → Py String) (s : Sta) (msg : BitBuf) (i : Nat) : Py Sta := do
  let _ ← readU msg i 12
  let _ ← readU msg (i + 12) 16
  let _ ← readU msg (i + 28) 17
  let _ ← readU msg (i + 45) 7
  let ncp ← readU msg (i + 52) 8
  let t ← text (slice msg ((i + 60) / 8) ncp)
  return { s with ustr := some t }

end Verif.RtcmSta
