import Verif.Py
/-!
# Model of the RTCM 3 framing (`rtcm.py`, classes `rtcm` and `rtcme`)

Buffers are lists of bytes.  `Crc24LteA` of the package `crccheck` is width 24, polynomial
0x864CFB, initial value 0, no reflection, no final xor.
-/

namespace Verif.RtcmFrame

abbrev Byte := BitVec 8
abbrev Reg := BitVec 24

/-- the generator polynomial without its leading term -/
def poly : Reg := 0x864CFB

/-- one shift of the register -/
def shift (s : Reg) : Reg := if s.msb then (s <<< 1) ^^^ poly else s <<< 1

/-- several shifts -/
def shiftN : Nat → Reg → Reg
  | 0, s => s
  | n + 1, s => shiftN n (shift s)

/-- one byte: xor into the top of the register, then eight shifts -/
def crcByte (s : Reg) (b : Byte) : Reg :=
  shiftN 8 (s ^^^ (b.setWidth 24 <<< 16))

/-- `Crc24LteA.calc(msg)` -/
def crc24 (msg : List Byte) : Reg := msg.foldl crcByte 0

/-- `struct.unpack_from('>H', msg, i)`; a short buffer raises `struct.error` -/
def u16 (msg : List Byte) (i : Nat) : Py Nat :=
  if i + 2 ≤ msg.length then .ok ((msg.getD i 0).toNat * 256 + (msg.getD (i + 1) 0).toNat)
  else .error .bitstruct

/-- `struct.pack_into('>B', msg, i, v)` for a value that fits -/
def putB (msg : List Byte) (i : Nat) (v : Nat) : Py (List Byte) :=
  if i + 1 ≤ msg.length then .ok (msg.set i (BitVec.ofNat 8 v)) else .error .bitstruct

/-- `struct.pack_into('>H', msg, i, v)` for a value that fits -/
def putH (msg : List Byte) (i : Nat) (v : Nat) : Py (List Byte) :=
  if i + 2 ≤ msg.length then
    .ok ((msg.set i (BitVec.ofNat 8 (v / 256))).set (i + 1) (BitVec.ofNat 8 (v % 256)))
  else .error .bitstruct

/-- `rtcm.sync` (968-970) -/
def sync (msg : List Byte) (k : Nat) : Py Bool := (pyGet msg k).map fun b => b == 0xd3

/-- `rtcm.checksum` (972-985): the verdict and the new values of `len` (`dlen` is `len + 6`), which
are left alone when `none` -/
def checksum (msg : List Byte) (k : Nat) (maxlen : Nat := 0) : Py (Bool × Option Nat) := do
  let h ← u16 msg (k + 1)
  let len := h % 1024
  if len < 6 then return (false, none)
  if maxlen > 0 ∧ k + len ≥ maxlen then return (false, none)
  return (crc24 ((msg.drop k).take (len + 6)) == 0, some len)

/-- `rtcme.set_sync` (4174-4175) -/
def setSync (msg : List Byte) (k : Nat) : Py (List Byte) := pySet msg k 0xd3

/-- `rtcme.set_len` (4177-4181): the buffer and the value of `len` -/
def setLen (msg : List Byte) (k : Nat) (len : Nat) : Py (List Byte × Nat) := do
  let m ← putH msg (k + 1) (len % 1024)
  return (m, len)

/-- `rtcme.set_checksum` (4183-4191): the buffer, `none` for the result `False` -/
def setChecksum (msg : List Byte) (len : Nat) (k : Nat) (maxlen : Nat := 0) :
    Py (List Byte × Option Nat) :=
  if len < 6 then .ok (msg, none)
  else if maxlen > 0 ∧ k + len ≥ maxlen then .ok (msg, none)
  else do
    let cs := (crc24 ((msg.drop k).take (len + 3))).toNat
    let m ← putH msg (k + len + 3) (cs / 256)
    let m ← putB m (k + len + 5) (cs % 256)
    return (m, some cs)

/-- `rtcme.set_body` (4193-4194): a slice assignment -/
def setBody (msg buff : List Byte) (k len : Nat) : List Byte :=
  msg.take (k + 3) ++ (buff.take len).drop 3 ++ msg.drop (max (k + 3) (k + len))

end Verif.RtcmFrame
