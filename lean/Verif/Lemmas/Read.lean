import Verif.Lemmas.Post
import Verif.Lemmas.Cssr
/-!
Reading fields of a long enough message, and mask fields as lists of set bits.
-/

namespace Verif
open Verif.Cssr (positions)
open Verif.Mask

/-- unsigned value of the `n` bits from bit `k` on -/
def bitsAt (b : BitBuf) (k n : Nat) : Nat := bitsToNat ((b.drop k).take n)
/-- two's-complement value of the `n` bits from bit `k` on -/
def intAt (b : BitBuf) (k n : Nat) : Int := toSigned n (bitsAt b k n)

theorem readU_at {b : BitBuf} {k n : Nat} (h : k + n ≤ b.length) : readU b k n = .ok (bitsAt b k n) := by
  unfold readU
  rw [if_pos h]; rfl

theorem readS_at {b : BitBuf} {k n : Nat} (h : k + n ≤ b.length) : readS b k n = .ok (intAt b k n) := by
  unfold readS
  rw [readU_at h]; rfl

theorem positions_shift (l : List Bool) (o d : Nat) : positions (o + d) l = (positions o l).map (· + d) := by
  induction l generalizing o with
  | nil => rfl
  | cons b l ih =>
    rw [positions, positions, Nat.add_right_comm, ih (o + 1)]
    cases b <;> simp

theorem positions_append (l m : List Bool) (o : Nat) : positions o (l ++ m) = positions o l ++ positions (o + l.length) m := by
  induction l generalizing o with
  | nil => rfl
  | cons b l ih =>
    rw [List.cons_append, positions, positions, ih (o + 1), List.length_cons,
      show o + 1 + l.length = o + (l.length + 1) by omega]
    cases b <;> simp

/-- the bits `[i, i + n)` of a message -/
def seg (b : BitBuf) (i n : Nat) : List Bool := (b.drop i).take n

theorem seg_length {b : BitBuf} {i n : Nat} (h : i + n ≤ b.length) : (seg b i n).length = n := by
  unfold seg; simp; omega

theorem seg_add (b : BitBuf) (i n m : Nat) : seg b i (n + m) = seg b i n ++ seg b (i + n) m := by
  unfold seg
  rw [List.take_add, List.drop_drop]

/-- a mask field decodes to the numbers of its set bits -/
theorem decodeMask_at {b : BitBuf} {i n : Nat} (o : Nat) (h : i + n ≤ b.length) :
    (decodeMask (bitsAt b i n) n o).1 = positions o (seg b i n) := by
  have := Cssr.decodeMask_bits (seg b i n) o
  rw [seg_length h] at this
  show (decodeMask (bitsToNat (seg b i n)) n o).1 = _
  rw [this]

end Verif
