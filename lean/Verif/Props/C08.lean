import Verif.Model.CopyBuff
/-!
# C08 Bit-buffer copy copies exactly the requested bits
-/

namespace Verif.C08
open Verif.CopyBuff

theorem splice_nil (b : BitBuf) (i : Nat) : splice b i [] = b := by simp [splice]

theorem splice_splice (b : BitBuf) (i : Nat) (f g : List Bool)
    (h : i + f.length + g.length ≤ b.length) :
    splice (splice b i f) (i + f.length) g = splice b i (f ++ g) := by
  apply List.ext_getElem?
  intro k
  have h1 : i + f.length ≤ b.length := by omega
  rw [splice_getElem? _ _ _ (by rw [splice_length _ _ _ h1]; omega), splice_getElem? _ _ _ h1,
    splice_getElem? _ _ _ (by simp; omega)]
  simp only [List.length_append]
  by_cases hk1 : k < i
  · rw [if_neg (by omega), if_neg (by omega), if_neg (by omega)]
  · by_cases hk2 : k < i + f.length
    · rw [if_neg (by omega), if_pos (by omega), if_pos (by omega),
        List.getElem?_append_left (by omega)]
    · by_cases hk3 : k < i + f.length + g.length
      · rw [if_pos (by omega), if_pos (by omega), List.getElem?_append_right (by omega)]
        congr 1; omega
      · rw [if_neg (by omega), if_neg (by omega), if_neg (by omega)]

/-- a bit field of a buffer -/
def field (b : BitBuf) (i n : Nat) : List Bool := (b.drop i).take n

theorem field_length (b : BitBuf) (i n : Nat) (h : i + n ≤ b.length) : (field b i n).length = n := by
  simp [field]; omega

theorem field_append (b : BitBuf) (i n m : Nat) :
    field b i n ++ field b (i + n) m = field b i (n + m) := by
  simp only [field, List.take_add, List.drop_drop]

theorem copyWord_eq (src dst : BitBuf) (is id n : Nat) (hs : is + n ≤ src.length)
    (hd : id + n ≤ dst.length) :
    copyWord src dst is id n = .ok (splice dst id (field src is n)) := by
  unfold copyWord readU
  rw [if_pos hs]
  simp only
  have hl := field_length src is n hs
  have hlt := bitsToNat_lt (field src is n)
  rw [hl] at hlt
  unfold writeU
  change (if bitsToNat (field src is n) < 2 ^ n then _ else _) = _
  rw [if_pos hlt, if_pos hd]
  congr 2
  have := natToBits_bitsToNat (field src is n)
  rw [hl] at this
  exact this

theorem copyWord_err (src dst : BitBuf) (is id n : Nat)
    (h : ¬ (is + n ≤ src.length ∧ id + n ≤ dst.length)) :
    copyWord src dst is id n = .error .bitstruct := by
  unfold copyWord readU
  split
  · rename_i e he; split at he
    · cases he
    · cases he; rfl
  · rename_i v hv
    split at hv
    · cases hv
      unfold writeU
      split
      · rw [if_neg (by omega)]
      · rfl
    · cases hv

theorem copyLoop_eq (src : BitBuf) (os od : Nat) : ∀ (b k : Nat) (dst : BitBuf),
    (k + b) * 32 + os ≤ src.length → (k + b) * 32 + od ≤ dst.length →
    copyLoop src os od b k dst = .ok (splice dst (k * 32 + od) (field src (k * 32 + os) (b * 32)))
  | 0, k, dst, _, _ => by simp [copyLoop, field, splice_nil]
  | b + 1, k, dst, hs, hd => by
    unfold copyLoop
    have hs' : k * 32 + os + 32 ≤ src.length := by omega
    have hd' : k * 32 + od + 32 ≤ dst.length := by omega
    rw [copyWord_eq _ _ _ _ _ hs' hd']
    simp only
    have hfl := field_length src _ _ hs'
    rw [copyLoop_eq src os od b (k + 1) _ (by omega)
      (by rw [splice_length _ _ _ (by rw [hfl]; exact hd')]; omega)]
    congr 1
    have e1 : (k + 1) * 32 + od = k * 32 + od + (field src (k * 32 + os) 32).length := by
      rw [hfl]; omega
    have hfl2 := field_length src (k * 32 + os + 32) (b * 32) (by omega)
    have e2 : (k + 1) * 32 + os = k * 32 + os + 32 := by omega
    rw [e1, e2, splice_splice _ _ _ _ (by rw [hfl, hfl2]; omega), field_append]
    congr 2; omega

theorem copyLoop_err (src : BitBuf) (os od : Nat) : ∀ (b k : Nat) (dst : BitBuf), 0 < b →
    ¬ ((k + b) * 32 + os ≤ src.length ∧ (k + b) * 32 + od ≤ dst.length) →
    copyLoop src os od b k dst = .error .bitstruct
  | 0, _, _, h, _ => by omega
  | b + 1, k, dst, _, h => by
    unfold copyLoop
    by_cases hw : k * 32 + os + 32 ≤ src.length ∧ k * 32 + od + 32 ≤ dst.length
    · rw [copyWord_eq _ _ _ _ _ hw.1 hw.2]
      simp only
      by_cases hb : 0 < b
      · apply copyLoop_err src os od b (k + 1) _ hb
        rw [splice_length _ _ _ (by rw [field_length src _ _ hw.1]; exact hw.2)]
        omega
      · omega
    · rw [copyWord_err _ _ _ _ _ hw]

/-- When both ranges fit the copy succeeds, keeps the destination's length, puts source bit
`os + j` at destination bit `od + j` for each of the `blen` positions, and leaves every other
destination bit as it was. -/
theorem copyBuff_bits (src dst : BitBuf) (os od blen : Nat) (hs : os + blen ≤ src.length)
    (hd : od + blen ≤ dst.length) :
    ∃ out, copyBuff src dst os od blen = .ok out ∧ out.length = dst.length ∧
      (∀ j, j < blen → out[od + j]? = src[os + j]?) ∧
      (∀ k, k < od ∨ od + blen ≤ k → out[k]? = dst[k]?) := by
  have hout : copyBuff src dst os od blen = .ok (splice dst od (field src os blen)) := by
    unfold copyBuff
    simp only
    rw [copyLoop_eq src os od (blen / 32) 0 dst (by omega) (by omega)]
    simp only [Nat.zero_mul, Nat.zero_add]
    have hfl := field_length src os (blen / 32 * 32) (by omega)
    split
    · have hlen := splice_length dst od (field src os (blen / 32 * 32)) (by rw [hfl]; omega)
      rw [copyWord_eq _ _ _ _ _ (by omega) (by rw [hlen]; omega)]
      congr 1
      have hfl2 := field_length src (os + blen / 32 * 32) (blen - blen / 32 * 32) (by omega)
      have e1 : blen / 32 * 32 + od = od + (field src os (blen / 32 * 32)).length := by
        rw [hfl]; omega
      rw [e1, Nat.add_comm _ os, splice_splice _ _ _ _ (by rw [hfl, hfl2]; omega), field_append]
      congr 2; omega
    · congr 3; omega
  have hfl := field_length src os blen hs
  have hb : od + (field src os blen).length ≤ dst.length := by rw [hfl]; exact hd
  refine ⟨_, hout, splice_length _ _ _ hb, ?_, ?_⟩
  · intro j hj
    rw [splice_getElem? _ _ _ hb, hfl, if_pos (by omega)]
    simp only [field]
    rw [List.getElem?_take, if_pos (by omega), List.getElem?_drop]
    congr 1; omega
  · intro k hk
    rw [splice_getElem? _ _ _ hb, hfl, if_neg (by omega)]

/-- a 35-bit copy (one word and a 3-bit remainder) between unaligned positions -/
example : copyBuff (natToBits 48 0xA5A5DEADBEEF) (natToBits 40 0) 5 3 35 =
    .ok (natToBits 3 0 ++ natToBits 35 (0xA5A5DEADBEEF / 256) ++ natToBits 2 0) := by
  decide +kernel

/-- When a non-empty range does not fit into the source or the destination the copy raises. -/
theorem copyBuff_raises (src dst : BitBuf) (os od blen : Nat) (h0 : 0 < blen)
    (h : ¬ (os + blen ≤ src.length ∧ od + blen ≤ dst.length)) :
    copyBuff src dst os od blen = .error .bitstruct := by
  unfold copyBuff
  simp only
  by_cases hb : 0 < blen / 32
  · by_cases hl : blen / 32 * 32 + os ≤ src.length ∧ blen / 32 * 32 + od ≤ dst.length
    · rw [copyLoop_eq src os od (blen / 32) 0 dst (by omega) (by omega)]
      simp only [Nat.zero_mul, Nat.zero_add]
      rw [if_pos (by omega)]
      apply copyWord_err
      rw [splice_length _ _ _ (by rw [field_length _ _ _ (by omega)]; omega)]
      omega
    · rw [copyLoop_err src os od (blen / 32) 0 dst hb (by omega)]
  · have : blen / 32 = 0 := by omega
    rw [this]
    simp only [copyLoop]
    rw [if_pos (by omega)]
    apply copyWord_err
    omega

/-- An empty range copies nothing and never raises. -/
theorem copyBuff_zero (src dst : BitBuf) (os od : Nat) : copyBuff src dst os od 0 = .ok dst := rfl

end Verif.C08
