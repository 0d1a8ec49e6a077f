import Verif.Lemmas.Mask
/-!
# C10 Compact SSR mask encode/decode round-trip

A mask of width `n` has positions `ofst … ofst+n-1`; position `p` corresponds to the bit of
weight `2^(n-1-(p-ofst))`.
-/

namespace Verif.C10
open Verif.Mask

/-- The decoded list is strictly increasing, its length is the reported count, and it contains
exactly the positions whose bit is set. -/
theorem decode_spec (din bitlen ofst : Nat) :
    (decodeMask din bitlen ofst).1.Pairwise (· < ·) ∧
    (decodeMask din bitlen ofst).2 = (decodeMask din bitlen ofst).1.length ∧
    ∀ p, p ∈ (decodeMask din bitlen ofst).1 ↔
      ofst ≤ p ∧ p < ofst + bitlen ∧ din / 2 ^ (bitlen - 1 - (p - ofst)) % 2 = 1 := by
  refine ⟨decodeMask_sorted _ _ _, (decodeMask_length _ _ _).symm, fun p => ?_⟩
  rw [mem_decodeMask, Nat.testBit_eq_decide_div_mod_eq, decide_eq_true_eq]
  have : bitlen - (p - ofst) - 1 = bitlen - 1 - (p - ofst) := by omega
  rw [this]

/-- Encoding a decoded mask returns the original mask. -/
theorem encode_decode (din bitlen ofst : Nat) (h : din < 2 ^ bitlen) :
    encodeMask ((decodeMask din bitlen ofst).1.map (fun p : Nat => (p : Int))) bitlen ofst = .ok din := by
  unfold encodeMask
  have hlt : ∀ p ∈ (decodeMask din bitlen ofst).1.map (fun p : Nat => (p : Int)),
      p < (ofst : Int) + bitlen := by
    intro p hp
    obtain ⟨q, hq, rfl⟩ := List.mem_map.mp hp
    rw [mem_decodeMask] at hq; omega
  obtain ⟨d, hd⟩ := encode_ok bitlen ofst _ 0 hlt
  rw [hd]
  congr 1
  apply Nat.eq_of_testBit_eq
  intro s
  rw [Bool.eq_iff_iff, encode_testBit bitlen ofst _ 0 d hd s]
  simp only [Nat.zero_testBit, Bool.false_eq_true, false_or, List.mem_map]
  constructor
  · rintro ⟨_, ⟨q, hq, rfl⟩, hqs⟩
    rw [mem_decodeMask] at hq
    have : bitlen - (q - ofst) - 1 = s := by omega
    rw [← this]; exact hq.2.2
  · intro hs
    have hslt : s < bitlen := by
      rcases Nat.lt_or_ge s bitlen with h1 | h1
      · exact h1
      · rw [Nat.testBit_lt_two_pow (Nat.lt_of_lt_of_le h (Nat.pow_le_pow_right (by decide) h1))] at hs
        cases hs
    refine ⟨_, ⟨bitlen - 1 - s + ofst, ?_, rfl⟩, by omega⟩
    rw [mem_decodeMask]
    refine ⟨by omega, by omega, ?_⟩
    have : bitlen - (bitlen - 1 - s + ofst - ofst) - 1 = s := by omega
    rw [this]; exact hs

example : encodeMask ((decodeMask 0b1000000000000000000000000000000000000101 40).1.map
    (fun p : Nat => (p : Int))) 40 = .ok 0b1000000000000000000000000000000000000101 :=
  encode_decode _ 40 1 (by decide)

/-- Decoding an encoded set of positions returns exactly those positions, in increasing order
and without duplicates. -/
theorem decode_encode (v : List Nat) (bitlen ofst : Nat)
    (h : ∀ p ∈ v, ofst ≤ p ∧ p < ofst + bitlen) :
    ∃ d, encodeMask (v.map (fun p : Nat => (p : Int))) bitlen ofst = .ok d ∧ d < 2 ^ bitlen ∧
      (decodeMask d bitlen ofst).1.Pairwise (· < ·) ∧
      ∀ p, p ∈ (decodeMask d bitlen ofst).1 ↔ p ∈ v := by
  unfold encodeMask
  have hlt : ∀ p ∈ v.map (fun p : Nat => (p : Int)), p < (ofst : Int) + bitlen := by
    intro p hp
    obtain ⟨q, hq, rfl⟩ := List.mem_map.mp hp
    have := h q hq; omega
  obtain ⟨d, hd⟩ := encode_ok bitlen ofst _ 0 hlt
  have hbit := encode_testBit bitlen ofst _ 0 d hd
  simp only [Nat.zero_testBit, Bool.false_eq_true, false_or, List.mem_map] at hbit
  refine ⟨d, hd, ?_, decodeMask_sorted _ _ _, fun p => ?_⟩
  · apply Nat.lt_pow_two_of_testBit
    intro s hs
    cases hb : d.testBit s
    · rfl
    · obtain ⟨_, ⟨q, hq, rfl⟩, hqs⟩ := (hbit s).1 hb
      have := h q hq; omega
  · rw [mem_decodeMask, hbit]
    constructor
    · rintro ⟨h1, h2, _, ⟨q, hq, rfl⟩, hqs⟩
      have hq' := h q hq
      have : p = q := by omega
      rw [this]; exact hq
    · intro hp
      have hp' := h p hp
      exact ⟨hp'.1, hp'.2, p, ⟨p, hp, rfl⟩, by omega⟩

example : ∀ p ∈ [7, 3, 3, 40], 1 ≤ p ∧ p < 1 + 40 := by decide

/-- A position beyond the mask width makes the encoder raise. -/
theorem encode_raises (v : List Int) (bitlen : Nat) (ofst : Int)
    (h : ∃ p ∈ v, ofst + bitlen ≤ p) : encodeMask v bitlen ofst = .error .valueError :=
  encode_err bitlen ofst v 0 h

/-- A position below the first one is not rejected: it sets a bit outside the mask width. -/
theorem encode_below_overflows : ∃ d, encodeMask [0] 40 1 = .ok d ∧ 2 ^ 40 ≤ d :=
  ⟨2 ^ 40, by decide, by decide⟩

/-- Two masks of the same width decoding to the same positions are equal. -/
theorem decode_injective (a b bitlen ofst : Nat) (ha : a < 2 ^ bitlen) (hb : b < 2 ^ bitlen)
    (h : (decodeMask a bitlen ofst).1 = (decodeMask b bitlen ofst).1) : a = b := by
  have h1 := encode_decode a bitlen ofst ha
  rw [h, encode_decode b bitlen ofst hb] at h1
  cases h1; rfl

/-- `isset` tests the bit that `decode_mask` reports for that position. -/
theorem isset_iff_mem (mask nbit k : Nat) (h : k < nbit) :
    isset mask nbit k = .ok (decide (k ∈ (decodeMask mask nbit 0).1)) := by
  unfold isset
  rw [if_pos h]
  congr 1
  have : k ∈ (decodeMask mask nbit 0).1 ↔ mask.testBit (nbit - k - 1) = true := by
    rw [mem_decodeMask]; simp [h]
  rw [Bool.eq_iff_iff, decide_eq_true_eq, this]
  simp [Nat.testBit, Nat.and_comm]

end Verif.C10
