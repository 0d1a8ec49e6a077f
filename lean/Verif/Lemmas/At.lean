import Verif.Bits
/-!
`At b i l`: the buffer `b` carries the bit string `l` at bit offset `i`.
Used to state that a message with a given layout is what the decoder finds at its cursor.
-/

namespace Verif

/-- the buffer `b` carries the bit string `l` at offset `i` -/
def At (b : BitBuf) (i : Nat) (l : List Bool) : Prop :=
  i ≤ b.length ∧ ∃ post, b.drop i = l ++ post

theorem At.intro (pre l post : List Bool) : At (pre ++ l ++ post) pre.length l :=
  ⟨by simp, post, by simp⟩

theorem At.head {b : BitBuf} {i : Nat} {l m : List Bool} (h : At b i (l ++ m)) : At b i l := by
  obtain ⟨hi, post, hp⟩ := h
  exact ⟨hi, m ++ post, by rw [hp, List.append_assoc]⟩

theorem At.le {b : BitBuf} {i : Nat} {l : List Bool} (h : At b i l) : i + l.length ≤ b.length := by
  obtain ⟨hi, post, hp⟩ := h
  have := congrArg List.length hp
  simp only [List.length_drop, List.length_append] at this
  omega

theorem At.tail {b : BitBuf} {i : Nat} {l m : List Bool} (h : At b i (l ++ m)) :
    At b (i + l.length) m := by
  refine ⟨?_, ?_⟩
  · have := h.head.le; omega
  · obtain ⟨hi, post, hp⟩ := h
    refine ⟨post, ?_⟩
    rw [← List.drop_drop, hp, List.append_assoc, List.drop_left]

theorem At.tail' {b : BitBuf} {i n : Nat} {l m : List Bool} (h : At b i (l ++ m))
    (hn : l.length = n) : At b (i + n) m := hn ▸ h.tail

theorem At.readU_bits {b : BitBuf} {i n : Nat} {l : List Bool} (h : At b i l)
    (hn : l.length = n) : readU b i n = .ok (bitsToNat l) := by
  have hle := h.le
  obtain ⟨hi, post, hp⟩ := h
  unfold readU
  rw [if_pos (by omega), hp, ← hn, List.take_left]

theorem At.readU {b : BitBuf} {i n v : Nat} (h : At b i (natToBits n v)) (hv : v < 2 ^ n) :
    readU b i n = .ok v := by
  rw [h.readU_bits (natToBits_length n v), bitsToNat_natToBits, Nat.mod_eq_of_lt hv]

theorem At.readS {b : BitBuf} {i n : Nat} {v : Int} (h : At b i (natToBits n (ofSigned n v)))
    (hn : 0 < n) (h1 : -(2 ^ (n - 1) : Int) ≤ v) (h2 : v < 2 ^ (n - 1)) :
    readS b i n = .ok v := by
  unfold Verif.readS
  rw [h.readU (ofSigned_lt n v)]
  simp [toSigned_ofSigned n v hn h1 h2]

/-- field layout step: read the first field, continue with the rest -/
theorem At.step {b : BitBuf} {i n v : Nat} {m : List Bool} (h : At b i (natToBits n v ++ m))
    (hv : v < 2 ^ n) : Verif.readU b i n = .ok v ∧ At b (i + n) m :=
  ⟨h.head.readU hv, h.tail' (natToBits_length n v)⟩

theorem At.stepS {b : BitBuf} {i n : Nat} {v : Int} {m : List Bool}
    (h : At b i (natToBits n (ofSigned n v) ++ m))
    (hn : 0 < n) (h1 : -(2 ^ (n - 1) : Int) ≤ v) (h2 : v < 2 ^ (n - 1)) :
    Verif.readS b i n = .ok v ∧ At b (i + n) m :=
  ⟨h.head.readS hn h1 h2, h.tail' (natToBits_length n _)⟩

theorem At.stepBits {b : BitBuf} {i n : Nat} {l m : List Bool} (h : At b i (l ++ m))
    (hn : l.length = n) : Verif.readU b i n = .ok (bitsToNat l) ∧ At b (i + n) m :=
  ⟨h.head.readU_bits hn, h.tail' hn⟩

/-- every readable field is some bit string at that position -/
theorem At.of_le {b : BitBuf} {i n : Nat} (h : i + n ≤ b.length) :
    At b i ((b.drop i).take n) :=
  ⟨by omega, (b.drop i).drop n, by rw [List.take_append_drop]⟩

end Verif

namespace Verif

theorem At.append {b : BitBuf} {i : Nat} {l m : List Bool} (h1 : At b i l)
    (h2 : At b (i + l.length) m) : At b i (l ++ m) := by
  obtain ⟨hi, p, hp⟩ := h1
  obtain ⟨hj, q, hq⟩ := h2
  refine ⟨hi, q, ?_⟩
  rw [← List.drop_drop, hp, List.drop_left] at hq
  rw [hp, hq, List.append_assoc]

theorem At.nil {b : BitBuf} {i : Nat} (h : i ≤ b.length) : At b i [] := ⟨h, b.drop i, rfl⟩

/-- a successful read shows the field that is there -/
theorem At.of_readU {b : BitBuf} {i n v : Nat} (h : Verif.readU b i n = .ok v) :
    At b i (natToBits n v) ∧ v < 2 ^ n := by
  have hle := readU_ok_iff.1 ⟨v, h⟩
  refine ⟨?_, readU_lt h⟩
  have hat := At.of_le hle
  unfold Verif.readU at h
  rw [if_pos hle] at h
  cases h
  have hlen : ((b.drop i).take n).length = n := by simp; omega
  have := natToBits_bitsToNat ((b.drop i).take n)
  rw [hlen] at this
  rwa [this]

/-- a successful read, as bits -/
theorem At.bits_of_readU {b : BitBuf} {i n v : Nat} (h : Verif.readU b i n = .ok v) :
    ∃ l, l.length = n ∧ bitsToNat l = v ∧ At b i l := by
  obtain ⟨h1, h2⟩ := At.of_readU h
  exact ⟨natToBits n v, by simp, by rw [bitsToNat_natToBits, Nat.mod_eq_of_lt h2], h1⟩

end Verif
