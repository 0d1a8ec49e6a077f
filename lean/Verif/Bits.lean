import Verif.Py
/-!
# Bit buffers and `bitstruct`

A byte buffer is modelled as the list of its bits, most significant bit of the
first byte first.  `bitstruct.unpack_from('uN', buf, i)` reads `N` bits at bit
offset `i`, `'sN'` reads two's complement, `'bN'` reads a boolean.  Reading past
the end raises `bitstruct.Error`; packing a value that does not fit raises as well.
-/

namespace Verif

/-- A bit buffer, most significant bit first. -/
abbrev BitBuf := List Bool

/-- Value of a bit string read as an unsigned big-endian number. -/
def bitsToNat : List Bool → Nat
  | [] => 0
  | b :: bs => b.toNat * 2 ^ bs.length + bitsToNat bs

/-- The `n` low bits of `v`, big-endian. -/
def natToBits : (n : Nat) → (v : Nat) → List Bool
  | 0, _ => []
  | n + 1, v => (v / 2 ^ n % 2 == 1) :: natToBits n v

/-- Two's-complement value of an `n`-bit unsigned pattern. -/
def toSigned (n : Nat) (u : Nat) : Int :=
  if n = 0 then 0 else if u < 2 ^ (n - 1) then (u : Int) else (u : Int) - 2 ^ n

/-- Unsigned `n`-bit pattern of a signed integer. -/
def ofSigned (n : Nat) (s : Int) : Nat := (s % (2 ^ n : Int)).toNat

/-- `bitstruct.unpack_from('uN', buf, i)[0]` -/
def readU (b : BitBuf) (i n : Nat) : Py Nat :=
  if i + n ≤ b.length then .ok (bitsToNat ((b.drop i).take n)) else .error .bitstruct

/-- `bitstruct.unpack_from('sN', buf, i)[0]` -/
def readS (b : BitBuf) (i n : Nat) : Py Int :=
  match readU b i n with
  | .ok u => .ok (toSigned n u)
  | .error e => .error e

/-- overwrite bits of a buffer (helper of `pack_into`) -/
def splice (b : BitBuf) (i : Nat) (f : List Bool) : BitBuf :=
  b.take i ++ f ++ b.drop (i + f.length)

/-- `bitstruct.pack_into('uN', buf, i, v)` -/
def writeU (b : BitBuf) (i n : Nat) (v : Nat) : Py BitBuf :=
  if v < 2 ^ n then
    if i + n ≤ b.length then .ok (splice b i (natToBits n v)) else .error .bitstruct
  else .error .bitstruct

/-- `bitstruct.pack_into('sN', buf, i, v)` -/
def writeS (b : BitBuf) (i n : Nat) (v : Int) : Py BitBuf :=
  if 0 < n ∧ -(2 ^ (n - 1) : Int) ≤ v ∧ v < 2 ^ (n - 1) then writeU b i n (ofSigned n v)
  else .error .bitstruct

/-! ## Laws -/

@[simp] theorem bitsToNat_nil : bitsToNat [] = 0 := rfl

theorem bitsToNat_lt (l : List Bool) : bitsToNat l < 2 ^ l.length := by
  induction l with
  | nil => simp
  | cons b bs ih =>
    simp only [bitsToNat, List.length_cons, Nat.pow_succ]
    cases b <;> simp <;> omega

@[simp] theorem natToBits_length (n v : Nat) : (natToBits n v).length = n := by
  induction n with
  | zero => rfl
  | succ n ih => simp [natToBits, ih]

theorem bitsToNat_natToBits (n v : Nat) : bitsToNat (natToBits n v) = v % 2 ^ n := by
  induction n with
  | zero => simp [natToBits, Nat.mod_one]
  | succ n ih =>
    simp only [natToBits, bitsToNat, natToBits_length, ih]
    have hb : (v / 2 ^ n % 2 == 1).toNat = v / 2 ^ n % 2 := by
      have : v / 2 ^ n % 2 < 2 := Nat.mod_lt _ (by decide)
      rcases Nat.lt_succ_iff_lt_or_eq.mp this with h | h
      · have : v / 2 ^ n % 2 = 0 := by omega
        simp [this]
      · simp [h]
    rw [hb, Nat.pow_succ, Nat.mod_mul]
    rw [Nat.mul_comm (2 ^ n)]; omega

theorem natToBits_bitsToNat (l : List Bool) : natToBits l.length (bitsToNat l) = l := by
  induction l with
  | nil => rfl
  | cons b bs ih =>
    have hlt := bitsToNat_lt bs
    simp only [List.length_cons, natToBits, bitsToNat]
    have h1 : (b.toNat * 2 ^ bs.length + bitsToNat bs) / 2 ^ bs.length = b.toNat := by
      rw [Nat.mul_comm, Nat.mul_add_div (Nat.two_pow_pos _), Nat.div_eq_of_lt hlt]; simp
    rw [h1]
    have h2 : ∀ n, n ≤ bs.length →
        natToBits n (b.toNat * 2 ^ bs.length + bitsToNat bs) = natToBits n (bitsToNat bs) := by
      intro n hn
      induction n with
      | zero => rfl
      | succ n ihn =>
        simp only [natToBits]
        rw [ihn (by omega)]
        congr 2
        obtain ⟨k, hk⟩ : ∃ k, bs.length = n + 1 + k := ⟨bs.length - (n + 1), by omega⟩
        have e : b.toNat * 2 ^ bs.length + bitsToNat bs
            = 2 ^ n * (2 * (b.toNat * 2 ^ k)) + bitsToNat bs := by
          rw [hk, Nat.pow_add, Nat.pow_succ]
          congr 1
          simp only [Nat.mul_assoc, Nat.mul_left_comm]
        rw [e, Nat.mul_add_div (Nat.two_pow_pos _)]
        omega
    rw [h2 _ (Nat.le_refl _), ih]
    cases b <;> rfl

theorem natToBits_injOn {n v w : Nat} (hv : v < 2 ^ n) (hw : w < 2 ^ n)
    (h : natToBits n v = natToBits n w) : v = w := by
  have := congrArg bitsToNat h
  rw [bitsToNat_natToBits, bitsToNat_natToBits, Nat.mod_eq_of_lt hv, Nat.mod_eq_of_lt hw] at this
  exact this

theorem bitsToNat_append (a b : List Bool) :
    bitsToNat (a ++ b) = bitsToNat a * 2 ^ b.length + bitsToNat b := by
  induction a with
  | nil => simp
  | cons x xs ih =>
    simp only [List.cons_append, bitsToNat, ih, List.length_append, Nat.pow_add]
    rw [Nat.add_mul]
    simp only [Nat.mul_assoc, Nat.add_assoc]

theorem bitsToNat_injective {a b : List Bool} (hl : a.length = b.length)
    (h : bitsToNat a = bitsToNat b) : a = b := by
  rw [← natToBits_bitsToNat a, ← natToBits_bitsToNat b, hl, h]

theorem splice_length (b : BitBuf) (i : Nat) (f : List Bool) (h : i + f.length ≤ b.length) :
    (splice b i f).length = b.length := by
  simp [splice]; omega

/-- Every bit of a spliced buffer. -/
theorem splice_getElem? (b : BitBuf) (i : Nat) (f : List Bool) (h : i + f.length ≤ b.length)
    (k : Nat) : (splice b i f)[k]? =
      if i ≤ k ∧ k < i + f.length then f[k - i]? else b[k]? := by
  unfold splice
  have hi : (b.take i).length = i := by simp; omega
  by_cases h1 : k < i
  · rw [List.append_assoc, List.getElem?_append_left (by omega)]
    have : ¬ (i ≤ k ∧ k < i + f.length) := by omega
    simp [this, h1]
  · by_cases h2 : k < i + f.length
    · rw [List.append_assoc, List.getElem?_append_right (by omega), hi,
        List.getElem?_append_left (by omega)]
      simp [show i ≤ k by omega, h2]
    · rw [List.getElem?_append_right (by simp; omega)]
      have : ¬ (i ≤ k ∧ k < i + f.length) := by omega
      simp only [List.length_append, hi, this, if_false, List.getElem?_drop]
      congr 1; omega

theorem toSigned_ofSigned (n : Nat) (s : Int) (hn : 0 < n)
    (h1 : -(2 ^ (n - 1) : Int) ≤ s) (h2 : s < 2 ^ (n - 1)) :
    toSigned n (ofSigned n s) = s := by
  obtain ⟨m, rfl⟩ : ∃ m, n = m + 1 := ⟨n - 1, by omega⟩
  simp only [Nat.add_sub_cancel] at h1 h2
  have hp : (2 ^ (m + 1) : Int) = 2 * 2 ^ m := by rw [Int.pow_succ]; omega
  have hpos : (0 : Int) < 2 ^ m := Int.pow_pos (by decide)
  unfold toSigned ofSigned
  have hnn : 0 ≤ s % (2 ^ (m + 1) : Int) := Int.emod_nonneg _ (by omega)
  simp only [Nat.add_sub_cancel, Nat.succ_ne_zero, if_false]
  rw [Int.toNat_of_nonneg hnn]
  by_cases hs : 0 ≤ s
  · rw [Int.emod_eq_of_lt hs (by omega)]
    have : s.toNat < 2 ^ m := by
      have : (s.toNat : Int) < ((2 ^ m : Nat) : Int) := by
        rw [Int.toNat_of_nonneg hs]; push_cast; exact h2
      exact_mod_cast this
    simp [this]
  · have e : s % (2 ^ (m + 1) : Int) = s + 2 ^ (m + 1) := by
      rw [← Int.add_emod_right, Int.emod_eq_of_lt (by omega) (by omega)]
    rw [e]
    have : ¬ (s + 2 ^ (m + 1)).toNat < 2 ^ m := by
      intro hc
      have : ((s + 2 ^ (m + 1)).toNat : Int) < ((2 ^ m : Nat) : Int) := by exact_mod_cast hc
      rw [Int.toNat_of_nonneg (by omega)] at this
      push_cast at this; omega
    simp [this]

theorem ofSigned_lt (n : Nat) (s : Int) : ofSigned n s < 2 ^ n := by
  unfold ofSigned
  have hp : (0 : Int) < 2 ^ n := Int.pow_pos (by decide)
  have h := Int.emod_lt_of_pos s hp
  have hn := Int.emod_nonneg s (by omega : (2 ^ n : Int) ≠ 0)
  have : ((s % 2 ^ n).toNat : Int) < ((2 ^ n : Nat) : Int) := by
    rw [Int.toNat_of_nonneg hn]; push_cast; exact h
  exact_mod_cast this

theorem ofSigned_toSigned (n u : Nat) (hn : 0 < n) (hu : u < 2 ^ n) :
    ofSigned n (toSigned n u) = u := by
  obtain ⟨m, rfl⟩ : ∃ m, n = m + 1 := ⟨n - 1, by omega⟩
  have hu' : (u : Int) < 2 ^ (m + 1) := by exact_mod_cast hu
  unfold toSigned ofSigned
  simp only [Nat.succ_ne_zero, if_false, Nat.add_sub_cancel]
  split
  · rw [Int.emod_eq_of_lt (by omega) hu']; simp
  · rw [Int.sub_emod_right, Int.emod_eq_of_lt (by omega) hu']; simp

theorem toSigned_range (n u : Nat) (hn : 0 < n) (hu : u < 2 ^ n) :
    -(2 ^ (n - 1) : Int) ≤ toSigned n u ∧ toSigned n u < 2 ^ (n - 1) := by
  obtain ⟨m, rfl⟩ : ∃ m, n = m + 1 := ⟨n - 1, by omega⟩
  have hu' : (u : Int) < 2 ^ (m + 1) := by exact_mod_cast hu
  have hp : (2 ^ (m + 1) : Int) = 2 * 2 ^ m := by rw [Int.pow_succ]; omega
  unfold toSigned
  simp only [Nat.succ_ne_zero, if_false, Nat.add_sub_cancel]
  split
  · rename_i h
    have : (u : Int) < 2 ^ m := by exact_mod_cast h
    omega
  · rename_i h
    have : (2 ^ m : Int) ≤ u := by exact_mod_cast Nat.le_of_not_lt h
    omega

/-- A written unsigned field reads back. -/
theorem readU_writeU {b b' : BitBuf} {i n v : Nat} (h : writeU b i n v = .ok b') :
    readU b' i n = .ok v := by
  unfold writeU at h
  split at h
  · rename_i hv
    split at h
    · rename_i hl
      cases h
      unfold readU
      rw [splice_length _ _ _ (by simpa using hl)]
      simp only [hl, if_true]
      have : ((splice b i (natToBits n v)).drop i).take n = natToBits n v := by
        unfold splice
        rw [List.append_assoc, List.drop_append, List.drop_of_length_le (by simp; omega)]
        simp only [List.length_take, List.nil_append]
        rw [Nat.min_eq_left (by omega), Nat.sub_self, List.drop_zero,
          List.take_append_of_le_length (by simp), List.take_of_length_le (by simp)]
      rw [this, bitsToNat_natToBits, Nat.mod_eq_of_lt hv]
    · cases h
  · cases h

/-- A written signed field reads back. -/
theorem readS_writeS {b b' : BitBuf} {i n : Nat} {v : Int} (h : writeS b i n v = .ok b') :
    readS b' i n = .ok v := by
  unfold writeS at h
  split at h
  · rename_i hv
    unfold readS
    rw [readU_writeU h]
    simp [toSigned_ofSigned n v hv.1 hv.2.1 hv.2.2]
  · cases h

theorem writeU_length {b b' : BitBuf} {i n v : Nat} (h : writeU b i n v = .ok b') :
    b'.length = b.length := by
  unfold writeU at h
  split at h
  · split at h
    · cases h; rename_i hl; exact splice_length _ _ _ (by simpa using hl)
    · cases h
  · cases h

/-- Two buffers agreeing on a bit range read the same value there. -/
theorem readU_congr {b b' : BitBuf} {i n : Nat} (hl : b'.length = b.length)
    (h : ∀ k, i ≤ k → k < i + n → b'[k]? = b[k]?) : readU b' i n = readU b i n := by
  unfold readU
  rw [hl]
  split
  · have : (b'.drop i).take n = (b.drop i).take n := by
      apply List.ext_getElem?
      intro k
      simp only [List.getElem?_take, List.getElem?_drop]
      split
      · exact h _ (by omega) (by omega)
      · rfl
    rw [this]
  · rfl

/-- Writing a field leaves disjoint fields unchanged. -/
theorem readU_writeU_disjoint {b b' : BitBuf} {i n v j m : Nat} (h : writeU b i n v = .ok b')
    (hd : j + m ≤ i ∨ i + n ≤ j) : readU b' j m = readU b j m := by
  apply readU_congr (writeU_length h)
  intro k hk1 hk2
  unfold writeU at h
  split at h
  · split at h
    · rename_i hl
      cases h
      rw [splice_getElem? _ _ _ (by simpa using hl)]
      simp only [natToBits_length]
      have : ¬ (i ≤ k ∧ k < i + n) := by omega
      simp [this]
    · cases h
  · cases h

theorem readU_lt {b : BitBuf} {i n v : Nat} (h : readU b i n = .ok v) : v < 2 ^ n := by
  unfold readU at h
  split at h
  · rename_i hl
    cases h
    have := bitsToNat_lt ((b.drop i).take n)
    have hlen : ((b.drop i).take n).length = n := by simp; omega
    rwa [hlen] at this
  · cases h

theorem readU_ok_iff {b : BitBuf} {i n : Nat} : (∃ v, readU b i n = .ok v) ↔ i + n ≤ b.length := by
  unfold readU; split <;> simp_all

example : readU [true, false, true, true] 1 3 = .ok 3 := by decide
example : writeS [false, false, false, false] 0 4 (-3) = .ok [true, true, false, true] := by decide

end Verif
