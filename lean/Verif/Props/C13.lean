import Verif.Model.Sval
import Mathlib.Tactic.Linarith
import Mathlib.Tactic.FieldSimp
/-!
# C13 Undefined correction values are never mistaken for numbers

The `n` bits of a field are described by the list of its bits `l`; its number is the
two's-complement value.  The specification of the reserved patterns is by bit pattern, not by
number: `1000…0` for Compact SSR; in addition `0111…1` for HAS, `1000…01` for PPP-B2b; `0111…1`
alone for SBAS and DGPS.
-/

namespace Verif.C13
open Verif.Sval

/-- two's-complement value of a bit string: the first bit weighs `-2^(n-1)` -/
def twos : List Bool → Int
  | [] => 0
  | b :: l => (if b then -2 ^ l.length else 0) + (bitsToNat l : Int)

/-- `1000…0` -/
def minPat (n : Nat) : List Bool := true :: List.replicate (n - 1) false
/-- `0111…1` -/
def maxPat (n : Nat) : List Bool := false :: List.replicate (n - 1) true

theorem bitsToNat_replicate_false (n : Nat) : bitsToNat (List.replicate n false) = 0 := by
  induction n with
  | zero => rfl
  | succ n ih => simp [List.replicate_succ, bitsToNat, ih]

theorem bitsToNat_replicate_true (n : Nat) : bitsToNat (List.replicate n true) + 1 = 2 ^ n := by
  induction n with
  | zero => rfl
  | succ n ih =>
    simp only [List.replicate_succ, bitsToNat, List.length_replicate, Bool.toNat_true, Nat.pow_succ]
    omega

theorem readS_field (pre l post : List Bool) (hl : l ≠ []) :
    readS (pre ++ l ++ post) pre.length l.length = .ok (twos l) := by
  unfold readS readU
  have h1 : pre.length + l.length ≤ (pre ++ l ++ post).length := by simp
  have h2 : ((pre ++ l ++ post).drop pre.length).take l.length = l := by simp
  simp only [h1, if_true, h2]
  cases l with
  | nil => exact absurd rfl hl
  | cons b l =>
    have hlt := bitsToNat_lt l
    have hlt' : (bitsToNat l : Int) < 2 ^ l.length := by exact_mod_cast hlt
    congr 1
    simp only [toSigned, twos, bitsToNat, List.length_cons, Nat.add_sub_cancel, Nat.succ_ne_zero,
      if_false]
    cases b
    · simp [hlt]
    · simp only [Bool.toNat_true, if_true, one_mul]
      have : ¬ (2 ^ l.length + bitsToNat l < 2 ^ l.length) := by omega
      simp only [this, if_false]
      push_cast
      rw [Int.pow_succ]; omega

theorem twos_inj {l m : List Bool} (h : l.length = m.length) (e : twos l = twos m) : l = m := by
  cases l with
  | nil => cases m with
    | nil => rfl
    | cons => simp at h
  | cons b l => cases m with
    | nil => simp at h
    | cons c m =>
      have hl : l.length = m.length := by simpa using h
      have h1 : (bitsToNat l : Int) < 2 ^ l.length := by exact_mod_cast bitsToNat_lt l
      have h2 : (bitsToNat m : Int) < 2 ^ l.length := by
        rw [hl]; exact_mod_cast bitsToNat_lt m
      simp only [twos, ← hl] at e
      have hb : b = c := by
        cases b <;> cases c <;> simp at e ⊢ <;> omega
      subst hb
      have : bitsToNat l = bitsToNat m := by omega
      rw [bitsToNat_injective hl this]

theorem twos_minPat (n : Nat) : twos (minPat n) = -2 ^ (n - 1) := by
  simp [twos, minPat, bitsToNat_replicate_false]

theorem twos_maxPat (n : Nat) : twos (maxPat n) = 2 ^ (n - 1) - 1 := by
  have := bitsToNat_replicate_true (n - 1)
  have h : ((bitsToNat (List.replicate (n - 1) true) : Nat) : Int) + 1 = 2 ^ (n - 1) := by
    exact_mod_cast this
  simp only [twos, maxPat, Bool.false_eq_true, if_false]; omega

theorem minPat_length {n : Nat} (h : 0 < n) : (minPat n).length = n := by simp [minPat]; omega
theorem maxPat_length {n : Nat} (h : 0 < n) : (maxPat n).length = n := by simp [maxPat]; omega

theorem twos_eq_min {l : List Bool} (hl : l ≠ []) :
    twos l = -2 ^ (l.length - 1) ↔ l = minPat l.length := by
  have hp := List.length_pos_of_ne_nil hl
  constructor
  · intro h
    exact twos_inj (minPat_length hp).symm (by rw [h, twos_minPat])
  · intro h
    rw [h, twos_minPat, minPat_length hp]

theorem twos_eq_max {l : List Bool} (hl : l ≠ []) :
    twos l = 2 ^ (l.length - 1) - 1 ↔ l = maxPat l.length := by
  have hp := List.length_pos_of_ne_nil hl
  constructor
  · intro h
    exact twos_inj (maxPat_length hp).symm (by rw [h, twos_maxPat])
  · intro h
    rw [h, twos_maxPat, maxPat_length hp]

/-- Compact SSR: a field anywhere in a message decodes to "not available" exactly for the
pattern `1000…0`, and otherwise to its two's-complement value times the scale. -/
theorem sval_spec (pre l post : List Bool) (hl : l ≠ []) (scl : ℚ) :
    readVal sval (pre ++ l ++ post) pre.length l.length scl =
      .ok (if l = minPat l.length then none else some (twos l * scl)) := by
  unfold readVal
  rw [readS_field pre l post hl]
  simp only [sval, twos_eq_min hl]

/-- HAS: additionally `0111…1` ("do not use") is not available. -/
theorem svalHas_spec (pre l post : List Bool) (hl : l ≠ []) (scl : ℚ) :
    readVal svalHas (pre ++ l ++ post) pre.length l.length scl =
      .ok (if l = minPat l.length ∨ l = maxPat l.length then none else some (twos l * scl)) := by
  unfold readVal
  rw [readS_field pre l post hl]
  simp only [svalHas, twos_eq_min hl, twos_eq_max hl]

/-- SBAS and DGPS: the only reserved pattern is `0111…1`. -/
theorem svalSbas_spec (pre l post : List Bool) (hl : l ≠ []) (scl : ℚ) :
    readVal svalSbas (pre ++ l ++ post) pre.length l.length scl =
      .ok (if l = maxPat l.length then none else some (twos l * scl)) := by
  unfold readVal
  rw [readS_field pre l post hl]
  simp only [svalSbas, twos_eq_max hl]

/-- PPP-B2b: the two most negative numbers are reserved. -/
theorem svalBds_spec (pre l post : List Bool) (hl : l ≠ []) (scl : ℚ) :
    readVal svalBds (pre ++ l ++ post) pre.length l.length scl =
      .ok (if l = minPat l.length ∨ twos l = -2 ^ (l.length - 1) + 1 then none
        else some (twos l * scl)) := by
  unfold readVal
  rw [readS_field pre l post hl]
  simp only [svalBds, twos_eq_min hl]
  have : (twos l = -(2 ^ (l.length - 1) - 1)) ↔ (twos l = -2 ^ (l.length - 1) + 1) := by
    constructor <;> intro h <;> omega
  simp only [this]

/-- A truncated message raises; it never yields a number. -/
theorem readVal_truncated (sv) (b : BitBuf) (i n : Nat) (scl : ℚ) (h : b.length < i + n) :
    readVal sv b i n scl = .error .bitstruct := by
  unfold readVal readS readU
  rw [if_neg (by omega)]

/-- Two different bit patterns never decode to the same number (non-zero scale). -/
theorem sval_injective {n : Nat} {scl : ℚ} (hs : scl ≠ 0) {u v : Int}
    (h : sval u n scl = sval v n scl) : u = v := by
  unfold sval at h
  split at h <;> split at h
  · omega
  · cases h
  · cases h
  · have := Option.some.inj h
    have := mul_right_cancel₀ hs this
    exact_mod_cast this

/-! ## Encoding -/

theorem pyRound_int (z : Int) : pyRound (z : ℚ) = z := by
  simp [pyRound]

theorem pyRound_close (x : ℚ) : |(pyRound x : ℚ) - x| ≤ 1 / 2 := by
  unfold pyRound
  have h1 := Int.floor_le x
  have h2 := Int.lt_floor_add_one x
  rw [abs_le]
  simp only
  split
  · constructor <;> linarith
  · split
    · push_cast; constructor <;> linarith
    · split
      · constructor <;> linarith
      · push_cast; constructor <;> linarith

/-- Re-encoding a decoded field gives the same bits. -/
theorem reencode (b : BitBuf) (i n : Nat) (scl : ℚ) (hs : scl ≠ 0) (y : Val)
    (hn : 0 < n) (h : readVal sval b i n scl = .ok y) : writeVal b i n scl y = .ok b := by
  unfold readVal readS at h
  cases hu : readU b i n with
  | error e => rw [hu] at h; cases h
  | ok u =>
    rw [hu] at h
    have hlt := readU_lt hu
    have hr := toSigned_range n u hn hlt
    have hy : ival y n scl = toSigned n u := by
      simp only [Except.ok.injEq] at h
      subst h
      unfold sval
      split
      · rename_i h; simp only [ival]; omega
      · simp only [ival]
        rw [mul_div_cancel_right₀ _ hs, pyRound_int]
    unfold writeVal writeS
    rw [hy, if_pos ⟨hn, hr.1, hr.2⟩, ofSigned_toSigned n u hn hlt]
    unfold writeU
    have hle : i + n ≤ b.length := readU_ok_iff.1 ⟨u, hu⟩
    rw [if_pos hlt, if_pos hle]
    congr 1
    unfold readU at hu
    rw [if_pos hle] at hu
    cases hu
    have hlen : ((b.drop i).take n).length = n := by simp; omega
    have : natToBits n (bitsToNat ((b.drop i).take n)) = (b.drop i).take n := by
      have := natToBits_bitsToNat ((b.drop i).take n)
      rwa [hlen] at this
    rw [this]
    unfold splice
    rw [hlen, ← List.drop_drop, List.append_assoc, List.take_append_drop, List.take_append_drop]

/-- A written value reads back within half a unit, unless its code is the reserved one, in which
case it reads back as "not available"; "not available" reads back as "not available". -/
theorem decode_encode {b b' : BitBuf} {i n : Nat} {scl : ℚ} (hs : 0 < scl) {y : Val}
    (h : writeVal b i n scl y = .ok b') :
    match y with
    | none => readVal sval b' i n scl = .ok none
    | some y => (∃ z, readVal sval b' i n scl = .ok (some z) ∧ |z - y| ≤ scl / 2) ∨
        (readVal sval b' i n scl = .ok none ∧ |(-2 ^ (n - 1) : ℚ) * scl - y| ≤ scl / 2) := by
  have hr : readVal sval b' i n scl = .ok (sval (ival y n scl) n scl) := by
    unfold readVal
    rw [readS_writeS h]
  cases y with
  | none => simp only; rw [hr]; simp [sval, ival]
  | some y =>
    simp only
    rw [hr]
    have hc := pyRound_close (y / scl)
    have hcl : ∀ z : Int, z = pyRound (y / scl) → |(z : ℚ) * scl - y| ≤ scl / 2 := by
      intro z hz
      have e : (z : ℚ) * scl - y = ((z : ℚ) - y / scl) * scl := by field_simp
      rw [e, abs_mul, abs_of_pos hs, hz]
      nlinarith
    by_cases hm : pyRound (y / scl) = -2 ^ (n - 1)
    · right
      refine ⟨by simp [sval, ival, hm], ?_⟩
      have := hcl _ hm.symm
      simpa using this
    · left
      exact ⟨(pyRound (y / scl) : ℚ) * scl, by simp [sval, ival, hm], hcl _ rfl⟩

/-- A value whose rounded quotient does not fit the field raises: it is never wrapped. -/
theorem encode_raises (b : BitBuf) (i n : Nat) (scl y : ℚ) (hs : 0 < scl)
    (h : y < (-2 ^ (n - 1) - 1) * scl ∨ (2 ^ (n - 1) : ℚ) * scl ≤ y) :
    writeVal b i n scl (some y) = .error .bitstruct := by
  unfold writeVal writeS
  rw [if_neg]
  rintro ⟨hn, h1, h2⟩
  simp only [ival] at h1 h2
  have hc := abs_le.1 (pyRound_close (y / scl))
  have h1' : (-(2 ^ (n - 1)) : ℚ) ≤ (pyRound (y / scl) : ℚ) := by exact_mod_cast h1
  have h2' : (pyRound (y / scl) : ℚ) ≤ 2 ^ (n - 1) - 1 := by
    have : pyRound (y / scl) ≤ 2 ^ (n - 1) - 1 := by omega
    exact_mod_cast this
  rcases h with h | h
  · have : y / scl < -2 ^ (n - 1) - 1 := by rw [div_lt_iff₀ hs]; exact h
    linarith
  · have : (2 ^ (n - 1) : ℚ) ≤ y / scl := by rw [le_div_iff₀ hs]; exact h
    linarith

/-- The converse: every in-range value is accepted when the field lies inside the buffer. -/
theorem encode_ok (b : BitBuf) (i n : Nat) (scl y : ℚ) (hn : 0 < n) (hi : i + n ≤ b.length)
    (hs : 0 < scl) (h1 : -2 ^ (n - 1) * scl ≤ y) (h2 : y ≤ (2 ^ (n - 1) - 1) * scl) :
    ∃ b', writeVal b i n scl (some y) = .ok b' := by
  unfold writeVal writeS
  have hc := abs_le.1 (pyRound_close (y / scl))
  have h1' : (-2 ^ (n - 1) : ℚ) ≤ y / scl := by rw [le_div_iff₀ hs]; exact h1
  have h2' : y / scl ≤ 2 ^ (n - 1) - 1 := by rw [div_le_iff₀ hs]; exact h2
  have g1 : (-(2 ^ (n - 1)) : Int) ≤ pyRound (y / scl) := by
    by_contra hc2
    have : pyRound (y / scl) ≤ -(2 ^ (n - 1)) - 1 := by omega
    have : (pyRound (y / scl) : ℚ) ≤ -(2 ^ (n - 1)) - 1 := by exact_mod_cast this
    linarith
  have g2 : pyRound (y / scl) < 2 ^ (n - 1) := by
    by_contra hc2
    have : (2 ^ (n - 1) : Int) ≤ pyRound (y / scl) := by omega
    have : (2 ^ (n - 1) : ℚ) ≤ pyRound (y / scl) := by exact_mod_cast this
    linarith
  have e : ival (some y) n scl = pyRound (y / scl) := rfl
  rw [if_pos (by rw [e]; exact ⟨hn, g1, g2⟩)]
  unfold writeU
  rw [if_pos (ofSigned_lt _ _), if_pos hi]
  exact ⟨_, rfl⟩

/-- the 15-bit Compact SSR clock field: `100…0` is "not available", `1…1` is minus one unit -/
example : readVal sval (minPat 15) 0 15 (16 / 10000) = .ok none := by
  have h := sval_spec [] (minPat 15) [] (by decide) (16 / 10000)
  rw [minPat_length (by decide), if_pos rfl] at h
  exact h
example : writeVal (List.replicate 22 false) 0 22 (1 / 10000) (some 300) = .error .bitstruct :=
  encode_raises _ _ _ _ _ (by norm_num) (Or.inr (by norm_num))

end Verif.C13
