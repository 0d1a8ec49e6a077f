import Verif.Model.Rawnav
import Verif.Lemmas.At
import Verif.Lemmas.Post
import Mathlib.Tactic.Ring
/-!
# C36 Split navigation fields are reassembled correctly
-/

namespace Verif.C36
open Verif.Rawnav

/-! ## Specification -/

/-- the `l` bits at position `p` -/
def field (b : BitBuf) (p l : Nat) : List Bool := (b.drop p).take l

/-- `v` is the number whose `n`-bit two's-complement code is `bits` -/
def TwosCompl (bits : List Bool) (v : Int) : Prop :=
  -(2 ^ (bits.length - 1) : Int) ≤ v ∧ v < 2 ^ (bits.length - 1) ∧
    (2 ^ bits.length : Int) ∣ v - (bitsToNat bits : Int)

/-- two's complement determines the number -/
theorem TwosCompl.unique {bits : List Bool} (h : bits ≠ []) {v w : Int} (hv : TwosCompl bits v)
    (hw : TwosCompl bits w) : v = w := by
  obtain ⟨a1, a2, k1, a3⟩ := hv
  obtain ⟨b1, b2, k2, b3⟩ := hw
  obtain ⟨n, hn⟩ : ∃ n, bits.length = n + 1 := ⟨bits.length - 1, by
    have := List.length_pos_of_ne_nil h; omega⟩
  rw [hn] at a1 a2 a3 b1 b2 b3
  simp only [Nat.add_sub_cancel] at a1 a2 b1 b2
  have hp : (2 : Int) ^ (n + 1) = 2 * 2 ^ n := by ring
  rw [hp] at a3 b3
  generalize (2 : Int) ^ n = P at *
  have e : v - w = 2 * P * (k1 - k2) := by rw [Int.mul_sub]; omega
  rcases lt_trichotomy (k1 - k2) 0 with h' | h' | h'
  · have : 2 * P * (k1 - k2) ≤ 2 * P * (-1) := Int.mul_le_mul_of_nonneg_left (by omega) (by omega)
    omega
  · rw [h'] at e; omega
  · have : 2 * P * 1 ≤ 2 * P * (k1 - k2) := Int.mul_le_mul_of_nonneg_left (by omega) (by omega)
    omega

theorem twosCompl_toSigned (bits : List Bool) (h : bits ≠ []) :
    TwosCompl bits (toSigned bits.length (bitsToNat bits)) := by
  have hl := List.length_pos_of_ne_nil h
  have hr := toSigned_range bits.length (bitsToNat bits) hl (bitsToNat_lt bits)
  refine ⟨hr.1, hr.2, ?_⟩
  unfold toSigned
  rw [if_neg (by omega)]
  by_cases c : bitsToNat bits < 2 ^ (bits.length - 1)
  · rw [if_pos c]; simp
  · rw [if_neg c]
    exact ⟨-1, by ring⟩

theorem field_length {b : BitBuf} {p l : Nat} (h : p + l ≤ b.length) : (field b p l).length = l := by
  unfold field; rw [List.length_take, List.length_drop]; omega

theorem readU_field {b : BitBuf} {p l : Nat} (h : p + l ≤ b.length) :
    readU b p l = .ok (bitsToNat (field b p l)) := by
  unfold readU; rw [if_pos h]; rfl

theorem readS_field {b : BitBuf} {p l : Nat} (h : p + l ≤ b.length) :
    readS b p l = .ok (toSigned l (bitsToNat (field b p l))) := by
  unfold readS; rw [readU_field h]

/-- **Unsigned, two parts.** -/
theorem getbitu2_value (b : BitBuf) (p1 l1 p2 l2 : Nat) (h1 : p1 + l1 ≤ b.length) (h2 : p2 + l2 ≤ b.length) :
    getbitu2 b p1 l1 p2 l2 = .ok (bitsToNat (field b p1 l1 ++ field b p2 l2) : Int) := by
  unfold getbitu2
  rw [readU_field h1, Py.okBind, readU_field h2, Py.okBind, bitsToNat_append, field_length h2]
  push_cast
  rfl

/-- **Unsigned, three parts.** -/
theorem getbitu3_value (b : BitBuf) (p1 l1 p2 l2 p3 l3 : Nat) (h1 : p1 + l1 ≤ b.length)
    (h2 : p2 + l2 ≤ b.length) (h3 : p3 + l3 ≤ b.length) :
    getbitu3 b p1 l1 p2 l2 p3 l3 =
      .ok (bitsToNat (field b p1 l1 ++ field b p2 l2 ++ field b p3 l3) : Int) := by
  unfold getbitu3
  rw [readU_field h1, Py.okBind, readU_field h2, Py.okBind, readU_field h3, Py.okBind, bitsToNat_append,
    bitsToNat_append, field_length h2, field_length h3]
  push_cast
  simp only [pure, Except.pure]
  congr 1
  ring

/-- sign extension of a longer pattern by its leading part -/
theorem toSigned_append {f g : List Bool} (hf : f ≠ []) :
    toSigned f.length (bitsToNat f) * 2 ^ g.length + (bitsToNat g : Int) =
      toSigned (f.length + g.length) (bitsToNat (f ++ g)) := by
  have hl := List.length_pos_of_ne_nil hf
  have e1 := (twosCompl_toSigned f hf)
  have e2 := (twosCompl_toSigned (f ++ g) (by simp [hf]))
  rw [List.length_append] at e2
  refine TwosCompl.unique (bits := f ++ g) (by simp [hf]) ?_ e2
  obtain ⟨a1, a2, k, a3⟩ := e1
  have hg : (bitsToNat g : Int) < 2 ^ g.length := by exact_mod_cast bitsToNat_lt g
  have hpow : (2 : Int) ^ ((f ++ g).length - 1) = 2 ^ (f.length - 1) * 2 ^ g.length := by
    rw [← pow_add, List.length_append]; congr 1; omega
  have hP : (0 : Int) < 2 ^ g.length := by positivity
  unfold TwosCompl
  rw [hpow]
  refine ⟨?_, ?_, k, ?_⟩
  · have : -2 ^ (f.length - 1) * 2 ^ g.length ≤ toSigned f.length (bitsToNat f) * (2 : Int) ^ g.length :=
      Int.mul_le_mul_of_nonneg_right a1 hP.le
    have h0 : (0 : Int) ≤ bitsToNat g := by positivity
    rw [Int.neg_mul] at this
    omega
  · have : (toSigned f.length (bitsToNat f) + 1) * (2 : Int) ^ g.length ≤ 2 ^ (f.length - 1) * 2 ^ g.length :=
      Int.mul_le_mul_of_nonneg_right (by omega) hP.le
    rw [Int.add_mul] at this
    omega
  · rw [bitsToNat_append, List.length_append, pow_add]
    have : toSigned f.length (bitsToNat f) = (bitsToNat f : Int) + 2 ^ f.length * k := by omega
    rw [this]
    push_cast
    ring

theorem sign_zero {f : List Bool} (h : f.head? = some false) :
    toSigned f.length (bitsToNat f) = bitsToNat f := by
  cases f with
  | nil => cases h
  | cons a f =>
    simp only [List.head?_cons, Option.some.injEq] at h
    subst h
    have := bitsToNat_lt f
    unfold toSigned
    rw [if_neg (by simp), if_pos]
    simp only [bitsToNat, Bool.toNat_false, zero_mul, zero_add, List.length_cons, Nat.add_sub_cancel]
    exact this

theorem first_bit {b : BitBuf} {p l : Nat} (h : p + l ≤ b.length) (hl : 1 ≤ l) :
    ∃ s, readU b p 1 = .ok (Bool.toNat s) ∧ (field b p l).head? = some s := by
  have h1 : p < b.length := by omega
  refine ⟨b[p], ?_, ?_⟩
  · rw [readU_field (by omega)]
    unfold field
    rw [List.drop_eq_getElem_cons h1, List.take_succ_cons, List.take_zero]
    simp only [bitsToNat, List.length_nil, pow_zero, mul_one, add_zero]
  · unfold field
    obtain ⟨l', rfl⟩ : ∃ l', l = l' + 1 := ⟨l - 1, by omega⟩
    rw [List.drop_eq_getElem_cons h1, List.take_succ_cons, List.head?_cons]

/-- **Signed, two parts**: the two's-complement value of the concatenation. -/
theorem getbits2_value (b : BitBuf) (p1 l1 p2 l2 : Nat) (h1 : p1 + l1 ≤ b.length) (h2 : p2 + l2 ≤ b.length)
    (hl : 1 ≤ l1) : ∃ v, getbits2 b p1 l1 p2 l2 = .ok v ∧ TwosCompl (field b p1 l1 ++ field b p2 l2) v := by
  have hne : field b p1 l1 ≠ [] := by
    intro h; have := field_length h1; rw [h] at this; simp at this; omega
  refine ⟨toSigned (l1 + l2) (bitsToNat (field b p1 l1 ++ field b p2 l2)), ?_, ?_⟩
  · obtain ⟨s, hs, hh⟩ := first_bit h1 hl
    have ta := toSigned_append (g := field b p2 l2) hne
    rw [field_length h1, field_length h2] at ta
    unfold getbits2
    rw [hs, Py.okBind]
    cases s with
    | true =>
      rw [if_pos (by decide), readS_field h1, Py.okBind, readU_field h2, Py.okBind]
      simp only [pure, Except.pure]
      rw [ta]
    | false =>
      rw [if_neg (by decide), getbitu2_value b p1 l1 p2 l2 h1 h2, ← ta]
      have := sign_zero hh
      rw [field_length h1] at this
      rw [this, bitsToNat_append, field_length h2]
      push_cast
      rfl
  · have := twosCompl_toSigned (field b p1 l1 ++ field b p2 l2) (by simp [hne])
    rwa [List.length_append, field_length h1, field_length h2] at this

/-- **Signed, three parts.** -/
theorem getbits3_value (b : BitBuf) (p1 l1 p2 l2 p3 l3 : Nat) (h1 : p1 + l1 ≤ b.length)
    (h2 : p2 + l2 ≤ b.length) (h3 : p3 + l3 ≤ b.length) (hl : 1 ≤ l1) :
    ∃ v, getbits3 b p1 l1 p2 l2 p3 l3 = .ok v ∧
      TwosCompl (field b p1 l1 ++ field b p2 l2 ++ field b p3 l3) v := by
  have hne : field b p1 l1 ≠ [] := by
    intro h; have := field_length h1; rw [h] at this; simp at this; omega
  refine ⟨toSigned (l1 + (l2 + l3)) (bitsToNat (field b p1 l1 ++ (field b p2 l2 ++ field b p3 l3))), ?_, ?_⟩
  · obtain ⟨s, hs, hh⟩ := first_bit h1 hl
    have ta := toSigned_append (g := field b p2 l2 ++ field b p3 l3) hne
    rw [List.length_append, field_length h1, field_length h2, field_length h3] at ta
    unfold getbits3
    rw [hs, Py.okBind]
    cases s with
    | true =>
      rw [if_pos (by decide), readS_field h1, Py.okBind, readU_field h2, Py.okBind, readU_field h3, Py.okBind]
      simp only [pure, Except.pure]
      rw [← ta, bitsToNat_append (field b p2 l2), field_length h3]
      push_cast
      congr 1
      ring
    | false =>
      rw [if_neg (by decide), getbitu3_value b p1 l1 p2 l2 p3 l3 h1 h2 h3, ← ta]
      have := sign_zero hh
      rw [field_length h1] at this
      rw [this, List.append_assoc, bitsToNat_append, List.length_append, field_length h2, field_length h3]
      push_cast
      rfl
  · have := twosCompl_toSigned (field b p1 l1 ++ (field b p2 l2 ++ field b p3 l3)) (by simp [hne])
    rw [List.length_append, List.length_append, field_length h1, field_length h2, field_length h3] at this
    rw [List.append_assoc]
    exact this

/-- **Sign and magnitude** (GLONASS): the first bit is the sign, the rest the magnitude. -/
theorem getbitg_value (b : BitBuf) (p l : Nat) (h : p + l ≤ b.length) (hl : 2 ≤ l) :
    ∃ s m, field b p l = s :: m ∧
      getbitg b p l = .ok (if s = true then -(bitsToNat m : Int) else bitsToNat m) := by
  have h1 : p < b.length := by omega
  obtain ⟨l', rfl⟩ : ∃ l', l = l' + 1 := ⟨l - 1, by omega⟩
  have e : field b p (l' + 1) = b[p] :: field b (p + 1) l' := by
    unfold field
    rw [List.drop_eq_getElem_cons h1, List.take_succ_cons]
  refine ⟨b[p], field b (p + 1) l', e, ?_⟩
  unfold getbitg
  rw [readU_field (by omega), Py.okBind, readU_field (by omega), Py.okBind]
  have : field b p 1 = [b[p]] := by 
    unfold field; rw [List.drop_eq_getElem_cons h1, List.take_succ_cons, List.take_zero]
  rw [this]
  simp only [Nat.add_sub_cancel, pure, Except.pure]
  cases b[p] <;> simp [bitsToNat]

/-- **Reinterpretation**: `u2s` turns an unsigned field value into its two's-complement value. -/
theorem u2s_value (bits : List Bool) (h : bits ≠ []) :
    TwosCompl bits (u2s (bitsToNat bits) bits.length) := by
  have hl := List.length_pos_of_ne_nil h
  have hb := bitsToNat_lt bits
  have := twosCompl_toSigned bits h
  have e : u2s (bitsToNat bits) bits.length = toSigned bits.length (bitsToNat bits) := by
    unfold u2s toSigned
    rw [if_neg (show ¬bits.length = 0 by omega), Int.toNat_natCast]
    obtain ⟨n, hn⟩ : ∃ n, bits.length = n + 1 := ⟨bits.length - 1, by omega⟩
    rw [hn] at hb ⊢
    rw [Nat.pow_succ] at hb
    simp only [Nat.add_sub_cancel]
    have hP : 0 < 2 ^ n := by positivity
    by_cases c : bitsToNat bits < 2 ^ n
    · rw [if_pos c, if_neg]
      rw [Nat.div_eq_of_lt c]; decide
    · rw [if_neg c, if_pos]
      have : bitsToNat bits / 2 ^ n = 1 := by
        apply Nat.div_eq_of_lt_le <;> omega
      rw [this]
  rwa [e]

/-- out-of-range positions raise -/
theorem getbit_raises (b : BitBuf) (p1 l1 p2 l2 : Nat)
    (h : b.length < p1 + l1 ∨ b.length < p2 + l2) :
    getbitu2 b p1 l1 p2 l2 = .error .bitstruct ∧ getbits2 b p1 l1 p2 l2 = .error .bitstruct := by
  have hu : getbitu2 b p1 l1 p2 l2 = .error .bitstruct := by
    unfold getbitu2
    by_cases c : p1 + l1 ≤ b.length
    · rw [readU_field c, Py.okBind]
      unfold readU
      rw [if_neg (by omega)]; rfl
    · unfold readU
      rw [if_neg c]; rfl
  refine ⟨hu, ?_⟩
  unfold getbits2
  by_cases c0 : p1 + 1 ≤ b.length
  · rw [readU_field c0, Py.okBind]
    by_cases c1 : bitsToNat (field b p1 1) ≠ 0
    · rw [if_pos c1]
      by_cases c : p1 + l1 ≤ b.length
      · rw [readS_field c, Py.okBind]
        unfold readU
        rw [if_neg (by omega)]; rfl
      · unfold readS readU
        rw [if_neg c]; rfl
    · rw [if_neg c1, hu]
  · unfold readU
    rw [if_neg c0]; rfl

/-! ## Cases meeting the hypotheses -/

/-- −3 split as `11` and `101` with other bits between -/
example : getbits2 [true, true, false, false, true, false, true] 0 2 4 3 = .ok (-3) := by decide
example : getbitu3 [true, false, false, true, true] 0 1 2 1 3 2 = .ok 11 := by decide
example : getbitg [true, false, true, true] 0 4 = .ok (-3) := by decide
example : u2s 13 4 = -3 := by decide

end Verif.C36
