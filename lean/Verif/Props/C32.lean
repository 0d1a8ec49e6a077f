import Verif.Lemmas.Crc
import Verif.Lemmas.Post
/-!
# C32 RTCM frame corruption is detected
-/

namespace Verif.C32
open Verif.RtcmFrame

/-- bit `i` of a buffer, most significant bit of each byte first -/
def bit (m : List Byte) (i : Nat) : Bool := (m.getD (i / 8) 0).getMsbD (i % 8)

/-- the ten-bit length field of the frame at `k` -/
def lenField (m : List Byte) (k : Nat) : Nat :=
  ((m.getD (k + 1) 0).toNat * 256 + (m.getD (k + 2) 0).toNat) % 1024

/-- bit `i` belongs to the frame of length `len` at `k` -/
def InFrame (k len i : Nat) : Prop := 8 * k ≤ i ∧ i < 8 * (k + len + 6)

/-- the altered bits of the frame -/
def errs (m m' : List Byte) (k len : Nat) : List Bool :=
  List.zipWith xor (bitsOf ((m.drop k).take (len + 6))) (bitsOf ((m'.drop k).take (len + 6)))

theorem frame_length {m : List Byte} {k len : Nat} (h : k + len + 6 ≤ m.length) :
    ((m.drop k).take (len + 6)).length = len + 6 := by
  rw [List.length_take, List.length_drop]; omega

theorem errs_get {m m' : List Byte} {k len : Nat} (h : k + len + 6 ≤ m.length)
    (h' : k + len + 6 ≤ m'.length) {i : Nat} (hi : i < 8 * (len + 6)) :
    (errs m m' k len)[i]? = some (bit m (8 * k + i) ^^ bit m' (8 * k + i)) := by
  have key : ∀ m : List Byte, k + len + 6 ≤ m.length →
      (bitsOf ((m.drop k).take (len + 6)))[i]? = some (bit m (8 * k + i)) := by
    intro m h
    rw [bitsOf_getElem? _ _ (by rw [frame_length h]; exact hi)]
    unfold bit
    rw [show (8 * k + i) / 8 = k + i / 8 by omega, show (8 * k + i) % 8 = i % 8 by omega,
      List.getD_eq_getElem?_getD, List.getElem?_take, if_pos (by omega), List.getElem?_drop,
      ← List.getD_eq_getElem?_getD]
  unfold errs
  rw [List.getElem?_zipWith, key m h, key m' h']

theorem errs_length {m m' : List Byte} {k len : Nat} (h : k + len + 6 ≤ m.length)
    (h' : k + len + 6 ≤ m'.length) : (errs m m' k len).length = 8 * (len + 6) := by
  unfold errs
  rw [List.length_zipWith, bitsOf_length, bitsOf_length, frame_length h, frame_length h', Nat.min_self]

theorem errs_true {m m' : List Byte} {k len : Nat} (h : k + len + 6 ≤ m.length)
    (h' : k + len + 6 ≤ m'.length) (i : Nat) :
    (errs m m' k len)[i]? = some true ↔ InFrame k len (8 * k + i) ∧ bit m (8 * k + i) ≠ bit m' (8 * k + i) := by
  unfold InFrame
  by_cases hi : i < 8 * (len + 6)
  · rw [errs_get h h' hi]
    have : 8 * k ≤ 8 * k + i ∧ 8 * k + i < 8 * (k + len + 6) := by omega
    simp only [this, true_and, Option.some.injEq]
    cases bit m (8 * k + i) <;> cases bit m' (8 * k + i) <;> simp
  · rw [List.getElem?_eq_none (by rw [errs_length h h']; omega)]
    constructor
    · intro h; cases h
    · intro h; omega

/-- the verdict on the altered frame -/
theorem verdict {m m' : List Byte} {k len maxlen : Nat}
    (hacc : checksum m k maxlen = .ok (true, some len)) (hl : m'.length = m.length)
    (hc : k + len + 6 ≤ m.length) (hf : lenField m' k = lenField m k) :
    checksum m' k maxlen = .ok (runBits 0 (errs m m' k len) == 0, some len) := by
  unfold checksum u16 at hacc ⊢
  rw [if_pos (by omega)] at hacc ⊢
  simp only [Py.okBind] at hacc ⊢
  change (if lenField m k < 6 then _ else if maxlen > 0 ∧ k + lenField m k ≥ maxlen then _ else
        (Except.ok (crc24 ((m.drop k).take (lenField m k + 6)) == 0, some (lenField m k)) : Py _)) = _ at hacc
  show (if lenField m' k < 6 then _ else if maxlen > 0 ∧ k + lenField m' k ≥ maxlen then _ else
        (Except.ok (crc24 ((m'.drop k).take (lenField m' k + 6)) == 0, some (lenField m' k)) : Py _)) = _
  rw [hf]
  by_cases c1 : lenField m k < 6
  · rw [if_pos c1] at hacc; cases hacc
  · rw [if_neg c1] at hacc ⊢
    by_cases c2 : maxlen > 0 ∧ k + lenField m k ≥ maxlen
    · rw [if_pos c2] at hacc; cases hacc
    · rw [if_neg c2] at hacc ⊢
      simp only [Except.ok.injEq, Prod.mk.injEq, Option.some.injEq] at hacc
      obtain ⟨hz, hlen⟩ := hacc
      rw [hlen] at hz ⊢
      have hz0 : crc24 ((m.drop k).take (len + 6)) = 0 := by simpa using hz
      have hx := runBits_xor (bitsOf ((m.drop k).take (len + 6))) (bitsOf ((m'.drop k).take (len + 6))) 0 0
        (by rw [bitsOf_length, bitsOf_length, frame_length hc, frame_length (by omega)])
      rw [← crc24_bits, ← crc24_bits, hz0] at hx
      have : runBits 0 (errs m m' k len) = crc24 ((m'.drop k).take (len + 6)) := by
        have e : ((0 : Reg) ^^^ 0) = 0 := by decide
        rw [e] at hx
        unfold errs
        rw [hx]
        exact BitVec.zero_xor
      rw [this]

/-- **Bursts.**  Altering a frame within at most 24 consecutive bits is detected -/
theorem burst_detected {m m' : List Byte} {k len maxlen p w : Nat}
    (hacc : checksum m k maxlen = .ok (true, some len)) (hl : m'.length = m.length)
    (hc : k + len + 6 ≤ m.length) (hf : lenField m' k = lenField m k) (hw : w ≤ 24)
    (hin : ∀ i, InFrame k len i → bit m i ≠ bit m' i → p ≤ i ∧ i < p + w)
    (hne : ∃ i, InFrame k len i ∧ bit m i ≠ bit m' i) :
    checksum m' k maxlen = .ok (false, some len) := by
  rw [verdict hacc hl hc hf]
  have : runBits 0 (errs m m' k len) ≠ 0 := by
    refine run_burst (p := p - 8 * k) (w := p + w - 8 * k - (p - 8 * k)) (by omega) (fun i hi => ?_) ?_
    · rw [errs_true hc (by omega)] at hi
      have := hin _ hi.1 hi.2
      omega
    · obtain ⟨i, h1, h2⟩ := hne
      have hi := h1.1
      refine ⟨i - 8 * k, ?_⟩
      rw [errs_true hc (by omega), show 8 * k + (i - 8 * k) = i by omega]
      exact ⟨h1, h2⟩
  have h : (runBits 0 (errs m m' k len) == 0) = false := by simpa using this
  rw [h]

/-- a single altered bit is detected -/
theorem single_detected {m m' : List Byte} {k len maxlen p : Nat}
    (hacc : checksum m k maxlen = .ok (true, some len)) (hl : m'.length = m.length)
    (hc : k + len + 6 ≤ m.length) (hf : lenField m' k = lenField m k) (hp : InFrame k len p)
    (hd : ∀ i, InFrame k len i → (bit m i ≠ bit m' i ↔ i = p)) :
    checksum m' k maxlen = .ok (false, some len) :=
  burst_detected hacc hl hc hf (p := p) (w := 1) (by omega)
    (fun i hi h => by have := (hd i hi).1 h; omega) ⟨p, hp, (hd p hp).2 rfl⟩

/-- **Two bits** anywhere in a frame of any length are detected -/
theorem double_detected {m m' : List Byte} {k len maxlen p q : Nat}
    (hacc : checksum m k maxlen = .ok (true, some len)) (hl : m'.length = m.length)
    (hc : k + len + 6 ≤ m.length) (hf : lenField m' k = lenField m k) (hpq : p < q)
    (hp : InFrame k len p) (hq : InFrame k len q)
    (hd : ∀ i, InFrame k len i → (bit m i ≠ bit m' i ↔ i = p ∨ i = q)) :
    checksum m' k maxlen = .ok (false, some len) := by
  have hlen : len < 1024 := by
    have : lenField m k < 1024 := Nat.mod_lt _ (by omega)
    unfold checksum u16 at hacc
    rw [if_pos (by omega)] at hacc
    simp only [Py.okBind] at hacc
    change (if lenField m k < 6 then _ else if maxlen > 0 ∧ k + lenField m k ≥ maxlen then _ else
        (Except.ok (crc24 ((m.drop k).take (lenField m k + 6)) == 0, some (lenField m k)) : Py _)) = _ at hacc
    split at hacc
    · cases hacc
    · split at hacc
      · cases hacc
      · simp only [Except.ok.injEq, Prod.mk.injEq, Option.some.injEq] at hacc
        omega
  rw [verdict hacc hl hc hf]
  have : runBits 0 (errs m m' k len) ≠ 0 := by
    have g1 := hp.1; have g2 := hp.2; have g3 := hq.1; have g4 := hq.2
    refine run_two (i := p - 8 * k) (j := q - 8 * k) (by omega) (by omega) fun l => ?_
    rw [errs_true hc (by omega)]
    constructor
    · rintro ⟨h1, h2⟩
      have := (hd _ h1).1 h2
      omega
    · intro h
      have h1 : InFrame k len (8 * k + l) := by
        unfold InFrame; rcases h with e | e <;> omega
      exact ⟨h1, (hd _ h1).2 (by omega)⟩
  have h : (runBits 0 (errs m m' k len) == 0) = false := by simpa using this
  rw [h]

/-- the number of altered bits of the frame is odd -/
def OddErrors (m m' : List Byte) (k len : Nat) : Prop :=
  (((List.range (8 * (len + 6))).map fun i => bit m (8 * k + i) ^^ bit m' (8 * k + i)).count true) % 2 = 1

theorem parity_count : ∀ l : List Bool, parity l = decide (l.count true % 2 = 1)
  | [] => rfl
  | b :: l => by
    unfold parity
    rw [parity_count l, List.count_cons]
    have h2 : List.count true l % 2 = 0 ∨ List.count true l % 2 = 1 := by omega
    cases b
    · simp
    · rcases h2 with e | e
      · rw [e]; simp; omega
      · rw [e]; simp; omega

/-- **Odd numbers of altered bits** are detected -/
theorem odd_detected {m m' : List Byte} {k len maxlen : Nat}
    (hacc : checksum m k maxlen = .ok (true, some len)) (hl : m'.length = m.length)
    (hc : k + len + 6 ≤ m.length) (hf : lenField m' k = lenField m k) (ho : OddErrors m m' k len) :
    checksum m' k maxlen = .ok (false, some len) := by
  rw [verdict hacc hl hc hf]
  have e : errs m m' k len =
      (List.range (8 * (len + 6))).map fun i => bit m (8 * k + i) ^^ bit m' (8 * k + i) := by
    apply List.ext_getElem?
    intro i
    by_cases hi : i < 8 * (len + 6)
    · rw [errs_get hc (by omega) hi, List.getElem?_map, List.getElem?_range hi]; rfl
    · rw [List.getElem?_eq_none (by rw [errs_length hc (by omega)]; omega),
        List.getElem?_eq_none (by rw [List.length_map, List.length_range]; omega)]
  have : runBits 0 (errs m m' k len) ≠ 0 := by
    refine run_odd ?_
    rw [parity_count, e]
    unfold OddErrors at ho
    simpa using ho
  have h : (runBits 0 (errs m m' k len) == 0) = false := by simpa using this
  rw [h]

/-! ## Concrete cases -/

def exFrame : List Byte := [0xd3, 0x00, 0x06, 0x41, 0x22, 0x33, 0x44, 0x55, 0x66, 0x34, 0x97, 0xec]

/-- a valid frame … -/
example : checksum exFrame 0 = .ok (true, some 6) ∧ 0 + 6 + 6 ≤ exFrame.length := by decide +kernel

/-- … and an altered one meeting the hypotheses -/
example : let m' := exFrame.set 4 0x2a
    m'.length = exFrame.length ∧ lenField m' 0 = lenField exFrame 0 ∧
    (∀ i, i < 96 → (bit exFrame i ≠ bit m' i ↔ i = 36)) ∧ checksum m' 0 = .ok (false, some 6) := by
  decide +kernel

/-- a burst of 25 bits can go unnoticed -/
example : ∃ m', m'.length = exFrame.length ∧ lenField m' 0 = lenField exFrame 0 ∧ m' ≠ exFrame ∧
    checksum m' 0 = .ok (true, some 6) ∧
    ∀ i, i < 96 → bit exFrame i ≠ bit m' i → 24 ≤ i ∧ i < 49 := by
  refine ⟨[0xd3, 0x00, 0x06, 0x82, 0x04, 0x4e, 0xc4, 0x55, 0x66, 0x34, 0x97, 0xec], ?_⟩
  decide +kernel

end Verif.C32
