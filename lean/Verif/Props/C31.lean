import Verif.Lemmas.Crc
import Verif.Lemmas.Post
import Mathlib.Data.List.GetD
/-!
# C31 RTCM frame checksum round-trip
-/

namespace Verif.C31
open Verif.RtcmFrame

/-- the steps of the encoder: sync byte, length, body, checksum -/
def frame (msg buff : List Byte) (k len maxlen : Nat) : Py (List Byte × Option Nat) := do
  let m ← setSync msg k
  let (m, l) ← setLen m k len
  setChecksum (setBody m buff k len) l k maxlen

theorem getD_set_ne {l : List Byte} {i j : Nat} {v : Byte} (h : j ≠ i) :
    (l.set i v).getD j 0 = l.getD j 0 := by
  rw [List.getD_eq_getElem?_getD, List.getD_eq_getElem?_getD, List.getElem?_set_ne (Ne.symm h)]

theorem getD_set_self {l : List Byte} {i : Nat} {v : Byte} (h : i < l.length) :
    (l.set i v).getD i 0 = v := by
  rw [List.getD_eq_getElem?_getD, List.getElem?_set_self h]; rfl

theorem byte_of {n : Nat} (h : n < 256) : (BitVec.ofNat 8 n).toNat = n := by
  rw [BitVec.toNat_ofNat]; exact Nat.mod_eq_of_lt h

/-- setting the length writes exactly the two length bytes -/
theorem setLen_spec {msg : List Byte} {k len : Nat} (hb : k + 3 ≤ msg.length) :
    ∃ m, setLen msg k len = .ok (m, len) ∧ m.length = msg.length ∧
      (m.getD (k + 1) 0).toNat * 256 + (m.getD (k + 2) 0).toNat = len % 1024 ∧
      ∀ i, i ≠ k + 1 → i ≠ k + 2 → m.getD i 0 = msg.getD i 0 := by
  unfold setLen putH
  rw [if_pos (by omega)]
  refine ⟨_, rfl, by rw [List.length_set, List.length_set], ?_, fun i h1 h2 => ?_⟩
  · rw [getD_set_ne (by omega), getD_set_self (by omega),
      getD_set_self (by rw [List.length_set]; omega), byte_of (by omega), byte_of (by omega)]
    omega
  · rw [getD_set_ne h2, getD_set_ne h1]

/-- the three bytes written by `set_checksum` -/
theorem setChecksum_spec {msg : List Byte} {k len maxlen : Nat} (h6 : 6 ≤ len)
    (hb : k + len + 6 ≤ msg.length) (hm : maxlen = 0 ∨ k + len < maxlen) :
    ∃ m cs, setChecksum msg len k maxlen = .ok (m, some cs) ∧ m.length = msg.length ∧
      (m.drop k).take (len + 6) = (msg.drop k).take (len + 3) ++ tail3 (crc24 ((msg.drop k).take (len + 3))) ∧
      ∀ i, i < k + len + 3 ∨ k + len + 6 ≤ i → m.getD i 0 = msg.getD i 0 := by
  unfold setChecksum
  rw [if_neg (by omega), if_neg (by omega)]
  generalize crc24 ((msg.drop k).take (len + 3)) = c
  have hc : c.toNat < 2 ^ 24 := c.isLt
  simp only [putH]
  rw [if_pos (by omega)]
  simp only [Py.okBind, putB]
  rw [if_pos (by rw [List.length_set, List.length_set]; omega)]
  refine ⟨_, c.toNat, rfl, by rw [List.length_set, List.length_set, List.length_set], ?_, fun i hi => ?_⟩
  · apply List.ext_getElem?
    intro i
    rw [List.getElem?_take]
    by_cases h : i < len + 6
    · rw [if_pos h, List.getElem?_drop]
      have hl : ((msg.drop k).take (len + 3)).length = len + 3 := by
        rw [List.length_take, List.length_drop]; omega
      by_cases h3 : i < len + 3
      · rw [List.getElem?_append_left (by omega), List.getElem?_take, if_pos h3, List.getElem?_drop,
          List.getElem?_set_ne (by omega), List.getElem?_set_ne (by omega), List.getElem?_set_ne (by omega)]
      · rw [List.getElem?_append_right (by omega), hl]
        have : i = len + 3 ∨ i = len + 4 ∨ i = len + 5 := by omega
        rcases this with e | e | e <;> subst e
        · rw [List.getElem?_set_ne (by omega), List.getElem?_set_ne (by omega),
            show k + (len + 3) = k + len + 3 by omega, List.getElem?_set_self (by omega),
            show len + 3 - (len + 3) = 0 by omega]
          rfl
        · rw [List.getElem?_set_ne (by omega),
            show k + (len + 4) = k + len + 3 + 1 by omega, List.getElem?_set_self (by rw [List.length_set]; omega),
            show len + 4 - (len + 3) = 1 by omega]
          rfl
        · rw [show k + (len + 5) = k + len + 5 by omega,
            List.getElem?_set_self (by rw [List.length_set, List.length_set]; omega),
            show len + 5 - (len + 3) = 2 by omega]
          rfl
    · rw [if_neg h, List.getElem?_eq_none]
      rw [List.length_append, List.length_take, List.length_drop]
      simp [tail3]; omega
  · rw [getD_set_ne (by omega), getD_set_ne (by omega), getD_set_ne (by omega)]

/-- a frame whose length field holds `len` and whose last three bytes are its checksum is accepted -/
theorem accepts {m : List Byte} {k len maxlen : Nat} (h6 : 6 ≤ len) (hb : k + len + 6 ≤ m.length)
    (hm : maxlen = 0 ∨ k + len < maxlen)
    (hl : ((m.getD (k + 1) 0).toNat * 256 + (m.getD (k + 2) 0).toNat) % 1024 = len) :
    checksum m k maxlen = .ok (true, some len) ↔
      ((m.drop k).drop (len + 3)).take 3 = tail3 (crc24 ((m.drop k).take (len + 3))) := by
  unfold checksum u16
  rw [if_pos (by omega)]
  simp only [Py.okBind]
  rw [hl, if_neg (by omega), if_neg (by omega)]
  have hsplit : (m.drop k).take (len + 6) =
      (m.drop k).take (len + 3) ++ ((m.drop k).drop (len + 3)).take 3 := by
    rw [show len + 6 = (len + 3) + 3 by omega, List.take_add]
  have h3 : (((m.drop k).drop (len + 3)).take 3).length = 3 := by
    rw [List.length_take, List.length_drop, List.length_drop]; omega
  have key := crc24_tail ((m.drop k).take (len + 3)) _ h3
  rw [← hsplit] at key
  constructor
  · intro h
    have : (crc24 ((m.drop k).take (len + 6)) == 0) = true := by
      have := h
      simp only [pure, Except.pure, Except.ok.injEq, Prod.mk.injEq, and_true] at this
      exact this
    have h' := key.1 (by simpa using this)
    rw [← h']
    -- three bytes are determined by their bits
    generalize ((m.drop k).drop (len + 3)).take 3 = t at h3 h'
    obtain ⟨a, b, c, rfl⟩ : ∃ a b c, t = [a, b, c] := by
      rcases t with _ | ⟨a, _ | ⟨b, _ | ⟨c, _ | ⟨_, _⟩⟩⟩⟩ <;> simp at h3 ⊢
    have e := topBits_tail3 (topBits (bitsOf [a, b, c]))
    have hbits : ∀ x y : List Byte, x.length = 3 → y.length = 3 →
        topBits (bitsOf x) = topBits (bitsOf y) → x = y := by
      intro x y hx hy hxy
      apply List.ext_getElem (by rw [hx, hy])
      intro i h1 h2
      apply BitVec.eq_of_getMsbD_eq
      intro j hj
      have hq := congrArg (fun r : Reg => r.getMsbD (8 * i + j)) hxy
      rw [topBits_getMsbD _ _ (by omega), topBits_getMsbD _ _ (by omega),
        bitsOf_getElem? _ _ (by omega), bitsOf_getElem? _ _ (by omega),
        show (8 * i + j) / 8 = i by omega, show (8 * i + j) % 8 = j by omega,
        List.getD_eq_getElem _ _ h1, List.getD_eq_getElem _ _ h2] at hq
      simpa using hq
    exact (hbits _ _ rfl rfl e).symm
  · intro h
    have : crc24 ((m.drop k).take (len + 6)) = 0 := key.2 (by rw [h, topBits_tail3])
    rw [this]
    rfl

/-- **Round trip.**  Whatever the buffer contains, after setting the length and the checksum the
decoder accepts the frame and reports the length; only the length bytes and the three check bytes
have changed -/
theorem round_trip {msg : List Byte} {k len maxlen : Nat} (h6 : 6 ≤ len) (h10 : len < 1024)
    (hb : k + len + 6 ≤ msg.length) (hm : maxlen = 0 ∨ k + len < maxlen) :
    ∃ m1 m cs, setLen msg k len = .ok (m1, len) ∧ setChecksum m1 len k maxlen = .ok (m, some cs) ∧
      checksum m k maxlen = .ok (true, some len) ∧ m.length = msg.length ∧
      ∀ i, i ≠ k + 1 → i ≠ k + 2 → (i < k + len + 3 ∨ k + len + 6 ≤ i) → m.getD i 0 = msg.getD i 0 := by
  obtain ⟨m1, e1, l1, v1, o1⟩ := setLen_spec (msg := msg) (k := k) (len := len) (by omega)
  obtain ⟨m, cs, e2, l2, f2, o2⟩ := setChecksum_spec (msg := m1) (k := k) (maxlen := maxlen) h6 (by omega) hm
  refine ⟨m1, m, cs, e1, e2, ?_, by omega, fun i h1 h2 h3 => by rw [o2 i h3, o1 i h1 h2]⟩
  have hlen : ((m.getD (k + 1) 0).toNat * 256 + (m.getD (k + 2) 0).toNat) % 1024 = len := by
    rw [o2 (k + 1) (by omega), o2 (k + 2) (by omega), v1]; omega
  rw [accepts h6 (by omega) hm hlen]
  have hl : ((m1.drop k).take (len + 3)).length = len + 3 := by
    rw [List.length_take, List.length_drop]; omega
  have ht : (m.drop k).take (len + 3) = (m1.drop k).take (len + 3) := by
    have := congrArg (fun l => l.take (len + 3)) f2
    simp only [List.take_take] at this
    rw [show min (len + 3) (len + 6) = len + 3 by omega, List.take_append_of_le_length (by omega),
      List.take_of_length_le (l := (m1.drop k).take (len + 3)) (by omega)] at this
    exact this
  have hd : ((m.drop k).drop (len + 3)).take 3 = tail3 (crc24 ((m1.drop k).take (len + 3))) := by
    have := congrArg (fun l => l.drop (len + 3)) f2
    rw [List.drop_take, show len + 6 - (len + 3) = 3 by omega, List.drop_append_of_le_length (by omega),
      List.drop_of_length_le (l := (m1.drop k).take (len + 3)) (by omega), List.nil_append] at this
    exact this
  rw [hd, ht]

/-- the same with all steps of the encoder: the frame starts with the sync byte, carries bytes
`3 … len-1` of the given buffer and is accepted -/
theorem frame_accepted {msg buff : List Byte} {k len maxlen : Nat} (h6 : 6 ≤ len) (h10 : len < 1024)
    (hb : k + len + 6 ≤ msg.length) (hf : len ≤ buff.length) (hm : maxlen = 0 ∨ k + len < maxlen) :
    ∃ m cs, frame msg buff k len maxlen = .ok (m, some cs) ∧ sync m k = .ok true ∧
      checksum m k maxlen = .ok (true, some len) ∧ m.length = msg.length ∧
      ∀ i, 3 ≤ i → i < len → m.getD (k + i) 0 = buff.getD i 0 := by
  have es : setSync msg k = .ok (msg.set k 0xd3) := by
    unfold setSync pySet; rw [if_pos (by omega)]
  obtain ⟨m1, e1, l1, v1, o1⟩ := setLen_spec (msg := msg.set k 0xd3) (k := k) (len := len)
    (by rw [List.length_set]; omega)
  rw [List.length_set] at l1
  have hbody : (setBody m1 buff k len).length = msg.length := by
    unfold setBody
    rw [List.length_append, List.length_append, List.length_take, List.length_drop, List.length_take,
      List.length_drop]
    omega
  have hget : ∀ i, i < 3 → (setBody m1 buff k len).getD (k + i) 0 = m1.getD (k + i) 0 := by
    intro i hi
    unfold setBody
    rw [List.getD_eq_getElem?_getD, List.append_assoc, List.getElem?_append_left (by rw [List.length_take]; omega),
      List.getElem?_take, if_pos (by omega), List.getD_eq_getElem?_getD]
  have hin : ∀ i, 3 ≤ i → i < len → (setBody m1 buff k len).getD (k + i) 0 = buff.getD i 0 := by
    intro i h1 h2
    unfold setBody
    rw [List.getD_eq_getElem?_getD, List.append_assoc, List.getElem?_append_right (by rw [List.length_take]; omega),
      List.getElem?_append_left (by rw [List.length_take, List.length_drop, List.length_take]; omega),
      List.length_take, List.getElem?_drop, List.getElem?_take, Nat.min_eq_left (by omega),
      show 3 + (k + i - (k + 3)) = i by omega, if_pos h2, List.getD_eq_getElem?_getD]
  obtain ⟨m, cs, e2, l2, f2, o2⟩ := setChecksum_spec (msg := setBody m1 buff k len) (k := k)
    (maxlen := maxlen) h6 (by omega) hm
  refine ⟨m, cs, ?_, ?_, ?_, by omega, fun i h1 h2 => by rw [o2 _ (by omega), hin i h1 h2]⟩
  · unfold frame
    rw [es]; simp only [Py.okBind]
    rw [e1]; simp only [Py.okBind]
    exact e2
  · unfold sync pyGet
    have h0 : m.getD k 0 = 0xd3 := by
      have := hget 0 (by omega)
      rw [Nat.add_zero] at this
      rw [o2 k (by omega), this, o1 _ (by omega) (by omega)]
      exact getD_set_self (by omega)
    have hk : k < m.length := by omega
    rw [List.getD_eq_getElem _ _ hk] at h0
    rw [List.getElem?_eq_getElem hk, h0]
    rfl
  · have hlen : ((m.getD (k + 1) 0).toNat * 256 + (m.getD (k + 2) 0).toNat) % 1024 = len := by
      rw [o2 (k + 1) (by omega), o2 (k + 2) (by omega), hget 1 (by omega), hget 2 (by omega), v1]; omega
    rw [accepts h6 (by omega) hm hlen]
    generalize setBody m1 buff k len = mb at *
    have hl : ((mb.drop k).take (len + 3)).length = len + 3 := by
      rw [List.length_take, List.length_drop]; omega
    have ht : (m.drop k).take (len + 3) = (mb.drop k).take (len + 3) := by
      have := congrArg (fun l => l.take (len + 3)) f2
      simp only [List.take_take] at this
      rw [show min (len + 3) (len + 6) = len + 3 by omega, List.take_append_of_le_length (by omega),
        List.take_of_length_le (l := (mb.drop k).take (len + 3)) (by omega)] at this
      exact this
    have hd : ((m.drop k).drop (len + 3)).take 3 = tail3 (crc24 ((mb.drop k).take (len + 3))) := by
      have := congrArg (fun l => l.drop (len + 3)) f2
      rw [List.drop_take, show len + 6 - (len + 3) = 3 by omega, List.drop_append_of_le_length (by omega),
        List.drop_of_length_le (l := (mb.drop k).take (len + 3)) (by omega), List.nil_append] at this
      exact this
    rw [hd, ht]

/-- lengths below six are neither encoded nor accepted -/
theorem short_refused {m : List Byte} {k len maxlen : Nat} (h6 : len < 6) (hb : k + 3 ≤ m.length)
    (hl : ((m.getD (k + 1) 0).toNat * 256 + (m.getD (k + 2) 0).toNat) % 1024 = len) :
    setChecksum m len k maxlen = .ok (m, none) ∧ checksum m k maxlen = .ok (false, none) := by
  constructor
  · unfold setChecksum; rw [if_pos h6]
  · unfold checksum u16
    rw [if_pos (by omega)]
    simp only [Py.okBind]
    rw [hl, if_pos h6]
    rfl

/-! ## Concrete cases -/

def exBuf : List Byte := (List.range 30).map fun i => BitVec.ofNat 8 (7 * i + 3)

/-- the hypotheses hold, e.g. for a frame of ten bytes at position 2 -/
example : 6 ≤ 10 ∧ 10 < 1024 ∧ 2 + 10 + 6 ≤ exBuf.length ∧ 10 ≤ exBuf.length := by decide

example : (frame exBuf exBuf.reverse 2 10 0).map (fun p => checksum p.1 2) =
    .ok (.ok (true, some 10)) := by decide +kernel

/-- a length that does not fit the ten bits is truncated: the decoder reads another length -/
example : ((setLen (List.replicate 2000 0) 0 1030).map fun p => u16 p.1 1) = .ok (.ok 6) := by
  decide +kernel

/-- the body given to `set_body` with the same length as `set_len` lacks its last three bytes -/
example : (setBody (List.replicate 20 0) (List.replicate 20 0xff) 0 10).getD 12 0 = 0 ∧
    (setBody (List.replicate 20 0) (List.replicate 20 0xff) 0 10).getD 9 0 = 0xff := by decide +kernel

end Verif.C31
