import Verif.Props.C36
/-!
Lemmas on the stored sub-frames of `RawNav`.
-/

namespace Verif.Rawnav
open Verif.C36 (field field_length readU_field readS_field)
open Verif.Sat (Sys sat2prn)

theorem field_of_take {b m : BitBuf} {a w o n : Nat} (h : (b.drop a).take w = m.take w) (hn : o + n ≤ w) :
    field b (a + o) n = field m o n := by
  have e : ∀ l : BitBuf, (l.drop o).take n = ((l.take w).drop o).take n := by
    intro l
    rw [List.drop_take, List.take_take, Nat.min_eq_left (by omega)]
  unfold field
  rw [← List.drop_drop, e (b.drop a), h, ← e m]

theorem clampIdx_nonneg (n : Nat) (i : Nat) : clampIdx n (i : Int) = min i n := by
  unfold clampIdx
  rw [if_neg (by omega), Int.toNat_natCast]

theorem take_drop_of_prefix {r b : BitBuf} {N : Nat} (h : r.take N = b.take N) {a w : Nat} (hw : a + w ≤ N) :
    (r.drop a).take w = (b.drop a).take w := by
  have e : ∀ l : BitBuf, (l.drop a).take w = ((l.take N).drop a).take w := by
    intro l
    rw [List.drop_take, List.take_take, Nat.min_eq_left (by omega)]
  rw [e r, h, ← e b]

theorem splice_seg_same {b v : BitBuf} {s : Nat} (h : s + v.length ≤ b.length) :
    ((splice b s v).drop s).take v.length = v := by
  unfold splice
  rw [List.append_assoc, List.drop_append_of_le_length (by rw [List.length_take]; omega),
    List.drop_eq_nil_of_le (by rw [List.length_take]; omega), List.nil_append,
    List.take_append_of_le_length (by omega), List.take_of_length_le (by omega)]

theorem splice_seg_other {b v : BitBuf} {s a w : Nat} (h : s + v.length ≤ b.length)
    (hd : a + w ≤ s ∨ s + v.length ≤ a) :
    ((splice b s v).drop a).take w = (b.drop a).take w := by
  apply List.ext_getElem?
  intro i
  rw [List.getElem?_take, List.getElem?_take]
  by_cases c : i < w
  · rw [if_pos c, if_pos c, List.getElem?_drop, List.getElem?_drop, splice_getElem? _ _ _ h,
      if_neg (by omega)]
  · rw [if_neg c, if_neg c]

/-- storing a sub-frame changes exactly its own place among the first three; the buffer never
shrinks -/
theorem lnavStore_spec {b msg : BitBuf} {sid : Nat} (hb : 1600 ≤ b.length) (hm : 320 ≤ msg.length)
    (hs : sid < 8) : 1600 ≤ (lnavStore b sid msg).length ∧
    ∀ k, k < 3 → ((lnavStore b sid msg).drop (320 * k)).take 320 =
      if sid = k + 1 then msg.take 320 else (b.drop (320 * k)).take 320 := by
  have hv : (msg.take 320).length = 320 := by rw [List.length_take]; omega
  by_cases c0 : sid = 0
  · subst c0
    have e : lnavStore b 0 msg = b.take (b.length - 320) ++ msg.take 320 ++ b.drop (b.length - 320) := by
      unfold lnavStore pySliceSet
      have h1 : clampIdx b.length ((((0 : Nat) : Int) - 1) * 320) = b.length - 320 := by
        unfold clampIdx
        rw [if_pos (by omega)]; omega
      have h2 : clampIdx b.length ((((0 : Nat) : Int) - 1) * 320 + 320) = 0 := by
        unfold clampIdx
        rw [if_neg (by omega)]; omega
      simp only [h1, h2]
      rw [Nat.max_eq_left (by omega)]
    have hp : (lnavStore b 0 msg).take 1280 = b.take 1280 := by
      rw [e, List.append_assoc, List.take_append_of_le_length (by rw [List.length_take]; omega), List.take_take,
        Nat.min_eq_left (by omega)]
    refine ⟨?_, ?_⟩
    · rw [e, List.length_append, List.length_append, hv, List.length_take, List.length_drop]; omega
    · intro k hk
      rw [if_neg (by omega)]
      exact take_drop_of_prefix hp (by omega)
  · obtain ⟨q, rfl⟩ : ∃ q, sid = q + 1 := ⟨sid - 1, by omega⟩
    have a1 : (((q + 1 : Nat) : Int) - 1) * 320 = ((320 * q : Nat) : Int) := by push_cast; omega
    have a2 : (((q + 1 : Nat) : Int) - 1) * 320 + 320 = ((320 * q + 320 : Nat) : Int) := by push_cast; omega
    have e : lnavStore b (q + 1) msg =
        b.take (min (320 * q) b.length) ++ msg.take 320 ++
          b.drop (max (min (320 * q) b.length) (min (320 * q + 320) b.length)) := by
      unfold lnavStore pySliceSet
      rw [a2, a1, clampIdx_nonneg, clampIdx_nonneg]
    by_cases c5 : q < 5
    · have e' : lnavStore b (q + 1) msg = splice b (320 * q) (msg.take 320) := by
        rw [e]
        unfold splice
        rw [hv, Nat.min_eq_left (by omega), Nat.min_eq_left (by omega), Nat.max_eq_right (by omega)]
      rw [e']
      have hf : 320 * q + (msg.take 320).length ≤ b.length := by omega
      refine ⟨by rw [splice_length _ _ _ hf]; exact hb, ?_⟩
      intro k hk
      by_cases ck : q = k
      · rw [if_pos (by omega), ← ck]
        have := splice_seg_same hf
        rwa [hv] at this
      · rw [if_neg (by omega)]
        exact splice_seg_other hf (by omega)
    · have hp : (lnavStore b (q + 1) msg).take 1280 = b.take 1280 := by
        rw [e, List.append_assoc, List.take_append_of_le_length (by rw [List.length_take]; omega), List.take_take,
          Nat.min_eq_left (by omega)]
      refine ⟨?_, ?_⟩
      · rw [e, List.length_append, List.length_append, hv, List.length_take]; omega
      · intro k hk
        rw [if_neg (by omega)]
        exact take_drop_of_prefix hp (by omega)

end Verif.Rawnav
