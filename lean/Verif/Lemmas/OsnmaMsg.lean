import Verif.Lemmas.OsnmaRun
import Verif.Props.C08
/-! The byte strings the OSNMA decoder builds: filling a zeroed buffer from the left. -/

namespace Verif.Osnma
open Verif.CopyBuff (copyBuff)
variable {PK : Type}

theorem pyGet_mem {α : Type} {l : List α} {i : Nat} {a : α} (h : pyGet l i = .ok a) : a ∈ l := by
  unfold pyGet at h
  split at h
  · rename_i x hx
    cases h
    exact List.mem_of_getElem? hx
  · cases h

theorem pyGetI_mem {α : Type} {l : List α} {i : Int} {a : α} (h : pyGetI l i = .ok a) : a ∈ l := by
  unfold pyGetI at h
  split at h
  · exact pyGet_mem h
  · split at h
    · exact pyGet_mem h
    · cases h

theorem dict_mem {κ α : Type} [DecidableEq κ] {d : Dict κ α} {k : κ} {v : α} (h : d.get? k = some v) :
    (k, v) ∈ d := by
  unfold Dict.get? at h
  rw [Option.map_eq_some_iff] at h
  obtain ⟨⟨k', v'⟩, h1, rfl⟩ := h
  have h2 := List.find?_some h1
  have h3 := List.mem_of_find?_eq_some h1
  simp only [decide_eq_true_eq] at h2
  subst h2
  exact h3

theorem splice_fill (d f : BitBuf) (r : Nat) :
    splice (d ++ List.replicate r false) d.length f = (d ++ f) ++ List.replicate (r - f.length) false := by
  unfold splice
  rw [List.take_left' rfl]
  congr 1
  rw [← List.drop_drop, List.drop_left' rfl]
  simp

/-- writing an unsigned field at the end of the filled part -/
theorem fillU (d : BitBuf) (r i n v : Nat) (hi : i = d.length) (hn : n ≤ r) (hv : v < 2 ^ n) :
    writeU (d ++ List.replicate r false) i n v =
      .ok ((d ++ natToBits n v) ++ List.replicate (r - n) false) := by
  unfold writeU
  subst hi
  rw [if_pos hv, if_pos (by simp; omega), splice_fill, natToBits_length]

/-- copying a bit field to the end of the filled part -/
theorem fillCopy (src d : BitBuf) (r os od n : Nat) (hi : od = d.length) (hn : n ≤ r)
    (hs : os + n ≤ src.length) :
    copyBuff src (d ++ List.replicate r false) os od n =
      .ok ((d ++ (src.drop os).take n) ++ List.replicate (r - n) false) := by
  subst hi
  obtain ⟨out, h1, h2, h3, h4⟩ := C08.copyBuff_bits src (d ++ List.replicate r false) os d.length n hs
    (by simp; omega)
  rw [h1]
  congr 1
  have hl : ((src.drop os).take n).length = n := by simp; omega
  refine List.ext_getElem? fun k => ?_
  by_cases hk : k < d.length
  · rw [h4 k (Or.inl hk), List.getElem?_append_left hk,
      List.getElem?_append_left (by simp; omega), List.getElem?_append_left hk]
  · by_cases hk2 : k < d.length + n
    · obtain ⟨j, rfl⟩ : ∃ j, k = d.length + j := ⟨k - d.length, by omega⟩
      rw [h3 j (by omega), List.getElem?_append_left (by rw [List.length_append, hl]; omega),
        List.getElem?_append_right (by omega), List.getElem?_take_of_lt (by omega),
        List.getElem?_drop]
      congr 1; omega
    · rw [h4 k (Or.inr (by omega)), List.getElem?_append_right (by omega),
        List.getElem?_append_right (by rw [List.length_append, hl]; omega), List.length_append, hl]
      rw [List.getElem?_replicate, List.getElem?_replicate]
      by_cases h : k - d.length < r
      · rw [if_pos h, if_pos (by omega)]
      · rw [if_neg h, if_neg (by omega)]

/-- the leading bits of a bit string -/
theorem natToBits_lead (l : List Bool) (n : Nat) (h : n ≤ l.length) :
    natToBits n (bitsToNat l / 2 ^ (l.length - n)) = l.take n := by
  have h1 := bitsToNat_append (l.take n) (l.drop n)
  rw [List.take_append_drop] at h1
  have h2 := bitsToNat_lt (l.drop n)
  rw [List.length_drop] at h1 h2
  rw [h1, Nat.add_comm, Nat.add_mul_div_right _ _ (by positivity), Nat.div_eq_of_lt h2, Nat.zero_add]
  have h3 := natToBits_bitsToNat (l.take n)
  rwa [List.length_take, Nat.min_eq_left h] at h3

/-- the byte loop of `gen_msg` appends the message cut to the given number of bits -/
theorem genLoop_eq (msg : BitBuf) (rem : Nat) (hr : 0 < rem) (hr8 : rem ≤ 8) :
    ∀ (n k j : Nat) (d : BitBuf) (r : Nat), 8 * (k + (n + 1)) ≤ msg.length → 8 * n + rem ≤ r →
      j = d.length →
      genLoop msg rem (n + 1) k j (d ++ List.replicate r false) =
        .ok ((d ++ (msg.drop (8 * k)).take (8 * n + rem)) ++
          List.replicate (r - (8 * n + rem)) false) := by
  intro n
  induction n with
  | zero =>
    intro k j d r hm hr2 hj
    unfold genLoop byteAt
    rw [if_pos (by omega)]
    simp only [Py.okBind]
    rw [if_pos ⟨by omega, trivial⟩]
    have hl : ((msg.drop (8 * k)).take 8).length = 8 := by simp; omega
    have h1 := natToBits_lead ((msg.drop (8 * k)).take 8) rem (by omega)
    have hlt : bitsToNat ((msg.drop (8 * k)).take 8) / 2 ^ (8 - rem) < 2 ^ rem := by
      rw [Nat.div_lt_iff_lt_mul (by positivity), ← pow_add]
      have := bitsToNat_lt ((msg.drop (8 * k)).take 8)
      rw [hl] at this
      rwa [show rem + (8 - rem) = 8 by omega]
    rw [fillU d r j rem _ hj (by omega) hlt]
    simp only [Py.okBind]
    rw [hl] at h1
    rw [h1]
    unfold genLoop
    simp only [Nat.mul_zero, Nat.zero_add]
    rw [List.take_take, Nat.min_eq_left hr8]
    rfl
  | succ n ih =>
    intro k j d r hm hr2 hj
    unfold genLoop byteAt
    rw [if_pos (by omega)]
    simp only [Py.okBind]
    rw [if_neg (by omega)]
    have hl : ((msg.drop (8 * k)).take 8).length = 8 := by simp; omega
    have hlt : bitsToNat ((msg.drop (8 * k)).take 8) < 2 ^ 8 := by
      have := bitsToNat_lt ((msg.drop (8 * k)).take 8)
      rwa [hl] at this
    rw [fillU d r j 8 _ hj (by omega) hlt]
    simp only [Py.okBind]
    have h1 := natToBits_bitsToNat ((msg.drop (8 * k)).take 8)
    rw [hl] at h1
    rw [h1, ih (k + 1) (j + 8) _ (r - 8) (by omega) (by omega) (by simp; omega)]
    congr 1
    have h2 : (msg.drop (8 * k)).take (8 + (8 * n + rem)) =
        (msg.drop (8 * k)).take 8 ++ ((msg.drop (8 * k)).drop 8).take (8 * n + rem) := List.take_add ..
    rw [List.append_assoc d, show 8 * (n + 1) + rem = 8 + (8 * n + rem) by omega,
      h2, List.drop_drop, show 8 * (k + 1) = 8 * k + 8 by omega,
      show r - 8 - (8 * n + rem) = r - (8 + (8 * n + rem)) by omega]

end Verif.Osnma
