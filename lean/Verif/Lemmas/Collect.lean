import Verif.Lemmas.Layout
/-!
Decoders that collect the parts of a message in one buffer per satellite.
-/

namespace Verif.Col
open Verif.C36 (field)

/-- a call of a decoder -/
structure Call where
  sat : Int
  msg : BitBuf

/-- the last message of the kind `k` of a satellite -/
def last (kind : Call → Option Nat) (cs : List Call) (s : Int) (k : Nat) : Option BitBuf :=
  ((cs.filter fun c => c.sat = s ∧ kind c = some k).getLast?).map (·.msg)

theorem last_append (kind : Call → Option Nat) (cs : List Call) (c : Call) (s : Int) (k : Nat) :
    last kind (cs ++ [c]) s k = if c.sat = s ∧ kind c = some k then some c.msg else last kind cs s k := by
  unfold last
  rw [List.filter_append]
  by_cases h : c.sat = s ∧ kind c = some k
  · rw [if_pos h, List.filter_cons, if_pos (by simpa using h)]
    simp
  · rw [if_neg h, List.filter_cons, if_neg (by simpa using h)]
    simp

theorem last_mem {kind : Call → Option Nat} {cs : List Call} {s : Int} {k : Nat} {m : BitBuf}
    (h : last kind cs s k = some m) : ∃ c ∈ cs, c.sat = s ∧ kind c = some k ∧ c.msg = m := by
  unfold last at h
  rw [Option.map_eq_some_iff] at h
  obtain ⟨c, hc, rfl⟩ := h
  have := List.mem_filter.1 (List.mem_of_getLast? hc)
  have h2 := of_decide_eq_true this.2
  exact ⟨c, this.1, h2.1, h2.2, rfl⟩

/-- the buffer holds the first `W` bits of a message at `a` -/
structure Seg (b : BitBuf) (a W : Nat) (m : BitBuf) : Prop where
  eq : (b.drop a).take W = m.take W
  le : W ≤ m.length
  fit : a + W ≤ b.length

theorem Seg.self {m : BitBuf} {W : Nat} (h : W ≤ m.length) : Seg m 0 W m := ⟨rfl, h, by omega⟩

variable {b m : BitBuf} {a W : Nat}

theorem Seg.u (h : Seg b a W m) (o : Nat) {i n : Nat} (c : i = a + o ∧ o + n ≤ W) :
    readU b i n = .ok (bitsAt m o n) := by
  have := h.fit
  rw [C36.readU_field (by omega), c.1, Rawnav.field_of_take h.eq c.2]
  rfl

theorem Seg.s (h : Seg b a W m) (o : Nat) {i n : Nat} (c : i = a + o ∧ o + n ≤ W) :
    readS b i n = .ok (intAt m o n) := by
  have := h.fit
  rw [C36.readS_field (by omega), c.1, Rawnav.field_of_take h.eq c.2]
  rfl

theorem bits_lt (b : BitBuf) (i n : Nat) : bitsAt b i n < 2 ^ n := by
  have h := bitsToNat_lt ((b.drop i).take n)
  have : ((b.drop i).take n).length ≤ n := by simp
  exact lt_of_lt_of_le h (Nat.pow_le_pow_right (by decide) this)

theorem bits_zeros (N i n : Nat) : bitsAt (List.replicate N false) i n = 0 := by
  unfold bitsAt
  rw [List.drop_replicate, List.take_replicate]
  generalize min n (N - i) = k
  induction k with
  | zero => rfl
  | succ k ih => rw [List.replicate_succ', bitsToNat_append, ih]; rfl

variable {kind : Call → Option Nat} {off : Nat → Nat} {P : Nat → Prop} {L : Nat} {Dom : Int → Prop}

/-- the part `k` that a buffer holds: the last one, or zeros -/
def part (kind : Call → Option Nat) (W : Nat) (cs : List Call) (s : Int) (k : Nat) : BitBuf :=
  (last kind cs s k).getD (List.replicate W false)

/-- all buffers hold the last parts -/
def Inv (kind : Call → Option Nat) (W : Nat) (off : Nat → Nat) (P : Nat → Prop) (L : Nat) (Dom : Int → Prop)
    (buf : Int → Option BitBuf) (cs : List Call) : Prop :=
  ∀ s, Dom s → ∃ b, buf s = some b ∧ L ≤ b.length ∧ ∀ k, P k → Seg b (off k) W (part kind W cs s k)

theorem Inv.step {buf buf' : Int → Option BitBuf} {cs : List Call} {c : Call} {b b' : BitBuf}
    (hi : Inv kind W off P L Dom buf cs) (hb : buf c.sat = some b) (hb' : buf' c.sat = some b')
    (ho : ∀ s, Dom s → s ≠ c.sat → buf' s = buf s) (hl : L ≤ b'.length) (hoff : ∀ k, P k → off k + W ≤ L)
    (hlen : W ≤ c.msg.length)
    (h : ∀ k, P k → (b'.drop (off k)).take W = if kind c = some k then c.msg.take W else (b.drop (off k)).take W) :
    Inv kind W off P L Dom buf' (cs ++ [c]) := by
  intro s hs
  obtain ⟨b2, hb2, hl2, hh⟩ := hi s hs
  by_cases e : s = c.sat
  · subst e
    rw [hb] at hb2
    cases hb2
    refine ⟨b', hb', hl, fun k hP => ?_⟩
    have := hoff k hP
    unfold part
    rw [last_append]
    by_cases ck : kind c = some k
    · rw [if_pos ⟨rfl, ck⟩, Option.getD_some]
      exact ⟨by rw [h k hP, if_pos ck], hlen, by omega⟩
    · rw [if_neg (fun x => ck x.2)]
      have h2 := hh k hP
      exact ⟨by rw [h k hP, if_neg ck]; exact h2.eq, h2.le, by omega⟩
  · refine ⟨b2, by rw [ho s hs e]; exact hb2, hl2, fun k hP => ?_⟩
    unfold part
    rw [last_append, if_neg (fun x => e x.1.symm)]
    exact hh k hP

/-- a call that changes nothing -/
theorem Inv.same {buf : Int → Option BitBuf} {cs : List Call} {c : Call}
    (hi : Inv kind W off P L Dom buf cs) (hk : ∀ k, P k → kind c ≠ some k) :
    Inv kind W off P L Dom buf (cs ++ [c]) := by
  intro s hs
  obtain ⟨b, hb, hl, hh⟩ := hi s hs
  refine ⟨b, hb, hl, fun k hP => ?_⟩
  unfold part
  rw [last_append, if_neg (fun x => hk k hP x.2)]
  exact hh k hP

theorem Inv.init {buf : Int → Option BitBuf} (hoff : ∀ k, P k → off k + W ≤ L)
    (h : ∀ s, Dom s → buf s = some (List.replicate L false)) : Inv kind W off P L Dom buf [] := by
  intro s hs
  refine ⟨_, h s hs, by rw [List.length_replicate], fun k hP => ?_⟩
  have := hoff k hP
  refine ⟨?_, by unfold part last; simp, by rw [List.length_replicate]; omega⟩
  show _ = (List.replicate W false).take W
  rw [List.drop_replicate, List.take_replicate, List.take_replicate]
  congr 1
  omega

/-- if the parts of the kind `k` have a positive number where zeros have 0, the number tells whether there is one -/
theorem part_id {cs : List Call} {s : Int} {k n i w : Nat} (hn : 0 < n)
    (h : ∀ c ∈ cs, kind c = some k → bitsAt c.msg i w = n) :
    bitsAt (part kind W cs s k) i w = n ↔ (last kind cs s k).isSome := by
  unfold part
  cases hm : last kind cs s k with
  | none => rw [Option.getD_none, bits_zeros]; simp; omega
  | some m =>
    obtain ⟨c, hc, _, hk, rfl⟩ := last_mem hm
    rw [Option.getD_some, h c hc hk]
    simp

/-- storing a message of whole slots -/
theorem slice_splice {buf v : BitBuf} {p : Nat} (hb : p + v.length ≤ buf.length) :
    Rawnav.pySliceSet buf (p : Int) ((p + v.length : Nat) : Int) v = splice buf p v := by
  unfold Rawnav.pySliceSet
  rw [Rawnav.clampIdx_nonneg, Rawnav.clampIdx_nonneg]
  unfold splice
  dsimp only
  rw [Nat.min_eq_left (by omega), Nat.min_eq_left (by omega), Nat.max_eq_right (by omega)]

theorem splice_slots {buf v : BitBuf} {w k j : Nat} (hv : v.length = w) (hb : w * k + w ≤ buf.length) :
    ((splice buf (w * k) v).drop (w * j)).take w = if k = j then v else (buf.drop (w * j)).take w := by
  have hf : w * k + v.length ≤ buf.length := by omega
  by_cases e : k = j
  · rw [if_pos e, ← e]
    have := Rawnav.splice_seg_same hf
    rwa [hv] at this
  · rw [if_neg e]
    apply Rawnav.splice_seg_other hf
    rw [hv]
    rcases Nat.lt_or_gt_of_ne e with h | h
    · right
      calc w * k + w = w * (k + 1) := by ring
        _ ≤ w * j := Nat.mul_le_mul_left _ h
    · left
      calc w * j + w = w * (j + 1) := by ring
        _ ≤ w * k := Nat.mul_le_mul_left _ h

/-- storing messages that may be shorter than a slot -/
theorem splice_parts {buf v : BitBuf} {w W k j : Nat} (hv : W ≤ v.length ∧ v.length ≤ w) (hb : w * k + v.length ≤ buf.length) :
    ((splice buf (w * k) v).drop (w * j)).take W = if k = j then v.take W else (buf.drop (w * j)).take W := by
  by_cases e : k = j
  · rw [if_pos e, ← e]
    have := Rawnav.splice_seg_same hb
    conv_rhs => rw [← this, List.take_take, Nat.min_eq_left hv.1]
  · rw [if_neg e]
    apply Rawnav.splice_seg_other hb
    rcases Nat.lt_or_gt_of_ne e with h | h
    · right
      calc w * k + v.length ≤ w * k + w := by omega
        _ = w * (k + 1) := by ring
        _ ≤ w * j := Nat.mul_le_mul_left _ h
    · left
      calc w * j + W ≤ w * j + w := by omega
        _ = w * (j + 1) := by ring
        _ ≤ w * k := Nat.mul_le_mul_left _ h

end Verif.Col
