import Verif.Lemmas.Rawnav
/-!
Stores of message parts: one buffer per satellite, one place per part number.
-/

namespace Verif.Slots

variable {C : Type}

/-- content of the last call for satellite key `s` and part `k` -/
def lastC (key : C → Option (Int × Nat)) (cont : C → BitBuf) (cs : List C) (s : Int) (k : Nat) : Option BitBuf :=
  ((cs.filter fun c => key c = some (s, k)).getLast?).map cont

theorem lastC_append (key : C → Option (Int × Nat)) (cont : C → BitBuf) (cs : List C) (c : C) (s : Int) (k : Nat) :
    lastC key cont (cs ++ [c]) s k = if key c = some (s, k) then some (cont c) else lastC key cont cs s k := by
  unfold lastC
  rw [List.filter_append]
  by_cases h : key c = some (s, k)
  · rw [if_pos h, List.filter_cons, if_pos (by simpa using h)]
    simp
  · rw [if_neg h, List.filter_cons, if_neg (by simpa using h)]
    simp

theorem lastC_mem {key : C → Option (Int × Nat)} {cont : C → BitBuf} {cs : List C} {s : Int} {k : Nat} {m : BitBuf}
    (h : lastC key cont cs s k = some m) : ∃ c ∈ cs, key c = some (s, k) ∧ cont c = m := by
  unfold lastC at h
  rw [Option.map_eq_some_iff] at h
  obtain ⟨c, hc, rfl⟩ := h
  have := List.mem_filter.1 (List.mem_of_getLast? hc)
  exact ⟨c, this.1, by simpa using this.2, rfl⟩

/-- a call without part does not matter, wherever it occurs -/
theorem lastC_skip (key : C → Option (Int × Nat)) (cont : C → BitBuf) (cs cs' : List C) (x : C) (s : Int) (k : Nat)
    (h : key x ≠ some (s, k)) : lastC key cont (cs ++ x :: cs') s k = lastC key cont (cs ++ cs') s k := by
  unfold lastC
  rw [List.filter_append, List.filter_cons, if_neg (by simpa using h), List.filter_append]

/-- the buffer holds at the places `off k`, `k ∈ P`, the contents `g k` (zeros if none) -/
def Holds (W : Nat) (off : Nat → Nat) (P : Nat → Prop) (b : BitBuf) (g : Nat → Option BitBuf) : Prop :=
  ∀ k, P k → (b.drop (off k)).take W = (g k).getD (List.replicate W false)

/-- all buffers hold the last parts -/
def SInv (key : C → Option (Int × Nat)) (cont : C → BitBuf) (W : Nat) (off : Nat → Nat) (P : Nat → Prop) (L : Nat)
    (Dom : Int → Prop) (d : Dict Int BitBuf) (cs : List C) : Prop :=
  ∀ s, Dom s → ∃ b, Dict.get? d s = some b ∧ b.length = L ∧ Holds W off P b (lastC key cont cs s)

variable {key : C → Option (Int × Nat)} {cont : C → BitBuf} {W : Nat} {off : Nat → Nat} {P : Nat → Prop} {L : Nat}
  {Dom : Int → Prop}

theorem SInv.step {d : Dict Int BitBuf} {cs : List C} {c : C} {s0 : Int} {k0 : Nat} {b b' : BitBuf}
    (hi : SInv key cont W off P L Dom d cs) (hk : key c = some (s0, k0))
    (hb : Dict.get? d s0 = some b) (hl : b'.length = L)
    (h : ∀ k, P k → (b'.drop (off k)).take W = if k = k0 then cont c else (b.drop (off k)).take W)
    : SInv key cont W off P L Dom (d.set s0 b') (cs ++ [c]) := by
  intro s hs
  by_cases e : s = s0
  · subst e
    refine ⟨b', Dict.get?_set_self _ _ _, hl, fun k hP => ?_⟩
    rw [h k hP, lastC_append, hk]
    by_cases ck : k = k0
    · subst ck; rw [if_pos rfl, if_pos rfl]; rfl
    · rw [if_neg ck, if_neg (by simp; omega)]
      obtain ⟨b2, hb2, _, hh⟩ := hi s hs
      rw [hb] at hb2
      cases hb2
      exact hh k hP
  · obtain ⟨b2, hb2, hl2, hh⟩ := hi s hs
    refine ⟨b2, by rw [Dict.get?_set_ne _ _ e]; exact hb2, hl2, fun k hP => ?_⟩
    rw [lastC_append, if_neg (by rw [hk]; simp; omega)]
    exact hh k hP

theorem SInv.same {d : Dict Int BitBuf} {cs : List C} {c : C}
    (hi : SInv key cont W off P L Dom d cs) (hk : ∀ s k, Dom s → P k → key c ≠ some (s, k)) :
    SInv key cont W off P L Dom d (cs ++ [c]) := by
  intro s hs
  obtain ⟨b, hb, hl, hh⟩ := hi s hs
  refine ⟨b, hb, hl, fun k hP => ?_⟩
  rw [lastC_append, if_neg (hk s k hs hP)]
  exact hh k hP

/-- reading inside a place -/
theorem field_slot {b : BitBuf} {a w o n : Nat} {m : BitBuf} (h : (b.drop a).take w = m) (hn : o + n ≤ w) :
    C36.field b (a + o) n = C36.field m o n := by
  have e : ((b.drop a).drop o).take n = (((b.drop a).take w).drop o).take n := by
    rw [List.drop_take, List.take_take, Nat.min_eq_left (by omega)]
  unfold C36.field
  rw [← List.drop_drop, e, h]

end Verif.Slots

namespace Verif.Rawnav
open Verif.C36 (field field_length readU_field)

theorem buffers_get {n : Nat} {k : Int} (h0 : 0 ≤ k) (h1 : k < n) :
    Dict.get? (buffers n) k = some (List.replicate 1600 false) := by
  obtain ⟨m, rfl⟩ := Int.eq_ofNat_of_zero_le h0
  unfold buffers Dict.get?
  have hex : ∃ x ∈ (List.range n).map (fun k : Nat => ((k : Int), List.replicate 1600 false)), decide (x.1 = (m : Int)) = true :=
    ⟨((m : Int), List.replicate 1600 false), List.mem_map.2 ⟨m, (List.mem_range (m := m) (n := n)).2 (by omega), rfl⟩, by simp⟩
  cases hf : ((List.range n).map (fun k : Nat => ((k : Int), List.replicate 1600 false))).find?
      (fun p => decide (p.1 = (m : Int))) with
  | none =>
    obtain ⟨x, hx, hp⟩ := hex
    have := List.find?_eq_none.1 hf x hx
    exact absurd hp this
  | some x =>
    obtain ⟨i, _, rfl⟩ := List.mem_map.1 (List.mem_of_find?_eq_some hf)
    rfl

theorem splice_append {b f g : BitBuf} {i : Nat} (h : i + (f ++ g).length ≤ b.length) :
    splice (splice b i f) (i + f.length) g = splice b i (f ++ g) := by
  rw [List.length_append] at h
  apply List.ext_getElem?
  intro k
  rw [splice_getElem? _ _ _ (by rw [splice_length _ _ _ (by omega)]; omega), splice_getElem? _ _ _ (by omega),
    splice_getElem? _ _ _ (by rw [List.length_append]; omega), List.length_append]
  by_cases c1 : i + f.length ≤ k ∧ k < i + f.length + g.length
  · rw [if_pos c1, if_pos (by omega), List.getElem?_append_right (by omega)]
    congr 1; omega
  · rw [if_neg c1]
    by_cases c2 : i ≤ k ∧ k < i + f.length
    · rw [if_pos c2, if_pos (by omega), List.getElem?_append_left (by omega)]
    · rw [if_neg c2, if_neg (by omega)]

theorem field_append (m : BitBuf) (i a c : Nat) : field m i a ++ field m (i + a) c = field m i (a + c) := by
  unfold field
  rw [List.take_add, List.drop_drop]

theorem copyBytes_spec (msg : BitBuf) (i j : Nat) (b : BitBuf) : ∀ n, i + 8 * n ≤ msg.length →
    8 * (j + n) ≤ b.length → copyBytes msg n i j b = .ok (splice b (8 * j) (field msg i (8 * n)))
  | 0, _, h => by
    unfold copyBytes splice field
    simp
    rfl
  | n + 1, h1, h2 => by
    have ih := copyBytes_spec msg i j b n (by omega) (by omega)
    unfold copyBytes at ih ⊢
    have hf : (field msg i (8 * n)).length = 8 * n := field_length (by omega)
    have hsl : (splice b (8 * j) (field msg i (8 * n))).length = b.length := splice_length _ _ _ (by omega)
    rw [List.range_succ, List.foldlM_append, ih, Py.okBind, List.foldlM_cons, readU_field (by omega), Py.okBind]
    have hg : (field msg (i + 8 * n) 8).length = 8 := field_length (by omega)
    have e : putByte (splice b (8 * j) (field msg i (8 * n))) (j + n) (bitsToNat (field msg (i + 8 * n) 8)) =
        .ok (splice (splice b (8 * j) (field msg i (8 * n))) (8 * j + (field msg i (8 * n)).length)
          (field msg (i + 8 * n) 8)) := by
      unfold putByte writeU
      have hlt := bitsToNat_lt (field msg (i + 8 * n) 8)
      rw [hg] at hlt
      rw [hsl, if_pos (by omega), if_pos hlt, if_pos (by omega)]
      have := natToBits_bitsToNat (field msg (i + 8 * n) 8)
      rw [hg] at this
      rw [this, hf]
      congr 2
      omega
    rw [e, splice_append (by rw [List.length_append]; omega), field_append]
    rfl

end Verif.Rawnav
