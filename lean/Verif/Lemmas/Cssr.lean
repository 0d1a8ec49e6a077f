import Verif.Model.Cssr
import Verif.Lemmas.At
import Verif.Lemmas.Mask
/-!
Specification vocabulary for Compact SSR mask messages (positions of set bits, message layout)
and helper lemmas for C11.
-/

namespace Verif.Cssr
open Verif.Sat Verif.Sig Verif.Mask Verif.Time

/-- numbers of the set bits of a mask field, the first bit being number `o` -/
def positions (o : Nat) : List Bool → List Nat
  | [] => []
  | b :: l => if b then o :: positions (o + 1) l else positions (o + 1) l

/-- the elements of a list selected by a bit mask -/
def pick {α} : List Bool → List α → List α
  | b :: bs, a :: as => if b then a :: pick bs as else pick bs as
  | _, _ => []

theorem testBit_bitsToNat (l : List Bool) (k : Nat) (hk : k < l.length) :
    (bitsToNat l).testBit (l.length - k - 1) = l[k] := by
  induction l generalizing k with
  | nil => simp at hk
  | cons b l ih =>
    simp only [bitsToNat, List.length_cons]
    have hlt := bitsToNat_lt l
    cases k with
    | zero =>
      simp only [Nat.sub_zero, Nat.add_sub_cancel, List.getElem_cons_zero]
      rw [Nat.mul_comm, Nat.testBit_two_pow_mul_add _ hlt]
      cases b <;> simp
    | succ k =>
      have hk' : k < l.length := by simpa using hk
      simp only [List.getElem_cons_succ]
      rw [Nat.mul_comm, Nat.testBit_two_pow_mul_add _ hlt]
      have : l.length + 1 - (k + 1) - 1 = l.length - k - 1 := by omega
      rw [this, if_pos (by omega)]
      exact ih k hk'

theorem positions_eq (l : List Bool) (o : Nat) :
    positions o l = ((List.range l.length).filter (fun k => l[k]?.getD false)).map (· + o) := by
  induction l generalizing o with
  | nil => rfl
  | cons b l ih =>
    rw [positions, List.length_cons, List.range_succ_eq_map, List.filter_cons]
    have : (List.filter (fun k => (b :: l)[k]?.getD false) (List.map Nat.succ (List.range l.length))).map (· + o)
        = positions (o + 1) l := by
      rw [ih, List.filter_map, List.map_map]
      congr 1
      funext x; simp; omega
    simp only [List.getElem?_cons_zero, Option.getD_some]
    cases b
    · simpa using this.symm
    · simp [this]

theorem decodeMask_bits (l : List Bool) (o : Nat) :
    decodeMask (bitsToNat l) l.length o = (positions o l, (positions o l).length) := by
  have key : (List.range l.length).filter (fun k => (bitsToNat l).testBit (l.length - k - 1))
      = (List.range l.length).filter (fun k => l[k]?.getD false) := by
    apply List.filter_congr
    intro k hk
    have hk : k < l.length := List.mem_range.1 hk
    rw [testBit_bitsToNat l k hk, List.getElem?_eq_getElem hk]; rfl
  rw [decodeMask_eq, positions_eq, key]
  simp

theorem positions_lt {l : List Bool} {o p : Nat} (h : p ∈ positions o l) :
    o ≤ p ∧ p < o + l.length := by
  rw [positions_eq] at h
  simp only [List.mem_map, List.mem_filter, List.mem_range] at h
  obtain ⟨k, ⟨hk, _⟩, rfl⟩ := h
  omega

theorem mapM_pick {α} (bs : List Bool) (as : List α) (h : bs.length = as.length) (pre : List α) :
    (positions pre.length bs).mapM (pyGet (pre ++ as)) = .ok (pick bs as) := by
  induction bs generalizing as pre with
  | nil =>
    cases as with
    | nil => rfl
    | cons => simp at h
  | cons b bs ih =>
    cases as with
    | nil => simp at h
    | cons a as =>
      have h' : bs.length = as.length := by simpa using h
      have e : pre ++ a :: as = (pre ++ [a]) ++ as := by simp
      have hp := ih as h' (pre ++ [a])
      rw [List.length_append, List.length_singleton] at hp
      simp only [positions, pick]
      cases b
      · simp only [Bool.false_eq_true, if_false]
        rw [e]; exact hp
      · simp only [if_true, List.mapM_cons]
        have hg : pyGet (pre ++ a :: as) pre.length = .ok a := by
          simp [pyGet]
        rw [hg, e, hp]; rfl

theorem pick_length {α} (bs : List Bool) (as : List α) (h : bs.length = as.length) :
    (pick bs as).length = (positions 0 bs).length := by
  have key : ∀ (bs : List Bool) (as : List α) (o : Nat), bs.length = as.length →
      (pick bs as).length = (positions o bs).length := by
    intro bs
    induction bs with
    | nil => intro as o _; cases as <;> rfl
    | cons b bs ih =>
      intro as o h
      cases as with
      | nil => simp at h
      | cons a as =>
        have h' : bs.length = as.length := by simpa using h
        cases b
        · simpa [pick, positions] using ih as (o + 1) h'
        · simpa [pick, positions] using ih as (o + 1) h'
  exact key bs as 0 h

theorem mem_pick {α} {bs : List Bool} {as : List α} {x : α} (h : x ∈ pick bs as) : x ∈ as := by
  induction bs generalizing as with
  | nil => cases as <;> simp [pick] at h
  | cons b bs ih =>
    cases as with
    | nil => simp [pick] at h
    | cons a as =>
      simp only [pick] at h
      split at h
      · rcases List.mem_cons.1 h with h | h
        · simp [h]
        · exact List.mem_cons_of_mem _ (ih h)
      · exact List.mem_cons_of_mem _ (ih h)

theorem readMany_bits {msg : BitBuf} {i n : Nat} {cs : List (List Bool)}
    (hc : ∀ c ∈ cs, c.length = n) (h : At msg i cs.flatten) (hn : n = 0 → cs = []) :
    readMany msg i n cs.length = .ok (cs.map bitsToNat) := by
  unfold readMany
  rw [if_neg (by rintro ⟨h0, h1⟩; exact h1 (by simp [hn h0]))]
  clear hn
  have key : ∀ m, m ≤ cs.length →
      (List.range m).mapM (fun k => readU msg (i + n * k) n) = .ok ((cs.take m).map bitsToNat) := by
    intro m
    induction m with
    | zero => intro _; rfl
    | succ m ih =>
      intro hm
      rw [List.range_succ, List.mapM_append, ih (by omega)]
      have hsplit : cs = cs.take m ++ (cs[m] :: cs.drop (m + 1)) := by
        rw [List.getElem_cons_drop, List.take_append_drop]
      have hlen : (cs.take m).flatten.length = n * m := by
        rw [List.length_flatten]
        have : (cs.take m).map List.length = List.replicate m n := by
          apply List.eq_replicate_iff.2
          refine ⟨by simp; omega, ?_⟩
          intro b hb
          obtain ⟨c, hc', rfl⟩ := List.mem_map.1 hb
          exact hc c (List.mem_of_mem_take hc')
        rw [this, List.sum_replicate]
        simp [Nat.mul_comm]
      have hat : At msg (i + n * m) (cs[m] ++ (cs.drop (m + 1)).flatten) := by
        rw [hsplit, List.flatten_append, List.flatten_cons] at h
        exact h.tail' hlen
      have hr := hat.head.readU_bits (hc _ (List.getElem_mem _))
      have e : cs.take (m + 1) = cs.take m ++ [cs[m]] := by
        rw [List.take_succ_eq_append_getElem (by omega)]
      simp only [List.mapM_cons, List.mapM_nil, hr, e, List.map_append]
      rfl
  have := key cs.length (Nat.le_refl _)
  rwa [List.take_length] at this

end Verif.Cssr
