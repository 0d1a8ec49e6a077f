import Verif.Model.Mask
/-! Helper lemmas about masks. -/

namespace Verif.Mask

theorem and_shift_ne_zero (d s : Nat) : (d &&& (1 <<< s) ≠ 0) ↔ d.testBit s = true := by
  rw [Nat.one_shiftLeft]
  constructor
  · intro h
    obtain ⟨i, hi⟩ := Nat.exists_testBit_of_ne_zero h
    rw [Nat.testBit_and, Nat.testBit_two_pow, Bool.and_eq_true, decide_eq_true_eq] at hi
    rw [hi.2]; exact hi.1
  · intro h h0
    have : (d &&& 2 ^ s).testBit s = true := by
      rw [Nat.testBit_and, Nat.testBit_two_pow, h]; simp
    rw [h0, Nat.zero_testBit] at this; cases this

theorem decodeFold (din bitlen ofst : Nat) : ∀ (l v : List Nat) (n : Nat),
    l.foldl (fun (v, n) k =>
      if din &&& (1 <<< (bitlen - k - 1)) ≠ 0 then (v ++ [k + ofst], n + 1) else (v, n)) (v, n) =
    (v ++ (l.filter (fun k => din.testBit (bitlen - k - 1))).map (· + ofst),
      n + (l.filter (fun k => din.testBit (bitlen - k - 1))).length)
  | [], v, n => by simp
  | k :: l, v, n => by
    rw [List.foldl_cons]
    by_cases h : din.testBit (bitlen - k - 1) = true
    · have h' := (and_shift_ne_zero din (bitlen - k - 1)).2 h
      simp only [h', ne_eq, not_false_eq_true, if_true]
      have := decodeFold din bitlen ofst l (v ++ [k + ofst]) (n + 1)
      simp only [ne_eq] at this
      rw [this, List.filter_cons_of_pos (by exact h)]
      simp; omega
    · have h' : ¬ (din &&& (1 <<< (bitlen - k - 1)) ≠ 0) := fun hc => h ((and_shift_ne_zero _ _).1 hc)
      have := decodeFold din bitlen ofst l v n
      simp only [h', if_false]
      rw [this, List.filter_cons_of_neg (by exact h)]

theorem decodeMask_eq (din bitlen ofst : Nat) :
    decodeMask din bitlen ofst =
      (((List.range bitlen).filter (fun k => din.testBit (bitlen - k - 1))).map (· + ofst),
       ((List.range bitlen).filter (fun k => din.testBit (bitlen - k - 1))).length) := by
  unfold decodeMask
  rw [decodeFold]; simp

theorem decodeMask_length (din bitlen ofst : Nat) :
    (decodeMask din bitlen ofst).1.length = (decodeMask din bitlen ofst).2 := by
  rw [decodeMask_eq]; simp

theorem mem_decodeMask (din bitlen ofst p : Nat) :
    p ∈ (decodeMask din bitlen ofst).1 ↔
      ofst ≤ p ∧ p < ofst + bitlen ∧ din.testBit (bitlen - (p - ofst) - 1) = true := by
  rw [decodeMask_eq]
  simp only [List.mem_map, List.mem_filter, List.mem_range]
  constructor
  · rintro ⟨k, ⟨h1, h2⟩, rfl⟩
    refine ⟨by omega, by omega, ?_⟩
    rwa [Nat.add_sub_cancel]
  · rintro ⟨h1, h2, h3⟩
    exact ⟨p - ofst, ⟨by omega, h3⟩, by omega⟩

theorem decodeMask_sorted (din bitlen ofst : Nat) :
    (decodeMask din bitlen ofst).1.Pairwise (· < ·) := by
  rw [decodeMask_eq]
  simp only
  rw [List.pairwise_map]
  apply List.Pairwise.imp (R := (· < ·)) (by intro a b h; omega)
  exact (List.pairwise_lt_range).filter _

theorem encode_testBit (bitlen : Nat) (ofst : Int) : ∀ (v : List Int) (d0 d : Nat),
    v.foldlM (fun (d : Nat) (p : Int) =>
      let k := p - ofst
      let s := (bitlen : Int) - k - 1
      if s < 0 then (.error .valueError : Py Nat) else .ok (d ||| (1 <<< s.toNat))) d0 = .ok d →
    ∀ s, d.testBit s = true ↔ d0.testBit s = true ∨ ∃ p ∈ v, (bitlen : Int) - (p - ofst) - 1 = s
  | [], d0, d, h, s => by
    simp [pure, Except.pure] at h; subst h; simp
  | p :: v, d0, d, h, s => by
    rw [List.foldlM_cons] at h
    simp only at h
    split at h
    · cases h
    · rename_i hs
      have := encode_testBit bitlen ofst v _ d h s
      rw [this, Nat.testBit_or, Nat.one_shiftLeft, Nat.testBit_two_pow]
      simp only [Bool.or_eq_true, decide_eq_true_eq, List.mem_cons]
      constructor
      · rintro ((h1 | h1) | ⟨q, hq, hqs⟩)
        · exact Or.inl h1
        · exact Or.inr ⟨p, Or.inl rfl, by omega⟩
        · exact Or.inr ⟨q, Or.inr hq, hqs⟩
      · rintro (h1 | ⟨q, rfl | hq, hqs⟩)
        · exact Or.inl (Or.inl h1)
        · exact Or.inl (Or.inr (by omega))
        · exact Or.inr ⟨q, hq, hqs⟩

theorem encode_ok (bitlen : Nat) (ofst : Int) : ∀ (v : List Int) (d0 : Nat),
    (∀ p ∈ v, p < ofst + bitlen) →
    ∃ d, v.foldlM (fun (d : Nat) (p : Int) =>
      let k := p - ofst
      let s := (bitlen : Int) - k - 1
      if s < 0 then (.error .valueError : Py Nat) else .ok (d ||| (1 <<< s.toNat))) d0 = .ok d
  | [], d0, _ => ⟨d0, rfl⟩
  | p :: v, d0, h => by
    rw [List.foldlM_cons]
    have hp := h p (by simp)
    simp only
    rw [if_neg (by omega)]
    exact encode_ok bitlen ofst v _ (fun q hq => h q (List.mem_cons_of_mem _ hq))

theorem encode_err (bitlen : Nat) (ofst : Int) : ∀ (v : List Int) (d0 : Nat),
    (∃ p ∈ v, ofst + bitlen ≤ p) →
    v.foldlM (fun (d : Nat) (p : Int) =>
      let k := p - ofst
      let s := (bitlen : Int) - k - 1
      if s < 0 then (.error .valueError : Py Nat) else .ok (d ||| (1 <<< s.toNat))) d0
      = .error .valueError
  | [], d0, h => by simp at h
  | p :: v, d0, h => by
    rw [List.foldlM_cons]
    simp only
    split
    · rfl
    · rename_i hs
      obtain ⟨q, hq, hqs⟩ := h
      rcases List.mem_cons.mp hq with rfl | hq
      · omega
      · exact encode_err bitlen ofst v _ ⟨q, hq, hqs⟩

end Verif.Mask
