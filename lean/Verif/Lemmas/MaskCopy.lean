import Verif.Model.Qznma
import Verif.Lemmas.Post
import Verif.Props.C08
import Mathlib.Data.Nat.Bitwise
import Mathlib.Data.List.Induction
/-! Bits of masked field copies. -/

namespace Verif

theorem natToBits_getElem? (n v : Nat) : ∀ j, j < n → (natToBits n v)[j]? = some (v.testBit (n - 1 - j)) := by
  induction n with
  | zero => intro j h; omega
  | succ n ih =>
    intro j h
    cases j with
    | zero =>
      simp only [natToBits, List.getElem?_cons_zero, Nat.add_sub_cancel, Nat.sub_zero]
      congr 1
      rw [Nat.testBit_eq_decide_div_mod_eq]
      rfl
    | succ j =>
      simp only [natToBits, List.getElem?_cons_succ]
      rw [ih j (by omega)]
      congr 2
      omega

theorem testBit_bitsToNat (l : List Bool) (j : Nat) (h : j < l.length) :
    l[j]? = some ((bitsToNat l).testBit (l.length - 1 - j)) := by
  rw [← natToBits_getElem? l.length (bitsToNat l) j h, natToBits_bitsToNat]

namespace Qznma

theorem maskCopy_ok (src dst : BitBuf) (is id n mask : Nat) (hs : is + n ≤ src.length)
    (hd : id + n ≤ dst.length) :
    ∃ out, maskCopy src dst is id n mask = .ok out ∧ out.length = dst.length ∧
      ∀ q, out[q]? = if id ≤ q ∧ q < id + n then
        (src[is + (q - id)]?).map (· && mask.testBit (n - 1 - (q - id))) else dst[q]? := by
  have hl : ((src.drop is).take n).length = n := by simp; omega
  have hlt := bitsToNat_lt ((src.drop is).take n)
  rw [hl] at hlt
  have hand : bitsToNat ((src.drop is).take n) &&& mask < 2 ^ n := Nat.lt_of_le_of_lt Nat.and_le_left hlt
  refine ⟨splice dst id (natToBits n (bitsToNat ((src.drop is).take n) &&& mask)), ?_, ?_, ?_⟩
  · unfold maskCopy readU
    rw [if_pos hs]
    change writeU dst id n _ = _
    unfold writeU
    rw [if_pos hand, if_pos hd]
  · exact splice_length _ _ _ (by simpa using hd)
  · intro q
    rw [splice_getElem? _ _ _ (by simpa using hd), natToBits_length]
    split
    · rename_i hq
      have h1 := testBit_bitsToNat ((src.drop is).take n) (q - id) (by omega)
      rw [hl] at h1
      rw [natToBits_getElem? _ _ _ (by omega), Nat.testBit_and,
        ← (show ((src.drop is).take n)[q - id]? = src[is + (q - id)]? by
          rw [List.getElem?_take_of_lt (by omega), List.getElem?_drop]), h1]
      rfl
    · rfl

/-- one masked copy: source, destination, width, mask -/
structure Seg where
  is : Nat
  id : Nat
  n : Nat
  mask : Nat

/-- a list of masked copies -/
def maskAll (src : BitBuf) (segs : List Seg) (dst : BitBuf) : Py BitBuf :=
  segs.foldlM (fun d s => maskCopy src d s.is s.id s.n s.mask) dst

theorem foldlM_nest {α β γ : Type} (f : α → β → γ → Py α) (l : List β) (g : β → List γ) (a : α) :
    l.foldlM (fun a b => (g b).foldlM (fun a c => f a b c) a) a =
      (l.flatMap fun b => (g b).map fun c => (b, c)).foldlM (fun a p => f a p.1 p.2) a := by
  induction l generalizing a with
  | nil => rfl
  | cons b l ih =>
    rw [List.foldlM_cons, List.flatMap_cons, List.foldlM_append]
    congr 1
    · rw [List.foldlM_map]
    · funext x; exact ih x

/-- the segment a destination bit lies in: source bit and whether it is kept -/
def covered (segs : List Seg) (q : Nat) : Option (Nat × Bool) :=
  (segs.reverse.find? fun s => decide (s.id ≤ q ∧ q < s.id + s.n)).map fun s =>
    (s.is + (q - s.id), s.mask.testBit (s.n - 1 - (q - s.id)))

theorem maskAll_bits (src : BitBuf) (segs : List Seg) (dst : BitBuf)
    (h : ∀ s ∈ segs, s.is + s.n ≤ src.length ∧ s.id + s.n ≤ dst.length) :
    ∃ out, maskAll src segs dst = .ok out ∧ out.length = dst.length ∧
      ∀ q, out[q]? = match covered segs q with
        | some (i, keep) => (src[i]?).map (· && keep)
        | none => dst[q]? := by
  induction segs using List.reverseRecOn with
  | nil => exact ⟨dst, rfl, rfl, fun q => rfl⟩
  | append_singleton segs s ih =>
    obtain ⟨o1, h1, h2, h3⟩ := ih fun s' hs' => h s' (by simp [hs'])
    have hs := h s (by simp)
    obtain ⟨o2, g1, g2, g3⟩ := maskCopy_ok src o1 s.is s.id s.n s.mask hs.1 (by omega)
    refine ⟨o2, ?_, by omega, fun q => ?_⟩
    · unfold maskAll at h1 ⊢
      rw [List.foldlM_append, h1, Py.okBind, List.foldlM_cons, g1]
      rfl
    · rw [g3 q]
      unfold covered
      rw [List.reverse_append, List.reverse_singleton, List.singleton_append, List.find?_cons]
      by_cases hc : s.id ≤ q ∧ q < s.id + s.n
      · rw [if_pos hc]; simp only [hc, and_self, decide_true, Option.map_some]
      · rw [if_neg hc]; simp only [hc, decide_false]
        exact h3 q

/-- a table of the bits of a masked copy into a zeroed buffer -/
theorem maskAll_table (src : BitBuf) (segs : List Seg) (n m : Nat) (f : Nat → Option Nat)
    (hs : ∀ s ∈ segs, s.is + s.n ≤ m ∧ s.id + s.n ≤ 8 * n) (hm : m ≤ src.length)
    (ht : ∀ q, q < 8 * n → (match covered segs q with
      | some (i, true) => some i | _ => none) = f q) :
    ∃ out, maskAll src segs (zeros n) = .ok out ∧ out.length = 8 * n ∧
      ∀ q, q < 8 * n → out[q]? = some (match f q with | some i => src.getD i false | none => false) := by
  have hz : (zeros n).length = 8 * n := List.length_replicate
  obtain ⟨out, h1, h2, h3⟩ := maskAll_bits src segs (zeros n)
    (fun s h => by have := hs s h; rw [hz]; exact ⟨by omega, this.2⟩)
  refine ⟨out, h1, by omega, fun q hq => ?_⟩
  rw [h3 q, ← ht q hq]
  have hz2 : (zeros n)[q]? = some false := by
    unfold zeros; rw [List.getElem?_replicate, if_pos hq]
  have hlen : ∀ i k, covered segs q = some (i, k) → i < src.length := by
    intro i k hc
    unfold covered at hc
    rw [Option.map_eq_some_iff] at hc
    obtain ⟨s, hf, he⟩ := hc
    have hmem := List.mem_reverse.1 (List.mem_of_find?_eq_some hf)
    have hp := List.find?_some hf
    simp only [decide_eq_true_eq] at hp
    have := hs s hmem
    simp only [Prod.mk.injEq] at he
    omega
  cases hc : covered segs q with
  | none => simp only [hz2]
  | some p =>
    obtain ⟨i, k⟩ := p
    have := hlen i k hc
    cases k
    · simp [List.getElem?_eq_getElem this]
    · simp [List.getD_eq_getElem?_getD, List.getElem?_eq_getElem this]

/-- when the source is too short -/
theorem maskAll_err (src : BitBuf) (segs : List Seg) (dst : BitBuf) (s : Seg) (hs : s ∈ segs)
    (h : ¬ s.is + s.n ≤ src.length) : maskAll src segs dst = .error .bitstruct := by
  unfold maskAll
  induction segs generalizing dst with
  | nil => simp at hs
  | cons t segs ih =>
    rw [List.foldlM_cons]
    rcases List.mem_cons.1 hs with rfl | hs
    · unfold maskCopy readU
      rw [if_neg h]; rfl
    · cases hc : maskCopy src dst t.is t.id t.n t.mask with
      | ok d => exact ih d hs
      | error e =>
        have : e = .bitstruct := by
          unfold maskCopy readU writeU at hc
          split at hc
          · simp only [Py.okBind] at hc
            split at hc
            · split at hc <;> cases hc
              rfl
            · cases hc; rfl
          · cases hc; rfl
        rw [this]; rfl

end Qznma
end Verif
