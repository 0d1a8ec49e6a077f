import Verif.Model.RtcmSsr
import Verif.Lemmas.At
import Verif.Lemmas.Post
/-!
Sequential bit writers: what a chain of `pack_into` calls leaves in the buffer.
-/

namespace Verif.RtcmSsr

/-- from `p` to `p'` the bits `l` were written, nothing else changed -/
structure Wr (p p' : Pos) (l : List Bool) : Prop where
  fits : p.2 + l.length ≤ p.1.length
  buf : p'.1 = splice p.1 p.2 l
  pos : p'.2 = p.2 + l.length

theorem Wr.at_ {p p' : Pos} {l : List Bool} (h : Wr p p' l) : At p'.1 p.2 l := by
  rw [h.buf]
  have hf := h.fits
  refine ⟨?_, p.1.drop (p.2 + l.length), ?_⟩
  · unfold splice; simp; omega
  · unfold splice
    rw [List.append_assoc, List.drop_append_of_le_length (by rw [List.length_take]; omega)]
    rw [List.drop_eq_nil_of_le (by rw [List.length_take]; omega), List.nil_append]

theorem Wr.len {p p' : Pos} {l : List Bool} (h : Wr p p' l) : p'.1.length = p.1.length := by
  rw [h.buf]; exact splice_length _ _ _ h.fits

theorem Wr.nil {p : Pos} (h : p.2 ≤ p.1.length) : Wr p p [] := by
  refine ⟨by simpa using h, ?_, by simp⟩
  unfold splice
  simp

theorem Wr.trans {p q r : Pos} {l m : List Bool} (h1 : Wr p q l) (h2 : Wr q r m) : Wr p r (l ++ m) := by
  have f1 := h1.fits
  have f2 := h2.fits
  have e := h1.len
  have p1 := h1.pos
  have p2 := h2.pos
  refine ⟨by rw [List.length_append]; omega, ?_, by rw [List.length_append]; omega⟩
  apply List.ext_getElem?
  intro k
  rw [splice_getElem? _ _ _ (by rw [List.length_append]; omega), h2.buf,
    splice_getElem? _ _ _ (by omega), h1.buf, splice_getElem? _ _ _ f1, List.length_append]
  by_cases c1 : q.2 ≤ k ∧ k < q.2 + m.length
  · rw [if_pos c1, if_pos (by omega), List.getElem?_append_right (by omega)]
    congr 1; omega
  · rw [if_neg c1]
    by_cases c2 : p.2 ≤ k ∧ k < p.2 + l.length
    · rw [if_pos c2, if_pos (by omega), List.getElem?_append_left (by omega)]
    · rw [if_neg c2, if_neg (by omega)]

theorem Wr.le {p p' : Pos} {l : List Bool} (h : Wr p p' l) : p'.2 ≤ p'.1.length := by
  rw [h.len, h.pos]; exact h.fits

theorem putU_wr {p p' : Pos} {n : Nat} {v : Int} (h : putU p n v = .ok p') :
    0 ≤ v ∧ v < 2 ^ n ∧ Wr p p' (natToBits n v.toNat) := by
  unfold putU at h
  by_cases c : v < 0
  · rw [if_pos c] at h; cases h
  · rw [if_neg c] at h
    unfold writeU at h
    by_cases c1 : v.toNat < 2 ^ n
    · rw [if_pos c1] at h
      by_cases c2 : p.2 + n ≤ p.1.length
      · rw [if_pos c2] at h
        simp only [Except.ok.injEq] at h
        subst h
        refine ⟨by omega, ?_, ⟨by rw [natToBits_length]; exact c2, rfl, by rw [natToBits_length]⟩⟩
        have : (v.toNat : Int) < 2 ^ n := by exact_mod_cast c1
        omega
      · rw [if_neg c2] at h; cases h
    · rw [if_neg c1] at h; cases h

theorem putS_wr {p p' : Pos} {n : Nat} {v : Int} (h : putS p n v = .ok p') :
    0 < n ∧ -(2 ^ (n - 1) : Int) ≤ v ∧ v < 2 ^ (n - 1) ∧ Wr p p' (natToBits n (ofSigned n v)) := by
  unfold putS writeS at h
  by_cases c : 0 < n ∧ -(2 ^ (n - 1) : Int) ≤ v ∧ v < 2 ^ (n - 1)
  · rw [if_pos c] at h
    refine ⟨c.1, c.2.1, c.2.2, ?_⟩
    have hp : putU p n (ofSigned n v : Nat) = .ok p' := by
      unfold putU
      rw [if_neg (by omega), Int.toNat_natCast]
      exact h
    have := (putU_wr hp).2.2
    rwa [Int.toNat_natCast] at this
  · rw [if_neg c] at h; cases h

/-- writing succeeds when the value fits and the field lies in the buffer -/
theorem putU_ok {p : Pos} {n : Nat} {v : Int} (h0 : 0 ≤ v) (h1 : v < 2 ^ n)
    (h2 : p.2 + n ≤ p.1.length) : ∃ p', putU p n v = .ok p' := by
  unfold putU writeU
  have : v.toNat < 2 ^ n := by
    have e : ((2 ^ n : Nat) : Int) = 2 ^ n := by simp
    omega
  rw [if_neg (by omega), if_pos this, if_pos h2]
  exact ⟨_, rfl⟩

/-! Reading back -/

/-- a field layout: the value written as unsigned integer is read back -/
theorem At.stepI {b : BitBuf} {i n : Nat} {v : Int} {m : List Bool} (h : At b i (natToBits n v.toNat ++ m))
    (h0 : 0 ≤ v) (h1 : v < 2 ^ n) : readU b i n = .ok v.toNat ∧ At b (i + n) m := by
  refine At.step h ?_
  have e : ((2 ^ n : Nat) : Int) = 2 ^ n := by simp
  omega

/-- writing a list of records one after the other -/
theorem loop_wr {f : Int → Pos → Py Pos} {bits : Int → List Bool} {P : Int → Prop}
    (hf : ∀ s p p', f s p = .ok p' → P s ∧ Wr p p' (bits s)) :
    ∀ (l : List Int) (p p' : Pos), p.2 ≤ p.1.length → encodeLoop f l p = .ok p' →
      (∀ s ∈ l, P s) ∧ Wr p p' (l.flatMap bits)
  | [], p, p', hp, h => by
    unfold encodeLoop at h
    rw [List.foldlM_nil] at h
    cases h
    exact ⟨by simp, Wr.nil hp⟩
  | s :: l, p, p', hp, h => by
    unfold encodeLoop at h
    rw [List.foldlM_cons] at h
    obtain ⟨q, h1, h2⟩ := Py.bind_ok.1 h
    obtain ⟨a, b⟩ := hf s p q h1
    obtain ⟨c, d⟩ := loop_wr hf l q p' b.le h2
    refine ⟨?_, ?_⟩
    · intro x hx
      rcases List.mem_cons.1 hx with e | e
      · rw [e]; exact a
      · exact c x e
    · rw [List.flatMap_cons]; exact b.trans d

end Verif.RtcmSsr
