import Verif.Lemmas.Read
import Verif.Lemmas.At
import Verif.Lemmas.Slots
import Verif.Lemmas.Post
/-!
Messages consisting of consecutive fields, and decoders that collect messages.
-/

namespace Verif.Lay

variable {F : Type} [DecidableEq F]

/-- the fields of a message in order: name, width, two's complement -/
abbrev Layout (F : Type) := List (F × Nat × Bool)

/-- the value of a field of a message of the layout starting at bit `i` -/
def num : Layout F → BitBuf → Nat → F → Int
  | [], _, _, _ => 0
  | (g, w, s) :: L, b, i, f =>
    if g = f then (if s then intAt b i w else (bitsAt b i w : Int)) else num L b (i + w) f

def size : Layout F → Nat
  | [] => 0
  | (_, w, _) :: L => w + size L

/-- the bits of a message with given field values -/
def encode (L : Layout F) (v : F → Int) : List Bool := L.flatMap fun x => natToBits x.2.1 (ofSigned x.2.1 (v x.1))

/-- the values fit their fields -/
def Fit (L : Layout F) (v : F → Int) : Prop := ∀ x ∈ L, 0 < x.2.1 ∧
  (if x.2.2 then -(2 ^ (x.2.1 - 1) : Int) ≤ v x.1 ∧ v x.1 < 2 ^ (x.2.1 - 1) else 0 ≤ v x.1 ∧ v x.1 < 2 ^ x.2.1)

theorem num_encode : ∀ (L : Layout F) (v : F → Int) (b : BitBuf) (i : Nat), At b i (encode L v) → Fit L v →
    (L.map (·.1)).Nodup → ∀ f, f ∈ L.map (·.1) → num L b i f = v f := by
  intro L
  induction L with
  | nil => intro v b i _ _ _ f hf; cases hf
  | cons x L ih =>
    obtain ⟨g, w, s⟩ := x
    intro v b i hA hF hN f hf
    have hA' : At b i (natToBits w (ofSigned w (v g)) ++ encode L v) := hA
    have h0 := hF (g, w, s) (by simp)
    rw [num]
    by_cases hg : g = f
    · subst hg
      rw [if_pos rfl]
      have hle := hA'.head.le
      rw [natToBits_length] at hle
      cases s with
      | true =>
        have h0' : 0 < w ∧ (-(2 ^ (w - 1) : Int) ≤ v g ∧ v g < 2 ^ (w - 1)) := h0
        have := hA'.head.readS h0'.1 h0'.2.1 h0'.2.2
        rw [readS_at hle] at this
        exact Except.ok.inj this
      | false =>
        have h0' : 0 < w ∧ (0 ≤ v g ∧ v g < 2 ^ w) := h0
        have hlt := ofSigned_lt w (v g)
        have := hA'.head.readU hlt
        rw [readU_at hle] at this
        have e := Except.ok.inj this
        show (bitsAt b i w : Int) = v g
        rw [e]
        unfold ofSigned
        rw [Int.toNat_of_nonneg (Int.emod_nonneg _ (by positivity))]
        exact Int.emod_eq_of_lt h0'.2.1 (by exact_mod_cast h0'.2.2)
    · rw [if_neg hg]
      rw [List.map_cons, List.nodup_cons] at hN
      refine ih v b (i + w) (hA'.tail' (natToBits_length w _)) (fun y hy => hF y (List.mem_cons_of_mem _ hy)) hN.2 f ?_
      rw [List.map_cons, List.mem_cons] at hf
      exact hf.resolve_left fun e => hg e.symm

theorem encode_length (L : Layout F) (v : F → Int) : (encode L v).length = size L := by
  induction L with
  | nil => rfl
  | cons x L ih =>
    obtain ⟨g, w, s⟩ := x
    show (natToBits w (ofSigned w (v g)) ++ encode L v).length = w + size L
    rw [List.length_append, natToBits_length, ih]

/-- offset, width and kind of a field -/
def loc : Layout F → Nat → F → Option (Nat × Nat × Bool)
  | [], _, _ => none
  | (g, w, s) :: L, i, f => if g = f then some (i, w, s) else loc L (i + w) f

theorem num_loc {L : Layout F} {i : Nat} {f : F} {o w : Nat} {s : Bool} (h : loc L i f = some (o, w, s)) (b : BitBuf) :
    num L b i f = if s then intAt b o w else (bitsAt b o w : Int) := by
  induction L generalizing i with
  | nil => cases h
  | cons x L ih =>
    obtain ⟨g, w', s'⟩ := x
    rw [loc] at h
    rw [num]
    by_cases c : g = f
    · rw [if_pos c] at h ⊢
      cases h
      rfl
    · rw [if_neg c] at h ⊢
      exact ih h

theorem num_u {L : Layout F} {i : Nat} {f : F} {o w : Nat} (h : loc L i f = some (o, w, false)) (b : BitBuf) :
    num L b i f = (bitsAt b o w : Int) := num_loc h b

theorem num_s {L : Layout F} {i : Nat} {f : F} {o w : Nat} (h : loc L i f = some (o, w, true)) (b : BitBuf) :
    num L b i f = intAt b o w := num_loc h b

end Verif.Lay

namespace Verif.Slots

/-- the calls of a decoder one after the other, with the results -/
def run {C R D : Type} (step : D → C → Py (D × R)) (d : D) : List C → Py (D × List R)
  | [] => return (d, [])
  | c :: cs => do
    let (d, r) ← step d c
    let (d, rs) ← run step d cs
    return (d, r :: rs)

theorem run_spec {C R D : Type} {step : D → C → Py (D × R)} {res : List C → C → R} {Inv : D → List C → Prop}
    {Good : C → Prop}
    (hstep : ∀ d cs c, Inv d cs → Good c → ∃ d', step d c = .ok (d', res cs c) ∧ Inv d' (cs ++ [c])) :
    ∀ (cs pre : List C) (d : D), Inv d pre → (∀ c ∈ cs, Good c) →
      ∃ d' rs, run step d cs = .ok (d', rs) ∧ rs.length = cs.length ∧
        ∀ i (hi : i < cs.length), rs[i]? = some (res (pre ++ cs.take i) cs[i])
  | [], pre, d, hi, _ => ⟨d, [], rfl, rfl, fun i hi => absurd hi (by simp)⟩
  | c :: cs, pre, d, hi, hg => by
    obtain ⟨d1, e1, hi1⟩ := hstep d pre c hi (hg c (by simp))
    obtain ⟨d2, rs, e2, hl, hr⟩ := run_spec hstep cs (pre ++ [c]) d1 hi1 (fun c' h => hg c' (by simp [h]))
    refine ⟨d2, res pre c :: rs, ?_, by simp [hl], ?_⟩
    · unfold run
      rw [e1, Py.okBind]
      simp only
      rw [e2]
      rfl
    · intro i hi
      cases i with
      | zero => simp
      | succ i =>
        have := hr i (by simpa using hi)
        simpa using this

/-- for every sequence of calls each result is what `res` says about the calls before it -/
theorem history {C R D : Type} {step : D → C → Py (D × R)} {res : List C → C → R} {Inv : D → List C → Prop}
    {Good : C → Prop}
    (hstep : ∀ d cs c, Inv d cs → Good c → ∃ d', step d c = .ok (d', res cs c) ∧ Inv d' (cs ++ [c]))
    {d : D} (h0 : Inv d []) (cs : List C) (hg : ∀ c ∈ cs, Good c) :
    ∃ d' rs, run step d cs = .ok (d', rs) ∧ rs.length = cs.length ∧
      ∀ i (hi : i < cs.length), rs[i]? = some (res (cs.take i) cs[i]) := by
  obtain ⟨d', rs, h1, h2, h3⟩ := run_spec hstep cs [] d h0 hg
  exact ⟨d', rs, h1, h2, by simpa using h3⟩

variable {C : Type} {key : C → Option (Int × Nat)} {cont : C → BitBuf} {W : Nat} {off : Nat → Nat} {P : Nat → Prop}
  {L : Nat} {Dom : Int → Prop}

/-- all buffers hold the last parts; buffers may have grown -/
def CInv (key : C → Option (Int × Nat)) (cont : C → BitBuf) (W : Nat) (off : Nat → Nat) (P : Nat → Prop) (L : Nat)
    (Dom : Int → Prop) (d : Dict Int BitBuf) (cs : List C) : Prop :=
  ∀ s, Dom s → ∃ b, Dict.get? d s = some b ∧ L ≤ b.length ∧ Holds W off P b (lastC key cont cs s)

/-- a call for satellite key `s0` that changes the buffer at the place of its part only (at no place if
`kk` is `none`) -/
theorem CInv.step {d : Dict Int BitBuf} {cs : List C} {c : C} {s0 : Int} {b b' : BitBuf}
    (hi : CInv key cont W off P L Dom d cs) (hk : ∀ s k, Dom s → P k → key c = some (s, k) → s = s0)
    (hb : Dict.get? d s0 = some b) (hl : L ≤ b'.length)
    (h : ∀ k, P k → (b'.drop (off k)).take W = if key c = some (s0, k) then cont c else (b.drop (off k)).take W) :
    CInv key cont W off P L Dom (d.set s0 b') (cs ++ [c]) := by
  intro s hs
  by_cases e : s = s0
  · subst e
    refine ⟨b', Dict.get?_set_self _ _ _, hl, fun k hP => ?_⟩
    rw [h k hP, lastC_append]
    by_cases ck : key c = some (s, k)
    · rw [if_pos ck, if_pos ck]; rfl
    · rw [if_neg ck, if_neg ck]
      obtain ⟨b2, hb2, _, hh⟩ := hi s hs
      rw [hb] at hb2
      cases hb2
      exact hh k hP
  · obtain ⟨b2, hb2, hl2, hh⟩ := hi s hs
    refine ⟨b2, by rw [Dict.get?_set_ne _ _ e]; exact hb2, hl2, fun k hP => ?_⟩
    rw [lastC_append, if_neg (fun h => e (hk s k hs hP h))]
    exact hh k hP

theorem CInv.same {d : Dict Int BitBuf} {cs : List C} {c : C}
    (hi : CInv key cont W off P L Dom d cs) (hk : ∀ s k, Dom s → P k → key c ≠ some (s, k)) :
    CInv key cont W off P L Dom d (cs ++ [c]) := by
  intro s hs
  obtain ⟨b, hb, hl, hh⟩ := hi s hs
  refine ⟨b, hb, hl, fun k hP => ?_⟩
  rw [lastC_append, if_neg (hk s k hs hP)]
  exact hh k hP

theorem CInv.init {n : Nat} (hW : ∀ k, P k → off k + W ≤ 1600) (hD : ∀ s, Dom s → 0 ≤ s ∧ s < n) :
    CInv key cont W off P 1600 Dom (Rawnav.buffers n) [] := by
  intro s hs
  obtain ⟨h0, h1⟩ := hD s hs
  refine ⟨_, Rawnav.buffers_get h0 h1, by rw [List.length_replicate], ?_⟩
  intro k hk
  have := hW k hk
  show _ = List.replicate W false
  rw [List.drop_replicate, List.take_replicate]
  congr 1
  omega

end Verif.Slots
