import Verif.Props.C21
import Verif.Props.C22
import Verif.Lemmas.Read
/-!
# C64 What OSNMA tag sequences, MACSEQ values and signature messages must satisfy

Specification: the table of tag sequences in the notation of the interface document (data type, then S for a tag on the
transmitting satellite itself, E for one on another satellite; F for a slot of free choice), the bit layout of the MACK
section and of the two signature messages.
-/

namespace Verif.C64
open Verif.Osnma
variable {PK : Type}

/-! ## Tag sequences: specification -/

/-- a slot of a tag sequence -/
inductive Slot
  | fixed (adkd : Nat) (self : Bool)
  | flex
  deriving DecidableEq

def S (a : Nat) : Slot := .fixed a true
def E (a : Nat) : Slot := .fixed a false
def F : Slot := .flex

/-- the sequences: first sub-frame of the minute, second sub-frame -/
def sequences : Dict Int (List Slot × List Slot) :=
  [(27, [S 0, E 0, E 0, E 0, S 12, E 0], [S 0, E 0, E 0, S 4, S 12, E 0]),
   (28, [S 0, E 0, E 0, E 0, S 0, E 0, E 0, S 12, E 0, E 0], [S 0, E 0, E 0, S 0, E 0, E 0, S 4, S 12, E 0, E 0]),
   (31, [S 0, E 0, E 0, S 12, E 0], [S 0, E 0, E 0, S 12, S 4]),
   (33, [S 0, E 0, S 4, E 0, S 12, E 0], [S 0, E 0, E 0, S 12, E 0, E 12]),
   (34, [S 0, F, S 4, F, S 12, E 0], [S 0, F, E 0, S 12, E 0, E 12]),
   (35, [S 0, F, S 4, F, S 12, F], [S 0, F, F, S 12, F, F]),
   (36, [S 0, F, S 4, F, S 12], [S 0, F, E 0, S 12, E 12]),
   (37, [S 0, E 0, S 4, E 0, S 12], [S 0, E 0, E 0, S 12, E 0]),
   (38, [S 0, F, S 4, F, S 12], [S 0, F, F, S 12, F]),
   (39, [S 0, F, S 4, F], [S 0, F, E 0, S 12]),
   (40, [S 0, E 0, S 4, S 12], [S 0, E 0, E 0, E 12]),
   (41, [S 0, F, S 4, F], [S 0, F, F, S 12])]

/-- bits of a tag with its information, tag length `lt` -/
def wid (lt : Nat) : Nat := 8 * (lt / 8) + 16
/-- satellite and data type named by the information of tag `k` -/
def infoSat (s : St PK) (lt k : Nat) : Nat := bitsAt s.tag (wid lt * k + 8 * (lt / 8)) 8
def infoType (s : St PK) (lt k : Nat) : Nat := bitsAt s.tag (wid lt * k + 8 * (lt / 8) + 8) 4
/-- time of week of the sub-frame with the tags -/
def tagTow (s : St PK) : Nat := bitsAt s.gstSfP 12 20

/-- tag `k` fits a slot; `a` is the satellite that sent the tags -/
def Fits (s : St PK) (lt a k : Nat) : Slot → Prop
  | .fixed d self => infoType s lt k = d ∧ (self = true → infoSat s lt k = a)
  | .flex => True

/-- the tags are those of the announced sequence -/
def Prescribed (s : St PK) (lt a : Nat) : Prop :=
  ∃ l1 l2, sequences.get? s.maclt = some (l1, l2) ∧ s.nt = l1.length ∧
    ∀ k x, 1 ≤ k → (if tagTow s % 60 = 0 then l1 else l2)[k]? = some x → Fits s lt a k x

/-! ## Helpers -/

theorem seg_seg {b : BitBuf} {i n j m : Nat} (h : j + m ≤ n) : seg (seg b i n) j m = seg b (i + j) m := by
  unfold seg
  rw [List.drop_take, List.take_take, List.drop_drop]
  congr 1
  omega

theorem slice_seg (b : BitBuf) (i j : Nat) : slice b i j = seg b (8 * i) (8 * (j - i)) := rfl

theorem byteAt_seg {b : BitBuf} {i n k : Nat} (h : 8 * k + 8 ≤ n) (hb : i + n ≤ b.length) :
    byteAt (seg b i n) k = .ok (bitsAt b (i + 8 * k) 8) := by
  unfold byteAt
  rw [if_pos (by rw [seg_length hb]; exact h)]
  exact congrArg (fun x => Except.ok (bitsToNat x)) (seg_seg h)

theorem tagsInfo_eq {s : St PK} {lt k : Nat} (hlt : pyGetI tagLenT s.ts = .ok lt) (h : wid lt * (k + 1) ≤ s.tag.length) :
    tagsInfo s k = .ok (seg s.tag (wid lt * k) (8 * (lt / 8)), infoSat s lt k, infoType s lt k) := by
  unfold tagsInfo
  rw [hlt, Py.okBind]
  simp only [slice_seg]
  have hw : wid lt = 8 * (lt / 8) + 16 := rfl
  have e0 : 8 * (k * (lt / 8 + 2)) = wid lt * k := by rw [hw]; ring
  have e1 : 8 * (k * (lt / 8 + 2) + (lt / 8 + 2) - k * (lt / 8 + 2)) = wid lt := by rw [hw]; omega
  have e2 : 8 * (lt / 8 + 2 - lt / 8) = 16 := by omega
  rw [e0, e1, e2, seg_seg (by omega), seg_seg (by omega)]
  have hb : wid lt * k + 8 * (lt / 8) + 16 ≤ s.tag.length := by
    have : wid lt * (k + 1) = wid lt * k + wid lt := by ring
    omega
  rw [byteAt_seg (by omega) hb, Py.okBind, byteAt_seg (by omega) hb, Py.okBind]
  have e3 : bitsAt s.tag (wid lt * k + 8 * (lt / 8) + 8 * 1) 8 / 16 = infoType s lt k :=
    C22.nibble s.tag _ (by omega)
  rw [e3]
  have e4 : 8 * (lt / 8 - 0) = 8 * (lt / 8) := by omega
  rw [e4]
  rfl

theorem get_map {α β : Type} (f : α → β) (d : Dict Int α) (k : Int) :
    Dict.get? (d.map fun e => (e.1, f e.2)) k = (Dict.get? d k).map f := by
  unfold Dict.get?
  rw [List.find?_map, Option.map_map, Option.map_map]
  rfl

/-- codes of a slot in the two tables of the decoder -/
def Slot.mode : Slot → Nat
  | .fixed _ true => 1
  | .fixed _ false => 0
  | .flex => 2
def Slot.adkd : Slot → Nat
  | .fixed d _ => d
  | .flex => 0

theorem mode_get (m : Int) : modeT.get? m = (sequences.get? m).map fun l => (l.1 ++ l.2).map Slot.mode := by
  rw [← get_map (fun l : List Slot × List Slot => (l.1 ++ l.2).map Slot.mode)]
  rfl

theorem adkd_get (m : Int) : adkdT.get? m = (sequences.get? m).map fun l => (l.1 ++ l.2).map Slot.adkd := by
  rw [← get_map (fun l : List Slot × List Slot => (l.1 ++ l.2).map Slot.adkd)]
  rfl

theorem fits_iff {s : St PK} {lt a k : Nat} {x : Slot} :
    Fits s lt a k x ↔ (x.mode = 1 → infoSat s lt k = a) ∧ (x.mode ≠ 2 → infoType s lt k = x.adkd) := by
  cases x with
  | flex => simp [Fits, Slot.mode]
  | fixed d b => cases b <;> simp [Fits, Slot.mode, Slot.adkd, and_comm]

theorem loop_iff {s : St PK} {lt a ofst : Nat} {l : List Slot} (hlt : pyGetI tagLenT s.ts = .ok lt) (ha : s.prnA = some a)
    (hlen : wid lt * s.nt ≤ s.tag.length) : ∀ n k, k + n + 1 ≤ s.nt →
    (macltLoop s (l.map Slot.mode) (l.map Slot.adkd) ofst n k = .ok true ↔
      ∀ j, k < j → j ≤ k + n → ∃ x, l[j + ofst]? = some x ∧ Fits s lt a j x) := by
  intro n
  induction n with
  | zero =>
    intro k _
    simp only [macltLoop, Py.pure_ok, true_iff]
    intro j h1 h2; omega
  | succ n ih =>
    intro k hk
    unfold macltLoop
    have hw : wid lt * (k + 1 + 1) ≤ s.tag.length := (Nat.mul_le_mul_left _ (by omega)).trans hlen
    rw [tagsInfo_eq hlt hw, Py.okBind]
    simp only
    have hi : k + ofst + 1 = k + 1 + ofst := by omega
    rw [hi]
    have hga : getPrnA s = .ok a := by unfold getPrnA; rw [ha]
    have step : (∀ j, k < j → j ≤ k + (n + 1) → ∃ x, l[j + ofst]? = some x ∧ Fits s lt a j x) ↔
        (∃ x, l[k + 1 + ofst]? = some x ∧ Fits s lt a (k + 1) x) ∧
        ∀ j, k + 1 < j → j ≤ k + 1 + n → ∃ x, l[j + ofst]? = some x ∧ Fits s lt a j x := by
      constructor
      · intro h
        exact ⟨h (k + 1) (by omega) (by omega), fun j h1 h2 => h j (by omega) (by omega)⟩
      · rintro ⟨h0, h⟩ j h1 h2
        rcases (by omega : j = k + 1 ∨ k + 1 < j) with rfl | h3
        · exact h0
        · exact h j h3 (by omega)
    rw [step]
    cases hx : l[k + 1 + ofst]? with
    | none =>
      have e : pyGet (l.map Slot.mode) (k + 1 + ofst) = .error .indexError := by
        unfold pyGet; rw [List.getElem?_map, hx]; rfl
      rw [e]
      constructor
      · intro h; cases h
      · rintro ⟨⟨x, h, _⟩, _⟩; cases h
    | some x =>
      have e1 : pyGet (l.map Slot.mode) (k + 1 + ofst) = .ok x.mode := by
        unfold pyGet; rw [List.getElem?_map, hx]; rfl
      have e2 : pyGet (l.map Slot.adkd) (k + 1 + ofst) = .ok x.adkd := by
        unfold pyGet; rw [List.getElem?_map, hx]; rfl
      rw [e1, Py.okBind, hga, e2]
      simp only [Py.okBind]
      have hfit := fits_iff (s := s) (lt := lt) (a := a) (k := k + 1) (x := x)
      have hrest := ih (k + 1) (by omega)
      have goal1 : ((∃ y, some x = some y ∧ Fits s lt a (k + 1) y) ∧
          ∀ j, k + 1 < j → j ≤ k + 1 + n → ∃ x, l[j + ofst]? = some x ∧ Fits s lt a j x) ↔
          (Fits s lt a (k + 1) x ∧ macltLoop s (l.map Slot.mode) (l.map Slot.adkd) ofst n (k + 1) = .ok true) := by
        rw [hrest]
        constructor
        · rintro ⟨⟨y, hy, h⟩, h2⟩; cases hy; exact ⟨h, h2⟩
        · rintro ⟨h, h2⟩; exact ⟨⟨x, rfl, h⟩, h2⟩
      rw [goal1, hfit]
      generalize x.mode = m
      generalize x.adkd = d
      by_cases hm : m = 1
      · rw [if_pos hm]
        by_cases hs : infoSat s lt (k + 1) = a
        · have : decide (infoSat s lt (k + 1) ≠ a) = false := by simpa using hs
          simp only [Py.okBind, pure, Except.pure, bind, Except.bind, this, Bool.false_eq_true, if_false]
          rw [if_pos (by omega)]
          by_cases ht : infoType s lt (k + 1) = d
          · have h2 : decide (infoType s lt (k + 1) ≠ d) = false := by simpa using ht
            simp only [h2, Bool.false_eq_true, if_false]
            simp [hs, ht]
          · have h2 : decide (infoType s lt (k + 1) ≠ d) = true := by simpa using ht
            simp only [h2, if_true]
            simp [ht, hm]
        · have : decide (infoSat s lt (k + 1) ≠ a) = true := by simpa using hs
          simp only [Py.okBind, pure, Except.pure, bind, Except.bind, this, if_true]
          simp [hs, hm]
      · rw [if_neg hm]
        simp only [pure, Except.pure, bind, Except.bind, Bool.false_eq_true, if_false]
        by_cases hm2 : m = 2
        · rw [if_neg (by simpa using hm2)]
          simp [hm2]
        · rw [if_pos hm2]
          by_cases ht : infoType s lt (k + 1) = d
          · have h2 : decide (infoType s lt (k + 1) ≠ d) = false := by simpa using ht
            simp only [h2, Bool.false_eq_true, if_false]
            simp [hm, ht]
          · have h2 : decide (infoType s lt (k + 1) ≠ d) = true := by simpa using ht
            simp only [h2, if_true]
            simp [ht, hm2]

theorem tblOfst_eq {g : BitBuf} (hg : g.length = 32) : tblOfst g = .ok (if bitsAt g 12 20 % 60 = 0 then 0 else 6) := by
  unfold tblOfst
  rw [readU_at (by omega), Py.okBind, readU_at (by omega), Py.okBind]
  rfl

/-! ## Tag sequences -/

/-- **Check of the tag sequence**, exactly: slot `k` of the first sub-frame of a minute, slot `k + 6` of the
concatenated lists otherwise. -/
theorem sequence_iff (s : St PK) (lt a : Nat) (hlt : pyGetI tagLenT s.ts = .ok lt) (ha : s.prnA = some a)
    (hg : s.gstSfP.length = 32) (hlen : wid lt * s.nt ≤ s.tag.length) :
    verifyMaclt s = .ok true ↔ ∃ l1 l2, sequences.get? s.maclt = some (l1, l2) ∧
      2 * s.nt = l1.length + l2.length ∧ ∀ k, 1 ≤ k → k < s.nt →
        ∃ x, (l1 ++ l2)[k + if tagTow s % 60 = 0 then 0 else 6]? = some x ∧ Fits s lt a k x := by
  unfold verifyMaclt
  rw [mode_get]
  cases hs : sequences.get? s.maclt with
  | none =>
    constructor
    · intro h
      exact absurd (Py.pure_ok.1 h) (by simp)
    · rintro ⟨l1, l2, h, _⟩; cases h
  | some l =>
    obtain ⟨l1, l2⟩ := l
    have had : adkdT.getItem s.maclt = .ok ((l1 ++ l2).map Slot.adkd) :=
      (Dict.getItem_ok_iff _ _ _).2 (by rw [adkd_get, hs]; rfl)
    simp only [Option.map_some]
    rw [had, Py.okBind, tblOfst_eq hg, Py.okBind]
    have hl : ((l1 ++ l2).map Slot.adkd).length = l1.length + l2.length := by simp
    rw [hl]
    by_cases hn : s.nt * 2 = l1.length + l2.length
    · rw [if_neg (by simpa using hn)]
      rcases Nat.eq_zero_or_pos s.nt with h0 | h0
      · rw [h0]
        constructor
        · intro _
          exact ⟨l1, l2, rfl, by omega, fun k h1 h2 => by omega⟩
        · intro _; rfl
      rw [loop_iff hlt ha hlen (s.nt - 1) 0 (by omega)]
      constructor
      · intro h
        exact ⟨l1, l2, rfl, by omega, fun k h1 h2 => h k (by omega) (by omega)⟩
      · rintro ⟨m1, m2, hm, _, h⟩ j h1 h2
        cases hm
        exact h j (by omega) (by omega)
    · rw [if_pos hn]
      constructor
      · intro h; exact absurd (Py.pure_ok.1 h) (by simp)
      · rintro ⟨m1, m2, hm, h, _⟩
        cases hm
        omega

theorem sequences_even : ∀ e ∈ sequences, e.2.1.length = e.2.2.length ∧ 4 ≤ e.2.1.length := by decide

theorem get_mem {α : Type} {d : Dict Int α} {k : Int} {v : α} (h : Dict.get? d k = some v) : ∃ e ∈ d, e.2 = v := by
  unfold Dict.get? at h
  rw [Option.map_eq_some_iff] at h
  obtain ⟨e, he, rfl⟩ := h
  exact ⟨e, List.mem_of_find?_eq_some he, rfl⟩

/-- In the first sub-frame of a minute, and whenever a sub-frame has six tags, exactly the prescribed sequences pass. -/
theorem sequence_prescribed (s : St PK) (lt a : Nat) (hlt : pyGetI tagLenT s.ts = .ok lt) (ha : s.prnA = some a)
    (hg : s.gstSfP.length = 32) (hlen : wid lt * s.nt ≤ s.tag.length) (h6 : tagTow s % 60 = 0 ∨ s.nt = 6) :
    verifyMaclt s = .ok true ↔ Prescribed s lt a := by
  rw [sequence_iff s lt a hlt ha hg hlen]
  unfold Prescribed
  constructor
  · rintro ⟨l1, l2, h1, h2, h3⟩
    obtain ⟨e, he, hv⟩ := get_mem h1
    have hl := (sequences_even e he).1
    rw [hv] at hl
    simp only at hl
    refine ⟨l1, l2, h1, by omega, fun k x hk hx => ?_⟩
    have hkl : k < s.nt := by
      have := (List.getElem?_eq_some_iff.1 hx).1
      split at this <;> omega
    obtain ⟨y, hy, hf⟩ := h3 k hk hkl
    by_cases ht : tagTow s % 60 = 0
    · rw [if_pos ht] at hx hy
      rw [Nat.add_zero, List.getElem?_append_left (by omega), hx] at hy
      cases hy; exact hf
    · rw [if_neg ht] at hx hy
      have : s.nt = 6 := h6.resolve_left ht
      rw [List.getElem?_append_right (by omega), show k + 6 - l1.length = k by omega, hx] at hy
      cases hy; exact hf
  · rintro ⟨l1, l2, h1, h2, h3⟩
    obtain ⟨e, he, hv⟩ := get_mem h1
    have hl := (sequences_even e he).1
    rw [hv] at hl
    simp only at hl
    refine ⟨l1, l2, h1, by omega, fun k hk hkn => ?_⟩
    by_cases ht : tagTow s % 60 = 0
    · rw [if_pos ht] at h3 ⊢
      rw [Nat.add_zero, List.getElem?_append_left (by omega)]
      exact ⟨_, List.getElem?_eq_getElem (by omega), h3 k _ hk (List.getElem?_eq_getElem (by omega))⟩
    · rw [if_neg ht] at h3 ⊢
      have : s.nt = 6 := h6.resolve_left ht
      rw [List.getElem?_append_right (by omega), show k + 6 - l1.length = k by omega]
      exact ⟨_, List.getElem?_eq_getElem (by omega), h3 k _ hk (List.getElem?_eq_getElem (by omega))⟩

/-- In the second sub-frame of a minute no sequence with four or five tags passes. -/
theorem sequence_short (s : St PK) (lt a : Nat) (hlt : pyGetI tagLenT s.ts = .ok lt) (ha : s.prnA = some a)
    (hg : s.gstSfP.length = 32) (hlen : wid lt * s.nt ≤ s.tag.length) (h2 : tagTow s % 60 ≠ 0) (h6 : s.nt < 6) :
    verifyMaclt s ≠ .ok true := by
  rw [Ne, sequence_iff s lt a hlt ha hg hlen]
  rintro ⟨l1, l2, e1, e2, e3⟩
  obtain ⟨e, he, hv⟩ := get_mem e1
  have hl := sequences_even e he
  rw [hv] at hl
  simp only at hl
  obtain ⟨x, hx, -⟩ := e3 (s.nt - 1) (by omega) (by omega)
  rw [if_neg h2] at hx
  have := (List.getElem?_eq_some_iff.1 hx).1
  rw [List.length_append] at this
  omega

/-- In the second sub-frame of a minute a prescribed sequence passes only if it has six tags. -/
theorem sequence_second (s : St PK) (lt a : Nat) (hlt : pyGetI tagLenT s.ts = .ok lt) (ha : s.prnA = some a)
    (hg : s.gstSfP.length = 32) (hlen : wid lt * s.nt ≤ s.tag.length) (h2 : tagTow s % 60 ≠ 0)
    (h : verifyMaclt s = .ok true) (hp : Prescribed s lt a) : s.nt = 6 := by
  have h6 : ¬ s.nt < 6 := fun h6 => sequence_short s lt a hlt ha hg hlen h2 h6 h
  rw [sequence_iff s lt a hlt ha hg hlen] at h
  obtain ⟨l1, l2, e1, e2, e3⟩ := h
  obtain ⟨m1, m2, f1, f2, f3⟩ := hp
  rw [e1] at f1
  cases f1
  by_contra hn
  have hall : ∀ e ∈ sequences, e.2.1.length ≤ 6 ∨ (e.2.1 ++ e.2.2)[7]? = some (S 12) ∧ e.2.2[1]? = some (E 0) := by decide
  obtain ⟨e, he, hv⟩ := get_mem e1
  have hx := hall e he
  rw [hv] at hx
  rcases hx with hx | ⟨hx, hy⟩
  · simp only at hx
    omega
  · obtain ⟨x, g1, g2⟩ := e3 1 (by omega) (by omega)
    rw [if_neg h2] at g1
    rw [show 1 + 6 = 7 from rfl, hx] at g1
    cases g1
    have g3 := f3 1 (E 0) (by omega) (by rw [if_neg h2]; exact hy)
    have := g2.1.symm.trans g3.1
    cases this

/-! ## MACSEQ -/

/-- the information of the tags in slots of free choice -/
def flexInfo (s : St PK) (lt : Nat) (l : List Slot) : BitBuf :=
  ((List.range s.nt).filter fun k => l[k]? = some .flex).flatMap fun k => seg s.tag (wid lt * k + 8 * (lt / 8)) 16

theorem flexLoop_eq {s : St PK} {lt ofst : Nat} {l m : List Slot} (hm : ∀ k < s.nt, m[k + ofst]? = l[k]?)
    (hl : s.nt ≤ l.length) (z : BitBuf) : ∀ n k, k + n = s.nt →
    flexLoop s (m.map Slot.mode) ofst (lt / 8 + 2) n k
      (z ++ ((List.range k).filter fun k => l[k]? = some .flex).flatMap fun k => seg s.tag (wid lt * k + 8 * (lt / 8)) 16) =
    .ok (z ++ flexInfo s lt l) := by
  intro n
  induction n with
  | zero =>
    intro k hk
    rw [show k = s.nt by omega]; rfl
  | succ n ih =>
    intro k hk
    unfold flexLoop
    have hx : l[k]? = some (l[k]'(by omega)) := List.getElem?_eq_getElem _
    have e : pyGet (m.map Slot.mode) (k + ofst) = .ok (l[k]'(by omega)).mode := by
      unfold pyGet; rw [List.getElem?_map, hm k (by omega), hx]; rfl
    rw [e, Py.okBind]
    rw [← ih (k + 1) (by omega)]
    dsimp only
    congr 1
    rw [List.range_succ, List.filter_append, List.flatMap_append, ← List.append_assoc]
    generalize l[k]'(by omega) = x at hx
    cases x with
    | flex =>
      rw [if_neg (by simp [Slot.mode])]
      have hf : List.filter (fun k => decide (l[k]? = some Slot.flex)) [k] = [k] := by simp [hx]
      rw [hf]
      simp only [List.flatMap_cons, List.flatMap_nil, List.append_nil, slice_seg]
      congr 2
      · unfold wid; ring_nf; omega
      · omega
    | fixed d b =>
      have : (Slot.fixed d b).mode ≠ 2 := by cases b <;> simp [Slot.mode]
      rw [if_pos this]
      have hf : List.filter (fun k => decide (l[k]? = some Slot.flex)) [k] = [] := by simp [hx]
      rw [hf]; simp

/-- **Check of MACSEQ.** The first twelve bits of the MAC of the sender, the time of the sub-frame and the information
of the freely chosen tags must be those that follow the first tag. -/
theorem macseq_iff (p : Prim PK) (s : St PK) (lt a : Nat) (l1 l2 : List Slot) (c : BitBuf)
    (hlt : pyGetI tagLenT s.ts = .ok lt) (ha : s.prnA = some a) (ha2 : a < 256)
    (hg : s.gstSfP.length = 32) (hlen : wid lt * s.nt ≤ s.tag.length) (h6 : tagTow s % 60 = 0 ∨ s.nt = 6)
    (hs : sequences.get? s.maclt = some (l1, l2)) (hn : s.nt = l1.length) (hmf : s.mf = 0 ∨ s.mf = 1)
    (hmac : p.mac s.mf s.key (natToBits 8 a ++ s.gstSfP ++ flexInfo s lt (if tagTow s % 60 = 0 then l1 else l2)) = .ok c)
    (hc : 12 ≤ c.length) :
    verifyMacseq p s = .ok (decide (seg s.tag (8 * (lt / 8)) 12 = c.take 12)) := by
  obtain ⟨e, he, hv⟩ := get_mem hs
  have hl := sequences_even e he
  rw [hv] at hl
  simp only at hl
  have hga : getPrnA s = .ok a := by unfold getPrnA; rw [ha]
  unfold verifyMacseq
  rw [hga, Py.okBind, if_neg (by omega), mode_get, hs]
  simp only [Option.map_some]
  rw [tblOfst_eq hg, Py.okBind, hlt, Py.okBind]
  have hfl := flexLoop_eq (s := s) (lt := lt) (ofst := if bitsAt s.gstSfP 12 20 % 60 = 0 then 0 else 6)
    (l := if tagTow s % 60 = 0 then l1 else l2) (m := l1 ++ l2) (by
      intro k hk
      by_cases ht : tagTow s % 60 = 0
      · rw [if_pos ht, if_pos (show bitsAt s.gstSfP 12 20 % 60 = 0 from ht), Nat.add_zero, List.getElem?_append_left (by omega)]
      · rw [if_neg ht, if_neg (show ¬ bitsAt s.gstSfP 12 20 % 60 = 0 from ht)]
        have : s.nt = 6 := h6.resolve_left ht
        rw [List.getElem?_append_right (by omega), show k + 6 - l1.length = k by omega])
    (by split <;> omega) (natToBits 8 a ++ s.gstSfP) s.nt 0 (by omega)
  rw [show ∀ f : Nat → BitBuf, ((List.range 0).filter fun k => (if tagTow s % 60 = 0 then l1 else l2)[k]? = some Slot.flex).flatMap f = []
    from fun _ => rfl, List.append_nil] at hfl
  rw [hfl, Py.okBind]
  unfold processMac
  rw [if_pos hmf, hmac, Py.okBind]
  unfold tagsInfo0
  rw [hlt, Py.okBind]
  simp only [slice_seg]
  have hw : wid lt = 8 * (lt / 8) + 16 := rfl
  have hb : wid lt ≤ s.tag.length := by
    have : wid lt * 1 ≤ wid lt * s.nt := Nat.mul_le_mul_left _ (by omega)
    omega
  rw [show 8 * (lt / 8 + 2 - lt / 8) = 16 by omega, seg_seg (by omega)]
  rw [byteAt_seg (by omega) (by omega), Py.okBind]
  simp only [pure, Except.pure, Py.okBind]
  have ht12 : (seg s.tag (8 * 0 + 8 * (lt / 8)) 16).take 12 = seg s.tag (8 * (lt / 8)) 12 := by
    unfold seg; rw [List.take_take]; simp
  rw [ht12]
  have h12 : (seg s.tag (8 * (lt / 8)) 12).length = 12 := seg_length (by omega)
  rw [readU_at (b := c) (by omega), Py.okBind, readU_at (by rw [List.length_append, h12]; simp), Py.okBind]
  have e1 : bitsAt (seg s.tag (8 * (lt / 8)) 12 ++ List.replicate 4 false) 0 12 = bitsToNat (seg s.tag (8 * (lt / 8)) 12) := by
    unfold bitsAt
    rw [List.drop_zero, List.take_left' h12]
  have e2 : bitsAt c 0 12 = bitsToNat (c.take 12) := rfl
  rw [e1, e2]
  congr 1
  rw [decide_eq_decide]
  constructor
  · intro h
    exact bitsToNat_injective (by rw [h12, List.length_take]; omega) h
  · intro h; rw [h]

/-! ## MACK sections -/

theorem pyGetI_mem {l : List Nat} {i : Int} {x : Nat} (h : pyGetI l i = .ok x) : x ∈ l := by
  unfold pyGetI pyGet at h
  split at h
  · split at h
    · rename_i y hy; cases h; exact List.mem_of_getElem? hy
    · cases h
  · split at h
    · split at h
      · rename_i y hy; cases h; exact List.mem_of_getElem? hy
      · cases h
    · cases h

/-- **Sections of a MACK message.** The tags come from the previous message of the satellite, the keys from both. -/
theorem mack_sections (s : St PK) (prn lt lk : Nat) (hlt : pyGetI tagLenT s.ts = .ok lt) (hlk : pyGetI klenT s.ks = .ok lk)
    (hp : (s.mackP prn).length = 480) (hc : (s.mackC prn).length = 480) :
    ∃ t, decodeMack s prn = .ok t ∧ t.nt = (480 - lk) / (lt + 16) ∧ t.tag.length = wid lt * t.nt ∧
      (∀ k i n, i + n ≤ wid lt → k < t.nt → seg t.tag (wid lt * k + i) n = seg (s.mackP prn) (wid lt * k + i) n) ∧
      t.keyP = seg (s.mackP prn) (wid lt * t.nt) lk ∧ t.keyC = seg (s.mackC prn) (wid lt * t.nt) lk ∧
      t.keyP.length = lk ∧ t.keyC.length = lk ∧
      t = { s with nt := t.nt, tag := t.tag, keyP := t.keyP, keyC := t.keyC } := by
  unfold decodeMack
  rw [hlt, Py.okBind, hlk, Py.okBind]
  have hk8 : lk % 8 = 0 ∧ lk ≤ 256 := by
    have : ∀ x ∈ klenT, x % 8 = 0 ∧ x ≤ 256 := by decide
    exact this lk (pyGetI_mem hlk)
  have hw : 8 * ((lt + 16) / 8) = wid lt := by unfold wid; omega
  set nt := (480 - lk) / (lt + 16) with hnt
  have hfit : wid lt * nt ≤ 480 - lk := by
    calc wid lt * nt ≤ (lt + 16) * nt := Nat.mul_le_mul_right _ (by unfold wid; omega)
      _ ≤ 480 - lk := Nat.mul_div_le _ _
  have e1 : 8 * ((lt + 16) / 8 * nt - 0) = wid lt * nt := by rw [Nat.sub_zero, ← Nat.mul_assoc, hw]
  have e2 : 8 * ((lt + 16) / 8 * nt) = wid lt * nt := by rw [← Nat.mul_assoc, hw]
  have e3 : 8 * ((lt + 16) / 8 * nt + lk / 8 - (lt + 16) / 8 * nt) = lk := by omega
  refine ⟨_, rfl, rfl, ?_, fun k i n hi hk => ?_, ?_, ?_, ?_, ?_, rfl⟩
  · show (slice _ _ _).length = wid lt * nt
    rw [slice_seg, e1]
    exact seg_length (by omega)
  · show seg (slice _ _ _) _ _ = _
    rw [slice_seg, e1, seg_seg]
    · rw [Nat.mul_zero, Nat.zero_add]
    · have : wid lt * (k + 1) ≤ wid lt * nt := Nat.mul_le_mul_left _ hk
      rw [Nat.mul_add, Nat.mul_one] at this
      omega
  · show slice _ _ _ = _
    rw [slice_seg, e2, e3]
  · show slice _ _ _ = _
    rw [slice_seg, e2, e3]
  · show (slice _ _ _).length = _
    rw [slice_seg, e2, e3]
    exact seg_length (by omega)
  · show (slice _ _ _).length = _
    rw [slice_seg, e2, e3]
    exact seg_length (by omega)

/-! ## Root key messages -/

/-- bits of a key -/
def keyBits (ks : Nat) : Option Nat := [96, 104, 112, 120, 128, 160, 192, 224, 256][ks]?

/-- the settings and keys in a root key message -/
def withRoot (s : St PK) (d : BitBuf) : St PK :=
  { s with pkid := bitsAt d 4 4, hf := bitsAt d 12 2, mf := bitsAt d 14 2, ks := bitsAt d 16 4, ts := bitsAt d 20 4,
           maclt := bitsAt d 24 8, wn := bitsAt d 36 12, towh := bitsAt d 48 8, alp := seg d 56 48 }

theorem pdk_eq (p : Prim PK) (s : St PK) (pad d : BitBuf) (did lk : Nat) (h1 : pyGetI klenT s.ks = .ok lk)
    (hd : s.dsm.get? did = some d) (hh : s.hf = 0 ∨ s.hf = 2) :
    verifyPdk p s pad did = .ok (decide ((p.hash s.hf (natToBits 8 s.nmaHeader ++ slice d 1 (13 + lk / 8) ++ s.ds)).take pad.length = pad)) := by
  unfold verifyPdk
  rw [h1, Py.okBind, (Dict.getItem_ok_iff _ _ _).2 hd, Py.okBind]
  unfold processHash
  rw [if_pos hh, Py.okBind]
  rfl

set_option maxHeartbeats 400000 in
/-- **Root key message.** Its settings are always taken over; key and signature if the message is long enough for them;
it counts as loaded exactly when the hash of header, key part and signature begins with the padding. -/
theorem kroot_iff (p : Prim PK) (s : St PK) (did lk : Nat) (d : BitBuf) (hd : s.dsm.get? did = some d)
    (hl : d.length = 2000) (hk : keyBits (bitsAt d 16 4) = some lk) (hh : bitsAt d 12 2 = 0 ∨ bitsAt d 12 2 = 2) :
    decodeDsmKroot p s did =
      if 104 * (bitsAt d 0 4 + 6) < 616 + lk then .ok (withRoot s d, false)
      else if (p.hash (bitsAt d 12 2) (natToBits 8 s.nmaHeader ++ seg d 8 (96 + lk) ++ seg d (104 + lk) 512)).take
          (seg d (616 + lk) (104 * (bitsAt d 0 4 + 6) - (616 + lk))).length =
          seg d (616 + lk) (104 * (bitsAt d 0 4 + 6) - (616 + lk)) then
        .ok ({ withRoot s d with kroot := seg d 104 lk, ds := seg d (104 + lk) 512, rootLoaded := true, did0 := did }, true)
      else .ok ({ withRoot s d with kroot := seg d 104 lk, ds := seg d (104 + lk) 512 }, false) := by
  have hk8 : lk % 8 = 0 := by
    have : ∀ x ∈ [96, 104, 112, 120, 128, 160, 192, 224, 256], x % 8 = 0 := by decide
    exact this lk (List.mem_of_getElem? hk)
  have hpk : pyGet klenT (bitsAt d 16 4) = .ok lk := by
    unfold pyGet; rw [show klenT[bitsAt d 16 4]? = some lk from hk]
  unfold decodeDsmKroot
  rw [(Dict.getItem_ok_iff _ _ _).2 hd, Py.okBind]
  rw [readU_at (by omega), Py.okBind, readU_at (by omega), Py.okBind, readU_at (by omega), Py.okBind,
    readU_at (by omega), Py.okBind, readU_at (by omega), Py.okBind, readU_at (by omega), Py.okBind,
    readU_at (by omega), Py.okBind, readU_at (by omega), Py.okBind, readU_at (by omega), Py.okBind]
  rw [hpk, Py.okBind]
  by_cases hs : 104 * (bitsAt d 0 4 + 6) < 616 + lk
  · rw [if_pos hs, if_pos (by omega)]
    rfl
  rw [if_neg hs, if_neg (by omega)]
  dsimp only
  have e1 : slice d 13 (13 + lk / 8) = seg d 104 lk := by
    rw [slice_seg]; congr 1; omega
  have e2 : slice d (13 + lk / 8) (13 + lk / 8 + 64) = seg d (104 + lk) 512 := by
    rw [slice_seg]; congr 1 <;> omega
  have e3 : slice d (13 + lk / 8 + 64) (13 + lk / 8 + 64 + ((bitsAt d 0 4 + 6) * 104 - 104 - lk - 512 + 7) / 8) =
      seg d (616 + lk) (104 * (bitsAt d 0 4 + 6) - (616 + lk)) := by
    rw [slice_seg]; congr 1 <;> omega
  have e4 : slice d 1 (13 + lk / 8) = seg d 8 (96 + lk) := by
    rw [slice_seg]; congr 1; omega
  rw [e1, e2, e3]
  set pad := seg d (616 + lk) (104 * (bitsAt d 0 4 + 6) - (616 + lk)) with hpad
  set H := p.hash (bitsAt d 12 2) (natToBits 8 s.nmaHeader ++ seg d 8 (96 + lk) ++ seg d (104 + lk) 512) with hH
  have hv : verifyPdk p { withRoot s d with kroot := seg d 104 lk, ds := seg d (104 + lk) 512 } pad did =
      .ok (decide (H.take pad.length = pad)) := by
    have h1 : pyGetI klenT ((bitsAt d 16 4 : Nat) : Int) = .ok lk := by
      unfold pyGetI; rw [if_pos (by omega)]; exact hpk
    have h2 : ((bitsAt d 12 2 : Nat) : Int) = 0 ∨ ((bitsAt d 12 2 : Nat) : Int) = 2 := by omega
    refine (pdk_eq p { withRoot s d with kroot := seg d 104 lk, ds := seg d (104 + lk) 512 } pad d did lk h1 hd h2).trans ?_
    rw [e4]
    rfl
  refine (congrArg (· >>= _) hv).trans ?_
  rw [Py.okBind]
  by_cases hp : H.take pad.length = pad
  · rw [if_pos hp, decide_eq_true hp]; rfl
  · rw [if_neg hp, decide_eq_false hp]; rfl

/-- Key sizes and hash functions that do not exist raise. -/
theorem kroot_raises (p : Prim PK) (s : St PK) (did : Nat) (d : BitBuf) (hd : s.dsm.get? did = some d)
    (hl : d.length = 2000) :
    (keyBits (bitsAt d 16 4) = none → decodeDsmKroot p s did = .error .indexError) ∧
    (∀ lk, keyBits (bitsAt d 16 4) = some lk → 616 + lk ≤ 104 * (bitsAt d 0 4 + 6) → bitsAt d 12 2 ≠ 0 → bitsAt d 12 2 ≠ 2 →
      decodeDsmKroot p s did = .error .keyError) := by
  unfold decodeDsmKroot
  rw [(Dict.getItem_ok_iff _ _ _).2 hd, Py.okBind]
  rw [readU_at (by omega), Py.okBind, readU_at (by omega), Py.okBind, readU_at (by omega), Py.okBind,
    readU_at (by omega), Py.okBind, readU_at (by omega), Py.okBind, readU_at (by omega), Py.okBind,
    readU_at (by omega), Py.okBind, readU_at (by omega), Py.okBind, readU_at (by omega), Py.okBind]
  refine ⟨fun hk => ?_, fun lk hk hs h0 h2 => ?_⟩
  · have hpk : pyGet klenT (bitsAt d 16 4) = .error .indexError := by
      unfold pyGet; rw [show klenT[bitsAt d 16 4]? = none from hk]
    rw [hpk]; rfl
  · have hpk : pyGet klenT (bitsAt d 16 4) = .ok lk := by
      unfold pyGet; rw [show klenT[bitsAt d 16 4]? = some lk from hk]
    rw [hpk, Py.okBind, if_neg (by omega)]
    unfold verifyPdk
    have h1 : pyGetI klenT ((bitsAt d 16 4 : Nat) : Int) = .ok lk := by
      unfold pyGetI; rw [if_pos (by omega)]; exact hpk
    show ((pyGetI klenT ((bitsAt d 16 4 : Nat) : Int) >>= _) >>= _) = _
    rw [h1, Py.okBind]
    show ((Dict.getItem s.dsm did >>= _) >>= _) = _
    rw [(Dict.getItem_ok_iff _ _ _).2 hd, Py.okBind]
    unfold processHash
    rw [if_neg (show ¬ (((bitsAt d 12 2 : Nat) : Int) = 0 ∨ ((bitsAt d 12 2 : Nat) : Int) = 2) by omega)]
    rfl

/-! ## Public key messages -/

/-- bits of a new public key in a message of the length announced by `nb` -/
def newKeyBits (nb typ : Nat) : Option Nat :=
  if nb < 7 ∨ 10 < nb then none
  else if typ = 1 then some 264
  else if typ = 3 then some 536
  else if typ = 4 then some (104 * (nb + 6) - 1040)
  else none

/-- the four nodes on the way up the Merkle tree -/
def nodes (d : BitBuf) : List BitBuf := [seg d 8 256, seg d 264 256, seg d 520 256, seg d 776 256]

/-- the key is in the tree with root `r` and the padding fits -/
def InTree (p : Prim PK) (s : St PK) (d r : BitBuf) (lk : Nat) : Prop :=
  (p.hash s.hf (r ++ seg d 1032 (8 + lk))).take (seg d (1040 + lk) (104 * (bitsAt d 0 4 + 6) - (1040 + lk))).length =
    seg d (1040 + lk) (104 * (bitsAt d 0 4 + 6) - (1040 + lk)) ∧
  C21.climb (p.hash s.hf) (nodes d) (bitsAt d 4 4) (p.hash s.hf (seg d 1032 (8 + lk))) = r

instance (p : Prim PK) (s : St PK) (d r : BitBuf) (lk : Nat) : Decidable (InTree p s d r lk) := by
  unfold InTree; infer_instance

theorem merkle_eq (p : Prim PK) (s : St PK) (itn : BitBuf) (hh : s.hf = 0 ∨ s.hf = 2) : ∀ (n k mid : Nat) (x : BitBuf),
    merkle p s itn n k mid x =
      .ok (C21.climb (p.hash s.hf) ((List.range' k n).map fun k => slice itn (k * 32) ((k + 1) * 32)) mid x) := by
  intro n
  induction n with
  | zero => intro k mid x; rfl
  | succ n ih =>
    intro k mid x
    unfold merkle processHash
    dsimp only
    rw [if_pos hh, Py.okBind, ih]
    rfl

/-- **Public key message.** The key it carries is stored under its number exactly when the message is long enough for
its kind of key, the padding is the beginning of the hash of root and key, and the hashes along the four nodes lead to
the root of the Merkle tree; otherwise nothing changes. -/
theorem pkr_iff (p : Prim PK) (s : St PK) (did : Nat) (d r : BitBuf) (hd : s.dsm.get? did = some d)
    (hl : d.length = 2000) (hh : s.hf = 0 ∨ s.hf = 2) (hr : s.rootMt = some r) :
    decodeDsmPkr p s did =
      match newKeyBits (bitsAt d 0 4) (bitsAt d 1032 4) with
      | none => .ok (s, false)
      | some lk =>
        if 104 * (bitsAt d 0 4 + 6) < 1040 + lk ∨ ¬ InTree p s d r lk then .ok (s, false)
        else if bitsAt d 1032 4 = 4 then
          .ok ({ s with pkList := s.pkList.set (bitsAt d 1036 4) none, pkrUpdated := true }, true)
        else match p.point (bitsAt d 1032 4) (seg d 1040 lk) with
          | .error e => .error e
          | .ok k => .ok ({ s with pkList := s.pkList.set (bitsAt d 1036 4) (some k), pkrUpdated := true }, true) := by
  unfold decodeDsmPkr
  rw [(Dict.getItem_ok_iff _ _ _).2 hd, Py.okBind]
  rw [readU_at (by omega), Py.okBind, readU_at (by omega), Py.okBind]
  unfold newKeyBits
  generalize hnb : bitsAt d 0 4 = nb
  by_cases h1 : nb < 7 ∨ 10 < nb
  · rw [if_pos (by omega), if_pos h1]; rfl
  rw [if_neg (by omega), if_neg h1]
  rw [readU_at (by omega), Py.okBind, readU_at (by omega), Py.okBind]
  generalize htyp : bitsAt d 1032 4 = typ
  by_cases h2 : typ > 4 ∨ typ = 0 ∨ typ = 2
  · rw [if_pos h2, if_neg (by omega), if_neg (by omega), if_neg (by omega)]; rfl
  rw [if_neg h2]
  obtain ⟨lk, hlk, hlk2, h8⟩ : ∃ lk, (if typ = 4 then (pure (104 * (nb + 6) - 1040) : Py Nat) else pyGet npkLenT typ) = .ok lk ∧
      (if typ = 1 then some 264 else if typ = 3 then some 536 else if typ = 4 then some (104 * (nb + 6) - 1040) else none) = some lk ∧
      lk % 8 = 0 := by
    rcases (show typ = 1 ∨ typ = 3 ∨ typ = 4 by omega) with h | h | h <;> subst h
    · exact ⟨264, rfl, rfl, rfl⟩
    · exact ⟨536, rfl, rfl, rfl⟩
    · exact ⟨104 * (nb + 6) - 1040, rfl, rfl, by omega⟩
  rw [hlk, Py.okBind, hlk2]
  dsimp only
  by_cases h3 : 104 * (nb + 6) < 1040 + lk
  · rw [if_pos (by omega), if_pos (.inl h3)]; rfl
  rw [if_neg (by omega)]
  have hb : byteAt d 129 = .ok (bitsAt d 1032 8) := by
    unfold byteAt; rw [if_pos (by omega)]; rfl
  rw [hb, Py.okBind]
  have e1 : slice d 130 (130 + lk / 8) = seg d 1040 lk := by
    rw [slice_seg, show 8 * (130 + lk / 8 - 130) = lk by omega]
  have e2 : slice d (130 + lk / 8) (130 + lk / 8 + ((nb + 6) * 104 - 1040 - lk) / 8) =
      seg d (1040 + lk) (104 * (nb + 6) - (1040 + lk)) := by
    rw [slice_seg, show 8 * (130 + lk / 8) = 1040 + lk by omega,
      show 8 * (130 + lk / 8 + ((nb + 6) * 104 - 1040 - lk) / 8 - (130 + lk / 8)) = 104 * (nb + 6) - (1040 + lk) by omega]
  have e3 : natToBits 8 (bitsAt d 1032 8) ++ seg d 1040 lk = seg d 1032 (8 + lk) := by
    have h8 : (seg d 1032 8).length = 8 := seg_length (by omega)
    have h9 := natToBits_bitsToNat (seg d 1032 8)
    rw [h8] at h9
    rw [seg_add, ← h9]
    rfl
  rw [e1, e2, e3]
  have hp : verifyPdp p s (seg d 1032 (8 + lk)) (seg d (1040 + lk) (104 * (nb + 6) - (1040 + lk))) =
      .ok (decide ((p.hash s.hf (r ++ seg d 1032 (8 + lk))).take (seg d (1040 + lk) (104 * (nb + 6) - (1040 + lk))).length =
        seg d (1040 + lk) (104 * (nb + 6) - (1040 + lk)))) := by
    unfold verifyPdp processHash
    rw [hr]
    dsimp only
    rw [if_pos hh, Py.okBind]
    rfl
  rw [hp, Py.okBind]
  have hT : InTree p s d r lk ↔ (p.hash s.hf (r ++ seg d 1032 (8 + lk))).take
      (seg d (1040 + lk) (104 * (nb + 6) - (1040 + lk))).length = seg d (1040 + lk) (104 * (nb + 6) - (1040 + lk)) ∧
      C21.climb (p.hash s.hf) (nodes d) (bitsAt d 4 4) (p.hash s.hf (seg d 1032 (8 + lk))) = r := by
    unfold InTree; rw [hnb]
  by_cases h4 : (p.hash s.hf (r ++ seg d 1032 (8 + lk))).take (seg d (1040 + lk) (104 * (nb + 6) - (1040 + lk))).length =
        seg d (1040 + lk) (104 * (nb + 6) - (1040 + lk))
  case neg =>
    rw [if_pos (by simp [h4]), if_pos (.inr fun h => h4 (hT.1 h).1)]; rfl
  rw [if_neg (by simp [h4])]
  have hph : processHash p s (seg d 1032 (8 + lk)) = .ok (p.hash s.hf (seg d 1032 (8 + lk))) := by
    unfold processHash; rw [if_pos hh]
  rw [hph, Py.okBind, merkle_eq p s _ hh, Py.okBind]
  have hn : (List.range' 0 4).map (fun k => slice (slice d 1 129) (k * 32) ((k + 1) * 32)) = nodes d := by
    show [_, _, _, _] = _
    unfold nodes
    simp only [slice_seg]
    rw [seg_seg (by omega), seg_seg (by omega), seg_seg (by omega), seg_seg (by omega)]
  rw [hn]
  by_cases h5 : C21.climb (p.hash s.hf) (nodes d) (bitsAt d 4 4) (p.hash s.hf (seg d 1032 (8 + lk))) = r
  case neg =>
    rw [if_pos (by rw [hr]; simpa using h5), if_pos (.inr fun h => h5 (hT.1 h).2)]; rfl
  have hG : ¬ (104 * (nb + 6) < 1040 + lk ∨ ¬ InTree p s d r lk) := by
    rintro (h | h)
    · exact h3 h
    · exact h (hT.2 ⟨h4, h5⟩)
  rw [if_neg (by rw [hr]; simp [h5]), if_neg hG]
  by_cases h6 : typ = 4
  · rw [if_pos h6, if_neg (show ¬ (typ = 1 ∨ typ = 3) by omega)]; rfl
  · rw [if_neg h6, if_pos (show typ = 1 ∨ typ = 3 by omega)]
    cases p.point typ (seg d 1040 lk) <;> rfl

/-! ## Cases -/

/-- a tag of 40 bits, satellite, data type -/
def oneTag (v sat typ : Nat) : BitBuf := natToBits 40 v ++ natToBits 8 sat ++ natToBits 4 typ ++ natToBits 4 0

/-- sequence 34 in the second sub-frame of a minute, sent by satellite 5 -/
def seqSt : St Unit :=
  { maclt := 34, ts := 9, mf := 0, nt := 6, prnA := some 5, gstSfP := natToBits 12 1200 ++ natToBits 20 90,
    tag := oneTag 1 0x12 3 ++ oneTag 2 9 7 ++ oneTag 3 8 0 ++ oneTag 4 5 12 ++ oneTag 5 7 0 ++ oneTag 6 3 12 }

/-- primitives: the MAC sums up its message, the hash is constant -/
def prim : Prim Unit where
  hash _ _ := List.replicate 256 false
  mac _ _ m := .ok (natToBits 12 (m.count true + 0x110) ++ List.replicate 244 false)
  sig _ _ _ _ := .ok true
  point _ _ := .ok ()

example : verifyMaclt seqSt = .ok true := by decide +kernel
/-- tag 3 must be on the sender itself -/
example : verifyMaclt { seqSt with prnA := some 6 } = .ok false := by decide +kernel
/-- tag 2 must be of type 0 -/
example : verifyMaclt { seqSt with maclt := 33 } = .ok false := by decide +kernel
example : pyGetI tagLenT seqSt.ts = .ok 40 ∧ seqSt.gstSfP.length = 32 ∧ wid 40 * seqSt.nt ≤ seqSt.tag.length ∧
    tagTow seqSt % 60 ≠ 0 ∧ seqSt.nt = 6 := by decide +kernel
/-- only tag 1 is of free choice -/
example : flexInfo seqSt 40 [S 0, F, E 0, S 12, E 0, E 12] = natToBits 8 9 ++ natToBits 4 7 ++ natToBits 4 0 := by
  decide +kernel
example : verifyMacseq prim seqSt = .ok false ∧
    verifyMacseq prim { seqSt with tag := oneTag 1 0x11 15 ++ seqSt.tag.drop 56 } = .ok true := by decide +kernel

/-- four tags in the second sub-frame: the check raises -/
example : verifyMaclt { seqSt with maclt := 41, nt := 4, tag := oneTag 1 0x12 3 ++ oneTag 4 5 12 ++ oneTag 2 9 7 ++ oneTag 4 5 12 } =
    .error .indexError := by decide +kernel

/-- a root key message of seven blocks -/
def krootMsg : BitBuf :=
  natToBits 4 1 ++ natToBits 4 3 ++ natToBits 4 0 ++ natToBits 4 0 ++ natToBits 4 0 ++ natToBits 4 9 ++ natToBits 8 34 ++
    natToBits 4 0 ++ natToBits 12 1200 ++ natToBits 8 7 ++ natToBits 48 11 ++ natToBits 96 13 ++ List.replicate 1800 false

example : krootMsg.length = 2000 ∧ keyBits (bitsAt krootMsg 16 4) = some 96 ∧ bitsAt krootMsg 12 2 = 0 ∧
    ¬ 104 * (bitsAt krootMsg 0 4 + 6) < 616 + 96 := by decide +kernel

example : (decodeDsmKroot prim { dsm := [(2, krootMsg)] } 2).map (fun r => (r.1.kroot, r.1.maclt, r.1.rootLoaded, r.2)) =
    .ok (natToBits 96 13, 34, true, true) := by decide +kernel

/-- a public key message of thirteen blocks: key 6 of type 1 -/
def pkrMsg : BitBuf :=
  natToBits 4 7 ++ natToBits 4 2 ++ List.replicate 1024 true ++ natToBits 4 1 ++ natToBits 4 6 ++ natToBits 264 99 ++
    List.replicate 696 false

example : pkrMsg.length = 2000 ∧ newKeyBits (bitsAt pkrMsg 0 4) (bitsAt pkrMsg 1032 4) = some 264 := by decide +kernel

example : (decodeDsmPkr prim { dsm := [(12, pkrMsg)], hf := 0, rootMt := some (List.replicate 256 false) } 12).map
    (fun r => (r.1.pkList, r.1.pkrUpdated, r.2)) = .ok ([(6, some ())], true, true) := by decide +kernel
/-- another root -/
example : (decodeDsmPkr prim { dsm := [(12, pkrMsg)], hf := 0, rootMt := some (List.replicate 256 true) } 12).map
    (fun r => (r.1.pkList, r.1.pkrUpdated, r.2)) = .ok ([], false, false) := by decide +kernel

end Verif.C64
