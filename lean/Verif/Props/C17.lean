import Verif.Model.Bds
import Verif.Lemmas.Mask
import Mathlib.Tactic.IntervalCases
/-!
# C17 PPP-B2b satellite slots

Specification (PPP-B2b ICD, mask slots): slots 1-63 are BeiDou, 64-100 GPS, 101-137 Galileo,
138-174 GLONASS, each counted from satellite 1; 175-255 are reserved.
-/

namespace Verif.C17
open Verif.Bds Verif.Sat Verif.Mask

/-- first slot and number of slots of a constellation in the 174-slot mask -/
def owner (slot : Int) : Option (Sys × Int) :=
  [(Sys.bds, (1 : Int), (63 : Int)), (.gps, 64, 37), (.gal, 101, 37), (.glo, 138, 37)].findSome?
    fun (sys, first, n) => if first ≤ slot ∧ slot < first + n then some (sys, slot - first + 1) else none

/-- satellites that the library's numbering has for a constellation -/
def capacity : Sys → Int
  | .gps => 32 | .gal => 36 | .bds => 63 | .glo => 32 | .qzs => 17 | .sbs => 39 | .irn => 14
  | .none => 0

/-- Every slot of the mask names the satellite of the constellation owning the slot range; a
reserved slot (any larger value the 9-bit field can carry) names none. -/
theorem slot_owner (slot : Int) (h : 1 ≤ slot) :
    slot2prn slot = (owner slot).getD (.none, 0) := by
  unfold slot2prn owner
  simp only [List.findSome?_cons, List.findSome?_nil]
  by_cases h1 : slot ≤ 63
  · rw [if_pos ⟨h, h1⟩, if_pos ⟨h, by omega⟩]
    simp
  · rw [if_neg (show ¬ (slot ≥ 1 ∧ slot ≤ 63) by omega),
      if_neg (show ¬ (1 ≤ slot ∧ slot < 1 + 63) by omega)]
    by_cases h2 : slot ≤ 100
    · rw [if_pos h2, if_pos (show 64 ≤ slot ∧ slot < 64 + 37 by omega)]
      simp only [Option.getD_some, Prod.mk.injEq, true_and]; omega
    · rw [if_neg h2, if_neg (show ¬ (64 ≤ slot ∧ slot < 64 + 37) by omega)]
      by_cases h3 : slot ≤ 137
      · rw [if_pos h3, if_pos (show 101 ≤ slot ∧ slot < 101 + 37 by omega)]
        simp only [Option.getD_some, Prod.mk.injEq, true_and]; omega
      · rw [if_neg h3, if_neg (show ¬ (101 ≤ slot ∧ slot < 101 + 37) by omega)]
        by_cases h4 : slot ≤ 174
        · rw [if_pos h4, if_pos (show 138 ≤ slot ∧ slot < 138 + 37 by omega)]
          simp only [Option.getD_some, Prod.mk.injEq, true_and]; omega
        · rw [if_neg h4, if_neg (show ¬ (138 ≤ slot ∧ slot < 138 + 37) by omega)]
          rfl

example : slot2prn 100 = (.gps, 37) ∧ slot2prn 101 = (.gal, 1) ∧ slot2prn 175 = (.none, 0) ∧
    slot2prn 511 = (.none, 0) := by decide

/-- Different mask slots name different satellites (system and PRN). -/
theorem slot_injective (a b : Int) (ha : 1 ≤ a ∧ a ≤ 174) (hb : 1 ≤ b ∧ b ≤ 174)
    (h : slot2prn a = slot2prn b) : a = b := by
  unfold slot2prn at h
  split at h
  · split at h
    · exact (Prod.mk.inj h).2
    · split at h
      · cases (Prod.mk.inj h).1
      · split at h
        · cases (Prod.mk.inj h).1
        · split at h <;> cases (Prod.mk.inj h).1
  · split at h
    · split at h
      · cases (Prod.mk.inj h).1
      · split at h
        · have := (Prod.mk.inj h).2; omega
        · split at h
          · cases (Prod.mk.inj h).1
          · split at h <;> cases (Prod.mk.inj h).1
    · split at h
      · split at h
        · cases (Prod.mk.inj h).1
        · split at h
          · cases (Prod.mk.inj h).1
          · split at h
            · have := (Prod.mk.inj h).2; omega
            · split at h <;> cases (Prod.mk.inj h).1
      · split at h
        · split at h
          · cases (Prod.mk.inj h).1
          · split at h
            · cases (Prod.mk.inj h).1
            · split at h
              · cases (Prod.mk.inj h).1
              · split at h
                · have := (Prod.mk.inj h).2; omega
                · cases (Prod.mk.inj h).1
        · omega

/-- the eleven mask slots whose PRN exceeds the library's numbering -/
def overflow : List Int := [96, 97, 98, 99, 100, 137, 170, 171, 172, 173, 174]

/-- The satellite number the decoder uses for a mask slot identifies exactly the slot's satellite,
except for the eleven overflow slots. -/
theorem slot_sat_faithful (slot : Int) (h : 1 ≤ slot ∧ slot ≤ 174) :
    sat2prn (slotSat slot) = slot2prn slot ↔ slot ∉ overflow := by
  have hk : ∀ k : Fin 174, (sat2prn (slotSat ((k.val : Int) + 1)) = slot2prn ((k.val : Int) + 1) ↔
      ((k.val : Int) + 1) ∉ overflow) := by decide +kernel
  have := hk ⟨(slot - 1).toNat, by omega⟩
  have e : (((slot - 1).toNat : Nat) : Int) + 1 = slot := by omega
  simpa only [e] using this

/-- The overflow slots are the ones whose PRN exceeds the constellation's capacity, and each of
them is taken for a satellite of another constellation. -/
theorem overflow_is_foreign (slot : Int) (h : 1 ≤ slot ∧ slot ≤ 174) :
    (slot ∈ overflow ↔ (slot2prn slot).2 > capacity (slot2prn slot).1) ∧
    (slot ∈ overflow → (sat2prn (slotSat slot)).1 ≠ (slot2prn slot).1) := by
  have hk : ∀ k : Fin 174,
      ((((k.val : Int) + 1) ∈ overflow ↔
        (slot2prn ((k.val : Int) + 1)).2 > capacity (slot2prn ((k.val : Int) + 1)).1) ∧
      (((k.val : Int) + 1) ∈ overflow →
        (sat2prn (slotSat ((k.val : Int) + 1))).1 ≠ (slot2prn ((k.val : Int) + 1)).1)) := by
    decide +kernel
  have := hk ⟨(slot - 1).toNat, by omega⟩
  have e : (((slot - 1).toNat : Nat) : Int) + 1 = slot := by omega
  simpa only [e] using this

/-- Outside the overflow slots different slots never share a satellite number. -/
theorem slot_sat_injective (a b : Int) (ha : 1 ≤ a ∧ a ≤ 174) (hb : 1 ≤ b ∧ b ≤ 174)
    (hoa : a ∉ overflow) (hob : b ∉ overflow) (h : slotSat a = slotSat b) : a = b := by
  apply slot_injective a b ha hb
  rw [← (slot_sat_faithful a ha).2 hoa, ← (slot_sat_faithful b hb).2 hob, h]

/-- Two slots share a satellite number exactly in five cases: the overflowing GPS slots 96-100 are
taken for the Galileo slots 101-105. -/
theorem slot_sat_collisions (a b : Int) (ha : 1 ≤ a ∧ a ≤ 174) (hb : 1 ≤ b ∧ b ≤ 174) (hab : a < b) :
    slotSat a = slotSat b ↔ 96 ≤ a ∧ a ≤ 100 ∧ b = a + 5 := by
  have v : ∀ s : Int, 1 ≤ s ∧ s ≤ 174 → slotSat s =
      if s ≤ 63 then s + 85 else if s ≤ 100 then s - 63 else if s ≤ 137 then s - 68 else s + 11 := by
    intro s hs
    unfold slotSat slot2prn
    by_cases h1 : s ≤ 63
    · rw [if_pos ⟨hs.1, h1⟩, if_pos h1]; rfl
    · rw [if_neg (by omega), if_neg h1]
      by_cases h2 : s ≤ 100
      · rw [if_pos h2, if_pos h2]; rfl
      · rw [if_neg h2, if_neg h2]
        by_cases h3 : s ≤ 137
        · rw [if_pos h3, if_pos h3]
          show s - 100 + 32 = s - 68
          omega
        · rw [if_neg h3, if_neg h3, if_pos hs.2]
          show s - 137 + 148 = s + 11
          omega
  rw [v a ha, v b hb]
  split <;> split <;> (try split) <;> (try split) <;> omega

example : slotSat 96 = slotSat 101 ∧ slotSat 95 = 32 ∧ slotSat 64 = 1 := by decide

/-- A slot of 0 is not reserved: it is taken for a GPS satellite numbered -63. -/
theorem slot_zero : slot2prn 0 = (.gps, -63) ∧ slotSat 0 = -63 := by decide

/-! ## Agreement with the satellite mask -/

/-- the set slots of the four mask fields, in order -/
def setSlots (mb mg me mr : Nat) : List Int :=
  ((decodeMask mb 63).1.map fun p : Nat => (p : Int)) ++
  ((decodeMask mg 37).1.map fun p : Nat => (p : Int) + 63) ++
  ((decodeMask me 37).1.map fun p : Nat => (p : Int) + 100) ++
  ((decodeMask mr 37).1.map fun p : Nat => (p : Int) + 137)

/-- bit `n` of the 174-bit mask, counted from the first transmitted bit as slot 1 -/
def maskBit (mb mg me mr : Nat) (slot : Int) : Bool :=
  let m := ((mb * 2 ^ 37 + mg) * 2 ^ 37 + me) * 2 ^ 37 + mr
  decide (1 ≤ slot ∧ slot ≤ 174) && m.testBit (174 - slot).toNat

theorem map_congr_mem {α β} (l : List α) (f g : α → β) (h : ∀ a ∈ l, f a = g a) : l.map f = l.map g :=
  List.map_congr_left h

/-- A new mask puts the satellites of the set slots into the satellite list, in slot order: the
list used to number clock corrections and the slot numbers of orbit and bias messages agree. -/
theorem mask_slots (s : St) (mb mg me mr : Nat) :
    (newMask s mb mg me mr).satN = (setSlots mb mg me mr).map slotSat := by
  have key : ∀ (m n : Nat) (o : Int) (sys : Sys), (∀ p : Nat, 1 ≤ p → p ≤ n →
      prn2sat sys p = slotSat ((p : Int) + o)) →
      ((decodeMask m n).1.map fun p : Nat => prn2sat sys (p : Int)) =
      ((decodeMask m n).1.map fun p : Nat => (p : Int) + o).map slotSat := by
    intro m n o sys h
    rw [List.map_map]
    apply map_congr_mem
    intro p hp
    rw [mem_decodeMask] at hp
    exact h p (by omega) (by omega)
  unfold newMask setSlots addGnss
  simp only [List.nil_append, List.map_append]
  have e0 : ((decodeMask mb 63).1.map fun p : Nat => (p : Int)) =
      ((decodeMask mb 63).1.map fun p : Nat => (p : Int) + 0) := by simp
  rw [e0]
  refine congrArg₂ (· ++ ·) (congrArg₂ (· ++ ·) (congrArg₂ (· ++ ·) ?_ ?_) ?_) ?_
  · refine key mb 63 0 .bds fun p h1 h2 => ?_
    unfold slotSat slot2prn
    rw [if_pos (by omega)]; simp
  · refine key mg 37 63 .gps fun p h1 h2 => ?_
    unfold slotSat slot2prn
    rw [if_neg (by omega), if_pos (by omega)]
    show (p : Int) = (p : Int) + 63 - 63
    omega
  · refine key me 37 100 .gal fun p h1 h2 => ?_
    unfold slotSat slot2prn
    rw [if_neg (by omega), if_neg (by omega), if_pos (by omega)]
    show (p : Int) + 32 = (p : Int) + 100 - 100 + 32
    omega
  · refine key mr 37 137 .glo fun p h1 h2 => ?_
    unfold slotSat slot2prn
    rw [if_neg (by omega), if_neg (by omega), if_neg (by omega), if_pos (by omega)]
    show (p : Int) + 148 = (p : Int) + 137 - 137 + 148
    omega

/-- The slots are the set bits of the 174-bit mask, ascending. -/
theorem setSlots_spec (mb mg me mr : Nat) (hg : mg < 2 ^ 37) (he : me < 2 ^ 37)
    (hr : mr < 2 ^ 37) :
    (setSlots mb mg me mr).Pairwise (· < ·) ∧
    ∀ k, k ∈ setSlots mb mg me mr ↔ maskBit mb mg me mr k = true := by
  have mem : ∀ (m n : Nat) (o k : Int), k ∈ ((decodeMask m n).1.map fun p : Nat => (p : Int) + o) ↔
      1 ≤ k - o ∧ k - o ≤ n ∧ m.testBit ((n : Int) - (k - o)).toNat = true := by
    intro m n o k
    rw [List.mem_map]
    constructor
    · rintro ⟨p, hp, rfl⟩
      rw [mem_decodeMask] at hp
      refine ⟨by omega, by omega, ?_⟩
      have : ((n : Int) - ((p : Int) + o - o)).toNat = n - (p - 1) - 1 := by omega
      rw [this]; exact hp.2.2
    · rintro ⟨h1, h2, h3⟩
      refine ⟨(k - o).toNat, ?_, by omega⟩
      rw [mem_decodeMask]
      refine ⟨by omega, by omega, ?_⟩
      have : n - ((k - o).toNat - 1) - 1 = ((n : Int) - (k - o)).toNat := by omega
      rw [this]; exact h3
  have sorted : ∀ (m n : Nat) (o : Int),
      ((decodeMask m n).1.map fun p : Nat => (p : Int) + o).Pairwise (· < ·) := by
    intro m n o
    rw [List.pairwise_map]
    exact (decodeMask_sorted m n 1).imp (by intro a b h; omega)
  have e0 : ((decodeMask mb 63).1.map fun p : Nat => (p : Int)) =
      ((decodeMask mb 63).1.map fun p : Nat => (p : Int) + 0) := by simp
  have bit : ∀ (a b i : Nat), b < 2 ^ 37 → (a * 2 ^ 37 + b).testBit i =
      if i < 37 then b.testBit i else a.testBit (i - 37) := by
    intro a b i hb
    rw [Nat.mul_comm, Nat.testBit_two_pow_mul_add _ hb]
  unfold setSlots
  rw [e0]
  constructor
  · rw [List.pairwise_append, List.pairwise_append, List.pairwise_append]
    refine ⟨⟨⟨sorted _ _ _, sorted _ _ _, ?_⟩, sorted _ _ _, ?_⟩, sorted _ _ _, ?_⟩
    · intro a ha b hb
      have := (mem _ _ _ _).1 ha; have := (mem _ _ _ _).1 hb; omega
    · intro a ha b hb
      have := (mem _ _ _ _).1 hb
      rcases List.mem_append.1 ha with ha | ha <;> (have := (mem _ _ _ _).1 ha; omega)
    · intro a ha b hb
      have := (mem _ _ _ _).1 hb
      rcases List.mem_append.1 ha with ha | ha
      · rcases List.mem_append.1 ha with ha | ha <;> (have := (mem _ _ _ _).1 ha; omega)
      · have := (mem _ _ _ _).1 ha; omega
  · intro k
    unfold maskBit
    simp only [List.mem_append, mem, Bool.and_eq_true, decide_eq_true_eq]
    rw [bit _ _ _ hr, bit _ _ _ he, bit _ _ _ hg]
    by_cases h1 : 1 ≤ k ∧ k ≤ 174
    · by_cases c1 : k ≤ 63
      · rw [if_neg (by omega), if_neg (by omega), if_neg (by omega)]
        have : (174 - k).toNat - 37 - 37 - 37 = ((63 : Nat) - (k - 0) : Int).toNat := by omega
        rw [this]
        constructor
        · rintro (((h | h) | h) | h)
          · exact ⟨h1, h.2.2⟩
          all_goals omega
        · intro h; exact Or.inl (Or.inl (Or.inl ⟨by omega, by omega, h.2⟩))
      · by_cases c2 : k ≤ 100
        · rw [if_neg (by omega), if_neg (by omega), if_pos (by omega)]
          have : (174 - k).toNat - 37 - 37 = ((37 : Nat) - (k - 63) : Int).toNat := by omega
          rw [this]
          constructor
          · rintro (((h | h) | h) | h)
            · omega
            · exact ⟨h1, h.2.2⟩
            all_goals omega
          · intro h; exact Or.inl (Or.inl (Or.inr ⟨by omega, by omega, h.2⟩))
        · by_cases c3 : k ≤ 137
          · rw [if_neg (by omega), if_pos (by omega)]
            have : (174 - k).toNat - 37 = ((37 : Nat) - (k - 100) : Int).toNat := by omega
            rw [this]
            constructor
            · rintro (((h | h) | h) | h)
              · omega
              · omega
              · exact ⟨h1, h.2.2⟩
              · omega
            · intro h; exact Or.inl (Or.inr ⟨by omega, by omega, h.2⟩)
          · rw [if_pos (by omega)]
            have : (174 - k).toNat = ((37 : Nat) - (k - 137) : Int).toNat := by omega
            rw [this]
            constructor
            · rintro (((h | h) | h) | h)
              · omega
              · omega
              · omega
              · exact ⟨h1, h.2.2⟩
            · intro h; exact Or.inr ⟨by omega, by omega, h.2⟩
    · constructor
      · rintro (((h | h) | h) | h) <;> omega
      · intro h; exact absurd h.1 h1

/-- The systems listed beside the satellites, and the counts per system (GPS, GLONASS, Galileo, BeiDou), are those of the set slots. -/
theorem mask_counts (s : St) (mb mg me mr : Nat) :
    (newMask s mb mg me mr).sysN = (setSlots mb mg me mr).map (fun k => (slot2prn k).1) ∧
    (newMask s mb mg me mr).nsatN = (setSlots mb mg me mr).length ∧
    (newMask s mb mg me mr).nsatG = [(decodeMask mg 37).1.length, (decodeMask mr 37).1.length,
      (decodeMask me 37).1.length, (decodeMask mb 63).1.length, 0, 0, 0, 0, 0, 0, 0, 0, 0, 0, 0, 0] ∧
    (newMask s mb mg me mr).ngnss = ([(decodeMask mb 63).1, (decodeMask mg 37).1, (decodeMask me 37).1,
      (decodeMask mr 37).1].filter (fun l => !l.isEmpty)).length := by
  have key : ∀ (m n : Nat) (o : Int) (sys : Sys), (∀ p : Nat, 1 ≤ p → p ≤ n →
      sys = (slot2prn ((p : Int) + o)).1) →
      ((decodeMask m n).1.map fun _ : Nat => sys) =
      ((decodeMask m n).1.map fun p : Nat => (p : Int) + o).map (fun k => (slot2prn k).1) := by
    intro m n o sys h
    rw [List.map_map]
    apply map_congr_mem
    intro p hp
    rw [mem_decodeMask] at hp
    exact h p (by omega) (by omega)
  have e0 : ((decodeMask mb 63).1.map fun p : Nat => (p : Int)) =
      ((decodeMask mb 63).1.map fun p : Nat => (p : Int) + 0) := by simp
  refine ⟨?_, ?_, ?_, ?_⟩
  · unfold newMask setSlots addGnss
    simp only [List.nil_append, List.map_append]
    rw [e0]
    refine congrArg₂ (· ++ ·) (congrArg₂ (· ++ ·) (congrArg₂ (· ++ ·) ?_ ?_) ?_) ?_
    · refine key mb 63 0 .bds fun p h1 h2 => ?_
      unfold slot2prn
      rw [if_pos (by omega)]
    · refine key mg 37 63 .gps fun p h1 h2 => ?_
      unfold slot2prn
      rw [if_neg (by omega), if_pos (by omega)]
    · refine key me 37 100 .gal fun p h1 h2 => ?_
      unfold slot2prn
      rw [if_neg (by omega), if_neg (by omega), if_pos (by omega)]
    · refine key mr 37 137 .glo fun p h1 h2 => ?_
      unfold slot2prn
      rw [if_neg (by omega), if_neg (by omega), if_neg (by omega), if_pos (by omega)]
  · unfold newMask setSlots addGnss
    simp only [List.length_append, List.length_map, decodeMask_length]
    omega
  · unfold newMask addGnss
    simp only [decodeMask_length]
    rfl
  · unfold newMask addGnss
    simp only [← decodeMask_length, List.filter_cons, List.filter_nil]
    rcases (decodeMask mb 63).1 with _ | ⟨a, l1⟩ <;> rcases (decodeMask mg 37).1 with _ | ⟨a, l2⟩ <;>
      rcases (decodeMask me 37).1 with _ | ⟨a, l3⟩ <;> rcases (decodeMask mr 37).1 with _ | ⟨a, l4⟩ <;> simp

example : setSlots 1 (2 ^ 36) 0 1 = [63, 64, 174] ∧
    (newMask {} 1 (2 ^ 36) 0 1).satN = [148, 1, 185] := by decide +kernel

end Verif.C17
