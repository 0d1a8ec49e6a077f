import Verif.Model.Sbas
import Verif.Lemmas.Read
import Mathlib.Data.List.Nodup
/-!
# C27 SBAS satellite slots
-/

namespace Verif.C27
open Verif.Sbas Verif.Sat
open Verif.Cssr (positions positions_lt positions_eq)

/-- the slot plan of the dual-frequency standard: constellation, first slot, number of slots, first
satellite number -/
def plan : List (Sys × Int × Int × Int) :=
  [(.gps, 1, 32, 1), (.glo, 38, 32, 1), (.gal, 75, 36, 1), (.sbs, 120, 39, 120), (.bds, 159, 37, 1), (.qzs, 197, 9, 193)]

/-- satellite owning a slot -/
def owner (slot : Int) : Option (Sys × Int) :=
  plan.findSome? fun (sys, first, n, p0) => if first ≤ slot ∧ slot < first + n then some (sys, slot - first + p0) else none

theorem owner_range {slot : Int} {x : Sys × Int} (h : owner slot = some x) : 1 ≤ slot ∧ slot ≤ 205 := by
  unfold owner plan at h
  rw [List.findSome?_eq_some_iff] at h
  obtain ⟨l1, a, l2, hl, ha, _⟩ := h
  have hm : a ∈ plan := by unfold plan; rw [hl]; simp
  obtain ⟨s, f, n, p⟩ := a
  simp only at ha
  split at ha
  · simp only [plan, List.mem_cons, Prod.mk.injEq, List.not_mem_nil, or_false] at hm
    omega
  · cases ha

theorem slot2sat_zero {slot : Int} (h : slot < 1 ∨ 205 < slot) : slot2sat slot = 0 := by
  unfold slot2sat
  rw [if_neg (by omega), if_neg (by omega), if_neg (by omega), if_neg (by omega), if_neg (by omega), if_neg (by omega)]

/-- **Slots**: a slot of the plan is mapped to exactly the satellite owning it, every other slot to
no satellite. -/
theorem slot_spec (slot : Int) :
    (∀ x, owner slot = some x → sat2prn (slot2sat slot) = x ∧ 0 < slot2sat slot) ∧
    (owner slot = none → slot2sat slot = 0) := by
  by_cases h : 1 ≤ slot ∧ slot ≤ 205
  · have key : ∀ k : Fin 205, (owner ((k.val : Int) + 1)).elim (slot2sat ((k.val : Int) + 1) = 0)
        (fun x => sat2prn (slot2sat ((k.val : Int) + 1)) = x ∧ 0 < slot2sat ((k.val : Int) + 1)) := by
      have : ∀ k : Fin 205, ((owner ((k.val : Int) + 1)).elim (decide (slot2sat ((k.val : Int) + 1) = 0))
        (fun x => decide (sat2prn (slot2sat ((k.val : Int) + 1)) = x ∧ 0 < slot2sat ((k.val : Int) + 1)))) = true := by
        decide +kernel
      intro k
      have := this k
      cases h : owner ((k.val : Int) + 1) with
      | none =>
        rw [h] at this
        exact of_decide_eq_true (p := slot2sat ((k.val : Int) + 1) = 0) this
      | some x =>
        rw [h] at this
        exact of_decide_eq_true (p := sat2prn (slot2sat ((k.val : Int) + 1)) = x ∧ 0 < slot2sat ((k.val : Int) + 1)) this
    have := key ⟨(slot - 1).toNat, by omega⟩
    have e : (((slot - 1).toNat : Nat) : Int) + 1 = slot := by omega
    simp only [e] at this
    constructor
    · intro x hx
      rw [hx] at this
      exact this
    · intro hx
      rw [hx] at this
      exact this
  · refine ⟨fun x hx => absurd (owner_range hx) h, fun _ => slot2sat_zero (by omega)⟩

/-- owners of different slots differ -/
theorem owner_injective {a b : Int} {x : Sys × Int} (ha : owner a = some x) (hb : owner b = some x) : a = b := by
  unfold owner at ha hb
  rw [List.findSome?_eq_some_iff] at ha hb
  obtain ⟨l1, u, l2, hl, hu, _⟩ := ha
  obtain ⟨m1, v, m2, hm, hv, _⟩ := hb
  have hu' : u ∈ plan := by rw [hl]; simp
  have hv' : v ∈ plan := by rw [hm]; simp
  obtain ⟨s, f, n, p⟩ := u
  obtain ⟨s', f', n', p'⟩ := v
  simp only at hu hv
  split at hu
  · split at hv
    · simp only [Option.some.injEq] at hu hv
      rw [← hv] at hu
      simp only [Prod.mk.injEq] at hu
      simp only [plan, List.mem_cons, Prod.mk.injEq, List.not_mem_nil, or_false] at hu' hv'
      rcases hu' with h | h | h | h | h | h <;> rcases hv' with g | g | g | g | g | g <;>
        obtain ⟨rfl, rfl, rfl, rfl⟩ := h <;> obtain ⟨rfl, rfl, rfl, rfl⟩ := g <;>
        first | omega | (exact absurd hu.1 (by decide))
    · cases hv
  · cases hu

/-- **Different slots, different satellites.** -/
theorem slot_injective (a b : Int) (h : slot2sat a = slot2sat b) (h0 : slot2sat a ≠ 0) : a = b := by
  cases ha : owner a with
  | none => exact absurd ((slot_spec a).2 ha) h0
  | some x =>
    cases hb : owner b with
    | none => exact absurd (h.trans ((slot_spec b).2 hb)) h0
    | some y =>
      have e1 := ((slot_spec a).1 x ha).1
      have e2 := ((slot_spec b).1 y hb).1
      rw [h, e2] at e1
      subst e1
      exact owner_injective ha hb

/-! ## The mask messages -/

/-- satellites of the set bits of a slot mask, in slot order -/
def satsOf (slots : List Nat) (used : Nat → Bool) (f : Nat → Int) : List Int := (slots.filter used).map f

theorem satsOf_append (a b : List Nat) (u : Nat → Bool) (f : Nat → Int) : satsOf (a ++ b) u f = satsOf a u f ++ satsOf b u f := by
  unfold satsOf; rw [List.filter_append, List.map_append]

theorem satsOf_none {msg : BitBuf} {i n o : Nat} {u : Nat → Bool} {f : Nat → Int} (h : i + n ≤ msg.length)
    (hu : ∀ p, o ≤ p → p < o + n → u p = false) : satsOf (positions o (seg msg i n)) u f = [] := by
  unfold satsOf
  rw [List.map_eq_nil_iff, List.filter_eq_nil_iff]
  intro p hp
  have := positions_lt hp
  rw [seg_length h] at this
  rw [hu p this.1 this.2]
  simp

theorem satsOf_used {msg : BitBuf} {i n o : Nat} {u : Nat → Bool} {f : Nat → Int} (sys : Sys) (p0 : Nat) (h : i + n ≤ msg.length)
    (hu : ∀ p, o ≤ p → p < o + n → u p = true ∧ f p = prn2sat sys ((p : Int) - o + p0)) :
    satsOf (positions o (seg msg i n)) u f = maskSats sys (bitsAt msg i n) n p0 := by
  unfold satsOf maskSats
  rw [decodeMask_at p0 h, List.filter_eq_self.2 (by
    intro p hp
    have := positions_lt hp
    rw [seg_length h] at this
    exact (hu p this.1 this.2).1)]
  have e1 : positions o (seg msg i n) = (positions 0 (seg msg i n)).map (· + o) := by
    have := positions_shift (seg msg i n) 0 o
    rwa [Nat.zero_add] at this
  have e2 : positions p0 (seg msg i n) = (positions 0 (seg msg i n)).map (· + p0) := by
    have := positions_shift (seg msg i n) 0 p0
    rwa [Nat.zero_add] at this
  rw [e1, e2, List.map_map, List.map_map]
  apply List.map_congr_left
  intro k hk
  have := positions_lt hk
  rw [seg_length h] at this
  simp only [Function.comp_apply]
  rw [(hu (k + o) (by omega) (by omega)).2]
  congr 1
  omega

/-- slots used by the dual-frequency mask -/
def used31 (p : Nat) : Bool := (owner p).isSome

theorem used31_table : ∀ p : Fin 215, used31 p.val = true ↔ (1 ≤ p.val ∧ p.val ≤ 32) ∨ (38 ≤ p.val ∧ p.val ≤ 69) ∨
    (75 ≤ p.val ∧ p.val ≤ 110) ∨ (120 ≤ p.val ∧ p.val ≤ 195) ∨ (197 ≤ p.val ∧ p.val ≤ 205) := by decide +kernel

theorem used31_true {p : Nat} (h : p < 215) (h2 : (1 ≤ p ∧ p ≤ 32) ∨ (38 ≤ p ∧ p ≤ 69) ∨
    (75 ≤ p ∧ p ≤ 110) ∨ (120 ≤ p ∧ p ≤ 195) ∨ (197 ≤ p ∧ p ≤ 205)) : used31 p = true :=
  (used31_table ⟨p, h⟩).2 h2

theorem used31_false {p : Nat} (h : p < 215) (h2 : ¬((1 ≤ p ∧ p ≤ 32) ∨ (38 ≤ p ∧ p ≤ 69) ∨
    (75 ≤ p ∧ p ≤ 110) ∨ (120 ≤ p ∧ p ≤ 195) ∨ (197 ≤ p ∧ p ≤ 205))) : used31 p = false := by
  cases e : used31 p with
  | false => rfl
  | true => exact absurd ((used31_table ⟨p, h⟩).1 e) h2

/-- **Dual-frequency mask** (message type 31): the satellite list is exactly the list of the
satellites of the set slots of the 214-slot mask, in slot order, and the issue number is that of
the message. -/
theorem mask31_slots (s : St) (msg : BitBuf) (i : Nat) (h : i + 216 ≤ msg.length) :
    ∃ s', mask31 s msg i = .ok (s', i + 216) ∧ s'.iodm = bitsAt msg (i + 214) 2 ∧
      s'.satN = satsOf (positions 1 (seg msg i 214)) used31 (fun p => slot2sat p) := by
  unfold mask31
  rw [readU_at (show i + 32 ≤ msg.length by omega), Py.okBind]
  rw [readU_at (show i + 37 + 32 ≤ msg.length by omega), Py.okBind]
  rw [readU_at (show i + 74 + 36 ≤ msg.length by omega), Py.okBind]
  rw [readU_at (show i + 119 + 39 ≤ msg.length by omega), Py.okBind]
  rw [readU_at (show i + 158 + 37 ≤ msg.length by omega), Py.okBind]
  rw [readU_at (show i + 196 + 9 ≤ msg.length by omega), Py.okBind]
  rw [readU_at (show i + 214 + 2 ≤ msg.length by omega), Py.okBind]
  refine ⟨_, rfl, rfl, ?_⟩
  show _ ++ _ ++ _ ++ _ ++ _ ++ _ = _
  have hs : seg msg i 214 = seg msg i 32 ++ (seg msg (i + 32) 5 ++ (seg msg (i + 37) 32 ++ (seg msg (i + 69) 5 ++
      (seg msg (i + 74) 36 ++ (seg msg (i + 110) 9 ++ (seg msg (i + 119) 39 ++ (seg msg (i + 158) 37 ++
      (seg msg (i + 195) 1 ++ (seg msg (i + 196) 9 ++ seg msg (i + 205) 9))))))))) := by
    rw [← seg_add msg (i + 196), ← seg_add msg (i + 195), ← seg_add msg (i + 158), ← seg_add msg (i + 119),
      ← seg_add msg (i + 110), ← seg_add msg (i + 74), ← seg_add msg (i + 69), ← seg_add msg (i + 37),
      ← seg_add msg (i + 32), ← seg_add msg i]
  rw [hs]
  repeat rw [positions_append, satsOf_append]
  rw [seg_length (show i + 32 ≤ msg.length by omega), seg_length (show i + 32 + 5 ≤ msg.length by omega),
    seg_length (show i + 37 + 32 ≤ msg.length by omega), seg_length (show i + 69 + 5 ≤ msg.length by omega),
    seg_length (show i + 74 + 36 ≤ msg.length by omega), seg_length (show i + 110 + 9 ≤ msg.length by omega),
    seg_length (show i + 119 + 39 ≤ msg.length by omega), seg_length (show i + 158 + 37 ≤ msg.length by omega),
    seg_length (show i + 195 + 1 ≤ msg.length by omega), seg_length (show i + 196 + 9 ≤ msg.length by omega)]
  simp only [Nat.reduceAdd]
  rw [satsOf_used .gps 1 (by omega) (fun p h1 h2 => ⟨used31_true (by omega) (by omega), by
      unfold slot2sat; rw [if_pos (by omega)]; congr 1; omega⟩)]
  rw [satsOf_none (by omega) (fun p h1 h2 => used31_false (by omega) (by omega))]
  rw [satsOf_used .glo 1 (by omega) (fun p h1 h2 => ⟨used31_true (by omega) (by omega), by
      unfold slot2sat; rw [if_neg (by omega), if_pos (by omega)]; congr 1; omega⟩)]
  rw [satsOf_none (by omega) (fun p h1 h2 => used31_false (by omega) (by omega))]
  rw [satsOf_used .gal 1 (by omega) (fun p h1 h2 => ⟨used31_true (by omega) (by omega), by
      unfold slot2sat; rw [if_neg (by omega), if_neg (by omega), if_pos (by omega)]; congr 1; omega⟩)]
  rw [satsOf_none (by omega) (fun p h1 h2 => used31_false (by omega) (by omega))]
  rw [satsOf_used .sbs 120 (by omega) (fun p h1 h2 => ⟨used31_true (by omega) (by omega), by
      unfold slot2sat; rw [if_neg (by omega), if_neg (by omega), if_neg (by omega), if_pos (by omega)]; congr 1; omega⟩)]
  rw [satsOf_used .bds 1 (by omega) (fun p h1 h2 => ⟨used31_true (by omega) (by omega), by
      unfold slot2sat; rw [if_neg (by omega), if_neg (by omega), if_neg (by omega), if_neg (by omega), if_pos (by omega)]; congr 1; omega⟩)]
  rw [satsOf_none (by omega) (fun p h1 h2 => used31_false (by omega) (by omega))]
  rw [satsOf_used .qzs 193 (by omega) (fun p h1 h2 => ⟨used31_true (by omega) (by omega), by
      unfold slot2sat; rw [if_neg (by omega), if_neg (by omega), if_neg (by omega), if_neg (by omega), if_neg (by omega), if_pos (by omega)]; congr 1; omega⟩)]
  rw [satsOf_none (by omega) (fun p h1 h2 => used31_false (by omega) (by omega))]
  simp only [List.nil_append, List.append_nil, List.append_assoc]

/-- slots used by the single-frequency mask -/
def used1 (p : Nat) : Bool := p ≤ 61 || (120 ≤ p && p ≤ 158)

/-- satellite the single-frequency mask takes a slot for: the owner, but slots 33-37 (reserved
satellite numbers of GPS) are the numbers of the first Galileo satellites -/
def slotSat1 (p : Nat) : Int := if 33 ≤ p ∧ p ≤ 37 then p else slot2sat p

/-- **Single-frequency mask** (message type 1). -/
theorem mask1_slots (s : St) (msg : BitBuf) (i : Nat) (h : i + 212 ≤ msg.length) :
    ∃ s', mask1 s msg i = .ok (s', i + 212) ∧ s'.iodp = bitsAt msg (i + 210) 2 ∧
      s'.sat = satsOf (positions 1 (seg msg i 210)) used1 slotSat1 := by
  unfold mask1
  rw [readU_at (show i + 37 ≤ msg.length by omega), Py.okBind]
  rw [readU_at (show i + 37 + 24 ≤ msg.length by omega), Py.okBind]
  rw [readU_at (show i + 119 + 39 ≤ msg.length by omega), Py.okBind]
  rw [readU_at (show i + 210 + 2 ≤ msg.length by omega), Py.okBind]
  refine ⟨_, rfl, rfl, ?_⟩
  show _ ++ _ ++ _ = _
  have hs : seg msg i 210 = seg msg i 37 ++ (seg msg (i + 37) 24 ++ (seg msg (i + 61) 58 ++ (seg msg (i + 119) 39 ++
      seg msg (i + 158) 52))) := by
    rw [← seg_add msg (i + 119), ← seg_add msg (i + 61), ← seg_add msg (i + 37), ← seg_add msg i]
  rw [hs]
  repeat rw [positions_append, satsOf_append]
  rw [seg_length (show i + 37 ≤ msg.length by omega), seg_length (show i + 37 + 24 ≤ msg.length by omega),
    seg_length (show i + 61 + 58 ≤ msg.length by omega), seg_length (show i + 119 + 39 ≤ msg.length by omega)]
  simp only [Nat.reduceAdd]
  have ht : ∀ p : Nat, used1 p = true ↔ p ≤ 61 ∨ (120 ≤ p ∧ p ≤ 158) := by
    intro p; unfold used1; simp
  have hf : ∀ p : Nat, used1 p = false ↔ ¬(p ≤ 61 ∨ (120 ≤ p ∧ p ≤ 158)) := by
    intro p; rw [← ht p]; simp
  rw [satsOf_used .gps 1 (by omega) (fun p h1 h2 => ⟨(ht p).2 (by omega), by
      unfold slotSat1
      by_cases c : 33 ≤ p ∧ p ≤ 37
      · rw [if_pos c]; unfold prn2sat; simp only; omega
      · rw [if_neg c]; unfold slot2sat; rw [if_pos (by omega)]; congr 1; omega⟩)]
  rw [satsOf_used .glo 1 (by omega) (fun p h1 h2 => ⟨(ht p).2 (by omega), by
      unfold slotSat1
      rw [if_neg (by omega)]; unfold slot2sat; rw [if_neg (by omega), if_pos (by omega)]; congr 1; omega⟩)]
  rw [satsOf_none (by omega) (fun p h1 h2 => (hf p).2 (by omega))]
  rw [satsOf_used .sbs 120 (by omega) (fun p h1 h2 => ⟨(ht p).2 (by omega), by
      unfold slotSat1
      rw [if_neg (by omega)]; unfold slot2sat; rw [if_neg (by omega), if_neg (by omega), if_neg (by omega), if_pos (by omega)]; congr 1; omega⟩)]
  rw [satsOf_none (by omega) (fun p h1 h2 => (hf p).2 (by omega))]
  simp only [List.nil_append, List.append_nil, List.append_assoc]

/-- the mask slots 33-37 are taken for Galileo satellites 1-5 -/
theorem reserved_gps_foreign (p : Nat) (h : 33 ≤ p ∧ p ≤ 37) : sat2prn (slotSat1 p) = (.gal, (p : Int) - 32) := by
  unfold slotSat1
  rw [if_pos h]
  unfold sat2prn galMin qzsMin bdsMin gloMin sbsMin irnMin maxSat
  rw [if_neg (by omega), if_neg (by omega), if_neg (by omega), if_neg (by omega), if_neg (by omega), if_neg (by omega), if_pos (by omega)]

/-- the satellites of a mask message are distinct -/
theorem mask1_nodup (s s' : St) (msg : BitBuf) (i j : Nat) (h : i + 212 ≤ msg.length) (e : mask1 s msg i = .ok (s', j)) :
    s'.sat.Nodup := by
  obtain ⟨t, e', _, hs⟩ := mask1_slots s msg i h
  rw [e] at e'
  cases e'
  rw [hs]
  unfold satsOf
  refine List.Nodup.map_on ?_ ?_
  · intro a ha b hb hab
    have hA := List.mem_filter.1 ha
    have hB := List.mem_filter.1 hb
    have la := positions_lt hA.1
    have lb := positions_lt hB.1
    have ua := hA.2
    have ub := hB.2
    simp only [used1, Bool.or_eq_true, Bool.and_eq_true, decide_eq_true_eq] at ua ub
    have key : ∀ p : Nat, 1 ≤ p → (p ≤ 61 ∨ (120 ≤ p ∧ p ≤ 158)) →
        slotSat1 p = if p ≤ 37 then (p : Int) else if p ≤ 61 then (p : Int) - 37 + 148 else (p : Int) - 119 + 180 := by
      intro p h1 h2
      unfold slotSat1
      by_cases c : 33 ≤ p ∧ p ≤ 37
      · rw [if_pos c, if_pos c.2]
      · rw [if_neg c]
        unfold slot2sat prn2sat gloMin sbsMin
        simp only
        by_cases c1 : p ≤ 32
        · rw [if_pos (by omega), if_pos (by omega)]
        · rw [if_neg (by omega), if_neg (show ¬ p ≤ 37 by omega)]
          by_cases c2 : p ≤ 61
          · rw [if_pos (by omega), if_pos c2]
          · rw [if_neg (by omega), if_neg (by omega), if_pos (by omega), if_neg c2]
    rw [key a la.1 ua, key b lb.1 ub] at hab
    split at hab <;> split at hab <;> (try split at hab) <;> (try split at hab) <;> omega
  · apply List.Nodup.filter
    rw [positions_eq]
    exact (List.Nodup.filter _ List.nodup_range).map (fun a b h => by simpa using h)

/-! ## Concrete cases -/

example : slot2sat 32 = 32 ∧ slot2sat 33 = 0 ∧ slot2sat 38 = 149 ∧ slot2sat 110 = 68 ∧ slot2sat 120 = 181 ∧
    slot2sat 195 = 122 ∧ slot2sat 197 = 69 ∧ slot2sat 205 = 77 ∧ slot2sat 206 = 0 := by decide

end Verif.C27
