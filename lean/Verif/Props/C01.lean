import Verif.Model.Sat
/-!
# C01 Satellite numbering is a bijection

Specification: the PRNs each constellation owns (`inSlot`), written out from the
`GPSMAX, GALMAX, …` slot counts and the published first PRN of each constellation
(QZSS 193, SBAS 120, the others 1), independently of the conversion functions.
-/

namespace Verif.C01
open Verif.Sat

/-- first PRN and number of slots of each constellation (gnss.py lines 141-159) -/
def slot : Sys → Int × Int
  | .gps => (1, 32) | .gal => (1, 36) | .qzs => (193, 17) | .bds => (1, 63)
  | .glo => (1, 32) | .sbs => (120, 39) | .irn => (1, 14) | .none => (0, 0)

/-- `prn` is one of the PRNs for which constellation `s` has a slot -/
def inSlot (s : Sys) (prn : Int) : Prop := (slot s).1 ≤ prn ∧ prn < (slot s).1 + (slot s).2

instance (s : Sys) (p : Int) : Decidable (inSlot s p) := by unfold inSlot; infer_instance

/-- The declared PRN limits (`MINPRN*`, `MAXPRN*`, gnss.py lines 171-186). -/
def declared : Sys → Int × Int
  | .gps => (1, 36) | .gal => (1, 36) | .qzs => (193, 210) | .bds => (1, 58)
  | .glo => (1, 32) | .sbs => (120, 158) | .irn => (1, 14) | .none => (1, 0)

/-- `sat2prn` by ranges. -/
theorem sat2prn_cases (sat : Int) :
    (sat ≤ 32 ∧ sat2prn sat = (.gps, sat)) ∨
    (33 ≤ sat ∧ sat ≤ 68 ∧ sat2prn sat = (.gal, sat - 32)) ∨
    (69 ≤ sat ∧ sat ≤ 85 ∧ sat2prn sat = (.qzs, sat + 124)) ∨
    (86 ≤ sat ∧ sat ≤ 148 ∧ sat2prn sat = (.bds, sat - 85)) ∨
    (149 ≤ sat ∧ sat ≤ 180 ∧ sat2prn sat = (.glo, sat - 148)) ∨
    (181 ≤ sat ∧ sat ≤ 219 ∧ sat2prn sat = (.sbs, sat - 61)) ∨
    (220 ≤ sat ∧ sat ≤ 233 ∧ sat2prn sat = (.irn, sat - 219)) ∨
    (234 ≤ sat ∧ sat2prn sat = (.none, 0)) := by
  unfold sat2prn
  have h1 : galMin = 32 := rfl
  have h2 : qzsMin = 68 := rfl
  have h3 : bdsMin = 85 := rfl
  have h4 : gloMin = 148 := rfl
  have h5 : sbsMin = 180 := rfl
  have h6 : irnMin = 219 := rfl
  have h7 : maxSat = 233 := rfl
  repeat' split
  all_goals simp only [Prod.mk.injEq, reduceCtorEq, false_and, and_false, false_or, or_false,
    true_and, and_true]
  all_goals omega

/-- The number of every owned PRN is in 1..MAXSAT and converts back to the same pair. -/
theorem sat2prn_prn2sat (s : Sys) (prn : Int) (h : inSlot s prn) :
    1 ≤ prn2sat s prn ∧ prn2sat s prn ≤ 233 ∧ sat2prn (prn2sat s prn) = (s, prn) := by
  unfold inSlot at h
  have hc := sat2prn_cases (prn2sat s prn)
  cases s <;> simp only [slot, prn2sat, galMin, qzsMin, bdsMin, gloMin, sbsMin, irnMin] at h hc ⊢ <;>
    refine ⟨by omega, by omega, ?_⟩ <;>
    rcases hc with ⟨_, e⟩ | ⟨_, _, e⟩ | ⟨_, _, e⟩ | ⟨_, _, e⟩ | ⟨_, _, e⟩ | ⟨_, _, e⟩ | ⟨_, _, e⟩ | ⟨_, e⟩ <;>
    first
      | omega
      | (rw [e]; simp only [Prod.mk.injEq, true_and]; omega)

example : inSlot .sbs 158 ∧ sat2prn (prn2sat .sbs 158) = (.sbs, 158) := by decide

/-- Every satellite number 1..233 is the number of an owned PRN. -/
theorem prn2sat_sat2prn (sat : Int) (h1 : 1 ≤ sat) (h2 : sat ≤ 233) :
    inSlot (sat2prn sat).1 (sat2prn sat).2 ∧
      prn2sat (sat2prn sat).1 (sat2prn sat).2 = sat := by
  rcases sat2prn_cases sat with ⟨_, e⟩ | ⟨_, _, e⟩ | ⟨_, _, e⟩ | ⟨_, _, e⟩ | ⟨_, _, e⟩ | ⟨_, _, e⟩ |
    ⟨_, _, e⟩ | ⟨_, e⟩ <;> rw [e] <;>
    simp only [and_true, inSlot, slot, prn2sat, galMin, qzsMin, bdsMin, gloMin, sbsMin, irnMin] <;> omega

example : sat2prn 85 = (.qzs, 209) ∧ sat2prn 86 = (.bds, 1) := by decide

/-- Different pairs have different numbers. -/
theorem prn2sat_injective (s s' : Sys) (p p' : Int) (h : inSlot s p) (h' : inSlot s' p')
    (e : prn2sat s p = prn2sat s' p') : s = s' ∧ p = p' := by
  have a := (sat2prn_prn2sat s p h).2.2
  have b := (sat2prn_prn2sat s' p' h').2.2
  rw [e, b] at a
  exact ⟨(congrArg Prod.fst a).symm, (congrArg Prod.snd a).symm⟩

example : inSlot .gps 32 ∧ inSlot .gal 1 ∧ prn2sat .gps 32 ≠ prn2sat .gal 1 := by decide

/-- Every number 1..233 belongs to exactly one (system, PRN) pair. -/
theorem exists_unique_prn (sat : Int) (h1 : 1 ≤ sat) (h2 : sat ≤ 233) :
    ∃ p : Sys × Int, (inSlot p.1 p.2 ∧ prn2sat p.1 p.2 = sat) ∧
      ∀ q : Sys × Int, inSlot q.1 q.2 ∧ prn2sat q.1 q.2 = sat → q = p := by
  obtain ⟨hs, he⟩ := prn2sat_sat2prn sat h1 h2
  refine ⟨sat2prn sat, ⟨hs, he⟩, ?_⟩
  rintro ⟨s, p⟩ ⟨hq, hqe⟩
  obtain ⟨a, b⟩ := prn2sat_injective s _ p _ hq hs (hqe.trans he.symm)
  exact Prod.ext a b

/-- Numbers above 233 are reported as no satellite. -/
theorem sat2prn_above (sat : Int) (h : 233 < sat) : sat2prn sat = (.none, 0) := by
  simp [sat2prn, maxSat, h]

/-- Numbers ≤ 0 are *not* rejected: they are reported as GPS with PRN ≤ 0. -/
theorem sat2prn_nonpos (sat : Int) (h : sat ≤ 0) : sat2prn sat = (.gps, sat) := by
  rcases sat2prn_cases sat with ⟨_, e⟩ | ⟨_, _, e⟩ | ⟨_, _, e⟩ | ⟨_, _, e⟩ | ⟨_, _, e⟩ | ⟨_, _, e⟩ |
    ⟨_, _, e⟩ | ⟨_, e⟩ <;> first | exact e | omega

/-- Disagreement: the PRN limits declared in `uGNSS` exceed the slots, so over the declared
limits the numbering is not injective (GPS 33 = Galileo 1, QZSS 210 = BeiDou 1). -/
theorem declared_limits_not_injective :
    ∃ s s' : Sys, ∃ p p' : Int, (declared s).1 ≤ p ∧ p ≤ (declared s).2 ∧
      (declared s').1 ≤ p' ∧ p' ≤ (declared s').2 ∧ s ≠ s' ∧ prn2sat s p = prn2sat s' p' :=
  ⟨.gps, .gal, 33, 1, by decide⟩

/-- The colliding declared PRNs are exactly GPS 33–36 and QZSS 210. -/
theorem declared_ok_iff (s : Sys) (p : Int) (h1 : (declared s).1 ≤ p) (h2 : p ≤ (declared s).2) :
    sat2prn (prn2sat s p) = (s, p) ↔ ¬ ((s = .gps ∧ 33 ≤ p) ∨ (s = .qzs ∧ p = 210)) := by
  constructor
  · intro h hc
    rcases hc with ⟨rfl, hp⟩ | ⟨rfl, rfl⟩
    · simp only [declared] at h1 h2
      have : p = 33 ∨ p = 34 ∨ p = 35 ∨ p = 36 := by omega
      rcases this with rfl | rfl | rfl | rfl <;> revert h <;> decide
    · revert h; decide
  · intro h
    refine (sat2prn_prn2sat s p ?_).2.2
    cases s <;> simp [inSlot, slot, declared] at * <;> omega

end Verif.C01
