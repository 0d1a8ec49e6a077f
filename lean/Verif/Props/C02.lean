import Verif.Model.Sat
import Verif.Props.C01
/-!
# C02 Satellite identifier strings round-trip
-/

namespace Verif.C02
open Verif.Sat Verif.C01

/-- Parsing the two-digit form of any number 0..99 returns that number. -/
theorem pyInt_fmt02 : ∀ n : Fin 100, pyInt ((fmt02 (n.val : Int)).take 2) = .ok (n.val : Int) ∧
    (fmt02 (n.val : Int)).length = 2 := by
  decide +kernel

theorem char2sys_sysChar (s : Sys) (c : Char) (h : sysChar s = some c) : char2sys c = s := by
  cases s <;> simp [sysChar] at h <;> subst h <;> decide

theorem sysChar_some (s : Sys) (h : s ≠ .none) : ∃ c, sysChar s = some c := by
  cases s <;> simp_all [sysChar]

/-- Every satellite number has an identifier of exactly three characters. -/
theorem sat2id_three_chars (sat : Int) (h1 : 1 ≤ sat) (h2 : sat ≤ 233) :
    ∃ id, sat2id sat = some id ∧ id.length = 3 ∧ id2sat id = .ok sat := by
  obtain ⟨hs, he⟩ := prn2sat_sat2prn sat h1 h2
  unfold sat2id
  generalize hq : sat2prn sat = q at *
  obtain ⟨s, p⟩ := q
  simp only at hs he ⊢
  obtain ⟨c, hc⟩ : ∃ c, sysChar s = some c := sysChar_some s (by
    rintro rfl; simp [inSlot, slot] at hs; omega)
  rw [hc]
  have key : ∀ n : Int, 0 ≤ n → n < 100 →
      pyInt ((fmt02 n).take 2) = .ok n ∧ (fmt02 n).length = 2 := by
    intro n h0 h1
    have := pyInt_fmt02 ⟨n.toNat, by omega⟩
    simpa [Int.toNat_of_nonneg h0] using this
  have hcs := char2sys_sysChar s c hc
  refine ⟨_, rfl, ?_, ?_⟩
  · cases s <;> simp only [inSlot, slot] at hs <;> simp only [List.length_cons]
    all_goals first | (rw [(key _ (by omega) (by omega)).2]) | omega
  · simp only [id2sat, hcs]
    cases s <;> simp only [inSlot, slot] at hs <;> simp only [reduceCtorEq, if_false]
    case none => omega
    all_goals
      rw [(key _ (by omega) (by omega)).1]
      simp only [prn2sat] at he ⊢
      first | (congr 1; done) | (congr 1; omega)

example : sat2id 69 = some ['J', '0', '1'] ∧ sat2id 183 = some ['S', '2', '2'] ∧
    id2sat ['S', '2', '2'] = .ok 183 := by decide +kernel

/-- Decoding the identifier of a satellite gives the satellite back. -/
theorem id2sat_sat2id (sat : Int) (h1 : 1 ≤ sat) (h2 : sat ≤ 233) (id : List Char)
    (h : sat2id sat = some id) : id2sat id = .ok sat := by
  obtain ⟨id', h', _, h3⟩ := sat2id_three_chars sat h1 h2
  rw [h] at h'; cases h'; exact h3

/-- Two satellites never share an identifier. -/
theorem sat2id_injective (a b : Int) (ha1 : 1 ≤ a) (ha2 : a ≤ 233) (hb1 : 1 ≤ b) (hb2 : b ≤ 233)
    (h : sat2id a = sat2id b) : a = b := by
  obtain ⟨id, h1, _, h3⟩ := sat2id_three_chars a ha1 ha2
  have := id2sat_sat2id b hb1 hb2 id (h ▸ h1)
  rw [h3] at this; cases this; rfl

/-- Numbers above the last satellite have no identifier. -/
theorem sat2id_above (sat : Int) (h : 233 < sat) : sat2id sat = none := by
  simp [sat2id, sat2prn_above sat h, sysChar]

/-- An unknown constellation letter is reported as `-1`. -/
theorem id2sat_unknown (c : Char) (r : List Char)
    (h : c ≠ 'G' ∧ c ≠ 'R' ∧ c ≠ 'E' ∧ c ≠ 'C' ∧ c ≠ 'J' ∧ c ≠ 'S' ∧ c ≠ 'I') :
    id2sat (c :: r) = .ok (-1) := by
  simp [id2sat, char2sys, h]

/-- System letters round-trip. -/
theorem char2sys_sys2char (s : Sys) : char2sys (sys2char s) = s := by cases s <;> decide

/-- Disagreement: identifiers with an in-format but unowned number decode to a satellite of a
*different* constellation: `'G33'` decodes to E01 and `'J00'` to E36. -/
theorem id2sat_foreign :
    (∃ s, id2sat ['G', '3', '3'] = .ok s ∧ sat2id s = some ['E', '0', '1']) ∧
    (∃ s, id2sat ['J', '0', '0'] = .ok s ∧ sat2id s = some ['E', '3', '6']) :=
  ⟨⟨33, by decide +kernel⟩, ⟨68, by decide +kernel⟩⟩

end Verif.C02
