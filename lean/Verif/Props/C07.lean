import Verif.Model.Sig
/-!
# C07 RINEX signal codes round-trip
-/

namespace Verif.C07
open Verif.Sat Verif.Sig

/-- All members of the signal enumeration other than NONE are a band digit 1–9 and an attribute
number 0–26. -/
theorem uSIG_form : ∀ x ∈ uSIG, x = -1 ∨ (100 ≤ x ∧ x ≤ 926 ∧ x % 100 ≤ 26) := by decide

theorem digits_one (n : Nat) (h : n < 10) : digits n = [digit n] := by
  rw [digits]; simp [h]

theorem digitVal_digit : ∀ n : Fin 10, digitVal? (digit n.val) = some n.val := by decide

theorem digit_digitVal (c : Char) (d : Nat) (h : digitVal? c = some d) : d < 10 ∧ digit d = c := by
  unfold digitVal? at h
  split at h
  · rename_i hc
    cases h
    have h1 : 48 ≤ c.toNat := hc.1
    have h2 : c.toNat ≤ 57 := hc.2
    refine ⟨by omega, ?_⟩
    unfold digit
    have : 48 + (c.toNat - 48) % 10 = c.toNat := by omega
    rw [this, Char.ofNat_toNat]
  · cases h

theorem charOfTyp_typOfChar (c : Char) (t : Typ) (h : typOfChar c = some t) :
    charOfTyp t = some c := by
  unfold typOfChar at h
  repeat' split at h
  all_goals first | (cases h; simp_all [charOfTyp]) | cases h

theorem typOfChar_charOfTyp (t : Typ) (c : Char) (h : charOfTyp t = some c) :
    typOfChar c = some t := by
  cases t <;> simp [charOfTyp] at h <;> subst h <;> decide

/-- shape of an accepted three-character text -/
theorem str2sig_three (sys : Sys) (s : List Char) (t b c : Char) (r : Sig)
    (hs : strip s = [t, b, c]) (h : str2sig sys s = .ok r) :
    ∃ typ d, typOfChar t = some typ ∧ digitVal? b = some d ∧ badAtt sys b c = false ∧
      (d * 100 + c.toNat - 65 + 1 : Int) ∈ uSIG ∧ r = ⟨sys, typ, d * 100 + c.toNat - 65 + 1⟩ := by
  unfold str2sig at h
  rw [hs] at h
  simp only at h
  split at h
  · cases h
  · rename_i typ ht
    split at h
    · cases h
    · rename_i d hd
      split at h
      · cases h
      · rename_i hb
        split at h
        · rename_i hm
          cases h
          exact ⟨typ, d, ht, hd, by simpa using hb, hm, rfl⟩
        · cases h

/-- shape of an accepted two-character text -/
theorem str2sig_two (sys : Sys) (s : List Char) (t b : Char) (r : Sig)
    (hs : strip s = [t, b]) (h : str2sig sys s = .ok r) :
    ∃ typ d, typOfChar t = some typ ∧ digitVal? b = some d ∧
      (d * 100 : Int) ∈ uSIG ∧ r = ⟨sys, typ, d * 100⟩ := by
  unfold str2sig at h
  rw [hs] at h
  simp only at h
  split at h
  · cases h
  · rename_i typ ht
    split at h
    · cases h
    · rename_i d hd
      split at h
      · rename_i hm
        cases h
        exact ⟨typ, d, ht, hd, hm, rfl⟩
      · cases h

/-- A three-character signal text that is accepted prints back as the same text.  The attribute
must be an ASCII character other than '@' and '?' (see `at_sign_lost`, `question_mark_none`). -/
theorem str_str2sig_three (sys : Sys) (s : List Char) (t b c : Char) (r : Sig)
    (hs : strip s = [t, b, c]) (hc : c.toNat < 128) (hat : c ≠ '@') (hqm : c ≠ '?')
    (h : str2sig sys s = .ok r) : str r = [t, b, c] ∧ r.sys = sys := by
  obtain ⟨typ, d, ht, hd, -, hm, rfl⟩ := str2sig_three sys s t b c r hs h
  refine ⟨?_, rfl⟩
  obtain ⟨hd10, hdig⟩ := digit_digitVal b d hd
  have hc64 : c.toNat ≠ 64 := by
    intro he
    apply hat
    rw [← Char.ofNat_toNat c, he]
  have hc63 : c.toNat ≠ 63 := by
    intro he
    apply hqm
    rw [← Char.ofNat_toNat c, he]
  have hform := uSIG_form _ hm
  have hrange : 65 ≤ c.toNat ∧ c.toNat ≤ 90 := by omega
  unfold str
  rw [charOfTyp_typOfChar t typ ht]
  have hq : ((d : Int) * 100 + c.toNat - 65 + 1).tdiv 100 = d := by
    rw [Int.tdiv_eq_ediv_of_nonneg (by omega)]; omega
  have hmod : ((d : Int) * 100 + c.toNat - 65 + 1).fmod 100 = c.toNat - 64 := by
    rw [Int.fmod_eq_emod_of_nonneg _ (by decide)]; omega
  simp only [hq, hmod]
  rw [if_neg (by omega), if_neg (by omega)]
  have : ((c.toNat : Int) - 64 + 65 - 1).toNat = c.toNat := by omega
  rw [this, Char.ofNat_toNat, Int.toNat_natCast, digits_one d hd10, hdig]
  rfl

example : str2sig .gal ['C', '7', 'Q'] = .ok ⟨.gal, .C, 717⟩ ∧
    str ⟨.gal, .C, 717⟩ = ['C', '7', 'Q'] := by decide +kernel

/-- A two-character (band only) signal text that is accepted prints back padded with a blank. -/
theorem str_str2sig_two (sys : Sys) (s : List Char) (t b : Char) (r : Sig)
    (hs : strip s = [t, b]) (h : str2sig sys s = .ok r) : str r = [t, b, ' '] ∧ r.sys = sys := by
  obtain ⟨typ, d, ht, hd, hm, rfl⟩ := str2sig_two sys s t b r hs h
  refine ⟨?_, rfl⟩
  obtain ⟨hd10, hdig⟩ := digit_digitVal b d hd
  unfold str
  rw [charOfTyp_typOfChar t typ ht]
  have hq : ((d : Int) * 100).tdiv 100 = d := by
    rw [Int.tdiv_eq_ediv_of_nonneg (by omega)]; omega
  have hmod : ((d : Int) * 100).fmod 100 = 0 := by
    rw [Int.fmod_eq_emod_of_nonneg _ (by decide)]; omega
  simp only [hq, hmod]
  rw [if_neg (by omega), Int.toNat_natCast, digits_one d hd10, hdig]
  rfl

example : str2sig .gps ['L', '2', ' '] = .ok ⟨.gps, .L, 200⟩ := by decide +kernel

/-- form of the printed text of a signal -/
theorem str_form (r : Sig) (hm : r.sig ∈ uSIG) (hn : r.sig ≠ -1) (ht : r.typ ≠ .none) :
    ∃ t, charOfTyp r.typ = some t ∧
      str r = [t, digit (r.sig / 100).toNat,
        if r.sig % 100 = 0 then ' ' else Char.ofNat (r.sig % 100 + 64).toNat] := by
  have hform := uSIG_form _ hm
  have : ∃ t, charOfTyp r.typ = some t := by
    cases hh : r.typ <;> simp_all [charOfTyp]
  obtain ⟨t, htc⟩ := this
  refine ⟨t, htc, ?_⟩
  unfold str
  rw [htc]
  have hq : r.sig.tdiv 100 = r.sig / 100 := Int.tdiv_eq_ediv_of_nonneg (by omega)
  have hmod : r.sig.fmod 100 = r.sig % 100 := Int.fmod_eq_emod_of_nonneg _ (by decide)
  simp only [hq, hmod]
  rw [if_neg (by omega), digits_one _ (by omega)]
  have : r.sig % 100 + 65 - 1 = r.sig % 100 + 64 := by omega
  rw [this]
  split <;> rfl

theorem strip_letter (t b : Char) (k : Fin 27) (ht : isSpace t = false) (hb : isSpace b = false) :
    strip [t, b, if (k.val : Int) = 0 then ' ' else Char.ofNat ((k.val : Int) + 64).toNat] =
      if k.val = 0 then [t, b] else [t, b, Char.ofNat (k.val + 64)] := by
  have hk : ∀ k : Fin 27, k.val ≠ 0 → isSpace (Char.ofNat (k.val + 64)) = false := by decide
  by_cases h : k.val = 0
  · have hs : isSpace ' ' = true := by decide
    simp [strip, h, ht, hb, hs, List.dropWhile]
  · have h' : ¬ (k.val : Int) = 0 := by omega
    have e : ((k.val : Int) + 64).toNat = k.val + 64 := by omega
    simp [strip, h, ht, e, hk k h]

/-- Printing any signal and parsing the text for the same constellation either rejects the text
(attribute not allowed for that constellation and band) or gives the same signal back. -/
theorem str2sig_str (r r' : Sig) (hm : r.sig ∈ uSIG) (hn : r.sig ≠ -1) (ht : r.typ ≠ .none)
    (h : str2sig r.sys (str r) = .ok r') : r' = r := by
  obtain ⟨t, htc, hstr⟩ := str_form r hm hn ht
  have hform := uSIG_form _ hm
  have htsp : isSpace t = false := by
    cases hh : r.typ <;> rw [hh] at htc <;> simp [charOfTyp] at htc <;> subst htc <;> decide
  have hdsp : ∀ d : Fin 10, isSpace (digit d.val) = false := by decide
  have hdsp' : isSpace (digit (r.sig / 100).toNat) = false :=
    hdsp ⟨(r.sig / 100).toNat, by omega⟩
  have hstrip := strip_letter t (digit (r.sig / 100).toNat) ⟨(r.sig % 100).toNat, by omega⟩
    htsp hdsp'
  simp only at hstrip
  rw [Int.toNat_of_nonneg (by omega), ← hstr] at hstrip
  have hdv : digitVal? (digit (r.sig / 100).toNat) = some (r.sig / 100).toNat :=
    digitVal_digit ⟨(r.sig / 100).toNat, by omega⟩
  by_cases h0 : (r.sig % 100).toNat = 0
  · rw [if_pos h0] at hstrip
    obtain ⟨typ, d, h1, h2, h3, rfl⟩ := str2sig_two _ _ _ _ _ hstrip h
    rw [hdv] at h2; cases h2
    rw [typOfChar_charOfTyp _ _ htc] at h1; cases h1
    obtain ⟨s, ty, sg⟩ := r
    simp only [Sig.mk.injEq, true_and] at *
    omega
  · rw [if_neg h0] at hstrip
    obtain ⟨typ, d, h1, h2, -, h3, rfl⟩ := str2sig_three _ _ _ _ _ _ hstrip h
    rw [hdv] at h2; cases h2
    rw [typOfChar_charOfTyp _ _ htc] at h1; cases h1
    have hcn : ∀ k : Fin 27, (Char.ofNat (k.val + 64)).toNat = k.val + 64 := by decide
    have := hcn ⟨(r.sig % 100).toNat, by omega⟩
    simp only at this
    rw [this]
    obtain ⟨s, ty, sg⟩ := r
    simp only [Sig.mk.injEq, true_and] at *
    omega

/-- Band-only signals are always accepted, for every constellation and type. -/
theorem str2sig_band (sys : Sys) (typ : Typ) (b : Int) (h1 : 1 ≤ b) (h9 : b ≤ 9)
    (ht : typ ≠ .none) : str2sig sys (str ⟨sys, typ, b * 100⟩) = .ok ⟨sys, typ, b * 100⟩ := by
  obtain ⟨t, htc, hstr⟩ := str_form ⟨sys, typ, b * 100⟩ (by
    have : b = 1 ∨ b = 2 ∨ b = 3 ∨ b = 4 ∨ b = 5 ∨ b = 6 ∨ b = 7 ∨ b = 8 ∨ b = 9 := by omega
    change b * 100 ∈ uSIG
    rcases this with rfl | rfl | rfl | rfl | rfl | rfl | rfl | rfl | rfl <;> decide)
    (by simp only; omega) ht
  simp only at htc hstr
  have : b = 1 ∨ b = 2 ∨ b = 3 ∨ b = 4 ∨ b = 5 ∨ b = 6 ∨ b = 7 ∨ b = 8 ∨ b = 9 := by omega
  rw [hstr]
  rcases this with rfl | rfl | rfl | rfl | rfl | rfl | rfl | rfl | rfl <;>
    cases typ <;> simp [charOfTyp] at htc ht <;> subst htc <;> rfl

/-- `toTyp` changes only the type; the constellation and the signal code stay. -/
theorem toTyp_preserves (r : Sig) (t : Typ) :
    (toTyp r t).sys = r.sys ∧ (toTyp r t).sig = r.sig ∧ (toTyp r t).typ = t ∧
      toTyp (toTyp r t) r.typ = r := ⟨rfl, rfl, rfl, rfl⟩

/-- `toAtt` with a letter attribute never changes constellation, type or band, and sets exactly
the requested attribute; with the empty attribute it gives the band. -/
theorem toAtt_preserves (r r' : Sig) (hm : r.sig ∈ uSIG) (hn : r.sig ≠ -1) (ht : r.typ ≠ .none)
    (att : List Char) (ha : att = [] ∨ ∃ c : Char, att = [c] ∧ 65 ≤ c.toNat ∧ c.toNat ≤ 90)
    (h : toAtt r att = .ok r') :
    r'.sys = r.sys ∧ r'.typ = r.typ ∧ r'.sig / 100 = r.sig / 100 ∧
      str r' = (str r).take 2 ++ (if att = [] then [' '] else att) := by
  obtain ⟨t, htc, hstr⟩ := str_form r hm hn ht
  have hform := uSIG_form _ hm
  have htsp : isSpace t = false := by
    cases hh : r.typ <;> rw [hh] at htc <;> simp [charOfTyp] at htc <;> subst htc <;> decide
  have hdsp : ∀ d : Fin 10, isSpace (digit d.val) = false := by decide
  have hdsp' : isSpace (digit (r.sig / 100).toNat) = false :=
    hdsp ⟨(r.sig / 100).toNat, by omega⟩
  have hdv : digitVal? (digit (r.sig / 100).toNat) = some (r.sig / 100).toNat :=
    digitVal_digit ⟨(r.sig / 100).toNat, by omega⟩
  have htake : (str r).take 2 = [t, digit (r.sig / 100).toNat] := by rw [hstr]; rfl
  unfold toAtt ofSysStr at h
  rw [htake] at h ⊢
  split at h
  · rcases ha with rfl | ⟨c, rfl, hc1, hc2⟩
    · have hs2 : strip ([t, digit (r.sig / 100).toNat] ++ []) = [t, digit (r.sig / 100).toNat] := by
        simp [strip, htsp, hdsp']
      have hp := str_str2sig_two _ _ _ _ _ hs2 h
      obtain ⟨typ, d, h1, h2, h3, rfl⟩ := str2sig_two _ _ _ _ _ hs2 h
      rw [hdv] at h2; cases h2
      rw [typOfChar_charOfTyp _ _ htc] at h1; cases h1
      exact ⟨rfl, rfl, by simp only; omega, by simpa using hp.1⟩
    · have hcsp : isSpace c = false := by
        have hne : ∀ k : Nat, k < 65 → c ≠ Char.ofNat k := by
          intro k hk he
          have : c.toNat = k := by
            rw [he]; exact (by
              have : ∀ k : Fin 65, (Char.ofNat k.val).toNat = k.val := by decide
              exact this ⟨k, hk⟩)
          omega
        have a1 := hne 32 (by decide)
        have a2 := hne 9 (by decide)
        have a3 := hne 10 (by decide)
        have a4 := hne 13 (by decide)
        have b1 : (c == ' ') = false := by simpa using a1
        have b2 : (c == '\t') = false := by simpa using a2
        have b3 : (c == '\n') = false := by simpa using a3
        have b4 : (c == '\r') = false := by simpa using a4
        have b5 : (c.toNat == 11) = false := by simp; omega
        have b6 : (c.toNat == 12) = false := by simp; omega
        simp only [isSpace, b1, b2, b3, b4, b5, b6, Bool.or_false]
      have hs3 : strip ([t, digit (r.sig / 100).toNat] ++ [c]) =
          [t, digit (r.sig / 100).toNat, c] := by
        simp [strip, htsp, hcsp]
      have hat : c ≠ '@' := by
        intro he; rw [he] at hc1; revert hc1; decide
      have hqm : c ≠ '?' := by
        intro he; rw [he] at hc1; revert hc1; decide
      have hp := str_str2sig_three _ _ _ _ _ _ hs3 (by omega) hat hqm h
      obtain ⟨typ, d, h1, h2, -, h3, rfl⟩ := str2sig_three _ _ _ _ _ _ hs3 h
      rw [hdv] at h2; cases h2
      rw [typOfChar_charOfTyp _ _ htc] at h1; cases h1
      exact ⟨rfl, rfl, by simp only; omega, by simpa using hp.1⟩
  · cases h

example : toAtt ⟨.gps, .L, 203⟩ ['W'] = .ok ⟨.gps, .L, 223⟩ := by decide +kernel

/-- The four-character form (constellation letter + code) of a signal parses back to it whenever
the constructor accepts it. -/
theorem ofStr_repr (r r' : Sig) (hm : r.sig ∈ uSIG) (hn : r.sig ≠ -1) (ht : r.typ ≠ .none)
    (h : ofStr (Sig.repr r) = .ok r') : r' = r := by
  unfold ofStr Sig.repr at h
  split at h
  · have hs : char2sys (sys2char r.sys) = r.sys := by cases r.sys <;> decide
    simp only [hs] at h
    exact str2sig_str r r' hm hn ht h
  · cases h

/-- `band()` returns the band of the signal with the attribute removed. -/
theorem band_spec (r : Sig) (hm : r.sig ∈ uSIG) (hn : r.sig ≠ -1) :
    band r = .ok (r.sig / 100 * 100) := by
  unfold band
  rw [Int.fdiv_eq_ediv_of_nonneg _ (by decide)]
  have : ∀ x ∈ uSIG, x ≠ -1 → x / 100 * 100 ∈ uSIG := by decide
  simp [this _ hm hn]

/-- Disagreement: an attribute `'@'` is accepted on a band without attribute check and printed
back as a blank. -/
theorem at_sign_lost : str2sig .gps ['C', '2', '@'] = .ok ⟨.gps, .C, 200⟩ ∧
    str ⟨.gps, .C, 200⟩ = ['C', '2', ' '] := by decide +kernel

/-- Disagreement: the text `C0?` is accepted and yields the signal NONE. -/
theorem question_mark_none : str2sig .gps ['C', '0', '?'] = .ok ⟨.gps, .C, -1⟩ ∧
    str ⟨.gps, .C, -1⟩ ≠ ['C', '0', '?'] := by decide +kernel

/-- Disagreement: the GPS attribute check of bands 2 and 5 tests the wrong character, so GPS
codes that do not exist (e.g. `C2I`, `C5A`) are accepted. -/
theorem gps_attribute_unchecked : str2sig .gps ['C', '2', 'I'] = .ok ⟨.gps, .C, 209⟩ ∧
    str2sig .gps ['C', '5', 'A'] = .ok ⟨.gps, .C, 501⟩ := by decide +kernel

end Verif.C07
