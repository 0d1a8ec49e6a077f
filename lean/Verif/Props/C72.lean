import Verif.Props.C07
/-!
# C72 Which RINEX signal codes are accepted
-/

namespace Verif.C72
open Verif.Sat Verif.Sig

/-! ## Specification -/

/-- attributes that exist for a band, for any constellation -/
def known (b : Char) : List Char :=
  if b = '1' then "ABCDELMNPSWXYZ".toList else if b = '2' then "CDILMNPQSWXY".toList
  else if b = '3' then "IQX".toList else if b = '4' then "ABX".toList
  else if b = '5' then "ABCDIPQXZ".toList else if b = '6' then "ABCDEILPQSXZ".toList
  else if b = '7' then "DIPQXZ".toList else if b = '8' then "DIPQX".toList
  else if b = '9' then "ABCX".toList else []

/-- attributes of the signals a constellation transmits on a band.  The entries for GPS bands 2
and 5 are missing: the library does not check them. -/
def tracking (sys : Sys) (b : Char) : Option (List Char) :=
  match sys with
  | .gps => if b = '1' then some "CSLXPWYM".toList else none
  | .glo => if b = '1' ∨ b = '2' then some "CPX".toList else if b = '3' then some "IQX".toList
    else if b = '4' ∨ b = '6' then some "ABX".toList else none
  | .gal => if b = '1' ∨ b = '6' then some "ABCXZ".toList
    else if b = '5' ∨ b = '7' ∨ b = '8' then some "IQX".toList else none
  | .sbs => if b = '1' then some ['C'] else if b = '5' then some "IQX".toList else none
  | .qzs => if b = '1' then some "CESLXZB".toList else if b = '2' then some "SLX".toList
    else if b = '5' then some "IQXDPZ".toList else if b = '6' then some "SLXEZ".toList else none
  | .bds => if b = '1' then some "DPXSLZ".toList else if b = '2' then some "IQX".toList
    else if b = '5' ∨ b = '8' then some "DPX".toList
    else if b = '6' ∨ b = '7' then some "IQXDPZ".toList else none
  | .irn => if b = '1' then some "DPX".toList else if b = '5' ∨ b = '9' then some "ABCX".toList else none
  | .none => none

/-- a code of a band and an attribute letter is accepted for a constellation -/
def Accepted (sys : Sys) (b c : Char) : Prop :=
  c ∈ known b ∧ ∀ l, tracking sys b = some l → c ∈ l

instance (sys : Sys) (b c : Char) : Decidable (Accepted sys b c) := by
  unfold Accepted
  cases h : tracking sys b with
  | none => exact decidable_of_iff (c ∈ known b) ⟨fun x => ⟨x, fun _ e => by cases e⟩, fun x => x.1⟩
  | some l =>
    exact decidable_of_iff (c ∈ known b ∧ c ∈ l)
      ⟨fun x => ⟨x.1, fun _ e => by cases e; exact x.2⟩, fun x => ⟨x.1, x.2 l rfl⟩⟩

/-- the letters of the four observation types -/
def typeOf (t : Char) : Option Typ :=
  if t = 'C' then some .C else if t = 'L' then some .L else if t = 'D' then some .D
  else if t = 'S' then some .S else none

/-! ## Proofs -/

theorem digit_of (b : Char) : (∃ n : Fin 10, b = digit n.1) ∨ digitVal? b = none := by
  cases h : digitVal? b with
  | none => exact Or.inr rfl
  | some d =>
    obtain ⟨h1, h2⟩ := C07.digit_digitVal b d h
    exact Or.inl ⟨⟨d, h1⟩, h2.symm⟩

theorem letter_of {c : Char} (h1 : 'A' ≤ c) (h2 : c ≤ 'Z') : ∃ k : Fin 26, c = Char.ofNat (65 + k.1) := by
  have a1 : 65 ≤ c.toNat := h1
  have a2 : c.toNat ≤ 90 := h2
  refine ⟨⟨c.toNat - 65, by omega⟩, ?_⟩
  show c = Char.ofNat (65 + (c.toNat - 65))
  rw [show 65 + (c.toNat - 65) = c.toNat by omega, Char.ofNat_toNat]

theorem known_digit {b : Char} (h : digitVal? b = none) : known b = [] := by
  unfold known
  have : ∀ x : Char, digitVal? x ≠ none → b ≠ x := fun x hx e => hx (by rw [← e]; exact h)
  rw [if_neg (this _ (by decide)), if_neg (this _ (by decide)), if_neg (this _ (by decide)),
    if_neg (this _ (by decide)), if_neg (this _ (by decide)), if_neg (this _ (by decide)),
    if_neg (this _ (by decide)), if_neg (this _ (by decide)), if_neg (this _ (by decide))]

/-- **codes with an attribute letter**: accepted exactly when the band has this attribute at all and,
for the bands of the constellation, the constellation has it -/
theorem letters (sys : Sys) {s : List Char} {t b c : Char} (hs : strip s = [t, b, c]) (h1 : 'A' ≤ c)
    (h2 : c ≤ 'Z') : str2sig sys s = match typeOf t with
      | none => .error .valueError
      | some typ => if Accepted sys b c then .ok ⟨sys, typ, (b.toNat - 48) * 100 + (c.toNat - 64)⟩
        else .error .valueError := by
  unfold str2sig
  rw [hs]
  show (match typOfChar t with | none => _ | some typ => _) = match typOfChar t with | none => _ | some typ => _
  cases typOfChar t with
  | none => rfl
  | some typ =>
    dsimp only
    rcases digit_of b with ⟨n, rfl⟩ | hb
    · obtain ⟨k, rfl⟩ := letter_of h1 h2
      have key : ∀ sys ∈ [Sys.gps, .glo, .gal, .bds, .qzs, .sbs, .irn, .none], ∀ n : Fin 10, ∀ k : Fin 26,
          (badAtt sys (digit n.1) (Char.ofNat (65 + k.1)) = false ∧
            ((n.1 : Nat) * 100 + (Char.ofNat (65 + k.1)).toNat - 65 + 1 : Int) ∈ uSIG ↔
            Accepted sys (digit n.1) (Char.ofNat (65 + k.1))) ∧
          ((n.1 : Nat) * 100 + (Char.ofNat (65 + k.1)).toNat - 65 + 1 : Int) =
            ((digit n.1).toNat - 48) * 100 + ((Char.ofNat (65 + k.1)).toNat - 64) := by
        decide +kernel
      obtain ⟨e1, e2⟩ := key sys (by cases sys <;> decide) n k
      rw [C07.digitVal_digit n]
      dsimp only
      by_cases ha : Accepted sys (digit n.1) (Char.ofNat (65 + k.1))
      · obtain ⟨g1, g2⟩ := e1.2 ha
        rw [if_pos ha, g1, if_neg (by decide), if_pos g2, e2]
      · rw [if_neg ha]
        by_cases g1 : badAtt sys (digit n.1) (Char.ofNat (65 + k.1)) = true
        · rw [if_pos g1]
        · rw [if_neg g1, if_neg fun g2 => ha (e1.1 ⟨by simpa using g1, g2⟩)]
    · rw [hb]
      have : ¬ Accepted sys b c := fun x => by
        have := x.1
        rw [known_digit hb] at this
        cases this
      rw [if_neg this]

/-- **bands**: a code without attribute is accepted for the digits 1 to 9 -/
theorem bands (sys : Sys) {s : List Char} {t b : Char} (hs : strip s = [t, b]) :
    str2sig sys s = match typeOf t with
      | none => .error .valueError
      | some typ => if '1' ≤ b ∧ b ≤ '9' then .ok ⟨sys, typ, (b.toNat - 48) * 100⟩ else .error .valueError := by
  unfold str2sig
  rw [hs]
  show (match typOfChar t with | none => _ | some typ => _) = match typOfChar t with | none => _ | some typ => _
  cases typOfChar t with
  | none => rfl
  | some typ =>
    dsimp only
    rcases digit_of b with ⟨n, rfl⟩ | hb
    · rw [C07.digitVal_digit n]
      dsimp only
      have key : ∀ n : Fin 10, (((n.1 : Nat) * 100 : Int) ∈ uSIG ↔ '1' ≤ digit n.1 ∧ digit n.1 ≤ '9') ∧
          ((n.1 : Nat) * 100 : Int) = ((digit n.1).toNat - 48) * 100 := by decide +kernel
      obtain ⟨e1, e2⟩ := key n
      by_cases ha : '1' ≤ digit n.1 ∧ digit n.1 ≤ '9'
      · rw [if_pos ha, if_pos (e1.2 ha), e2]
      · rw [if_neg ha, if_neg fun x => ha (e1.1 x)]
    · rw [hb]
      have : ¬ ('1' ≤ b ∧ b ≤ '9') := fun x => by
        unfold digitVal? at hb
        have y : '0' ≤ b ∧ b ≤ '9' := ⟨by
          have : 49 ≤ b.toNat := x.1
          show 48 ≤ b.toNat
          omega, x.2⟩
        rw [if_pos y] at hb
        cases hb
      rw [if_neg this]

theorem tracking_letters : ∀ sys ∈ [Sys.gps, .glo, .gal, .bds, .qzs, .sbs, .irn, .none], ∀ n : Fin 10,
    ∀ l, tracking sys (digit n.1) = some l → ∀ c ∈ l, 'A' ≤ c ∧ c ≤ 'Z' := by decide +kernel

/-- the check of the library is the table of the constellation -/
theorem bad_iff (sys : Sys) {b : Char} {l : List Char} (h : tracking sys b = some l) (c : Char) :
    badAtt sys b c = !(decide (c ∈ l)) := by
  have hin : ∀ str : String, inStr c str = decide (c ∈ str.toList) := fun str => by
    unfold inStr
    simp
  cases sys <;> simp only [tracking] at h <;> unfold badAtt <;> simp only [hin]
  all_goals
    first
    | cases h
    | skip
  all_goals
    repeat' split at h
  all_goals first
    | (cases h; done)
    | (cases h
       rename_i hb
       first
        | (subst hb; simp; done)
        | (subst hb
           by_cases e1 : c = '2'
           · subst e1; decide
           · by_cases e2 : c = '5'
             · subst e2; decide
             · have b1 : (c == '2') = false := by simpa using e1
               have b2 : (c == '5') = false := by simpa using e2
               rw [b1, b2]; simp)
        | (rcases hb with rfl | rfl <;> simp)
        | (rcases hb with rfl | rfl | rfl <;> simp))

theorem tracking_digit (sys : Sys) {b : Char} {l : List Char} (h : tracking sys b = some l) :
    ∃ n : Fin 10, b = digit n.1 := by
  rcases digit_of b with h1 | h1
  · exact h1
  · exfalso
    have : ∀ x : Char, digitVal? x ≠ none → b ≠ x := fun x hx e => hx (by rw [← e]; exact h1)
    have a1 := this '1' (by decide)
    have a2 := this '2' (by decide)
    have a3 := this '3' (by decide)
    have a4 := this '4' (by decide)
    have a5 := this '5' (by decide)
    have a6 := this '6' (by decide)
    have a7 := this '7' (by decide)
    have a8 := this '8' (by decide)
    have a9 := this '9' (by decide)
    cases sys <;> simp [tracking, a1, a2, a3, a4, a5, a6, a7, a8, a9] at h

/-- **other characters**: an attribute which is no capital letter is rejected on every band of the
constellation -/
theorem no_letter (sys : Sys) {s : List Char} {t b c : Char} (hs : strip s = [t, b, c])
    (hc : ¬ ('A' ≤ c ∧ c ≤ 'Z')) {l : List Char} (ht : tracking sys b = some l) :
    str2sig sys s = .error .valueError := by
  obtain ⟨n, rfl⟩ := tracking_digit sys ht
  have hl : c ∉ l := fun x => hc (tracking_letters sys (by cases sys <;> decide) n l ht c x)
  unfold str2sig
  rw [hs]
  dsimp only
  cases typOfChar t with
  | none => rfl
  | some typ =>
    dsimp only
    rw [C07.digitVal_digit n]
    dsimp only
    rw [bad_iff sys ht, if_pos (by simp [hl])]

/-- too short texts -/
theorem short (sys : Sys) {s : List Char} (hs : (strip s).length < 2) : str2sig sys s = .error .valueError := by
  unfold str2sig
  generalize strip s = r at hs
  rcases r with _ | ⟨a, _ | ⟨b, r⟩⟩
  · rfl
  · rfl
  · simp only [List.length_cons] at hs
    omega

/-- **constellation and code**: two or three characters -/
theorem of_code (sys : Sys) (s : List Char) :
    ofSysStr sys s = if s.length = 2 ∨ s.length = 3 then str2sig sys s else .error .valueError := by
  unfold ofSysStr
  by_cases h : s.length = 2 ∨ s.length = 3
  · rw [if_pos h, if_pos (by omega)]
  · rw [if_neg h, if_neg (by omega)]

/-- **full text**: the constellation letter and two or three characters -/
theorem of_text (c : Char) (s : List Char) : ofStr (c :: s) = ofSysStr (char2sys c) s := by
  unfold ofStr ofSysStr
  rw [List.length_cons]
  by_cases h : 2 ≤ s.length ∧ s.length ≤ 3
  · rw [if_pos h, if_pos (by omega)]
  · rw [if_neg h, if_neg (by omega)]

theorem of_empty : ofStr [] = .error .valueError := rfl

/-- every attribute of a constellation exists, so on its bands exactly its own codes are accepted -/
theorem own (sys : Sys) {b : Char} {l : List Char} (h : tracking sys b = some l) (c : Char) :
    Accepted sys b c ↔ c ∈ l := by
  obtain ⟨n, rfl⟩ := tracking_digit sys h
  have key : ∀ sys ∈ [Sys.gps, .glo, .gal, .bds, .qzs, .sbs, .irn, .none], ∀ n : Fin 10,
      ∀ l, tracking sys (digit n.1) = some l → ∀ c ∈ l, c ∈ known (digit n.1) := by decide +kernel
  exact ⟨fun x => x.2 l h, fun x => ⟨key sys (by cases sys <;> decide) n l h c x,
    fun l' e => by rw [h] at e; cases e; exact x⟩⟩

/-- three characters without white space are not changed by stripping -/
theorem strip_three {t b c : Char} (h1 : isSpace t = false) (h3 : isSpace c = false) :
    strip [t, b, c] = [t, b, c] := by
  simp [strip, h1, h3]

/-! ## Non-vacuity -/

example : Accepted .gal '5' 'Q' ∧ ¬ Accepted .gal '5' 'C' ∧ Accepted .bds '7' 'Z' ∧ ¬ Accepted .glo '3' 'P' := by
  decide
example : ofStr "EL5Q".toList = .ok ⟨.gal, .L, 517⟩ := by decide +kernel
example : strip "L5Q".toList = ['L', '5', 'Q'] := by decide +kernel
example : ofStr "EL5".toList = .ok ⟨.gal, .L, 500⟩ := by decide +kernel
example : ofStr "EL5C".toList = .error .valueError := by decide +kernel

/-- codes on bands the constellation does not use are accepted if any constellation has them -/
example : Accepted .sbs '7' 'Q' ∧ Accepted .gps '5' 'A' ∧ ofStr "SL7Q".toList = .ok ⟨.sbs, .L, 717⟩ := by
  decide +kernel

/-- on such a band a character beyond the letters can even turn into another band -/
example : ofStr ['G', 'L', '2', Char.ofNat 164] = .ok ⟨.gps, .L, 300⟩ := by decide +kernel

end Verif.C72
