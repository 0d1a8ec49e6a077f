import Verif.Model.Rinex
import Verif.Lemmas.Post
/-!
# C39  RINEX header signal lists
-/

namespace Verif.C39
open Verif.Rinex Verif.Sat Verif.Sig

/-! ### The format (RINEX 3/4, `SYS / # / OBS TYPES`: A1,2X,I3,13(1X,A3), continuation 6X,13(1X,A3)) -/

/-- Fortran `I3` -/
def i3 (n : Nat) : List Char := List.replicate (3 - (digits n).length) ' ' ++ digits n

/-- columns 0-59 filled with blanks, label in columns 60-79, end of line -/
def mkLine (body : List Char) (lbl : String) : Line :=
  body ++ List.replicate (60 - body.length) ' ' ++ lbl.toList ++ [' ', '\n']

/-- the codes of one line, each preceded by a blank -/
def blk (cs : List (List Char)) : List Char := cs.flatMap (' ' :: ·)

/-- continuation lines for the codes left -/
def contRecs : Nat → List (List Char) → List Line
  | 0, _ => []
  | k + 1, cs =>
    mkLine ("      ".toList ++ blk (cs.take 13)) "SYS / # / OBS TYPES" :: contRecs k (cs.drop 13)

/-- number of continuation lines the format prescribes: 13 codes per line -/
def needed (n : Nat) : Nat := (n - 1) / 13

/-- the header record declaring the codes `cs` of the system with letter `c` -/
def record (c : Char) (cs : List (List Char)) : List Line :=
  mkLine ([c, ' ', ' '] ++ i3 cs.length ++ blk (cs.take 13)) "SYS / # / OBS TYPES" ::
    contRecs (needed cs.length) (cs.drop 13)

/-- observation codes: three characters, no blanks -/
def Codes (cs : List (List Char)) : Prop := ∀ s ∈ cs, s.length = 3 ∧ ∀ c ∈ s, isSpace c = false

/-! ### Reading one line -/

theorem i3_spec : ∀ n < 1000, (i3 n).length = 3 ∧ pyInt (i3 n) = .ok (n : Int) := by
  decide +kernel

theorem splitAux_word (w s acc : List Char) (h : ∀ c ∈ w, isSpace c = false) :
    splitAux acc (w ++ s) = splitAux (w.reverse ++ acc) s := by
  induction w generalizing acc with
  | nil => rfl
  | cons c w ih =>
    have hc := h c (by simp)
    simp only [List.cons_append, splitAux, hc, Bool.false_eq_true, if_false]
    rw [ih _ (fun x hx => h x (by simp [hx]))]
    simp

theorem splitAux_blanks (n : Nat) (acc : List Char) :
    splitAux acc (List.replicate n ' ') = if acc = [] then [] else [acc.reverse] := by
  induction n generalizing acc with
  | zero => rfl
  | succ n ih =>
    have : isSpace ' ' = true := by decide
    simp only [List.replicate_succ, splitAux, this, if_true]
    by_cases h : acc = []
    · simp [h, ih]
    · simp [h, ih]

theorem splitAux_blk (cs : List (List Char)) (hc : Codes cs) (n : Nat) (acc : List Char) :
    splitAux acc (blk cs ++ List.replicate n ' ') =
      (if acc = [] then [] else [acc.reverse]) ++ cs := by
  induction cs generalizing acc with
  | nil => simp [blk, splitAux_blanks]
  | cons s cs ih =>
    have hs := hc s (by simp)
    have hn : s.reverse ≠ [] := by
      intro h
      have : s = [] := by simpa using h
      rw [this] at hs; simp at hs
    have hb : isSpace ' ' = true := by decide
    have e : blk (s :: cs) ++ List.replicate n ' ' = ' ' :: (s ++ (blk cs ++ List.replicate n ' ')) := by
      simp [blk]
    rw [e]
    simp only [splitAux, hb, if_true]
    rw [splitAux_word s _ _ hs.2, List.append_nil, ih (fun x hx => hc x (by simp [hx]))]
    by_cases h : acc = []
    · simp [h, hn]
    · simp [h, hn]

theorem blk_length (cs : List (List Char)) (hc : Codes cs) : (blk cs).length = 4 * cs.length := by
  induction cs with
  | nil => rfl
  | cons s cs ih =>
    have hs := (hc s (by simp)).1
    have := ih (fun x hx => hc x (by simp [hx]))
    simp only [blk, List.flatMap_cons, List.length_append, List.length_cons] at this ⊢
    omega

theorem slice_mk (body : List Char) (lbl : String) (a b : Nat) (hb : body.length ≤ 60)
    (h : b ≤ 60) :
    slice (mkLine body lbl) a b = slice (body ++ List.replicate (60 - body.length) ' ') a b := by
  unfold slice mkLine
  have hl : b ≤ (body ++ List.replicate (60 - body.length) ' ').length := by
    rw [List.length_append, List.length_replicate]; omega
  rw [List.append_assoc, List.append_assoc, ← List.append_assoc body,
    List.take_append_of_le_length hl]

theorem slice_lbl (body : List Char) (lbl : String) (b : Nat) (hb : body.length ≤ 60) :
    slice (mkLine body lbl) 60 b = (lbl.toList ++ [' ', '\n']).take (b - 60) := by
  unfold slice mkLine
  have hl : (body ++ List.replicate (60 - body.length) ' ').length = 60 := by
    rw [List.length_append, List.length_replicate]; omega
  rw [List.append_assoc (_ ++ _), List.take_append, List.drop_append]
  rw [hl]
  have : List.drop 60 (List.take b (body ++ List.replicate (60 - body.length) ' ')) = [] := by
    apply List.drop_eq_nil_of_le
    rw [List.length_take, hl]; omega
  rw [this, List.length_take, hl]
  simp only [List.nil_append]
  by_cases h : b ≤ 60
  · have : b - 60 = 0 := by omega
    simp [this]
  · have : 60 - min b 60 = 0 := by omega
    simp [this]

/-- the codes on a line with six leading characters -/
theorem codes_of_line (pre : List Char) (hp : pre.length = 6) (cs : List (List Char))
    (hc : Codes cs) (hn : cs.length ≤ 13) (lbl : String) :
    split (slice (mkLine (pre ++ blk cs) lbl) 7 60) = cs := by
  have hl : (pre ++ blk cs).length ≤ 60 := by
    rw [List.length_append, blk_length cs hc]; omega
  rw [slice_mk _ _ _ _ hl (le_refl 60)]
  have hlen : (pre ++ blk cs ++ List.replicate (60 - (pre ++ blk cs).length) ' ').length ≤ 60 := by
    rw [List.length_append (bs := List.replicate _ _), List.length_replicate]; omega
  unfold slice
  rw [List.take_of_length_le hlen, List.append_assoc]
  rw [show (7 : Nat) = pre.length + 1 by omega, List.drop_append]
  have : List.drop (pre.length + 1) pre = [] := List.drop_eq_nil_of_le (by omega)
  rw [this, List.nil_append, show pre.length + 1 - pre.length = 1 by omega]
  unfold split
  cases cs with
  | nil =>
    simp only [blk, List.flatMap_nil, List.nil_append, List.append_nil, hp]
    rw [List.drop_replicate, splitAux_blanks]; rfl
  | cons s cs =>
    have hs := hc s (by simp)
    have hn : s.reverse ≠ [] := by
      intro h
      have : s = [] := by simpa using h
      rw [this] at hs; simp at hs
    have e : ∀ n, List.drop 1 (blk (s :: cs) ++ List.replicate n ' ') =
        s ++ (blk cs ++ List.replicate n ' ') := by
      intro n; simp [blk]
    rw [e, splitAux_word s _ _ hs.2, splitAux_blk cs (fun x hx => hc x (by simp [hx]))]
    simp [hn]

theorem codes_take {cs : List (List Char)} (h : Codes cs) (n : Nat) : Codes (cs.take n) :=
  fun s hs => h s (List.mem_of_mem_take hs)

theorem codes_drop {cs : List (List Char)} (h : Codes cs) (n : Nat) : Codes (cs.drop n) :=
  fun s hs => h s (List.mem_of_mem_drop hs)

/-- reading `m` of `k` continuation lines -/
theorem readCont_recs (m k : Nat) (hm : m ≤ k) (cs : List (List Char)) (hc : Codes cs)
    (rest : List Line) :
    readCont m (contRecs k cs ++ rest) =
      (cs.take (13 * m), contRecs (k - m) (cs.drop (13 * m)) ++ rest) := by
  induction m generalizing k cs with
  | zero => simp [readCont]
  | succ m ih =>
    obtain ⟨k, rfl⟩ : ∃ k', k = k' + 1 := ⟨k - 1, by omega⟩
    simp only [contRecs, List.cons_append, readCont, List.tail_cons, List.headD_cons]
    rw [ih k (by omega) (cs.drop 13) (codes_drop hc 13),
      codes_of_line _ (by decide) _ (codes_take hc 13) (by rw [List.length_take]; omega)]
    have e : 13 * (m + 1) = 13 + 13 * m := by omega
    simp only [e, List.drop_drop]
    rw [show k + 1 - (m + 1) = k - m by omega, List.take_add]

theorem contRecs_length (k : Nat) (cs : List (List Char)) : (contRecs k cs).length = k := by
  induction k generalizing cs with
  | zero => rfl
  | succ k ih => simp [contRecs, ih]

/-! ### The loop over the header records -/

theorem readCont_le (n : Nat) (ls : List Line) : (readCont n ls).2.length ≤ ls.length := by
  induction n generalizing ls with
  | zero => exact le_refl _
  | succ n ih =>
    simp only [readCont]
    have := ih ls.tail
    simp only [List.length_tail] at this
    omega

theorem readSlots_le (k i : Nat) (line : Line) (ls : List Line) (h : Hdr) :
    Post (readSlots k i line ls h) (fun r => r.2.length ≤ ls.length) := by
  induction k generalizing i line ls h with
  | zero => exact Post.ok (le_refl _)
  | succ k ih =>
    simp only [readSlots]
    refine Post.bind_any fun sat => Post.bind_any fun ch => (ih _ _ _ _).mono ?_
    intro r hr
    by_cases ha : 0 < i ∧ i % 8 = 0
    · simp only [ha, and_self, decide_true, if_true, List.length_tail] at hr; omega
    · simpa [ha] using hr

theorem headerLine_le (line : Line) (ls : List Line) (h : Hdr) :
    Post (headerLine line ls h) (fun r => r.2.length ≤ ls.length) := by
  unfold headerLine
  apply Post.ite
  · intro _
    cases line with
    | nil => exact Post.error
    | cons c l =>
      refine Post.bind_any fun nsig => Post.bind_any fun h' => Post.pure ?_
      exact readCont_le _ _
  · intro _
    apply Post.ite
    · intro _
      exact Post.bind_any fun n => readSlots_le _ _ _ _ _
    · intro _; exact Post.ok (le_refl _)

/-- the number of lines is enough fuel: the loop always reaches the end of the header or of the
file -/
theorem header_fuel (n : Nat) (ls : List Line) (h : Hdr) (hn : ls.length ≤ n) :
    headerLoop n ls h = header ls h := by
  have key : ∀ (m n : Nat) (ls : List Line) (h : Hdr), ls.length ≤ m → ls.length ≤ n →
      headerLoop n ls h = headerLoop m ls h := by
    intro m
    induction m with
    | zero =>
      intro n ls h h1 _
      have : ls = [] := List.length_eq_zero_iff.1 (by omega)
      subst this
      cases n <;> rfl
    | succ m ih =>
      intro n ls h h1 h2
      cases ls with
      | nil => cases n <;> rfl
      | cons l ls =>
        obtain ⟨n, rfl⟩ : ∃ n', n = n' + 1 := ⟨n - 1, by simp at h2; omega⟩
        simp only [headerLoop]
        by_cases he : slice l 60 73 = "END OF HEADER".toList
        · rw [if_pos he, if_pos he]
        · rw [if_neg he, if_neg he]
          cases hr : headerLine l ls h with
          | error e => rfl
          | ok r =>
            rw [Py.okBind, Py.okBind]
            have := (headerLine_le l ls h).out r hr
            simp only [List.length_cons] at h1 h2
            exact ih n r.2 r.1 (by omega) (by omega)
  exact key _ _ _ _ (le_refl _) hn

theorem header_cons (l : Line) (ls : List Line) (h : Hdr) :
    header (l :: ls) h =
      if slice l 60 73 = "END OF HEADER".toList then .ok (h, ls)
      else headerLine l ls h >>= fun r => header r.2 r.1 := by
  conv_lhs => rw [header, List.length_cons, headerLoop]
  by_cases he : slice l 60 73 = "END OF HEADER".toList
  · rw [if_pos he, if_pos he]
  · rw [if_neg he, if_neg he]
    cases hr : headerLine l ls h with
    | error e => rfl
    | ok r =>
      rw [Py.okBind, Py.okBind]
      exact header_fuel _ _ _ ((headerLine_le l ls h).out r hr)

/-! ### Signal lists -/

theorem cont_nat (n : Nat) : contLines (n : Int) = n / 14 := by
  unfold contLines
  rw [Int.tdiv_eq_ediv_of_nonneg (by omega)]
  omega

theorem ofSysStr_err (g : Sys) (s : List Char) (e : PyErr) (h : ofSysStr g s = .error e) :
    e = .valueError := by
  unfold ofSysStr at h
  split at h
  · unfold str2sig at h
    repeat' split at h
    all_goals first | (cases h; rfl) | (simp only [] at h; split at h <;> cases h <;> rfl) | skip
    all_goals (simp only [] at h; split at h <;> cases h <;> rfl)
  · cases h; rfl

theorem storeSigs_err (g : Sys) (i : Nat) (cs : List (List Char)) (h : Hdr) (e : PyErr)
    (hr : storeSigs g i cs h = .error e) : e = .valueError := by
  induction cs generalizing i h with
  | nil => cases hr
  | cons s cs ih =>
    rw [storeSigs] at hr
    cases hs : ofSysStr g s with
    | error e' =>
      rw [hs, Py.errBind] at hr
      cases hr
      exact ofSysStr_err g s _ hs
    | ok r =>
      rw [hs, Py.okBind] at hr
      exact ih _ _ hr

/-- the line starting a record -/
theorem first_line (c : Char) (cs : List (List Char)) (hc : Codes cs) (hn : cs.length < 1000)
    (ls : List Line) (h : Hdr) :
    header (mkLine ([c, ' ', ' '] ++ i3 cs.length ++ blk (cs.take 13)) "SYS / # / OBS TYPES" :: ls) h =
      (storeSigs (char2sys c) 0 (cs.take 13 ++ (readCont (cs.length / 14) ls).1) h >>=
        fun h' => header (readCont (cs.length / 14) ls).2 h') := by
  obtain ⟨i1, i2⟩ := i3_spec cs.length hn
  have hpre : ([c, ' ', ' '] ++ i3 cs.length).length = 6 := by
    rw [List.length_append, i1]; rfl
  have hlen : ([c, ' ', ' '] ++ i3 cs.length ++ blk (cs.take 13)).length ≤ 60 := by
    rw [List.length_append, hpre, blk_length _ (codes_take hc 13), List.length_take]; omega
  rw [header_cons, slice_lbl _ _ _ hlen, if_neg (by decide)]
  have hcodes := codes_of_line _ hpre (cs.take 13) (codes_take hc 13)
    (by rw [List.length_take]; omega) "SYS / # / OBS TYPES"
  have hcount : slice (mkLine ([c, ' ', ' '] ++ i3 cs.length ++ blk (cs.take 13))
      "SYS / # / OBS TYPES") 3 6 = i3 cs.length := by
    rw [slice_mk _ _ _ _ hlen (by omega)]
    unfold slice
    rw [List.append_assoc, List.append_assoc, List.drop_take, List.drop_left' (by rfl)]
    exact List.take_left' i1
  have hlbl := slice_lbl _ "SYS / # / OBS TYPES" 79 hlen
  have hcl := cont_nat cs.length
  generalize hL : mkLine ([c, ' ', ' '] ++ i3 cs.length ++ blk (cs.take 13))
      "SYS / # / OBS TYPES" = L at *
  unfold headerLine
  rw [if_pos (by rw [hlbl]; decide)]
  have hcons : ∃ t, L = c :: t := by
    rw [← hL]; exact ⟨_, rfl⟩
  obtain ⟨t, ht⟩ := hcons
  subst ht
  simp only []
  rw [hcount, i2, Py.okBind, hcodes, hcl]
  cases storeSigs (char2sys c) 0 (List.take 13 cs ++ (readCont (cs.length / 14) ls).1) h with
  | error e => rfl
  | ok h' => rfl

/-- **The list is read completely** when the last line of the record carries at least as many
codes as there are continuation lines: the record is consumed to its last line and all its
codes are stored in order.  This covers every list of up to 26 codes. -/
theorem read_complete (c : Char) (cs : List (List Char)) (hc : Codes cs) (hn : cs.length < 1000)
    (hq : needed cs.length ≤ cs.length - 13 * needed cs.length) (rest : List Line) (h : Hdr) :
    header (record c cs ++ rest) h =
      (storeSigs (char2sys c) 0 cs h >>= fun h' => header rest h') := by
  have hk : cs.length / 14 = needed cs.length := by
    unfold needed at hq ⊢; omega
  rw [record, List.cons_append, first_line c cs hc hn, hk,
    readCont_recs _ _ (le_refl _) _ (codes_drop hc 13)]
  have hall : cs.take 13 ++ (cs.drop 13).take (13 * needed cs.length) = cs := by
    rw [← List.take_add]
    apply List.take_of_length_le
    unfold needed; omega
  rw [Nat.sub_self, hall]
  rfl

/-- **Otherwise the header cannot be read**: too few continuation lines are consumed, the next
one is taken for a new record without a count, and the reader raises `ValueError`. -/
theorem read_fails (c : Char) (cs : List (List Char)) (hc : Codes cs) (hn : cs.length < 1000)
    (hq : cs.length - 13 * needed cs.length < needed cs.length) (rest : List Line) (h : Hdr) :
    header (record c cs ++ rest) h = .error .valueError := by
  have hk : cs.length / 14 < needed cs.length := by
    unfold needed at hq ⊢; omega
  rw [record, List.cons_append, first_line c cs hc hn,
    readCont_recs _ _ (le_of_lt hk) _ (codes_drop hc 13)]
  obtain ⟨m, hm⟩ : ∃ m, needed cs.length - cs.length / 14 = m + 1 :=
    ⟨needed cs.length - cs.length / 14 - 1, by omega⟩
  cases hs : storeSigs (char2sys c) 0
      (List.take 13 cs ++ List.take (13 * (cs.length / 14)) (List.drop 13 cs)) h with
  | error e => rw [storeSigs_err _ _ _ _ _ hs]; rfl
  | ok h' =>
    rw [Py.okBind]
    simp only [hm, contRecs, List.cons_append]
    generalize hds : List.drop (13 * (cs.length / 14)) (List.drop 13 cs) = ds
    have hcd : Codes ds := by rw [← hds]; exact codes_drop (codes_drop hc _) _
    have hlen : ("      ".toList ++ blk (ds.take 13)).length ≤ 60 := by
      rw [List.length_append, blk_length _ (codes_take hcd 13), List.length_take]
      have : "      ".toList.length = 6 := by decide
      omega
    rw [header_cons, slice_lbl _ _ _ hlen, if_neg (by decide)]
    have hlbl := slice_lbl _ "SYS / # / OBS TYPES" 79 hlen
    have hcount : slice (mkLine ("      ".toList ++ blk (ds.take 13))
        "SYS / # / OBS TYPES") 3 6 = [' ', ' ', ' '] := by
      rw [slice_mk _ _ _ _ hlen (by omega)]
      rfl
    generalize hL : mkLine ("      ".toList ++ blk (ds.take 13)) "SYS / # / OBS TYPES" = L at *
    have hcons : ∃ t, L = ' ' :: t := by rw [← hL]; exact ⟨_, rfl⟩
    obtain ⟨t, ht⟩ := hcons
    subst ht
    unfold headerLine
    rw [if_pos (by rw [hlbl]; decide)]
    simp only []
    rw [hcount]
    rfl

/-- what is stored: code `i` of the list under index `i` of that system, and nothing else changes -/
theorem stored (g : Sys) (cs : List (List Char)) (h h' : Hdr)
    (hr : storeSigs g 0 cs h = .ok h') :
    (∀ i, ((h'.sigMap.get? g).getD []).get? i =
      if hi : i < cs.length then (ofSysStr g cs[i]).toOption
      else ((h.sigMap.get? g).getD []).get? i) ∧
    (∀ g', g' ≠ g → h'.sigMap.get? g' = h.sigMap.get? g') ∧ h'.gloCh = h.gloCh ∧
    ∀ s ∈ cs, ∃ r, ofSysStr g s = .ok r := by
  have key : ∀ (cs : List (List Char)) (k : Nat) (h : Hdr), storeSigs g k cs h = .ok h' →
      (∀ i, ((h'.sigMap.get? g).getD []).get? i =
        if hi : k ≤ i ∧ i - k < cs.length then (ofSysStr g (cs[i - k]'hi.2)).toOption
        else ((h.sigMap.get? g).getD []).get? i) ∧
      (∀ g', g' ≠ g → h'.sigMap.get? g' = h.sigMap.get? g') ∧ h'.gloCh = h.gloCh ∧
      ∀ s ∈ cs, ∃ r, ofSysStr g s = .ok r := by
    intro cs
    induction cs with
    | nil =>
      intro k h hr
      simp only [storeSigs, Except.ok.injEq] at hr
      subst hr
      refine ⟨fun i => ?_, fun _ _ => rfl, rfl, by simp⟩
      rw [dif_neg (by simp)]
    | cons s cs ih =>
      intro k h hr
      rw [storeSigs] at hr
      cases hs : ofSysStr g s with
      | error e => rw [hs, Py.errBind] at hr; cases hr
      | ok r =>
        rw [hs, Py.okBind] at hr
        obtain ⟨a1, a2, a3, a4⟩ := ih _ _ hr
        refine ⟨fun i => ?_, fun g' hg => ?_, a3, ?_⟩
        · rw [a1]
          simp only [Dict.get?_set, if_true, Option.getD_some]
          by_cases h1 : k + 1 ≤ i ∧ i - (k + 1) < cs.length
          · have h2 : k ≤ i ∧ i - k < (s :: cs).length := by
              simp only [List.length_cons]; omega
            rw [dif_pos h1, dif_pos h2]
            have : i - k = i - (k + 1) + 1 := by omega
            simp only [this, List.getElem_cons_succ]
          · rw [dif_neg h1]
            by_cases h3 : i = k
            · subst h3
              rw [dif_pos ⟨le_refl _, by simp⟩]
              simp [hs, Except.toOption]
            · have h2 : ¬ (k ≤ i ∧ i - k < (s :: cs).length) := by
                simp only [List.length_cons]; omega
              rw [dif_neg h2, if_neg h3]
        · rw [a2 g' hg]
          simp only [Dict.get?_set, if_neg hg]
        · intro x hx
          rcases List.mem_cons.1 hx with e | e
          · subst e; exact ⟨r, hs⟩
          · exact a4 x e
  obtain ⟨a1, a2⟩ := key cs 0 h hr
  refine ⟨fun i => ?_, a2⟩
  rw [a1]
  by_cases hi : i < cs.length
  · rw [dif_pos ⟨Nat.zero_le _, by simpa using hi⟩, dif_pos hi]; rfl
  · rw [dif_neg (by simpa using hi), dif_neg hi]

/-- the counts below 100 that go wrong -/
theorem bad_counts : (List.range 100).filter (fun n => decide (n - 13 * needed n < needed n)) =
    [27, 40, 41, 53, 54, 55, 66, 67, 68, 69, 79, 80, 81, 82, 83, 92, 93, 94, 95, 96, 97] := by
  decide +kernel

/-- lists of up to 26 codes are fine -/
theorem short_lists (n : Nat) (h : n ≤ 26) : needed n ≤ n - 13 * needed n := by
  unfold needed; omega

/-- every list of at least 183 codes (more than 14 lines) goes wrong whatever its length -/
theorem long_lists (n : Nat) (h : 183 ≤ n) : n - 13 * needed n < needed n := by
  unfold needed; omega

/-! ### GLONASS slots: I3,1X,8(A1,I2.2,1X,I2,1X), continuation 4X,8(...) -/

/-- satellite and channel of one slot entry, as text -/
abbrev Entry := List Char × List Char

def Entries (es : List Entry) : Prop := ∀ e ∈ es, e.1.length = 3 ∧ e.2.length = 2

def eblk (es : List Entry) : List Char := es.flatMap fun e => e.1 ++ ' ' :: (e.2 ++ [' '])

def slotLine (pre : List Char) (es : List Entry) : Line :=
  mkLine (pre ++ eblk (es.take 8)) "GLONASS SLOT / FRQ #"

def slotCont : Nat → List Entry → List Line
  | 0, _ => []
  | k + 1, es => slotLine [' ', ' ', ' ', ' '] es :: slotCont k (es.drop 8)

/-- the header record declaring the slots `es`: eight per line -/
def slotRecord (es : List Entry) : List Line :=
  slotLine (i3 es.length ++ [' ']) es :: slotCont ((es.length - 1) / 8) (es.drop 8)

/-- the meaning of one entry -/
def entry (h : Hdr) (e : Entry) : Py Hdr := do
  let sat ← id2sat e.1
  let ch ← pyInt e.2
  .ok { h with gloCh := h.gloCh.set sat ch }

theorem eblk_length (es : List Entry) (hc : Entries es) : (eblk es).length = 7 * es.length := by
  induction es with
  | nil => rfl
  | cons s es ih =>
    have hs := hc s (by simp)
    have := ih (fun x hx => hc x (by simp [hx]))
    simp only [eblk, List.flatMap_cons, List.length_append, List.length_cons,
      List.length_nil] at this ⊢
    omega

theorem eblk_drop (es : List Entry) (hc : Entries es) (j : Nat) :
    (eblk es).drop (7 * j) = eblk (es.drop j) := by
  induction j generalizing es with
  | zero => rfl
  | succ j ih =>
    cases es with
    | nil => simp [eblk]
    | cons s es =>
      have hs := hc s (by simp)
      have hl : (s.1 ++ ' ' :: (s.2 ++ [' '])).length = 7 := by
        simp only [List.length_append, List.length_cons, List.length_nil]; omega
      rw [show eblk (s :: es) = (s.1 ++ ' ' :: (s.2 ++ [' '])) ++ eblk es by simp [eblk],
        show 7 * (j + 1) = 7 + 7 * j by omega, ← List.drop_drop, List.drop_left' hl,
        ih es (fun x hx => hc x (by simp [hx]))]
      rfl

/-- the columns of entry `j` of a line -/
theorem slot_cols (pre : List Char) (hp : pre.length = 4) (es : List Entry) (hc : Entries es)
    (j : Nat) (hj : j < (es.take 8).length) :
    slice (slotLine pre es) (4 + 7 * j) (7 + 7 * j) = (es.take 8)[j].1 ∧
    slice (slotLine pre es) (8 + 7 * j) (10 + 7 * j) = (es.take 8)[j].2 := by
  have hct : Entries (es.take 8) := fun s hs => hc s (List.mem_of_mem_take hs)
  have hj8 : j < 8 := by rw [List.length_take] at hj; omega
  have hm8 : (es.take 8).length ≤ 8 := by rw [List.length_take]; omega
  have hlen : (pre ++ eblk (es.take 8)).length ≤ 60 := by
    rw [List.length_append, hp, eblk_length _ hct]; omega
  unfold slotLine
  rw [slice_mk _ _ _ _ hlen (by omega), slice_mk _ _ _ _ hlen (by omega)]
  generalize (60 - (pre ++ eblk (es.take 8)).length) = n
  have hd : List.drop j (es.take 8) = (es.take 8)[j] :: List.drop (j + 1) (es.take 8) :=
    List.drop_eq_getElem_cons hj
  have he := hct _ (List.getElem_mem hj)
  generalize (es.take 8)[j] = e at *
  have base : List.drop (4 + 7 * j) (pre ++ eblk (es.take 8) ++ List.replicate n ' ') =
      e.1 ++ (' ' :: (e.2 ++ (' ' :: eblk (List.drop (j + 1) (es.take 8)) ++
        List.replicate n ' '))) := by
    rw [List.append_assoc, ← List.drop_drop, List.drop_left' hp,
      List.drop_append_of_le_length (by rw [eblk_length _ hct]; omega), eblk_drop _ hct, hd]
    simp [eblk]
  unfold slice
  rw [List.drop_take, List.drop_take]
  constructor
  · rw [base]
    exact List.take_left' (by rw [he.1]; omega)
  · rw [show 8 + 7 * j = (4 + 7 * j) + 4 by omega, ← List.drop_drop, base,
      show (4 : Nat) = e.1.length + 1 by omega, ← List.drop_drop, List.drop_left]
    simp only [List.drop_succ_cons, List.drop_zero]
    exact List.take_left' (by rw [he.2]; omega)

/-- the remaining entries of the line in use -/
theorem slots_inner (pre : List Char) (hp : pre.length = 4) (es : List Entry) (hc : Entries es)
    (q k d j : Nat) (hd : j + d = (es.take 8).length) (hj : 0 < j) (ls : List Line) (h : Hdr) :
    readSlots (k + d) (8 * q + j) (slotLine pre es) ls h =
      (((es.take 8).drop j).foldlM entry h >>= fun h' =>
        readSlots k (8 * q + (j + d)) (slotLine pre es) ls h') := by
  have hm8 : (es.take 8).length ≤ 8 := by rw [List.length_take]; omega
  induction d generalizing j h with
  | zero =>
    rw [List.drop_eq_nil_of_le (by omega)]
    rfl
  | succ d ih =>
    have hjl : j < (es.take 8).length := by omega
    obtain ⟨c1, c2⟩ := slot_cols pre hp es hc j hjl
    have hmod : (8 * q + j) % 8 = j := by omega
    rw [List.drop_eq_getElem_cons hjl, List.foldlM_cons]
    rw [show k + (d + 1) = (k + d) + 1 by omega, readSlots]
    have hadv : decide (0 < 8 * q + j ∧ (8 * q + j) % 8 = 0) = false := by
      rw [decide_eq_false_iff_not]; omega
    simp only [hadv, Bool.false_eq_true, if_false]
    simp only [hmod]
    rw [c1, c2]
    unfold entry
    cases h1 : id2sat (es.take 8)[j].1 with
    | error e => rfl
    | ok sat =>
      cases h2 : pyInt (es.take 8)[j].2 with
      | error e => rfl
      | ok ch =>
        rw [Py.okBind, Py.okBind, Py.okBind, Py.okBind]
        have := ih (j + 1) (by omega) (by omega) { h with gloCh := h.gloCh.set sat ch }
        rw [show 8 * q + j + 1 = 8 * q + (j + 1) by omega, this,
          show j + 1 + d = j + (d + 1) by omega]
        rfl

/-- continuation lines -/
theorem slots_outer (n : Nat) : ∀ (es : List Entry) (_ : es.length ≤ n) (_ : Entries es) (q : Nat)
    (line : Line) (rest : List Line) (h : Hdr),
    readSlots es.length (8 * (q + 1)) line (slotCont ((es.length + 7) / 8) es ++ rest) h =
      (es.foldlM entry h >>= fun h' => .ok (h', rest)) := by
  induction n with
  | zero =>
    intro es hn _ q line rest h
    have : es = [] := List.length_eq_zero_iff.1 (by omega)
    subst this; rfl
  | succ n ih =>
    intro es hn hc q line rest h
    cases hes : es with
    | nil => rfl
    | cons e0 es0 =>
      rw [← hes]
      have hpos : 0 < es.length := by rw [hes]; simp
      have hk : (es.length + 7) / 8 = ((es.drop 8).length + 7) / 8 + 1 := by
        rw [List.length_drop]; omega
      have htl : (es.take 8).length = min 8 es.length := List.length_take
      have hj0 : 0 < (es.take 8).length := by rw [htl]; omega
      obtain ⟨c1, c2⟩ := slot_cols [' ', ' ', ' ', ' '] rfl es hc 0 hj0
      obtain ⟨d, hd⟩ : ∃ d, 1 + d = (es.take 8).length := ⟨(es.take 8).length - 1, by omega⟩
      have hlen : es.length = ((es.drop 8).length + d) + 1 := by
        rw [List.length_drop]; omega
      have hfold : es.foldlM entry h = ((es.take 8).foldlM entry h >>= fun h' =>
          (es.drop 8).foldlM entry h') := by
        rw [← List.foldlM_append, List.take_append_drop]
      rw [hfold]
      conv_lhs => rw [hk, slotCont, List.cons_append]
      conv_lhs => rw [hlen, readSlots]
      have hadv : decide (0 < 8 * (q + 1) ∧ 8 * (q + 1) % 8 = 0) = true := by
        rw [decide_eq_true_iff]; omega
      have hmod : 8 * (q + 1) % 8 = 0 := by omega
      simp only [hadv, if_true, List.headD_cons, List.tail_cons]
      simp only [hmod]
      rw [c1, c2]
      have hcons : es.take 8 = (es.take 8)[0] :: (es.take 8).drop 1 := by
        conv_lhs => rw [← List.drop_zero (l := es.take 8), List.drop_eq_getElem_cons hj0]
      conv_rhs => rw [hcons, List.foldlM_cons]
      unfold entry
      cases h1 : id2sat (es.take 8)[0].1 with
      | error e => rfl
      | ok sat =>
        cases h2 : pyInt (es.take 8)[0].2 with
        | error e => rfl
        | ok ch =>
          rw [Py.okBind, Py.okBind, Py.okBind, Py.okBind, Py.okBind]
          have hin := slots_inner [' ', ' ', ' ', ' '] rfl es hc (q + 1) (es.drop 8).length d 1 hd
            (by omega) (slotCont (((es.drop 8).length + 7) / 8) (es.drop 8) ++ rest)
            { h with gloCh := h.gloCh.set sat ch }
          rw [show (es.drop 8).length + d = (es.drop 8).length + d from rfl] at hin
          rw [hin]
          change _ = ((List.drop 1 (es.take 8)).foldlM entry _ >>= _) >>= _
          cases hf : (List.drop 1 (es.take 8)).foldlM entry
              { h with gloCh := h.gloCh.set sat ch } with
          | error e => rfl
          | ok h' =>
            rw [Py.okBind, Py.okBind]
            by_cases he : es.drop 8 = []
            · rw [he]; rfl
            · have h8 : 1 + d = 8 := by
                have : (es.drop 8).length ≠ 0 := fun c => he (List.length_eq_zero_iff.1 c)
                rw [List.length_drop] at this; omega
              rw [h8, show 8 * (q + 1) + 8 = 8 * (q + 1 + 1) by omega]
              have hcd : Entries (es.drop 8) := fun s hs => hc s (List.mem_of_mem_drop hs)
              rw [ih (es.drop 8) (by rw [List.length_drop]; omega) hcd]
              rfl

/-- **GLONASS slot lists of any length are read completely**: eight per line, each satellite
with its own channel, and the reader continues behind the record. -/
theorem slots_complete (es : List Entry) (hc : Entries es) (hn : es.length < 1000)
    (rest : List Line) (h : Hdr) :
    header (slotRecord es ++ rest) h =
      (es.foldlM entry h >>= fun h' => header rest h') := by
  obtain ⟨i1, i2⟩ := i3_spec es.length hn
  have hct : Entries (es.take 8) := fun s hs => hc s (List.mem_of_mem_take hs)
  have hm8 : (es.take 8).length ≤ 8 := by rw [List.length_take]; omega
  have hp : (i3 es.length ++ [' ']).length = 4 := by rw [List.length_append, i1]; rfl
  have hlen : (i3 es.length ++ [' '] ++ eblk (es.take 8)).length ≤ 60 := by
    rw [List.length_append, hp, eblk_length _ hct]; omega
  have hcount : slice (slotLine (i3 es.length ++ [' ']) es) 0 3 = i3 es.length := by
    unfold slotLine
    rw [slice_mk _ _ _ _ hlen (by omega)]
    unfold slice
    rw [List.append_assoc, List.append_assoc, List.drop_zero]
    exact List.take_left' i1
  rw [slotRecord, List.cons_append, header_cons]
  have l73 : slice (slotLine (i3 es.length ++ [' ']) es) 60 73 ≠ "END OF HEADER".toList := by
    unfold slotLine; rw [slice_lbl _ _ _ hlen]; decide
  have l79 : slice (slotLine (i3 es.length ++ [' ']) es) 60 79 ≠ "SYS / # / OBS TYPES".toList := by
    unfold slotLine; rw [slice_lbl _ _ _ hlen]; decide
  have l80 : slice (slotLine (i3 es.length ++ [' ']) es) 60 80 = "GLONASS SLOT / FRQ #".toList := by
    unfold slotLine; rw [slice_lbl _ _ _ hlen]; decide
  rw [if_neg l73]
  unfold headerLine
  rw [if_neg l79, if_pos l80, hcount, i2, Py.okBind]
  have main : readSlots es.length 0 (slotLine (i3 es.length ++ [' ']) es)
      (slotCont ((es.length - 1) / 8) (es.drop 8) ++ rest) h =
      (es.foldlM entry h >>= fun h' => .ok (h', rest)) := by
    cases hes : es with
    | nil => rfl
    | cons e0 es0 =>
      rw [← hes]
      have hpos : 0 < es.length := by rw [hes]; simp
      have hj0 : 0 < (es.take 8).length := by rw [List.length_take]; omega
      have htl : (es.take 8).length = min 8 es.length := List.length_take
      obtain ⟨c1, c2⟩ := slot_cols (i3 es.length ++ [' ']) hp es hc 0 hj0
      obtain ⟨d, hd⟩ : ∃ d, 1 + d = (es.take 8).length := ⟨(es.take 8).length - 1, by omega⟩
      have hl : es.length = ((es.drop 8).length + d) + 1 := by
        rw [List.length_drop]; omega
      have hfold : es.foldlM entry h = ((es.take 8).foldlM entry h >>= fun h' =>
          (es.drop 8).foldlM entry h') := by
        rw [← List.foldlM_append, List.take_append_drop]
      have hk : (es.length - 1) / 8 = ((es.drop 8).length + 7) / 8 := by
        rw [List.length_drop]; omega
      rw [hfold, hk]
      generalize hL : slotLine (i3 es.length ++ [' ']) es = L at *
      conv_lhs => rw [hl, readSlots]
      simp only [Nat.lt_irrefl, false_and, decide_false, Bool.false_eq_true, if_false, Nat.zero_mod]
      rw [c1, c2]
      have hcons : es.take 8 = (es.take 8)[0] :: (es.take 8).drop 1 := by
        conv_lhs => rw [← List.drop_zero (l := es.take 8), List.drop_eq_getElem_cons hj0]
      conv_rhs => rw [hcons, List.foldlM_cons]
      unfold entry
      cases h1 : id2sat (es.take 8)[0].1 with
      | error e => rfl
      | ok sat =>
        cases h2 : pyInt (es.take 8)[0].2 with
        | error e => rfl
        | ok ch =>
          rw [Py.okBind, Py.okBind, Py.okBind, Py.okBind, Py.okBind]
          have hin := slots_inner (i3 es.length ++ [' ']) hp es hc 0 (es.drop 8).length d 1 hd
            (by omega) (slotCont (((es.drop 8).length + 7) / 8) (es.drop 8) ++ rest)
            { h with gloCh := h.gloCh.set sat ch }
          rw [hL] at hin
          rw [show 0 + 1 = 8 * 0 + 1 from rfl, hin]
          change _ = ((List.drop 1 (es.take 8)).foldlM entry _ >>= _) >>= _
          cases hf : (List.drop 1 (es.take 8)).foldlM entry
              { h with gloCh := h.gloCh.set sat ch } with
          | error e => rfl
          | ok h' =>
            rw [Py.okBind, Py.okBind]
            by_cases he : es.drop 8 = []
            · rw [he]; rfl
            · have h8 : 1 + d = 8 := by
                have : (es.drop 8).length ≠ 0 := fun c => he (List.length_eq_zero_iff.1 c)
                rw [List.length_drop] at this; omega
              have hcd : Entries (es.drop 8) := fun s hs => hc s (List.mem_of_mem_drop hs)
              rw [h8, show 8 * 0 + 8 = 8 * (0 + 1) by omega,
                slots_outer _ (es.drop 8) (le_refl _) hcd]
              rfl
  have hnat : ((es.length : Int)).toNat = es.length := rfl
  rw [hnat, main]
  cases es.foldlM entry h with
  | error e => rfl
  | ok h' => rfl

/-! ### Cases -/

/-- thirty Galileo codes (three lines): the record is of the format and is read completely -/
example : (record 'E' (List.replicate 30 "C1C".toList)).length = 3 ∧
    Codes (List.replicate 30 "C1C".toList) ∧ needed 30 ≤ 30 - 13 * needed 30 := by
  refine ⟨by decide, ?_, by decide⟩
  intro s hs
  rw [(List.mem_replicate.1 hs).2]
  decide

/-- twenty-seven codes (three lines, the last with one code): not readable -/
example : header (record 'G' (List.replicate 27 "C1C".toList) ++ ["".toList]) {} =
    .error .valueError := by
  apply read_fails
  · intro s hs; rw [(List.mem_replicate.1 hs).2]; decide
  · decide
  · decide

/-- a header with two signal records and nine GLONASS slots, as text -/
example :
    header (record 'G' ["C1C".toList, "L1C".toList] ++ (record 'E' ["C5Q".toList] ++
      (slotRecord ((List.range 9).map fun k => ('R' :: fmt02 (k + 1 : Nat), " 1".toList)) ++
      [mkLine [] "END OF HEADER", "data".toList]))) {} =
    .ok (⟨[(.gal, [(0, ⟨.gal, .C, 517⟩)]), (.gps, [(1, ⟨.gps, .L, 103⟩), (0, ⟨.gps, .C, 103⟩)])],
      (List.range 9).reverse.map fun k => ((149 + k : Nat), 1)⟩, ["data".toList]) := by
  decide +kernel

end Verif.C39
