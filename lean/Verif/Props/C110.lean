import Verif.Model.RnxHead
import Verif.Props.C39
import Verif.Props.C109
/-!
C110: the list of observation types in the header.
-/

namespace Verif.C110
open Verif.Sat Verif.Sig Verif.Rinex Verif.C39

/-! ### Specification -/

/-- the observation types in the order of the columns: for each signal pseudorange, phase, and Doppler and strength if there are such -/
def codesOf (pr cp : List (List Char)) (dp cn : Option (List (List Char))) : List (List Char) :=
  (List.range pr.length).flatMap fun i =>
    [pr.getD i [], cp.getD i []] ++ (dp.map (·.getD i [])).toList ++ (cn.map (·.getD i [])).toList

/-- types for every signal, and each three characters without a blank -/
def Full (pr cp : List (List Char)) (dp cn : Option (List (List Char))) : Prop :=
  cp.length = pr.length ∧ (∀ l, dp = some l → l.length = pr.length) ∧ (∀ l, cn = some l → l.length = pr.length) ∧
    Codes (codesOf pr cp dp cn)

/-- columns of a signal -/
def wide (dp cn : Option (List (List Char))) : Nat := 2 + dp.toList.length + cn.toList.length

/-! ### Lemmas -/

def sep : Line := pad 2 [] ++ pad 20 "SYS / # / OBS TYPES".toList ++ ['\n'] ++ pad 6 []

/-- text after `j` types -/
def T (head : Line) (cs : List (List Char)) (j : Nat) : Line :=
  head ++ (if j < 13 then blk (cs.take j) else blk (cs.take 13) ++ sep ++ blk ((cs.take j).drop 13))

theorem blk_snoc (cs : List (List Char)) (s : List Char) : blk (cs ++ [s]) = blk cs ++ ' ' :: s := by
  simp [blk, List.flatMap_append]

theorem step (head : Line) (cs : List (List Char)) (hc : Codes cs) (j : Nat) (hj : j < cs.length) :
    brk (putCode (j, T head cs j) cs[j]) = (j + 1, T head cs (j + 1)) := by
  have h3 := (hc cs[j] (List.getElem_mem _)).1
  have hp : pad 3 cs[j] = cs[j] := by simp [pad, h3]
  have ht : cs.take (j + 1) = cs.take j ++ [cs[j]] := by rw [List.take_succ_eq_append_getElem hj]
  unfold putCode brk
  simp only [hp]
  rcases Nat.lt_trichotomy (j + 1) 13 with h | h | h
  · rw [if_neg (by omega)]
    unfold T
    rw [if_pos (by omega), if_pos h, ht, blk_snoc]
    simp
  · rw [if_pos h]
    have hj12 : j = 12 := by omega
    subst hj12
    unfold T
    rw [if_pos (by omega), if_neg (by omega), ht, blk_snoc]
    have : ((cs.take 12 ++ [cs[12]]).drop 13) = [] := by
      rw [List.drop_eq_nil_iff, List.length_append, List.length_take]; simp
    rw [show (12 + 1 : Nat) = 13 from rfl, this]
    simp [sep, blk]
  · rw [if_neg (by omega)]
    unfold T
    rw [if_neg (by omega), if_neg (by omega), ht, List.drop_append_of_le_length (by rw [List.length_take]; omega), blk_snoc]
    simp

theorem group_len (pr cp : List (List Char)) (dp cn : Option (List (List Char))) (i : Nat) :
    ([pr.getD i [], cp.getD i []] ++ (dp.map (·.getD i [])).toList ++ (cn.map (·.getD i [])).toList).length = wide dp cn := by
  cases dp <;> cases cn <;> rfl

theorem codes_len (pr cp : List (List Char)) (dp cn : Option (List (List Char))) :
    (codesOf pr cp dp cn).length = wide dp cn * pr.length := by
  unfold codesOf
  rw [List.length_flatMap]
  simp only [group_len]
  simp [Nat.mul_comm]

theorem code_at (pr cp : List (List Char)) (dp cn : Option (List (List Char))) (i : Nat) (hi : i < pr.length) (j : Nat)
    (hj : j < wide dp cn) :
    (codesOf pr cp dp cn)[wide dp cn * i + j]? =
      ([pr.getD i [], cp.getD i []] ++ (dp.map (·.getD i [])).toList ++ (cn.map (·.getD i [])).toList)[j]? := by
  unfold codesOf
  rw [C109.flat_at _ (wide dp cn) (group_len pr cp dp cn) j hj _ i (by simpa using hi)]
  simp

/-- the closing text -/
def close (nsig : Nat) : Line :=
  [' ', ' '] ++ List.replicate (4 * (13 - nsig % 13)) ' ' ++ pad 20 "SYS / # / OBS TYPES \n".toList

theorem step' (head : Line) (cs : List (List Char)) (hc : Codes cs) (j : Nat) (s : List Char) (h : cs[j]? = some s) :
    brk (putCode (j, T head cs j) s) = (j + 1, T head cs (j + 1)) := by
  obtain ⟨hj, rfl⟩ := List.getElem?_eq_some_iff.1 h
  exact step head cs hc j hj

theorem pyGet_getD (l : List (List Char)) (i : Nat) (h : i < l.length) : pyGet l i = .ok (l.getD i []) := by
  unfold pyGet
  simp [h]

theorem turn (head : Line) (pr cp : List (List Char)) (dp cn : Option (List (List Char))) (hf : Full pr cp dp cn) (i : Nat)
    (hi : i < pr.length) :
    sigTurn (wide dp cn * pr.length) pr cp dp cn (wide dp cn * i, T head (codesOf pr cp dp cn) (wide dp cn * i)) i =
      .ok (wide dp cn * (i + 1), T head (codesOf pr cp dp cn) (wide dp cn * (i + 1)) ++
        if i + 1 = pr.length then close (wide dp cn * pr.length) else []) := by
  obtain ⟨h1, h2, h3, hc⟩ := hf
  have hat := code_at pr cp dp cn i hi
  have hne : wide dp cn * (i + 1) ≠ 13 := by
    cases dp <;> cases cn <;> simp [wide] <;> omega
  have hend : ((wide dp cn * pr.length : Nat) : Int) - 1 ≤ (wide dp cn * (i + 1) : Nat) ↔ i + 1 = pr.length := by
    cases dp <;> cases cn <;> simp [wide] <;> omega
  have hfin : ∀ x, endSig (wide dp cn * pr.length) (wide dp cn * (i + 1), x) =
      (wide dp cn * (i + 1), x ++ if i + 1 = pr.length then close (wide dp cn * pr.length) else []) := by
    intro x
    unfold endSig
    rw [if_neg hne]
    by_cases he : i + 1 = pr.length
    · rw [if_pos (hend.2 he), if_pos he]; rfl
    · rw [if_neg (fun h => he (hend.1 h)), if_neg he, List.append_nil]
  have s0 := step' head _ hc (wide dp cn * i + 0) _ (hat 0 (by unfold wide; omega))
  have s1 := step' head _ hc (wide dp cn * i + 1) _ (hat 1 (by unfold wide; omega))
  have hw : wide dp cn * (i + 1) = wide dp cn * i + wide dp cn := rfl
  unfold sigTurn
  rw [pyGet_getD pr i hi, pyGet_getD cp i (by omega)]
  simp only [Py.okBind]
  rw [show brk (putCode (wide dp cn * i, T head (codesOf pr cp dp cn) (wide dp cn * i)) (pr.getD i [])) = _ from s0,
    show brk (putCode (wide dp cn * i + 0 + 1, T head (codesOf pr cp dp cn) (wide dp cn * i + 0 + 1)) (cp.getD i [])) = _ from s1]
  have hlast : ∀ j s, wide dp cn = j + 1 → (codesOf pr cp dp cn)[wide dp cn * i + j]? = some s →
      putCode (wide dp cn * i + j, T head (codesOf pr cp dp cn) (wide dp cn * i + j)) s =
        (wide dp cn * (i + 1), T head (codesOf pr cp dp cn) (wide dp cn * (i + 1))) := by
    intro j s hj hs
    have h := step' head _ hc _ _ hs
    have e : wide dp cn * i + j + 1 = wide dp cn * (i + 1) := by rw [hw]; omega
    unfold brk at h
    rw [if_neg (by unfold putCode; simp only; omega)] at h
    rw [h, e]
  cases dp with
  | none =>
    cases cn with
    | none => exact congrArg _ (hfin _)
    | some c =>
      have e := hlast 2 (c.getD i []) rfl (hat 2 (by unfold wide; simp))
      unfold putOpt
      simp only [pyGet_getD c i (by rw [h3 c rfl]; exact hi), Py.okBind, pure, Except.pure, Option.isSome_none, Bool.false_eq_true,
        if_false]
      exact congrArg _ ((congrArg _ e).trans (hfin _))
  | some d =>
    have s2 := step' head _ hc (wide (some d) cn * i + 2) (d.getD i []) (hat 2 (by unfold wide; simp; omega))
    unfold putOpt
    simp only [pyGet_getD d i (by rw [h2 d rfl]; exact hi), Py.okBind, pure, Except.pure, Option.isSome_some, if_true]
    rw [show brk (putCode (wide (some d) cn * i + 1 + 1, T head (codesOf pr cp (some d) cn) (wide (some d) cn * i + 1 + 1)) (d.getD i [])) = _
      from s2]
    cases cn with
    | none => exact congrArg _ (hfin _)
    | some c =>
      have e := hlast 3 (c.getD i []) rfl (hat 3 (by unfold wide; simp))
      simp only [pyGet_getD c i (by rw [h3 c rfl]; exact hi), Py.okBind]
      exact congrArg _ ((congrArg _ e).trans (hfin _))

theorem loop (head : Line) (pr cp : List (List Char)) (dp cn : Option (List (List Char))) (hf : Full pr cp dp cn) (hk : 0 < pr.length) :
    ∀ m ≤ pr.length, (List.range m).foldlM (sigTurn (wide dp cn * pr.length) pr cp dp cn) (0, head) =
      .ok (wide dp cn * m, T head (codesOf pr cp dp cn) (wide dp cn * m) ++
        if m = pr.length then close (wide dp cn * pr.length) else []) := by
  intro m
  induction m with
  | zero =>
    intro _
    rw [if_neg (by omega)]
    show Except.ok _ = _
    simp [T, blk]
  | succ m ih =>
    intro hm
    rw [List.range_succ, List.foldlM_append, ih (by omega), if_neg (by omega), Py.okBind, List.append_nil, List.foldlM_cons,
      turn head pr cp dp cn hf m (by omega)]
    rfl

theorem count (pr cp : List (List Char)) (dp cn : Option (List (List Char))) (hf : Full pr cp dp cn) :
    pr.length + cp.length + (dp.getD []).length + (cn.getD []).length = wide dp cn * pr.length := by
  obtain ⟨h1, h2, h3, -⟩ := hf
  cases dp with
  | none =>
    cases cn with
    | none => simp [wide]; omega
    | some c => have := h3 c rfl; simp [wide]; omega
  | some d =>
    have := h2 d rfl
    cases cn with
    | none => simp [wide]; omega
    | some c => have := h3 c rfl; simp [wide]; omega

/-- all that is written for a constellation -/
theorem text (c : Char) (pr cp : List (List Char)) (dp cn : Option (List (List Char))) (hf : Full pr cp dp cn) (hk : 0 < pr.length) :
    typesText (some c) pr cp dp cn = .ok (T ([c, ' ', ' '] ++ ralign 3 ' ' (codesOf pr cp dp cn).length) (codesOf pr cp dp cn)
      (codesOf pr cp dp cn).length ++ close (codesOf pr cp dp cn).length) := by
  unfold typesText
  simp only
  rw [count pr cp dp cn hf, codes_len, if_neg (by
    have : 0 < wide dp cn * pr.length := Nat.mul_pos (by unfold wide; omega) hk
    omega), loop _ pr cp dp cn hf hk _ (le_refl _), if_pos rfl]
  rfl

theorem i3_eq : ∀ n < 1000, ralign 3 ' ' n = i3 n := by decide +kernel

/-! ### The property -/

/-- Up to 25 observation types are written exactly as the format prescribes, in the order of the columns of the observation records
(`C109.columns_read`). -/
theorem record_written (c : Char) (pr cp : List (List Char)) (dp cn : Option (List (List Char))) (hf : Full pr cp dp cn)
    (hk : 0 < pr.length) (hn : (codesOf pr cp dp cn).length ≤ 25) :
    typesText (some c) pr cp dp cn = .ok (record c (codesOf pr cp dp cn)).flatten := by
  rw [text c pr cp dp cn hf hk]
  have hne : (codesOf pr cp dp cn).length ≠ 13 := by
    rw [codes_len]
    cases dp <;> cases cn <;> simp [wide] <;> omega
  have hc := hf.2.2.2
  generalize codesOf pr cp dp cn = cs at *
  rw [i3_eq _ (by omega)]
  congr 1
  have h3 := (i3_spec cs.length (by omega)).1
  unfold record T close
  have e20 : pad 20 "SYS / # / OBS TYPES 
".toList = "SYS / # / OBS TYPES".toList ++ [' ', '
'] := by decide
  have hsep : sep = "  ".toList ++ "SYS / # / OBS TYPES".toList ++ [' ', '
'] ++ "      ".toList := by decide
  rw [e20]
  have bl : ∀ a b : Nat, List.replicate a ' ' ++ List.replicate b ' ' = List.replicate (a + b) ' ' := fun a b => by simp
  rcases Nat.lt_or_ge cs.length 13 with h | h
  · rw [if_pos h, List.take_of_length_le (le_refl _), List.take_of_length_le (by omega)]
    have hz : needed cs.length = 0 := by unfold needed; omega
    rw [hz]
    simp only [contRecs, List.flatten_cons, List.flatten_nil, List.append_nil]
    unfold mkLine
    rw [List.length_append, List.length_append, h3, blk_length cs hc]
    have : 60 - ([c, ' ', ' '].length + 3 + 4 * cs.length) = 2 + 4 * (13 - cs.length % 13) := by
      rw [Nat.mod_eq_of_lt h]; simp only [List.length_cons, List.length_nil]; omega
    rw [this, ← bl]
    simp [List.replicate]
  · rw [if_neg (by omega), List.take_of_length_le (le_refl _)]
    have hz : needed cs.length = 1 := by unfold needed; omega
    rw [hz]
    simp only [contRecs, List.flatten_cons, List.flatten_nil, List.append_nil]
    unfold mkLine
    have hd : (cs.drop 13).take 13 = cs.drop 13 := List.take_of_length_le (by rw [List.length_drop]; omega)
    rw [hd, List.length_append, List.length_append, List.length_append, h3, blk_length _ (codes_take hc 13), blk_length _ (codes_drop hc 13),
      List.length_take, List.length_drop, hsep]
    have e1 : 60 - ([c, ' ', ' '].length + 3 + 4 * min 13 cs.length) = 2 := by
      simp only [List.length_cons, List.length_nil]; omega
    have e2 : 60 - ("      ".toList.length + 4 * (cs.length - 13)) = 2 + 4 * (13 - cs.length % 13) := by
      have : cs.length % 13 = cs.length - 13 := by omega
      rw [this]
      show 60 - (6 + _) = _
      omega
    rw [e1, e2, ← bl]
    simp [List.replicate]

/-- Read again, the record gives these types: column `i` of the observation records is type `i`. -/
theorem record_read (c : Char) (pr cp : List (List Char)) (dp cn : Option (List (List Char))) (hf : Full pr cp dp cn)
    (hk : 0 < pr.length) (hn : (codesOf pr cp dp cn).length ≤ 25) (rest : List Line) (h : Hdr) :
    ∃ lines, typesText (some c) pr cp dp cn = .ok lines.flatten ∧ header (lines ++ rest) h =
      (storeSigs (char2sys c) 0 (codesOf pr cp dp cn) h >>= fun h' => header rest h') :=
  ⟨_, record_written c pr cp dp cn hf hk hn, read_complete c _ hf.2.2.2 (by omega) (by unfold needed; omega) rest h⟩

/-- the types of a constellation in a selection -/
def entry (e : Sys × Dict Typ (List Sig)) (t : Typ) : List (List Char) := ((e.2.get? t).getD []).map str

/-- the record that a constellation needs -/
def recOf (e : Sys × Dict Typ (List Sig)) : List Line :=
  record (sys2char e.1) (codesOf (entry e .C) (entry e .L) ((e.2.get? .D).map (·.map str)) ((e.2.get? .S).map (·.map str)))

/-- The header lists all selected constellations in order, each with its record. -/
theorem all_records (tab : Tab) (h : ∀ e ∈ tab, e.1 ≠ .none ∧ e.2.mem .C = true ∧ e.2.mem .L = true ∧ 0 < (entry e .C).length ∧
    Full (entry e .C) (entry e .L) ((e.2.get? .D).map (·.map str)) ((e.2.get? .S).map (·.map str)) ∧
    (codesOf (entry e .C) (entry e .L) ((e.2.get? .D).map (·.map str)) ((e.2.get? .S).map (·.map str))).length ≤ 25) :
    allTypes tab = .ok (tab.flatMap recOf).flatten := by
  have key : tab.mapM (fun e => do
      let pr ← e.2.getItem .C
      let cp ← e.2.getItem .L
      typesText (sysChar e.1) (pr.map str) (cp.map str) ((e.2.get? .D).map (·.map str)) ((e.2.get? .S).map (·.map str)) : _ → Py Line) =
      .ok (tab.map fun e => (recOf e).flatten) := by
    induction tab with
    | nil => rfl
    | cons e tab ih =>
      obtain ⟨h0, h1, h2, h3, h4, h5⟩ := h e (by simp)
      obtain ⟨pr, hp⟩ := Option.isSome_iff_exists.1 h1
      obtain ⟨cp, hc⟩ := Option.isSome_iff_exists.1 h2
      have hchar : sysChar e.1 = some (sys2char e.1) := by
        have : ∀ s : Sys, s ≠ .none → sysChar s = some (sys2char s) := by intro s; cases s <;> decide
        exact this _ h0
      have e1 : entry e .C = pr.map str := by unfold entry; rw [hp]; rfl
      have e2 : entry e .L = cp.map str := by unfold entry; rw [hc]; rfl
      rw [List.mapM_cons, ih fun x hx => h x (by simp [hx])]
      simp only [Dict.getItem, hp, hc, Py.okBind]
      rw [e1, e2] at h4 h5
      rw [e1] at h3
      rw [hchar, record_written _ _ _ _ _ h4 h3 h5]
      simp only [recOf, e1, e2, Py.okBind, List.map_cons]
      rfl
  unfold allTypes
  rw [key]
  show Except.ok _ = _
  congr 1
  clear key h
  induction tab with
  | nil => rfl
  | cons e tab ih => simp [ih]

/-- Whatever the number of types, at most one change of line is made: two lines for more than 12 types, also where the format
prescribes three or more. -/
theorem two_lines (c : Char) (hcn : c ≠ '
') (pr cp : List (List Char)) (dp cn : Option (List (List Char))) (hf : Full pr cp dp cn)
    (hk : 0 < pr.length) (hn : (codesOf pr cp dp cn).length < 1000) :
    ∃ t, typesText (some c) pr cp dp cn = .ok t ∧ t.count '
' = if (codesOf pr cp dp cn).length < 13 then 1 else 2 := by
  refine ⟨_, text c pr cp dp cn hf hk, ?_⟩
  have hc := hf.2.2.2
  generalize codesOf pr cp dp cn = cs at *
  have hb : ∀ l : List (List Char), Codes l → (blk l).count '
' = 0 := by
    intro l hl
    rw [List.count_eq_zero]
    intro hm
    obtain ⟨s, hs, hm⟩ := List.mem_flatMap.1 hm
    rcases List.mem_cons.1 hm with h | h
    · exact absurd h (by decide)
    · have := (hl s hs).2 _ h
      revert this; decide
  have hh : ([c, ' ', ' '] ++ ralign 3 ' ' cs.length).count '
' = 0 := by
    have : ∀ n < 1000, (ralign 3 ' ' n).count '
' = 0 := by decide +kernel
    rw [List.count_append, this _ hn, List.count_eq_zero.2]
    simp [hcn.symm]
  have hcl : (close cs.length).count '
' = 1 := by
    unfold close
    rw [List.count_append, List.count_append, List.count_replicate]
    have : (pad 20 "SYS / # / OBS TYPES 
".toList).count '
' = 1 := by decide
    rw [this]
    simp
  have hsp : sep.count '
' = 1 := by decide
  unfold T
  rw [List.count_append, List.count_append, hh, hcl]
  split
  · rw [hb _ (codes_take hc _)]
  · rw [List.count_append, List.count_append, hb _ (codes_take hc _), hb _ (codes_drop (codes_take hc _) _), hsp]

/-- A constellation without a letter cannot be written. -/
theorem no_letter (pr cp : List (List Char)) (dp cn : Option (List (List Char))) (hk : 0 < pr.length) :
    typesText Option.none pr cp dp cn = .error .keyError := by
  unfold typesText
  simp only
  rw [if_neg (by omega)]

/-- Fewer phases than pseudoranges stop the writing. -/
theorem phase_missing (c : Char) (cp : List (List Char)) (dp cn : Option (List (List Char))) (pr : List (List Char)) (hk : 0 < pr.length)
    (hcp : cp = []) : typesText (some c) pr cp dp cn = .error .indexError := by
  subst hcp
  obtain ⟨p, q, rfl⟩ : ∃ p q, pr = p :: q := by
    cases pr with
    | nil => simp at hk
    | cons p q => exact ⟨p, q, rfl⟩
  unfold typesText
  simp only
  rw [if_neg (by simp), List.length_cons, List.range_succ_eq_map, List.foldlM_cons]
  rfl

/-! ### Cases -/

/-- seven GPS signals with four types each -/
def seven (t : Char) : List (List Char) := ["1C", "1W", "1L", "2W", "2L", "2S", "5Q"].map fun s => t :: s.toList

/-- the lines of a text -/
def linesOf (t : Line) : List Line := (t.splitOnP (· = '\n')).dropLast.map (· ++ ['\n'])

/-- Seven signals with four types, 28 types, make a header that the reader refuses: the second line holds 15 types, of which the
fourteenth is cut at column 60. -/
theorem seven_signals (rest : List Line) : ∃ t, typesText (some 'G') (seven 'C') (seven 'L') (some (seven 'D')) (some (seven 'S')) = .ok t ∧
    (∀ h, header (linesOf t ++ rest) h = .error .valueError) ∧ Full (seven 'C') (seven 'L') (some (seven 'D')) (some (seven 'S')) := by
  have hfull : Full (seven 'C') (seven 'L') (some (seven 'D')) (some (seven 'S')) := by
    refine ⟨rfl, by intro l h; cases h; rfl, by intro l h; cases h; rfl, ?_⟩
    unfold Codes
    decide +kernel
  refine ⟨_, text 'G' _ _ _ _ hfull (by decide), ?_, hfull⟩
  set cs := codesOf (seven 'C') (seven 'L') (some (seven 'D')) (some (seven 'S')) with hcs
  set t := T (['G', ' ', ' '] ++ ralign 3 ' ' cs.length) cs cs.length ++ close cs.length with ht
  have hlen : cs.length = 28 := by decide +kernel
  obtain ⟨l2, hl, h2⟩ : ∃ l2, linesOf t = [mkLine (['G', ' ', ' '] ++ i3 cs.length ++ blk (cs.take 13)) "SYS / # / OBS TYPES", l2] ∧
      ['D'] ∈ split (slice l2 7 60) :=
    ⟨(linesOf t).getD 1 [], by decide +kernel, by decide +kernel⟩
  intro h
  rw [hl, List.cons_append, first_line 'G' cs hfull.2.2.2 (by omega), hlen]
  have hmem : ['D'] ∈ cs.take 13 ++ (readCont (28 / 14) ([l2] ++ rest)).1 := by
    rw [List.mem_append]
    right
    show _ ∈ split (slice l2 7 60) ++ _
    rw [List.mem_append]
    exact Or.inl h2
  cases hr : storeSigs (char2sys 'G') 0 (cs.take 13 ++ (readCont (28 / 14) ([l2] ++ rest)).1) h with
  | error e =>
    rw [storeSigs_err _ _ _ _ _ hr]
    rfl
  | ok h' =>
    obtain ⟨r, hx⟩ := (stored _ _ _ _ hr).2.2.2 _ hmem
    exact absurd hx (by rw [show ofSysStr (char2sys 'G') ['D'] = .error .valueError by decide +kernel]; simp)

example : typesText (some 'E') ["C1C".toList, "C5Q".toList] ["L1C".toList, "L5Q".toList] Option.none (some ["S1C".toList, "S5Q".toList]) =
    .ok "E    6 C1C L1C S1C C5Q L5Q S5Q                              SYS / # / OBS TYPES \n".toList := by decide +kernel

example : Full ["C1C".toList, "C5Q".toList] ["L1C".toList, "L5Q".toList] Option.none (some ["S1C".toList, "S5Q".toList]) := by
  refine ⟨rfl, by simp, by simp, ?_⟩
  unfold Codes
  decide +kernel

end Verif.C110
