import Verif.Model.RnxObs
import Verif.Props.C39
import Mathlib.Data.List.Perm.Basic
import Mathlib.Data.List.Range
import Mathlib.Tactic.Linarith
/-!
C69: what a RINEX observation epoch contains.

The specification reads the text of the satellite lines directly: a signal's value stands in the
fourteen characters from `16 i + 3`, its loss-of-lock flag in the character `16 i + 17`, where `i`
is the position of the signal in the header's list.
-/

namespace Verif.C69
open Verif.Rinex Verif.Sat Verif.Sig Verif.Time

/-! ### Specification -/

/-- the positions (in ascending order, below `k`) at which the header lists the signal -/
def positions (m : Dict Nat Sig) (s : Sig) (k : Nat) : List Nat :=
  (List.range k).filter fun i => m.get? i = some s

/-- the value of a signal on a line: the text at the last position of the signal, zero if the
header does not list it -/
def value (num : List Char → Py ℚ) (line : Line) (m : Dict Nat Sig) (k : Nat) (s : Sig) : ℚ :=
  match (positions m s k).getLast? with
  | Option.none => 0
  | some i => (field num line i).toOption.getD 0

/-- the loss-of-lock flag of a signal on a line -/
def flag (line : Line) (m : Dict Nat Sig) (k : Nat) (s : Sig) : Nat :=
  match (positions m s k).getLast? with
  | Option.none => 0
  | some i => lliAt line i

/-- a row of a table: entry `j` belongs to selected signal `j`; a signal that is selected twice
only gets its first column -/
def cells {α : Type} [Zero α] (ss : List Sig) (f : Sig → α) : List α :=
  (List.range ss.length).map fun j =>
    if h : j < ss.length then (if ss.idxOf ss[j] = j then f ss[j] else 0) else 0

/-! ### One satellite line -/

theorem cells_length {α : Type} [Zero α] (ss : List Sig) (f : Sig → α) :
    (cells ss f).length = ss.length := by simp [cells]

theorem cells_get {α : Type} [Zero α] (ss : List Sig) (f : Sig → α) (j : Nat)
    (h : j < (cells ss f).length) :
    (cells ss f)[j] = if ss.idxOf (ss[j]'(by simpa [cells] using h)) = j
      then f (ss[j]'(by simpa [cells] using h)) else 0 := by
  have h' : j < ss.length := by simpa [cells] using h
  simp [cells, h']

theorem cells_zero {α : Type} [Zero α] (ss : List Sig) :
    cells ss (fun _ => (0 : α)) = List.replicate ss.length 0 := by
  apply List.ext_getElem
  · simp [cells]
  · intro j h1 h2
    rw [cells_get]
    simp

theorem cells_congr {α : Type} [Zero α] (ss : List Sig) (f g : Sig → α)
    (h : ∀ s ∈ ss, f s = g s) : cells ss f = cells ss g := by
  apply List.ext_getElem
  · simp [cells]
  · intro j h1 h2
    rw [cells_get, cells_get, h _ (List.getElem_mem _)]

theorem cells_set {α : Type} [Zero α] (ss : List Sig) (f : Sig → α) (s : Sig) (v : α) :
    (cells ss f).set (ss.idxOf s) v = cells ss (fun x => if x = s then v else f x) := by
  apply List.ext_getElem
  · simp [cells]
  · intro j h1 h2
    have hj : j < ss.length := by simpa [cells] using h2
    rw [List.getElem_set, cells_get, cells_get]
    by_cases e : ss[j] = s
    · subst e
      by_cases e2 : ss.idxOf ss[j] = j
      · simp [e2]
      · simp [e2]
    · have : ss.idxOf s ≠ j := by
        intro e2
        apply e
        subst e2
        exact List.getElem_idxOf hj
      simp [e, this]

theorem positions_succ (m : Dict Nat Sig) (s : Sig) (k : Nat) :
    positions m s (k + 1) = positions m s k ++ if m.get? k = some s then [k] else [] := by
  unfold positions
  rw [List.range_succ, List.filter_append]
  congr 1
  by_cases h : m.get? k = some s <;> simp [h]

theorem value_succ (num : List Char → Py ℚ) (line : Line) (m : Dict Nat Sig) (k : Nat) (s : Sig) :
    value num line m (k + 1) s =
      if m.get? k = some s then (field num line k).toOption.getD 0 else value num line m k s := by
  unfold value
  rw [positions_succ]
  by_cases h : m.get? k = some s <;> simp [h]

theorem flag_succ (line : Line) (m : Dict Nat Sig) (k : Nat) (s : Sig) :
    flag line m (k + 1) s = if m.get? k = some s then lliAt line k else flag line m k s := by
  unfold flag
  rw [positions_succ]
  by_cases h : m.get? k = some s <;> simp [h]

/-- the columns below `k` -/
def colsTo (m : Dict Nat Sig) (k : Nat) : List (Nat × Sig) :=
  (List.range k).filterMap fun i => (m.get? i).map fun s => (i, s)

/-- signals of a type -/
def ofTyp (d : Dict Typ (List Sig)) (t : Typ) : List Sig := (d.get? t).getD []

/-- the row expected from the columns below `k` -/
def rowTo (num : List Char → Py ℚ) (line : Line) (d : Dict Typ (List Sig)) (m : Dict Nat Sig)
    (k : Nat) : Row :=
  { pr := cells (ofTyp d .C) (value num line m k)
    cp := cells (ofTyp d .L) (value num line m k)
    dp := cells (ofTyp d .D) (value num line m k)
    cn := cells (ofTyp d .S) (value num line m k)
    ll := cells (ofTyp d .L) (flag line m k) }

/-- selected signals of each type are filed under their type -/
def Typed (d : Dict Typ (List Sig)) : Prop := ∀ t, ∀ s ∈ ofTyp d t, s.typ = t

theorem pySet_idx {α : Type} [Zero α] (ss : List Sig) (f : Sig → α) (s : Sig) (v : α)
    (h : s ∈ ss) :
    pySet (cells ss f) (ss.idxOf s) v = .ok (cells ss (fun x => if x = s then v else f x)) := by
  unfold pySet
  rw [if_pos (by rw [cells_length]; exact List.idxOf_lt_length_iff.2 h), cells_set]

theorem row_same (num : List Char → Py ℚ) (line : Line) (d : Dict Typ (List Sig))
    (m : Dict Nat Sig) (k : Nat) (h : ∀ t, ∀ s ∈ ofTyp d t, m.get? k ≠ some s) :
    rowTo num line d m (k + 1) = rowTo num line d m k := by
  have hv : ∀ t, cells (ofTyp d t) (value num line m (k + 1)) =
      cells (ofTyp d t) (value num line m k) := fun t =>
    cells_congr _ _ _ fun s hs => by rw [value_succ, if_neg (h t s hs)]
  have hf : cells (ofTyp d .L) (flag line m (k + 1)) = cells (ofTyp d .L) (flag line m k) :=
    cells_congr _ _ _ fun s hs => by rw [flag_succ, if_neg (h .L s hs)]
  unfold rowTo
  rw [hv, hv, hv, hv, hf]

/-- one column -/
theorem column_step (num : List Char → Py ℚ) (line : Line) (d : Dict Typ (List Sig))
    (hd : Typed d) (m : Dict Nat Sig) (k : Nat) (s : Sig) (hk : m.get? k = some s) :
    column num line d (rowTo num line d m k) (k, s) =
      if s ∈ ofTyp d s.typ then
        (field num line k).bind fun _ => .ok (rowTo num line d m (k + 1))
      else .ok (rowTo num line d m (k + 1)) := by
  unfold column
  by_cases hs : s ∈ ofTyp d s.typ
  · rw [if_pos hs]
    unfold ofTyp at hs
    dsimp only
    cases hg : d.get? s.typ with
    | none => rw [hg] at hs; simp at hs
    | some ss =>
      rw [hg] at hs
      simp only [Option.getD_some] at hs
      dsimp only
      rw [if_neg (by simpa using hs)]
      cases hf : field num line k with
      | error e => rfl
      | ok v =>
        have hss : ofTyp d s.typ = ss := by unfold ofTyp; rw [hg]; rfl
        have hv : ∀ t, t ≠ s.typ → cells (ofTyp d t) (value num line m (k + 1)) =
            cells (ofTyp d t) (value num line m k) := fun t ht =>
          cells_congr _ _ _ fun x hx => by
            rw [value_succ, if_neg]
            intro e
            rw [hk] at e
            injection e with e
            subst e
            exact ht (hd t _ hx).symm
        have hl : Typ.L ≠ s.typ → cells (ofTyp d .L) (flag line m (k + 1)) =
            cells (ofTyp d .L) (flag line m k) := fun ht =>
          cells_congr _ _ _ fun x hx => by
            rw [flag_succ, if_neg]
            intro e
            rw [hk] at e
            injection e with e
            subst e
            exact ht (hd .L _ hx).symm
        have hv' : cells ss (value num line m (k + 1)) =
            cells ss (fun x => if x = s then v else value num line m k x) :=
          cells_congr _ _ _ fun x _ => by
            rw [value_succ, hk, hf]
            by_cases e : x = s
            · subst e; simp [Except.toOption]
            · rw [if_neg (by simpa using fun h => e h.symm), if_neg e]
        have hl' : cells ss (flag line m (k + 1)) =
            cells ss (fun x => if x = s then lliAt line k else flag line m k x) :=
          cells_congr _ _ _ fun x _ => by
            rw [flag_succ, hk]
            by_cases e : x = s
            · subst e; simp
            · rw [if_neg (by simpa using fun h => e h.symm), if_neg e]
        simp only [Py.okBind, Except.bind]
        cases ht : s.typ <;> rw [ht] at hss hv hl <;>
          simp only [rowTo, hss, pySet_idx _ _ _ _ hs, Py.okBind, hv', hl', ne_eq, reduceCtorEq,
            not_false_eq_true, hv, hl, forall_const] <;> rfl
  · rw [if_neg hs, row_same num line d m k]
    · unfold ofTyp at hs
      dsimp only
      cases hg : d.get? s.typ with
      | none => rfl
      | some ss =>
        rw [hg] at hs
        simp only [Option.getD_some] at hs
        dsimp only
        rw [if_pos hs]
    · intro t x hx e
      rw [hk] at e
      injection e with e
      subst e
      rw [hd t _ hx] at hs
      exact hs hx

/-- the wanted columns of a line can be read -/
def Readable (num : List Char → Py ℚ) (line : Line) (d : Dict Typ (List Sig)) (m : Dict Nat Sig)
    (k : Nat) : Prop :=
  ∀ i < k, ∀ s, m.get? i = some s → s ∈ ofTyp d s.typ → ∃ v, field num line i = .ok v

theorem columns_fold (num : List Char → Py ℚ) (line : Line) (d : Dict Typ (List Sig))
    (hd : Typed d) (m : Dict Nat Sig) (r : Row) : ∀ k,
    (colsTo m k).foldlM (column num line d) (rowTo num line d m 0) = .ok r ↔
      Readable num line d m k ∧ r = rowTo num line d m k := by
  intro k
  induction k generalizing r with
  | zero =>
    constructor
    · intro h
      refine ⟨fun i hi => absurd hi (by omega), ?_⟩
      simpa [colsTo, pure, Except.pure] using (Eq.symm (by simpa [colsTo, pure, Except.pure] using h))
    · rintro ⟨-, rfl⟩
      rfl
  | succ k ih =>
    have hc : colsTo m (k + 1) = colsTo m k ++ ((m.get? k).map fun s => (k, s)).toList := by
      unfold colsTo
      rw [List.range_succ, List.filterMap_append]
      congr 1
    rw [hc, List.foldlM_append]
    cases hk : m.get? k with
    | none =>
      have hrow : rowTo num line d m (k + 1) = rowTo num line d m k :=
        row_same _ _ _ _ _ fun t s _ e => by rw [hk] at e; cases e
      simp only [Option.map_none, Option.toList_none, List.foldlM_nil, Py.bind_ok, Py.pure_ok]
      rw [hrow]
      constructor
      · rintro ⟨a, ha, rfl⟩
        obtain ⟨h1, h2⟩ := (ih a).1 ha
        refine ⟨fun i hi s hs => ?_, h2⟩
        rcases Nat.lt_succ_iff_lt_or_eq.1 hi with h | h
        · exact h1 i h s hs
        · subst h; rw [hk] at hs; cases hs
      · rintro ⟨h1, rfl⟩
        exact ⟨_, (ih _).2 ⟨fun i hi => h1 i (by omega), rfl⟩, rfl⟩
    | some s =>
      simp only [Option.map_some, Option.toList_some, List.foldlM_cons, List.foldlM_nil, Py.bind_ok,
        Py.pure_ok]
      constructor
      · rintro ⟨a, ha, b, hb, rfl⟩
        obtain ⟨h1, rfl⟩ := (ih a).1 ha
        rw [column_step num line d hd m k s hk] at hb
        by_cases hs : s ∈ ofTyp d s.typ
        · rw [if_pos hs] at hb
          cases hf : field num line k with
          | error e => rw [hf] at hb; cases hb
          | ok v =>
            rw [hf] at hb
            injection hb with hb
            refine ⟨fun i hi x hx hxs => ?_, hb.symm⟩
            rcases Nat.lt_succ_iff_lt_or_eq.1 hi with h | h
            · exact h1 i h x hx hxs
            · subst h; exact ⟨v, hf⟩
        · rw [if_neg hs] at hb
          injection hb with hb
          refine ⟨fun i hi x hx hxs => ?_, hb.symm⟩
          rcases Nat.lt_succ_iff_lt_or_eq.1 hi with h | h
          · exact h1 i h x hx hxs
          · subst h; rw [hk] at hx; injection hx with hx; subst hx; exact absurd hxs hs
      · rintro ⟨h1, rfl⟩
        refine ⟨_, (ih _).2 ⟨fun i hi => h1 i (by omega), rfl⟩, _, ?_, rfl⟩
        rw [column_step num line d hd m k s hk]
        by_cases hs : s ∈ ofTyp d s.typ
        · rw [if_pos hs]
          obtain ⟨v, hv⟩ := h1 k (by omega) s hk hs
          rw [hv]
          rfl
        · rw [if_neg hs]

/-- the selection: signals are filed under their constellation and type -/
def Filed (tab : Tab) : Prop := ∀ sys t, ∀ s ∈ getSignals tab sys t, s.sys = sys ∧ s.typ = t

theorem row_zero (num : List Char → Py ℚ) (line : Line) (d : Dict Typ (List Sig))
    (m : Dict Nat Sig) :
    rowTo num line d m 0 = ⟨List.replicate (ofTyp d .C).length 0,
      List.replicate (ofTyp d .L).length 0, List.replicate (ofTyp d .D).length 0,
      List.replicate (ofTyp d .S).length 0, List.replicate (ofTyp d .L).length 0⟩ := by
  have h : value num line m 0 = fun _ => 0 := by funext s; simp [value, positions]
  have h2 : flag line m 0 = fun _ => 0 := by funext s; simp [flag, positions]
  unfold rowTo
  rw [h, h2]
  simp only [cells_zero]

/-- constellation named by the first character of a line -/
def lineSys (line : Line) : Sys := char2sys (line.headD ' ')

/-- the line belongs to a constellation that the header lists and the user selected -/
def Taken (map : Dict Sys (Dict Nat Sig)) (tab : Tab) (line : Line) : Prop :=
  map.mem (lineSys line) = true ∧ tab.mem (lineSys line) = true

instance (map : Dict Sys (Dict Nat Sig)) (tab : Tab) (line : Line) :
    Decidable (Taken map tab line) := by unfold Taken; infer_instance

/-- header columns of the constellation of a line -/
def lineMap (map : Dict Sys (Dict Nat Sig)) (line : Line) : Dict Nat Sig :=
  (map.get? (lineSys line)).getD []

/-- the row expected from a line -/
def rowOf (num : List Char → Py ℚ) (map : Dict Sys (Dict Nat Sig)) (tab : Tab) (line : Line) :
    Row :=
  let m := lineMap map line
  let v := value num line m m.length
  let g := getSignals tab (lineSys line)
  ⟨cells (g .C) v, cells (g .L) v, cells (g .D) v, cells (g .S) v,
    cells (g .L) (flag line m m.length)⟩

/-- the texts needed from a line that is taken can be read -/
def LineOk (num : List Char → Py ℚ) (map : Dict Sys (Dict Nat Sig)) (tab : Tab) (line : Line) :
    Prop :=
  line ≠ [] ∧ (Taken map tab line →
    (∃ p, pyInt (strip (slice line 1 3)) = .ok p) ∧
    ∀ i < (lineMap map line).length, ∀ s, (lineMap map line).get? i = some s →
      s ∈ getSignals tab (lineSys line) s.typ → ∃ v, field num line i = .ok v)

/-- number in the second and third character -/
def linePrn (line : Line) : Int := (pyInt (strip (slice line 1 3))).toOption.getD 0

theorem sat_line (num : List Char → Py ℚ) (map : Dict Sys (Dict Nat Sig)) (tab : Tab)
    (hf : Filed tab) (line : Line) (r : Option (Int × Row)) :
    satLine num map tab line = .ok r ↔ LineOk num map tab line ∧
      r = if Taken map tab line then
        some (satOf (lineSys line) (linePrn line), rowOf num map tab line) else Option.none := by
  cases line with
  | nil => simp [satLine, LineOk]
  | cons c l =>
    have hsys : lineSys (c :: l) = char2sys c := rfl
    unfold satLine LineOk Taken lineMap rowOf linePrn
    simp only [hsys]
    cases hm : map.get? (char2sys c) with
    | none =>
      simp only [Dict.mem, hm, Option.isSome_none, Bool.false_eq_true, false_and, if_false,
        Except.ok.injEq, false_implies, and_true, ne_eq, reduceCtorEq, not_false_eq_true, true_and]
      exact eq_comm
    | some m =>
      cases hd : tab.get? (char2sys c) with
      | none =>
        simp only [Dict.mem, hd, Option.isSome_none, Bool.false_eq_true, and_false, if_false,
          Except.ok.injEq, false_implies, and_true, ne_eq, reduceCtorEq, not_false_eq_true, true_and]
        exact eq_comm
      | some d =>
        have hg : ∀ t, getSignals tab (char2sys c) t = ofTyp d t := by
          intro t; unfold getSignals ofTyp; rw [hd]
        have hty : Typed d := by
          intro t s hs
          exact (hf (char2sys c) t s (by rw [hg]; exact hs)).2
        have e : columns m = colsTo m m.length := rfl
        simp only [Dict.mem, hm, hd, Option.isSome_some, and_self, if_true, Option.getD_some,
          forall_const, hg, e, Py.bind_ok, Py.pure_ok, ne_eq, reduceCtorEq, not_false_eq_true,
          true_and, lineMap, hsys]
        rw [← row_zero num (c :: l) d m]
        constructor
        · rintro ⟨p, hp, a, ha, rfl⟩
          obtain ⟨h1, rfl⟩ := (columns_fold num (c :: l) d hty m a m.length).1 ha
          refine ⟨⟨⟨p, hp⟩, h1⟩, ?_⟩
          rw [hp]
          rfl
        · rintro ⟨⟨⟨p, hp⟩, h1⟩, rfl⟩
          refine ⟨p, hp, _, (columns_fold num (c :: l) d hty m _ m.length).2 ⟨h1, rfl⟩, ?_⟩
          rw [hp]
          rfl

/-! ### The epoch -/

theorem sat_loop (num : List Char → Py ℚ) (map : Dict Sys (Dict Nat Sig)) (tab : Tab)
    (hf : Filed tab) : ∀ (n : Nat) (ls : List Line) (rs : List (Int × Row)) (rest : List Line),
    satLoop num map tab n ls = .ok (rs, rest) ↔
      n ≤ ls.length ∧ (∀ l ∈ ls.take n, LineOk num map tab l) ∧ rest = ls.drop n ∧
      rs = ((ls.take n).filter fun l => Taken map tab l).map fun l =>
        (satOf (lineSys l) (linePrn l), rowOf num map tab l) := by
  intro n
  induction n with
  | zero =>
    intro ls rs rest
    simp only [satLoop, Except.ok.injEq, Prod.mk.injEq, Nat.zero_le, List.take_zero,
      List.not_mem_nil, false_implies, implies_true, List.drop_zero, List.filter_nil, List.map_nil,
      true_and]
    constructor
    · rintro ⟨rfl, rfl⟩; exact ⟨rfl, rfl⟩
    · rintro ⟨rfl, rfl⟩; exact ⟨rfl, rfl⟩
  | succ n ih =>
    intro ls rs rest
    rw [satLoop]
    cases ls with
    | nil => simp [satLine, bind, Except.bind]
    | cons l ls =>
      simp only [List.headD_cons, List.tail_cons, Py.bind_ok, Py.pure_ok, Prod.mk.injEq,
        Prod.exists, List.length_cons, Nat.add_le_add_iff_right, List.take_succ_cons,
        List.mem_cons, forall_eq_or_imp, List.drop_succ_cons]
      constructor
      · rintro ⟨a, ha, b, c, hb, rfl, rfl⟩
        obtain ⟨h1, rfl⟩ := (sat_line num map tab hf l a).1 ha
        obtain ⟨h2, h3, h4, rfl⟩ := (ih ls b c).1 hb
        refine ⟨h2, ⟨h1, h3⟩, h4, ?_⟩
        by_cases ht : Taken map tab l <;> simp [ht]
      · rintro ⟨h2, ⟨h1, h3⟩, h4, rfl⟩
        refine ⟨_, (sat_line num map tab hf l _).2 ⟨h1, rfl⟩, _, _,
          (ih ls _ _).2 ⟨h2, h3, h4, rfl⟩, ?_, rfl⟩
        by_cases ht : Taken map tab l <;> simp [ht]

theorem reshape_rows {α β : Type} (rs : List β) (f : β → List α) (k : Nat)
    (h : ∀ r ∈ rs, (f r).length = k) : reshape (rs.flatMap f) rs.length k = .ok (rs.map f) := by
  have hl : ∀ rs : List β, (∀ r ∈ rs, (f r).length = k) →
      (rs.flatMap f).length = rs.length * k := by
    intro rs
    induction rs with
    | nil => simp
    | cons r rs ih =>
      intro h
      rw [List.flatMap_cons, List.length_append, h r (by simp), ih fun x hx => h x (by simp [hx]),
        List.length_cons]
      ring
  unfold reshape
  rw [if_pos (hl rs h)]
  congr 1
  induction rs with
  | nil => rfl
  | cons r rs ih =>
    have h1 := h r (by simp)
    have h2 : ∀ x ∈ rs, (f x).length = k := fun x hx => h x (by simp [hx])
    rw [List.length_cons, List.range_succ_eq_map, List.map_cons, List.map_map, List.flatMap_cons,
      List.map_cons, ← ih h2]
    congr 1
    · rw [Nat.zero_mul, List.drop_zero, ← h1, List.take_left]
    · apply List.map_congr_left
      intro i _
      simp only [Function.comp_apply]
      congr 1
      rw [Nat.succ_mul, Nat.add_comm, ← List.drop_drop, ← h1, List.drop_left]

theorem reshape_le {α β : Type} (rs : List β) (f : β → List α) (k : Nat)
    (h : ∀ r ∈ rs, (f r).length ≤ k) (x : List (List α)) :
    reshape (rs.flatMap f) rs.length k = .ok x ↔
      (∀ r ∈ rs, (f r).length = k) ∧ x = rs.map f := by
  have key : ∀ rs : List β, (∀ r ∈ rs, (f r).length ≤ k) →
      (rs.flatMap f).length ≤ rs.length * k ∧
      ((rs.flatMap f).length = rs.length * k → ∀ r ∈ rs, (f r).length = k) := by
    intro rs
    induction rs with
    | nil => simp
    | cons r rs ih =>
      intro h
      obtain ⟨h1, h2⟩ := ih fun x hx => h x (by simp [hx])
      have h3 := h r (by simp)
      rw [List.flatMap_cons, List.length_append, List.length_cons, Nat.succ_mul]
      refine ⟨by omega, fun e y hy => ?_⟩
      rcases List.mem_cons.1 hy with e1 | e1
      · subst e1; omega
      · exact h2 (by omega) y e1
  constructor
  · intro hx
    have hl : (rs.flatMap f).length = rs.length * k := by
      by_contra hne
      unfold reshape at hx
      rw [if_neg hne] at hx
      cases hx
    have hall := (key rs h).2 hl
    refine ⟨hall, ?_⟩
    rw [reshape_rows rs f k hall] at hx
    injection hx with hx
    exact hx.symm
  · rintro ⟨hall, rfl⟩
    exact reshape_rows rs f k hall

/-- no constellation has more signals of a type than the width of that type's table -/
def Wide (sel : Sel) : Prop := ∀ sys t, (getSignals sel.tab sys t).length ≤ sel.nsig t

/-- lines of the epoch that are taken -/
def takenLines (map : Dict Sys (Dict Nat Sig)) (tab : Tab) (ls : List Line) : List Line :=
  ls.filter fun l => Taken map tab l

/-- the four types of measurement -/
def typs : List Typ := [.C, .L, .D, .S]

/-- every satellite read has as many signals of each type as the widest constellation -/
def Even (map : Dict Sys (Dict Nat Sig)) (sel : Sel) (ls : List Line) : Prop :=
  ∀ l ∈ takenLines map sel.tab ls, ∀ t ∈ typs,
    (getSignals sel.tab (lineSys l) t).length = sel.nsig t

/-- the epoch expected from its lines -/
def epochOf (num : List Char → Py ℚ) (map : Dict Sys (Dict Nat Sig)) (tab : Tab) (t : GTime)
    (ls : List Line) : Epochs :=
  let w := takenLines map tab ls
  { t := t
    sat := w.map fun l => satOf (lineSys l) (linePrn l)
    P := w.map fun l => (rowOf num map tab l).pr
    L := w.map fun l => (rowOf num map tab l).cp
    D := w.map fun l => (rowOf num map tab l).dp
    S := w.map fun l => (rowOf num map tab l).cn
    lli := w.map fun l => (rowOf num map tab l).ll }

theorem gather_iff (num : List Char → Py ℚ) (map : Dict Sys (Dict Nat Sig)) (sel : Sel)
    (hw : Wide sel) (t : GTime) (ls : List Line) (o : Epochs) :
    gather sel.nsig t ((takenLines map sel.tab ls).map fun l =>
      (satOf (lineSys l) (linePrn l), rowOf num map sel.tab l)) = .ok o ↔
    Even map sel ls ∧ o = epochOf num map sel.tab t ls := by
  have hlen : ∀ t (v : Sig → ℚ) (sys : Sys), (cells (getSignals sel.tab sys t) v).length ≤ sel.nsig t :=
    fun t v sys => by rw [cells_length]; exact hw sys t
  have hC := fun x => reshape_le (takenLines map sel.tab ls) (fun l => (rowOf num map sel.tab l).pr)
    (sel.nsig .C) (fun l _ => hlen _ _ _) x
  have hL := fun x => reshape_le (takenLines map sel.tab ls) (fun l => (rowOf num map sel.tab l).cp)
    (sel.nsig .L) (fun l _ => hlen _ _ _) x
  have hD := fun x => reshape_le (takenLines map sel.tab ls) (fun l => (rowOf num map sel.tab l).dp)
    (sel.nsig .D) (fun l _ => hlen _ _ _) x
  have hS := fun x => reshape_le (takenLines map sel.tab ls) (fun l => (rowOf num map sel.tab l).cn)
    (sel.nsig .S) (fun l _ => hlen _ _ _) x
  have hl := fun x => reshape_le (takenLines map sel.tab ls) (fun l => (rowOf num map sel.tab l).ll)
    (sel.nsig .L) (fun l _ => by
      show (cells (getSignals sel.tab (lineSys l) .L) _).length ≤ _
      rw [cells_length]; exact hw _ _) x
  have eC : ∀ l, (rowOf num map sel.tab l).pr.length = (getSignals sel.tab (lineSys l) .C).length :=
    fun l => cells_length _ _
  have eL : ∀ l, (rowOf num map sel.tab l).cp.length = (getSignals sel.tab (lineSys l) .L).length :=
    fun l => cells_length _ _
  have eD : ∀ l, (rowOf num map sel.tab l).dp.length = (getSignals sel.tab (lineSys l) .D).length :=
    fun l => cells_length _ _
  have eS : ∀ l, (rowOf num map sel.tab l).cn.length = (getSignals sel.tab (lineSys l) .S).length :=
    fun l => cells_length _ _
  have el : ∀ l, (rowOf num map sel.tab l).ll.length = (getSignals sel.tab (lineSys l) .L).length :=
    fun l => cells_length _ _
  unfold gather
  simp only [List.flatMap_map, List.length_map, List.map_map, Py.bind_ok, Py.pure_ok, hC, hL, hD,
    hS, hl]
  constructor
  · rintro ⟨_, ⟨c, rfl⟩, _, ⟨l, rfl⟩, _, ⟨d, rfl⟩, _, ⟨s, rfl⟩, _, ⟨-, rfl⟩, rfl⟩
    refine ⟨fun x hx t ht => ?_, rfl⟩
    simp only [typs, List.mem_cons, List.not_mem_nil, or_false] at ht
    rcases ht with rfl | rfl | rfl | rfl
    · rw [← eC]; exact c x hx
    · rw [← eL]; exact l x hx
    · rw [← eD]; exact d x hx
    · rw [← eS]; exact s x hx
  · rintro ⟨h, rfl⟩
    refine ⟨_, ⟨fun x hx => ?_, rfl⟩, _, ⟨fun x hx => ?_, rfl⟩, _, ⟨fun x hx => ?_, rfl⟩, _,
      ⟨fun x hx => ?_, rfl⟩, _, ⟨fun x hx => ?_, rfl⟩, rfl⟩
    · rw [eC]; exact h x hx .C (by simp [typs])
    · rw [eL]; exact h x hx .L (by simp [typs])
    · rw [eD]; exact h x hx .D (by simp [typs])
    · rw [eS]; exact h x hx .S (by simp [typs])
    · rw [el]; exact h x hx .L (by simp [typs])

/-- An epoch line with its satellite lines: when the read succeeds, and what it returns. -/
theorem epoch_iff (num : List Char → Py ℚ) (map : Dict Sys (Dict Nat Sig)) (sel : Sel)
    (hf : Filed sel.tab) (hw : Wide sel) (l : Line) (ls rest : List Line) (o : Option Epochs) :
    decodeEpoch num map sel (('>' :: l) :: ls) = .ok (o, rest) ↔
    ∃ n t, epochLine num ('>' :: l) = .ok (n, t) ∧ n ≤ ls.length ∧
      (∀ x ∈ ls.take n, LineOk num map sel.tab x) ∧ Even map sel (ls.take n) ∧
      rest = ls.drop n ∧ o = some (epochOf num map sel.tab t (ls.take n)) := by
  rw [decodeEpoch, if_neg (by simp)]
  simp only [Py.bind_ok, Py.pure_ok, Prod.exists, Prod.mk.injEq]
  constructor
  · rintro ⟨n, t, h1, rs, r, h2, e, h3, rfl, rfl⟩
    obtain ⟨a, b, rfl, rfl⟩ := (sat_loop num map sel.tab hf n ls rs r).1 h2
    obtain ⟨c, rfl⟩ := (gather_iff num map sel hw t (ls.take n) e).1 h3
    exact ⟨n, t, h1, a, b, c, rfl, rfl⟩
  · rintro ⟨n, t, h1, a, b, c, rfl, rfl⟩
    exact ⟨n, t, h1, _, _, (sat_loop num map sel.tab hf n ls _ _).2 ⟨a, b, rfl, rfl⟩, _,
      (gather_iff num map sel hw t (ls.take n) _).2 ⟨c, rfl⟩, rfl, rfl⟩

/-- Lines in front of the epoch line are passed over. -/
theorem skipped (num : List Char → Py ℚ) (map : Dict Sys (Dict Nat Sig)) (sel : Sel)
    (pre ls : List Line) (h : ∀ l ∈ pre, ∃ c r, l = c :: r ∧ c ≠ '>') :
    decodeEpoch num map sel (pre ++ ls) = decodeEpoch num map sel ls := by
  induction pre with
  | nil => rfl
  | cons l pre ih =>
    obtain ⟨c, r, rfl, hc⟩ := h l (by simp)
    rw [List.cons_append, decodeEpoch, if_pos hc]
    exact ih fun x hx => h x (by simp [hx])

/-- At the end of the file the result is the empty observation object. -/
theorem end_of_file (num : List Char → Py ℚ) (map : Dict Sys (Dict Nat Sig)) (sel : Sel) :
    decodeEpoch num map sel [] = .ok (Option.none, []) := rfl

theorem reshape_err {α : Type} (l : List α) (n k : Nat) (e : PyErr)
    (h : reshape l n k = .error e) : e = .valueError := by
  unfold reshape at h
  split at h
  · cases h
  · injection h with h; exact h.symm

theorem gather_err (nsig : Typ → Nat) (t : GTime) (rs : List (Int × Row)) (e : PyErr)
    (h : gather nsig t rs = .error e) : e = .valueError := by
  unfold gather at h
  revert h
  dsimp only
  cases h1 : reshape (rs.flatMap fun r => r.2.pr) rs.length (nsig .C) with
  | error x => intro h; injection h with h; subst h; exact reshape_err _ _ _ _ h1
  | ok x =>
    cases h2 : reshape (rs.flatMap fun r => r.2.cp) rs.length (nsig .L) with
    | error x => intro h; injection h with h; subst h; exact reshape_err _ _ _ _ h2
    | ok x =>
      cases h3 : reshape (rs.flatMap fun r => r.2.dp) rs.length (nsig .D) with
      | error x => intro h; injection h with h; subst h; exact reshape_err _ _ _ _ h3
      | ok x =>
        cases h4 : reshape (rs.flatMap fun r => r.2.cn) rs.length (nsig .S) with
        | error x => intro h; injection h with h; subst h; exact reshape_err _ _ _ _ h4
        | ok x =>
          cases h5 : reshape (rs.flatMap fun r => r.2.ll) rs.length (nsig .L) with
          | error x => intro h; injection h with h; subst h; exact reshape_err _ _ _ _ h5
          | ok x => intro h; cases h

/-- A well-formed epoch with a satellite whose constellation has fewer selected signals of some
type than another selected constellation cannot be read: the reader raises. -/
theorem uneven (num : List Char → Py ℚ) (map : Dict Sys (Dict Nat Sig)) (sel : Sel)
    (hf : Filed sel.tab) (hw : Wide sel) (l : Line) (ls : List Line) (n : Nat) (t : GTime)
    (h1 : epochLine num ('>' :: l) = .ok (n, t)) (h2 : n ≤ ls.length)
    (h3 : ∀ x ∈ ls.take n, LineOk num map sel.tab x) (h4 : ¬ Even map sel (ls.take n)) :
    decodeEpoch num map sel (('>' :: l) :: ls) = .error .valueError := by
  rw [decodeEpoch, if_neg (by simp), h1, Py.okBind]
  dsimp only
  rw [(sat_loop num map sel.tab hf n ls _ _).2 ⟨h2, h3, rfl, rfl⟩, Py.okBind]
  dsimp only
  have hg := gather_iff num map sel hw t (ls.take n)
  unfold takenLines at hg
  cases hr : gather sel.nsig t (((ls.take n).filter fun l => Taken map sel.tab l).map fun l =>
      (satOf (lineSys l) (linePrn l), rowOf num map sel.tab l)) with
  | error e => rw [gather_err _ _ _ _ hr]; rfl
  | ok o => exact absurd ((hg o).1 hr).1 h4

/-! ### The selection -/

/-- different keys -/
def Keys {κ α : Type} (d : Dict κ α) : Prop := (d.map Prod.fst).Nodup

theorem keys_set {κ α : Type} [DecidableEq κ] (d : Dict κ α) (k : κ) (v : α) (h : Keys d) :
    Keys (d.set k v) := by
  unfold Keys Dict.set
  rw [List.map_cons, List.nodup_cons]
  refine ⟨?_, ?_⟩
  · intro hm
    obtain ⟨p, hp, e⟩ := List.mem_map.1 hm
    have := (List.mem_filter.1 hp).2
    simp [e] at this
  · exact List.Nodup.sublist (List.Sublist.map _ List.filter_sublist) h

theorem keys_mem {κ α : Type} [DecidableEq κ] (d : Dict κ α) (h : Keys d) (k : κ) (v : α) :
    (k, v) ∈ d ↔ d.get? k = some v := by
  unfold Keys at h
  induction d with
  | nil => simp
  | cons p d ih =>
    obtain ⟨k', v'⟩ := p
    rw [List.map_cons, List.nodup_cons] at h
    have hg : Dict.get? ((k', v') :: d) k = if k' = k then some v' else Dict.get? d k := by
      unfold Dict.get?
      rw [List.find?_cons]
      by_cases e : k' = k <;> simp [e]
    rw [hg, List.mem_cons, ih h.2]
    by_cases e : k' = k
    · subst e
      rw [if_pos rfl]
      constructor
      · rintro (h1 | h1)
        · injection h1 with _ h1; rw [h1]
        · exact absurd (List.mem_map.2 ⟨_, (ih h.2).2 h1, rfl⟩) h.1
      · intro h1
        injection h1 with h1
        exact Or.inl (by rw [h1])
    · rw [if_neg e]
      constructor
      · rintro (h1 | h1)
        · injection h1 with h1; exact absurd h1.symm e
        · exact h1
      · exact Or.inr

/-- keys of both levels of the table differ -/
def TabKeys (tab : Tab) : Prop := Keys tab ∧ ∀ e ∈ tab, Keys e.2

theorem add_step (tab : Tab) (hk : TabKeys tab) (s : Sig) :
    (s ∈ getSignals tab s.sys s.typ → addSignal tab s = .error .valueError) ∧
    (s ∉ getSignals tab s.sys s.typ → ∃ tab', addSignal tab s = .ok tab' ∧ TabKeys tab' ∧
      (∀ sys, tab'.mem sys = (tab.mem sys || decide (s.sys = sys))) ∧
      ∀ sys t, getSignals tab' sys t = getSignals tab sys t ++
        if s.sys = sys ∧ s.typ = t then [s] else []) := by
  -- the inner dictionary in use
  have hd : ∃ d, ((if tab.mem s.sys then tab else tab.set s.sys []).get? s.sys).getD [] = d ∧
      Keys d ∧ d.get? s.typ = ((tab.get? s.sys).getD []).get? s.typ ∧
      (∀ t, (d.get? t).getD [] = getSignals tab s.sys t) ∧
      ∀ v, TabKeys ((if tab.mem s.sys then tab else tab.set s.sys []).set s.sys v) ↔ Keys v := by
    have hset : ∀ (tb : Tab), TabKeys tb → ∀ v, TabKeys (tb.set s.sys v) ↔ Keys v := by
      intro tb htb v
      constructor
      · intro h; exact h.2 (s.sys, v) (by simp [Dict.set])
      · intro h
        refine ⟨keys_set _ _ _ htb.1, fun e he => ?_⟩
        unfold Dict.set at he
        rcases List.mem_cons.1 he with e1 | e1
        · subst e1; exact h
        · exact htb.2 e (List.mem_filter.1 e1).1
    cases hg : tab.get? s.sys with
    | none =>
      have hm : tab.mem s.sys = false := by simp [Dict.mem, hg]
      refine ⟨[], ?_, ?_, ?_, ?_, ?_⟩
      · rw [hm]; simp
      · unfold Keys; simp
      · rfl
      · intro t; unfold getSignals; rw [hg]; rfl
      · intro v
        rw [hm]
        exact hset _ ((hset tab hk []).2 (by unfold Keys; simp)) v
    | some d =>
      have hm : tab.mem s.sys = true := by simp [Dict.mem, hg]
      refine ⟨d, ?_, ?_, rfl, ?_, ?_⟩
      · rw [hm, if_pos rfl, hg]; rfl
      · exact hk.2 (s.sys, d) ((keys_mem tab hk.1 _ _).2 hg)
      · intro t; unfold getSignals; rw [hg]
      · intro v; rw [hm, if_pos rfl]; exact hset tab hk v
  obtain ⟨d, e1, e2, e3, e4, e5⟩ := hd
  have hss : (((if d.mem s.typ then d else d.set s.typ []).get? s.typ).getD []) =
      getSignals tab s.sys s.typ := by
    rw [← e4 s.typ]
    cases hg : d.get? s.typ with
    | none =>
      have : d.mem s.typ = false := by simp [Dict.mem, hg]
      rw [this]; simp
    | some x =>
      have : d.mem s.typ = true := by simp [Dict.mem, hg]
      rw [this, if_pos rfl, hg]
  unfold addSignal
  dsimp only
  rw [e1, hss]
  refine ⟨fun h => by rw [if_pos h], fun h => ?_⟩
  rw [if_neg h]
  refine ⟨_, rfl, ?_, ?_, ?_⟩
  · rw [e5]
    apply keys_set
    split
    · exact e2
    · exact keys_set _ _ _ e2
  · intro sys
    unfold Dict.mem
    rw [Dict.get?_set]
    by_cases e : sys = s.sys
    · subst e; simp
    · rw [if_neg e]
      have e' : ¬ s.sys = sys := fun h => e h.symm
      split
      · simp [e']
      · rw [Dict.get?_set, if_neg e]; simp [e']
  · intro sys t
    unfold getSignals
    rw [Dict.get?_set]
    by_cases e : sys = s.sys
    · subst e
      rw [if_pos rfl]
      dsimp only
      rw [Dict.get?_set]
      by_cases e' : t = s.typ
      · subst e'
        rw [if_pos rfl, if_pos ⟨rfl, rfl⟩]
        rfl
      · have e'' : ¬ s.typ = t := fun h => e' h.symm
        rw [if_neg e', if_neg (c := s.sys = s.sys ∧ s.typ = t) (by simp [e'']), List.append_nil]
        have h6 : (if d.mem s.typ then d else d.set s.typ []).get? t = d.get? t := by
          split
          · rfl
          · rw [Dict.get?_set, if_neg e']
        rw [h6, e4 t]
        rfl
    · have e' : ¬ s.sys = sys := fun h => e h.symm
      rw [if_neg e, if_neg (c := s.sys = sys ∧ s.typ = t) (by simp [e']), List.append_nil]
      have h6 : (if tab.mem s.sys then tab else tab.set s.sys []).get? sys = tab.get? sys := by
        split
        · rfl
        · rw [Dict.get?_set, if_neg e]
      rw [h6]

/-- signals of a list that belong to a constellation and a type -/
def pick (sigs : List Sig) (sys : Sys) (t : Typ) : List Sig :=
  sigs.filter fun s => s.sys = sys ∧ s.typ = t

theorem add_all (sigs : List Sig) : ∀ (tab : Tab), TabKeys tab → Filed tab →
    (¬ (sigs.Nodup ∧ ∀ s ∈ sigs, s ∉ getSignals tab s.sys s.typ) →
      sigs.foldlM addSignal tab = .error .valueError) ∧
    (sigs.Nodup → (∀ s ∈ sigs, s ∉ getSignals tab s.sys s.typ) → ∃ tab',
      sigs.foldlM addSignal tab = .ok tab' ∧ TabKeys tab' ∧ Filed tab' ∧
      (∀ sys, tab'.mem sys = true ↔ tab.mem sys = true ∨ ∃ s ∈ sigs, s.sys = sys) ∧
      ∀ sys t, getSignals tab' sys t = getSignals tab sys t ++ pick sigs sys t) := by
  induction sigs with
  | nil =>
    intro tab hk hf
    refine ⟨fun h => absurd ⟨List.nodup_nil, by simp⟩ h, fun _ _ => ⟨tab, rfl, hk, hf, by simp, ?_⟩⟩
    simp [pick]
  | cons s sigs ih =>
    intro tab hk hf
    obtain ⟨a1, a2⟩ := add_step tab hk s
    rw [List.foldlM_cons]
    by_cases hs : s ∈ getSignals tab s.sys s.typ
    · rw [a1 hs]
      exact ⟨fun _ => rfl, fun _ h => absurd hs (h s (by simp))⟩
    · obtain ⟨tab', b1, b2, b3, b4⟩ := a2 hs
      rw [b1, Py.okBind]
      have hf' : Filed tab' := by
        intro sys t x hx
        rw [b4, List.mem_append] at hx
        rcases hx with hx | hx
        · exact hf sys t x hx
        · split at hx
          · rename_i h; simp only [List.mem_singleton] at hx; subst hx; exact h
          · simp at hx
      obtain ⟨c1, c2⟩ := ih tab' b2 hf'
      have hiff : (∀ x ∈ sigs, x ∉ getSignals tab' x.sys x.typ) ↔
          s ∉ sigs ∧ ∀ x ∈ sigs, x ∉ getSignals tab x.sys x.typ := by
        constructor
        · intro h
          refine ⟨fun hm => h s hm (by rw [b4]; simp), fun x hx hx' => h x hx (by rw [b4]; simp [hx'])⟩
        · rintro ⟨h1, h2⟩ x hx hx'
          rw [b4, List.mem_append] at hx'
          rcases hx' with hx' | hx'
          · exact h2 x hx hx'
          · split at hx'
            · simp only [List.mem_singleton] at hx'; subst hx'; exact h1 hx
            · simp at hx'
      refine ⟨fun h => c1 fun h' => h ?_, fun h1 h2 => ?_⟩
      · rw [hiff] at h'
        refine ⟨List.nodup_cons.2 ⟨h'.2.1, h'.1⟩, fun x hx => ?_⟩
        rcases List.mem_cons.1 hx with e | e
        · subst e; exact hs
        · exact h'.2.2 x e
      · rw [List.nodup_cons] at h1
        obtain ⟨tab2, d1, d2, d3, d4, d5⟩ :=
          c2 h1.2 (hiff.2 ⟨h1.1, fun x hx => h2 x (by simp [hx])⟩)
        refine ⟨tab2, d1, d2, d3, fun sys => ?_, fun sys t => ?_⟩
        · rw [d4, b3]
          simp only [Bool.or_eq_true, decide_eq_true_eq, List.mem_cons, exists_eq_or_imp]
          exact or_assoc
        · rw [d5, b4, List.append_assoc]
          congr 1
          unfold pick
          rw [List.filter_cons]
          by_cases h : s.sys = sys ∧ s.typ = t <;> simp [h]

theorem grow_all (es : List (Typ × List Sig)) : ∀ (n : Typ → Nat),
    ((∃ e ∈ es, e.1 = .none) → es.foldlM growNsig n = .error .keyError) ∧
    ((∀ e ∈ es, e.1 ≠ .none) → ∃ n', es.foldlM growNsig n = .ok n' ∧
      ∀ t, n t ≤ n' t ∧ (∀ e ∈ es, e.1 = t → e.2.length ≤ n' t) ∧
        (n' t = n t ∨ ∃ e ∈ es, e.1 = t ∧ n' t = e.2.length)) := by
  induction es with
  | nil =>
    intro n
    exact ⟨by simp, fun _ => ⟨n, rfl, fun t => ⟨le_refl _, by simp, Or.inl rfl⟩⟩⟩
  | cons e es ih =>
    intro n
    rw [List.foldlM_cons]
    unfold growNsig
    by_cases he : e.1 = .none
    · rw [if_pos he]
      exact ⟨fun _ => rfl, fun h => absurd he (h e (by simp))⟩
    · rw [if_neg he, Py.okBind]
      obtain ⟨h1, h2⟩ := ih fun t => if t = e.1 then max (n t) e.2.length else n t
      refine ⟨fun h => h1 ?_, fun h => ?_⟩
      · obtain ⟨x, hx, e1⟩ := h
        rcases List.mem_cons.1 hx with e2 | e2
        · subst e2; exact absurd e1 he
        · exact ⟨x, e2, e1⟩
      · obtain ⟨n', a1, a2⟩ := h2 fun x hx => h x (by simp [hx])
        refine ⟨n', a1, fun t => ?_⟩
        obtain ⟨b1, b2, b3⟩ := a2 t
        refine ⟨?_, ?_, ?_⟩
        · split at b1 <;> omega
        · intro x hx ht
          rcases List.mem_cons.1 hx with e2 | e2
          · subst e2
            rw [if_pos ht.symm] at b1
            omega
          · exact b2 x e2 ht
        · rcases b3 with b3 | ⟨x, hx, b3⟩
          · by_cases ht : t = e.1
            · rw [if_pos ht] at b3
              rcases Nat.le_total (n t) e.2.length with h' | h'
              · exact Or.inr ⟨e, by simp, ht.symm, by rw [b3]; omega⟩
              · left; omega
            · rw [if_neg ht] at b3; exact Or.inl b3
          · exact Or.inr ⟨x, by simp [hx], b3⟩

theorem fold_nested (tab : Tab) (n : Typ → Nat) :
    tab.foldlM (fun n e => e.2.foldlM growNsig n) n = (tab.flatMap fun e => e.2).foldlM growNsig n := by
  induction tab generalizing n with
  | nil => rfl
  | cons e tab ih =>
    rw [List.foldlM_cons, List.flatMap_cons, List.foldlM_append]
    congr 1
    funext x
    exact ih x

/-- no empty lists in the table -/
def Full (tab : Tab) : Prop := ∀ e ∈ tab, ∀ f ∈ e.2, f.2 ≠ []

theorem add_full (tab : Tab) (s : Sig) (tab' : Tab) (h : Full tab)
    (ha : addSignal tab s = .ok tab') : Full tab' := by
  unfold addSignal at ha
  dsimp only at ha
  have h1 : Full (if tab.mem s.sys then tab else tab.set s.sys []) := by
    split
    · exact h
    · intro e he
      rcases List.mem_cons.1 he with e1 | e1
      · subst e1; simp
      · exact h e (List.mem_filter.1 e1).1
  generalize (if tab.mem s.sys then tab else tab.set s.sys []) = tb at *
  have h2 : ∀ f ∈ (tb.get? s.sys).getD [], f.2 ≠ [] := by
    intro f hf
    unfold Dict.get? at hf
    cases hq : tb.find? fun p => p.1 = s.sys with
    | none => rw [hq] at hf; simp at hf
    | some p =>
      rw [hq] at hf
      exact h1 p (List.mem_of_find?_eq_some hq) f hf
  generalize (tb.get? s.sys).getD [] = d at *
  generalize ((if d.mem s.typ then d else d.set s.typ []).get? s.typ).getD [] = ss at ha
  by_cases hs : s ∈ ss
  · rw [if_pos hs] at ha; cases ha
  · rw [if_neg hs] at ha
    injection ha with ha
    subst ha
    intro e he
    rcases List.mem_cons.1 he with e1 | e1
    · subst e1
      intro f hf
      rcases List.mem_cons.1 hf with e2 | e2
      · subst e2; simp
      · obtain ⟨e3, e4⟩ := List.mem_filter.1 e2
        split at e3
        · exact h2 f e3
        · rcases List.mem_cons.1 e3 with e5 | e5
          · subst e5; simp at e4
          · exact h2 f (List.mem_filter.1 e5).1
    · exact h1 e (List.mem_filter.1 e1).1

theorem add_all_full (sigs : List Sig) : ∀ (tab tab' : Tab), Full tab →
    sigs.foldlM addSignal tab = .ok tab' → Full tab' := by
  induction sigs with
  | nil => intro tab tab' h ha; injection ha with ha; subst ha; exact h
  | cons s sigs ih =>
    intro tab tab' h ha
    rw [List.foldlM_cons, Py.bind_ok] at ha
    obtain ⟨tb, h1, h2⟩ := ha
    exact ih tb tab' (add_full tab s tb h h1) h2

/-- a selection as `setSignals` leaves it -/
structure Good (sel : Sel) : Prop where
  keys : TabKeys sel.tab
  filed : Filed sel.tab
  wide : Wide sel
  full : Full sel.tab
  typed : ∀ sys, getSignals sel.tab sys .none = []

theorem good_fresh : Good {} :=
  ⟨⟨by simp [Keys], by simp⟩, fun sys t s hs => by simp [getSignals] at hs,
    fun sys t => by simp [getSignals], fun e he => by simp at he, fun sys => rfl⟩

theorem mem_flat (tab : Tab) (hk : TabKeys tab) (t : Typ) (ss : List Sig)
    (h : (t, ss) ∈ tab.flatMap fun e => e.2) : ∃ sys, getSignals tab sys t = ss := by
  obtain ⟨⟨sys, d⟩, h1, h2⟩ := List.mem_flatMap.1 h
  refine ⟨sys, ?_⟩
  unfold getSignals
  rw [(keys_mem tab hk.1 sys d).1 h1]
  dsimp only
  rw [(keys_mem d (hk.2 _ h1) t ss).1 h2]
  rfl

theorem flat_mem (tab : Tab) (hk : TabKeys tab) (sys : Sys) (t : Typ)
    (h : getSignals tab sys t ≠ []) : (t, getSignals tab sys t) ∈ tab.flatMap fun e => e.2 := by
  unfold getSignals at h ⊢
  cases hg : tab.get? sys with
  | none => rw [hg] at h; simp at h
  | some d =>
    rw [hg] at h
    dsimp only at h ⊢
    cases hd : d.get? t with
    | none => rw [hd] at h; simp at h
    | some ss =>
      have h1 := (keys_mem tab hk.1 sys d).2 hg
      exact List.mem_flatMap.2 ⟨_, h1, (keys_mem d (hk.2 _ h1) t ss).2 hd⟩

/-- What a selection does: the signals of each constellation and type in the order given, after
those selected before; the width of a type's table is the largest number of signals that a
constellation has of that type. -/
theorem selection (sel : Sel) (hg : Good sel) (sigs : List Sig) (hn : sigs.Nodup)
    (hnew : ∀ s ∈ sigs, s ∉ getSignals sel.tab s.sys s.typ) (ht : ∀ s ∈ sigs, s.typ ≠ .none) :
    ∃ sel', setSignals sel sigs = .ok sel' ∧ Good sel' ∧
      (∀ sys, sel'.tab.mem sys = true ↔ sel.tab.mem sys = true ∨ ∃ s ∈ sigs, s.sys = sys) ∧
      (∀ sys t, getSignals sel'.tab sys t = getSignals sel.tab sys t ++ pick sigs sys t) ∧
      ∀ t, sel.nsig t ≤ sel'.nsig t ∧ (sel'.nsig t = sel.nsig t ∨
        ∃ sys, sel'.nsig t = (getSignals sel'.tab sys t).length) := by
  obtain ⟨tab', a1, a2, a3, a4, a5⟩ := (add_all sigs sel.tab hg.keys hg.filed).2 hn hnew
  have hnone : ∀ sys, getSignals tab' sys .none = [] := by
    intro sys
    rw [a5, hg.typed, List.nil_append]
    unfold pick
    rw [List.filter_eq_nil_iff]
    intro s hs
    simp [ht s hs]
  unfold setSignals
  rw [a1, Py.okBind, fold_nested]
  by_cases hex : ∃ e ∈ tab'.flatMap fun e => e.2, e.1 = .none
  · -- an empty list for the type `NONE` cannot be there
    exfalso
    obtain ⟨⟨t, ss⟩, he, rfl⟩ := hex
    obtain ⟨sys, hs⟩ := mem_flat tab' a2 _ _ he
    obtain ⟨d, h1, h2⟩ := List.mem_flatMap.1 he
    exact (add_all_full sigs _ _ hg.full a1) d h1 _ h2 (hs.symm.trans (hnone sys))
  · obtain ⟨n', b1, b2⟩ := (grow_all (tab'.flatMap fun e => e.2) sel.nsig).2
      (fun e he h => hex ⟨e, he, h⟩)
    rw [b1, Py.okBind]
    refine ⟨_, rfl, ⟨a2, a3, ?_, add_all_full sigs _ _ hg.full a1, hnone⟩, a4, a5, fun t => ⟨(b2 t).1, ?_⟩⟩
    · intro sys t
      by_cases he : getSignals tab' sys t = []
      · show (getSignals tab' sys t).length ≤ _; rw [he]; exact Nat.zero_le _
      · exact (b2 t).2.1 _ (flat_mem tab' a2 sys t he) rfl
    · rcases (b2 t).2.2 with h | ⟨⟨t', ss⟩, h1, rfl, h2⟩
      · exact Or.inl h
      · obtain ⟨sys, hs⟩ := mem_flat tab' a2 t' ss h1
        refine Or.inr ⟨sys, ?_⟩
        show n' t' = (getSignals tab' sys t').length
        rw [hs]
        exact h2

/-- A signal given twice, or selected before, is refused. -/
theorem selection_twice (sel : Sel) (hg : Good sel) (sigs : List Sig)
    (h : ¬ (sigs.Nodup ∧ ∀ s ∈ sigs, s ∉ getSignals sel.tab s.sys s.typ)) :
    setSignals sel sigs = .error .valueError := by
  unfold setSignals
  rw [(add_all sigs sel.tab hg.keys hg.filed).1 h]
  rfl

/-! ### Replacement of signals the file does not have -/

/-- other tracking codes of the same band that may stand in, the preferred one last -/
def alternatives (s : Sig) : List Sig :=
  let b := s.sig / 100
  let a := s.sig % 100
  let codes : List Int :=
    match s.sys with
    | .gps => if b = 1 ∨ b = 2 then (if a = 3 ∨ a = 23 then [3, 23] else [19, 12, 24])
        else if b = 5 then [9, 17, 24] else []
    | .gal => if b = 5 ∨ b = 7 ∨ b = 8 then [9, 17, 24] else if b = 1 ∨ b = 6 then [2, 3, 24] else []
    | .qzs => if b = 1 ∨ b = 2 ∨ b = 6 then [19, 12, 24] else if b = 5 then [9, 17, 24] else []
    | .bds => if b = 1 ∨ b = 5 ∨ b = 7 then [16, 24] else []
    | _ => []
  codes.map fun c => ⟨s.sys, s.typ, 100 * b + c⟩

/-- the signal used in the place of a selected one -/
def replacement (map : Dict Sys (Dict Nat Sig)) (s : Sig) : Sig :=
  match map.get? s.sys with
  | Option.none => s
  | some m => if s ∈ m.map Prod.snd then s
    else ((alternatives s).filter fun r => r ∈ m.map Prod.snd).getLast?.getD s

/-- signals with a code of the table `uSIG` and a type -/
def Proper (s : Sig) : Prop := s.sig ∈ uSIG ∧ s.typ ≠ .none

theorem alternatives_eq : ∀ sys : Sys, ∀ t ∈ typs, ∀ n ∈ uSIG,
    (attsFor sys ⟨sys, t, n⟩).mapM (fun a => toAtt ⟨sys, t, n⟩ [a]) =
      .ok (alternatives ⟨sys, t, n⟩) := by
  intro sys
  cases sys <;> decide +kernel

theorem try_all (m : Dict Nat Sig) (s : Sig) : ∀ (as : List Char) (cur : Sig) (l : List Sig),
    as.mapM (fun a => toAtt s [a]) = (.ok l : Py _) →
    tryAtts m s as cur = .ok ((l.filter fun r => hasSig m r).getLast?.getD cur) := by
  intro as
  induction as with
  | nil =>
    intro cur l h
    injection h with h
    subst h
    rfl
  | cons a as ih =>
    intro cur l h
    rw [List.mapM_cons, Py.bind_ok] at h
    obtain ⟨r, h1, h2⟩ := h
    rw [Py.bind_ok] at h2
    obtain ⟨rs, h3, h4⟩ := h2
    injection h4 with h4
    subst h4
    rw [tryAtts, h1, Py.okBind, ih _ rs h3, List.filter_cons]
    by_cases hr : hasSig m r
    · rw [if_pos hr, if_pos hr, List.getLast?_cons]
      rfl
    · rw [if_neg hr, if_neg hr]

theorem has_iff (m : Dict Nat Sig) (s : Sig) : hasSig m s = decide (s ∈ m.map Prod.snd) := by
  unfold hasSig
  rw [Bool.eq_iff_iff]
  simp

theorem substitute_eq (map : Dict Sys (Dict Nat Sig)) (s : Sig) (h : Proper s) :
    substitute map s.sys s = .ok (replacement map s) := by
  unfold substitute replacement
  cases hm : map.get? s.sys with
  | none => rfl
  | some m =>
    dsimp only
    rw [has_iff]
    by_cases hs : s ∈ m.map Prod.snd
    · rw [if_pos hs, if_pos (by simpa using hs)]
    · rw [if_neg hs, if_neg (by simpa using hs), try_all m s _ _ (alternatives s)]
      · simp only [has_iff]
      · apply alternatives_eq s.sys s.typ _ s.sig h.1
        have := h.2
        revert this
        cases s.typ <;> simp [typs]

theorem mapM_ok {α β : Type} (f : α → Py β) (g : α → β) (l : List α)
    (h : ∀ a ∈ l, f a = .ok (g a)) : l.mapM f = .ok (l.map g) := by
  induction l with
  | nil => rfl
  | cons a l ih =>
    rw [List.mapM_cons, h a (by simp), Py.okBind, ih fun x hx => h x (by simp [hx])]
    rfl

theorem get_map {κ α β : Type} [DecidableEq κ] (d : Dict κ α) (g : κ → α → β) (k : κ) :
    Dict.get? (d.map fun e => (e.1, g e.1 e.2)) k = (d.get? k).map (g k) := by
  induction d with
  | nil => rfl
  | cons e d ih =>
    unfold Dict.get? at ih ⊢
    rw [List.map_cons, List.find?_cons, List.find?_cons]
    by_cases h : e.1 = k
    · subst h; simp
    · simpa [h] using ih

/-- After the replacement every selected signal is either itself or its replacement, in the same
column. -/
theorem substituted (map : Dict Sys (Dict Nat Sig)) (sel : Sel) (hg : Good sel)
    (hp : ∀ sys t, ∀ s ∈ getSignals sel.tab sys t, Proper s) :
    ∃ tab', autoSubstitute map sel.tab = .ok tab' ∧
      ∀ sys t, getSignals tab' sys t = (getSignals sel.tab sys t).map (replacement map) := by
  have hin : ∀ e ∈ sel.tab, ∀ f ∈ e.2, getSignals sel.tab e.1 f.1 = f.2 := by
    intro e he f hf
    unfold getSignals
    rw [(keys_mem sel.tab hg.keys.1 e.1 e.2).1 he]
    dsimp only
    rw [(keys_mem e.2 (hg.keys.2 e he) f.1 f.2).1 hf]
    rfl
  refine ⟨sel.tab.map fun e => (e.1, e.2.map fun f => (f.1, f.2.map (replacement map))), ?_, ?_⟩
  · unfold autoSubstitute
    apply mapM_ok
    intro e he
    have h1 : e.2.mapM (fun f => do
        let ss ← f.2.mapM (substitute map e.1)
        pure (f.1, ss)) = .ok (e.2.map fun f => (f.1, f.2.map (replacement map))) := by
      apply mapM_ok
      intro f hf
      rw [mapM_ok (substitute map e.1) (replacement map)]
      · rfl
      · intro s hs
        rw [← hin e he f hf] at hs
        have hsys := (hg.filed _ _ _ hs).1
        rw [← hsys]
        exact substitute_eq map s (hp _ _ _ hs)
    rw [h1]
    rfl
  · intro sys t
    unfold getSignals
    rw [get_map sel.tab (fun _ v => v.map fun f => (f.1, f.2.map (replacement map))) sys]
    cases sel.tab.get? sys with
    | none => rfl
    | some d =>
      dsimp only [Option.map_some]
      rw [get_map d (fun _ v => v.map (replacement map)) t]
      cases d.get? t <;> rfl

/-- A replacement keeps constellation, type and band; it is a signal of the header whenever the
selected signal or one of its alternatives is. -/
theorem replacement_spec (map : Dict Sys (Dict Nat Sig)) (s : Sig) :
    (replacement map s).sys = s.sys ∧ (replacement map s).typ = s.typ ∧
    (replacement map s).sig / 100 = s.sig / 100 ∧
    ∀ m, map.get? s.sys = some m →
      (s ∈ m.map Prod.snd → replacement map s = s) ∧
      ((∃ r ∈ alternatives s, r ∈ m.map Prod.snd) → replacement map s ∈ m.map Prod.snd) := by
  have halt : ∀ r ∈ alternatives s, r.sys = s.sys ∧ r.typ = s.typ ∧ r.sig / 100 = s.sig / 100 := by
    intro r hr
    unfold alternatives at hr
    dsimp only at hr
    obtain ⟨c, hc, rfl⟩ := List.mem_map.1 hr
    refine ⟨rfl, rfl, ?_⟩
    have h : 0 ≤ c ∧ c < 100 := by
      split at hc <;> (try split at hc) <;> (try split at hc) <;>
        simp only [List.mem_cons, List.not_mem_nil, or_false] at hc <;> omega
    show (100 * (s.sig / 100) + c) / 100 = s.sig / 100
    omega
  unfold replacement
  cases hm : map.get? s.sys with
  | none => exact ⟨rfl, rfl, rfl, fun m h => by cases h⟩
  | some m =>
    dsimp only
    by_cases hs : s ∈ m.map Prod.snd
    · rw [if_pos hs]
      refine ⟨rfl, rfl, rfl, fun m' h => ?_⟩
      injection h with h
      subst h
      exact ⟨fun _ => rfl, fun _ => hs⟩
    · rw [if_neg hs]
      cases hl : ((alternatives s).filter fun r => r ∈ m.map Prod.snd).getLast? with
      | none =>
        refine ⟨rfl, rfl, rfl, fun m' h => ?_⟩
        injection h with h
        subst h
        refine ⟨fun h => absurd h hs, ?_⟩
        rintro ⟨r, h1, h2⟩
        rw [List.getLast?_eq_none_iff, List.filter_eq_nil_iff] at hl
        exact absurd (by simpa using h2) (hl r h1)
      | some r =>
        have hr := List.mem_filter.1 (List.mem_of_getLast? hl)
        obtain ⟨h1, h2, h3⟩ := halt r hr.1
        refine ⟨h1, h2, h3, fun m' h => ?_⟩
        injection h with h
        subst h
        exact ⟨fun h => absurd h hs, fun _ => by simpa using hr.2⟩

/-! ### The columns of the header -/

/-- the header lists signals at the positions `0, 1, …` without gaps -/
def Gapless (m : Dict Nat Sig) : Prop := (m.map Prod.fst).Perm (List.range m.length)

theorem gapless_set (m : Dict Nat Sig) (k : Nat) (s : Sig) (h : Gapless m) (hk : k ≤ m.length) :
    Gapless (m.set k s) ∧ k + 1 ≤ (m.set k s).length := by
  unfold Gapless at h ⊢
  have hnd : (m.map Prod.fst).Nodup := h.nodup_iff.2 List.nodup_range
  have hset : (m.set k s).map Prod.fst = k :: (m.map Prod.fst).filter (fun x => x ≠ k) := by
    unfold Dict.set
    rw [List.map_cons, List.filter_map]
    rfl
  have hlen : (m.set k s).length = ((m.set k s).map Prod.fst).length := by simp
  rw [hlen, hset]
  have hf : (m.map Prod.fst).filter (fun x => x ≠ k) = (m.map Prod.fst).erase k :=
    by
      rw [hnd.erase_eq_filter]
      apply List.filter_congr
      intro x _
      by_cases e : x = k <;> simp [e]
  rw [hf]
  by_cases hmem : k ∈ m.map Prod.fst
  · have hp := (List.perm_cons_erase hmem).symm
    have hl : (k :: (m.map Prod.fst).erase k).length = m.length := by
      rw [hp.length_eq]; simp
    rw [hl]
    refine ⟨hp.trans h, ?_⟩
    have := (h.mem_iff).1 hmem
    rw [List.mem_range] at this
    omega
  · rw [List.erase_of_not_mem hmem]
    have hk' : k = m.length := by
      by_contra hne
      exact hmem (h.mem_iff.2 (List.mem_range.2 (by omega)))
    have hl : (k :: m.map Prod.fst).length = m.length + 1 := by simp
    rw [hl, List.range_succ, hk']
    refine ⟨?_, le_refl _⟩
    exact (List.Perm.cons _ h).trans (List.perm_append_singleton _ _).symm

/-- all constellations of a header -/
def HdrOk (h : Hdr) : Prop := ∀ g, Gapless ((h.sigMap.get? g).getD [])

theorem store_gapless (g : Sys) (cs : List (List Char)) : ∀ (i : Nat) (h h' : Hdr), HdrOk h →
    i ≤ ((h.sigMap.get? g).getD []).length → storeSigs g i cs h = .ok h' → HdrOk h' := by
  induction cs with
  | nil => intro i h h' h1 _ h2; injection h2 with h2; subst h2; exact h1
  | cons c cs ih =>
    intro i h h' h1 hi h2
    rw [storeSigs, Py.bind_ok] at h2
    obtain ⟨r, -, h3⟩ := h2
    obtain ⟨a, b⟩ := gapless_set _ i r (h1 g) hi
    refine ih _ _ _ ?_ ?_ h3
    · intro g'
      dsimp only
      rw [Dict.get?_set]
      by_cases e : g' = g
      · rw [if_pos e]; exact a
      · rw [if_neg e]; exact h1 g'
    · dsimp only
      rw [Dict.get?_set, if_pos rfl]
      exact b

theorem slots_map : ∀ (k i : Nat) (line : Line) (ls : List Line) (h : Hdr) (r : Hdr × List Line),
    readSlots k i line ls h = .ok r → r.1.sigMap = h.sigMap := by
  intro k
  induction k with
  | zero => intro i line ls h r hr; injection hr with hr; subst hr; rfl
  | succ k ih =>
    intro i line ls h r hr
    rw [readSlots] at hr
    simp only [Py.bind_ok] at hr
    obtain ⟨_, -, _, -, hr⟩ := hr
    have := ih _ _ _ _ _ hr
    exact this

theorem line_gapless (line : Line) (ls : List Line) (h : Hdr) (r : Hdr × List Line) (hh : HdrOk h)
    (hr : headerLine line ls h = .ok r) : HdrOk r.1 := by
  unfold headerLine at hr
  split at hr
  · cases line with
    | nil => cases hr
    | cons c l =>
      simp only [Py.bind_ok, Py.pure_ok] at hr
      obtain ⟨_, -, h', h1, rfl⟩ := hr
      exact store_gapless _ _ 0 h h' hh (Nat.zero_le _) h1
  · split at hr
    · simp only [Py.bind_ok] at hr
      obtain ⟨_, -, hr⟩ := hr
      unfold HdrOk
      rw [slots_map _ _ _ _ _ _ hr]
      exact hh
    · injection hr with hr
      subst hr
      exact hh

theorem loop_gapless : ∀ (n : Nat) (ls : List Line) (h : Hdr) (r : Hdr × List Line), HdrOk h →
    headerLoop n ls h = .ok r → HdrOk r.1 := by
  intro n
  induction n with
  | zero => intro ls h r hh hr; injection hr with hr; subst hr; exact hh
  | succ n ih =>
    intro ls h r hh hr
    cases ls with
    | nil => injection hr with hr; subst hr; exact hh
    | cons l ls =>
      rw [headerLoop] at hr
      split at hr
      · injection hr with hr; subst hr; exact hh
      · rw [Py.bind_ok] at hr
        obtain ⟨x, h1, h2⟩ := hr
        exact ih _ _ _ (line_gapless l ls h x hh h1) h2

/-- The columns a header yields are numbered from zero without gaps. -/
theorem header_columns (ls : List Line) (h : Hdr) (rest : List Line)
    (hr : header ls {} = .ok (h, rest)) (sys : Sys) (m : Dict Nat Sig)
    (hm : h.sigMap.get? sys = some m) (i : Nat) : (m.get? i).isSome ↔ i < m.length := by
  have h0 : HdrOk {} := fun g => by simp [Gapless]
  have h1 := loop_gapless _ _ _ _ h0 hr sys
  dsimp only at h1
  rw [hm, Option.getD_some] at h1
  have hk : Keys m := h1.nodup_iff.2 List.nodup_range
  rw [← List.mem_range, ← h1.mem_iff, Option.isSome_iff_exists]
  constructor
  · rintro ⟨v, hv⟩
    exact List.mem_map.2 ⟨_, (keys_mem m hk i v).2 hv, rfl⟩
  · intro hmem
    obtain ⟨⟨k, v⟩, h2, rfl⟩ := List.mem_map.1 hmem
    exact ⟨v, (keys_mem m hk k v).1 h2⟩

/-! ### Cases -/

/-- a number reader for the examples: thousandths -/
def mili (s : List Char) : Py ℚ :=
  (pyInt (strip (s.filter (· ≠ '.')))).map fun n => (n : ℚ) / 1000

/-- the columns of a header with three GPS and two Galileo signals -/
def hdr : Dict Sys (Dict Nat Sig) :=
  [(.gps, [(0, ⟨.gps, .C, 103⟩), (1, ⟨.gps, .L, 103⟩), (2, ⟨.gps, .S, 103⟩)]),
   (.gal, [(0, ⟨.gal, .L, 517⟩), (1, ⟨.gal, .C, 517⟩)])]

/-- a code and a carrier phase signal of GPS and of Galileo -/
def sel0 : Sel := ((setSignals {} [⟨.gps, .C, 103⟩, ⟨.gps, .L, 103⟩, ⟨.gal, .C, 517⟩,
  ⟨.gal, .L, 517⟩]).toOption).getD {}

/-- a file with an epoch of three satellites -/
def file : List Line :=
  ["comment".toList,
   "> 2024 01 02 03 04      5.000  0  3\n".toList,
   "G07  21000000.123   110000000.4561         45.000\n".toList,
   "R01  19000000.000\n".toList,
   "E11                  23000000.500\n".toList,
   "> next".toList]

/-- the selection of the example is of the form the theorems require -/
example : Good sel0 := by
  obtain ⟨sel', h1, h2, -⟩ := selection {} good_fresh [⟨.gps, .C, 103⟩, ⟨.gps, .L, 103⟩,
    ⟨.gal, .C, 517⟩, ⟨.gal, .L, 517⟩] (by decide)
    (by intro s _; simp [getSignals]) (by decide)
  unfold sel0
  rw [h1]
  exact h2

/-- the epoch of the file: the GLONASS satellite is passed over, the missing Galileo phase is 0 -/
example : decodeEpoch mili hdr sel0 file = .ok (some
    { t := epoch2time ⟨2024, 1, 2, 3, 4, 5⟩
      sat := [7, 11 + galMin]
      P := [[21000000123 / 1000], [23000000500 / 1000]]
      L := [[110000000456 / 1000], [0]]
      D := [[], []]
      S := [[], []]
      lli := [[1], [0]] }, ["> next".toList]) := by
  decide +kernel

/-- one more Galileo signal in the selection and the same file cannot be read -/
example : ((setSignals {} [⟨.gps, .C, 103⟩, ⟨.gps, .L, 103⟩, ⟨.gal, .C, 517⟩,
      ⟨.gal, .C, 103⟩, ⟨.gal, .L, 517⟩]).bind fun sel => (decodeEpoch mili hdr sel file).map
        fun _ => ()) = .error .valueError := by
  decide +kernel

/-- the hypotheses of `uneven` can be met: the second selection is not even on these lines -/
example : ¬ Even hdr (((setSignals {} [⟨.gps, .C, 103⟩, ⟨.gal, .C, 517⟩,
      ⟨.gal, .C, 103⟩]).toOption).getD {}) [file.getD 2 []] := by
  intro h
  have := h (file.getD 2 []) (by decide +kernel) .C (by decide)
  revert this
  decide +kernel

/-- an unavailable GPS L5I is read as L5Q or L5X, the last one listed by the file -/
example : replacement [(.gps, [(0, ⟨.gps, .C, 517⟩), (1, ⟨.gps, .C, 524⟩)])] ⟨.gps, .C, 509⟩ =
    ⟨.gps, .C, 524⟩ := by decide

/-- two selected signals may get the same replacement; then the second column stays zero -/
example : (autoSubstitute [(.gps, [(0, ⟨.gps, .C, 123⟩)])] (((setSignals {} [⟨.gps, .C, 103⟩,
      ⟨.gps, .C, 123⟩]).toOption).getD {}).tab).map (fun t => getSignals t .gps .C) =
    .ok [⟨.gps, .C, 123⟩, ⟨.gps, .C, 123⟩] ∧
    cells [⟨.gps, .C, 123⟩, ⟨.gps, .C, 123⟩] (fun _ => (5 : Nat)) = [5, 0] := by
  decide +kernel

end Verif.C69
