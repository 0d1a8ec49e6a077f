import Verif.Props.C21
import Mathlib.Data.List.Dedup
/-!
# C65 What OSNMA reports: satellites, position, UTC, return value; the list of delayed tags

Specification: the number of verified tags per satellite and issue of data (`verified`), the satellites with enough of
them, the age of a delayed tag.
-/

namespace Verif.C65
open Verif.Osnma Verif.C21
variable {PK : Type}

/-- number of tags counted for a satellite and issue -/
def verified (s : St PK) (k : Nat × Int) : Nat := (s.vstatus.get? k).getD 0

/-- what the flags mean -/
structure Flags (s : St PK) : Prop where
  /-- the number reported is that of the satellites with enough tags on one issue of their data -/
  sats : ∃ l : List Nat, l.Nodup ∧ (∀ a, a ∈ l ↔ a ≠ 37 ∧ ∃ i, s.vcntMin ≤ verified s (a, i)) ∧ s.nsat = l.length
  /-- a position is authenticated once there are four -/
  pos : s.posAuth = true ↔ 4 ≤ s.nsat
  /-- UTC is authenticated once there are enough tags on it -/
  utc : s.utcVerified = true ↔ s.vcntMin ≤ verified s (37, 0)

/-! ## Counters -/

/-- every satellite and issue has one entry -/
def Keys (d : Dict (Nat × Int) Nat) : Prop := (d.map (·.1)).Nodup

theorem keys_set {d : Dict (Nat × Int) Nat} (h : Keys d) (k : Nat × Int) (v : Nat) : Keys (d.set k v) := by
  unfold Keys Dict.set at *
  rw [List.map_cons, List.nodup_cons]
  refine ⟨?_, ?_⟩
  · intro hm
    obtain ⟨e, he, hk⟩ := List.mem_map.1 hm
    have := (List.mem_filter.1 he).2
    simp [hk] at this
  · exact (List.filter_sublist.map _).nodup h

theorem keys_get {d : Dict (Nat × Int) Nat} (h : Keys d) (k : Nat × Int) (v : Nat) :
    (k, v) ∈ d ↔ d.get? k = some v := by
  unfold Keys at h
  unfold Dict.get?
  induction d with
  | nil => simp
  | cons e d ih =>
    rw [List.map_cons, List.nodup_cons] at h
    rw [List.find?_cons]
    obtain ⟨k', v'⟩ := e
    by_cases hk : k' = k
    · subst hk
      simp only [decide_true, Option.map_some, Option.some.injEq, List.mem_cons, Prod.mk.injEq, true_and]
      constructor
      · rintro (rfl | hm)
        · rfl
        · exact absurd (List.mem_map.2 ⟨_, hm, rfl⟩) h.1
      · rintro rfl; exact Or.inl rfl
    · simp only [hk, decide_false, List.mem_cons, Prod.mk.injEq]
      rw [ih h.2]
      constructor
      · rintro (⟨e, _⟩ | hm)
        · exact absurd e.symm hk
        · exact hm
      · exact Or.inr

theorem keys_bump {d : Dict (Nat × Int) Nat} (h : Keys d) (k : Nat × Int) : Keys (bump d k) := keys_set h _ _

/-- satellites with enough tags, as counted by the code -/
theorem valid_list (s : St PK) (hk : Keys s.vstatus) (hm : 1 ≤ s.vcntMin) :
    ∃ l : List Nat, l.Nodup ∧ (∀ a, a ∈ l ↔ a ≠ 37 ∧ ∃ i, s.vcntMin ≤ verified s (a, i)) ∧ countValidSat s = l.length := by
  refine ⟨_, List.nodup_dedup _, fun a => ?_, rfl⟩
  rw [List.mem_dedup, List.mem_map]
  constructor
  · rintro ⟨⟨⟨a', i⟩, c⟩, he, rfl⟩
    obtain ⟨h1, h2⟩ := List.mem_filter.1 he
    simp only [ne_eq, decide_eq_true_eq] at h2
    refine ⟨h2.1, i, ?_⟩
    unfold verified
    rw [(keys_get hk _ _).1 h1]
    exact h2.2
  · rintro ⟨ha, i, hi⟩
    unfold verified at hi
    cases hg : s.vstatus.get? (a, i) with
    | none => rw [hg] at hi; simp at hi; omega
    | some c =>
      rw [hg] at hi
      refine ⟨((a, i), c), List.mem_filter.2 ⟨(keys_get hk _ _).2 hg, ?_⟩, rfl⟩
      simpa using ⟨ha, hi⟩

/-! ## The loops -/

/-- a delayed tag is on the data of a satellite -/
def OnSat (t : Tag) : Prop := t.adkd = 12 ∧ ∀ m, t.navmsg = some m → t.prnD ≠ 37

/-- what holds between the tags; `vs` the counters at the start -/
structure Good (b : St PK) (st : Bool) (vs : Dict (Nat × Int) Nat) (w : Bool) : Prop where
  keys : Keys vs
  mono : ∀ k, (b.vstatus.get? k).getD 0 ≤ (vs.get? k).getD 0
  utc : w = true ↔ b.vcntMin ≤ (vs.get? (37, 0)).getD 0
  hit : st = true → ∃ k, b.vcntMin ≤ (vs.get? k).getD 0 ∧ (b.vstatus.get? k).getD 0 < (vs.get? k).getD 0

theorem Good.bump {b : St PK} {st st' : Bool} {vs : Dict (Nat × Int) Nat} {w w' : Bool} (h : Good b st vs w) (k : Nat × Int)
    (hst : st' = decide (b.vcntMin ≤ (vs.get? k).getD 0 + 1))
    (hw : k = (37, 0) ∧ w' = (w || st') ∨ k ≠ (37, 0) ∧ w' = w) : Good b st' (bump vs k) w' := by
  refine ⟨keys_bump h.keys k, fun k' => ?_, ?_, fun hs => ⟨k, ?_, ?_⟩⟩
  · rw [get_bump]; exact le_trans (h.mono k') (Nat.le_add_right _ _)
  · rw [get_bump]
    rcases hw with ⟨rfl, rfl⟩ | ⟨hk, rfl⟩
    · rw [if_pos rfl, Bool.or_eq_true, h.utc, hst, decide_eq_true_eq]
      omega
    · rw [if_neg (fun e => hk e.symm), h.utc]; rfl
  · rw [get_bump, if_pos rfl]; rw [hst] at hs; exact of_decide_eq_true hs
  · rw [get_bump, if_pos rfl]; exact Nat.lt_succ_of_le (h.mono k)

theorem Good.keep {b : St PK} {st : Bool} {vs : Dict (Nat × Int) Nat} {w : Bool} (h : Good b st vs w) : Good b false vs w :=
  ⟨h.keys, h.mono, h.utc, fun h => by cases h⟩

theorem saveAuthNav_st (b : St PK) (vs : Dict (Nat × Int) Nat) (tl : List Tag) (w : Bool) (a : Option Nat) (t : Tag) :
    (saveAuthNav (upd b vs tl w a) true t).2 = decide (b.vcntMin ≤ (vs.get? (tagKey t)).getD 0 + 1) := by
  unfold saveAuthNav
  simp only [if_true]
  show decide ((match vs.get? (tagKey t) with | none => 1 | some c => c + 1) ≥ b.vcntMin) = _
  cases vs.get? (tagKey t) with
  | none => simp
  | some c => rfl

theorem tagStep_good (p : Prim PK) (b : St PK) (vs : Dict (Nat × Int) Nat) (tl : List Tag) (w : Bool)
    (st : Bool) (k : Nat) (hg : b.gstSfP.length = 32) (hgd : Good b st vs w) :
    Post (tagStep p (upd b vs tl w b.prnA, st) k) (fun r => ∃ vs' tl' w',
      r.1 = upd b vs' tl' w' b.prnA ∧ (∀ t ∈ tl', t ∈ tl ∨ New b t) ∧ Good b r.2 vs' w') := by
  unfold tagStep
  refine Post.bind_any fun x => ?_
  obtain ⟨tag, prnD, adkd⟩ := x
  refine Post.bind (slowAppend_upd b vs tl w b.prnA k tag prnD adkd hg) fun s1 h1 => ?_
  obtain ⟨tl', rfl, htl⟩ := h1
  refine Post.bind (Q := fun nav => tagNav b prnD adkd = .ok nav) ⟨fun _ h => h⟩ fun nav hnav => ?_
  cases nav with
  | none => exact Post.pure ⟨vs, tl', w, rfl, htl, hgd⟩
  | some m =>
    refine Post.bind (Q := fun a => getPrnA b = .ok a) ⟨fun _ h => h⟩ fun a ha => ?_
    refine Post.bind (Q := fun t => mkTag b.gstSfP prnD a adkd tag (k + 1) (some m) = .ok t)
      ⟨fun _ h => h⟩ fun t ht => ?_
    refine Post.bind (Q := fun res => verifyNavmsg p b t = .ok res) ⟨fun _ h => h⟩ fun res hres => ?_
    have h2 := saveAuthNav_upd b vs tl' w b.prnA res t
    have h3 := saveAuthNav_st b vs tl' w b.prnA t
    obtain ⟨e1, e2, e3, e4, e5, e6⟩ := mkTag_eq ht
    cases res with
    | false =>
      change Post (do
        let s := if (saveAuthNav (upd b vs tl' w b.prnA) false t).2 = true ∧ adkd = 4 then
          { (saveAuthNav (upd b vs tl' w b.prnA) false t).1 with utcVerified := true } else (saveAuthNav (upd b vs tl' w b.prnA) false t).1
        pure (s, (saveAuthNav (upd b vs tl' w b.prnA) false t).2)) _
      have e : saveAuthNav (upd b vs tl' w b.prnA) false t = (upd b vs tl' w b.prnA, false) := rfl
      rw [e]
      exact Post.pure ⟨vs, tl', w, rfl, htl, hgd.keep⟩
    | true =>
      generalize saveAuthNav (upd b vs tl' w b.prnA) true t = x at h2 h3 ⊢
      obtain ⟨s2, st2⟩ := x
      rw [if_pos rfl] at h2
      simp only at h2 h3
      subst h2
      refine Post.pure ?_
      by_cases h4 : adkd = 4
      · have hk : tagKey t = (37, 0) := by unfold tagKey; rw [if_pos (e4.trans h4)]
        have hgood : Good b st2 (bump vs (tagKey t)) (w || st2) := hgd.bump _ h3 (.inl ⟨hk, rfl⟩)
        cases st2 with
        | true =>
          refine ⟨_, tl', true, ?_, htl, by simpa using hgood⟩
          simp only
          rw [if_pos (by simp [h4])]
        | false =>
          refine ⟨_, tl', w, ?_, htl, by simpa using hgood⟩
          simp only
          rw [if_neg (by simp)]
      · refine ⟨_, tl', w, ?_, htl, hgd.bump _ h3 (.inr ⟨?_, rfl⟩)⟩
        · simp only
          rw [if_neg (fun h => h4 h.2)]
        · unfold tagKey
          rw [if_neg (by rw [e4]; exact h4)]
          intro e
          have e37 := congrArg Prod.fst e
          simp only at e37
          unfold tagNav at hnav
          split at hnav
          · rw [Py.pure_ok] at hnav; cases hnav
          · split at hnav
            · obtain ⟨_, _, _, _, _, _, hp, _⟩ := genInav_spec b prnD m hnav
              omega
            · rw [Py.pure_ok] at hnav; cases hnav

theorem slowLoop_good (p : Prim PK) (b : St PK) : ∀ (n : Nat) (l : List Tag)
    (vs : Dict (Nat × Int) Nat) (tl : List Tag) (w : Bool) (a : Option Nat) (st : Bool),
    l.length ≤ n → (∀ t ∈ l, OnSat t) → Good b st vs w →
    Post (slowLoop p l (upd b vs tl w a) st) (fun r => ∃ vs' a', r.1 = upd b vs' tl w a' ∧ Good b r.2.1 vs' w) := by
  intro n
  induction n with
  | zero =>
    intro l vs tl w a st hl _ hgd
    rw [List.length_eq_zero_iff.1 (by omega : l.length = 0)]
    exact Post.pure ⟨vs, a, rfl, hgd⟩
  | succ n ih =>
    intro l vs tl w a st hl hst hgd
    match l with
    | [] => exact Post.pure ⟨vs, a, rfl, hgd⟩
    | t :: rest =>
      have hst' : ∀ x ∈ rest, OnSat x := fun x hx => hst x (List.mem_cons_of_mem _ hx)
      unfold slowLoop
      refine Post.bind_any fun dt => ?_
      refine Post.ite (fun h300 => ?_) fun _ => ?_
      · refine Post.bind (Q := fun res => verifyNavmsg p (upd b vs tl w (some t.prnA)) t = .ok res)
          ⟨fun _ h => h⟩ fun res hres => ?_
        have h2 := saveAuthNav_upd b vs tl w (some t.prnA) res t
        have h3 := saveAuthNav_st b vs tl w (some t.prnA) t
        change Post (do
          let (s, st, l) ← slowLoop p rest (saveAuthNav (upd b vs tl w (some t.prnA)) res t).1
            (saveAuthNav (upd b vs tl w (some t.prnA)) res t).2
          pure (s, st, t :: l)) _
        rw [h2]
        cases res with
        | false =>
          refine Post.bind (ih rest _ tl w _ _ (by simpa using hl) hst' hgd.keep) fun r hr => ?_
          obtain ⟨s3, st3, l3⟩ := r
          exact Post.pure hr
        | true =>
          rw [if_pos rfl, h3]
          refine Post.bind (ih rest _ tl w _ _ (by simpa using hl) hst' (hgd.bump _ rfl (.inr ⟨?_, rfl⟩))) fun r hr => ?_
          · obtain ⟨ho1, ho2⟩ := hst t (by simp)
            unfold tagKey
            rw [if_neg (by rw [ho1]; omega)]
            intro e
            have e37 := congrArg Prod.fst e
            simp only at e37
            cases hm : t.navmsg with
            | none =>
              unfold verifyNavmsg at hres
              rw [hm] at hres
              simp only at hres
              rw [Py.pure_ok] at hres; cases hres
            | some m => exact ho2 m hm e37
          · obtain ⟨s3, st3, l3⟩ := r
            exact Post.pure hr
      · refine Post.ite (fun _ => ?_) fun _ => ?_
        · match rest with
          | [] => exact Post.pure ⟨vs, a, rfl, hgd⟩
          | y :: rest' =>
            refine Post.bind (ih rest' vs tl w a st (by simp at hl ⊢; omega)
              (fun x hx => hst' x (List.mem_cons_of_mem _ hx)) hgd) fun r hr => ?_
            obtain ⟨s3, st3, l3⟩ := r
            exact Post.pure hr
        · refine Post.bind (ih rest vs tl w a st (by simpa using hl) hst' hgd) fun r hr => ?_
          obtain ⟨s3, st3, l3⟩ := r
          exact Post.pure hr

theorem post_and {α : Type} {x : Py α} {P Q : α → Prop} (h1 : Post x P) (h2 : Post x Q) : Post x fun a => P a ∧ Q a :=
  ⟨fun a e => ⟨h1.out a e, h2.out a e⟩⟩

/-- what stays on the list was on it -/
theorem slowLoop_mem (p : Prim PK) : ∀ (n : Nat) (l : List Tag) (s : St PK) (st : Bool), l.length ≤ n →
    Post (slowLoop p l s st) (fun r => ∀ t ∈ r.2.2, t ∈ l) := by
  intro n
  induction n with
  | zero =>
    intro l s st hl
    rw [List.length_eq_zero_iff.1 (by omega : l.length = 0)]
    exact Post.pure (by simp)
  | succ n ih =>
    intro l s st hl
    match l with
    | [] => exact Post.pure (by simp)
    | t :: rest =>
      unfold slowLoop
      refine Post.bind_any fun dt => ?_
      refine Post.ite (fun h300 => ?_) fun _ => ?_
      · refine Post.bind_any fun res => ?_
        refine Post.bind (ih rest _ _ (by simpa using hl)) fun r hr => Post.pure ?_
        intro x hx
        rcases List.mem_cons.1 hx with rfl | hx
        · simp
        · exact List.mem_cons_of_mem _ (hr x hx)
      · refine Post.ite (fun _ => ?_) fun _ => ?_
        · match rest with
          | [] => exact Post.pure (by simp)
          | y :: rest' =>
            refine Post.bind (ih rest' _ _ (by simp at hl ⊢; omega)) fun r hr => Post.pure ?_
            intro x hx
            rcases List.mem_cons.1 hx with rfl | hx
            · simp
            · exact List.mem_cons_of_mem _ (List.mem_cons_of_mem _ (hr x hx))
        · refine Post.bind (ih rest _ _ (by simpa using hl)) fun r hr => Post.pure ?_
          intro x hx
          rcases List.mem_cons.1 hx with rfl | hx
          · simp
          · exact List.mem_cons_of_mem _ (hr x hx)

/-- everything needed between calls -/
structure Inv (s : St PK) : Prop where
  min : 1 ≤ s.vcntMin
  keys : Keys s.vstatus
  tags : ∀ t ∈ s.tagList, OnSat t
  flags : Flags s

theorem onSat_new {b : St PK} {t : Tag} (h : New b t) : OnSat t := by
  refine ⟨h.1.1, fun m hm e => ?_⟩
  have h2 := h.2.1
  rw [hm] at h2
  obtain ⟨_, _, _, _, _, _, hp, _⟩ := genInav_spec b t.prnD m h2
  omega

/-- the satellites with enough tags only become more -/
theorem nsat_mono {s t : St PK} {l l' : List Nat} (hn : l.Nodup) (hl : ∀ a, a ∈ l ↔ a ≠ 37 ∧ ∃ i, s.vcntMin ≤ verified s (a, i))
    (hl' : ∀ a, a ∈ l' ↔ a ≠ 37 ∧ ∃ i, t.vcntMin ≤ verified t (a, i)) (hv : t.vcntMin = s.vcntMin)
    (hm : ∀ k, verified s k ≤ verified t k) : l.length ≤ l'.length := by
  refine (List.subperm_of_subset hn fun a ha => ?_).length_le
  obtain ⟨h1, i, h2⟩ := (hl a).1 ha
  exact (hl' a).2 ⟨h1, i, by rw [hv]; exact le_trans h2 (hm _)⟩

theorem tagStage_inv (p : Prim PK) (b : St PK) (prn : Nat) (hg : b.gstSfP.length = 32) (hi : Inv b) :
    Post (tagStage p b prn) (fun r => Inv r.1 ∧ (∀ k, verified b k ≤ verified r.1 k) ∧
      (r.2 = true → ∃ k, r.1.vcntMin ≤ verified r.1 k ∧ verified b k < verified r.1 k)) := by
  have fin : ∀ (vs : Dict (Nat × Int) Nat) (tl : List Tag) (w : Bool) (a : Option Nat) (st : Bool), Good b st vs w →
      (∀ t ∈ tl, OnSat t) → ∀ s, s = upd b vs tl w a →
      Inv { s with posAuth := s.posAuth || decide (countValidSat s ≥ 4), nsat := countValidSat s,
                   cnt := fun k => if k = prn then 0 else s.cnt k } := by
    rintro vs tl w a st hgd htl s rfl
    obtain ⟨l', n', h', c'⟩ := valid_list (upd b vs tl w a) hgd.keys hi.min
    obtain ⟨l, n, h, c⟩ := hi.flags.sats
    have hle := nsat_mono n h h' rfl hgd.mono
    refine ⟨hi.min, hgd.keys, htl, ⟨⟨l', n', h', c'⟩, ?_, hgd.utc⟩⟩
    show (b.posAuth || decide (countValidSat (upd b vs tl w a) ≥ 4)) = true ↔ 4 ≤ countValidSat (upd b vs tl w a)
    rw [Bool.or_eq_true, hi.flags.pos, decide_eq_true_eq, c', c]
    omega
  unfold tagStage
  refine Post.bind (Q := fun r : St PK × Bool => ∃ vs tl w, r.1 = upd b vs tl w b.prnA ∧ (∀ t ∈ tl, OnSat t) ∧
    Good b r.2 vs w) ?_ fun r hr => ?_
  · refine Post.foldlM (I := fun r : St PK × Bool => ∃ vs tl w, r.1 = upd b vs tl w b.prnA ∧ (∀ t ∈ tl, OnSat t) ∧
      Good b r.2 vs w) ?_ ⟨b.vstatus, b.tagList, b.utcVerified, rfl, hi.tags, hi.keys, fun _ => le_refl _, hi.flags.utc,
        fun h => by cases h⟩
    rintro ⟨s, st⟩ k _ ⟨vs, tl, w, e, htl, hgd⟩
    simp only at e
    subst e
    refine (tagStep_good p b vs tl w st k hg hgd).mono ?_
    rintro r ⟨vs', tl', w', e, htl', hgd'⟩
    refine ⟨vs', tl', w', e, fun t ht => ?_, hgd'⟩
    rcases htl' t ht with h | h
    · exact htl t h
    · exact onSat_new h
  · obtain ⟨s1, st⟩ := r
    obtain ⟨vs, tl, w, e, htl, hgd⟩ := hr
    simp only at e
    subst e
    refine Post.bind (Q := fun r : St PK × Bool => ∃ vs tl w a, r.1 = upd b vs tl w a ∧ (∀ t ∈ tl, OnSat t) ∧
      Good b r.2 vs w) ?_ fun r hr => ?_
    · refine Post.ite (fun _ => ?_) fun _ => Post.pure ⟨vs, tl, w, b.prnA, rfl, htl, hgd⟩
      have hsub := slowLoop_mem p tl.length tl (upd b vs tl w b.prnA) st (Nat.le_refl _)
      refine Post.bind (post_and (slowLoop_good p b tl.length tl vs tl w b.prnA st (Nat.le_refl _) htl hgd) hsub) fun r3 hr3 => ?_
      obtain ⟨s3, st3, l3⟩ := r3
      obtain ⟨⟨vs', a', e, hgd'⟩, hm⟩ := hr3
      simp only at e hm
      subst e
      exact Post.pure ⟨vs', l3, w, a', rfl, fun t ht => htl t (hm t ht), hgd'⟩
    · obtain ⟨s2, st2⟩ := r
      obtain ⟨vs, tl, w, a, e, htl, hgd⟩ := hr
      refine Post.pure ⟨fin vs tl w a st2 hgd htl s2 e, ?_, ?_⟩
      · intro k
        simp only at e
        subst e
        exact hgd.mono k
      · intro hst
        simp only at e
        subst e
        exact hgd.hit hst

/-! ## Calls -/

/-- what the stages before the tags leave alone -/
structure Same (s t : St PK) : Prop where
  vs : t.vstatus = s.vstatus
  tl : t.tagList = s.tagList
  pos : t.posAuth = s.posAuth
  utc : t.utcVerified = s.utcVerified
  ns : t.nsat = s.nsat
  vm : t.vcntMin = s.vcntMin

theorem Same.trans {s t u : St PK} (h : Same s t) (h2 : Same t u) : Same s u :=
  ⟨h2.1.trans h.1, h2.2.trans h.2, h2.3.trans h.3, h2.4.trans h.4, h2.5.trans h.5, h2.6.trans h.6⟩

theorem Same.verified {s t : St PK} (h : Same s t) (k : Nat × Int) : verified t k = verified s k := by
  unfold C65.verified; rw [h.vs]

theorem Same.inv {s t : St PK} (h : Same s t) (hi : Inv s) : Inv t := by
  refine ⟨by rw [h.vm]; exact hi.min, by rw [h.vs]; exact hi.keys, by rw [h.tl]; exact hi.tags, ?_⟩
  obtain ⟨⟨l, h1, h2, h3⟩, h4, h5⟩ := hi.flags
  refine ⟨⟨l, h1, ?_, by rw [h.ns]; exact h3⟩, by rw [h.pos, h.ns]; exact h4, by rw [h.utc, h.vm, h.verified]; exact h5⟩
  intro a
  rw [h2 a, h.vm]
  simp only [h.verified]

theorem page_same {s t : St PK} {nma : BitBuf} {wn tow prn : Nat} (h : storePage s nma wn tow prn = .ok t) : Same s t := by
  have e := storePage_erase h
  have e1 := congrArg St.vstatus e
  have e2 := congrArg St.tagList e
  have e3 := congrArg St.posAuth e
  have e4 := congrArg St.utcVerified e
  have e5 := congrArg St.nsat e
  have e6 := congrArg St.vcntMin e
  exact ⟨e1, e2, e3, e4, e5, e6⟩

theorem hk_same (p : Prim PK) {s t : St PK} {prn : Nat} (h : subframe1 p s prn = .ok t) : Same s t := by
  have e := subframe1_erase p h
  have e1 := congrArg St.vstatus e
  have e2 := congrArg St.tagList e
  have e3 := congrArg St.posAuth e
  have e4 := congrArg St.utcVerified e
  have e5 := congrArg St.nsat e
  have e6 := congrArg St.vcntMin e
  exact ⟨e1, e2, e3, e4, e5, e6⟩

theorem root_same (p : Prim PK) {s t : St PK} (h : rootStage p s = .ok t) : Same s t := by
  rcases (rootStage_cases p s).out t h with rfl | ⟨rfl, _⟩ <;> exact ⟨rfl, rfl, rfl, rfl, rfl, rfl⟩

theorem mack_same {s t : St PK} {prn : Nat} (h : decodeMack s prn = .ok t) : Same s t := by
  obtain ⟨lt, lk, _, _, rfl⟩ := (decodeMack_eq s prn).out t h
  exact ⟨rfl, rfl, rfl, rfl, rfl, rfl⟩

theorem chain_same (p : Prim PK) {s t : St PK} {gw : Int} (h : chainStage p s gw = .ok t) : Same s t := by
  rcases (chainStage_cases p s gw).out t h with ⟨rfl, _⟩ | rfl | ⟨rfl, _⟩ <;> exact ⟨rfl, rfl, rfl, rfl, rfl, rfl⟩

/-- what one call does -/
def CallOk (p : Prim PK) (s u : St PK) (nma : BitBuf) (wn tow prn : Nat) (r : Bool) : Prop :=
  Inv u ∧ (∀ k, verified s k ≤ verified u k) ∧
    (r = true → (∃ b, Ready p s nma wn tow prn b) ∧ ∃ k, u.vcntMin ≤ verified u k ∧ verified s k < verified u k)

theorem decode_ok (p : Prim PK) (s u : St PK) (nma : BitBuf) (wn tow prn : Nat) (r : Bool) (hi : Inv s)
    (h : decode p s nma wn tow prn = .ok (u, r)) : CallOk p s u nma wn tow prn r := by
  have done : ∀ t, Same s t → CallOk p s t nma wn tow prn false := fun t k =>
    ⟨k.inv hi, fun x => by rw [k.verified], fun h => by cases h⟩
  unfold decode at h
  obtain ⟨t0, h0, h⟩ := Py.bind_ok.1 h
  have k0 := page_same h0
  split at h
  case isFalse => rw [Py.pure_ok] at h; cases h; exact done _ k0
  rename_i hc
  obtain ⟨t1, t2, h1, h2, hr | ⟨t3, t4, h3, h4, hr | ⟨hcv, ha⟩⟩⟩ := subframe_inv p h
  · cases hr
    exact done _ ((k0.trans (hk_same p h1)).trans (root_same p h2))
  · cases hr
    exact done _ ((((k0.trans (hk_same p h1)).trans (root_same p h2)).trans (mack_same h3)).trans (chain_same p h4))
  · have k := (((k0.trans (hk_same p h1)).trans (root_same p h2)).trans (mack_same h3)).trans (chain_same p h4)
    unfold authStage at ha
    obtain ⟨sf, hsf, ha⟩ := Py.bind_ok.1 ha
    have kb : Same s { t4 with gstSfP := sf } := k.trans ⟨rfl, rfl, rfl, rfl, rfl, rfl⟩
    obtain ⟨r1, hr1, ha⟩ := Py.bind_ok.1 ha
    split at ha
    · rw [Py.pure_ok] at ha
      cases ha
      exact done _ kb
    · rename_i hc1
      obtain ⟨r2, hr2, ha⟩ := Py.bind_ok.1 ha
      split at ha
      · rw [Py.pure_ok] at ha
        cases ha
        exact done _ kb
      · rename_i hc2
        have e1 : r1 = true := by simpa using hc1
        have e2 : r2 = true := by simpa using hc2
        subst e1 e2
        obtain ⟨g1, g2, g3⟩ := (tagStage_inv p { t4 with gstSfP := sf } prn (setGstSf_length hsf) (kb.inv hi)).out _ ha
        refine ⟨g1, fun x => by rw [← kb.verified]; exact g2 x, fun hr => ⟨⟨_, ⟨⟨t1, t2, t3, t4,
          ⟨⟨t0, h0, hc, h1⟩, h2, h3⟩, h4, sf, hsf, rfl⟩, hcv, hr1, hr2⟩⟩, ?_⟩⟩
        obtain ⟨x, q1, q2⟩ := g3 hr
        exact ⟨x, q1, by rw [← kb.verified]; exact q2⟩

/-- a decoder as constructed -/
structure Start (s : St PK) : Prop where
  vs : s.vstatus = []
  tl : s.tagList = []
  pos : s.posAuth = false
  utc : s.utcVerified = false
  ns : s.nsat = 0
  min : 1 ≤ s.vcntMin

theorem Start.inv {s : St PK} (h : Start s) : Inv s := by
  have hz : ∀ k, verified s k = 0 := fun k => by unfold verified; rw [h.vs]; rfl
  have hm := h.min
  refine ⟨hm, by rw [h.vs]; exact List.nodup_nil, by rw [h.tl]; simp, ⟨⟨[], List.nodup_nil, fun a => ?_, h.ns⟩, ?_, ?_⟩⟩
  · constructor
    · intro h; cases h
    · rintro ⟨_, i, h⟩; rw [hz] at h; omega
  · rw [h.pos, h.ns]; simp
  · rw [h.utc, hz]
    constructor
    · intro h; cases h
    · intro h; omega

theorem run_ok (p : Prim PK) (s0 : St PK) (h0 : Start s0) : ∀ h s, run p s0 h = .ok s → Inv s := by
  refine run_induction p s0 (fun _ s => Inv s) h0.inv ?_
  intro h s o t hr hi hs
  cases o with
  | page nma wn tow prn =>
    simp only [step] at hs
    obtain ⟨⟨u, r⟩, hd, hs⟩ := Py.bind_ok.1 hs
    rw [Py.pure_ok] at hs
    subst hs
    exact (decode_ok p s u nma wn tow prn r hi hd).1
  | nav w prn tow =>
    obtain ⟨a, b, c, rfl⟩ := (saveGalInav_frame s w prn tow).out t hs
    exact Same.inv (s := s) ⟨rfl, rfl, rfl, rfl, rfl, rfl⟩ hi
  | setPrn a =>
    simp only [step] at hs; rw [Py.pure_ok] at hs; subst hs
    exact Same.inv (s := s) ⟨rfl, rfl, rfl, rfl, rfl, rfl⟩ hi
  | setSlow b =>
    simp only [step] at hs; rw [Py.pure_ok] at hs; subst hs
    exact Same.inv (s := s) ⟨rfl, rfl, rfl, rfl, rfl, rfl⟩ hi
  | loadKey pk i =>
    simp only [step] at hs; rw [Py.pure_ok] at hs; subst hs
    exact Same.inv (s := s) ⟨rfl, rfl, rfl, rfl, rfl, rfl⟩ hi

/-- **Flags over every history.** At any time the number of satellites is that of those with enough verified tags, a
position counts as authenticated exactly from four of them on, UTC exactly from enough tags on it on. -/
theorem flags (p : Prim PK) (s0 : St PK) (h0 : Start s0) (h : List (Op PK)) (s : St PK) (hr : run p s0 h = .ok s) :
    Flags s := (run_ok p s0 h0 h s hr).flags

/-- **Return value.** A call returns true only if all checks passed in it and it raised the number of tags of some
entry to one that is enough; no call lowers a number. -/
theorem returned (p : Prim PK) (s0 : St PK) (h0 : Start s0) (h : List (Op PK)) (s u : St PK) (hr : run p s0 h = .ok s)
    (nma : BitBuf) (wn tow prn : Nat) (r : Bool) (hd : decode p s nma wn tow prn = .ok (u, r)) :
    (∀ k, verified s k ≤ verified u k) ∧
    (r = true → (∃ b, Ready p s nma wn tow prn b) ∧ ∃ k, u.vcntMin ≤ verified u k ∧ verified s k < verified u k) :=
  (decode_ok p s u nma wn tow prn r (run_ok p s0 h0 h s hr) hd).2

/-! ## Delayed tags -/

/-- age of a delayed tag in seconds -/
def age (s : St PK) (t : Tag) : Py Int := difftime s.gstSfP t.gstSf

/-- the tag is due and verifies for its own sender -/
def Due (p : Prim PK) (s : St PK) (t : Tag) : Prop :=
  age s t = .ok 300 ∧ verifyNavmsg p { s with prnA := some t.prnA } t = .ok true

instance (p : Prim PK) (s : St PK) (t : Tag) : Decidable (Due p s t) := by unfold Due; infer_instance

theorem young_aux (p : Prim PK) (b : St PK) : ∀ (l : List Tag) (vs : Dict (Nat × Int) Nat) (tl : List Tag) (w : Bool)
    (a : Option Nat) (st : Bool) (r : St PK × Bool × List Tag), (∀ t ∈ l, ∃ d, age b t = .ok d ∧ d ≤ 300) →
    slowLoop p l (upd b vs tl w a) st = .ok r → r.2.2 = l ∧
      r.1.vstatus = (l.filter fun t => Due p b t).foldl (fun d t => bump d (tagKey t)) vs := by
  intro l
  induction l with
  | nil =>
    intro vs tl w a st r _ h
    unfold slowLoop at h
    rw [Py.pure_ok] at h
    subst h
    exact ⟨rfl, rfl⟩
  | cons t rest ih =>
    intro vs tl w a st r hy h
    obtain ⟨d, hd, hle⟩ := hy t (by simp)
    have hy' : ∀ t ∈ rest, ∃ d, age b t = .ok d ∧ d ≤ 300 := fun x hx => hy x (List.mem_cons_of_mem _ hx)
    unfold slowLoop at h
    have hd' : difftime (upd b vs tl w a).gstSfP t.gstSf = .ok d := hd
    rw [hd', Py.okBind] at h
    split at h
    · rename_i h300
      obtain ⟨res, hres, h⟩ := Py.bind_ok.1 h
      have hres' : verifyNavmsg p { b with prnA := some t.prnA } t = .ok res := hres
      have h2 := saveAuthNav_upd b vs tl w (some t.prnA) res t
      change (do
          let (s, st, l) ← slowLoop p rest (saveAuthNav (upd b vs tl w (some t.prnA)) res t).1
            (saveAuthNav (upd b vs tl w (some t.prnA)) res t).2
          pure (s, st, t :: l)) = .ok r at h
      rw [h2] at h
      obtain ⟨⟨s3, st3, l3⟩, h3, h⟩ := Py.bind_ok.1 h
      rw [Py.pure_ok] at h
      subst h
      obtain ⟨g1, g2⟩ := ih _ _ _ _ _ _ hy' h3
      simp only at g1 g2 ⊢
      refine ⟨by rw [g1], ?_⟩
      rw [g2, List.filter_cons]
      have hdue : Due p b t ↔ res = true := by
        unfold Due
        rw [hd, h300, hres']
        simp
      cases res with
      | true => rw [if_pos (decide_eq_true (hdue.2 rfl))]; rfl
      | false =>
        have hnd : ¬ Due p b t := fun h => by have := hdue.1 h; cases this
        simp [hnd]
    · rename_i h300
      have hnd : ¬ Due p b t := by
        rintro ⟨e, _⟩
        rw [hd] at e
        cases e
        exact h300 rfl
      rw [if_neg (by omega)] at h
      obtain ⟨⟨s3, st3, l3⟩, h3, h⟩ := Py.bind_ok.1 h
      rw [Py.pure_ok] at h
      subst h
      obtain ⟨g1, g2⟩ := ih _ _ _ _ _ _ hy' h3
      simp only at g1 g2 ⊢
      refine ⟨by rw [g1], ?_⟩
      rw [g2, List.filter_cons, if_neg (by simpa using hnd)]

/-- **Delayed tags.** While no tag on the list is older than 300 s, each one that is exactly 300 s old and verifies with
the key just received is counted, in the order of the list, and the list stays as it is. -/
theorem delayed (p : Prim PK) (s : St PK) (st : Bool) (r : St PK × Bool × List Tag)
    (hy : ∀ t ∈ s.tagList, ∃ d, age s t = .ok d ∧ d ≤ 300) (h : slowLoop p s.tagList s st = .ok r) :
    r.2.2 = s.tagList ∧ r.1.vstatus = (s.tagList.filter fun t => Due p s t).foldl (fun d t => bump d (tagKey t)) s.vstatus :=
  young_aux p s s.tagList s.vstatus s.tagList s.utcVerified s.prnA st r hy h

/-- So a tag is counted again when another satellite completes the same sub-frame. -/
theorem delayed_again (p : Prim PK) (s : St PK) (st st' : Bool) (t : Tag) (r : St PK × Bool × List Tag)
    (r' : St PK × Bool × List Tag) (hs : s.tagList = [t]) (hd : Due p s t) (h : slowLoop p s.tagList s st = .ok r)
    (h' : slowLoop p r.2.2 r.1 st' = .ok r') (k : Nat × Int) (hk : k = tagKey t) :
    verified r'.1 k = verified s k + 2 := by
  have hy : ∀ x ∈ s.tagList, ∃ d, age s x = .ok d ∧ d ≤ 300 := by
    rw [hs]
    intro x hx
    rw [List.mem_singleton] at hx
    subst hx
    exact ⟨300, hd.1, le_refl _⟩
  obtain ⟨g1, g2⟩ := delayed p s st r hy h
  obtain ⟨vs', a', e, -⟩ : ∃ vs' a', r.1 = upd s vs' s.tagList s.utcVerified a' ∧ True := by
    rw [hs] at h
    unfold slowLoop at h
    have hd1 : difftime s.gstSfP t.gstSf = .ok 300 := hd.1
    rw [hd1, Py.okBind, if_pos rfl] at h
    obtain ⟨res, hres, h⟩ := Py.bind_ok.1 h
    have h2 := saveAuthNav_upd s s.vstatus s.tagList s.utcVerified (some t.prnA) res t
    change (do
          let (s, st, l) ← slowLoop p [] (saveAuthNav (upd s s.vstatus s.tagList s.utcVerified (some t.prnA)) res t).1
            (saveAuthNav (upd s s.vstatus s.tagList s.utcVerified (some t.prnA)) res t).2
          pure (s, st, t :: l)) = .ok r at h
    rw [h2] at h
    obtain ⟨⟨s3, st3, l3⟩, h3, h⟩ := Py.bind_ok.1 h
    unfold slowLoop at h3
    rw [Py.pure_ok] at h h3
    cases h3
    subst h
    exact ⟨_, _, rfl, trivial⟩
  rw [e] at h'
  rw [g1] at h'
  obtain ⟨-, g4⟩ := young_aux p s s.tagList vs' s.tagList s.utcVerified a' st' r' hy h'
  have e2 : vs' = r.1.vstatus := by rw [e]
  have hf : [t].filter (fun t => decide (Due p s t)) = [t] := by simp [hd]
  rw [hs, hf] at g2 g4
  unfold verified
  rw [g4, e2, g2, hk]
  simp only [List.foldl_cons, List.foldl_nil]
  rw [get_bump, get_bump, if_pos rfl]

/-- A tag that follows an expired one on the list is passed over: it stays, but is not verified even if it is due. -/
theorem delayed_skipped (p : Prim PK) (s : St PK) (st : Bool) (t y : Tag) (d : Int) (hd : age s t = .ok d) (h : 300 < d) :
    slowLoop p [t, y] s st = .ok (s, st, [y]) := by
  unfold slowLoop
  have hd' : difftime s.gstSfP t.gstSf = .ok d := hd
  rw [hd', Py.okBind, if_neg (by omega), if_pos h]
  rfl

/-- Tags up to 300 s old are never removed, and nothing is added. -/
theorem delayed_kept (p : Prim PK) (b : St PK) : ∀ (n : Nat) (l : List Tag) (s : St PK) (st : Bool)
    (r : St PK × Bool × List Tag), l.length ≤ n → s.gstSfP = b.gstSfP → slowLoop p l s st = .ok r →
    r.2.2.Sublist l ∧ ∀ young : Tag → Bool, (∀ t, young t = true → ∃ d, age b t = .ok d ∧ d ≤ 300) →
      r.2.2.filter young = l.filter young := by
  intro n
  induction n with
  | zero =>
    intro l s st r hl hs h
    rw [List.length_eq_zero_iff.1 (by omega : l.length = 0)] at h ⊢
    unfold slowLoop at h
    rw [Py.pure_ok] at h
    subst h
    exact ⟨List.Sublist.refl _, fun _ _ => rfl⟩
  | succ n ih =>
    intro l s st r hl hs h
    match l with
    | [] =>
      unfold slowLoop at h
      rw [Py.pure_ok] at h
      subst h
      exact ⟨List.Sublist.refl _, fun _ _ => rfl⟩
    | t :: rest =>
      unfold slowLoop at h
      obtain ⟨dt, hdt, h⟩ := Py.bind_ok.1 h
      have keep : ∀ (l3 : List Tag), (l3.Sublist rest ∧ ∀ young : Tag → Bool, (∀ t, young t = true → ∃ d, age b t = .ok d ∧ d ≤ 300) →
          l3.filter young = rest.filter young) → ((t :: l3).Sublist (t :: rest) ∧ ∀ young : Tag → Bool,
          (∀ t, young t = true → ∃ d, age b t = .ok d ∧ d ≤ 300) → (t :: l3).filter young = (t :: rest).filter young) := by
        rintro l3 ⟨h1, h2⟩
        refine ⟨h1.cons_cons t, fun young hy => ?_⟩
        rw [List.filter_cons, List.filter_cons, h2 young hy]
      split at h
      · obtain ⟨res, hres, h⟩ := Py.bind_ok.1 h
        have hs2 : (saveAuthNav { s with prnA := some t.prnA } res t).1.gstSfP = b.gstSfP := by
          rw [← hs]
          unfold saveAuthNav
          split <;> rfl
        change (do
          let (s, st, l) ← slowLoop p rest (saveAuthNav { s with prnA := some t.prnA } res t).1
            (saveAuthNav { s with prnA := some t.prnA } res t).2
          pure (s, st, t :: l)) = .ok r at h
        obtain ⟨⟨s3, st3, l3⟩, h3, h⟩ := Py.bind_ok.1 h
        rw [Py.pure_ok] at h
        subst h
        exact keep l3 (ih rest _ _ _ (by simpa using hl) hs2 h3)
      · split at h
        · rename_i hgt
          have hold : ∀ young : Tag → Bool, (∀ t, young t = true → ∃ d, age b t = .ok d ∧ d ≤ 300) → young t = false := by
            intro young hy
            by_contra hc
            obtain ⟨d, hd, hle⟩ := hy t (by simpa using hc)
            unfold age at hd
            rw [← hs, hdt] at hd
            cases hd
            omega
          match rest, hl, h with
          | [], _, h =>
            rw [Py.pure_ok] at h
            subst h
            refine ⟨List.nil_sublist _, fun young hy => ?_⟩
            rw [List.filter_cons, hold young hy]; rfl
          | y :: rest', hl, h =>
            obtain ⟨⟨s3, st3, l3⟩, h3, h⟩ := Py.bind_ok.1 h
            rw [Py.pure_ok] at h
            subst h
            obtain ⟨g1, g2⟩ := ih rest' _ _ _ (by simp at hl ⊢; omega) hs h3
            refine ⟨(g1.cons_cons y).cons t, fun young hy => ?_⟩
            have e := g2 young hy
            simp only at e
            rw [List.filter_cons, List.filter_cons, hold young hy, List.filter_cons, e]; rfl
        · obtain ⟨⟨s3, st3, l3⟩, h3, h⟩ := Py.bind_ok.1 h
          rw [Py.pure_ok] at h
          subst h
          exact keep l3 (ih rest _ _ _ (by simpa using hl) hs h3)

/-! ## Cases -/

theorem start_default : Start ({} : St Unit) := ⟨rfl, rfl, rfl, rfl, rfl, by decide⟩

/-- the history of C21: one sub-frame, tags on satellites 1 and (no data) 2, and on UTC -/
example : (run demoPrim { demoSt with vcntMin := 1 } demoHist).map
    (fun s => (s.vstatus, s.nsat, s.posAuth, s.utcVerified)) = .ok ([((37, 0), 1), ((1, 0), 1)], 1, false, true) := by
  decide +kernel
example : (run demoPrim { demoSt with vcntMin := 2 } demoHist).map
    (fun s => (s.vstatus, s.nsat, s.posAuth, s.utcVerified)) = .ok ([((37, 0), 1), ((1, 0), 1)], 0, false, false) := by
  decide +kernel

/-- a delayed tag, stored 300 s before the time of `slowSt` -/
def slowTag (tow : Nat) : Tag :=
  ⟨natToBits 12 1200 ++ natToBits 20 tow, 4, 5, 12, List.replicate 40 false, 4, some (zeros 69), 0⟩
def slowSt : St Unit :=
  { tagList := [slowTag 600], gstSfP := natToBits 12 1200 ++ natToBits 20 900, ts := 9, mf := 0, prnA := some 1 }

example : Due demoPrim slowSt (slowTag 600) := by decide +kernel
example : (slowLoop demoPrim slowSt.tagList slowSt false).map (fun r => (r.1.vstatus, r.2.2)) =
    .ok ([((4, 0), 1)], [slowTag 600]) := by decide +kernel
example : age slowSt (slowTag 570) = .ok 330 := by decide +kernel
/-- behind an expired tag -/
example : (slowLoop demoPrim [slowTag 570, slowTag 600] slowSt false).map (fun r => (r.1.vstatus, r.2.2)) =
    .ok ([], [slowTag 600]) := by decide +kernel

end Verif.C65
