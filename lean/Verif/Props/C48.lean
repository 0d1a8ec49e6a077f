import Verif.Model.Pppssr
import Verif.Lemmas.Post
import Mathlib.Data.List.Nodup
import Mathlib.Tactic.Linarith
/-!
# C48  Fixed ambiguities restore consistent single differences
-/

namespace Verif.C48
open Verif.Ppp Verif.Sat

/-! ### Specification -/

/-- the satellites of constellation `m` whose ambiguity on frequency `f` takes part, by number:
in view, initialised, valid and above the mask -/
def Q (v : Nav) (m : Sys) (f : Nat) : List Nat :=
  ((List.range 233).map (· + 1)).filter fun s =>
    decide ((sat2prn (s : Nat)).1 = m) && (s ∈ v.sat && v.x (v.na + 233 * f + (s - 1)) != 0 &&
      v.vsat s f != 0) && decide (v.elmask ≤ v.el s)

/-- the position of an ambiguity -/
def pos (v : Nav) (s f : Nat) : Nat := v.na + 233 * f + (s - 1)

/-- the differences of one constellation and frequency: the first satellite against the others -/
def pairs (v : Nav) (mf : Sys × Nat) : List (Nat × Nat) :=
  match Q v mf.1 mf.2 with
  | [] => []
  | r :: js => js.map fun j => (pos v r mf.2, pos v j mf.2)

/-- all differences: constellation by constellation, frequency by frequency -/
def allPairs (v : Nav) : List (Nat × Nat) :=
  [Sys.gps, .gal, .qzs, .bds, .glo, .sbs, .irn].flatMap fun m =>
    (List.range v.nf).flatMap fun f => pairs v (m, f)

/-! ### The selection -/

def good (v : Nav) (m : Sys) (f s : Nat) : Bool :=
  decide ((sat2prn (s : Nat)).1 = m) && usable v s f && decide (v.elmask ≤ v.el s)

theorem Q_eq (v : Nav) (m : Sys) (f : Nat) : Q v m f = sats.filter (good v m f) := rfl

theorem pos_eq (v : Nav) (s f : Nat) : pos v s f = amb v s f := rfl

theorem sats_nodup : sats.Nodup := by
  unfold sats
  exact (List.nodup_range).map (fun a b h => by simpa using h)

theorem mem_sats (s : Nat) : s ∈ sats ↔ 1 ≤ s ∧ s ≤ 233 := by
  unfold sats nsat
  simp only [List.mem_map, List.mem_range]
  constructor
  · rintro ⟨a, h, rfl⟩; omega
  · intro h; exact ⟨s - 1, by omega, by omega⟩

theorem Q_nodup (v : Nav) (m : Sys) (f : Nat) : (Q v m f).Nodup := sats_nodup.filter _

theorem mem_Q (v : Nav) (m : Sys) (f s : Nat) :
    s ∈ Q v m f ↔ (1 ≤ s ∧ s ≤ 233) ∧ good v m f s = true := by
  rw [Q_eq, List.mem_filter, mem_sats]

theorem good_sys {v : Nav} {m : Sys} {f s : Nat} (h : good v m f s = true) :
    (sat2prn (s : Nat)).1 = m := by
  simp only [good, Bool.and_eq_true, decide_eq_true_eq] at h
  exact h.1.1

theorem set_two (t : Fix) (s f c s' f' : Nat) :
    (t.set s f c) s' f' = 2 ↔ (s' = s ∧ f' = f ∧ c = 2) ∨ (¬ (s' = s ∧ f' = f) ∧ t s' f' = 2) := by
  unfold Fix.set
  by_cases h : s' = s ∧ f' = f
  · rw [if_pos h]; simp [h]
  · rw [if_neg h]; constructor
    · intro e; exact .inr ⟨h, e⟩
    · rintro (⟨a, b, _⟩ | ⟨_, e⟩)
      · exact absurd ⟨a, b⟩ h
      · exact e

theorem refLoop_spec (v : Nav) (m : Sys) (f : Nat) (l : List Nat) (i : Nat) (t : Fix)
    (ht : ∀ s ∈ l, (sat2prn (s : Nat)).1 = m → t s f ≠ 2) (hl : l.Nodup) :
    (∀ r, (l.filter (good v m f)).head? = some r → (refLoop v m f l i t).1 = amb v r f) ∧
    ∀ s' f', (refLoop v m f l i t).2 s' f' = 2 ↔
      t s' f' = 2 ∨ (f' = f ∧ (l.filter (good v m f)).head? = some s') := by
  induction l generalizing i t with
  | nil => simp [refLoop]
  | cons s ss ih =>
    have hss := (List.nodup_cons.1 hl)
    simp only [refLoop]
    by_cases h1 : (sat2prn (s : Nat)).1 ≠ m
    · rw [if_pos h1]
      have hg : good v m f s = false := by simp [good, h1]
      rw [List.filter_cons_of_neg (by simp [hg])]
      exact ih _ _ (fun x hx => ht x (by simp [hx])) hss.2
    · rw [if_neg h1]
      by_cases h2 : ¬ usable v s f = true
      · rw [if_pos h2]
        have hg : good v m f s = false := by simp [good, h2]
        rw [List.filter_cons_of_neg (by simp [hg])]
        exact ih _ _ (fun x hx => ht x (by simp [hx])) hss.2
      · rw [if_neg h2]
        push Not at h1 h2
        by_cases h3 : v.el s ≥ v.elmask
        · rw [if_pos h3]
          have hg : good v m f s = true := by simp [good, h1, h2, h3]
          rw [List.filter_cons_of_pos hg]
          simp only [List.head?_cons, Option.some.injEq]
          refine ⟨fun r hr => by rw [hr], fun s' f' => ?_⟩
          rw [set_two]
          constructor
          · rintro (⟨a, b, _⟩ | ⟨_, e⟩)
            · exact .inr ⟨b, a.symm⟩
            · exact .inl e
          · rintro (e | ⟨a, b⟩)
            · by_cases h : s' = s ∧ f' = f
              · exact .inl ⟨h.1, h.2, rfl⟩
              · exact .inr ⟨h, e⟩
            · exact .inl ⟨b.symm, a, rfl⟩
        · rw [if_neg h3]
          have hg : good v m f s = false := by
            have h3' : ¬ v.elmask ≤ v.el s := h3
            simp [good, h3']
          rw [List.filter_cons_of_neg (by simp [hg])]
          have hts : t s f ≠ 2 := ht s (by simp) h1
          obtain ⟨i1, i2⟩ := ih (amb v s f) (t.set s f 1) (by
            intro x hx hm
            rw [Ne, set_two]
            rintro (⟨_, _, c⟩ | ⟨_, e⟩)
            · omega
            · exact ht x (by simp [hx]) hm e) hss.2
          refine ⟨i1, fun s' f' => ?_⟩
          rw [i2, set_two]
          constructor
          · rintro ((⟨_, _, c⟩ | ⟨_, e⟩) | e)
            · omega
            · exact .inl e
            · exact .inr e
          · rintro (e | e)
            · refine .inl (.inr ⟨?_, e⟩)
              rintro ⟨rfl, rfl⟩
              exact hts e
            · exact .inr e

theorem pairLoop_spec (v : Nav) (m : Sys) (f i : Nat) (l : List Nat) (ix : List (Nat × Nat))
    (t : Fix) :
    let js := (l.filter (good v m f)).filter (fun s => decide (i ≠ amb v s f))
    let new := js.map fun s => (i, amb v s f)
    if ix.length + new.length ≤ 233 ∨ new = [] then
      ∃ t', pairLoop v m f i l ix t = .ok (ix ++ new, t') ∧
        ∀ s' f', t' s' f' = 2 ↔ t s' f' = 2 ∨ (f' = f ∧ s' ∈ js)
    else pairLoop v m f i l ix t = .error .indexError := by
  induction l generalizing ix t with
  | nil =>
    simp only [List.filter_nil, List.map_nil, or_true, if_true]
    exact ⟨t, by simp [pairLoop], by simp⟩
  | cons s ss ih =>
    have skip : (good v m f s && decide (i ≠ amb v s f)) = false →
        pairLoop v m f i (s :: ss) ix t = pairLoop v m f i ss ix t →
        let js := ((s :: ss).filter (good v m f)).filter (fun s => decide (i ≠ amb v s f))
        let new := js.map fun s => (i, amb v s f)
        if ix.length + new.length ≤ 233 ∨ new = [] then
          ∃ t', pairLoop v m f i (s :: ss) ix t = .ok (ix ++ new, t') ∧
            ∀ s' f', t' s' f' = 2 ↔ t s' f' = 2 ∨ (f' = f ∧ s' ∈ js)
        else pairLoop v m f i (s :: ss) ix t = .error .indexError := by
      intro hg he
      have : ((s :: ss).filter (good v m f)).filter (fun s => decide (i ≠ amb v s f)) =
          (ss.filter (good v m f)).filter (fun s => decide (i ≠ amb v s f)) := by
        rw [List.filter_filter, List.filter_filter, List.filter_cons_of_neg]
        rw [Bool.and_comm, hg]; decide
      simp only [this, he]
      exact ih ix t
    by_cases h1 : (sat2prn (s : Nat)).1 ≠ m
    · apply skip
      · simp [good, h1]
      · simp only [pairLoop]; rw [if_pos h1]
    · by_cases h2 : i = amb v s f ∨ ¬ usable v s f = true
      · apply skip
        · rcases h2 with h2 | h2
          · simp [h2]
          · simp [good, h2]
        · simp only [pairLoop]; rw [if_neg h1, if_pos h2]
      · by_cases h3 : v.el s ≥ v.elmask
        · push Not at h1 h2
          have hg : good v m f s = true := by simp [good, h1, h2.2, h3]
          have hlist : ((s :: ss).filter (good v m f)).filter (fun s => decide (i ≠ amb v s f)) =
              s :: (ss.filter (good v m f)).filter (fun s => decide (i ≠ amb v s f)) := by
            rw [List.filter_cons_of_pos hg, List.filter_cons_of_pos (by simp [h2.1])]
          simp only [hlist, List.map_cons, List.length_cons, reduceCtorEq, or_false]
          have hstep : pairLoop v m f i (s :: ss) ix t =
              if ix.length < nsat then pairLoop v m f i ss (ix ++ [(i, amb v s f)]) (t.set s f 2)
              else .error .indexError := by
            simp only [pairLoop]
            rw [if_neg (by simpa using h1), if_neg (by simpa using h2), if_pos h3]
          rw [hstep]
          have hn : nsat = 233 := rfl
          have := ih (ix ++ [(i, amb v s f)]) (t.set s f 2)
          simp only [List.length_append, List.length_singleton, List.length_map,
            List.map_eq_nil_iff] at this ⊢
          by_cases hc : ix.length + (((ss.filter (good v m f)).filter
              (fun s => decide (i ≠ amb v s f))).length + 1) ≤ 233
          · rw [if_pos hc, if_pos (by omega)]
            rw [if_pos (.inl (by omega))] at this
            obtain ⟨t', e, ht⟩ := this
            refine ⟨t', by rw [e]; simp, fun s' f' => ?_⟩
            rw [ht, set_two]
            simp only [List.mem_cons]
            constructor
            · rintro ((⟨a, b, _⟩ | ⟨_, e⟩) | ⟨a, b⟩)
              · exact .inr ⟨b, .inl a⟩
              · exact .inl e
              · exact .inr ⟨a, .inr b⟩
            · rintro (e | ⟨a, b | b⟩)
              · by_cases h : s' = s ∧ f' = f
                · exact .inl (.inl ⟨h.1, h.2, trivial⟩)
                · exact .inl (.inr ⟨h, e⟩)
              · exact .inl (.inl ⟨b, a, trivial⟩)
              · exact .inr ⟨a, b⟩
          · rw [if_neg hc]
            by_cases hi : ix.length < nsat
            · rw [if_pos hi]
              rw [if_neg] at this
              · exact this
              · rintro (h | h)
                · omega
                · rw [h] at hc; simp at hc; omega
            · rw [if_neg hi]
        · apply skip
          · have h3' : ¬ v.elmask ≤ v.el s := h3
            simp [good, h3']
          · simp only [pairLoop]; rw [if_neg h1, if_neg h2, if_neg h3]

theorem amb_inj (v : Nav) (s s' f f' : Nat) (h1 : 1 ≤ s ∧ s ≤ 233) (h2 : 1 ≤ s' ∧ s' ≤ 233)
    (h : amb v s f = amb v s' f') : s = s' ∧ f = f' := by
  unfold amb nsat at h
  omega

theorem ddGroup_spec (v : Nav) (mf : Sys × Nat) (ix : List (Nat × Nat)) (t : Fix)
    (ht : ∀ s : Nat, (sat2prn (s : Nat)).1 = mf.1 → t s mf.2 ≠ 2) :
    if ix.length + (pairs v mf).length ≤ 233 ∨ pairs v mf = [] then
      ∃ t', ddGroup v (ix, t) mf = .ok (ix ++ pairs v mf, t') ∧
        ∀ s' f', t' s' f' = 2 ↔ t s' f' = 2 ∨ (f' = mf.2 ∧ s' ∈ Q v mf.1 mf.2)
    else ddGroup v (ix, t) mf = .error .indexError := by
  obtain ⟨m, f⟩ := mf
  obtain ⟨r1, r2⟩ := refLoop_spec v m f sats (amb v 1 f) t (fun s _ => ht s) sats_nodup
  have hp := pairLoop_spec v m f (refLoop v m f sats (amb v 1 f) t).1 sats ix
    (refLoop v m f sats (amb v 1 f) t).2
  have hdd : ddGroup v (ix, t) (m, f) = pairLoop v m f (refLoop v m f sats (amb v 1 f) t).1 sats ix
    (refLoop v m f sats (amb v 1 f) t).2 := rfl
  rw [hdd]
  rw [← Q_eq] at r1 r2 hp
  cases hQ : Q v m f with
  | nil =>
    have hpairs : pairs v (m, f) = [] := by simp only [pairs, hQ]
    rw [hQ] at r2 hp
    simp only [List.filter_nil, List.map_nil, or_true, if_true, List.not_mem_nil, and_false,
      or_false, List.append_nil] at hp
    rw [hpairs]
    simp only [or_true, if_true, List.append_nil, List.not_mem_nil, and_false, or_false]
    obtain ⟨t', e, h'⟩ := hp
    refine ⟨t', e, fun s' f' => ?_⟩
    rw [h', r2]
    simp
  | cons r js =>
    have hnd := Q_nodup v m f
    have hmem : ∀ s ∈ Q v m f, 1 ≤ s ∧ s ≤ 233 := fun s hs => ((mem_Q v m f s).1 hs).1
    rw [hQ] at r1 r2 hp hnd hmem
    have hi : (refLoop v m f sats (amb v 1 f) t).1 = amb v r f := r1 r rfl
    generalize refLoop v m f sats (amb v 1 f) t = R at *
    obtain ⟨i, t1⟩ := R
    simp only at hi r2 hp ⊢
    subst hi
    have hjs : (r :: js).filter (fun s => decide (amb v r f ≠ amb v s f)) = js := by
      rw [List.filter_cons_of_neg (by simp)]
      apply List.filter_eq_self.2
      intro s hs
      rw [decide_eq_true_iff]
      intro e
      have := (amb_inj v r s f f (hmem r (by simp)) (hmem s (by simp [hs])) e).1
      subst this
      exact (List.nodup_cons.1 hnd).1 hs
    rw [hjs] at hp
    have hpairs : pairs v (m, f) = js.map fun s => (amb v r f, amb v s f) := by
      simp only [pairs, hQ]; rfl
    rw [hpairs]
    by_cases hc : ix.length + (js.map fun s => (amb v r f, amb v s f)).length ≤ 233 ∨
        (js.map fun s => (amb v r f, amb v s f)) = []
    · rw [if_pos hc] at hp ⊢
      obtain ⟨t', e, h'⟩ := hp
      refine ⟨t', e, fun s' f' => ?_⟩
      rw [h', r2]
      simp only [List.head?_cons, Option.some.injEq, List.mem_cons]
      constructor
      · rintro ((a | ⟨a, b⟩) | ⟨a, b⟩)
        · exact .inl a
        · exact .inr ⟨a, .inl b.symm⟩
        · exact .inr ⟨a, .inr b⟩
      · rintro (a | ⟨a, b | b⟩)
        · exact .inl (.inl a)
        · exact .inl (.inr ⟨a, b.symm⟩)
        · exact .inr ⟨a, b⟩
    · rw [if_neg hc] at hp ⊢
      exact hp

theorem order_nodup (nf : Nat) : (groupsOrder nf).Nodup := by
  unfold groupsOrder
  rw [List.nodup_flatMap]
  constructor
  · intro m _
    exact List.nodup_range.map (fun a b h => by simpa using h)
  · have : systems.Pairwise (· ≠ ·) := by decide
    refine this.imp ?_
    intro a b hab x hx hy
    simp only [List.mem_map] at hx hy
    obtain ⟨f, _, e⟩ := hx
    obtain ⟨f', _, e'⟩ := hy
    apply hab
    rw [← e] at e'
    exact (congrArg Prod.fst e').symm

theorem dd_fold (v : Nav) (gs done : List (Sys × Nat)) (hnd : (done ++ gs).Nodup)
    (ix : List (Nat × Nat)) (t : Fix) (hix : ix.length ≤ 233)
    (ht : ∀ s f, t s f = 2 ↔ ∃ m, (m, f) ∈ done ∧ s ∈ Q v m f) :
    if ix.length + (gs.flatMap (pairs v)).length ≤ 233 then
      ∃ t', gs.foldlM (ddGroup v) (ix, t) = .ok (ix ++ gs.flatMap (pairs v), t') ∧
        ∀ s f, t' s f = 2 ↔ ∃ m, (m, f) ∈ done ++ gs ∧ s ∈ Q v m f
    else gs.foldlM (ddGroup v) (ix, t) = .error .indexError := by
  induction gs generalizing done ix t with
  | nil =>
    simp only [List.flatMap_nil, List.length_nil, Nat.add_zero, hix, if_true, List.append_nil]
    exact ⟨t, rfl, ht⟩
  | cons mf gs ih =>
    have hnot : mf ∉ done := by
      have := hnd
      rw [List.nodup_append] at this
      intro hd
      exact this.2.2 mf hd mf (by simp) rfl
    have hg := ddGroup_spec v mf ix t (by
      intro s hs h2
      obtain ⟨m, hm, hq⟩ := (ht s mf.2).1 h2
      have : m = mf.1 := by
        rw [← hs]
        exact (good_sys ((mem_Q _ _ _ _).1 hq).2).symm
      subst this
      exact hnot hm)
    rw [List.foldlM_cons, List.flatMap_cons, List.length_append]
    by_cases hc : ix.length + (pairs v mf).length ≤ 233 ∨ pairs v mf = []
    · rw [if_pos hc] at hg
      obtain ⟨t1, e, h1⟩ := hg
      rw [e, Py.okBind]
      have hlen : (ix ++ pairs v mf).length ≤ 233 := by
        rw [List.length_append]
        rcases hc with hc | hc
        · exact hc
        · rw [hc]; simpa using hix
      have := ih (done ++ [mf]) (by simpa using hnd) (ix ++ pairs v mf) t1 hlen (by
        intro s f
        rw [h1, ht]
        constructor
        · rintro (⟨m, a, b⟩ | ⟨a, b⟩)
          · exact ⟨m, by simp [a], b⟩
          · subst a; exact ⟨mf.1, by simp, b⟩
        · rintro ⟨m, a, b⟩
          rw [List.mem_append, List.mem_singleton] at a
          rcases a with a | a
          · exact .inl ⟨m, a, b⟩
          · rw [← a]; exact .inr ⟨rfl, b⟩)
      rw [List.length_append] at this
      by_cases hd : ix.length + ((pairs v mf).length + (gs.flatMap (pairs v)).length) ≤ 233
      · rw [if_pos hd]
        rw [if_pos (by omega)] at this
        obtain ⟨t', e', h'⟩ := this
        refine ⟨t', by rw [e', List.append_assoc], fun s f => ?_⟩
        rw [h']
        simp
      · rw [if_neg hd]
        rw [if_neg (by omega)] at this
        exact this
    · rw [if_neg hc] at hg
      rw [hg, Py.errBind, if_neg (by push Not at hc; omega)]

theorem allPairs_eq (v : Nav) : allPairs v = (groupsOrder v.nf).flatMap (pairs v) := by
  unfold allPairs groupsOrder systems
  rw [List.flatMap_assoc]
  simp only [List.flatMap_map]

/-- **Selection**: `ddidx` returns exactly the differences of the specification and marks
(value 2) exactly the ambiguities taking part — unless there are more than 233 differences, when
it raises `IndexError`. -/
theorem selection (v : Nav) :
    if (allPairs v).length ≤ 233 then
      ∃ t, ddidx v = .ok (allPairs v, t) ∧
        ∀ s f, t s f = 2 ↔ f < v.nf ∧ ∃ m, s ∈ Q v m f
    else ddidx v = .error .indexError := by
  have h := dd_fold v (groupsOrder v.nf) [] (by simpa using order_nodup v.nf) [] (fun _ _ => 0)
    (by simp) (by simp)
  rw [← allPairs_eq] at h
  simp only [List.length_nil, Nat.zero_add, List.nil_append] at h
  by_cases hc : (allPairs v).length ≤ 233
  · rw [if_pos hc] at h ⊢
    obtain ⟨t, e, ht⟩ := h
    refine ⟨t, e, fun s f => ?_⟩
    rw [ht]
    constructor
    · rintro ⟨m, hm, hs⟩
      simp only [groupsOrder, List.mem_flatMap, List.mem_map, List.mem_range] at hm
      obtain ⟨m', _, f', hf, e⟩ := hm
      cases e
      exact ⟨hf, m, hs⟩
    · rintro ⟨hf, m, hs⟩
      refine ⟨m, ?_, hs⟩
      simp only [groupsOrder, List.mem_flatMap, List.mem_map, List.mem_range]
      refine ⟨m, ?_, f, hf, rfl⟩
      have h1 := ((mem_Q v m f s).1 hs)
      have h2 := good_sys h1.2
      cases m with
      | none =>
        exfalso
        unfold sat2prn at h2
        have hle : ¬ (s : Int) > maxSat := by
          have := h1.1.2
          have hm : maxSat = 233 := rfl
          omega
        rw [if_neg hle] at h2
        repeat' split at h2
        all_goals simp at h2
      | _ => simp [systems]
  · rw [if_neg hc] at h ⊢
    exact h

/-! ### The restoration -/

theorem fixedIdx_eq (v : Nav) (t : Fix)
    (ht : ∀ s f, t s f = 2 ↔ f < v.nf ∧ ∃ m, s ∈ Q v m f) (mf : Sys × Nat)
    (hf : mf.2 < v.nf) :
    fixedIdx v t mf = (Q v mf.1 mf.2).map fun s => pos v s mf.2 := by
  obtain ⟨m, f⟩ := mf
  unfold fixedIdx
  rw [Q_eq]
  congr 1
  apply List.filter_congr
  intro s hs
  rw [Bool.eq_iff_iff, decide_eq_true_iff, ht]
  constructor
  · rintro ⟨h1, _, m', h2⟩
    have := good_sys ((mem_Q _ _ _ _).1 h2).2
    have e : m' = m := by rw [← this]; exact h1
    subst e
    exact ((mem_Q _ _ _ _).1 h2).2
  · intro h
    exact ⟨good_sys h, hf, m, (mem_Q _ _ _ _).2 ⟨(mem_sats s).1 hs, h⟩⟩

theorem restInner_spec (bias : List ℚ) (r : Nat) (js : List Nat) (hnd : js.Nodup) (hr : r ∉ js)
    (a : (Nat → ℚ) × Nat) (hb : a.2 + js.length ≤ bias.length) :
    ∃ x', restInner bias r js a = .ok (x', a.2 + js.length) ∧
      (∀ i, i ∉ js → x' i = a.1 i) ∧
      ∀ k (h : k < js.length), x' js[k] = a.1 r - bias[a.2 + k]'(by omega) := by
  induction js generalizing a with
  | nil => exact ⟨a.1, rfl, fun _ _ => rfl, fun k h => absurd h (by simp)⟩
  | cons j js ih =>
    simp only [List.length_cons] at hb
    have hlt : a.2 < bias.length := by omega
    have hget : pyGet bias a.2 = .ok bias[a.2] := by
      unfold pyGet; rw [List.getElem?_eq_getElem hlt]
    have hj := List.nodup_cons.1 hnd
    have hrj : r ≠ j := fun e => hr (by simp [e])
    obtain ⟨x', e, h1, h2⟩ := ih hj.2 (fun h => hr (by simp [h]))
      (upd a.1 j (a.1 r - bias[a.2]), a.2 + 1) (by simp only; omega)
    refine ⟨x', ?_, ?_, ?_⟩
    · rw [restInner, hget, Py.okBind, e]
      simp only [List.length_cons]
      rw [show a.2 + 1 + js.length = a.2 + (js.length + 1) by omega]
    · intro i hi
      simp only [List.mem_cons, not_or] at hi
      rw [h1 i hi.2]
      simp only [upd, if_neg hi.1]
    · intro k hk
      cases k with
      | zero =>
        simp only [List.getElem_cons_zero, Nat.add_zero]
        rw [h1 j hj.1]
        simp [upd]
      | succ k =>
        simp only [List.getElem_cons_succ]
        rw [h2 k (by simpa using hk)]
        simp only [upd, if_neg hrj]
        congr 2
        omega

theorem restGroup_spec (v : Nav) (t : Fix) (bias : List ℚ)
    (ht : ∀ s f, t s f = 2 ↔ f < v.nf ∧ ∃ m, s ∈ Q v m f) (mf : Sys × Nat) (hf : mf.2 < v.nf)
    (a : (Nat → ℚ) × Nat) (hb : a.2 + (pairs v mf).length ≤ bias.length)
    (ha : ∀ s ∈ Q v mf.1 mf.2, a.1 (pos v s mf.2) = v.x (pos v s mf.2)) :
    ∃ x', restGroup v t bias a mf = .ok (x', a.2 + (pairs v mf).length) ∧
      (∀ i, (∀ p ∈ pairs v mf, p.2 ≠ i) → x' i = a.1 i) ∧
      ∀ k (h : k < (pairs v mf).length),
        x' (pairs v mf)[k].1 = v.x (pairs v mf)[k].1 ∧
        x' (pairs v mf)[k].2 = v.x (pairs v mf)[k].1 - bias[a.2 + k]'(by omega) := by
  obtain ⟨m, f⟩ := mf
  have hfix := fixedIdx_eq v t ht (m, f) hf
  unfold restGroup
  rw [hfix]
  have hnd := Q_nodup v m f
  have hmem : ∀ s ∈ Q v m f, 1 ≤ s ∧ s ≤ 233 := fun s hs => ((mem_Q v m f s).1 hs).1
  simp only at ha
  cases hQ : Q v m f with
  | nil =>
    have hp : pairs v (m, f) = [] := by simp only [pairs, hQ]
    refine ⟨a.1, by rw [hp]; rfl, fun _ _ => rfl, fun k h => ?_⟩
    rw [hp] at h
    exact absurd h (by simp)
  | cons r js =>
    rw [hQ] at hnd hmem ha
    have hp : pairs v (m, f) = js.map fun j => (pos v r f, pos v j f) := by
      simp only [pairs, hQ]
    cases js with
    | nil =>
      refine ⟨a.1, by rw [hp]; rfl, fun _ _ => rfl, fun k h => ?_⟩
      rw [hp] at h
      exact absurd h (by simp)
    | cons j js =>
      have hnd' := List.nodup_cons.1 hnd
      have hnd2 : ((j :: js).map fun s => pos v s f).Nodup := by
        apply List.Nodup.map_on _ hnd'.2
        intro x hx y hy e
        exact (amb_inj v x y f f (hmem x (by simp [hx])) (hmem y (by simp [hy])) e).1
      have hr : pos v r f ∉ (j :: js).map fun s => pos v s f := by
        intro h
        obtain ⟨y, hy, e⟩ := List.mem_map.1 h
        have := (amb_inj v y r f f (hmem y (by simp [hy])) (hmem r (by simp)) e).1
        subst this
        exact hnd'.1 hy
      have hlen : (pairs v (m, f)).length = ((j :: js).map fun s => pos v s f).length := by
        rw [hp]; simp
      obtain ⟨x', e, h1, h2⟩ := restInner_spec bias (pos v r f) _ hnd2 hr
        (upd a.1 (pos v r f) (v.x (pos v r f)), a.2) (by rw [← hlen]; exact hb)
      refine ⟨x', ?_, ?_, ?_⟩
      · rw [hlen]
        exact e
      · intro i hi
        have hni : i ∉ (j :: js).map fun s => pos v s f := by
          intro h
          obtain ⟨y, hy, e⟩ := List.mem_map.1 h
          refine hi (pos v r f, pos v y f) ?_ e
          rw [hp]
          exact List.mem_map.2 ⟨y, hy, rfl⟩
        rw [h1 i hni]
        simp only [upd]
        split
        · next h => subst h; exact (ha r (by simp)).symm
        · rfl
      · intro k hk
        have hk' : k < ((j :: js).map fun s => pos v s f).length := by rw [← hlen]; exact hk
        have e1 : (pairs v (m, f))[k] = (pos v r f, ((j :: js).map fun s => pos v s f)[k]) := by
          simp only [hp, List.getElem_map]
        rw [e1]
        simp only
        rw [h2 k hk', h1 _ hr]
        simp [upd]

/-- the pairs of a group concern only that group's ambiguities -/
theorem pairs_mem {v : Nav} {mf : Sys × Nat} {p : Nat × Nat} (h : p ∈ pairs v mf) :
    (∃ s ∈ Q v mf.1 mf.2, p.1 = pos v s mf.2) ∧ (∃ s ∈ Q v mf.1 mf.2, p.2 = pos v s mf.2) := by
  unfold pairs at h
  cases hQ : Q v mf.1 mf.2 with
  | nil => rw [hQ] at h; cases h
  | cons r js =>
    rw [hQ] at h
    obtain ⟨j, hj, e⟩ := List.mem_map.1 h
    subst e
    exact ⟨⟨r, by simp, rfl⟩, ⟨j, by simp [hj], rfl⟩⟩

theorem group_disjoint (v : Nav) (a b : Sys × Nat) (hab : a ≠ b) (s s' : Nat)
    (hs : s ∈ Q v a.1 a.2) (hs' : s' ∈ Q v b.1 b.2) : pos v s a.2 ≠ pos v s' b.2 := by
  intro e
  have h1 := (mem_Q _ _ _ _).1 hs
  have h2 := (mem_Q _ _ _ _).1 hs'
  obtain ⟨e1, e2⟩ := amb_inj v s s' a.2 b.2 h1.1 h2.1 e
  subst e1
  apply hab
  have g1 := good_sys h1.2
  have g2 := good_sys h2.2
  exact Prod.ext (by rw [← g1, ← g2]) e2

theorem rest_fold (v : Nav) (t : Fix) (bias : List ℚ)
    (ht : ∀ s f, t s f = 2 ↔ f < v.nf ∧ ∃ m, s ∈ Q v m f) (gs : List (Sys × Nat))
    (hnd : gs.Nodup) (hgf : ∀ g ∈ gs, g.2 < v.nf) (a : (Nat → ℚ) × Nat)
    (hb : a.2 + (gs.flatMap (pairs v)).length ≤ bias.length)
    (ha : ∀ g ∈ gs, ∀ s ∈ Q v g.1 g.2, a.1 (pos v s g.2) = v.x (pos v s g.2)) :
    ∃ x', gs.foldlM (restGroup v t bias) a = .ok (x', a.2 + (gs.flatMap (pairs v)).length) ∧
      (∀ i, (∀ p ∈ gs.flatMap (pairs v), p.2 ≠ i) → x' i = a.1 i) ∧
      ∀ k (h : k < (gs.flatMap (pairs v)).length),
        x' (gs.flatMap (pairs v))[k].1 = v.x (gs.flatMap (pairs v))[k].1 ∧
        x' (gs.flatMap (pairs v))[k].2 =
          v.x (gs.flatMap (pairs v))[k].1 - bias[a.2 + k]'(by omega) := by
  induction gs generalizing a with
  | nil => exact ⟨a.1, rfl, fun _ _ => rfl, fun k h => absurd h (by simp)⟩
  | cons g gs ih =>
    have hnd' := List.nodup_cons.1 hnd
    rw [List.flatMap_cons, List.length_append] at hb
    obtain ⟨x1, e1, p1, q1⟩ := restGroup_spec v t bias ht g (hgf g (by simp)) a (by omega)
      (ha g (by simp))
    obtain ⟨x2, e2, p2, q2⟩ := ih hnd'.2 (fun g hg => hgf g (by simp [hg]))
      (x1, a.2 + (pairs v g).length) (by simp only; omega) (by
        intro g' hg' s hs
        simp only
        rw [p1 _ ?_, ha g' (by simp [hg']) s hs]
        intro p hp e
        obtain ⟨_, s2, hs2, e2⟩ := pairs_mem hp
        rw [e2] at e
        refine group_disjoint v g g' ?_ s2 s hs2 hs e
        intro c
        subst c
        exact hnd'.1 hg')
    have hfm : List.flatMap (pairs v) (g :: gs) = pairs v g ++ gs.flatMap (pairs v) :=
      List.flatMap_cons
    refine ⟨x2, ?_, ?_, ?_⟩
    · rw [List.foldlM_cons, e1, Py.okBind, e2]
      simp only [hfm, List.length_append]
      rw [Nat.add_assoc]
    · intro i hi
      simp only [hfm, List.mem_append] at hi
      rw [p2 i (fun p hp => hi p (.inr hp))]
      simp only
      rw [p1 i (fun p hp => hi p (.inl hp))]
    · intro k hk
      have other : ∀ s ∈ Q v g.1 g.2, ∀ p ∈ gs.flatMap (pairs v), p.2 ≠ pos v s g.2 := by
        intro s hs p hp e
        obtain ⟨g', hg', hp'⟩ := List.mem_flatMap.1 hp
        obtain ⟨_, s2, hs2, e2⟩ := pairs_mem hp'
        rw [e2] at e
        refine group_disjoint v g' g ?_ s2 s hs2 hs e
        intro c
        subst c
        exact hnd'.1 hg'
      by_cases hk1 : k < (pairs v g).length
      · have eg : (List.flatMap (pairs v) (g :: gs))[k] = (pairs v g)[k] := by
          simp only [hfm]
          exact List.getElem_append_left hk1
        have hpm := pairs_mem (List.getElem_mem hk1)
        obtain ⟨⟨s1, hs1, f1⟩, s2, hs2, f2⟩ := hpm
        rw [eg]
        have hq := q1 k hk1
        rw [p2 _ (by rw [f1]; exact other s1 hs1), p2 _ (by rw [f2]; exact other s2 hs2)]
        exact hq
      · have hk2 : k - (pairs v g).length < (gs.flatMap (pairs v)).length := by
          simp only [hfm, List.length_append] at hk; omega
        have eg : (List.flatMap (pairs v) (g :: gs))[k] =
            (gs.flatMap (pairs v))[k - (pairs v g).length] := by
          simp only [hfm]
          exact List.getElem_append_right (by omega)
        rw [eg]
        have hq := q2 _ hk2
        refine ⟨hq.1, ?_⟩
        rw [hq.2]
        congr 2
        simp only
        omega

/-- **Restoration**: with the differences of `ddidx` and one fixed value per difference,
`restamb` succeeds, and in its result

* the difference of the two ambiguities of pair `k` is the fixed value `k`,
* the reference ambiguity of every pair keeps its float value,
* every state that is not the second member of a pair keeps its value
  (`nav.xa` below `na`, the float state above). -/
theorem restored (v : Nav) (xa : Nat → ℚ) (ix : List (Nat × Nat)) (t : Fix) (bias : List ℚ)
    (hd : ddidx v = .ok (ix, t)) (hb : bias.length = ix.length) :
    ∃ x', restamb v xa t bias = .ok x' ∧
      (∀ k (h : k < ix.length), x' ix[k].1 - x' ix[k].2 = bias[k] ∧ x' ix[k].1 = v.x ix[k].1) ∧
      (∀ i, v.na ≤ i → (∀ p ∈ ix, p.2 ≠ i) → x' i = v.x i) ∧
      (∀ i, i < v.na → x' i = xa i) := by
  have hs := selection v
  by_cases hc : (allPairs v).length ≤ 233
  · rw [if_pos hc] at hs
    obtain ⟨t', e, ht⟩ := hs
    rw [hd] at e
    simp only [Except.ok.injEq, Prod.mk.injEq] at e
    obtain ⟨e1, e2⟩ := e
    subst e2
    have hix : ix = (groupsOrder v.nf).flatMap (pairs v) := by rw [e1, allPairs_eq]
    obtain ⟨x', e, p, q⟩ := rest_fold v t bias ht (groupsOrder v.nf) (order_nodup v.nf)
      (by
        intro g hg
        simp only [groupsOrder, List.mem_flatMap, List.mem_map, List.mem_range] at hg
        obtain ⟨_, _, f, hf, e⟩ := hg
        rw [← e]; exact hf)
      ((fun i => if i < v.na then xa i else v.x i), 0)
      (by rw [← hix]; omega)
      (by
        intro g _ s _
        simp only
        rw [if_neg (by unfold pos; omega)])
    have hge : ∀ p ∈ ix, v.na ≤ p.2 := by
      intro p hp
      rw [hix] at hp
      obtain ⟨g, _, hp'⟩ := List.mem_flatMap.1 hp
      obtain ⟨_, s2, _, e2⟩ := pairs_mem hp'
      rw [e2]; unfold pos; omega
    refine ⟨x', ?_, ?_, ?_, ?_⟩
    · unfold restamb
      simp only []
      rw [e, Py.okBind]
      rfl
    · subst hix
      intro k hk
      obtain ⟨q1, q2⟩ := q k hk
      rw [q1, q2]
      simp only [Nat.zero_add]
      exact ⟨by linarith, trivial⟩
    · intro i hi hn
      rw [p i (by rw [← hix]; exact hn)]
      simp only
      rw [if_neg (by omega)]
    · intro i hi
      rw [p i (by
        rw [← hix]
        intro p hp e
        have := hge p hp
        omega)]
      simp only
      rw [if_pos hi]
  · rw [if_neg hc] at hs
    rw [hs] at hd
    cases hd

/-- **Hold**: the constraints of fix-and-hold are exactly the pairs of `ddidx`, in order, and
their innovations are the fixed minus the float differences. -/
theorem held (v : Nav) (xa x' : Nat → ℚ) (ix : List (Nat × Nat)) (t : Fix) (bias : List ℚ)
    (hd : ddidx v = .ok (ix, t)) (hb : bias.length = ix.length)
    (hr : restamb v xa t bias = .ok x') :
    (holdRows v t x').map (·.1) = ix ∧
    ∀ k (h : k < (holdRows v t x').length) (h' : k < bias.length),
      ∃ p, (holdRows v t x')[k] = (p, bias[k] - (v.x p.1 - v.x p.2)) := by
  have hs := selection v
  by_cases hc : (allPairs v).length ≤ 233
  · rw [if_pos hc] at hs
    obtain ⟨t', e, ht⟩ := hs
    rw [hd] at e
    simp only [Except.ok.injEq, Prod.mk.injEq] at e
    obtain ⟨e1, e2⟩ := e
    subst e2
    have hix : ix = (groupsOrder v.nf).flatMap (pairs v) := by rw [e1, allPairs_eq]
    have hrow : holdRows v t x' =
        ix.map fun p => (p, (x' p.1 - x' p.2) - (v.x p.1 - v.x p.2)) := by
      rw [hix]
      unfold holdRows
      rw [List.map_flatMap]
      apply List.flatMap_congr
      intro g hg
      have hgf : g.2 < v.nf := by
        simp only [groupsOrder, List.mem_flatMap, List.mem_map, List.mem_range] at hg
        obtain ⟨_, _, f, hf, e⟩ := hg
        rw [← e]; exact hf
      rw [fixedIdx_eq v t ht g hgf]
      unfold pairs
      cases Q v g.1 g.2 with
      | nil => rfl
      | cons r js => simp [List.map_map, Function.comp_def]
    refine ⟨by rw [hrow, List.map_map]; simp [Function.comp_def], ?_⟩
    intro k hk hk'
    obtain ⟨x2, r1, r2, _⟩ := restored v xa ix t bias hd hb
    rw [hr] at r1
    cases r1
    have hki : k < ix.length := by omega
    refine ⟨ix[k], ?_⟩
    have : (holdRows v t x')[k] = (fun p : Nat × Nat => (p, (x' p.1 - x' p.2) - (v.x p.1 - v.x p.2))) ix[k] := by
      simp only [hrow, List.getElem_map]
    rw [this]
    simp only
    rw [(r2 k hki).1]
  · rw [if_neg hc] at hs
    rw [hs] at hd
    cases hd

/-! ### Cases -/

/-- three GPS and two Galileo satellites, one of each below the mask or not initialised -/
def demo : Nav where
  nf := 1
  na := 6
  x := fun i => if i = 9 then 0 else (i : ℚ)
  sat := [3, 4, 7, 9, 40, 50, 51]
  vsat := fun _ _ => 1
  el := fun s => if s = 3 then 1/10 else 1
  elmask := 1/2

/-- G03 is too low, G04 not initialised: G07 is the reference; E08 that of Galileo -/
example : (ddidx demo).toOption.map (·.1) = some [(12, 14), (45, 55), (45, 56)] := by
  decide +kernel

/-- restoration with fixed values 5, -2, 3 -/
example : ((ddidx demo).toOption.bind fun r =>
    (restamb demo (fun _ => 0) r.2 [5, -2, 3]).toOption.map fun x => [x 12, x 14, x 45, x 55, x 56, x 8]) =
    some [12, 7, 45, 47, 42, 8] := by
  decide +kernel

/-- **defect**: 78 satellites on four frequencies give 288 differences, and `ddidx` raises -/
theorem too_many : ddidx { demo with nf := 4, sat := (List.range 100).map (· + 1), x := fun _ => 1 } =
    .error .indexError := by
  have h := selection { demo with nf := 4, sat := (List.range 100).map (· + 1), x := fun _ => 1 }
  rw [if_neg] at h
  · exact h
  · decide +kernel

end Verif.C48
