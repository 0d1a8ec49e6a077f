import Verif.Model.Rinex
import Verif.Props.C01
import Mathlib.Data.List.Destutter
/-!
# C41  RINEX navigation output has no consecutive duplicates and loses nothing
-/

namespace Verif.C41
open Verif.Rinex

/-- the writers called on a stream of ephemerides -/
def run (es : List Ev) : Enc := es.foldl body {}

/-- the issue of the last ephemeris of the stream with this satellite and message type -/
def last (es : List Ev) (sat mode : Int) : Option Int :=
  ((es.filter (fun e => e.sat = sat ∧ e.mode = mode)).getLast?).map Ev.iod

theorem run_snoc (es : List Ev) (e : Ev) : run (es ++ [e]) = body (run es) e := by
  simp [run]

theorem last_snoc (es : List Ev) (e : Ev) (sat mode : Int) :
    last (es ++ [e]) sat mode =
      if e.sat = sat ∧ e.mode = mode then some e.iod else last es sat mode := by
  unfold last
  by_cases h : e.sat = sat ∧ e.mode = mode
  · simp [List.filter_append, h]
  · simp [List.filter_append, h]

/-- what the encoder remembers is the last issue of the stream -/
theorem memory (es : List Ev) (sat mode : Int) :
    ((run es).recEph.get? sat).bind (fun m => Dict.get? m mode) = last es sat mode := by
  induction es using List.reverseRecOn generalizing sat mode with
  | nil => rfl
  | append_singleton es e ih =>
    rw [run_snoc, last_snoc]
    have hrec : ∀ s : Enc, (body s e).recEph =
        if (s.recEph.get? e.sat).bind (fun m => Dict.get? m e.mode) = some e.iod then s.recEph
        else s.recEph.set e.sat (((s.recEph.get? e.sat).getD []).set e.mode e.iod) := by
      intro s
      unfold body
      cases h : s.recEph.get? e.sat with
      | none => cases hl : label e <;> simp [hl]
      | some m =>
        by_cases hm : m.get? e.mode = some e.iod
        · simp [hm]
        · cases hl : label e <;> simp [hm, hl]
    rw [hrec]
    by_cases hd : ((run es).recEph.get? e.sat).bind (fun m => Dict.get? m e.mode) = some e.iod
    · rw [if_pos hd, ih]
      by_cases hk : e.sat = sat ∧ e.mode = mode
      · rw [if_pos hk, ← hd, ih, hk.1, hk.2]
      · rw [if_neg hk]
    · rw [if_neg hd, Dict.get?_set]
      by_cases hs : sat = e.sat
      · subst hs
        simp only [if_true, Option.bind_some, Dict.get?_set, true_and]
        by_cases hm : mode = e.mode
        · subst hm; simp
        · rw [if_neg hm, if_neg (fun h => hm h.symm), ← ih]
          cases (run es).recEph.get? e.sat <;> rfl
      · rw [if_neg hs, if_neg (fun h => hs h.1.symm), ih]

/-- **An ephemeris is written exactly when** its satellite and message type are ones the format
has a record for and its issue differs from that of the last ephemeris submitted for the same
satellite and message type (or it is the first). -/
theorem written_iff (es : List Ev) (e : Ev) :
    (run (es ++ [e])).out =
      if (label e).isSome ∧ last es e.sat e.mode ≠ some e.iod then (run es).out ++ [e]
      else (run es).out := by
  rw [run_snoc]
  have hm := memory es e.sat e.mode
  generalize run es = s at *
  rw [← hm]
  unfold body
  cases h : s.recEph.get? e.sat with
  | none => cases hl : label e <;> simp
  | some m =>
    by_cases hm : m.get? e.mode = some e.iod
    · simp [hm]
    · cases hl : label e <;> simp [hm]

theorem destutter'_snoc (a b : Int) (l : List Int) :
    (l ++ [a]).destutter' (· ≠ ·) b =
      if (b :: l).getLast? = some a then l.destutter' (· ≠ ·) b
      else l.destutter' (· ≠ ·) b ++ [a] := by
  induction l generalizing b with
  | nil => by_cases h : b = a <;> simp [List.destutter'_cons, h]
  | cons c l ih =>
    rw [List.cons_append, List.destutter'_cons, List.destutter'_cons, List.getLast?_cons_cons]
    by_cases h : b = c
    · subst h
      simp only [ne_eq, not_true, if_false]
      exact ih b
    · simp only [ne_eq, h, not_false_eq_true, if_true]
      have := ih c
      simp only [ne_eq] at this
      rw [this]
      split <;> simp

theorem destutter_snoc (a : Int) (l : List Int) :
    (l ++ [a]).destutter (· ≠ ·) =
      if l.getLast? = some a then l.destutter (· ≠ ·) else l.destutter (· ≠ ·) ++ [a] := by
  cases l with
  | nil => simp
  | cons b l => exact destutter'_snoc a b l

/-- the issues of the ephemerides of one satellite and message type, in order -/
def issues (es : List Ev) (sat mode : Int) : List Int :=
  (es.filter (fun e => e.sat = sat ∧ e.mode = mode)).map Ev.iod

/-- **Per satellite and message type** the written issues are the submitted issues with
repetitions in a row removed — nothing else is dropped, nothing is added, and no two
consecutive written records carry the same issue. -/
theorem written_issues (es : List Ev) (sat mode : Int)
    (h : ∀ e ∈ es, e.sat = sat → e.mode = mode → (label e).isSome) :
    issues (run es).out sat mode = (issues es sat mode).destutter (· ≠ ·) := by
  induction es using List.reverseRecOn with
  | nil => rfl
  | append_singleton es e ih =>
    have ih := ih (fun x hx => h x (List.mem_append_left _ hx))
    have hlast : ∀ sat mode, last es sat mode = (issues es sat mode).getLast? := by
      intro sat mode; simp [last, issues]
    rw [written_iff]
    by_cases hk : e.sat = sat ∧ e.mode = mode
    · have hl := h e (by simp) hk.1 hk.2
      have e1 : issues (es ++ [e]) sat mode = issues es sat mode ++ [e.iod] := by
        simp [issues, List.filter_append, hk]
      rw [e1, destutter_snoc, hk.1, hk.2, hlast]
      by_cases hi : (issues es sat mode).getLast? = some e.iod
      · rw [if_neg (fun c => c.2 hi), if_pos hi, ih]
      · rw [if_pos ⟨hl, hi⟩, if_neg hi, ← ih]
        simp [issues, List.filter_append, hk]
    · have e1 : issues (es ++ [e]) sat mode = issues es sat mode := by
        simp [issues, List.filter_append, hk]
      rw [e1, ← ih]
      split
      · simp [issues, List.filter_append, hk]
      · rfl

/-- the records come out in the order submitted, and only records of the stream -/
theorem written_sublist (es : List Ev) : (run es).out.Sublist (es.filter fun e => (label e).isSome) := by
  induction es using List.reverseRecOn with
  | nil => exact List.Sublist.refl _
  | append_singleton es e ih =>
    rw [written_iff, List.filter_append]
    by_cases hl : (label e).isSome
    · have : List.filter (fun e => (label e).isSome) [e] = [e] := by simp [hl]
      rw [this]
      split
      · exact ih.append (List.Sublist.refl _)
      · exact ih.trans (List.sublist_append_left _ _)
    · rw [if_neg (fun c => hl c.1)]
      exact ih.trans (List.sublist_append_left _ _)

/-- nothing is lost: every submitted issue with a record type appears in the output -/
theorem nothing_lost (es : List Ev) (e : Ev) (he : e ∈ es)
    (h : ∀ x ∈ es, x.sat = e.sat → x.mode = e.mode → (label x).isSome) :
    ∃ w ∈ (run es).out, w.sat = e.sat ∧ w.mode = e.mode ∧ w.iod = e.iod := by
  have h1 := written_issues es e.sat e.mode h
  have h2 : e.iod ∈ issues es e.sat e.mode := by
    simp only [issues, List.mem_map, List.mem_filter]
    exact ⟨e, ⟨he, by simp⟩, rfl⟩
  have h3 : ∀ (a : Int) (l : List Int) (b : Int), a = b ∨ a ∈ l →
      a ∈ l.destutter' (· ≠ ·) b := by
    intro a l
    induction l with
    | nil => intro b hb; simpa using hb
    | cons c l ih =>
      intro b hb
      rw [List.destutter'_cons]
      by_cases hbc : b = c
      · subst hbc
        simp only [ne_eq, not_true, if_false]
        apply ih
        rcases hb with hb | hb
        · exact .inl hb
        · simpa using hb
      · simp only [ne_eq, hbc, not_false_eq_true, if_true, List.mem_cons]
        rcases hb with hb | hb
        · exact .inl hb
        · refine .inr (ih c ?_)
          simpa using hb
  have h4 : e.iod ∈ issues (run es).out e.sat e.mode := by
    rw [h1]
    cases hc : issues es e.sat e.mode with
    | nil => rw [hc] at h2; cases h2
    | cons b l =>
      rw [hc] at h2
      exact h3 _ _ _ (by simpa using h2)
  simp only [issues, List.mem_map, List.mem_filter, decide_eq_true_eq] at h4
  obtain ⟨w, ⟨hw, hk⟩, hi⟩ := h4
  exact ⟨w, hw, hk.1, hk.2, hi⟩

/-- the name of each record: BeiDou satellites 6 to 58 send D1, the geostationary ones D2; the newer
messages have their own names -/
theorem record_names (p mode iod : Int) :
    (1 ≤ p → p ≤ 32 → label ⟨.nav, Sat.prn2sat .gps p, mode, iod⟩ = some (if mode = 0 then "LNAV" else if mode = 1 then "CNAV" else "CNV2")) ∧
    (193 ≤ p → p ≤ 202 → label ⟨.nav, Sat.prn2sat .qzs p, mode, iod⟩ = some (if mode = 0 then "LNAV" else if mode = 1 then "CNAV" else "CNV2")) ∧
    (1 ≤ p → p ≤ 36 → label ⟨.nav, Sat.prn2sat .gal p, mode, iod⟩ = some (if mode = 0 then "INAV" else "FNAV")) ∧
    (1 ≤ p → p ≤ 14 → label ⟨.nav, Sat.prn2sat .irn p, mode, iod⟩ = some (if mode = 0 then "LNAV" else "L1NV")) ∧
    (1 ≤ p → p ≤ 63 → label ⟨.nav, Sat.prn2sat .bds p, mode, iod⟩ =
      if mode = 0 then some (if 6 ≤ p ∧ p ≤ 58 then "D1" else "D2") else if mode = 1 then some "CNV1" else if mode = 2 then some "CNV2"
      else if mode = 3 then some "CNV3" else none) ∧
    (1 ≤ p → p ≤ 27 → label ⟨.gnav, Sat.prn2sat .glo p, mode, iod⟩ = some (if mode = 0 then "FDMA" else if mode = 1 then "L1OC" else "L3OC")) ∧
    (120 ≤ p → p ≤ 158 → label ⟨.snav, Sat.prn2sat .sbs p, mode, iod⟩ = some "SBAS") := by
  have key : ∀ s, C01.inSlot s p → Sat.sat2prn (Sat.prn2sat s p) = (s, p) := fun s h => (C01.sat2prn_prn2sat s p h).2.2
  refine ⟨fun h1 h2 => ?_, fun h1 h2 => ?_, fun h1 h2 => ?_, fun h1 h2 => ?_, fun h1 h2 => ?_, fun h1 h2 => ?_, fun h1 h2 => ?_⟩ <;>
    unfold label <;> rw [key _ (by unfold C01.inSlot; simp only [C01.slot]; omega)]
  all_goals try rfl
  simp only
  by_cases h : 6 ≤ p ∧ p ≤ 58
  · rw [if_pos (show 5 < p ∧ p < 59 by omega), if_pos h]
  · rw [if_neg (show ¬ (5 < p ∧ p < 59) by omega), if_neg h]

/-- which satellites and message types have no record: `rnx_nav_body` for GLONASS, SBAS,
unknown satellites and BDS types above 3; the other writers for foreign systems -/
theorem no_record_iff (e : Ev) :
    label e = none ↔
      match e.kind with
      | .nav => (Sat.sat2prn e.sat).1 ∈ [Sat.Sys.glo, Sat.Sys.sbs, Sat.Sys.none] ∨
          ((Sat.sat2prn e.sat).1 = .bds ∧ e.mode ∉ [0, 1, 2, 3])
      | .gnav => (Sat.sat2prn e.sat).1 ≠ .glo
      | .snav => (Sat.sat2prn e.sat).1 ≠ .sbs := by
  obtain ⟨k, sat, mode, iod⟩ := e
  unfold label
  rcases hp : Sat.sat2prn sat with ⟨sys, prn⟩
  cases k with
  | nav =>
    cases sys <;> simp only [hp] <;> try simp
    split
    · simp_all
    split
    · simp_all
    split
    · simp_all
    split
    · simp_all
    · simp_all
  | gnav => by_cases h : sys = .glo <;> simp [h, hp]
  | snav => by_cases h : sys = .sbs <;> simp [h, hp]

/-- two satellites, a repeated, a changed and a returning issue, two message types, and a
GLONASS ephemeris given to the wrong writer -/
example : (run [⟨.nav, 5, 0, 7⟩, ⟨.nav, 5, 0, 7⟩, ⟨.nav, 6, 0, 7⟩, ⟨.nav, 5, 1, 7⟩,
    ⟨.nav, 5, 0, 8⟩, ⟨.nav, 150, 0, 7⟩, ⟨.nav, 5, 0, 7⟩, ⟨.nav, 6, 0, 7⟩]).out =
    [⟨.nav, 5, 0, 7⟩, ⟨.nav, 6, 0, 7⟩, ⟨.nav, 5, 1, 7⟩, ⟨.nav, 5, 0, 8⟩, ⟨.nav, 5, 0, 7⟩] := by
  decide +kernel

/-- a new data set that reuses the issue number of the last one is not written (the remembered
time of ephemeris is never compared): the second of two ephemerides with equal satellite,
type and issue is dropped whatever else it contains -/
example (e : Ev) : (run [e, e]).out = (run [e]).out := by
  have h := written_iff [e] e
  have hl : last [e] e.sat e.mode = some e.iod := by simp [last]
  rw [hl] at h
  simpa using h

end Verif.C41
