import Verif.Model.Rinex
import Verif.Lemmas.Time
/-!
# C40  Observation synchronisation
-/

namespace Verif.C40
open Verif.Rinex Verif.Time

variable {α : Type}

/-- the two epochs are simultaneous up to the tolerance -/
def Match (th : ℚ) (a b : Obs α) : Prop := |a.t.tot - b.t.tot| ≤ th

/-- a file in time order -/
def Ordered (f : List (Obs α)) : Prop := f.Pairwise fun a b => a.t.tot ≤ b.t.tot

/-- both current epochs come from the files, and all epochs read before them match nothing -/
def Live (th : ℚ) (f fb : List (Obs α)) (s : SyncSt α) : Prop :=
  ∃ f1 b1, f = f1 ++ s.obs :: s.f ∧ fb = b1 ++ s.obsb :: s.fb ∧
    (∀ a ∈ f1, ∀ b ∈ fb, ¬ Match th a b) ∧ (∀ a ∈ f, ∀ b ∈ b1, ¬ Match th a b)

/-- one file is exhausted, the other is not -/
def Dead (th : ℚ) (s : SyncSt α) : Prop :=
  (s.f = [] ∧ s.obs.t.tot = 0 ∧ th < s.obsb.t.tot) ∨
  (s.fb = [] ∧ s.obsb.t.tot = 0 ∧ th < s.obs.t.tot)

theorem dead_step (em : α) (th : ℚ) (h0 : 0 ≤ th) (s : SyncSt α) (h : Dead th s) :
    ∃ s', syncStep em th s = some s' ∧ Dead th s' := by
  unfold syncStep
  rw [timediff_tot]
  rcases h with ⟨h1, h2, h3⟩ | ⟨h1, h2, h3⟩
  · have e1 : ¬ |s.obs.t.tot - s.obsb.t.tot| ≤ th := by
      rw [h2]; intro h; have := (abs_le.mp h).1; linarith
    have e2 : ¬ s.obs.t.tot - s.obsb.t.tot > th := by rw [h2]; push Not; linarith
    have e3 : s.obs.t.tot - s.obsb.t.tot < th := by rw [h2]; linarith
    simp only [e1, e2, e3, if_false, if_true, h1, decodeObs]
    exact ⟨_, rfl, .inl ⟨rfl, by simp [GTime.tot], h3⟩⟩
  · have e1 : ¬ |s.obs.t.tot - s.obsb.t.tot| ≤ th := by
      rw [h2]; intro h; have := (abs_le.mp h).2; linarith
    have e2 : s.obs.t.tot - s.obsb.t.tot > th := by rw [h2]; linarith
    simp only [e1, e2, if_false, if_true, h1, decodeObs]
    exact ⟨_, rfl, .inr ⟨rfl, by simp [GTime.tot], h3⟩⟩

theorem dead_loop (em : α) (th : ℚ) (h0 : 0 ≤ th) (n : Nat) (s : SyncSt α) (h : Dead th s) :
    syncLoop em th n s = none := by
  induction n generalizing s with
  | zero => rfl
  | succ n ih =>
    obtain ⟨s', e, h'⟩ := dead_step em th h0 s h
    simp only [syncLoop, e]
    exact ih s' h'

theorem step_none_iff (em : α) (th : ℚ) (s : SyncSt α) :
    syncStep em th s = none ↔ Match th s.obs s.obsb := by
  unfold syncStep Match
  rw [timediff_tot]
  constructor
  · intro h
    by_contra hc
    simp only [hc, if_false] at h
    split at h
    · cases h
    · split at h <;> cases h
  · intro h; simp only [h, if_true]

theorem live_step (em : α) (th : ℚ) (h0 : 0 ≤ th) (f fb : List (Obs α)) (hf : Ordered f)
    (hb : Ordered fb) (tf : ∀ a ∈ f, th < a.t.tot) (tb : ∀ b ∈ fb, th < b.t.tot)
    (s s' : SyncSt α) (h : Live th f fb s) (hs : syncStep em th s = some s') :
    (Live th f fb s' ∧ s'.f.length + s'.fb.length < s.f.length + s.fb.length) ∨
      (Dead th s' ∧ ∀ a ∈ f, ∀ b ∈ fb, ¬ Match th a b) := by
  have hn : ¬ Match th s.obs s.obsb := by
    intro hm; rw [(step_none_iff em th s).2 hm] at hs; cases hs
  obtain ⟨f1, b1, ef, eb, u1, u2⟩ := h
  have hn' : ¬ |s.obs.t.tot - s.obsb.t.tot| ≤ th := hn
  unfold syncStep at hs
  rw [timediff_tot] at hs
  simp only [hn', if_false] at hs
  have mo : s.obs ∈ f := by rw [ef]; simp
  have mb : s.obsb ∈ fb := by rw [eb]; simp
  have of := hf
  have ob := hb
  rw [Ordered, ef, List.pairwise_append, List.pairwise_cons] at of
  rw [Ordered, eb, List.pairwise_append, List.pairwise_cons] at ob
  by_cases hd : s.obs.t.tot - s.obsb.t.tot > th
  · -- the base epoch is too old: nothing in `f` matches it
    rw [if_pos hd] at hs
    have kill : ∀ a ∈ f, ¬ Match th a s.obsb := by
      intro a ha
      rw [ef] at ha
      rcases List.mem_append.1 ha with ha | ha
      · exact u1 a ha _ mb
      · intro hm
        have h1 := (abs_le.mp hm).2
        rcases List.mem_cons.1 ha with ha | ha
        · subst ha; linarith
        · have := of.2.1.1 a ha; linarith
    have u2' : ∀ a ∈ f, ∀ b ∈ b1 ++ [s.obsb], ¬ Match th a b := by
      intro a ha b hb
      rcases List.mem_append.1 hb with hb | hb
      · exact u2 a ha b hb
      · rw [List.mem_singleton.1 hb]; exact kill a ha
    cases hfb : s.fb with
    | nil =>
      right
      rw [hfb] at hs
      simp only [decodeObs, Option.some.injEq] at hs
      subst hs
      refine ⟨.inr ⟨rfl, by simp [GTime.tot], tf _ mo⟩, ?_⟩
      intro a ha b hb
      rw [eb, hfb] at hb
      exact u2' a ha b hb
    | cons c r =>
      left
      rw [hfb] at hs
      simp only [decodeObs, Option.some.injEq] at hs
      subst hs
      refine ⟨⟨f1, b1 ++ [s.obsb], ef, ?_, u1, u2'⟩, ?_⟩
      · simp [eb, hfb]
      · simp
  · rw [if_neg hd] at hs
    have hd2 : s.obs.t.tot - s.obsb.t.tot < -th := by
      by_contra hc
      exact hn' (abs_le.mpr ⟨by linarith, by linarith⟩)
    rw [if_pos (by linarith)] at hs
    have kill : ∀ b ∈ fb, ¬ Match th s.obs b := by
      intro b hb
      rw [eb] at hb
      rcases List.mem_append.1 hb with hb | hb
      · exact u2 _ mo b hb
      · intro hm
        have h1 := (abs_le.mp hm).1
        rcases List.mem_cons.1 hb with hb | hb
        · subst hb; linarith
        · have := ob.2.1.1 b hb; linarith
    have u1' : ∀ a ∈ f1 ++ [s.obs], ∀ b ∈ fb, ¬ Match th a b := by
      intro a ha b hb
      rcases List.mem_append.1 ha with ha | ha
      · exact u1 a ha b hb
      · rw [List.mem_singleton.1 ha]; exact kill b hb
    cases hff : s.f with
    | nil =>
      right
      rw [hff] at hs
      simp only [decodeObs, Option.some.injEq] at hs
      subst hs
      refine ⟨.inl ⟨rfl, by simp [GTime.tot], tb _ mb⟩, ?_⟩
      intro a ha b hb
      rw [ef, hff] at ha
      exact u1' a ha b hb
    | cons c r =>
      left
      rw [hff] at hs
      simp only [decodeObs, Option.some.injEq] at hs
      subst hs
      refine ⟨⟨f1 ++ [s.obs], b1, ?_, eb, u1', u2⟩, ?_⟩
      · simp [ef, hff]
      · simp

theorem live_loop (em : α) (th : ℚ) (h0 : 0 ≤ th) (f fb : List (Obs α)) (hf : Ordered f)
    (hb : Ordered fb) (tf : ∀ a ∈ f, th < a.t.tot) (tb : ∀ b ∈ fb, th < b.t.tot)
    (n : Nat) (s r : SyncSt α) (h : Live th f fb s) (hr : syncLoop em th n s = some r) :
    Live th f fb r ∧ Match th r.obs r.obsb := by
  induction n generalizing s with
  | zero => simp [syncLoop] at hr
  | succ n ih =>
    simp only [syncLoop] at hr
    cases hs : syncStep em th s with
    | none =>
      rw [hs] at hr
      simp only [Option.some.injEq] at hr
      subst hr
      exact ⟨h, (step_none_iff em th _).1 hs⟩
    | some s' =>
      rw [hs] at hr
      rcases live_step em th h0 f fb hf hb tf tb s s' h hs with h' | h'
      · exact ih s' h'.1 hr
      · simp only [dead_loop em th h0 n s' h'.1] at hr; cases hr

theorem live_terminates (em : α) (th : ℚ) (h0 : 0 ≤ th) (f fb : List (Obs α)) (hf : Ordered f)
    (hb : Ordered fb) (tf : ∀ a ∈ f, th < a.t.tot) (tb : ∀ b ∈ fb, th < b.t.tot)
    (hm : ∃ a ∈ f, ∃ b ∈ fb, Match th a b)
    (n : Nat) (s : SyncSt α) (h : Live th f fb s) (hn : s.f.length + s.fb.length < n) :
    ∃ r, syncLoop em th n s = some r := by
  induction n generalizing s with
  | zero => omega
  | succ n ih =>
    simp only [syncLoop]
    cases hs : syncStep em th s with
    | none => exact ⟨s, rfl⟩
    | some s' =>
      rcases live_step em th h0 f fb hf hb tf tb s s' h hs with h' | h'
      · exact ih s' h'.1 (by have := h'.2; omega)
      · obtain ⟨a, ha, b, hb, hm⟩ := hm
        exact absurd hm (h'.2 a ha b hb)

theorem loop_none_step (em : α) (th : ℚ) (n : Nat) (s r : SyncSt α)
    (h : syncLoop em th n s = some r) : syncStep em th r = none := by
  induction n generalizing s with
  | zero => simp [syncLoop] at h
  | succ n ih =>
    simp only [syncLoop] at h
    cases hs : syncStep em th s with
    | none => rw [hs] at h; simp only [Option.some.injEq] at h; subst h; exact hs
    | some s' => rw [hs] at h; exact ih s' h

/-- **Whatever the files contain**, a returned pair is within the tolerance. -/
theorem pair_within (em : α) (th : ℚ) (n : Nat) (f fb : List (Obs α)) (r : SyncSt α)
    (h : syncObs em th n f fb = some r) : |timediff r.obs.t r.obsb.t| ≤ th := by
  rw [timediff_tot]
  exact (step_none_iff em th r).1 (loop_none_step em th n _ r h)

/-- where the synchronisation starts -/
theorem init_cases (th : ℚ) (em : α) (f fb : List (Obs α)) (tf : ∀ a ∈ f, th < a.t.tot)
    (tb : ∀ b ∈ fb, th < b.t.tot) :
    (f = [] ∧ fb = []) ∨ (Live th f fb (syncInit em f fb) ∧
        (syncInit em f fb).f.length + (syncInit em f fb).fb.length + 2 = f.length + fb.length) ∨
      (Dead th (syncInit em f fb) ∧ (f = [] ∨ fb = [])) := by
  cases f with
  | nil =>
    cases fb with
    | nil => exact .inl ⟨rfl, rfl⟩
    | cons b r => exact .inr (.inr ⟨.inl ⟨rfl, by simp [syncInit, decodeObs, GTime.tot],
        tb b (by simp)⟩, .inl rfl⟩)
  | cons a l =>
    cases fb with
    | nil => exact .inr (.inr ⟨.inr ⟨rfl, by simp [syncInit, decodeObs, GTime.tot],
        tf a (by simp)⟩, .inr rfl⟩)
    | cons b r =>
      refine .inr (.inl ⟨⟨[], [], rfl, rfl, by simp, by simp⟩, ?_⟩)
      simp [syncInit, decodeObs]; omega

/-- **No pair is skipped.**  For time-ordered files the returned epochs are the first of their
file that match any epoch of the other file, and the files are left just behind them.
(The only other outcome is the pair of empty epochs when both files are exhausted.) -/
theorem first_pair (em : α) (th : ℚ) (h0 : 0 ≤ th) (n : Nat) (f fb : List (Obs α))
    (hf : Ordered f) (hb : Ordered fb) (tf : ∀ a ∈ f, th < a.t.tot)
    (tb : ∀ b ∈ fb, th < b.t.tot) (r : SyncSt α) (h : syncObs em th n f fb = some r) :
    (f = [] ∧ fb = [] ∧ r = ⟨⟨⟨0, 0⟩, em⟩, ⟨⟨0, 0⟩, em⟩, [], []⟩) ∨
    ∃ f1 b1, f = f1 ++ r.obs :: r.f ∧ fb = b1 ++ r.obsb :: r.fb ∧
      |timediff r.obs.t r.obsb.t| ≤ th ∧
      (∀ a ∈ f1, ∀ b ∈ fb, th < |timediff a.t b.t|) ∧
      (∀ a ∈ f, ∀ b ∈ b1, th < |timediff a.t b.t|) := by
  rcases init_cases th em f fb tf tb with ⟨e1, e2⟩ | h' | h'
  · subst e1 e2
    refine .inl ⟨rfl, rfl, ?_⟩
    cases n with
    | zero => simp [syncObs, syncLoop] at h
    | succ n =>
      have : syncStep em th (syncInit em [] []) = none := by
        rw [step_none_iff]; simpa [Match, syncInit, decodeObs] using h0
      simp only [syncObs, syncLoop, this, Option.some.injEq] at h
      exact h.symm
  · obtain ⟨⟨f1, b1, e1, e2, u1, u2⟩, hm⟩ :=
      live_loop em th h0 f fb hf hb tf tb n _ r h'.1 h
    refine .inr ⟨f1, b1, e1, e2, by rw [timediff_tot]; exact hm, ?_, ?_⟩
    · intro a ha b hb; rw [timediff_tot]; exact not_le.1 (u1 a ha b hb)
    · intro a ha b hb; rw [timediff_tot]; exact not_le.1 (u2 a ha b hb)
  · rw [syncObs, dead_loop em th h0 n _ h'.1] at h; cases h

/-- **When it terminates.**  For time-ordered files the call returns if and only if some epoch
of one file matches some epoch of the other, or both files are already exhausted; it then needs
at most one turn per epoch left.  Otherwise it never returns. -/
theorem terminates_iff (em : α) (th : ℚ) (h0 : 0 ≤ th) (f fb : List (Obs α))
    (hf : Ordered f) (hb : Ordered fb) (tf : ∀ a ∈ f, th < a.t.tot)
    (tb : ∀ b ∈ fb, th < b.t.tot) :
    ((∃ n, (syncObs em th n f fb).isSome) ↔
      (f = [] ∧ fb = []) ∨ ∃ a ∈ f, ∃ b ∈ fb, |timediff a.t b.t| ≤ th) ∧
    ((∃ n, (syncObs em th n f fb).isSome) →
      (syncObs em th (f.length + fb.length + 1) f fb).isSome) := by
  have key : (f = [] ∧ fb = []) ∨ (∃ a ∈ f, ∃ b ∈ fb, |timediff a.t b.t| ≤ th) →
      (syncObs em th (f.length + fb.length + 1) f fb).isSome := by
    rintro (⟨e1, e2⟩ | ⟨a, ha, b, hb', hm⟩)
    · subst e1 e2
      have : syncStep em th (syncInit em ([] : List (Obs α)) []) = none := by
        rw [step_none_iff]; simpa [Match, syncInit, decodeObs] using h0
      simp [syncObs, syncLoop, this]
    · rw [timediff_tot] at hm
      rcases init_cases th em f fb tf tb with ⟨e1, _⟩ | h' | h'
      · subst e1; cases ha
      · obtain ⟨r, hr⟩ := live_terminates em th h0 f fb hf hb tf tb ⟨a, ha, b, hb', hm⟩
          (f.length + fb.length + 1) _ h'.1 (by have := h'.2; omega)
        rw [syncObs, hr]; rfl
      · rcases h'.2 with e | e
        · subst e; cases ha
        · subst e; cases hb'
  have fwd : (∃ n, (syncObs em th n f fb).isSome) →
      (f = [] ∧ fb = []) ∨ ∃ a ∈ f, ∃ b ∈ fb, |timediff a.t b.t| ≤ th := by
    rintro ⟨n, hn⟩
    obtain ⟨r, hr⟩ := Option.isSome_iff_exists.1 hn
    rcases first_pair em th h0 n f fb hf hb tf tb r hr with ⟨e1, e2, _⟩ | ⟨f1, b1, e1, e2, hm, _⟩
    · exact .inl ⟨e1, e2⟩
    · exact .inr ⟨r.obs, by rw [e1]; simp, r.obsb, by rw [e2]; simp, hm⟩
  exact ⟨⟨fwd, fun h => ⟨_, key h⟩⟩, fun h => key (fwd h)⟩

/-- an epoch at a whole second -/
def ep (t : Int) : Obs Nat := ⟨⟨t, 0⟩, 1⟩

/-- offset and gapped files: the pair at 40 is found, leaving 50 -/
example : syncObs 0 (1/10) 7 [ep 10, ep 20, ep 40, ep 50] [ep 15, ep 25, ep 30, ep 40] =
    some ⟨ep 40, ep 40, [ep 50], []⟩ := by decide +kernel

/-- the hypotheses hold for these files -/
example : Ordered [ep 10, ep 20, ep 40, ep 50] ∧ (∀ a ∈ [ep 10, ep 20], (1/10 : ℚ) < a.t.tot) := by
  constructor
  · simp [Ordered, ep, GTime.tot]; norm_num
  · simp [ep, GTime.tot]; norm_num

/-- **defect**: at the end of one file (the normal way a processing run ends when the other
file is longer) the call never returns -/
theorem exhausted_hangs (n : Nat) : syncObs 0 (1/10) n [ep 10] [] = none := by
  apply dead_loop _ _ (by norm_num)
  right
  simp only [syncInit, decodeObs, ep, GTime.tot]; norm_num

end Verif.C40
