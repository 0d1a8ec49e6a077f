import Verif.Lemmas.Time
import Mathlib.Tactic.NormNum
/-!
# C06 GPS time to UTC and back

Specification: the 18 UTC midnights (1981-07-01 … 2017-01-01) at which a leap second had just
been inserted, as seconds since 1970; entry number `k` (counted from the oldest, starting at 1)
makes GPS−UTC equal to `k`.
-/

namespace Verif.C06
open Verif.Time

/-! ## Specification -/

/-- UTC midnights following the inserted leap seconds, newest first, with GPS−UTC from then on. -/
def leapTable : List (ℚ × ℚ) :=
  [(1483228800, 18), (1435708800, 17), (1341100800, 16), (1230768000, 15), (1136073600, 14),
   (915148800, 13), (867715200, 12), (820454400, 11), (773020800, 10), (741484800, 9),
   (709948800, 8), (662688000, 7), (631152000, 6), (567993600, 5), (489024000, 4),
   (425865600, 3), (394329600, 2), (362793600, 1)]

/-- GPS−UTC at a GPS-scale instant: the number of leap seconds that have ended by then.
Leap second `k` (ending at UTC midnight `T`) ends at GPS instant `T + k`. -/
def offsetGps (t : ℚ) : ℚ := (leapTable.filter (fun e => e.1 + e.2 ≤ t)).length

/-- GPS−UTC at a UTC instant: the number of leap-second midnights not after it. -/
def offsetUtc (u : ℚ) : ℚ := (leapTable.filter (fun e => e.1 ≤ u)).length

/-- the GPS instant lies inside an inserted leap second (UTC reading 23:59:60) -/
def InLeapSecond (t : ℚ) : Prop := ∃ e ∈ leapTable, e.1 + e.2 - 1 ≤ t ∧ t < e.1 + e.2

/-! ## Helper lemmas: the table walk on instants -/

/-- gpst2utc on instants -/
def g : List (ℚ × ℚ) → ℚ → ℚ
  | [], t => t
  | (T, k) :: r, t => if T ≤ t - k then t - k else g r t

/-- utc2gpst on instants -/
def u : List (ℚ × ℚ) → ℚ → ℚ
  | [], t => t
  | (T, k) :: r, t => if T ≤ t then t + k else u r t

/-- chain condition: offsets count down to 1, midnights at least 100 s apart -/
def Chain : List (ℚ × ℚ) → Prop
  | [] => True
  | (T, k) :: r => k = r.length + 1 ∧ k ≤ 50 ∧ (∀ e ∈ r, e.1 + 100 ≤ T) ∧ Chain r

theorem chain_leapTable : Chain leapTable := by
  simp only [Chain, leapTable]
  norm_num

theorem chain_bounds : ∀ (L : List (ℚ × ℚ)), Chain L → ∀ e ∈ L, 1 ≤ e.2 ∧ e.2 ≤ L.length
  | [], _, e, he => by simp at he
  | (T, k) :: r, h, e, he => by
    obtain ⟨h1, h2, h3, h4⟩ := h
    have hr0 : (0 : ℚ) ≤ r.length := Nat.cast_nonneg _
    rcases List.mem_cons.mp he with rfl | he
    · simp only [List.length_cons]; push_cast; constructor <;> linarith
    · have := chain_bounds r h4 e he
      simp only [List.length_cons]; push_cast; constructor <;> linarith

theorem filter_none_of_lt (L : List (ℚ × ℚ)) (p : ℚ × ℚ → Bool) (h : ∀ e ∈ L, p e = true) :
    L.filter p = L := List.filter_eq_self.mpr h

theorem g_eq : ∀ (L : List (ℚ × ℚ)), Chain L → ∀ t,
    g L t = t - (L.filter (fun e => e.1 + e.2 ≤ t)).length
  | [], _, t => by simp [g]
  | (T, k) :: r, h, t => by
    obtain ⟨h1, h2, h3, h4⟩ := h
    simp only [g]
    split
    · rename_i hT
      have hall : ∀ e ∈ ((T, k) :: r), decide (e.1 + e.2 ≤ t) = true := by
        intro e he
        rw [decide_eq_true_eq]
        rcases List.mem_cons.mp he with rfl | he
        · simp only; linarith
        · have b := chain_bounds r h4 e he
          have c := h3 e he
          linarith
      rw [List.filter_eq_self.mpr hall, List.length_cons, h1]; push_cast; rfl
    · rename_i hT
      rw [List.filter_cons_of_neg (by simp only [decide_eq_true_eq]; intro hc; apply hT; linarith)]
      exact g_eq r h4 t

theorem u_eq : ∀ (L : List (ℚ × ℚ)), Chain L → ∀ t,
    u L t = t + (L.filter (fun e => e.1 ≤ t)).length
  | [], _, t => by simp [u]
  | (T, k) :: r, h, t => by
    obtain ⟨h1, h2, h3, h4⟩ := h
    simp only [u]
    split
    · rename_i hT
      have hall : ∀ e ∈ ((T, k) :: r), decide (e.1 ≤ t) = true := by
        intro e he
        rw [decide_eq_true_eq]
        rcases List.mem_cons.mp he with rfl | he
        · exact hT
        · have c := h3 e he
          linarith
      rw [List.filter_eq_self.mpr hall, List.length_cons, h1]; push_cast; rfl
    · rename_i hT
      rw [List.filter_cons_of_neg (by simpa using hT)]
      exact u_eq r h4 t

theorem g_u : ∀ (L : List (ℚ × ℚ)), Chain L → ∀ x, g L (u L x) = x
  | [], _, x => by simp [g, u]
  | (T, k) :: r, h, x => by
    obtain ⟨h1, h2, h3, h4⟩ := h
    simp only [u]
    split
    · rename_i hT
      simp only [g]
      rw [if_pos (by linarith)]; ring
    · rename_i hT
      simp only [g]
      have hk : (L : List (ℚ × ℚ)) → L.filter (fun e => decide (e.1 ≤ x)) = L.filter _ := fun _ => rfl
      have hle : u r x ≤ x + r.length := by
        rw [u_eq r h4]
        have := List.length_filter_le (fun e : ℚ × ℚ => decide (e.1 ≤ x)) r
        have : ((r.filter (fun e : ℚ × ℚ => decide (e.1 ≤ x))).length : ℚ) ≤ r.length := by
          exact_mod_cast this
        linarith
      rw [if_neg (by push Not; push Not at hT; linarith)]
      exact g_u r h4 x

theorem g_le : ∀ (L : List (ℚ × ℚ)), Chain L → ∀ t, g L t ≤ t ∧ t ≤ g L t + L.length := by
  intro L h t
  rw [g_eq L h]
  have h0 : (0 : ℚ) ≤ (L.filter (fun e : ℚ × ℚ => decide (e.1 + e.2 ≤ t))).length := Nat.cast_nonneg _
  have h1 : ((L.filter (fun e : ℚ × ℚ => decide (e.1 + e.2 ≤ t))).length : ℚ) ≤ L.length := by
    exact_mod_cast List.length_filter_le _ _
  constructor <;> linarith

/-- outside the leap seconds -/
theorem u_g : ∀ (L : List (ℚ × ℚ)), Chain L → ∀ t,
    (∀ e ∈ L, ¬ (e.1 + e.2 - 1 ≤ t ∧ t < e.1 + e.2)) → u L (g L t) = t
  | [], _, t, _ => by simp [g, u]
  | (T, k) :: r, h, t, hw => by
    obtain ⟨h1, h2, h3, h4⟩ := h
    simp only [g]
    split
    · rename_i hT
      simp only [u]
      rw [if_pos hT]; ring
    · rename_i hT
      push Not at hT
      have hwk := hw (T, k) (by simp)
      simp only at hwk
      have ht : t < T + k - 1 := by
        by_contra hc
        push Not at hc
        exact hwk ⟨hc, by linarith⟩
      simp only [u]
      rw [if_neg, u_g r h4 t (fun e he => hw e (List.mem_cons_of_mem _ he))]
      push Not
      -- the value is below T
      cases r with
      | nil => simp only [g]; simp at h1; rw [h1] at ht; linarith
      | cons e' r' =>
        obtain ⟨T', k'⟩ := e'
        simp only [g]
        obtain ⟨h1', h2', h3', h4'⟩ := h4
        have hTT := h3 (T', k') (by simp)
        simp only at hTT
        split
        · have : k = k' + 1 := by rw [h1, h1']; simp
          linarith
        · rename_i hn
          push Not at hn
          have := (g_le r' h4' t).1
          linarith

/-- inside a leap second -/
theorem g_in_leap : ∀ (L : List (ℚ × ℚ)), Chain L → ∀ t, ∀ e ∈ L,
    e.1 + e.2 - 1 ≤ t → t < e.1 + e.2 → g L t = t - (e.2 - 1) ∧ u L (g L t) = t + 1
  | [], _, t, e, he, _, _ => by simp at he
  | (T, k) :: r, h, t, e, he, ha, hb => by
    obtain ⟨h1, h2, h3, h4⟩ := h
    rcases List.mem_cons.mp he with rfl | he
    · simp only at ha hb ⊢
      have hg : g ((T, k) :: r) t = t - (k - 1) := by
        simp only [g]
        rw [if_neg (by linarith), g_eq r h4]
        have : r.filter (fun e => decide (e.1 + e.2 ≤ t)) = r := by
          apply List.filter_eq_self.mpr
          intro e' he'
          have b := chain_bounds r h4 e' he'
          have c := h3 e' he'
          rw [decide_eq_true_eq]; linarith
        rw [this, h1]; ring
      refine ⟨hg, ?_⟩
      rw [hg]; simp only [u]
      rw [if_pos (by linarith)]; ring
    · have b := chain_bounds r h4 e he
      have c := h3 e he
      have hk1 : (1 : ℚ) ≤ k := by
        rw [h1]; have : (0 : ℚ) ≤ r.length := Nat.cast_nonneg _
        linarith
      have ih := g_in_leap r h4 t e he ha hb
      have hgT : ¬ T ≤ t - k := by push Not; linarith
      have hg : g ((T, k) :: r) t = g r t := by simp only [g]; rw [if_neg hgT]
      rw [hg]
      refine ⟨ih.1, ?_⟩
      simp only [u]
      rw [if_neg, ih.2]
      push Not
      rw [ih.1]; linarith

/-! ## Link to the model -/

theorem leaps_times : leaps.map (fun p => ((epoch2time p.1).tot, -(p.2 : ℚ))) = leapTable := by
  simp only [leaps, leapTable, List.map_cons, List.map_nil, GTime.tot, epoch2time, truncQ, doyTbl]
  have h6 : Int.toNat 6 = 6 := rfl
  norm_num [h6]

theorem gpst2utcLoop_tot (t : GTime) : ∀ L : List (Epoch × Int),
    (gpst2utcLoop t L).tot = g (L.map (fun p => ((epoch2time p.1).tot, -(p.2 : ℚ)))) t.tot
  | [] => by simp [gpst2utcLoop, g]
  | (e, k) :: r => by
    have ih := gpst2utcLoop_tot t r
    simp only [gpst2utcLoop, List.map_cons, g, timediff_tot, tot_timeadd, ge_iff_le]
    by_cases h : 0 ≤ t.tot + (k : ℚ) - (epoch2time e).tot
    · rw [if_pos h, if_pos (by linarith), tot_timeadd]; ring
    · rw [if_neg h, if_neg (by intro hc; apply h; linarith), ih]

theorem utc2gpstLoop_tot (t : GTime) : ∀ L : List (Epoch × Int),
    (utc2gpstLoop t L).tot = u (L.map (fun p => ((epoch2time p.1).tot, -(p.2 : ℚ)))) t.tot
  | [] => by simp [utc2gpstLoop, u]
  | (e, k) :: r => by
    have ih := utc2gpstLoop_tot t r
    simp only [utc2gpstLoop, List.map_cons, u, timediff_tot, ge_iff_le]
    by_cases h : 0 ≤ t.tot - (epoch2time e).tot
    · rw [if_pos h, if_pos (by linarith), tot_timeadd]
    · rw [if_neg h, if_neg (by intro hc; apply h; linarith), ih]

theorem gpst2utcLoop_norm (t : GTime) (h : t.Norm) : ∀ L, (gpst2utcLoop t L).Norm
  | [] => h
  | (e, k) :: r => by
    simp only [gpst2utcLoop]; split
    · exact norm_timeadd _ _
    · exact gpst2utcLoop_norm t h r

theorem utc2gpstLoop_norm (t : GTime) (h : t.Norm) : ∀ L, (utc2gpstLoop t L).Norm
  | [] => h
  | (e, k) :: r => by
    simp only [utc2gpstLoop]; split
    · exact norm_timeadd _ _
    · exact utc2gpstLoop_norm t h r

theorem gpst2utc_tot (t : GTime) : (gpst2utc t).tot = g leapTable t.tot := by
  rw [gpst2utc, gpst2utcLoop_tot, leaps_times]

theorem utc2gpst_tot (t : GTime) : (utc2gpst t).tot = u leapTable t.tot := by
  rw [utc2gpst, utc2gpstLoop_tot, leaps_times]

/-! ## Theorems -/

/-- the instant of a time value, in seconds since 1970 -/
def instant (t : GTime) : ℚ := timediff t ⟨0, 0⟩

theorem instant_tot (t : GTime) : instant t = t.tot := by
  simp [instant, timediff_tot, GTime.tot]

/-- UTC is GPS time minus the number of leap seconds that have ended. -/
theorem gpst2utc_offset (t : GTime) : instant (gpst2utc t) = instant t - offsetGps (instant t) := by
  rw [instant_tot, instant_tot, gpst2utc_tot, g_eq _ chain_leapTable]; rfl

/-- GPS time is UTC plus the number of leap-second midnights passed. -/
theorem utc2gpst_offset (t : GTime) : instant (utc2gpst t) = instant t + offsetUtc (instant t) := by
  rw [instant_tot, instant_tot, utc2gpst_tot, u_eq _ chain_leapTable]; rfl

/-- UTC → GPS → UTC is the identity for every epoch. -/
theorem gpst2utc_utc2gpst (t : GTime) (h0 : 0 ≤ t.sec) (h1 : t.sec < 1) :
    gpst2utc (utc2gpst t) = t := by
  apply ext_tot (gpst2utcLoop_norm _ (utc2gpstLoop_norm _ ⟨h0, h1⟩ _) _) ⟨h0, h1⟩
  change (gpst2utc (utc2gpst t)).tot = t.tot
  rw [gpst2utc_tot, utc2gpst_tot, g_u _ chain_leapTable]

/-- GPS → UTC → GPS is the identity outside the inserted leap seconds. -/
theorem utc2gpst_gpst2utc (t : GTime) (h0 : 0 ≤ t.sec) (h1 : t.sec < 1)
    (hl : ¬ InLeapSecond (instant t)) : utc2gpst (gpst2utc t) = t := by
  apply ext_tot (utc2gpstLoop_norm _ (gpst2utcLoop_norm _ ⟨h0, h1⟩ _) _) ⟨h0, h1⟩
  change (utc2gpst (gpst2utc t)).tot = t.tot
  rw [utc2gpst_tot, gpst2utc_tot, u_g _ chain_leapTable]
  intro e he hc
  exact hl ⟨e, he, by rwa [instant_tot]⟩

example : ¬ InLeapSecond (instant ⟨1483228818, 0⟩) := by
  simp only [InLeapSecond, instant, timediff, leapTable]
  norm_num

/-- Inside an inserted leap second the round trip is late by exactly one second. -/
theorem roundtrip_in_leap_second (t : GTime) (hl : InLeapSecond (instant t)) :
    timediff (utc2gpst (gpst2utc t)) t = 1 := by
  obtain ⟨e, he, ha, hb⟩ := hl
  rw [instant_tot] at ha hb
  rw [timediff_tot, utc2gpst_tot, gpst2utc_tot, (g_in_leap _ chain_leapTable _ e he ha hb).2]
  ring

example : InLeapSecond (instant ⟨1483228817, 1 / 2⟩) :=
  ⟨(1483228800, 18), by simp [leapTable], by norm_num [instant, timediff], by
    norm_num [instant, timediff]⟩

end Verif.C06
