import Verif.Lemmas.Time
import Mathlib.Tactic.NormNum
/-!
# C05 GNSS week/TOW conversions round-trip

The three time systems share one body; the theorems are stated for each of the
three pairs of functions.
-/

namespace Verif.C05
open Verif.Time

theorem truncQ_le {x : ℚ} (h : 0 ≤ x) : ((truncQ x : Int) : ℚ) ≤ x ∧ x < (truncQ x : Int) + 1 := by
  simp only [truncQ, h, if_true]
  exact ⟨Int.floor_le x, Int.lt_floor_add_one x⟩

theorem truncQ_neg {x : ℚ} (h : x < 0) : x ≤ ((truncQ x : Int) : ℚ) ∧ (truncQ x : Int) - 1 < x := by
  simp only [truncQ, not_le.mpr h, if_false]
  exact ⟨Int.le_ceil x, by linarith [Int.ceil_lt_add_one x]⟩

theorem wk_roundtrip (t0 : Epoch) (week : Int) (tow : ℚ) (hw : 0 ≤ week) (h0 : 0 ≤ tow)
    (h1 : tow < 604800) : time2wk t0 (wk2time t0 week tow) = (week, tow) := by
  obtain ⟨hl, hu⟩ := truncQ_le h0
  have hn : 0 ≤ truncQ tow := by
    have : (-1 : ℚ) < truncQ tow := by linarith
    have : -1 < truncQ tow := by exact_mod_cast this
    omega
  have hlt : truncQ tow < 604800 := by
    have : ((truncQ tow : Int) : ℚ) < (604800 : Int) := by push_cast; linarith
    exact_mod_cast this
  have hr : ¬ (tow < -1000000000 ∨ tow > 1000000000) := by
    rintro (h | h) <;> linarith
  simp only [time2wk, wk2time, hr, if_false]
  have e : (epoch2time t0).time + (86400 * 7 * week + truncQ tow) - (epoch2time t0).time
      = 86400 * 7 * week + truncQ tow := by omega
  rw [e]
  have ew : (86400 * 7 * week + truncQ tow).tdiv (86400 * 7) = week := by
    rw [Int.tdiv_eq_ediv_of_nonneg (by omega)]; omega
  rw [ew]
  have e2 : 86400 * 7 * week + truncQ tow - week * 86400 * 7 = truncQ tow := by omega
  rw [e2]
  simp

theorem origin_gpst : epoch2time gpst0 = ⟨315964800, 0⟩ := by
  simp [epoch2time, gpst0, truncQ, doyTbl]
theorem origin_gst : epoch2time gst0 = ⟨935280000, 0⟩ := by
  simp [epoch2time, gst0, truncQ, doyTbl]
theorem origin_bdt : epoch2time bdt0 = ⟨1136073600, 0⟩ := by
  simp [epoch2time, bdt0, truncQ, doyTbl]

theorem wk2time_instant (t0 : Epoch) (o : Int) (ho : epoch2time t0 = ⟨o, 0⟩) (week : Int) (tow : ℚ)
    (h : -1000000000 ≤ tow ∧ tow ≤ 1000000000) :
    timediff (wk2time t0 week tow) ⟨0, 0⟩ = o + 604800 * week + tow := by
  have hr : ¬ (tow < -1000000000 ∨ tow > 1000000000) := by
    rintro (h | h) <;> linarith
  simp only [wk2time, hr, if_false, ho, timediff]
  push_cast; ring

theorem time2wk_range (t0 : Epoch) (t : GTime) (h : (epoch2time t0).time ≤ t.time)
    (hs0 : 0 ≤ t.sec) (hs1 : t.sec < 1) :
    0 ≤ (time2wk t0 t).1 ∧ 0 ≤ (time2wk t0 t).2 ∧ (time2wk t0 t).2 < 604800 := by
  simp only [time2wk]
  have hd : (t.time - (epoch2time t0).time).tdiv (86400 * 7)
      = (t.time - (epoch2time t0).time) / 604800 := by
    rw [Int.tdiv_eq_ediv_of_nonneg (by omega)]; rfl
  rw [hd]
  generalize (epoch2time t0).time = o at *
  have h0 : 0 ≤ t.time - o - (t.time - o) / 604800 * 86400 * 7 := by omega
  have h1 : t.time - o - (t.time - o) / 604800 * 86400 * 7 ≤ 604799 := by omega
  have h0' : (0 : ℚ) ≤ ((t.time - o - (t.time - o) / 604800 * 86400 * 7 : Int) : ℚ) := by
    exact_mod_cast h0
  have h1' : ((t.time - o - (t.time - o) / 604800 * 86400 * 7 : Int) : ℚ) ≤ 604799 := by
    exact_mod_cast h1
  exact ⟨by omega, by linarith, by linarith⟩

/-- week/tow → time → week/tow denote the same instant, for every epoch (also before the
origin), and give back the identical normalised time from the origin on. -/
theorem wk2time_time2wk (t0 : Epoch) (t : GTime) (hs0 : 0 ≤ t.sec) (hs1 : t.sec < 1) :
    timediff (wk2time t0 (time2wk t0 t).1 (time2wk t0 t).2) t = 0 ∧
    ((epoch2time t0).time ≤ t.time → wk2time t0 (time2wk t0 t).1 (time2wk t0 t).2 = t) := by
  have hdiff : timediff (wk2time t0 (time2wk t0 t).1 (time2wk t0 t).2) t = 0 := by
    have hw : ∀ a : Int, -604800 < a - a.tdiv (86400 * 7) * 86400 * 7 ∧
        a - a.tdiv (86400 * 7) * 86400 * 7 < 604800 := by
      intro a
      rcases le_total 0 a with h | h
      · rw [Int.tdiv_eq_ediv_of_nonneg h]; omega
      · have : a.tdiv (86400 * 7) = -((-a) / 604800) := by
          rw [← Int.neg_neg a, Int.neg_tdiv, Int.tdiv_eq_ediv_of_nonneg (by omega)]
          simp
        rw [this]; omega
    obtain ⟨hw1, hw2⟩ := hw (t.time - (epoch2time t0).time)
    simp only [time2wk]
    generalize hW : (t.time - (epoch2time t0).time).tdiv (86400 * 7) = w at *
    generalize hA : (t.time - (epoch2time t0).time) - w * 86400 * 7 = a at *
    have hw1' : (-604800 : ℚ) < a := by exact_mod_cast hw1
    have hw2' : (a : ℚ) < 604800 := by exact_mod_cast hw2
    have hr : ¬ ((a : ℚ) + t.sec < -1000000000 ∨ (a : ℚ) + t.sec > 1000000000) := by
      rintro (h | h) <;> linarith
    simp only [wk2time, hr, if_false, timediff]
    have : (t.time : ℚ) = (epoch2time t0).time + 604800 * w + a := by
      have : t.time = (epoch2time t0).time + 604800 * w + a := by omega
      rw [this]; push_cast; ring
    push_cast
    rw [this]; ring
  refine ⟨hdiff, fun h => ?_⟩
  obtain ⟨_, r0, r1⟩ := time2wk_range t0 t h hs0 hs1
  apply ext_tot _ ⟨hs0, hs1⟩
  · rw [timediff_tot] at hdiff; linarith
  · generalize (time2wk t0 t).2 = x at *
    have hr : ¬ (x < -1000000000 ∨ x > 1000000000) := by
      rintro (h | h) <;> linarith
    obtain ⟨hl, hu⟩ := truncQ_le r0
    simp only [GTime.Norm, wk2time, hr, if_false]
    constructor <;> linarith

/-! ## The three time systems -/

/-- GPS time: (week, tow) → time → (week, tow). -/
theorem gpst_roundtrip (week : Int) (tow : ℚ) (hw : 0 ≤ week) (h0 : 0 ≤ tow) (h1 : tow < 604800) :
    time2gpst (gpst2time week tow) = (week, tow) := wk_roundtrip gpst0 week tow hw h0 h1

/-- Galileo system time: (week, tow) → time → (week, tow). -/
theorem gst_roundtrip (week : Int) (tow : ℚ) (hw : 0 ≤ week) (h0 : 0 ≤ tow) (h1 : tow < 604800) :
    time2gst (gst2time week tow) = (week, tow) := wk_roundtrip gst0 week tow hw h0 h1

/-- BeiDou time: (week, tow) → time → (week, tow). -/
theorem bdt_roundtrip (week : Int) (tow : ℚ) (hw : 0 ≤ week) (h0 : 0 ≤ tow) (h1 : tow < 604800) :
    time2bdt (bdt2time week tow) = (week, tow) := wk_roundtrip bdt0 week tow hw h0 h1

example : (0 : Int) ≤ 2222 ∧ (0 : ℚ) ≤ 604799 + 7 / 8 ∧ (604799 + 7 / 8 : ℚ) < 604800 := by norm_num

/-- The instant of a (week, tow) pair is its system's origin (1980-01-06, 1999-08-22,
2006-01-01, in seconds since 1970) plus whole weeks plus tow. -/
theorem week_tow_instant (week : Int) (tow : ℚ) (h : -1000000000 ≤ tow ∧ tow ≤ 1000000000) :
    timediff (gpst2time week tow) ⟨0, 0⟩ = 315964800 + 604800 * week + tow ∧
    timediff (gst2time week tow) ⟨0, 0⟩ = 935280000 + 604800 * week + tow ∧
    timediff (bdt2time week tow) ⟨0, 0⟩ = 1136073600 + 604800 * week + tow :=
  ⟨by exact_mod_cast wk2time_instant gpst0 _ origin_gpst week tow h,
   by exact_mod_cast wk2time_instant gst0 _ origin_gst week tow h,
   by exact_mod_cast wk2time_instant bdt0 _ origin_bdt week tow h⟩

/-- From the origin on the returned tow is in [0, 604800) and the week is not negative. -/
theorem tow_range (t : GTime) (hs0 : 0 ≤ t.sec) (hs1 : t.sec < 1) :
    (315964800 ≤ t.time → 0 ≤ (time2gpst t).1 ∧ 0 ≤ (time2gpst t).2 ∧ (time2gpst t).2 < 604800) ∧
    (935280000 ≤ t.time → 0 ≤ (time2gst t).1 ∧ 0 ≤ (time2gst t).2 ∧ (time2gst t).2 < 604800) ∧
    (1136073600 ≤ t.time → 0 ≤ (time2bdt t).1 ∧ 0 ≤ (time2bdt t).2 ∧ (time2bdt t).2 < 604800) :=
  ⟨fun h => time2wk_range gpst0 t (by rw [origin_gpst]; exact h) hs0 hs1,
   fun h => time2wk_range gst0 t (by rw [origin_gst]; exact h) hs0 hs1,
   fun h => time2wk_range bdt0 t (by rw [origin_bdt]; exact h) hs0 hs1⟩

/-- time → (week, tow) → time gives the same instant for every epoch. -/
theorem time_roundtrip (t : GTime) (hs0 : 0 ≤ t.sec) (hs1 : t.sec < 1) :
    timediff (gpst2time (time2gpst t).1 (time2gpst t).2) t = 0 ∧
    timediff (gst2time (time2gst t).1 (time2gst t).2) t = 0 ∧
    timediff (bdt2time (time2bdt t).1 (time2bdt t).2) t = 0 :=
  ⟨(wk2time_time2wk gpst0 t hs0 hs1).1, (wk2time_time2wk gst0 t hs0 hs1).1,
   (wk2time_time2wk bdt0 t hs0 hs1).1⟩

/-- time → (week, tow) → time is the identity from the origin on. -/
theorem time_roundtrip_eq (t : GTime) (hs0 : 0 ≤ t.sec) (hs1 : t.sec < 1) :
    (315964800 ≤ t.time → gpst2time (time2gpst t).1 (time2gpst t).2 = t) ∧
    (935280000 ≤ t.time → gst2time (time2gst t).1 (time2gst t).2 = t) ∧
    (1136073600 ≤ t.time → bdt2time (time2bdt t).1 (time2bdt t).2 = t) :=
  ⟨fun h => (wk2time_time2wk gpst0 t hs0 hs1).2 (by rw [origin_gpst]; exact h),
   fun h => (wk2time_time2wk gst0 t hs0 hs1).2 (by rw [origin_gst]; exact h),
   fun h => (wk2time_time2wk bdt0 t hs0 hs1).2 (by rw [origin_bdt]; exact h)⟩

/-- Galileo and BeiDou weeks are the GPS week minus 1024 and 1356, with the same tow. -/
theorem week_offsets (week : Int) (tow : ℚ) (h0 : 0 ≤ tow) (h1 : tow < 604800) :
    (1024 ≤ week → time2gst (gpst2time week tow) = (week - 1024, tow)) ∧
    (1356 ≤ week → time2bdt (gpst2time week tow) = (week - 1356, tow)) := by
  have key : ∀ (t0 : Epoch) (o k : Int), epoch2time t0 = ⟨o, 0⟩ → o = 315964800 + 604800 * k →
      gpst2time week tow = wk2time t0 (week - k) tow := by
    intro t0 o k ho hk
    simp only [gpst2time, wk2time, origin_gpst, ho, hk, GTime.mk.injEq]
    exact ⟨by omega, trivial⟩
  constructor
  · intro h
    rw [key gst0 _ 1024 origin_gst (by norm_num)]
    exact gst_roundtrip _ _ (by omega) h0 h1
  · intro h
    rw [key bdt0 _ 1356 origin_bdt (by norm_num)]
    exact bdt_roundtrip _ _ (by omega) h0 h1

/-- GPST↔BDT offset conversions are mutually inverse on normalised epochs. -/
theorem bdt_gpst_inverse (t : GTime) (hs0 : 0 ≤ t.sec) (hs1 : t.sec < 1) :
    bdt2gpst (gpst2bdt t) = t ∧ gpst2bdt (bdt2gpst t) = t := by
  constructor
  all_goals
    apply ext_tot (norm_timeadd _ _) ⟨hs0, hs1⟩
    simp only [gpst2bdt, bdt2gpst, tot_timeadd]; ring

/-- Before the origin the round trip of the pair fails (truncation toward zero): week −1,
tow 1 comes back as week 0, tow −604799. -/
theorem negative_week_fails : time2gpst (gpst2time (-1) 1) = (0, -604799) := by
  have : truncQ (1 : ℚ) = 1 := by simp [truncQ]
  have h : ¬ ((1 : ℚ) < -1000000000 ∨ (1 : ℚ) > 1000000000) := by norm_num
  simp only [time2gpst, gpst2time, time2wk, wk2time, h, if_false, this, origin_gpst]
  norm_num
  decide

/-- A tow outside ±1e9 s is silently replaced by zero. -/
theorem tow_out_of_range (week : Int) (tow : ℚ) (h : tow < -1000000000 ∨ 1000000000 < tow) :
    gpst2time week tow = gpst2time week 0 := by
  have h0 : ¬ ((0 : ℚ) < -1000000000 ∨ (0 : ℚ) > 1000000000) := by norm_num
  simp only [gpst2time, wk2time, h0, if_false, gt_iff_lt, h, if_true]

end Verif.C05
