import Verif.Model.Ephsel
import Verif.Lemmas.Time
import Verif.Props.C05
import Verif.Props.C06
/-!
# C42 Day and week adjustment
-/

namespace Verif.C42
open Verif.Time Verif.Ephsel
open Verif.C06 (instant instant_tot)

/-! ## Adjusting an epoch to a reference -/

/-- **Adjustment by a period** (`adjtime`; a week by default): the result differs from the input by
-1, 0 or +1 periods, is within half a period of the reference when the input is within one and a
half, and an input already within half a period is returned unchanged. -/
theorem adjtime_spec (t tref : GTime) (dt : ℚ) (hdt : 0 < dt) :
    ∃ k : Int, (k = -1 ∨ k = 0 ∨ k = 1) ∧ timediff (adjtime t tref dt) t = k * dt ∧
      (|timediff t tref| ≤ dt / 2 → adjtime t tref dt = t) ∧
      (|timediff t tref| ≤ 3 / 2 * dt → |timediff (adjtime t tref dt) tref| ≤ dt / 2) := by
  unfold adjtime
  simp only
  by_cases h1 : timediff t tref < -dt / 2
  · rw [if_pos h1]
    refine ⟨1, by simp, ?_, ?_, ?_⟩
    · rw [timediff_tot, tot_timeadd]; push_cast; ring
    · intro h; have := (abs_le.1 h).1; exfalso; linarith
    · intro h
      have e : timediff (timeadd t dt) tref = timediff t tref + dt := by
        rw [timediff_tot, timediff_tot, tot_timeadd]; ring
      rw [e, abs_le]
      have := (abs_le.1 h).1
      constructor <;> linarith
  · rw [if_neg h1]
    by_cases h2 : timediff t tref > dt / 2
    · rw [if_pos h2]
      refine ⟨-1, by simp, ?_, ?_, ?_⟩
      · rw [timediff_tot, tot_timeadd]; push_cast; ring
      · intro h; have := (abs_le.1 h).2; exfalso; linarith
      · intro h
        have e : timediff (timeadd t (-dt)) tref = timediff t tref - dt := by
          rw [timediff_tot, timediff_tot, tot_timeadd]; ring
        rw [e, abs_le]
        have := (abs_le.1 h).2
        constructor <;> linarith
    · rw [if_neg h2]
      refine ⟨0, by simp, ?_, fun _ => rfl, ?_⟩
      · rw [timediff_tot]; push_cast; ring
      · intro _
        rw [abs_le]
        push Not at h1 h2
        constructor <;> linarith

/-- **Farther away** the adjustment still moves one period towards the reference only. -/
theorem adjtime_far (t tref : GTime) (dt : ℚ) (hdt : 0 < dt) (h : 3 / 2 * dt < |timediff t tref|) :
    |timediff (adjtime t tref dt) tref| = |timediff t tref| - dt ∧ dt / 2 < |timediff (adjtime t tref dt) tref| := by
  have key : |timediff (adjtime t tref dt) tref| = |timediff t tref| - dt := by
    unfold adjtime
    simp only
    rcases lt_abs.1 h with h | h
    · rw [if_neg (by linarith), if_pos (by linarith)]
      have e : timediff (timeadd t (-dt)) tref = timediff t tref - dt := by
        rw [timediff_tot, timediff_tot, tot_timeadd]; ring
      rw [e, abs_of_pos (by linarith), abs_of_pos (by linarith)]
    · rw [if_pos (by linarith)]
      have e : timediff (timeadd t dt) tref = timediff t tref + dt := by
        rw [timediff_tot, timediff_tot, tot_timeadd]; ring
      rw [e, abs_of_neg (by linarith), abs_of_neg (by linarith)]
      ring
  exact ⟨key, by rw [key]; linarith⟩

/-- `adjday` is the adjustment by one day -/
theorem adjday_eq (t t0 : GTime) : adjday t t0 = adjtime t t0 86400 := by
  unfold adjday adjtime
  norm_num

/-- **Day adjustment.** -/
theorem adjday_spec (t t0 : GTime) :
    ∃ k : Int, (k = -1 ∨ k = 0 ∨ k = 1) ∧ timediff (adjday t t0) t = k * 86400 ∧
      (|timediff t t0| ≤ 43200 → adjday t t0 = t) ∧
      (|timediff t t0| ≤ 129600 → |timediff (adjday t t0) t0| ≤ 43200) := by
  rw [adjday_eq]
  have := adjtime_spec t t0 86400 (by norm_num)
  norm_num at this ⊢
  exact this

/-- a sum below half a period decides the day uniquely -/
theorem day_unique {x : ℚ} {k k' : Int} (h : |x + k * 86400| < 43200) (h' : |x + k' * 86400| < 43200) : k = k' := by
  rw [abs_lt] at h h'
  have h1 : ((k - k' : Int) : ℚ) < 1 := by push_cast; linarith [h.1, h.2, h'.1, h'.2]
  have h2 : (-1 : ℚ) < ((k - k' : Int) : ℚ) := by push_cast; linarith [h.1, h.2, h'.1, h'.2]
  have h1' : k - k' < 1 := by exact_mod_cast h1
  have h2' : -1 < k - k' := by exact_mod_cast h2
  omega

/-! ## Resolving a time of day -/

/-- (week, tow) denotes the instant, for every epoch -/
theorem gpst_tot (t : GTime) : 315964800 + 604800 * ((time2gpst t).1 : ℚ) + (time2gpst t).2 = t.tot := by
  unfold time2gpst time2wk GTime.tot
  rw [C05.origin_gpst]
  simp only
  push_cast
  ring

theorem gpst_tow_bound (t : GTime) (hn : t.Norm) : -604801 < (time2gpst t).2 ∧ (time2gpst t).2 < 604801 := by
  unfold time2gpst time2wk
  rw [C05.origin_gpst]
  simp only
  have h1 : t.time - 315964800 - (t.time - 315964800).tdiv (86400 * 7) * 86400 * 7 ≤ 604800 := by
    have := Int.tmod_lt_of_pos (t.time - 315964800) (b := 604800) (by norm_num)
    have := Int.tmod_add_mul_tdiv (t.time - 315964800) 604800
    norm_num at *
    omega
  have h2 : -604800 ≤ t.time - 315964800 - (t.time - 315964800).tdiv (86400 * 7) * 86400 * 7 := by
    have := Int.lt_tmod_of_pos (t.time - 315964800) (b := 604800) (by norm_num)
    have := Int.tmod_add_mul_tdiv (t.time - 315964800) 604800
    norm_num at *
    omega
  have h1' : ((t.time - 315964800 - (t.time - 315964800).tdiv (86400 * 7) * 86400 * 7 : Int) : ℚ) ≤ 604800 := by
    exact_mod_cast h1
  have h2' : (-604800 : ℚ) ≤ ((t.time - 315964800 - (t.time - 315964800).tdiv (86400 * 7) * 86400 * 7 : Int) : ℚ) := by
    exact_mod_cast h2
  obtain ⟨a, b⟩ := hn
  constructor <;> linarith

theorem gpst2time_tot (week : Int) (tow : ℚ) (h : -1000000000 ≤ tow ∧ tow ≤ 1000000000) :
    (gpst2time week tow).tot = 315964800 + 604800 * week + tow := by
  have := (C05.week_tow_instant week tow h).1
  rw [timediff_tot] at this
  simpa [GTime.tot] using this

/-- **GPS time of day** (`tod2tow`): the epoch returned has the given time of day (a whole number
of days since 1970 plus it) and lies within half a day of the reference. -/
theorem tod2tow_spec (tod : ℚ) (t0 : GTime) (hn : t0.Norm) (h0 : 0 ≤ tod) (h1 : tod < 86400) :
    (∃ d : Int, instant (tod2tow tod t0) = d * 86400 + tod) ∧ |timediff (tod2tow tod t0) t0| ≤ 43200 := by
  have hb := gpst_tow_bound t0 hn
  have ht := gpst_tot t0
  unfold tod2tow
  rcases hw : time2gpst t0 with ⟨week, tow0⟩
  rw [hw] at hb ht
  simp only at hb ht ⊢
  have f1 := Int.floor_le (tow0 / 86400)
  have f2 := Int.lt_floor_add_one (tow0 / 86400)
  generalize ⌊tow0 / 86400⌋ = q at *
  have f1' : (q : ℚ) * 86400 ≤ tow0 := by rwa [le_div_iff₀ (by norm_num)] at f1
  have f2' : tow0 < (q + 1) * 86400 := by rwa [div_lt_iff₀ (by norm_num)] at f2
  have hc := gpst2time_tot week ((q : ℚ) * 86400 + tod) ⟨by linarith, by linarith⟩
  generalize gpst2time week ((q : ℚ) * 86400 + tod) = c at *
  have hd : timediff c t0 = tod - (tow0 - q * 86400) := by
    rw [timediff_tot, hc, ← ht]; ring
  obtain ⟨k, _, hk, _, hin⟩ := adjtime_spec c t0 86400 (by norm_num)
  constructor
  · refine ⟨3657 + 7 * week + q + k, ?_⟩
    rw [instant_tot]
    rw [timediff_tot] at hk
    have : (adjtime c t0 86400).tot = c.tot + k * 86400 := by linarith
    rw [this, hc]
    push_cast
    ring
  · have := hin (by rw [hd, abs_le]; constructor <;> linarith)
    norm_num at this
    exact this

/-- **GLONASS time of day** (`glo2time`, Moscow time): the epoch returned, converted to UTC plus
three hours, has the given time of day and lies within half a day of the reference. -/
theorem glo2time_spec (tod : ℚ) (tref : GTime) (hn : tref.Norm) (h0 : 0 ≤ tod) (h1 : tod < 86400) :
    (∃ d : Int, instant (gpst2utc (glo2time tref tod)) + 10800 = d * 86400 + tod) ∧
      |timediff (gpst2utc (glo2time tref tod)) (gpst2utc tref)| ≤ 43200 := by
  have hnu : (timeadd (gpst2utc tref) 10800).Norm := norm_timeadd _ _
  have hm : (timeadd (gpst2utc tref) 10800).tot = (gpst2utc tref).tot + 10800 := tot_timeadd _ _
  have hb := gpst_tow_bound _ hnu
  have ht := gpst_tot (timeadd (gpst2utc tref) 10800)
  unfold glo2time
  simp only
  rcases hw : time2gpst (timeadd (gpst2utc tref) 10800) with ⟨week, tow⟩
  rw [hw, hm] at ht
  rw [hw] at hb
  simp only at hb ht ⊢
  have f1 := Int.floor_le (tow / 86400)
  have f2 := Int.lt_floor_add_one (tow / 86400)
  generalize ⌊tow / 86400⌋ = q at *
  have f1' : (q : ℚ) * 86400 ≤ tow := by rwa [le_div_iff₀ (by norm_num)] at f1
  have f2' : tow < (q + 1) * 86400 := by rwa [div_lt_iff₀ (by norm_num)] at f2
  have hx : ∃ k : Int, (if tod < tow - 86400 * (q : ℚ) - 43200 then tod + 86400
      else if tod > tow - 86400 * (q : ℚ) + 43200 then tod - 86400 else tod) = tod + k * 86400 ∧
      |tod + k * 86400 - (tow - 86400 * q)| ≤ 43200 ∧ -1 ≤ k ∧ k ≤ 1 := by
    by_cases c1 : tod < tow - 86400 * (q : ℚ) - 43200
    · rw [if_pos c1]
      refine ⟨1, by push_cast; ring, ?_, by norm_num, by norm_num⟩
      rw [abs_le]; push_cast; constructor <;> linarith
    · rw [if_neg c1]
      by_cases c2 : tod > tow - 86400 * (q : ℚ) + 43200
      · rw [if_pos c2]
        refine ⟨-1, by push_cast; ring, ?_, by norm_num, by norm_num⟩
        rw [abs_le]; push_cast; constructor <;> linarith
      · rw [if_neg c2]
        refine ⟨0, by push_cast; ring, ?_, by norm_num, by norm_num⟩
        push Not at c1 c2
        rw [abs_le]; push_cast; constructor <;> linarith
  obtain ⟨k, hk, hkb, hk1, hk2⟩ := hx
  rw [hk]
  have hk1' : (-1 : ℚ) ≤ k := by exact_mod_cast hk1
  have hk2' : (k : ℚ) ≤ 1 := by exact_mod_cast hk2
  have hc := gpst2time_tot week (tow - (tow - 86400 * (q : ℚ)) + (tod + k * 86400)) ⟨by linarith, by linarith⟩
  generalize gpst2time week (tow - (tow - 86400 * (q : ℚ)) + (tod + k * 86400)) = c at *
  have hv : (gpst2utc (utc2gpst (timeadd c (-10800)))).tot = c.tot - 10800 := by
    have hn2 := norm_timeadd c (-10800)
    rw [C06.gpst2utc_utc2gpst _ hn2.1 hn2.2, tot_timeadd]
    ring
  constructor
  · refine ⟨3657 + 7 * week + q + k, ?_⟩
    rw [instant_tot, hv, hc]
    push_cast
    ring
  · rw [timediff_tot, hv, hc]
    rw [show 315964800 + 604800 * (week : ℚ) + (tow - (tow - 86400 * (q : ℚ)) + (tod + k * 86400)) - 10800 -
      (gpst2utc tref).tot = tod + k * 86400 - (tow - 86400 * q) by linarith]
    exact hkb

/-! ## Concrete cases -/

example : adjday ⟨86400, 0⟩ ⟨0, 0⟩ = ⟨0, 0⟩ := by decide +kernel
example : adjday ⟨43200, 0⟩ ⟨0, 0⟩ = ⟨43200, 0⟩ := by decide +kernel
example : adjday ⟨-43201, 0⟩ ⟨0, 0⟩ = ⟨43199, 0⟩ := by decide +kernel
example : (3 / 2 : ℚ) * 86400 < |timediff ⟨200000, 0⟩ ⟨0, 0⟩| := by norm_num [timediff]
/-- shortly before midnight a small time of day belongs to the next day -/
example : tod2tow 5 ⟨1600041599, 0⟩ = ⟨1600041605, 0⟩ := by decide +kernel
example : (GTime.mk 1600041599 0).Norm := by unfold GTime.Norm; norm_num

end Verif.C42
