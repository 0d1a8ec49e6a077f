import Verif.Model.Time
import Mathlib.Tactic.Linarith
import Mathlib.Tactic.IntervalCases
/-!
# C03 Calendar time conversion round-trips

Specification: the proleptic Gregorian calendar, by counting days
(`isLeap`, `monthLen`, `dayNumber`), without reference to the tables of the code.
-/

namespace Verif.C03
open Verif.Time

/-! ## Specification -/

/-- Gregorian leap-year rule -/
def isLeap (y : Int) : Bool := y % 4 = 0 ∧ (y % 100 ≠ 0 ∨ y % 400 = 0)

/-- Gregorian month length -/
def monthLen (y : Int) : Nat → Int
  | 1 => 31 | 2 => if isLeap y then 29 else 28 | 3 => 31 | 4 => 30 | 5 => 31 | 6 => 30
  | 7 => 31 | 8 => 31 | 9 => 30 | 10 => 31 | 11 => 30 | 12 => 31 | _ => 0

/-- length of the first `k` months -/
def monthsLen (y : Int) : Nat → Int
  | 0 => 0
  | k + 1 => monthsLen y k + monthLen y (k + 1)

/-- length of the `n` years from 1970 on -/
def yearsLen : Nat → Int
  | 0 => 0
  | n + 1 => yearsLen n + monthsLen (1970 + n) 12

/-- days from 1970-01-01 to a date, by counting -/
def dayNumber (y m d : Int) : Int :=
  yearsLen (y - 1970).toNat + monthsLen y (m - 1).toNat + (d - 1)

/-- a calendar date of the supported range and a time of day -/
def Valid (e : Epoch) : Prop :=
  1970 ≤ e.year ∧ e.year ≤ 2099 ∧ 1 ≤ e.mon ∧ e.mon ≤ 12 ∧
  1 ≤ e.day ∧ e.day ≤ monthLen e.year e.mon.toNat ∧
  0 ≤ e.hour ∧ e.hour ≤ 23 ∧ 0 ≤ e.min ∧ e.min ≤ 59 ∧ 0 ≤ e.sec ∧ e.sec < 60

/-! ## Lemmas -/

theorem isLeap_iff (y : Int) (h1 : 1970 ≤ y) (h2 : y ≤ 2099) : isLeap y = true ↔ y % 4 = 0 := by
  simp only [isLeap, decide_eq_true_eq]; omega

theorem monthsLen_12 (y : Int) : monthsLen y 12 = if isLeap y then 366 else 365 := by
  simp only [monthsLen, monthLen]; split <;> rfl

theorem yearsLen_eq (n : Nat) (h : n ≤ 130) : yearsLen n = 365 * n + ((n + 1) / 4 : Nat) := by
  induction n with
  | zero => rfl
  | succ n ih =>
    rw [yearsLen, ih (by omega), monthsLen_12]
    have := isLeap_iff (1970 + n) (by omega) (by omega)
    split
    · have := this.1 (by assumption); push_cast; omega
    · have : ¬ ((1970 + (n : Int)) % 4 = 0) := fun h => by simp_all
      push_cast; omega

/-- the code's day count is the calendar's day count -/
theorem epoch2time_time (e : Epoch) (hy1 : 1970 ≤ e.year) (hy2 : e.year ≤ 2099)
    (hm1 : 1 ≤ e.mon) (hm2 : e.mon ≤ 12) :
    (epoch2time e).time = dayNumber e.year e.mon e.day * 86400 + e.hour * 3600 + e.min * 60
      + truncQ e.sec := by
  unfold epoch2time
  rw [if_neg (by omega)]
  simp only
  congr 3
  congr 1
  unfold dayNumber
  rw [yearsLen_eq _ (by omega)]
  have hl := isLeap_iff e.year hy1 hy2
  generalize e.mon = m at *
  by_cases hq : e.year % 4 = 0
  · have hl' := hl.2 hq
    interval_cases m <;>
      simp [doyTbl, monthsLen, monthLen, hl', hq] <;> omega
  · have hl' : isLeap e.year = false := by
      cases h : isLeap e.year
      · rfl
      · exact absurd (hl.1 h) hq
    interval_cases m <;>
      simp [doyTbl, monthsLen, monthLen, hl', hq] <;> omega

/-- prefix sums of the 48-month table -/
def cum : Nat → Int
  | 0 => 0
  | k + 1 => cum k + mdayTbl.getD k 0

theorem monLoop_cum : ∀ m : Fin 48, ∀ d : Fin 31, (d.val : Int) < mdayTbl.getD m.val 0 →
    monLoop mdayTbl 0 (cum m.val + d.val) = ((m.val : Int), (d.val : Int)) ∧
      cum m.val + d.val < 1461 ∧ 0 ≤ cum m.val := by
  decide +kernel

theorem monLoop_total : ∀ r : Fin 1461,
    let p := monLoop mdayTbl 0 (r.val : Int)
    0 ≤ p.1 ∧ p.1 < 48 ∧ 0 ≤ p.2 ∧ p.2 < mdayTbl.getD p.1.toNat 0 ∧
      cum p.1.toNat + p.2 = (r.val : Int) := by
  decide +kernel

theorem truncQ_nonneg {x : ℚ} (h : 0 ≤ x) : truncQ x = ⌊x⌋ := by simp [truncQ, h]

theorem monthLen_congr {y y' : Int} (h : isLeap y = isLeap y') (k : Nat) :
    monthLen y k = monthLen y' k := by
  unfold monthLen; rw [h]

theorem monthsLen_congr {y y' : Int} (h : isLeap y = isLeap y') (k : Nat) :
    monthsLen y k = monthsLen y' k := by
  induction k with
  | zero => rfl
  | succ k ih => rw [monthsLen, monthsLen, ih, monthLen_congr h]

theorem cum_month : ∀ r : Fin 4, ∀ m : Fin 12,
    cum (12 * r.val + m.val) = 365 * (r.val : Int) + (if r.val = 3 then 1 else 0)
      + monthsLen (1970 + r.val) m.val ∧
    mdayTbl.getD (12 * r.val + m.val) 0 = monthLen (1970 + r.val) (m.val + 1) := by
  decide +kernel

/-- days of the calendar split into 4-year cycles -/
theorem dayNumber_cycle (y m d : Int) (hy1 : 1970 ≤ y) (hy2 : y ≤ 2099)
    (hm1 : 1 ≤ m) (hm2 : m ≤ 12) :
    dayNumber y m d = (y - 1970) / 4 * 1461 + cum (((y - 1970) % 4) * 12 + (m - 1)).toNat + (d - 1)
    ∧ monthLen y m.toNat = mdayTbl.getD (((y - 1970) % 4) * 12 + (m - 1)).toNat 0 := by
  have hl := isLeap_iff y hy1 hy2
  unfold dayNumber
  rw [yearsLen_eq _ (by omega)]
  obtain ⟨r, hr⟩ : ∃ r : Nat, (y - 1970) % 4 = r := ⟨((y - 1970) % 4).toNat, by omega⟩
  have hl' := isLeap_iff (1970 + r) (by omega) (by omega)
  have hleap : isLeap y = isLeap (1970 + r) := by
    rw [Bool.eq_iff_iff, hl, hl']; omega
  obtain ⟨hc1, hc2⟩ := cum_month ⟨r, by omega⟩ ⟨(m - 1).toNat, by omega⟩
  simp only at hc1 hc2
  have e : ((y - 1970) % 4 * 12 + (m - 1)).toNat = 12 * r + (m - 1).toNat := by omega
  have e' : m.toNat = (m - 1).toNat + 1 := by omega
  rw [e, hc1, hc2, monthsLen_congr hleap, e', monthLen_congr hleap]
  refine ⟨?_, rfl⟩
  split <;> omega

/-! ## Theorems -/

/-- The internal time of a valid epoch is its calendar day count (in seconds) plus the time of
day; the fractional part is kept separately in [0,1). -/
theorem epoch2time_daycount (e : Epoch) (h : Valid e) :
    ((epoch2time e).time : ℚ) + (epoch2time e).sec
      = (dayNumber e.year e.mon e.day * 86400 + e.hour * 3600 + e.min * 60 : Int) + e.sec ∧
    0 ≤ (epoch2time e).sec ∧ (epoch2time e).sec < 1 := by
  obtain ⟨h1, h2, h3, h4, -, -, -, -, -, -, hs, -⟩ := h
  have ht := epoch2time_time e h1 h2 h3 h4
  have hsec : (epoch2time e).sec = e.sec - ⌊e.sec⌋ := by
    unfold epoch2time
    rw [if_neg (by omega)]
    simp [truncQ_nonneg hs]
  rw [truncQ_nonneg hs] at ht
  refine ⟨?_, ?_, ?_⟩
  · rw [ht, hsec]; push_cast; ring
  · rw [hsec]; linarith [Int.floor_le e.sec]
  · rw [hsec]; linarith [Int.lt_floor_add_one e.sec]

/-- Converting a calendar epoch to internal time and back is the identity. -/
theorem time2epoch_epoch2time (e : Epoch) (h : Valid e) : time2epoch (epoch2time e) = e := by
  obtain ⟨h1, h2, h3, h4, hd1, hd2, hh0, hh1, hn0, hn1, hs, hs60⟩ := h
  have ht := epoch2time_time e h1 h2 h3 h4
  have hsec : (epoch2time e).sec = e.sec - ⌊e.sec⌋ := by
    unfold epoch2time
    rw [if_neg (by omega)]
    simp [truncQ_nonneg hs]
  rw [truncQ_nonneg hs] at ht
  have hf0 : 0 ≤ ⌊e.sec⌋ := Int.floor_nonneg.mpr hs
  have hf1 : ⌊e.sec⌋ < 60 := by
    rw [Int.floor_lt]; exact_mod_cast hs60
  obtain ⟨hc1, hc2⟩ := dayNumber_cycle e.year e.mon e.day h1 h2 h3 h4
  have hday31 : monthLen e.year e.mon.toNat ≤ 31 := by
    have hm : e.mon.toNat ≤ 12 := by omega
    generalize e.mon.toNat = m at *
    interval_cases m <;> simp only [monthLen] <;> (try split) <;> omega
  obtain ⟨hl1, hl2, hl3⟩ := monLoop_cum
    ⟨(((e.year - 1970) % 4) * 12 + (e.mon - 1)).toNat, by omega⟩
    ⟨(e.day - 1).toNat, by omega⟩ (by simp only; rw [← hc2]; omega)
  simp only at hl1 hl2 hl3
  rw [Int.toNat_of_nonneg (by omega : 0 ≤ e.day - 1)] at hl1 hl2
  generalize hD : dayNumber e.year e.mon e.day = D at *
  generalize hQ : (e.year - 1970) / 4 = q at *
  generalize hC : cum (((e.year - 1970) % 4) * 12 + (e.mon - 1)).toNat = c at *
  have hD0 : 0 ≤ D := by omega
  unfold time2epoch
  rw [ht, hsec]
  have edays : (D * 86400 + e.hour * 3600 + e.min * 60 + ⌊e.sec⌋).tdiv 86400 = D := by
    rw [Int.tdiv_eq_ediv_of_nonneg (by omega)]; omega
  simp only [edays]
  have emod : D.fmod 1461 = c + (e.day - 1) := by
    rw [Int.fmod_eq_emod_of_nonneg _ (by decide)]; omega
  have ediv : D.fdiv 1461 = q := by
    rw [Int.fdiv_eq_ediv_of_nonneg _ (by decide)]; omega
  rw [emod, ediv, hl1]
  simp only
  obtain ⟨y, m, d, hh, mn, s⟩ := e
  simp only at *
  have hk : ((((y - 1970) % 4 * 12 + (m - 1)).toNat : Nat) : Int) = (y - 1970) % 4 * 12 + (m - 1) :=
    Int.toNat_of_nonneg (by omega)
  rw [hk]
  have hfd : ∀ a b : Int, 0 ≤ b → a.fdiv b = a / b := fun a b h => Int.fdiv_eq_ediv_of_nonneg a h
  have hfm : ∀ a b : Int, 0 ≤ b → a.fmod b = a % b := fun a b h => Int.fmod_eq_emod_of_nonneg a h
  rw [hfd _ 12 (by decide), hfm _ 12 (by decide), hfd _ 3600 (by decide), hfm _ 3600 (by decide),
    hfd _ 60 (by decide), hfm _ 60 (by decide)]
  simp only [Epoch.mk.injEq]
  refine ⟨by omega, by omega, by omega, by omega, by omega, ?_⟩
  have : (D * 86400 + hh * 3600 + mn * 60 + ⌊s⌋ - D * 86400) % 60 = ⌊s⌋ := by omega
  rw [this]; ring

example : Valid ⟨2000, 2, 29, 23, 59, 119 / 2⟩ ∧ epoch2time ⟨2000, 2, 29, 23, 59, 119 / 2⟩ =
    ⟨951868799, 1 / 2⟩ := by
  constructor
  · unfold Valid; exact ⟨by decide, by decide, by decide, by decide, by decide, by decide, by decide,
      by decide, by decide, by decide, by norm_num, by norm_num⟩
  · have : ⌊(119 / 2 : ℚ)⌋ = 59 := by rw [Int.floor_eq_iff]; norm_num
    simp only [epoch2time, truncQ]
    norm_num [this, doyTbl]

/-- Every internal time from 1970 up to the end of 2099 converts to a valid calendar epoch, and
converting that epoch back gives the same time. -/
theorem epoch2time_time2epoch (t : GTime) (h0 : 0 ≤ t.time)
    (h1 : t.time < dayNumber 2100 1 1 * 86400) (hs0 : 0 ≤ t.sec) (hs1 : t.sec < 1) :
    Valid (time2epoch t) ∧ epoch2time (time2epoch t) = t := by
  have hmax : dayNumber 2100 1 1 = 47482 := by
    unfold dayNumber
    rw [yearsLen_eq _ (by omega)]
    simp [monthsLen]
  rw [hmax] at h1
  obtain ⟨D, hD⟩ : ∃ D, D = t.time / 86400 := ⟨_, rfl⟩
  obtain ⟨S, hS⟩ : ∃ S, S = t.time % 86400 := ⟨_, rfl⟩
  have hT : t.time = D * 86400 + S := by omega
  obtain ⟨hp0, hp1, hp2, hp3, hp4⟩ := monLoop_total ⟨(D % 1461).toNat, by omega⟩
  rw [Int.toNat_of_nonneg (by omega : 0 ≤ D % 1461)] at hp0 hp1 hp2 hp3 hp4
  have hfd : ∀ a b : Int, 0 ≤ b → a.fdiv b = a / b := fun a b h => Int.fdiv_eq_ediv_of_nonneg a h
  have hfm : ∀ a b : Int, 0 ≤ b → a.fmod b = a % b := fun a b h => Int.fmod_eq_emod_of_nonneg a h
  generalize hP : monLoop mdayTbl 0 (D % 1461) = p at hp0 hp1 hp2 hp3 hp4
  obtain ⟨mon, day⟩ := p
  simp only at hp0 hp1 hp2 hp3 hp4
  have hep : time2epoch t = ⟨1970 + D / 1461 * 4 + mon / 12, mon % 12 + 1, day + 1, S / 3600,
      S % 3600 / 60, (S % 60 : Int) + t.sec⟩ := by
    unfold time2epoch
    have e1 : t.time.tdiv 86400 = D := by
      rw [Int.tdiv_eq_ediv_of_nonneg (by omega)]; omega
    have e2 : t.time - D * 86400 = S := by omega
    simp only [e1, e2, hfd _ 1461 (by decide), hfm _ 1461 (by decide), hP, hfd _ 12 (by decide),
      hfm _ 12 (by decide), hfd _ 3600 (by decide), hfm _ 3600 (by decide),
      hfd _ 60 (by decide), hfm _ 60 (by decide)]
  rw [hep]
  set y := 1970 + D / 1461 * 4 + mon / 12 with hy
  set m := mon % 12 + 1 with hm
  have hidx : ((y - 1970) % 4) * 12 + (m - 1) = mon := by omega
  have hq : (y - 1970) / 4 = D / 1461 := by omega
  have hcum131 : ∀ k : Fin 48, 365 * ((k.val / 12 : Nat) : Int) ≤ cum k.val := by decide +kernel
  have hc0 := hcum131 ⟨mon.toNat, by omega⟩
  simp only at hc0
  have hy1 : 1970 ≤ y := by omega
  have hy2 : y ≤ 2099 := by omega
  obtain ⟨hc1, hc2⟩ := dayNumber_cycle y m (day + 1) hy1 hy2 (by omega) (by omega)
  rw [hidx, hq] at hc1
  rw [hidx] at hc2
  have hsS : (0 : ℚ) ≤ ((S % 60 : Int) : ℚ) := by
    have : 0 ≤ S % 60 := by omega
    exact_mod_cast this
  have hfl : ⌊((S % 60 : Int) : ℚ) + t.sec⌋ = S % 60 := by
    rw [Int.floor_eq_iff]; constructor <;> linarith
  have hvalid : Valid ⟨y, m, day + 1, S / 3600, S % 3600 / 60, (S % 60 : Int) + t.sec⟩ := by
    unfold Valid
    simp only
    rw [hc2]
    refine ⟨hy1, hy2, by omega, by omega, by omega, by omega, by omega, by omega, by omega,
      by omega, by linarith, ?_⟩
    have : S % 60 ≤ 59 := by omega
    have : ((S % 60 : Int) : ℚ) ≤ 59 := by exact_mod_cast this
    linarith
  refine ⟨hvalid, ?_⟩
  have ht := epoch2time_time ⟨y, m, day + 1, S / 3600, S % 3600 / 60, (S % 60 : Int) + t.sec⟩
    hy1 hy2 (by simp only; omega) (by simp only; omega)
  simp only at ht
  have hsec : (epoch2time ⟨y, m, day + 1, S / 3600, S % 3600 / 60, (S % 60 : Int) + t.sec⟩).sec
      = t.sec := by
    unfold epoch2time
    rw [if_neg (by simp only; omega)]
    simp only
    rw [truncQ_nonneg (by linarith), hfl]; ring
  rw [truncQ_nonneg (by linarith), hfl, hc1] at ht
  have htime : (epoch2time ⟨y, m, day + 1, S / 3600, S % 3600 / 60, (S % 60 : Int) + t.sec⟩).time
      = t.time := by rw [ht]; omega
  cases t
  simp only at htime hsec ⊢
  generalize epoch2time _ = z at *
  cases z
  simp only at htime hsec
  rw [htime, hsec]

/-- Outside the supported years, or with a bad month, the conversion returns the zero time. -/
theorem epoch2time_unsupported (e : Epoch)
    (h : e.year < 1970 ∨ 2099 < e.year ∨ e.mon < 1 ∨ 12 < e.mon) : epoch2time e = ⟨0, 0⟩ := by
  unfold epoch2time
  rw [if_pos (by omega)]

/-- Two valid epochs with the same internal time are equal. -/
theorem epoch2time_injective (a b : Epoch) (ha : Valid a) (hb : Valid b)
    (h : epoch2time a = epoch2time b) : a = b := by
  rw [← time2epoch_epoch2time a ha, h, time2epoch_epoch2time b hb]

/-- The day of year of a valid epoch is the number of its day in the year, from 1, plus the part of the day that has passed. -/
theorem day_of_year (e : Epoch) (h : Valid e) :
    time2doy (epoch2time e) = (monthsLen e.year (e.mon - 1).toNat + e.day : Int) +
      ((e.hour * 3600 + e.min * 60 : Int) + e.sec) / 86400 := by
  have hd := (epoch2time_daycount e h).1
  have hv := h
  obtain ⟨h1, h2, -⟩ := h
  have hn := epoch2time_daycount ⟨e.year, 1, 1, 0, 0, 0⟩ ⟨h1, h2, by simp, by simp, by simp, by simp [monthLen], by simp,
    by simp, by simp, by simp, le_rfl, by norm_num⟩
  have hn := hn.1
  simp only [dayNumber] at hd hn
  unfold time2doy
  rw [time2epoch_epoch2time e hv]
  simp only [timediff]
  generalize epoch2time e = t at *
  generalize epoch2time _ = t0 at *
  have : ((1 : Int) - 1).toNat = 0 := rfl
  rw [this] at hn
  simp only [monthsLen] at hn
  push_cast at *
  linarith

example : Valid ⟨2000, 3, 1, 12, 0, 0⟩ ∧ time2doy (epoch2time ⟨2000, 3, 1, 12, 0, 0⟩) = 61 + 1 / 2 := by
  have hv : Valid ⟨2000, 3, 1, 12, 0, 0⟩ := ⟨by decide, by decide, by decide, by decide, by decide, by decide, by decide, by decide, by decide,
    by decide, by norm_num, by norm_num⟩
  refine ⟨hv, ?_⟩
  rw [day_of_year _ hv]
  have : monthsLen 2000 2 = 60 := by decide
  simp only [show ((3 : Int) - 1).toNat = 2 from rfl, this]
  norm_num

end Verif.C03
