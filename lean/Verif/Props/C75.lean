import Verif.Model.RtcmTime
import Verif.Lemmas.At
import Verif.Lemmas.Post
import Verif.Props.C42
/-!
# C75 Epoch times of RTCM messages
-/

namespace Verif.C75
open Verif.RtcmTime Verif.Sat Verif.Time Verif.RtcmTypes
open Verif.C06 (instant instant_tot)

/-! ## Specification -/

/-- the reading of the clock of a system at an epoch given in GPS time, in seconds since 1970: Moscow
time for GLONASS, BDT for BeiDou, GPS time for the others -/
def clock (sys : Sys) (t : GTime) : ℚ :=
  match sys with
  | .glo => instant (gpst2utc t) + 10800
  | .bds => instant t - 14
  | _ => instant t

/-- 1980-01-06 -/
def origin : ℚ := 315964800

/-- seconds of the week that the 30-bit field of a multi-signal message means: milliseconds, for
GLONASS the day in the upper three bits and the milliseconds of the day in the lower 27 -/
def meaning (sys : Sys) (e : Nat) : ℚ :=
  match sys with
  | .glo => (e / 2 ^ 27 : Nat) * 86400 + (e % 2 ^ 27 : Nat) / 1000
  | _ => (e : ℚ) / 1000

/-- whole milliseconds -/
def OnMs (t : GTime) : Prop := ∃ n : Int, instant t = n / 1000

/-! ## Decoding -/

theorem utc_norm {t : GTime} (h : t.Norm) : (gpst2utc t).Norm := C06.gpst2utcLoop_norm _ h _

/-- the decoded epoch is the one at which the clock of the system shows the given week and the meaning
of the field -/
theorem decoded (sys : Sys) (W : Int) (e : Nat) (he : e < 2 ^ 30) :
    clock sys (decodeMsmTime sys W e).1 = origin + 604800 * W + meaning sys e := by
  have heq : (e : ℚ) < 2 ^ 30 := by exact_mod_cast he
  have he0 : (0 : ℚ) ≤ e := by positivity
  have key : ∀ s : ℚ, s = (e : ℚ) * (1 / 10 ^ 3) → (gpst2time W s).tot = origin + 604800 * W + (e : ℚ) / 1000 := by
    rintro s rfl
    rw [C42.gpst2time_tot W _ ⟨by linarith, by linarith⟩]
    unfold origin
    ring
  unfold decodeMsmTime
  by_cases hg : sys = .glo
  · subst hg
    rw [if_pos rfl]
    dsimp only
    have ha : (e &&& 0x7ffffff) = e % 2 ^ 27 := by
      rw [show 0x7ffffff = 2 ^ 27 - 1 from rfl, Nat.and_two_pow_sub_one_eq_mod]
    have hd : (e >>> 27) &&& 0x1f = e / 2 ^ 27 := by
      rw [show 0x1f = 2 ^ 5 - 1 from rfl, Nat.and_two_pow_sub_one_eq_mod, Nat.shiftRight_eq_div_pow, Nat.mod_eq_of_lt]
      omega
    rw [ha, hd]
    show instant (gpst2utc (utc2gpst _)) + 10800 = _
    have hn := norm_timeadd (gpst2time W (((e % 2 ^ 27 : Nat) : ℚ) * (1 / 10 ^ 3) + ((e / 2 ^ 27 : Nat) : ℚ) * 86400)) (-10800)
    rw [C06.gpst2utc_utc2gpst _ hn.1 hn.2, instant_tot, tot_timeadd]
    have h1 : ((e % 2 ^ 27 : Nat) : ℚ) < 2 ^ 27 := by exact_mod_cast Nat.mod_lt e (by decide)
    have h2 : ((e / 2 ^ 27 : Nat) : ℚ) < 2 ^ 3 := by
      have : e / 2 ^ 27 < 2 ^ 3 := by omega
      exact_mod_cast this
    have h3 : (0 : ℚ) ≤ ((e % 2 ^ 27 : Nat) : ℚ) := by positivity
    have h4 : (0 : ℚ) ≤ ((e / 2 ^ 27 : Nat) : ℚ) := by positivity
    unfold meaning
    dsimp only
    generalize ((e % 2 ^ 27 : Nat) : ℚ) = p at *
    generalize ((e / 2 ^ 27 : Nat) : ℚ) = q at *
    rw [C42.gpst2time_tot W _ ⟨by linarith, by linarith⟩]
    unfold origin
    ring
  · rw [if_neg hg]
    by_cases hb : sys = .bds
    · subst hb
      rw [if_pos rfl]
      show instant (bdt2gpst _) - 14 = _
      rw [instant_tot, bdt2gpst, tot_timeadd, key _ rfl]
      unfold meaning
      ring
    · rw [if_neg hb]
      have hc : ∀ t, clock sys t = instant t := by intro t; cases sys <;> first | rfl | contradiction
      have hm : meaning sys e = (e : ℚ) / 1000 := by cases sys <;> first | rfl | contradiction
      rw [hc, hm, instant_tot, key _ rfl]

/-- the epoch is determined by what the clock shows; for GLONASS except that an inserted leap second
and the second after it read the same -/
theorem clock_inj {sys : Sys} {a b : GTime} (ha : a.Norm) (hb : b.Norm)
    (hl : sys = .glo → ¬ C06.InLeapSecond (instant a) ∧ ¬ C06.InLeapSecond (instant b)) (h : clock sys a = clock sys b) : a = b := by
  by_cases hg : sys = .glo
  · subst hg
    have h' : instant (gpst2utc a) = instant (gpst2utc b) := by
      have : instant (gpst2utc a) + 10800 = instant (gpst2utc b) + 10800 := h
      linarith
    rw [instant_tot, instant_tot] at h'
    have := ext_tot (utc_norm ha) (utc_norm hb) h'
    rw [← C06.utc2gpst_gpst2utc a ha.1 ha.2 (hl rfl).1, ← C06.utc2gpst_gpst2utc b hb.1 hb.2 (hl rfl).2, this]
  · refine ext_tot ha hb ?_
    rw [← instant_tot, ← instant_tot]
    cases sys <;> first
      | exact h
      | contradiction
      | (have : instant a - 14 = instant b - 14 := h; linarith)

/-! ## Encoding -/

theorem roundI_near {v : ℚ} (h : 0 ≤ v) : 0 ≤ roundI v ∧ (roundI v : ℚ) ≤ v + 1 / 2 ∧ v - 1 / 2 < roundI v := by
  unfold roundI truncQ
  rw [if_pos (by linarith)]
  have h1 := Int.floor_le (v + 1 / 2)
  have h2 := Int.lt_floor_add_one (v + 1 / 2)
  refine ⟨Int.floor_nonneg.2 (by linarith), h1, by linarith⟩

theorem roundI_int (n : Int) (h : 0 ≤ n) : roundI (n : ℚ) = n := by
  unfold roundI truncQ
  have : (0 : ℚ) ≤ n := by exact_mod_cast h
  rw [if_pos (by linarith), Int.floor_eq_iff]
  constructor <;> linarith

theorem week_tow {t : GTime} (hn : t.Norm) (h : origin ≤ t.tot) :
    0 ≤ (time2gpst t).1 ∧ 0 ≤ (time2gpst t).2 ∧ (time2gpst t).2 < 604800 ∧
      t.tot = origin + 604800 * (time2gpst t).1 + (time2gpst t).2 := by
  have ht : 315964800 ≤ t.time := by
    have h1 : (315964800 : ℚ) ≤ t.time + t.sec := h
    have h2 := hn.2
    have : (315964799 : ℚ) < t.time := by linarith
    have : (315964799 : Int) < t.time := by exact_mod_cast this
    omega
  obtain ⟨h0, h1, h2⟩ := (C05.tow_range t hn.1 hn.2).1 ht
  exact ⟨h0, h1, h2, (C42.gpst_tot t).symm⟩

/-- what the encoder gives for any system: a field of 30 bits whose meaning, in the week given with it,
is the clock reading rounded to milliseconds -/
theorem encoded (sys : Sys) {t : GTime} (hn : t.Norm) (h : origin ≤ clock sys t) :
    ∃ e : Nat, (encodeMsmTime sys t).2 = e ∧ e < 2 ^ 30 ∧
      |origin + 604800 * ((encodeMsmTime sys t).1 : ℚ) + meaning sys e - clock sys t| ≤ 1 / 2000 ∧
      (∀ n : Int, clock sys t = n / 1000 → origin + 604800 * ((encodeMsmTime sys t).1 : ℚ) + meaning sys e = clock sys t) ∧
      (encodeMsmTime sys t).1 = ⌊(clock sys t - origin) / 604800⌋ := by
  -- the systems without day field
  have key : ∀ x : GTime, x.Norm → origin ≤ x.tot →
      ∃ e : Nat, roundI ((time2gpst x).2 * 10 ^ 3) = e ∧ e < 2 ^ 30 ∧
        |origin + 604800 * ((time2gpst x).1 : ℚ) + (e : ℚ) / 1000 - x.tot| ≤ 1 / 2000 ∧
        (∀ n : Int, x.tot = n / 1000 → origin + 604800 * ((time2gpst x).1 : ℚ) + (e : ℚ) / 1000 = x.tot) ∧
        (time2gpst x).1 = ⌊(x.tot - origin) / 604800⌋ := by
    intro x hx hxo
    obtain ⟨h0, h1, h2, h3⟩ := week_tow hx hxo
    have hr := roundI_near (v := (time2gpst x).2 * 10 ^ 3) (by positivity)
    refine ⟨(roundI ((time2gpst x).2 * 10 ^ 3)).toNat, (Int.toNat_of_nonneg hr.1).symm, ?_, ?_, ?_, ?_⟩
    · have : (roundI ((time2gpst x).2 * 10 ^ 3) : ℚ) < 2 ^ 30 := by
        have := hr.2.1
        norm_num at this ⊢
        linarith
      have : roundI ((time2gpst x).2 * 10 ^ 3) < 2 ^ 30 := by exact_mod_cast this
      omega
    · have hc : (((roundI ((time2gpst x).2 * 10 ^ 3)).toNat : Nat) : ℚ) = (roundI ((time2gpst x).2 * 10 ^ 3) : ℚ) := by
        exact_mod_cast congrArg (Int.cast (R := ℚ)) (Int.toNat_of_nonneg hr.1)
      rw [hc, h3, abs_le]
      constructor <;> linarith [hr.2.1, hr.2.2]
    · intro n hnn
      have hc : (((roundI ((time2gpst x).2 * 10 ^ 3)).toNat : Nat) : ℚ) = (roundI ((time2gpst x).2 * 10 ^ 3) : ℚ) := by
        exact_mod_cast congrArg (Int.cast (R := ℚ)) (Int.toNat_of_nonneg hr.1)
      rw [hc]
      have hv : (time2gpst x).2 * 10 ^ 3 = ((n - 315964800 * 1000 - 604800 * 1000 * (time2gpst x).1 : Int) : ℚ) := by
        rw [hnn] at h3
        unfold origin at h3
        push_cast
        linarith
      have hv0 : (0 : Int) ≤ n - 315964800 * 1000 - 604800 * 1000 * (time2gpst x).1 := by
        have : (0 : ℚ) ≤ ((n - 315964800 * 1000 - 604800 * 1000 * (time2gpst x).1 : Int) : ℚ) := by rw [← hv]; positivity
        exact_mod_cast this
      rw [hv, roundI_int _ hv0, ← hv]
      linarith
    · rw [eq_comm, Int.floor_eq_iff, le_div_iff₀ (by norm_num), div_lt_iff₀ (by norm_num)]
      constructor <;> linarith
  unfold encodeMsmTime
  by_cases hg : sys = .glo
  · subst hg
    rw [if_pos rfl]
    have hc : clock .glo t = (timeadd (gpst2utc t) 10800).tot := by
      show instant (gpst2utc t) + 10800 = _
      rw [tot_timeadd, instant_tot]
    rw [hc] at h ⊢
    have hx := norm_timeadd (gpst2utc t) 10800
    generalize timeadd (gpst2utc t) 10800 = x at *
    obtain ⟨h0, h1, h2, h3⟩ := week_tow hx h
    dsimp only
    have hfl : (time2gpst x).1 = ⌊(x.tot - origin) / 604800⌋ := by
      rw [eq_comm, Int.floor_eq_iff, le_div_iff₀ (by norm_num), div_lt_iff₀ (by norm_num)]
      constructor <;> linarith
    generalize (time2gpst x).1 = w at *
    generalize (time2gpst x).2 = tow at *
    have hd : truncQ (tow / 86400) = ⌊tow / 86400⌋ := by
      unfold truncQ
      rw [if_pos (by positivity)]
    rw [hd]
    have f1 := Int.floor_le (tow / 86400)
    have f2 := Int.lt_floor_add_one (tow / 86400)
    have f0 : 0 ≤ ⌊tow / 86400⌋ := Int.floor_nonneg.2 (by positivity)
    have f3 : ⌊tow / 86400⌋ < 7 := by
      rw [Int.floor_lt]
      norm_num
      linarith
    obtain ⟨q, hq⟩ : ∃ q : Nat, ⌊tow / 86400⌋ = q := ⟨_, (Int.toNat_of_nonneg f0).symm⟩
    rw [hq] at f1 f2 f0 f3 ⊢
    have hq7 : q < 7 := by omega
    have hr := roundI_near (v := (tow - ((q : Int) : ℚ) * 86400) * 10 ^ 3) (by
      have : (((q : Int) : ℚ)) ≤ tow / 86400 := f1
      rw [le_div_iff₀ (by norm_num)] at this
      have : 0 ≤ tow - ((q : Int) : ℚ) * 86400 := by linarith
      positivity)
    have hub : tow - ((q : Int) : ℚ) * 86400 < 86400 := by
      rw [div_lt_iff₀ (by norm_num)] at f2
      linarith
    have hv := fun (n : Int) (hn : x.tot = n / 1000) => show (tow - ((q : Int) : ℚ) * 86400) * 10 ^ 3 =
        ((n - 315964800 * 1000 - 604800 * 1000 * w - q * 86400000 : Int) : ℚ) by
      rw [hn] at h3
      unfold origin at h3
      push_cast
      linarith
    have hv0 : 0 ≤ (tow - ((q : Int) : ℚ) * 86400) * 10 ^ 3 := by
      rw [le_div_iff₀ (by norm_num)] at f1
      have : 0 ≤ tow - ((q : Int) : ℚ) * 86400 := by linarith
      positivity
    generalize hvv : (tow - ((q : Int) : ℚ) * 86400) * 10 ^ 3 = v at *
    obtain ⟨r, hrr⟩ : ∃ r : Nat, roundI v = r := ⟨_, (Int.toNat_of_nonneg hr.1).symm⟩
    have hr27 : r < 2 ^ 27 := by
      have : (roundI v : ℚ) < 2 ^ 27 := by
        have hvub : v < 86400000 := by rw [← hvv]; linarith
        have := hr.2.1
        norm_num
        linarith
      rw [hrr] at this
      exact_mod_cast this
    have he : (((q : Int) % 2 ^ 5).toNat <<< 27 ||| (roundI v % 2 ^ 27).toNat : Nat) = q * 2 ^ 27 + r := by
      have e1 : ((q : Int) % 2 ^ 5).toNat = q := by norm_num; omega
      have e2 : (roundI v % 2 ^ 27).toNat = r := by rw [hrr]; norm_num at hr27 ⊢; omega
      rw [e1, e2, ← Nat.shiftLeft_add_eq_or_of_lt hr27, Nat.shiftLeft_eq]
    have hrq : (roundI v : ℚ) = r := by rw [hrr]; rfl
    have hm : meaning .glo (q * 2 ^ 27 + r) = q * 86400 + r / 1000 := by
      show (((q * 2 ^ 27 + r) / 2 ^ 27 : Nat) : ℚ) * 86400 + ((q * 2 ^ 27 + r) % 2 ^ 27 : Nat) / 1000 = _
      rw [show (q * 2 ^ 27 + r) / 2 ^ 27 = q by omega, show (q * 2 ^ 27 + r) % 2 ^ 27 = r by omega]
    have hqc : (((q : Int)) : ℚ) = (q : ℚ) := by norm_cast
    rw [hqc] at hvv
    rw [hrq] at hr
    refine ⟨q * 2 ^ 27 + r, ?_, by omega, ?_, ?_, hfl⟩
    · rw [he]
    · rw [hm, h3, abs_le]
      norm_num at hvv
      constructor <;> linarith [hr.2.1, hr.2.2]
    · intro n hn
      rw [hm]
      have hvn := hv n hn
      have h0n : (0 : Int) ≤ n - 315964800 * 1000 - 604800 * 1000 * w - q * 86400000 := by
        rw [hvn] at hv0
        exact_mod_cast hv0
      have : (r : ℚ) = v := by
        rw [← hrq, hvn, roundI_int _ h0n]
      rw [this, h3, ← hvv]
      ring
  · rw [if_neg hg]
    by_cases hb : sys = .bds
    · subst hb
      rw [if_pos rfl]
      have hc : clock .bds t = (gpst2bdt t).tot := by
        show instant t - 14 = _
        rw [gpst2bdt, tot_timeadd, instant_tot]
        ring
      rw [hc] at h ⊢
      exact key _ (norm_timeadd _ _) h
    · rw [if_neg hb]
      have hc : clock sys t = t.tot := by rw [← instant_tot]; cases sys <;> first | rfl | contradiction
      have hm : ∀ e : Nat, meaning sys e = (e : ℚ) / 1000 := by intro e; cases sys <;> first | rfl | contradiction
      rw [hc] at h ⊢
      obtain ⟨e, h1, h2, h3⟩ := key _ hn h
      refine ⟨e, h1, h2, ?_⟩
      rw [hm]
      exact h3

/-! ## Round trip -/

/-- **round trip**: encoding an epoch and decoding the field in the week given with it gives an epoch at
which the clock of the system reads the same to half a millisecond -/
theorem near (sys : Sys) {t : GTime} (hn : t.Norm) (h : origin ≤ clock sys t) :
    |clock sys (decodeMsmTime sys (encodeMsmTime sys t).1 (encodeMsmTime sys t).2.toNat).1 - clock sys t| ≤ 1 / 2000 := by
  obtain ⟨e, h1, h2, h3, -⟩ := encoded sys hn h
  rw [h1, Int.toNat_natCast, decoded sys _ _ h2]
  exact h3

theorem wk_norm (W : Int) {s : ℚ} (h : 0 ≤ s) : (gpst2time W s).Norm := by
  unfold gpst2time wk2time GTime.Norm truncQ
  dsimp only
  by_cases hc : s < -1000000000 ∨ s > 1000000000
  · rw [if_pos hc, if_pos (le_refl _)]
    norm_num
  · rw [if_neg hc, if_pos h]
    have h1 := Int.floor_le s
    have h2 := Int.lt_floor_add_one s
    constructor <;> linarith

theorem decoded_norm (sys : Sys) (W : Int) (e : Nat) : (decodeMsmTime sys W e).1.Norm := by
  unfold decodeMsmTime
  split
  · exact C06.utc2gpstLoop_norm _ (norm_timeadd _ _) _
  · split
    · exact norm_timeadd _ _
    · exact wk_norm W (by positivity)

/-- an epoch of whole milliseconds comes back exactly (for GLONASS: unless it lies in an inserted leap
second) -/
theorem exact_ms (sys : Sys) {t : GTime} (hn : t.Norm) (h : origin ≤ clock sys t) (hm : OnMs t)
    (hl : sys = .glo → ¬ C06.InLeapSecond (instant t)) :
    (decodeMsmTime sys (encodeMsmTime sys t).1 (encodeMsmTime sys t).2.toNat).1 = t := by
  obtain ⟨e, h1, h2, -, h4, -⟩ := encoded sys hn h
  obtain ⟨n, hmn⟩ := hm
  have hcn : ∃ m : Int, clock sys t = m / 1000 := by
    by_cases hg : sys = .glo
    · subst hg
      refine ⟨n - (C06.leapTable.filter (fun e => e.1 + e.2 ≤ instant t)).length * 1000 + 10800000, ?_⟩
      show instant (gpst2utc t) + 10800 = _
      rw [C06.gpst2utc_offset, C06.offsetGps, hmn]
      push_cast
      ring
    · by_cases hb : sys = .bds
      · subst hb
        refine ⟨n - 14000, ?_⟩
        show instant t - 14 = _
        rw [hmn]
        push_cast
        ring
      · exact ⟨n, by rw [← hmn]; cases sys <;> first | rfl | contradiction⟩
  obtain ⟨m, hcm⟩ := hcn
  have hclk : clock sys (decodeMsmTime sys (encodeMsmTime sys t).1 (encodeMsmTime sys t).2.toNat).1 = clock sys t := by
    rw [h1, Int.toNat_natCast, decoded sys _ _ h2]
    exact h4 m hcm
  by_cases hg : sys = .glo
  · subst hg
    have h' : instant (gpst2utc (decodeMsmTime .glo (encodeMsmTime .glo t).1 (encodeMsmTime .glo t).2.toNat).1) =
        instant (gpst2utc t) := by
      have : instant (gpst2utc _) + 10800 = instant (gpst2utc t) + 10800 := hclk
      linarith
    rw [instant_tot, instant_tot] at h'
    have hx : ∃ x : GTime, x.Norm ∧ (decodeMsmTime .glo (encodeMsmTime .glo t).1 (encodeMsmTime .glo t).2.toNat).1 = utc2gpst x := by
      unfold decodeMsmTime
      rw [if_pos rfl]
      exact ⟨_, norm_timeadd _ _, rfl⟩
    obtain ⟨x, hxn, hx⟩ := hx
    rw [hx, C06.gpst2utc_utc2gpst x hxn.1 hxn.2] at h'
    rw [hx, ext_tot hxn (utc_norm hn) h', C06.utc2gpst_gpst2utc t hn.1 hn.2 (hl rfl)]
  · exact clock_inj (decoded_norm _ _ _) hn (fun h => absurd h hg) hclk

/-! ## The week is that of the decoder -/

/-- with another week the decoded clock reading is off by whole weeks -/
theorem other_week (sys : Sys) (W W' : Int) (e : Nat) (he : e < 2 ^ 30) :
    clock sys (decodeMsmTime sys W' e).1 = clock sys (decodeMsmTime sys W e).1 + 604800 * (W' - W) := by
  rw [decoded sys _ _ he, decoded sys _ _ he]
  ring

theorem gps_week {t : GTime} (hn : t.Norm) (h : origin ≤ instant t) :
    (time2gpst t).1 = ⌊(instant t - origin) / 604800⌋ := by
  rw [instant_tot] at h ⊢
  obtain ⟨h0, h1, h2, h3⟩ := week_tow hn h
  rw [eq_comm, Int.floor_eq_iff, le_div_iff₀ (by norm_num), div_lt_iff₀ (by norm_num)]
  constructor <;> linarith

/-- for all systems but GLONASS and BeiDou the week of the clock is the GPS week -/
theorem week_gps (sys : Sys) (h1 : sys ≠ .glo) (h2 : sys ≠ .bds) (t : GTime) :
    (encodeMsmTime sys t).1 = (time2gpst t).1 := by
  unfold encodeMsmTime
  rw [if_neg h1, if_neg h2]

/-- for BeiDou it is the week before during the first 14 seconds of a GPS week: a decoder with the GPS
week is then one week late -/
theorem week_bds {t : GTime} (hn : t.Norm) (h : origin + 14 ≤ instant t) :
    (encodeMsmTime .bds t).1 = if (time2gpst t).2 < 14 then (time2gpst t).1 - 1 else (time2gpst t).1 := by
  have hc : origin ≤ clock .bds t := by show origin ≤ instant t - 14; linarith
  obtain ⟨e, -, -, -, -, hw⟩ := encoded .bds hn hc
  obtain ⟨h0, h1, h2, h3⟩ := week_tow hn (by rw [← instant_tot]; linarith)
  rw [hw]
  show ⌊(instant t - 14 - origin) / 604800⌋ = _
  rw [instant_tot, h3]
  split
  · rw [Int.floor_eq_iff, le_div_iff₀ (by norm_num), div_lt_iff₀ (by norm_num)]
    push_cast
    constructor <;> linarith
  · rw [Int.floor_eq_iff, le_div_iff₀ (by norm_num), div_lt_iff₀ (by norm_num)]
    constructor <;> linarith

/-- for GLONASS it is the week after during the last three hours less the leap seconds of a GPS week: a
decoder with the GPS week is then one week early -/
theorem week_glo {t : GTime} (hn : t.Norm) (h : origin ≤ instant t) :
    (encodeMsmTime .glo t).1 =
      if (time2gpst t).2 < 604800 - 10800 + C06.offsetGps (instant t) then (time2gpst t).1 else (time2gpst t).1 + 1 := by
  have ho : 0 ≤ C06.offsetGps (instant t) ∧ C06.offsetGps (instant t) ≤ 18 := by
    unfold C06.offsetGps
    refine ⟨by positivity, ?_⟩
    have : (C06.leapTable.filter (fun e => e.1 + e.2 ≤ instant t)).length ≤ 18 := List.length_filter_le _ _
    exact_mod_cast this
  have hck : clock .glo t = instant t - C06.offsetGps (instant t) + 10800 := by
    show instant (gpst2utc t) + 10800 = _
    rw [C06.gpst2utc_offset]
  have hc : origin ≤ clock .glo t := by rw [hck]; linarith [ho.2]
  obtain ⟨e, -, -, -, -, hw⟩ := encoded .glo hn hc
  obtain ⟨h0, h1, h2, h3⟩ := week_tow hn (by rw [← instant_tot]; linarith)
  rw [hw, hck]
  generalize C06.offsetGps (instant t) = o at *
  rw [instant_tot, h3]
  split
  · rw [Int.floor_eq_iff, le_div_iff₀ (by norm_num), div_lt_iff₀ (by norm_num)]
    constructor <;> linarith [ho.2]
  · rw [Int.floor_eq_iff, le_div_iff₀ (by norm_num), div_lt_iff₀ (by norm_num)]
    push_cast
    constructor <;> linarith [ho.1]

/-! ## The epoch of a message -/

/-- **multi-signal messages**: the field after the station number -/
theorem time_msm {d : Dec} {b : BitBuf} {sys : Sys} {k mt sta e : Nat} (hk : msmtype mt = (sys, k + 1))
    (h : At b 24 (natToBits 12 mt ++ (natToBits 12 sta ++ natToBits 30 e))) (hm : mt < 2 ^ 12) (hs : sta < 2 ^ 12)
    (he : e < 2 ^ 30) : decodeTime d b = .ok (some (decodeMsmTime sys d.week e).1) := by
  obtain ⟨e1, h⟩ := h.step hm
  obtain ⟨-, h⟩ := h.step hs
  have e3 := h.readU he
  unfold decodeTime
  dsimp only
  rw [e1, Py.okBind, hk, if_pos (Nat.succ_pos k), e3]
  rfl

/-- **SSR messages** of the systems other than GLONASS: seconds of the GPS week -/
theorem time_ssr {d : Dec} {b : BitBuf} {sys : Sys} {k mt tow : Nat} (hm0 : (msmtype mt).2 = 0)
    (hk : ssrtype mt = (sys, k + 1)) (hg : sys ≠ .glo) (h : At b 24 (natToBits 12 mt ++ natToBits 20 tow))
    (hm : mt < 2 ^ 12) (ht : tow < 2 ^ 20) : decodeTime d b = .ok (some (gpst2time d.week tow)) := by
  obtain ⟨e1, h⟩ := h.step hm
  have e3 := h.readU ht
  unfold decodeTime
  dsimp only
  rw [e1, Py.okBind, hm0, if_neg (by decide), hk, if_pos (Or.inl (Nat.succ_pos k)), if_pos (Or.inr hg), e3, Py.okBind, if_neg hg]
  rfl

/-- **GLONASS SSR messages**: the nearest epoch with the given Moscow time, taken as UTC and converted to
GPS time once more; with the option 36 seconds less -/
theorem time_ssr_glo {d : Dec} {b : BitBuf} {k mt tod : Nat} (hm0 : (msmtype mt).2 = 0)
    (hk : ssrtype mt = (.glo, k + 1)) (h4 : mt ≠ 4076) (h : At b 24 (natToBits 12 mt ++ natToBits 17 tod))
    (hm : mt < 2 ^ 12) (ht : tod < 86400) (hn : d.time.Norm) :
    ∃ x t : GTime, decodeTime d b = .ok (some x) ∧
      (∃ day : Int, instant (gpst2utc t) + 10800 = day * 86400 + tod) ∧
      |timediff (gpst2utc t) (gpst2utc d.time)| ≤ 43200 ∧
      timediff x t = C06.offsetUtc (instant t) - if d.workaround then 36 else 0 := by
  obtain ⟨e1, h⟩ := h.step hm
  have e3 := h.readU (n := 17) (by omega)
  have hs := C42.glo2time_spec (tod : ℚ) d.time hn (by positivity) (by exact_mod_cast ht)
  refine ⟨if d.workaround then timeadd (utc2gpst (glo2time d.time tod)) (-36) else utc2gpst (glo2time d.time tod),
    glo2time d.time tod, ?_, hs.1, hs.2, ?_⟩
  · unfold decodeTime
    dsimp only
    rw [e1, Py.okBind, hm0, if_neg (by decide), hk, if_pos (Or.inl (Nat.succ_pos k)),
      if_neg (by rintro (h | h); exacts [h4 h, h rfl]), e3, Py.okBind, if_pos rfl]
    rfl
  · have hu := C06.utc2gpst_offset (glo2time d.time tod)
    rw [instant_tot, instant_tot] at hu
    by_cases hw : d.workaround
    · rw [if_pos hw, if_pos hw, timediff_tot, tot_timeadd, hu, instant_tot]
      ring
    · rw [if_neg hw, if_neg hw, timediff_tot, hu, instant_tot]
      ring

/-- **IGS SSR messages** (4076): the time is taken from the 20 bits after the message number, where the
version, the kind and only the first nine bits of the time are -/
theorem time_igs {d : Dec} {b : BitBuf} {ver st tow : Nat}
    (h : At b 24 (natToBits 12 4076 ++ (natToBits 3 ver ++ (natToBits 8 st ++ natToBits 20 tow)))) (hv : ver < 2 ^ 3)
    (hs : st < 2 ^ 8) (ht : tow < 2 ^ 20) :
    decodeTime d b = .ok (some (gpst2time d.week ((ver * 2 ^ 17 + st * 2 ^ 9 + tow / 2 ^ 11 : Nat) : ℚ))) := by
  obtain ⟨e1, h⟩ := h.step (by decide)
  have hsplit : natToBits 20 tow = natToBits 9 (tow / 2 ^ 11) ++ natToBits 11 tow := by
    have h1 : ∀ n, natToBits (n + 11) tow = natToBits n (tow / 2 ^ 11) ++ natToBits 11 tow := by
      intro n
      induction n with
      | zero => rfl
      | succ n ih =>
        show (tow / 2 ^ (n + 11) % 2 == 1) :: natToBits (n + 11) tow =
          (tow / 2 ^ 11 / 2 ^ n % 2 == 1) :: (natToBits n (tow / 2 ^ 11) ++ natToBits 11 tow)
        rw [ih, Nat.div_div_eq_div_mul, ← Nat.pow_add, Nat.add_comm 11 n]
    exact h1 9
  rw [hsplit] at h
  have h' : At b (24 + 12) ((natToBits 3 ver ++ (natToBits 8 st ++ natToBits 9 (tow / 2 ^ 11))) ++ natToBits 11 tow) := by
    simpa only [List.append_assoc] using h
  obtain ⟨e3, -⟩ := h'.stepBits (n := 20) (by simp)
  have hval : bitsToNat (natToBits 3 ver ++ (natToBits 8 st ++ natToBits 9 (tow / 2 ^ 11))) =
      ver * 2 ^ 17 + st * 2 ^ 9 + tow / 2 ^ 11 := by
    rw [bitsToNat_append, bitsToNat_append, bitsToNat_natToBits, bitsToNat_natToBits, bitsToNat_natToBits]
    simp only [List.length_append, natToBits_length]
    omega
  rw [hval] at e3
  unfold decodeTime
  dsimp only
  rw [e1, Py.okBind, if_neg (by decide), if_pos (Or.inr rfl), if_pos (Or.inl rfl), e3, Py.okBind, if_neg (by decide)]
  rfl

/-- **network messages** of GPS, Galileo and QZSS: seconds of the GPS week; of BeiDou: seconds of the
BDT week, but in the week before if they are less than 14 -/
theorem time_nrtk {d : Dec} {b : BitBuf} {sys : Sys} {i mt tow : Nat} (hk : nrtktype mt = (sys, 1)) (hg : sys ≠ .glo)
    (h : At b i (natToBits 20 tow)) (ht : tow < 604800) (hw : 1357 ≤ d.week) :
    ∃ t, decodeNrtkTime d mt b i = .ok (i + 20, sys, t) ∧ clock sys t = origin + 604800 * d.week + tow +
      if sys = .bds ∧ tow < 14 then -604800 else 0 := by
  have e3 := h.readU (by omega)
  have htq : (tow : ℚ) < 604800 := by exact_mod_cast ht
  have ht0 : (0 : ℚ) ≤ tow := by positivity
  have hg0 : (gpst2time d.week (tow : ℚ)).tot = origin + 604800 * d.week + tow :=
    C42.gpst2time_tot _ _ ⟨by linarith, by linarith⟩
  unfold decodeNrtkTime
  rw [hk]
  dsimp only
  rw [if_pos hg, e3, Py.okBind]
  by_cases hb : sys = .bds
  · subst hb
    rw [if_pos rfl]
    refine ⟨_, rfl, ?_⟩
    have hbt : ∀ (W : Int), (bdt2time W (tow : ℚ)).tot = 1136073600 + 604800 * W + tow := by
      intro W
      have := (C05.week_tow_instant W (tow : ℚ) ⟨by linarith, by linarith⟩).2.2
      rw [timediff_tot] at this
      simpa [GTime.tot] using this
    have hn := norm_timeadd (gpst2time d.week (tow : ℚ)) (-14)
    have hx : (gpst2bdt (gpst2time d.week (tow : ℚ))).tot = origin + 604800 * d.week + tow - 14 := by
      rw [gpst2bdt, tot_timeadd, hg0]; ring
    have hwk : (time2bdt (gpst2bdt (gpst2time d.week (tow : ℚ)))).1 = d.week - 1356 - if tow < 14 then 1 else 0 := by
      by_cases h14 : tow < 14
      · have h14q : (tow : ℚ) < 14 := by exact_mod_cast h14
        have hxe : gpst2bdt (gpst2time d.week (tow : ℚ)) = gpst2time (d.week - 1) ((tow : ℚ) - 14 + 604800) := by
          refine ext_tot hn (wk_norm _ (by linarith)) ?_
          rw [hx, C42.gpst2time_tot _ _ ⟨by linarith, by linarith⟩]
          unfold origin
          push_cast
          ring
        rw [hxe, (C05.week_offsets _ _ (by linarith) (by linarith)).2 (by omega), if_pos h14]
        omega
      · have h14q : (14 : ℚ) ≤ tow := by exact_mod_cast Nat.le_of_not_lt h14
        have hxe : gpst2bdt (gpst2time d.week (tow : ℚ)) = gpst2time d.week ((tow : ℚ) - 14) := by
          refine ext_tot hn (wk_norm _ (by linarith)) ?_
          rw [hx, C42.gpst2time_tot _ _ ⟨by linarith, by linarith⟩]
          unfold origin
          ring
        rw [hxe, (C05.week_offsets _ _ (by linarith) (by linarith)).2 (by omega), if_neg h14]
        omega
    show instant (bdt2gpst _) - 14 = _
    rw [instant_tot, bdt2gpst, tot_timeadd, hbt, hwk]
    unfold origin
    by_cases h14 : tow < 14
    · rw [if_pos h14, if_pos ⟨rfl, h14⟩]
      push_cast
      ring
    · rw [if_neg h14, if_neg (fun h => h14 h.2)]
      push_cast
      ring
  · rw [if_neg hb, if_neg hg]
    refine ⟨_, rfl, ?_⟩
    rw [if_neg (fun h => hb h.1)]
    have hc : ∀ t, clock sys t = instant t := by intro t; cases sys <;> first | rfl | contradiction
    rw [hc, instant_tot, hg0]
    ring

/-- the epoch of a network message in `decodeTime` is that of `decodeNrtkTime` after the message number -/
theorem time_network {d : Dec} {b : BitBuf} {mt : Nat} (hm0 : (msmtype mt).2 = 0) (hs0 : (ssrtype mt).2 = 0)
    (hk : 0 < (nrtktype mt).2) (h : At b 24 (natToBits 12 mt)) (hm : mt < 2 ^ 12) :
    decodeTime d b = (decodeNrtkTime d mt b 36).map (fun r => some r.2.2) := by
  have e1 := h.readU hm
  have h4 : mt ≠ 4076 := by rintro rfl; exact absurd hk (by decide)
  unfold decodeTime
  dsimp only
  rw [e1, Py.okBind, hm0, if_neg (by decide), hs0, if_neg (by rintro (h | h); exacts [by omega, h4 h]), if_pos hk]
  cases decodeNrtkTime d mt b (24 + 12) <;> rfl

/-- other messages carry no epoch -/
theorem time_none {d : Dec} {b : BitBuf} {mt : Nat} (hm0 : (msmtype mt).2 = 0) (hs0 : (ssrtype mt).2 = 0)
    (hk : (nrtktype mt).2 = 0) (h4 : mt ≠ 4076) (h : At b 24 (natToBits 12 mt)) (hm : mt < 2 ^ 12) :
    decodeTime d b = .ok none := by
  have e1 := h.readU hm
  unfold decodeTime
  dsimp only
  rw [e1, Py.okBind, hm0, if_neg (by decide), hs0, if_neg (by rintro (h | h); exacts [by omega, h4 h]), hk,
    if_neg (by decide)]
  rfl

/-! ## Examples -/

/-- an epoch, week 2200, 4 days and a bit -/
def ex : GTime := ⟨315964800 + 604800 * 2200 + 350000, 1 / 4⟩

example : ex.Norm ∧ OnMs ex ∧ origin ≤ clock .gps ex ∧ origin ≤ clock .glo ex ∧ origin + 14 ≤ instant ex ∧
    ¬ C06.InLeapSecond (instant ex) := by
  refine ⟨by unfold GTime.Norm ex; norm_num, ⟨(315964800 + 604800 * 2200 + 350000) * 1000 + 250, ?_⟩, ?_, ?_, ?_, ?_⟩
  · unfold instant timediff ex
    norm_num
  · decide +kernel
  · decide +kernel
  · decide +kernel
  · simp only [C06.InLeapSecond, instant, timediff, C06.leapTable, ex]
    norm_num

example : encodeMsmTime .gps ex = (2200, 350000250) := by decide +kernel
example : encodeMsmTime .glo ex = (2200, 4 * 2 ^ 27 + 15182250) := by decide +kernel
example : encodeMsmTime .bds ex = (2200, 349986250) := by decide +kernel
example : msmtype 1077 = (.gps, 7) ∧ (msmtype 1060).2 = 0 ∧ ssrtype 1060 = (.gps, 4) ∧ ssrtype 1066 = (.glo, 4) ∧
    nrtktype 1030 = (.gps, 1) ∧ (ssrtype 1030).2 = 0 ∧ nrtktype 1303 = (.bds, 1) := by decide +kernel

end Verif.C75
