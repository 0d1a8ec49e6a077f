import Verif.Model.Peph
import Verif.Lemmas.Time
import Verif.Props.C03
/-!
# C54 Antenna and bias lookup respect validity periods
-/

namespace Verif.C54
open Verif.Time Verif.Peph

/-! ## Antennas -/

/-- what is asked for: the antenna type, or the satellite -/
def Named {α} (p : Pcv α) : Name → Prop
  | .str s => p.type = s
  | .sat n => p.sat = some n

/-- calibration valid at an epoch: both ends included, a zero time is an open end -/
def Valid {α} (p : Pcv α) (time : GTime) : Prop :=
  (p.ts.time ≠ 0 → p.ts.tot ≤ time.tot) ∧ (p.te.time ≠ 0 → time.tot ≤ p.te.tot)

instance {α} (p : Pcv α) (n : Name) : Decidable (Named p n) := by unfold Named; cases n <;> infer_instance
instance {α} (p : Pcv α) (t : GTime) : Decidable (Valid p t) := by unfold Valid; infer_instance

/-- **Antenna lookup**: the first calibration in file order with the requested name that is valid
at the epoch. -/
theorem antenna {α} (pcvs : List (Pcv α)) (name : Name) (time : GTime) :
    searchpcv pcvs name time = pcvs.find? (fun p => decide (Named p name ∧ Valid p time)) := by
  induction pcvs with
  | nil => rfl
  | cons p ps ih =>
    have hn : p.hasName name = decide (Named p name) := by cases name <;> rfl
    rw [searchpcv, List.find?_cons, hn]
    by_cases c1 : Named p name
    · rw [decide_eq_true c1, if_neg (by simp)]
      by_cases c2 : p.ts.time ≠ 0 ∧ timediff p.ts time > 0
      · rw [if_pos c2, decide_eq_false, ih]
        rintro ⟨_, h, _⟩
        have := h c2.1
        have h2 := c2.2
        rw [timediff_tot] at h2
        linarith
      · rw [if_neg c2]
        by_cases c3 : p.te.time ≠ 0 ∧ timediff p.te time < 0
        · rw [if_pos c3, decide_eq_false, ih]
          rintro ⟨_, _, h⟩
          have := h c3.1
          have h2 := c3.2
          rw [timediff_tot] at h2
          linarith
        · rw [if_neg c3, decide_eq_true]
          rw [timediff_tot] at c2 c3
          refine ⟨c1, fun h => ?_, fun h => ?_⟩
          · by_contra hc
            exact c2 ⟨h, by linarith⟩
          · by_contra hc
            exact c3 ⟨h, by linarith⟩
    · rw [decide_eq_false c1, if_pos (by simp), decide_eq_false (fun h => c1 h.1), ih]

/-- nothing is returned exactly when no calibration is valid -/
theorem antenna_none {α} (pcvs : List (Pcv α)) (name : Name) (time : GTime) :
    searchpcv pcvs name time = none ↔ ∀ p ∈ pcvs, ¬(Named p name ∧ Valid p time) := by
  rw [antenna, List.find?_eq_none]
  simp only [decide_eq_true_eq]

/-! ## Biases -/

section
variable {Sg : Type} [DecidableEq Sg]

/-- bias of a satellite and signal valid at an epoch: start included, end excluded -/
def Covers (b : Bias Sg) (sat : Int) (time : GTime) (sig : Sg) : Prop :=
  b.sat = sat ∧ b.sig1 = sig ∧ b.tst.tot ≤ time.tot ∧ time.tot < b.ted.tot

instance (b : Bias Sg) (sat : Int) (time : GTime) (sig : Sg) : Decidable (Covers b sat time sig) := by
  unfold Covers; infer_instance

theorem covers_iff (b : Bias Sg) (sat : Int) (time : GTime) (sig : Sg) :
    (b.sat = sat ∧ b.sig1 = sig ∧ timediff time b.tst ≥ 0 ∧ timediff time b.ted < 0) ↔ Covers b sat time sig := by
  unfold Covers
  rw [timediff_tot, timediff_tot, ge_iff_le, sub_nonneg, sub_neg]

/-- **Signal bias lookup**: value and standard deviation of the first matching entry in file
order; not-a-number when there is none. -/
theorem osb (l : List (Bias Sg)) (sat : Int) (time : GTime) (sig : Sg) :
    getosb l sat time sig = (l.find? (fun b => decide (Covers b sat time sig))).map (·.bias) ∧
    getosbstd l sat time sig = (l.find? (fun b => decide (Covers b sat time sig))).map (·.std) := by
  induction l with
  | nil => exact ⟨rfl, rfl⟩
  | cons b bs ih =>
    rw [getosb, getosbstd, List.find?_cons]
    by_cases c : Covers b sat time sig
    · rw [if_pos ((covers_iff b sat time sig).2 c), if_pos ((covers_iff b sat time sig).2 c), decide_eq_true c]
      exact ⟨rfl, rfl⟩
    · rw [if_neg (fun h => c ((covers_iff b sat time sig).1 h)), if_neg (fun h => c ((covers_iff b sat time sig).1 h)),
        decide_eq_false c]
      exact ih

/-- nothing is found exactly when no entry covers the epoch -/
theorem osb_none (l : List (Bias Sg)) (sat : Int) (time : GTime) (sig : Sg) :
    getosb l sat time sig = none ↔ ∀ b ∈ l, ¬Covers b sat time sig := by
  rw [(osb l sat time sig).1, Option.map_eq_none_iff, List.find?_eq_none]
  simp only [decide_eq_true_eq]

/-- consecutive validity periods never both apply -/
theorem adjacent_exclusive (b b' : Bias Sg) (sat : Int) (time : GTime) (sig : Sg) (h : b.ted = b'.tst) :
    ¬(Covers b sat time sig ∧ Covers b' sat time sig) := by
  rintro ⟨⟨_, _, _, h1⟩, ⟨_, _, h2, _⟩⟩
  rw [h] at h1
  linarith

/-- **Defect**: the differential bias lookup raises whenever an entry matches (it reads an
attribute that bias entries do not have), and otherwise finds nothing. -/
theorem dcb_fails (l : List (Bias Sg)) (sat : Int) (time : GTime) (sig : Sg) :
    getdcb l sat time sig =
      if ∃ b ∈ l, b.sat = sat ∧ b.sig2 = sig ∧ b.tst.tot ≤ time.tot ∧ time.tot < b.ted.tot then .error .attributeError
      else .ok none := by
  induction l with
  | nil => rw [getdcb, if_neg (by simp)]
  | cons b bs ih =>
    rw [getdcb]
    have e : (b.sat = sat ∧ b.sig2 = sig ∧ timediff time b.tst ≥ 0 ∧ timediff time b.ted < 0) ↔
        (b.sat = sat ∧ b.sig2 = sig ∧ b.tst.tot ≤ time.tot ∧ time.tot < b.ted.tot) := by
      rw [timediff_tot, timediff_tot, ge_iff_le, sub_nonneg, sub_neg]
    by_cases c : b.sat = sat ∧ b.sig2 = sig ∧ timediff time b.tst ≥ 0 ∧ timediff time b.ted < 0
    · rw [if_pos c, if_pos ⟨b, by simp, e.1 c⟩]
    · rw [if_neg c, ih]
      congr 1
      apply propext
      constructor
      · rintro ⟨x, hx, h⟩
        exact ⟨x, by simp [hx], h⟩
      · rintro ⟨x, hx, h⟩
        rcases List.mem_cons.1 hx with hx | hx
        · subst hx; exact absurd (e.2 h) c
        · exact ⟨x, hx, h⟩

end

/-! ## Validity times of the bias files -/

/-- **Year, day of year, second of day**: the instant by counting calendar days, for the years of
the time functions. -/
theorem doy_time (year doy sec : Int) (h1 : 1970 ≤ year) (h2 : year ≤ 2099) :
    doy2time year doy sec = ⟨(C03.dayNumber year 1 1 + (doy - 1)) * 86400 + sec, 0⟩ := by
  unfold doy2time C03.dayNumber
  rw [if_neg (by omega), C03.yearsLen_eq _ (by omega)]
  simp only [GTime.mk.injEq, and_true]
  have hm : C03.monthsLen year (1 - 1 : Int).toNat = 0 := rfl
  rw [hm]
  omega

/-- day 1 second 0 is the start of the year -/
theorem doy_epoch (year : Int) (h1 : 1970 ≤ year) (h2 : year ≤ 2099) :
    doy2time year 1 0 = epoch2time ⟨year, 1, 1, 0, 0, 0⟩ := by
  unfold doy2time epoch2time
  have e0 : truncQ 0 = 0 := by decide +kernel
  rw [if_neg (by omega), if_neg (by simp only; omega)]
  simp only [e0]
  rw [if_neg (by omega)]
  simp only [GTime.mk.injEq, Int.cast_zero, sub_zero, and_true]
  rw [show doyTbl.getD (1 - 1 : Int).toNat 0 = 1 from rfl]
  omega

/-- an undefined end (0:000:00000) lies after every epoch of the supported calendar -/
theorem open_end (year doy sec : Int) (h2 : year ≤ 2099) (hd : doy ≤ 366) (hs : sec ≤ 86400)
    (hy : 1970 ≤ year) : (doy2time year doy sec).tot < (doy2time 0 0 0).tot := by
  have e : doy2time 0 0 0 = ⟨32504198400, 0⟩ := by decide +kernel
  rw [e]
  unfold doy2time GTime.tot
  rw [if_neg (by omega)]
  simp only [add_zero]
  have : ((year - 1970) * 365 + (year - 1969) / 4 + doy - 1) * 86400 + sec < 32504198400 := by omega
  exact_mod_cast this

/-- **Defect**: an undefined start is also taken for the year 3000, so a bias without a start time
applies at no epoch of the supported calendar. -/
theorem open_start_never {Sg : Type} (b : Bias Sg) (sat : Int) (time : GTime) (sig : Sg)
    (hb : b.tst = doy2time 0 0 0) (ht : time.tot < 32504198400) : ¬Covers b sat time sig := by
  rintro ⟨_, _, h, _⟩
  have e : doy2time 0 0 0 = ⟨32504198400, 0⟩ := by decide +kernel
  rw [hb, e] at h
  simp only [GTime.tot] at h
  norm_num at h
  unfold GTime.tot at ht
  linarith

/-! ## Concrete cases -/

def exPcv : List (Pcv Nat) :=
  [⟨some 3, "BLOCK IIF", ⟨1000, 0⟩, ⟨2000, 0⟩, 1⟩, ⟨some 3, "BLOCK III", ⟨2000, 0⟩, ⟨0, 0⟩, 2⟩, ⟨none, "TRM", ⟨0, 0⟩, ⟨0, 0⟩, 3⟩]
/-- at the common boundary the first entry is taken -/
example : (searchpcv exPcv (.sat 3) ⟨2000, 0⟩).map (·.tag) = some 1 := by decide +kernel
example : (searchpcv exPcv (.sat 3) ⟨2000, 1 / 2⟩).map (·.tag) = some 2 := by decide +kernel
example : (searchpcv exPcv (.sat 3) ⟨999, 0⟩).map (·.tag) = none := by decide +kernel
example : (searchpcv exPcv (.str "TRM") ⟨5, 0⟩).map (·.tag) = some 3 := by decide +kernel

def exOsb : List (Bias Nat) :=
  [⟨3, ⟨0, 0⟩, ⟨86400, 0⟩, 7, 0, 1, 2⟩, ⟨3, ⟨86400, 0⟩, ⟨172800, 0⟩, 7, 0, 3, 4⟩]
example : getosb exOsb 3 ⟨86400, 0⟩ 7 = some 3 := by decide +kernel
example : getosb exOsb 3 ⟨172800, 0⟩ 7 = none := by decide +kernel
example : doy2time 2021 60 30 = epoch2time ⟨2021, 3, 1, 0, 0, 30⟩ := by decide +kernel

end Verif.C54
