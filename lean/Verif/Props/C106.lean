import Verif.Model.Pvs
import Verif.Lemmas.Fld
import Verif.Lemmas.Time
import Verif.Props.C27
/-!
C106: corrections of PPP via SouthPAN.
-/

namespace Verif.C106
open Verif.Pvs Verif.RtcmInteg Verif.Time Verif.Sat Verif.Sval

/-! ### specification -/

/-- a correction, in units of the message -/
structure Corr where
  slot : Nat
  iodn : Nat
  dx : Int
  dy : Int
  dz : Int
  db : Int
  vx : Int
  vy : Int
  vz : Int
  vb : Int
  t0 : Nat

def Corr.head (c : Corr) : List F := [.u 8 c.slot, .u 10 c.iodn]
def Corr.orb (c : Corr) : List F := [.s 11 c.dx, .s 11 c.dy, .s 11 c.dz, .s 12 c.db]
def Corr.rate (c : Corr) : List F := [.s 8 c.vx, .s 8 c.vy, .s 8 c.vz, .s 9 c.vb, .u 13 c.t0]

/-- the message: preamble, type 32, the correction; then covariance, integrity and checksum, which are not looked at -/
def Corr.bits (pre : Nat) (c : Corr) : List Bool := fb [.u 4 pre, .u 6 32] ++ (fb c.head ++ (fb c.orb ++ fb c.rate))

def Corr.Fit (c : Corr) : Prop := (∀ x ∈ c.head, x.Fit) ∧ (∀ x ∈ c.orb, x.Fit) ∧ (∀ x ∈ c.rate, x.Fit)

/-- a number with a resolution; the smallest number of the field means there is none -/
def scaled (n : Nat) (v : Int) (unit : ℚ) : Option ℚ := if v = -2 ^ (n - 1) then none else some (v * unit)

/-- satellite of a slot: the slot plan of the dual-frequency standard without QZSS -/
def satOf (slot : Int) : Int := if 197 ≤ slot then 0 else Sbas.slot2sat slot

/-- the start of the day of an instant, days of GPS time -/
def dayStart (t : ℚ) : ℚ := let o := (epoch2time gpst0).tot; o + ⌊(t - o) / 86400⌋ * 86400

/-! ### slots -/

/-- the satellite of a slot is the one of the dual-frequency standard, but QZSS is left out -/
theorem slot_sat (slot : Int) : slot2sat slot = satOf slot := by
  unfold slot2sat satOf Sbas.slot2sat
  by_cases h : 197 ≤ slot
  · rw [if_pos h]
    rw [if_neg (by omega), if_neg (by omega), if_neg (by omega), if_neg (by omega), if_neg (by omega)]
  · rw [if_neg h, if_neg (c := slot ≥ 197 ∧ slot ≤ 205) (by omega)]

/-- different slots are different satellites -/
theorem slot_injective (a b : Int) (h : slot2sat a = slot2sat b) (h0 : slot2sat a ≠ 0) : a = b := by
  rw [slot_sat] at h h0
  rw [slot_sat] at h
  unfold satOf at *
  split_ifs at * with h1 h2
  · exact absurd rfl h0
  · exact absurd rfl h0
  · exact absurd h h0
  · exact C27.slot_injective a b h h0

/-! ### messages -/

theorem orb_at {b : BitBuf} {i : Nat} (s : St) (c : Corr) (hf : c.Fit) (h : At b i (fb c.head ++ (fb c.orb ++ fb c.rate))) :
    decodeOrb s b i = .ok (store s c.slot c.iodn [c.dx, c.dy, c.dz, c.db] [c.vx, c.vy, c.vz, c.vb, c.t0] c.t0) := by
  obtain ⟨f1, f2, f3⟩ := hf
  obtain ⟨h1, g1⟩ := flds_at c.head f1 h
  obtain ⟨h2, g2⟩ := flds_at c.orb f2 g1
  obtain ⟨h3, _⟩ := flds_at (m := []) c.rate f3 (by simpa using g2)
  simp only [Corr.head, Corr.orb, Corr.rate, List.map_cons, List.map_nil, F.fmt, F.val, List.sum_cons, List.sum_nil, Nat.reduceAdd, Nat.add_assoc] at h1 h2 h3
  simp only [decodeOrb, h1, h2, h3, Py.okBind, el, List.getD_cons_zero, List.getD_cons_succ]
  rfl

theorem decode_at {b : BitBuf} {i : Nat} (s : St) (pre : Nat) (c : Corr) (hp : pre < 16) (hf : c.Fit) (h : At b i (c.bits pre)) :
    decode s b i = .ok (store s c.slot c.iodn [c.dx, c.dy, c.dz, c.db] [c.vx, c.vy, c.vz, c.vb, c.t0] c.t0) := by
  obtain ⟨h1, g1⟩ := flds_at [.u 4 pre, .u 6 32] (by simp [F.Fit]; omega) h
  simp only [List.map_cons, List.map_nil, F.fmt, F.val, List.sum_cons, List.sum_nil, Nat.reduceAdd] at h1 g1
  have e := orb_at s c hf g1
  simp only [decode, h1, Py.okBind, el, List.getD_cons_zero, List.getD_cons_succ]
  simpa using e

/-- what the decoder holds for a satellite -/
structure View where
  iode : Option Int
  dorb : Option (Val × Val × Val)
  dclk : Option Val
  dvel : Option (Val × Val × Val)
  ddft : Option Val
  t0 : Option GTime

def view (s : St) (k : Int) : View :=
  ⟨Dict.get? s.iode k, Dict.get? s.dorb k, Dict.get? s.dclk k, Dict.get? s.dvel k, Dict.get? s.ddft k, Dict.get? s.t0 k⟩

/-- opposite number -/
def opp (v : Option ℚ) : Option ℚ := v.map fun x => -x

/-- what a correction means: orbits and velocities with changed sign, counted from the clock of the decoder -/
def meant (now : GTime) (c : Corr) : View where
  iode := some c.iodn
  dorb := some (opp (scaled 11 c.dx (1 / 16)), opp (scaled 11 c.dy (1 / 16)), opp (scaled 11 c.dz (1 / 16)))
  dclk := some (scaled 12 c.db (1 / 32))
  dvel := some (opp (scaled 8 c.vx (1 / 2048)), opp (scaled 8 c.vy (1 / 2048)), opp (scaled 8 c.vz (1 / 2048)))
  ddft := some (scaled 9 c.vb (1 / 4096))
  t0 := some now

/-- **correction**: a message of type 32 of a known slot with an odd time sets issue of data, orbit and clock, their rates, and the time the
corrections are counted from, for this satellite alone; the satellite is noted once; the status says that there are orbits and clocks -/
theorem message {b : BitBuf} {i : Nat} (s : St) (pre : Nat) (c : Corr) (hp : pre < 16) (hf : c.Fit) (h : At b i (c.bits pre))
    (hs : satOf c.slot ≠ 0) (ho : c.t0 % 2 = 1) :
    ∃ s', decode s b i = .ok s' ∧ (∀ k, view s' k = if k = satOf c.slot then meant s.time0 c else view s k) ∧
      (∀ k, k ∈ s'.satN ↔ k ∈ s.satN ∨ k = satOf c.slot) ∧ (s.satN.Nodup → s'.satN.Nodup) ∧
      s'.cstat.testBit 1 = true ∧ s'.cstat.testBit 2 = true ∧ (∀ k, k ≠ 1 → k ≠ 2 → s'.cstat.testBit k = s.cstat.testBit k) ∧
      s'.iodssr = 0 ∧ s'.iodClk = 0 ∧ s'.iodOrb = 0 ∧ s'.time0 = s.time0 ∧ s'.week = s.week ∧ s'.tow0 = s.tow0 := by
  refine ⟨_, decode_at s pre c hp hf h, ?_⟩
  unfold store
  rw [if_neg (by rw [slot_sat]; omega)]
  rw [slot_sat]
  refine ⟨fun k => ?_, fun k => ?_, fun hn => ?_, ?_, ?_, fun k h1 h2 => ?_, rfl, rfl, rfl, rfl, rfl, rfl⟩
  · by_cases hk : k = satOf c.slot
    · subst hk
      rw [if_pos rfl]
      simp only [view, Dict.get?_set_self, meant, el, List.getD_cons_zero, List.getD_cons_succ, scaled, sval, opp, Sbas.neg]
      norm_num
    · rw [if_neg hk]
      simp only [view, Dict.get?_set_ne _ _ hk]
  · dsimp only
    split_ifs with hm
    · constructor
      · exact .inl
      · rintro (h | rfl)
        · exact h
        · exact hm
    · simp
  · dsimp only
    split_ifs with hm
    · exact hn
    · rw [List.nodup_append]
      exact ⟨hn, by simp, fun a ha b hb e => hm (by simp at hb; rw [← hb, ← e]; exact ha)⟩
  · simp [Nat.testBit_or, show Nat.testBit 6 1 = true from by decide]
  · simp [Nat.testBit_or, show Nat.testBit 6 2 = true from by decide]
  · simp only [Nat.testBit_or, Nat.shiftLeft_eq, one_mul, Nat.testBit_two_pow]
    simp; omega

/-- **no correction**: other types, unknown slots and even times leave everything as it is -/
theorem ignored {b : BitBuf} {i : Nat} (s : St) :
    (∀ pre mt : Nat, pre < 16 → mt < 64 → mt ≠ 32 → At b i (fb [.u 4 pre, .u 6 mt]) → decode s b i = .ok s) ∧
    (∀ (pre : Nat) (c : Corr), pre < 16 → c.Fit → At b i (c.bits pre) → satOf c.slot = 0 ∨ c.t0 % 2 = 0 → decode s b i = .ok s) := by
  refine ⟨fun pre mt hp hm hn h => ?_, fun pre c hp hf h hc => ?_⟩
  · obtain ⟨h1, _⟩ := flds_at (m := []) [.u 4 pre, .u 6 mt] (by simp [F.Fit]; omega) (by simpa using h)
    simp only [List.map_cons, List.map_nil, F.fmt, F.val] at h1
    simp only [decode, h1, Py.okBind, el, List.getD_cons_zero, List.getD_cons_succ]
    rw [if_neg (by omega)]
    rfl
  · rw [decode_at s pre c hp hf h]
    unfold store
    rw [slot_sat, if_pos (by omega)]

/-! ### time -/

theorem wk_tot (t : GTime) : (epoch2time gpst0).tot + (time2gpst t).1 * 604800 + (time2gpst t).2 = t.tot := by
  have : (epoch2time gpst0).sec = 0 := by decide +kernel
  simp only [time2gpst, time2wk, GTime.tot, this]
  push_cast
  ring

theorem wk_bound {t : GTime} (h : t.Norm) : -604800 < (time2gpst t).2 ∧ (time2gpst t).2 < 604801 := by
  obtain ⟨h1, h2⟩ := h
  simp only [time2gpst, time2wk]
  generalize t.time - (epoch2time gpst0).time = n
  have e : n - n.tdiv (86400 * 7) * 86400 * 7 = n.tmod 604800 := by
    have := Int.tdiv_mul_add_tmod n 604800
    norm_num
    linarith
  rw [e]
  have a := Int.tmod_lt_of_pos n (b := 604800) (by norm_num)
  have b : -604800 < n.tmod 604800 := Int.lt_tmod_of_pos n (by norm_num)
  have a' : ((n.tmod 604800 : Int) : ℚ) < 604800 := by exact_mod_cast a
  have b' : (-604800 : ℚ) < ((n.tmod 604800 : Int) : ℚ) := by exact_mod_cast b
  constructor <;> linarith

theorem to_tot (w : Int) (tow : ℚ) (h1 : -1000000000 ≤ tow) (h2 : tow ≤ 1000000000) :
    (gpst2time w tow).tot = (epoch2time gpst0).tot + w * 604800 + tow := by
  have : (epoch2time gpst0).sec = 0 := by decide +kernel
  simp only [gpst2time, wk2time, GTime.tot, this]
  rw [if_neg (by rintro (h | h) <;> linarith)]
  push_cast
  ring

/-- **time of the correction**: once the clock of the decoder is set, the time of a correction is the start of the day of the clock plus 16 s
times the number in the message.  The correction by whole weeks is never needed. -/
theorem time_value {b : BitBuf} {i : Nat} (s : St) (now : GTime) (hn : now.Norm) (pre : Nat) (c : Corr) (hp : pre < 16) (hf : c.Fit)
    (h : At b i (c.bits pre)) (hs : satOf c.slot ≠ 0) (ho : c.t0 % 2 = 1) :
    ∃ s' t, decode (setTime s now) b i = .ok s' ∧ s'.time = some t ∧ t.tot = dayStart now.tot + 16 * c.t0 := by
  refine ⟨_, adjustWeek (gpst2time (setTime s now).week ((setTime s now).tow0 + (c.t0 : Int) * 16)) (setTime s now).time0,
    decode_at _ pre c hp hf h, ?_, ?_⟩
  · unfold store
    rw [if_neg (by rw [slot_sat]; omega)]
  · have ht : c.t0 < 2 ^ 13 := by
      have := hf.2.2 (.u 13 c.t0) (by simp [Corr.rate])
      simpa [F.Fit] using this
    have hq : (c.t0 : ℚ) < 8192 := by exact_mod_cast ht
    have h0 : (0 : ℚ) ≤ c.t0 := by positivity
    obtain ⟨b1, b2⟩ := wk_bound hn
    have hw := wk_tot now
    have hd : dayStart now.tot = (epoch2time gpst0).tot + (time2gpst now).1 * 604800 + ⌊(time2gpst now).2 / 86400⌋ * 86400 := by
      unfold dayStart
      dsimp only
      have e : (now.tot - (epoch2time gpst0).tot) / 86400 = (time2gpst now).2 / 86400 + (((time2gpst now).1 * 7 : Int) : ℚ) := by
        rw [← hw]; push_cast; ring
      rw [e, Int.floor_add_intCast]
      push_cast
      ring
    have f1 := Int.floor_le ((time2gpst now).2 / 86400)
    have f2 := Int.lt_floor_add_one ((time2gpst now).2 / 86400)
    have g : (gpst2time (time2gpst now).1 ((⌊(time2gpst now).2 / 86400⌋ : Int) * 86400 + ((c.t0 : Int) : ℚ) * 16)).tot = dayStart now.tot + 16 * c.t0 := by
      rw [to_tot, hd]
      · push_cast; ring
      · push_cast; linarith
      · push_cast; linarith
    simp only [setTime, adjustWeek, timediff_tot]
    rw [if_neg, if_neg]
    · exact g
    · rw [g, hd]; linarith
    · rw [g, hd]; linarith

/-- **midnight**: a correction referring to the day before the one on the clock gets a time which is a day late -/
theorem day_late {b : BitBuf} {i : Nat} (s : St) (now : GTime) (hn : now.Norm) (pre : Nat) (c : Corr) (hp : pre < 16) (hf : c.Fit)
    (h : At b i (c.bits pre)) (hs : satOf c.slot ≠ 0) (ho : c.t0 % 2 = 1) (true : ℚ) (ht : true = dayStart now.tot - 86400 + 16 * c.t0) :
    ∃ s' t, decode (setTime s now) b i = .ok s' ∧ s'.time = some t ∧ t.tot = true + 86400 := by
  obtain ⟨s', t, h1, h2, h3⟩ := time_value s now hn pre c hp hf h hs ho
  exact ⟨s', t, h1, h2, by rw [h3, ht]; ring⟩

/-- **weeks**: a time up to a week and a half away is moved by whole weeks so that it is at most half a week away -/
theorem week_adjust (t t0 : GTime) (h : |t.tot - t0.tot| ≤ 907200) :
    |(adjustWeek t t0).tot - t0.tot| ≤ 302400 ∧ ∃ k : Int, (adjustWeek t t0).tot = t.tot + 604800 * k := by
  unfold adjustWeek
  simp only [timediff_tot]
  obtain ⟨h1, h2⟩ := abs_le.1 h
  split_ifs with a b
  · rw [tot_timeadd]
    exact ⟨abs_le.2 ⟨by linarith, by linarith⟩, -1, by push_cast; ring⟩
  · rw [tot_timeadd]
    exact ⟨abs_le.2 ⟨by linarith, by linarith⟩, 1, by push_cast; ring⟩
  · exact ⟨abs_le.2 ⟨by linarith, by linarith⟩, 0, by push_cast; ring⟩

example : |(gpst2time 2200 604000).tot - (gpst2time 2200 0).tot| ≤ 907200 := by decide +kernel

/-! ### example -/

def demo : Corr := ⟨3, 17, -1024, 5, -6, 100, 1, -2, 3, -4, 5399⟩

example : demo.Fit ∧ satOf demo.slot = 3 ∧ demo.t0 % 2 = 1 := by
  refine ⟨⟨?_, ?_, ?_⟩, by decide +kernel, rfl⟩ <;> simp [Corr.head, Corr.orb, Corr.rate, F.Fit, demo]

example : (meant ⟨0, 0⟩ demo).dorb = some (none, some (-5 / 16), some (3 / 8)) := by
  simp only [meant, demo, opp, scaled]; norm_num

end Verif.C106
