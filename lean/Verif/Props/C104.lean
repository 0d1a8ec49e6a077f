import Verif.Model.Peph2
import Verif.Props.C46
/-!
C104: position, velocity and clock from precise tables.
-/

namespace Verif.C104
open Verif.Time Verif.Peph Verif.Peph2 Verif.C46

/-! ### clock of the orbit table -/

/-- seconds from epoch `a` to epoch `b` -/
noncomputable def since (a b : GTime) : ℝ := ((b.tot - a.tot : ℚ) : ℝ)

/-- the clock of an orbit table: held before the first and after the last epoch, a straight line between neighbours -/
theorem clock_value {tab : List PosEp} {time : GTime} {sat : Int} (hs : Ordered (tab.map (·.time))) (hl : 11 ≤ tab.length)
    (hr : InReach (tab.map (·.time)) time (by rw [List.length_map]; omega)) (hd : ∀ p ∈ tab, HasData p sat) :
    ∃ (k : Nat) (h : k + 1 < tab.length) (r : Fin 3 → ℝ), pephpos tab.length tab time sat = .ok (some r) ∧
      Bracket (tab.map (·.time)) time k ∧
      posClk tab.length tab sat time = .ok (some (r, clkVal (since tab[k].time time) (since tab[k + 1].time time)
        (tab[k].clk sat) (tab[k + 1].clk sat))) := by
  obtain ⟨_, _, _, _, _, _, x, y, _, _, e⟩ := pephpos_eq hs hl hr hd
  obtain ⟨k, w, e2, hb, -⟩ := search_orbit hs (by simpa using hl) hr
  have hk : k + 1 < tab.length := by simpa using hb.1
  rw [List.length_map] at e2
  refine ⟨k, hk, _, e, hb, ?_⟩
  have g0 : pyGet tab k = .ok tab[k] := by
    unfold pyGet; rw [List.getElem?_eq_getElem (by omega)]
  have g1 : pyGet tab (k + 1) = .ok tab[k + 1] := by
    unfold pyGet; rw [List.getElem?_eq_getElem hk]
  simp only [posClk, e, e2, Py.okBind, g0, g1, timediff_tot, since]
  rfl

/-- between the epochs the clock of a satellite with a steady clock is right -/
theorem clkVal_affine (a b s0 s1 t : ℝ) (h01 : s0 < s1) (h0 : s0 ≤ t) (h1 : t ≤ s1) :
    clkVal (t - s0) (t - s1) (a + b * s0) (a + b * s1) = a + b * t := by
  unfold clkVal
  by_cases c : t - s0 ≤ 0
  · have : t = s0 := by linarith
    rw [if_pos c, this]
  · rw [if_neg c]
    by_cases d : t - s1 ≥ 0
    · have : t = s1 := by linarith
      rw [if_pos d, this]
    · rw [if_neg d]
      have : (t - s0) - (t - s1) ≠ 0 := by linarith
      field_simp
      ring

/-- outside it is held -/
theorem clkVal_held (c0 c1 t0 t1 : ℝ) (h : t1 < t0) : (t0 ≤ 0 → clkVal t0 t1 c0 c1 = c0) ∧ (0 ≤ t1 → clkVal t0 t1 c0 c1 = c1) := by
  unfold clkVal
  refine ⟨fun h => if_pos h, fun h1 => ?_⟩
  rw [if_neg (by linarith), if_pos h1]

/-- the value lies between the two of the table -/
theorem clkVal_between (c0 c1 t0 t1 : ℝ) (h : t1 < t0) : min c0 c1 ≤ clkVal t0 t1 c0 c1 ∧ clkVal t0 t1 c0 c1 ≤ max c0 c1 := by
  unfold clkVal
  split_ifs with c d
  · simp
  · simp
  · push Not at c d
    have hp : 0 < t0 - t1 := by linarith
    rw [le_div_iff₀ hp, div_le_iff₀ hp]
    have m0 := min_le_left c0 c1
    have m1 := min_le_right c0 c1
    have n0 := le_max_left c0 c1
    have n1 := le_max_right c0 c1
    constructor
    · nlinarith [mul_le_mul_of_nonneg_right m1 c.le, mul_le_mul_of_nonneg_right m0 (by linarith : (0 : ℝ) ≤ -t1)]
    · nlinarith [mul_le_mul_of_nonneg_right n1 c.le, mul_le_mul_of_nonneg_right n0 (by linarith : (0 : ℝ) ≤ -t1)]

/-- within the table a steady clock is right -/
theorem steady_clock {tab : List PosEp} {time : GTime} {sat : Int} (hs : Ordered (tab.map (·.time))) (hl : 11 ≤ tab.length)
    (hd : ∀ p ∈ tab, HasData p sat) (h0 : tab[0].time.tot ≤ time.tot) (h1 : time.tot ≤ (tab[tab.length - 1]'(by omega)).time.tot)
    (a b : ℝ) (hc : ∀ p ∈ tab, p.clk sat = a + b * (p.time.tot : ℝ)) :
    ∃ r, posClk tab.length tab sat time = .ok (some (r, a + b * (time.tot : ℝ))) := by
  have hr : InReach (tab.map (·.time)) time (by rw [List.length_map]; omega) := by
    simp only [InReach, List.getElem_map, List.length_map]
    constructor <;> linarith
  obtain ⟨k, hk, r, -, hb, e⟩ := clock_value hs hl hr hd
  refine ⟨r, ?_⟩
  rw [e, hc _ (List.getElem_mem _), hc _ (List.getElem_mem _)]
  obtain ⟨hk', b1, b2⟩ := hb
  simp only [List.getElem_map, List.length_map] at b1 b2
  have ho : tab[k].time.tot < tab[k + 1].time.tot := by
    have := hs k (k + 1) (by simp; omega) (by simpa using hk) (by omega)
    simpa using this
  have h2 : tab[k].time.tot ≤ time.tot := by
    by_cases c : k = 0
    · subst c; exact h0
    · exact (b1 c).le
  have h3 : time.tot ≤ tab[k + 1].time.tot := by
    by_cases c : k + 2 < tab.length
    · exact b2 c
    · have hk2 : tab.length - 1 = k + 1 := by omega
      simpa only [hk2] using h1
  have := clkVal_affine a b (tab[k].time.tot : ℝ) (tab[k + 1].time.tot : ℝ) (time.tot : ℝ) (by exact_mod_cast ho) (by exact_mod_cast h2)
    (by exact_mod_cast h3)
  simp only [since]
  push_cast
  rw [this]

/-! ### position, velocity, clock -/

/-- with an orbit table only, and positions at the time and a millisecond later: position, velocity as the quotient of the difference,
clock with the relativistic correction, rate of the clock; a clock of exactly 0 stays without correction -/
theorem orbit_table (pos : GTime → Py (Option ((Fin 3 → ℝ) × ℝ))) (time : GTime) (r r' : Fin 3 → ℝ) (c c' : ℝ)
    (h1 : pos time = .ok (some (r, c))) (h2 : pos (timeadd time (1 / 1000)) = .ok (some (r', c'))) :
    ∃ o, peph2pos pos none time = .ok (some o) ∧ o.pos = r ∧ (∀ a, o.vel a = 1000 * (r' a - r a)) ∧
      (c ≠ 0 → o.clk = c - 2 * (r 0 * o.vel 0 + r 1 * o.vel 1 + r 2 * o.vel 2) / 299792458 ^ 2 ∧ o.drift = 1000 * (c' - c)) ∧
      (c = 0 → o.clk = 0 ∧ o.drift = 0) := by
  refine ⟨combine r r' c c', ?_, ?_, ?_, ?_, ?_⟩
  · simp only [peph2pos, h1, Py.okBind, clkOf, h2, Option.elim]
    rfl
  · unfold combine; split_ifs <;> rfl
  · intro a; unfold combine; split_ifs <;> simp only <;> ring
  · intro h
    unfold combine
    rw [if_pos h]
    simp only [pephrel, clight]
    constructor <;> ring
  · intro h
    unfold combine
    rw [if_neg (by simpa using h)]
    exact ⟨h, rfl⟩

/-- with a clock table the clocks are taken from it -/
theorem clock_table (pos : GTime → Py (Option ((Fin 3 → ℝ) × ℝ))) (clk : GTime → Py (Option ℝ)) (time : GTime) (r r' : Fin 3 → ℝ)
    (c c' d d' : ℝ) (h1 : pos time = .ok (some (r, c))) (h2 : pos (timeadd time (1 / 1000)) = .ok (some (r', c')))
    (h3 : clk time = .ok (some d)) (h4 : clk (timeadd time (1 / 1000)) = .ok (some d')) :
    peph2pos pos (some clk) time = peph2pos (fun t => if t = time then .ok (some (r, d)) else if t = timeadd time (1 / 1000) then
      .ok (some (r', d')) else .ok none) none time := by
  have hne : timeadd time (1 / 1000) ≠ time := by
    intro e
    have := tot_timeadd time (1 / 1000)
    rw [e] at this
    linarith
  simp only [peph2pos, h1, h2, h3, h4, Py.okBind, clkOf, if_true, if_neg hne, Option.elim]

/-- no result without position or clock at the time -/
theorem no_result (pos : GTime → Py (Option ((Fin 3 → ℝ) × ℝ))) (clk : Option (GTime → Py (Option ℝ))) (time : GTime)
    (h : pos time = .ok none ∨ ∃ r f, pos time = .ok (some r) ∧ clk = some f ∧ f time = .ok none) : peph2pos pos clk time = .ok none := by
  rcases h with h | ⟨⟨r, d⟩, f, h, rfl, h2⟩
  · simp only [peph2pos, h, Py.okBind]; rfl
  · simp only [peph2pos, h, Py.okBind, clkOf, h2]; rfl

/-- in steady motion the velocity is exact -/
theorem steady_motion (r v : Fin 3 → ℝ) (c d : ℝ) (hc : c ≠ 0) :
    (combine r (fun a => r a + v a * (1 / 1000)) c (c + d * (1 / 1000))).vel = v ∧
    (combine r (fun a => r a + v a * (1 / 1000)) c (c + d * (1 / 1000))).drift = d := by
  unfold combine
  rw [if_pos hc]
  refine ⟨?_, ?_⟩
  · funext a
    simp only
    field_simp
    ring
  · simp only
    field_simp
    ring

/-- **the last millisecond**: from a millisecond before the end of the reach of the table an exception is raised instead of the answer
that there is no position -/
theorem last_millisecond {tab : List PosEp} {time : GTime} {sat : Int} (hs : Ordered (tab.map (·.time))) (hl : 11 ≤ tab.length)
    (hr : InReach (tab.map (·.time)) time (by rw [List.length_map]; omega)) (hd : ∀ p ∈ tab, HasData p sat)
    (he : (tab[tab.length - 1]'(by omega)).time.tot + 900 < time.tot + 1 / 1000) :
    peph2pos (posClk tab.length tab sat) none time = .error .typeError := by
  obtain ⟨k, hk, r, -, -, e⟩ := clock_value hs hl hr hd
  have hn : pephSearch (tab.map (·.time)).length (tab.map (·.time)) (timeadd time (1 / 1000)) = .ok none := by
    apply search_none
    right
    refine ⟨by simp; omega, ?_⟩
    simp only [InReach, List.getElem_map, List.length_map, tot_timeadd, not_and]
    intro _
    linarith
  rw [List.length_map] at hn
  have e2 : posClk tab.length tab sat (timeadd time (1 / 1000)) = .ok none := by
    simp only [posClk, pephpos, hn, Py.okBind]
    rfl
  simp only [peph2pos, e, Py.okBind, clkOf, e2, Option.elim]

/-! ### errors of the clock -/

/-- at and before the first epoch: the error of the table in metres, and a millimetre per second -/
theorem error_before (t0 t1 s0 s1 : ℝ) (h : t0 ≤ 0) : clkStd t0 t1 s0 s1 = s0 * 299792458 + (-t0) / 1000 := by
  unfold clkStd exterrClk clight; rw [if_pos h]; ring

/-- between epochs the error of the table is not turned into metres -/
theorem error_between (t0 t1 s0 s1 : ℝ) (h0 : 0 < t0) (h1 : t1 < 0) :
    clkStd t0 t1 s0 s1 = (if t0 < -t1 then s0 else s1) + min t0 (-t1) / 1000 := by
  unfold clkStd exterrClk
  rw [if_neg (by linarith), if_neg (by linarith), abs_of_pos h0, abs_of_neg h1]
  split_ifs with h
  · rw [min_eq_left h.le]; ring
  · rw [min_eq_right (by linarith)]; ring

/-- after the last epoch the error gets smaller with time instead of larger -/
theorem error_after (t0 t1 s0 s1 : ℝ) (h0 : 0 < t0) (h1 : 0 ≤ t1) : clkStd t0 t1 s0 s1 = s1 * 299792458 - t1 / 1000 := by
  unfold clkStd exterrClk clight; rw [if_neg (by linarith), if_pos h1]; ring

/-- so a clock has an error of a few tenths of a metre at its epoch and next to nothing one second later -/
example : clkStd 0 (-30) 1e-9 1e-9 = 0.299792458 ∧ clkStd 1 (-29) 1e-9 1e-9 = 0.001000001 := by
  constructor
  · rw [error_before _ _ _ _ le_rfl]; norm_num
  · rw [error_between _ _ _ _ (by norm_num) (by norm_num)]; norm_num

/-- and 300 seconds after the end of a table its error is 0 -/
example : clkStd 330 300 1e-9 (0.3 / 299792458) = 0 := by
  rw [error_after _ _ _ _ (by norm_num) (by norm_num)]; norm_num

/-! ### example -/

/-- a table of eleven epochs -/
noncomputable def exTab : List PosEp := (List.range 11).map fun k : Nat => ⟨⟨900 * (k : Int), 0⟩, fun _ _ => 1, fun _ => 2⟩

example : Ordered (exTab.map (·.time)) := by
  intro i j hi hj hij
  simp only [exTab, List.getElem_map, List.getElem_range, GTime.tot]
  have : (i : ℚ) < j := by exact_mod_cast hij
  push_cast
  linarith

example : 11 ≤ exTab.length ∧ ∀ p ∈ exTab, HasData p 5 := by
  refine ⟨by simp [exTab], ?_⟩
  intro p hp
  obtain ⟨k, -, rfl⟩ := List.mem_map.1 hp
  simp [HasData]

end Verif.C104
