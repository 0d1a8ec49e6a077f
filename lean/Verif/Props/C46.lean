import Verif.Model.Peph
import Verif.Lemmas.Time
import Verif.Lemmas.Post
import Verif.Props.C45
import Mathlib.Analysis.SpecialFunctions.Trigonometric.Basic
import Mathlib.Analysis.Complex.Trigonometric
/-!
# C46 Precise-ephemeris epoch search
-/

namespace Verif.C46
open Verif.Time Verif.Peph Polynomial

/-! ## Specification -/

/-- epochs in strictly increasing order -/
def Ordered (ts : List GTime) : Prop := ∀ i j (hi : i < ts.length) (hj : j < ts.length), i < j → ts[i].tot < ts[j].tot

/-- request no farther than 900 s outside the table -/
def InReach (ts : List GTime) (time : GTime) (h : 0 < ts.length) : Prop :=
  ts[0].tot - 900 ≤ time.tot ∧ time.tot ≤ ts[ts.length - 1].tot + 900

/-- `k` is the last epoch before the request that has a successor; the first one if there is none -/
def Bracket (ts : List GTime) (time : GTime) (k : Nat) : Prop :=
  ∃ h : k + 1 < ts.length,
    (k ≠ 0 → (ts[k]'(by omega)).tot < time.tot) ∧ (k + 2 < ts.length → time.tot ≤ ts[k + 1].tot)

/-! ## Bisection -/

/-- **Bisection terminates in range**, for every table, sorted or not. -/
theorem bisect_range (b : Nat → Bool) : ∀ i j, i ≤ j → ∃ r, bisect (fun k => .ok (b k)) i j = .ok r ∧ i ≤ r ∧ r ≤ j ∧
    ((∀ k l, i ≤ k → k ≤ l → l < j → b l = true → b k = true) →
      (∀ k, i ≤ k → k < r → b k = true) ∧ (∀ k, r ≤ k → k < j → b k = false)) := by
  intro i j
  generalize hd : j - i = d
  induction d using Nat.strong_induction_on generalizing i j with
  | _ d ih =>
    intro hij
    rw [bisect]
    by_cases h : i < j
    · rw [dif_pos h]
      simp only [bind, Except.bind]
      cases hb : b ((i + j) / 2) with
      | true =>
        simp only [if_true]
        obtain ⟨r, e, h1, h2, h3⟩ := ih (j - ((i + j) / 2 + 1)) (by omega) ((i + j) / 2 + 1) j rfl (by omega)
        refine ⟨r, e, by omega, h2, ?_⟩
        intro hm
        obtain ⟨m1, m2⟩ := h3 (fun k l hk hl hj hb => hm k l (by omega) hl hj hb)
        refine ⟨?_, m2⟩
        intro k hk hr
        by_cases c : k ≤ (i + j) / 2
        · exact hm k _ hk c (by omega) hb
        · exact m1 k (by omega) hr
      | false =>
        simp only [Bool.false_eq_true, if_false]
        obtain ⟨r, e, h1, h2, h3⟩ := ih ((i + j) / 2 - i) (by omega) i ((i + j) / 2) rfl (by omega)
        refine ⟨r, e, h1, by omega, ?_⟩
        intro hm
        obtain ⟨m1, m2⟩ := h3 (fun k l hk hl hj hb => hm k l hk hl (by omega) hb)
        refine ⟨m1, ?_⟩
        intro k hk hj
        by_cases c : k < (i + j) / 2
        · exact m2 k hk c
        · cases hbk : b k with
          | false => rfl
          | true =>
            have := hm ((i + j) / 2) k (by omega) (by omega) hj hbk
            rw [hb] at this
            cases this
    · rw [dif_neg h]
      exact ⟨i, rfl, le_refl _, hij, fun _ => ⟨fun k hk hr => by omega, fun k hk hr => by omega⟩⟩

/-- the bisection only looks at the positions of its interval -/
theorem bisect_congr (f g : Nat → Py Bool) : ∀ i j, (∀ k, i ≤ k → k < j → f k = g k) → bisect f i j = bisect g i j := by
  intro i j
  generalize hd : j - i = d
  induction d using Nat.strong_induction_on generalizing i j with
  | _ d ih =>
    intro h
    rw [bisect, bisect]
    by_cases c : i < j
    · rw [dif_pos c, dif_pos c]
      simp only
      rw [h _ (by omega) (by omega), ih (j - ((i + j) / 2 + 1)) (by omega) _ _ rfl (fun k hk hj => h k (by omega) hj),
        ih ((i + j) / 2 - i) (by omega) _ _ rfl (fun k hk hj => h k hk (by omega))]
    · rw [dif_neg c, dif_neg c]

/-- the test on a table -/
theorem before_eq {ts : List GTime} {time : GTime} {k : Nat} (h : k < ts.length) :
    before ts time k = .ok (decide (ts[k].tot < time.tot)) := by
  unfold before pyGet
  rw [List.getElem?_eq_getElem h]
  show Except.ok _ = _
  rw [timediff_tot]
  congr 1
  rw [decide_eq_decide]
  exact sub_neg

theorem bisect_bracket {ts : List GTime} {time : GTime} (hs : Ordered ts) (hl : 2 ≤ ts.length) :
    ∃ r, bisect (before ts time) 0 (ts.length - 1) = .ok r ∧ Bracket ts time (indexOf r) := by
  obtain ⟨r, e, h1, h2, h3⟩ := bisect_range (fun k => decide (∃ h : k < ts.length, ts[k].tot < time.tot)) 0 (ts.length - 1)
    (by omega)
  refine ⟨r, ?_, ?_⟩
  · rw [← e]
    refine bisect_congr _ _ _ _ (fun k _ hk => ?_)
    rw [before_eq (by omega)]
    congr 1
    rw [decide_eq_decide]
    exact ⟨fun h => ⟨by omega, h⟩, fun ⟨_, h⟩ => h⟩
  · obtain ⟨m1, m2⟩ := h3 (by
      intro k l _ hkl hl' hb
      rw [decide_eq_true_eq] at hb ⊢
      obtain ⟨hl2, hb⟩ := hb
      refine ⟨by omega, ?_⟩
      by_cases c : k = l
      · subst c; exact hb
      · exact lt_trans (hs k l (by omega) hl2 (by omega)) hb)
    unfold indexOf
    by_cases c : r = 0
    · subst c
      rw [if_pos rfl]
      refine ⟨by omega, by simp, ?_⟩
      intro hlen
      have := m2 1 (by omega) (by omega)
      rw [decide_eq_false_iff_not] at this
      push Not at this
      exact this (by omega)
    · rw [if_neg c]
      refine ⟨by omega, ?_, ?_⟩
      · intro hr
        have := m1 (r - 1) (by omega) (by omega)
        rw [decide_eq_true_eq] at this
        exact this.2
      · intro hlen
        have := m2 r (by omega) (by omega)
        rw [decide_eq_false_iff_not] at this
        push Not at this
        have h' := this (by omega)
        have e : ts[r - 1 + 1]'(by omega) = ts[r]'(by omega) := by congr 1; omega
        rw [e]
        exact h'

/-- the bracket is unique -/
theorem bracket_unique {ts : List GTime} {time : GTime} (hs : Ordered ts) {k k' : Nat} (h : Bracket ts time k)
    (h' : Bracket ts time k') : k = k' := by
  obtain ⟨hk, a, b⟩ := h
  obtain ⟨hk', a', b'⟩ := h'
  have main : ∀ k k' (hk : k + 1 < ts.length) (hk' : k' + 1 < ts.length),
      (k' ≠ 0 → (ts[k']'(by omega)).tot < time.tot) → (k + 2 < ts.length → time.tot ≤ ts[k + 1].tot) → ¬k < k' := by
    intro k k' hk hk' a' b hlt
    have h1 := a' (by omega)
    have h2 := b (by omega)
    by_cases c : k + 1 = k'
    · subst c; linarith
    · have := hs (k + 1) k' (by omega) (by omega) (by omega)
      linarith
  have := main k k' hk hk' a' b
  have := main k' k hk' hk a b'
  omega

/-! ## Search in the orbit table -/

/-- **Epoch search and window**: for an ordered table of at least 11 epochs and a request in reach
the search finds the bracketing epoch, and the eleven nodes of the window lie inside the table and
contain the bracketing pair; the window begins five epochs before the bracketing one, or at the end
of the table that is too near for this. -/
theorem search_orbit {ts : List GTime} {time : GTime} (hs : Ordered ts) (hl : 11 ≤ ts.length)
    (hr : InReach ts time (by omega)) :
    ∃ index w : Nat, pephSearch ts.length ts time = .ok (some (index, (w : Int))) ∧
      Bracket ts time index ∧ w + 10 < ts.length ∧ w ≤ index ∧ index + 1 ≤ w + 10 ∧
      (w : Int) = max 0 (min ((index : Int) - 5) ((ts.length : Int) - 11)) := by
  obtain ⟨r, e, hb⟩ := bisect_bracket (time := time) hs (by omega)
  obtain ⟨h1, h2⟩ := hr
  have hlt := hb.1
  refine ⟨indexOf r, (windowOf ts.length (indexOf r)).toNat, ?_, hb, ?_, ?_, ?_, ?_⟩
  · unfold pephSearch
    rw [if_neg (by unfold nmax; omega)]
    simp only [pyGet]
    rw [List.getElem?_eq_getElem (by omega)]
    simp only [bind, Except.bind]
    rw [if_neg (by rw [timediff_tot]; unfold maxDte; linarith), List.getElem?_eq_getElem (by omega)]
    simp only
    rw [if_neg (by rw [timediff_tot]; unfold maxDte; linarith), e]
    simp only [pure, Except.pure]
    congr 3
    rw [Int.toNat_of_nonneg]
    unfold windowOf nmax
    simp only
    split
    · omega
    · split <;> omega
  all_goals
    unfold windowOf nmax
    simp only
    split
    · omega
    · split <;> omega

/-- **Outside the reach** (or with fewer than eleven epochs) nothing is returned. -/
theorem search_none {ts : List GTime} {time : GTime} (h : ts.length < 11 ∨ ∃ h0 : 0 < ts.length, ¬InReach ts time h0) :
    pephSearch ts.length ts time = .ok none := by
  unfold pephSearch
  by_cases c : ts.length < nmax + 1
  · rw [if_pos c]; rfl
  · rw [if_neg c]
    have hl : 11 ≤ ts.length := by unfold nmax at c; omega
    rcases h with h | ⟨h0, h⟩
    · omega
    · simp only [pyGet]
      rw [List.getElem?_eq_getElem h0]
      simp only [bind, Except.bind]
      by_cases c1 : timediff time ts[0] < -maxDte
      · rw [if_pos c1]; rfl
      · rw [if_neg c1, List.getElem?_eq_getElem (by omega)]
        simp only
        rw [if_pos]
        · rfl
        · unfold InReach at h
          rw [timediff_tot] at c1 ⊢
          unfold maxDte at c1 ⊢
          push Not at c1 h
          have := h (by linarith)
          linarith

/-- **Defect**: the epoch counter counts every epoch header of a file, also epochs without any
valid value, which are not stored; then the search reads beyond the table and raises. -/
theorem counter_beyond_table {ts : List GTime} {time : GTime} {ne : Nat} (h : 11 ≤ ne) (hl : ts.length < ne)
    (h0 : 0 < ts.length) (ht : ts[0].tot - 900 ≤ time.tot) : pephSearch ne ts time = .error .indexError := by
  unfold pephSearch
  rw [if_neg (by unfold nmax; omega)]
  simp only [pyGet]
  rw [List.getElem?_eq_getElem h0]
  simp only [bind, Except.bind]
  rw [if_neg (by rw [timediff_tot]; unfold maxDte; linarith), List.getElem?_eq_none (by omega)]

/-! ## Orbit positions -/

theorem mapM_get {α} {tab : List α} {w : Nat} : ∀ n, w + n ≤ tab.length →
    (List.range n).mapM (fun j : Nat => pyGetI tab ((w : Int) + j)) = (.ok ((tab.drop w).take n) : Py (List α)) := by
  intro n
  induction n with
  | zero => intro _; simp; rfl
  | succ n ih =>
    intro h
    rw [List.range_succ, List.mapM_append, ih (by omega)]
    have : pyGetI tab ((w : Int) + n) = .ok tab[w + n] := by
      unfold pyGetI pyGet
      rw [if_pos (by omega), show ((w : Int) + n).toNat = w + n by omega, List.getElem?_eq_getElem (by omega)]
    rw [List.mapM_cons, List.mapM_nil, this]
    show Except.ok (List.take n (List.drop w tab) ++ [tab[w + n]]) = _
    congr 1
    rw [List.take_succ, List.getElem?_drop, List.getElem?_eq_getElem (by omega)]
    rfl

/-- the satellite has data at an epoch -/
def HasData (p : PosEp) (sat : Int) : Prop := ¬(p.pos sat 0 = 0 ∧ p.pos sat 1 = 0 ∧ p.pos sat 2 = 0 ∧ p.clk sat = 0)

/-- time of an epoch relative to the request -/
noncomputable def rel (p : PosEp) (time : GTime) : ℝ := ((timediff p.time time : ℚ) : ℝ)

/-- the Earth's rotation [rad/s] -/
noncomputable def earthRate : ℝ := 72921151467 / 10 ^ 15

/-- Earth-fixed coordinates a time `t` from the request, in the Earth-fixed frame of the request:
turned about the z axis by the rotation in the time `t` -/
noncomputable def turned (p : Fin 3 → ℝ) (t : ℝ) : Fin 3 → ℝ
  | 0 => (((p 0 : ℂ) + p 1 * Complex.I) * Complex.exp (((earthRate * t : ℝ) : ℂ) * Complex.I)).re
  | 1 => (((p 0 : ℂ) + p 1 * Complex.I) * Complex.exp (((earthRate * t : ℝ) : ℂ) * Complex.I)).im
  | 2 => p 2

theorem rotated_eq (p : Fin 3 → ℝ) (t : ℝ) : rotated p t = turned p t := by
  have hw : omge = earthRate := by unfold omge earthRate; norm_num
  funext a
  match a with
  | 0 =>
    unfold rotated turned
    rw [hw]
    generalize earthRate * t = x
    rw [Complex.exp_mul_I, ← Complex.ofReal_cos, ← Complex.ofReal_sin]
    generalize Real.cos x = c
    generalize Real.sin x = d
    simp
    ring
  | 1 =>
    unfold rotated turned
    rw [hw]
    generalize earthRate * t = x
    rw [Complex.exp_mul_I, ← Complex.ofReal_cos, ← Complex.ofReal_sin]
    generalize Real.cos x = c
    generalize Real.sin x = d
    simp
    ring
  | 2 => rfl

/-- the position computed is the interpolation over the window -/
theorem pephpos_eq {tab : List PosEp} {time : GTime} {sat : Int} (hs : Ordered (tab.map (·.time)))
    (hl : 11 ≤ tab.length) (hr : InReach (tab.map (·.time)) time (by rw [List.length_map]; omega))
    (hd : ∀ p ∈ tab, HasData p sat) :
    ∃ index w, ∃ hw : w + 10 < tab.length, Bracket (tab.map (·.time)) time index ∧ w ≤ index ∧ index + 1 ≤ w + 10 ∧
      ∃ x : Nat → ℝ, ∃ y : Fin 3 → Nat → ℝ, Set.InjOn x {k | k < 11} ∧
      (∀ j (hj : j < 11), x j = rel (tab[w + j]'(by omega)) time ∧
        ∀ a, y a j = turned ((tab[w + j]'(by omega)).pos sat) (rel (tab[w + j]'(by omega)) time) a) ∧
      pephpos tab.length tab time sat = .ok (some (fun a => interppol x (y a) 11)) := by
  obtain ⟨index, w, e, hb, hw, h1, h2, _⟩ := search_orbit hs (by rw [List.length_map]; exact hl) hr
  rw [List.length_map] at hw
  have hx : ∀ j, j < 11 → ∀ (d : ℝ), (((tab.drop w).take 11).map fun p => ((timediff p.time time : ℚ) : ℝ)).getD j d =
      if h : w + j < tab.length then rel tab[w + j] time else d := by
    intro j hj d
    rw [dif_pos (by omega), List.getD_eq_getElem?_getD, List.getElem?_map, List.getElem?_take_of_lt hj, List.getElem?_drop,
      List.getElem?_eq_getElem (by omega)]
    rfl
  refine ⟨index, w, hw, hb, h1, h2, fun j => (((tab.drop w).take 11).map fun p => ((timediff p.time time : ℚ) : ℝ)).getD j 0,
    fun a j => (((tab.drop w).take 11).map fun p => rotated (p.pos sat) ((timediff p.time time : ℚ) : ℝ) a).getD j 0,
    ?_, ?_, ?_⟩
  · intro i hi j hj hij
    simp only [Set.mem_setOf_eq] at hi hj
    simp only at hij
    rw [hx i hi, hx j hj, dif_pos (by omega), dif_pos (by omega)] at hij
    unfold rel at hij
    have hij' := Rat.cast_injective hij
    rw [timediff_tot, timediff_tot] at hij'
    by_contra hne
    rcases Nat.lt_or_gt_of_ne hne with c | c
    · have := hs (w + i) (w + j) (by rw [List.length_map]; omega) (by rw [List.length_map]; omega) (by omega)
      simp only [List.getElem_map] at this
      linarith
    · have := hs (w + j) (w + i) (by rw [List.length_map]; omega) (by rw [List.length_map]; omega) (by omega)
      simp only [List.getElem_map] at this
      linarith
  · intro j hj
    refine ⟨?_, ?_⟩
    · simp only
      rw [hx j hj, dif_pos (by omega)]
    · intro a
      simp only
      rw [List.getD_eq_getElem?_getD, List.getElem?_map, List.getElem?_take_of_lt hj, List.getElem?_drop,
        List.getElem?_eq_getElem (by omega), ← rotated_eq]
      rfl
  · unfold pephpos
    have hlm : (tab.map (·.time)).length = tab.length := List.length_map ..
    rw [hlm] at e
    rw [e, Py.okBind]
    simp only
    rw [show nmax + 1 = 11 from rfl, mapM_get 11 (by omega), Py.okBind, if_neg]
    · rfl
    · rw [List.any_eq_true]
      rintro ⟨p, hp, hz⟩
      exact hd p (List.mem_of_mem_drop (List.mem_of_mem_take hp)) (of_decide_eq_true hz)

/-- **Positions are exact on polynomial orbits**: if, in the Earth-fixed frame of the requested
epoch, the satellite's coordinates at the table epochs follow polynomials of degree at most ten in
time, the position returned is their value at the requested epoch. -/
theorem position_exact {tab : List PosEp} {time : GTime} {sat : Int} (hs : Ordered (tab.map (·.time)))
    (hl : 11 ≤ tab.length) (hr : InReach (tab.map (·.time)) time (by rw [List.length_map]; omega))
    (hd : ∀ p ∈ tab, HasData p sat) (P : Fin 3 → ℝ[X]) (hP : ∀ a, (P a).degree < 11)
    (hpos : ∀ p ∈ tab, ∀ a, turned (p.pos sat) (rel p time) a = (P a).eval (rel p time)) :
    pephpos tab.length tab time sat = .ok (some fun a => (P a).eval 0) := by
  obtain ⟨index, w, hw, _, _, _, x, y, hx, hxy, e⟩ := pephpos_eq hs hl hr hd
  rw [e]
  congr 2
  funext a
  refine C45.exact_on_polynomials (P a) x (y a) 11 (by omega) hx (by exact_mod_cast hP a) ?_
  intro k hk
  obtain ⟨h1, h2⟩ := hxy k hk
  rw [h2 a, h1]
  exact hpos _ (List.getElem_mem _) a

/-- **At a table epoch** the position is that of the table. -/
theorem position_at_epoch {tab : List PosEp} {sat : Int} {m : Nat} (hm : m < tab.length) (hs : Ordered (tab.map (·.time)))
    (hl : 11 ≤ tab.length) (hd : ∀ p ∈ tab, HasData p sat) :
    pephpos tab.length tab tab[m].time sat = .ok (some (tab[m].pos sat)) := by
  have hmono : ∀ i j (hi : i < tab.length) (hj : j < tab.length), i < j → tab[i].time.tot < tab[j].time.tot := by
    intro i j hi hj hij
    have := hs i j (by rw [List.length_map]; omega) (by rw [List.length_map]; omega) hij
    simpa using this
  have hmono' : ∀ i j (hi : i < tab.length) (hj : j < tab.length), i ≤ j → tab[i].time.tot ≤ tab[j].time.tot := by
    intro i j hi hj hij
    rcases Nat.lt_or_eq_of_le hij with h | h
    · exact le_of_lt (hmono i j hi hj h)
    · subst h; exact le_refl _
  obtain ⟨index, w, hw, hb, h1, h2, x, y, hx, hxy, e⟩ := pephpos_eq (time := tab[m].time) hs hl (by
    refine ⟨?_, ?_⟩
    · simp only [List.getElem_map]
      have := hmono' 0 m (by omega) hm (by omega)
      linarith
    · simp only [List.getElem_map, List.length_map]
      have := hmono' m (tab.length - 1) hm (by omega) (by omega)
      linarith) hd
  have hmw : w ≤ m ∧ m ≤ w + 10 := by
    obtain ⟨hk, b1, b2⟩ := hb
    simp only [List.getElem_map, List.length_map] at hk b1 b2
    constructor
    · by_contra c
      push Not at c
      have := b1 (by omega)
      have := hmono' m index hm (by omega) (by omega)
      linarith
    · by_contra c
      push Not at c
      have := b2 (by omega)
      have := hmono (index + 1) m (by omega) hm (by omega)
      linarith
  rw [e]
  congr 2
  funext a
  have hz : rel tab[m] tab[m].time = 0 := by unfold rel; rw [timediff_tot]; simp
  obtain ⟨hx0, hy0⟩ := hxy (m - w) (by omega)
  have em : tab[w + (m - w)]'(by omega) = tab[m] := by congr 1; omega
  rw [em, hz] at hx0
  rw [C45.at_node x (y a) 11 (m - w) (by omega) hx hx0, hy0 a, em, hz, ← rotated_eq]
  unfold rotated
  match a with
  | 0 => simp
  | 1 => simp
  | 2 => rfl

/-! ## Clock -/

theorem search_clock {ts : List GTime} {time : GTime} (hs : Ordered ts) (hl : 2 ≤ ts.length)
    (hr : InReach ts time (by omega)) : ∃ index, pclkSearch ts.length ts time = .ok (some index) ∧ Bracket ts time index := by
  obtain ⟨r, e, hb⟩ := bisect_bracket (time := time) hs hl
  obtain ⟨h1, h2⟩ := hr
  refine ⟨indexOf r, ?_, hb⟩
  unfold pclkSearch
  rw [if_neg (by omega)]
  simp only [pyGet]
  rw [List.getElem?_eq_getElem (by omega)]
  simp only [bind, Except.bind]
  rw [if_neg (by rw [timediff_tot]; unfold maxDte; linarith), List.getElem?_eq_getElem (by omega)]
  simp only
  rw [if_neg (by rw [timediff_tot]; unfold maxDte; linarith), e]
  rfl

/-- a clock entry; zero means missing -/
def entry (p : ClkEp) (sat : Int) : Option ℚ := if p.clk sat = 0 then none else some (p.clk sat)

/-- linear interpolation between two table epochs; missing if either is missing -/
def line (p q : ClkEp) (sat : Int) (time : GTime) : Option ℚ :=
  match entry p sat, entry q sat with
  | some a, some b => some (a + (b - a) * (time.tot - p.time.tot) / (q.time.tot - p.time.tot))
  | _, _ => none

/-- **Clock**: before the first or at/after the last epoch the end value, at an epoch the table
value, between two neighbouring epochs the straight line; missing if a needed value is missing. -/
theorem clock_spec {tab : List ClkEp} {time : GTime} {sat : Int} (hs : Ordered (tab.map (·.time))) (hl : 2 ≤ tab.length)
    (hr : InReach (tab.map (·.time)) time (by rw [List.length_map]; omega)) :
    (time.tot ≤ tab[0].time.tot → pephclk tab.length tab time sat = .ok (entry tab[0] sat)) ∧
    (tab[tab.length - 1].time.tot ≤ time.tot → pephclk tab.length tab time sat = .ok (entry tab[tab.length - 1] sat)) ∧
    (∀ k (hk : k < tab.length), time.tot = tab[k].time.tot → pephclk tab.length tab time sat = .ok (entry tab[k] sat)) ∧
    (∀ k (hk : k + 1 < tab.length), tab[k].time.tot < time.tot → time.tot < tab[k + 1].time.tot →
      pephclk tab.length tab time sat = .ok (line tab[k] tab[k + 1] sat time)) := by
  obtain ⟨index, e, hk, b1, b2⟩ := search_clock hs (by rw [List.length_map]; exact hl) hr
  have hmono : ∀ i j (hi : i < tab.length) (hj : j < tab.length), i < j → tab[i].time.tot < tab[j].time.tot := by
    intro i j hi hj hij
    have := hs i j (by rw [List.length_map]; omega) (by rw [List.length_map]; omega) hij
    simpa using this
  simp only [List.getElem_map, List.length_map] at hk b1 b2 e
  have hval : pephclk tab.length tab time sat = .ok (
      if time.tot ≤ tab[index].time.tot then entry tab[index] sat
      else if tab[index + 1].time.tot ≤ time.tot then entry tab[index + 1] sat
      else line tab[index] tab[index + 1] sat time) := by
    unfold pephclk
    rw [e, Py.okBind]
    simp only [pyGet]
    rw [List.getElem?_eq_getElem (by omega), List.getElem?_eq_getElem hk]
    simp only [bind, Except.bind, timediff_tot]
    by_cases c1 : time.tot ≤ tab[index].time.tot
    · rw [if_pos (by linarith), if_pos c1]
      rfl
    · rw [if_neg (by linarith), if_neg c1]
      by_cases c2 : tab[index + 1].time.tot ≤ time.tot
      · rw [if_pos (by linarith), if_pos c2]
        rfl
      · rw [if_neg (by linarith), if_neg c2]
        unfold line entry
        by_cases z0 : tab[index].clk sat = 0
        · rw [if_neg (by tauto), if_pos z0]; rfl
        · by_cases z1 : tab[index + 1].clk sat = 0
          · rw [if_neg (by tauto), if_neg z0, if_pos z1]; rfl
          · rw [if_pos ⟨z0, z1⟩, if_neg z0, if_neg z1]
            show Except.ok _ = Except.ok _
            congr 2
            have hne : tab[index + 1].time.tot - tab[index].time.tot ≠ 0 := by
              have := hmono index (index + 1) (by omega) hk (by omega)
              intro h; linarith
            have hne' : time.tot - tab[index].time.tot - (time.tot - tab[index + 1].time.tot) ≠ 0 := by
              intro h; apply hne; linarith
            field_simp
            ring
  have hat : ∀ k (hk : k < tab.length), time.tot = tab[k].time.tot →
      pephclk tab.length tab time sat = .ok (entry tab[k] sat) := by
    intro k hk' hkt
    rw [hval]
    by_cases c1 : k = index
    · subst c1; rw [if_pos (by linarith)]
    · have hlt : index < k := by
        by_contra c
        have h0 : index ≠ 0 := by omega
        have := b1 h0
        have := hmono k index hk' (by omega) (by omega)
        linarith
      have hk1 : k = index + 1 := by
        by_contra c
        have := b2 (by omega)
        have := hmono (index + 1) k hk hk' (by omega)
        linarith
      subst hk1
      have := hmono index (index + 1) (by omega) hk (by omega)
      rw [if_neg (by linarith), if_pos (by linarith)]
  refine ⟨?_, ?_, hat, ?_⟩
  · intro h
    have h0 : index = 0 := by
      by_contra c
      have := b1 c
      have := hmono 0 index (by omega) (by omega) (by omega)
      linarith
    subst h0
    rw [hval, if_pos h]
  · intro h
    have h0 : index + 1 = tab.length - 1 := by
      by_contra c
      have := b2 (by omega)
      have := hmono (index + 1) (tab.length - 1) hk (by omega) (by omega)
      linarith
    have := hmono index (index + 1) (by omega) hk (by omega)
    have e2 : tab[index + 1] = tab[tab.length - 1] := by congr 1
    rw [← e2] at h ⊢
    rw [hval, if_neg (by linarith), if_pos h]
  · intro k hk' h1 h2
    have h0 : k = index := by
      by_contra c
      rcases Nat.lt_or_gt_of_ne c with c | c
      · have := b1 (by omega)
        by_cases c' : k + 1 = index
        · subst c'; linarith
        · have := hmono (k + 1) index hk' (by omega) (by omega)
          linarith
      · have := b2 (by omega)
        by_cases c' : index + 1 = k
        · subst c'; linarith
        · have := hmono (index + 1) k hk (by omega) (by omega)
          linarith
    subst h0
    rw [hval, if_neg (by linarith), if_neg (by linarith)]

/-! ## Concrete cases -/

def exTs : List GTime := (List.range 20).map fun k : Nat => ⟨900 * (k : Int), 0⟩

theorem exTs_ordered : Ordered exTs := by
  intro i j hi hj hij
  simp only [exTs, List.getElem_map, List.getElem_range, GTime.tot]
  have : ((i : Int) : ℚ) < ((j : Int) : ℚ) := by exact_mod_cast hij
  push_cast
  push_cast at this
  linarith

example : 11 ≤ exTs.length := by decide
example : InReach exTs ⟨5000, 1 / 2⟩ (by decide) := by unfold InReach GTime.tot; decide +kernel
example : pephSearch 20 exTs ⟨5000, 1 / 2⟩ = .ok (some (5, 0)) := by decide +kernel
example : pephSearch 20 exTs ⟨17000, 0⟩ = .ok (some (18, 9)) := by decide +kernel
example : pephSearch 20 exTs ⟨18001, 0⟩ = .ok none := by decide +kernel
example : pephSearch 21 exTs ⟨5000, 0⟩ = .error .indexError := by decide +kernel

def exClk : List ClkEp := [⟨⟨0, 0⟩, fun _ => 1⟩, ⟨⟨30, 0⟩, fun _ => 4⟩, ⟨⟨60, 0⟩, fun _ => 0⟩]
example : pephclk 3 exClk ⟨10, 0⟩ 5 = .ok (some 2) := by decide +kernel
example : pephclk 3 exClk ⟨40, 0⟩ 5 = .ok none := by decide +kernel

end Verif.C46
