import Verif.Model.SbasIono
import Verif.Lemmas.Read
import Verif.Lemmas.Post
import Mathlib.Tactic.Linarith
import Mathlib.Tactic.FieldSimp
import Mathlib.Tactic.Ring
import Mathlib.Data.Rat.Floor
/-!
# C28 SBAS ionospheric grid interpolation

Corner `i` of a cell is south-west, north-west, south-east, north-east for `i = 0, 1, 2, 3`.
-/

namespace Verif.C28
open Verif Verif.Sbas Verif.SbasIono

/-! ## Weights -/

/-- weights on the four corners that express the point `(x, y)` of the unit cell, using only
available corners -/
structure Bary (av : Nat → Bool) (x y : ℚ) (w0 w1 w2 w3 : ℚ) : Prop where
  nonneg : 0 ≤ w0 ∧ 0 ≤ w1 ∧ 0 ≤ w2 ∧ 0 ≤ w3
  only : (av 0 = false → w0 = 0) ∧ (av 1 = false → w1 = 0) ∧ (av 2 = false → w2 = 0) ∧ (av 3 = false → w3 = 0)
  total : w0 + w1 + w2 + w3 = 1
  east : w2 + w3 = x
  north : w1 + w3 = y

/-- at least three of the four corners are available -/
def Three (av : Nat → Bool) : Prop :=
  ¬ (∃ i j, i < j ∧ j < 4 ∧ av i = false ∧ av j = false)

theorem three_cases {av : Nat → Bool} (h : Three av) :
    (av 0 = true ∧ av 1 = true ∧ av 2 = true ∧ av 3 = true) ∨ (av 0 = false ∧ av 1 = true ∧ av 2 = true ∧ av 3 = true) ∨
    (av 0 = true ∧ av 1 = false ∧ av 2 = true ∧ av 3 = true) ∨ (av 0 = true ∧ av 1 = true ∧ av 2 = false ∧ av 3 = true) ∨
    (av 0 = true ∧ av 1 = true ∧ av 2 = true ∧ av 3 = false) := by
  have h01 : ¬ (av 0 = false ∧ av 1 = false) := fun c => h ⟨0, 1, by omega, by omega, c⟩
  have h02 : ¬ (av 0 = false ∧ av 2 = false) := fun c => h ⟨0, 2, by omega, by omega, c⟩
  have h03 : ¬ (av 0 = false ∧ av 3 = false) := fun c => h ⟨0, 3, by omega, by omega, c⟩
  have h12 : ¬ (av 1 = false ∧ av 2 = false) := fun c => h ⟨1, 2, by omega, by omega, c⟩
  have h13 : ¬ (av 1 = false ∧ av 3 = false) := fun c => h ⟨1, 3, by omega, by omega, c⟩
  have h23 : ¬ (av 2 = false ∧ av 3 = false) := fun c => h ⟨2, 3, by omega, by omega, c⟩
  revert h01 h02 h03 h12 h13 h23
  cases av 0 <;> cases av 1 <;> cases av 2 <;> cases av 3 <;> decide

/-- **Weights**: for a point of the cell and at least three available corners, the weights used are
non-negative, sum to one, lie on available corners only, and place the point where it is. -/
theorem weights_spec (av : Nat → Bool) (x y : ℚ) (hx : 0 ≤ x ∧ x ≤ 1) (hy : 0 ≤ y ∧ y ≤ 1) (h3 : Three av) (w : List ℚ)
    (h : weights av x y = some w) : ∃ w0 w1 w2 w3, w = [w0, w1, w2, w3] ∧ Bary av x y w0 w1 w2 w3 := by
  unfold weights triangles at h
  rcases three_cases h3 with ⟨a, b, c, d⟩ | ⟨a, b, c, d⟩ | ⟨a, b, c, d⟩ | ⟨a, b, c, d⟩ | ⟨a, b, c, d⟩
  · simp only [a, b, c, d, and_self, if_true, Option.some.injEq] at h
    refine ⟨_, _, _, _, h.symm, ⟨⟨?_, ?_, ?_, ?_⟩, by simp [a, b, c, d], by ring, by ring, by ring⟩⟩
    · exact mul_nonneg (by linarith) (by linarith)
    · exact mul_nonneg (by linarith) (by linarith)
    · exact mul_nonneg (by linarith) (by linarith)
    · exact mul_nonneg (by linarith) (by linarith)
  all_goals
    simp only [a, b, c, d, List.find?, Bool.false_eq_true, and_true, and_false, false_and, if_false, decide_false, decide_true,
      and_self] at h
  · by_cases hn : 1 - (1 - x) - (1 - y) < 0
    · rw [if_pos hn] at h; cases h
    · rw [if_neg hn] at h
      refine ⟨0, 1 - x, 1 - y, x + y - 1, ?_, ⟨⟨le_refl _, by linarith, by linarith, by linarith⟩, by simp [b, c, d], by ring, by ring, by ring⟩⟩
      rw [← Option.some.inj h, show 1 - (1 - x) - (1 - y) = x + y - 1 by ring]
      rfl
  · by_cases hn : 1 - (1 - x) - y < 0
    · rw [if_pos hn] at h; cases h
    · rw [if_neg hn] at h
      refine ⟨1 - x, 0, x - y, y, ?_, ⟨⟨by linarith, le_refl _, by linarith, by linarith⟩, by simp [a, c, d], by ring, by ring, by ring⟩⟩
      rw [← Option.some.inj h, show 1 - (1 - x) - y = x - y by ring]
      rfl
  · by_cases hn : 1 - (1 - y) - x < 0
    · rw [if_pos hn] at h; cases h
    · rw [if_neg hn] at h
      refine ⟨1 - y, y - x, 0, x, ?_, ⟨⟨by linarith, by linarith, le_refl _, by linarith⟩, by simp [a, b, d], by ring, by ring, by ring⟩⟩
      rw [← Option.some.inj h, show 1 - (1 - y) - x = y - x by ring]
      rfl
  · by_cases hn : 1 - y - x < 0
    · rw [if_pos hn] at h; cases h
    · rw [if_neg hn] at h
      refine ⟨1 - y - x, y, x, 0, ?_, ⟨⟨by linarith, by linarith, by linarith, le_refl _⟩, by simp [a, b, c], by ring, by ring, by ring⟩⟩
      rw [← Option.some.inj h]
      rfl

/-- **Rejection**: the point is rejected exactly when no weights on the available corners express
it, that is when it lies outside their triangle. -/
theorem rejected_iff (av : Nat → Bool) (x y : ℚ) (hx : 0 ≤ x ∧ x ≤ 1) (hy : 0 ≤ y ∧ y ≤ 1) (h3 : Three av) :
    weights av x y = none ↔ ¬ ∃ w0 w1 w2 w3, Bary av x y w0 w1 w2 w3 := by
  constructor
  · rintro h ⟨w0, w1, w2, w3, ⟨n0, n1, n2, n3⟩, ⟨o0, o1, o2, o3⟩, t, e, n⟩
    unfold weights triangles at h
    rcases three_cases h3 with ⟨a, b, c, d⟩ | ⟨a, b, c, d⟩ | ⟨a, b, c, d⟩ | ⟨a, b, c, d⟩ | ⟨a, b, c, d⟩
    · simp only [a, b, c, d, and_self, if_true] at h
      cases h
    all_goals
      simp only [a, b, c, d, List.find?, Bool.false_eq_true, and_true, and_false, false_and, if_false, decide_false, decide_true,
        and_self, ite_eq_left_iff, reduceCtorEq, imp_false, not_not] at h
    · have := o0 a; linarith
    · have := o1 b; linarith
    · have := o2 c; linarith
    · have := o3 d; linarith
  · intro h
    cases hw : weights av x y with
    | none => rfl
    | some w =>
      obtain ⟨w0, w1, w2, w3, _, hb⟩ := weights_spec av x y hx hy h3 w hw
      exact absurd ⟨w0, w1, w2, w3, hb⟩ h

example : weights (fun i => i ≠ 3) (1 / 4) (1 / 2) = some [1 / 4, 1 / 2, 1 / 4, 0] ∧ weights (fun i => i ≠ 3) (3 / 4) (1 / 2) = none ∧
    weights (fun _ => true) (1 / 4) (1 / 2) = some [3 / 8, 3 / 8, 1 / 8, 1 / 8] := by decide +kernel

/-! ## Cells -/

theorem fl_bounds (q : ℚ) (n : Int) (h : 0 < n) : (fl q n : ℚ) ≤ q ∧ q < fl q n + n := by
  have hn : (0 : ℚ) < n := by exact_mod_cast h
  have h1 : ((q / n).floor : ℚ) ≤ q / n := Int.floor_le (q / n)
  have h2 : q / n < ((q / n).floor : ℚ) + 1 := Int.lt_floor_add_one (q / n)
  unfold fl
  rw [le_div_iff₀ hn] at h1
  rw [div_lt_iff₀ hn] at h2
  push_cast
  constructor
  · exact h1
  · linarith

/-- longitude 180 is the meridian -180 of the tables -/
def wrap (v : Int) : Int := if v = 180 then -180 else v

theorem fl_dvd (q : ℚ) (n : Int) : n ∣ fl q n := Int.dvd_mul_left _ _

/-- **Cell**: up to 75 degrees of latitude, the four corners are those of a cell of five (below 55
degrees) or ten degrees that contains the point, and `x`, `y` are the fractions of the cell.  Cells
of ten degrees begin at 5, 15, 25 ... degrees of latitude and at multiples of ten of longitude. -/
theorem cell_spec (lat lon : ℚ) (h1 : -75 ≤ lat ∧ lat < 75) (h2 : -180 ≤ lon ∧ lon < 180) :
    ∃ (h la lo : Int), h = (if -55 ≤ lat ∧ lat < 55 then 5 else 10) ∧ h ∣ la - 5 ∧ h ∣ lo ∧
      (la : ℚ) ≤ lat ∧ lat < la + h ∧ (lo : ℚ) ≤ lon ∧ lon < lo + h ∧
      cell lat lon = ⟨[la, la + h, la, la + h], [wrap lo, wrap lo, wrap (lo + h), wrap (lo + h)], (lon - lo) / h, (lat - la) / h⟩ := by
  unfold cell
  simp only [ge_iff_le]
  rw [if_neg (show ¬ (180 ≤ lon) by linarith [h2.2])]
  by_cases c : -55 ≤ lat ∧ lat < 55
  · rw [if_pos c, if_pos c]
    obtain ⟨a1, a2⟩ := fl_bounds lat 5 (by norm_num)
    obtain ⟨b1, b2⟩ := fl_bounds lon 5 (by norm_num)
    exact ⟨5, fl lat 5, fl lon 5, rfl, Int.dvd_sub (fl_dvd _ _) (Int.dvd_refl 5), fl_dvd _ _, a1, a2, b1, b2, rfl⟩
  · rw [if_neg c, if_neg c]
    obtain ⟨a1, a2⟩ := fl_bounds (lat - 5) 10 (by norm_num)
    obtain ⟨b1, b2⟩ := fl_bounds lon 10 (by norm_num)
    refine ⟨10, fl (lat - 5) 10 + 5, fl lon 10, rfl, by rw [Int.add_sub_cancel]; exact fl_dvd _ _, fl_dvd _ _, ?_, ?_, b1, b2, ?_⟩
    · push_cast; linarith
    · push_cast at *; linarith
    · rw [if_neg (show ¬ (75 ≤ lat ∧ lat < 85) by rintro ⟨h, _⟩; linarith [h1.2]),
        if_neg (show ¬ (-85 ≤ lat ∧ lat < -75) by rintro ⟨_, h⟩; linarith [h1.1]),
        if_neg (show ¬ (85 ≤ lat) by linarith [h1.2]), if_neg (show ¬ (lat < -85) by linarith [h1.1])]
      rfl

theorem fl_eq {q : ℚ} {n k : Int} (h : 0 < n) (h1 : (k : ℚ) * n ≤ q) (h2 : q < (k : ℚ) * n + n) : fl q n = k * n := by
  have hn : (0 : ℚ) < n := by exact_mod_cast h
  unfold fl
  have : ⌊q / (n : ℚ)⌋ = k := by
    rw [Int.floor_eq_iff]
    constructor
    · rw [le_div_iff₀ hn]; exact h1
    · rw [div_lt_iff₀ hn]; linarith
  exact congrArg (· * n) this

/-- **Cell, 75 to 85 degrees north**: the two southern corners are ten degrees apart on the
parallel of 75 degrees, the two northern ones ninety degrees apart on that of 85 degrees. -/
theorem cell_north (lat lon : ℚ) (h1 : 75 ≤ lat ∧ lat < 85) (h2 : -180 ≤ lon ∧ lon < 180) :
    ∃ lo m : Int, 10 ∣ lo ∧ (lo : ℚ) ≤ lon ∧ lon < lo + 10 ∧ 90 ∣ m ∧ (m : ℚ) ≤ lon ∧ lon < m + 90 ∧
      cell lat lon = ⟨[75, 85, 75, 85], [wrap lo, wrap m, wrap (lo + 10), wrap (m + 90)], (lon - lo) / 10, (lat - 75) / 10⟩ := by
  obtain ⟨b1, b2⟩ := fl_bounds lon 10 (by norm_num)
  obtain ⟨c1, c2⟩ := fl_bounds lon 90 (by norm_num)
  refine ⟨fl lon 10, fl lon 90, fl_dvd _ _, b1, b2, fl_dvd _ _, c1, c2, ?_⟩
  unfold cell
  simp only [ge_iff_le]
  rw [if_neg (show ¬ (180 ≤ lon) by linarith [h2.2]), if_neg (by rintro ⟨_, h⟩; linarith [h1.1]), if_pos h1,
    fl_eq (q := lat - 5) (n := 10) (k := 7) (by norm_num) (by push_cast; linarith [h1.1]) (by push_cast; linarith [h1.2])]
  norm_num [wrap]

/-- **Cell, 75 to 85 degrees south**: the northern corners are ten degrees apart on the parallel of
75 degrees; the southern ones are on that of 85 degrees at the meridian `40 + 90 k` that lies ten
to a hundred degrees west of the point, and ninety degrees further (between `40 + 90 k` and
`50 + 90 k` the point is not between them). -/
theorem cell_south (lat lon : ℚ) (h1 : -85 ≤ lat ∧ lat < -75) (h2 : -180 ≤ lon ∧ lon < 180) :
    ∃ lo m : Int, 10 ∣ lo ∧ (lo : ℚ) ≤ lon ∧ lon < lo + 10 ∧ 90 ∣ m - 40 ∧ (m : ℚ) + 10 ≤ lon ∧ lon < m + 100 ∧
      cell lat lon = ⟨[-85, -75, -85, -75], [wrap m, wrap lo, wrap (m + 90), wrap (lo + 10)], (lon - lo) / 10, (lat + 85) / 10⟩ := by
  obtain ⟨b1, b2⟩ := fl_bounds lon 10 (by norm_num)
  obtain ⟨c1, c2⟩ := fl_bounds (lon - 50) 90 (by norm_num)
  push_cast at c2
  refine ⟨fl lon 10, fl (lon - 50) 90 + 40, fl_dvd _ _, b1, b2, by rw [Int.add_sub_cancel]; exact fl_dvd _ _, by push_cast; linarith,
    by push_cast; linarith, ?_⟩
  unfold cell
  simp only [ge_iff_le]
  rw [if_neg (show ¬ (180 ≤ lon) by linarith [h2.2]), if_neg (by rintro ⟨h, _⟩; linarith [h1.2]),
    if_neg (by rintro ⟨h, _⟩; linarith [h1.2]), if_pos h1,
    fl_eq (q := lat - 5) (n := 10) (k := -9) (by norm_num) (by push_cast; linarith [h1.1]) (by push_cast; linarith [h1.2])]
  norm_num [wrap]

/-- between 40 and 50 degrees east the two southern corners are 50W and 40E, east of which the point lies -/
example : (cell (-80) 45).lonp = [-50, 40, 40, 50] ∧ (cell 80 45).lonp = [40, 0, 50, 90] := by decide +kernel

/-- **Position in the cell**: always between 0 and 1, at every latitude and longitude. -/
theorem cell_position (lat lon : ℚ) : (0 ≤ (cell lat lon).x ∧ (cell lat lon).x < 1) ∧ (0 ≤ (cell lat lon).y ∧ (cell lat lon).y < 1) := by
  unfold cell
  simp only
  generalize (if lon ≥ 180 then lon - 360 else lon) = lon'
  by_cases c : lat ≥ -55 ∧ lat < 55
  · rw [if_pos c]
    obtain ⟨a1, a2⟩ := fl_bounds lat 5 (by norm_num)
    obtain ⟨b1, b2⟩ := fl_bounds lon' 5 (by norm_num)
    push_cast at a2 b2
    refine ⟨⟨div_nonneg (by linarith) (by norm_num), ?_⟩, ⟨div_nonneg (by linarith) (by norm_num), ?_⟩⟩
    · show (lon' - fl lon' 5) / 5 < 1
      rw [div_lt_one (by norm_num)]; linarith
    · show (lat - fl lat 5) / 5 < 1
      rw [div_lt_one (by norm_num)]; linarith
  · rw [if_neg c]
    obtain ⟨a1, a2⟩ := fl_bounds (lat - 5) 10 (by norm_num)
    obtain ⟨b1, b2⟩ := fl_bounds lon' 10 (by norm_num)
    push_cast at a2 b2
    refine ⟨⟨div_nonneg (by linarith) (by norm_num), ?_⟩, ⟨div_nonneg ?_ (by norm_num), ?_⟩⟩
    · show (lon' - fl lon' 10) / 10 < 1
      rw [div_lt_one (by norm_num)]; linarith
    · push_cast; linarith
    · show (lat - ((fl (lat - 5) 10 + 5 : Int) : ℚ)) / 10 < 1
      rw [div_lt_one (by norm_num)]; push_cast; linarith

/-! ## Tables -/

/-- no grid point occurs twice in a band -/
theorem table_nodup : ∀ b < 11, (igpTable b).Nodup := by
  intro b hb
  -- the tables are in increasing order of these codes
  have key : ∀ b < 11, List.IsChain (· < ·) ((igpTable b).map fun p : Int × Int =>
      if b ≤ 8 then p.2 * 1000 + p.1 else p.1.natAbs * 1000 + p.2) := by decide +kernel
  exact List.Pairwise.of_map (S := (· ≠ ·)) _ (fun _ _ h e => h (congrArg _ e)) ((List.isChain_iff_pairwise.1 (key b hb)).imp fun h => ne_of_lt h)

/-- **Grid**: every corner needed up to 75 degrees is a point of the band of its longitude. -/
theorem table_complete : (∀ j < 72, ∀ i < 23, (-55 + 5 * ((i : Nat) : Int), -180 + 5 * (j : Int)) ∈ igpTable (j / 8)) ∧
    (∀ j < 36, ∀ la ∈ ([-75, -65, 65, 75] : List Int), (la, -180 + 10 * (j : Int)) ∈ igpTable (j / 4)) := by
  have m1 : ∀ b : Nat, b < 9 → ∀ k : Nat, k < 8 → ∀ i ∈ List.range 23,
      (-55 + 5 * ((i : Nat) : Int), -180 + 40 * (b : Int) + (k : Int) * 5) ∈ meridian b k := by decide +kernel
  have m2 : ∀ b : Nat, b < 9 → ∀ k : Nat, k < 4 → ∀ la ∈ ([-75, -65, 65, 75] : List Int),
      (la, -180 + 40 * (b : Int) + ((2 * k : Nat) : Int) * 5) ∈ meridian b (2 * k) := by decide +kernel
  constructor
  · intro j hj i hi
    unfold igpTable
    rw [if_pos (by omega), List.mem_flatMap]
    refine ⟨j % 8, List.mem_range.2 (by omega), ?_⟩
    have := m1 (j / 8) (by omega) (j % 8) (by omega) i (List.mem_range.2 hi)
    rwa [show -180 + 40 * ((j / 8 : Nat) : Int) + ((j % 8 : Nat) : Int) * 5 = -180 + 5 * (j : Int) by omega] at this
  · intro j hj la hla
    unfold igpTable
    rw [if_pos (by omega), List.mem_flatMap]
    refine ⟨2 * (j % 4), List.mem_range.2 (by omega), ?_⟩
    have := m2 (j / 4) (by omega) (j % 4) (by omega) la hla
    rwa [show -180 + 40 * ((j / 4 : Nat) : Int) + ((2 * (j % 4) : Nat) : Int) * 5 = -180 + 10 * (j : Int) by omega] at this

/-- parallels with a grid point at longitude `lo` in the bands 0 to 8 (they divide the longitudes
into sectors of forty degrees): every five degrees up to 55 degrees; 65 and 75 degrees on every
second meridian; 85 degrees north on the multiples of ninety, south forty degrees east of them -/
def hasIgp (lo la : Int) : Bool :=
  (la.natAbs ≤ 55) || (lo % 10 == 0 && (la.natAbs == 65 || la.natAbs == 75)) ||
    (la == 85 && lo % 90 == 0) || (la == -85 && lo % 90 == 40)

/-- meridians with a grid point on the parallel `la` in the bands 9 (north) and 10 (south): every
five degrees at 60, every ten at 65, 70 and 75, every thirty at 80 -/
def hasPolar (la lo : Int) : Bool :=
  la.natAbs == 60 || (la.natAbs < 80 && lo % 10 == 0) || (la == 80 && lo % 30 == 0) || (la == -80 && lo % 30 == 10)

/-- all multiples of five from `a` on -/
def fives (a : Int) (n : Nat) : List Int := (List.range n).map fun k : Nat => a + 5 * (k : Int)

/-- **Grid points**: the points of every band, in the order in which masks number them: band by
sectors of forty degrees, west to east, each meridian south to north; the two polar bands parallel
by parallel away from 60 degrees, each west to east. -/
theorem grid_points :
    (∀ b < 9, igpTable b = (fives (-180 + 40 * (b : Int)) 8).flatMap fun lo => ((fives (-85) 35).filter (hasIgp lo)).map fun la => (la, lo)) ∧
    igpTable 9 = [60, 65, 70, 75, 80].flatMap (fun la => ((fives (-180) 72).filter (hasPolar la)).map fun lo => (la, lo)) ∧
    igpTable 10 = [-60, -65, -70, -75, -80].flatMap (fun la => ((fives (-180) 72).filter (hasPolar la)).map fun lo => (la, lo)) := by
  decide +kernel

/-- the sizes of the bands -/
example : (List.range 11).map (fun b => (igpTable b).length) = [201, 201, 201, 201, 201, 201, 201, 201, 200, 192, 192] := by decide +kernel

/-! ## Lookup -/

/-- the delay `v` with indicator `g` is the one held for the grid point `(la, lo)` -/
def HeldAt (gr : Grid) (la lo : Int) (v : Val) (g : Nat) : Prop :=
  ∃ (band : Nat) (idx : List Nat) (vs : List Val) (gs : List Nat) (k j : Nat), Dict.get? gr.idx band = some idx ∧ Dict.get? gr.vtec band = some vs ∧ Dict.get? gr.givei band = some gs ∧
    idx[k]? = some j ∧ (igpTable band)[j]? = some (la, lo) ∧ vs[k]? = some v ∧ gs[k]? = some g ∧ 0 < g

/-- keys of a dictionary are distinct -/
def Distinct {α} (d : Dict Nat α) : Prop := (d.map (·.1)).Nodup

theorem distinct_set {α} (d : Dict Nat α) (h : Distinct d) (k : Nat) (v : α) : Distinct (Dict.set d k v) := by
  unfold Distinct Dict.set
  rw [List.map_cons, List.nodup_cons]
  constructor
  · intro hc
    obtain ⟨p, hp, e⟩ := List.mem_map.1 hc
    have := (List.mem_filter.1 hp).2
    simp [e] at this
  · exact List.Nodup.sublist (List.Sublist.map _ List.filter_sublist) h

/-- what is known of the corners found -/
def Sound (gr : Grid) (cs : List (Nat × Int × Int)) (f : Found) : Prop :=
  Distinct f.1 ∧ (∀ p ∈ f.1, ∃ la lo, (p.1, la, lo) ∈ cs ∧ HeldAt gr la lo p.2.1 p.2.2)

theorem mapM_get {gp : List (Int × Int)} {b : Nat} : ∀ {idx : List Nat},
    idx.mapM (fun k : Nat => match (igpTable b)[k]? with
      | some p => Except.ok p
      | none => Except.error PyErr.indexError) = .ok gp →
    ∀ (k : Nat) p, gp[k]? = some p → ∃ j, idx[k]? = some j ∧ (igpTable b)[j]? = some p := by
  induction gp with
  | nil => intro idx _ k p h; simp at h
  | cons q gp ih =>
    intro idx h k p hp
    cases idx with
    | nil => cases h
    | cons a idx =>
      rw [List.mapM_cons] at h
      cases e : (igpTable b)[a]? with
      | none => rw [e] at h; cases h
      | some r =>
        rw [e] at h
        simp only at h
        rw [Py.okBind] at h
        cases e2 : idx.mapM (fun k : Nat => match (igpTable b)[k]? with
          | some p => Except.ok p
          | none => Except.error PyErr.indexError) with
        | error x => rw [e2] at h; cases h
        | ok gp' =>
          rw [e2, Py.okBind] at h
          have h := Except.ok.inj h
          injection h with h1 h2
          subst h1 h2
          cases k with
          | zero =>
            refine ⟨a, rfl, ?_⟩
            rw [e]; simpa using hp
          | succ k => exact ih e2 k p (by simpa using hp)

theorem corner_sound {gr : Grid} {b : Nat} {idx : List Nat} {v : List Val} {g : List Nat} {gp : List (Int × Int)} {la lo : Int}
    (hi : Dict.get? gr.idx b = some idx) (hv : Dict.get? gr.vtec b = some v) (hg : Dict.get? gr.givei b = some g)
    (hm : ∀ (k : Nat) p, gp[k]? = some p → ∃ j, idx[k]? = some j ∧ (igpTable b)[j]? = some p)
    {r : Val × Nat} (h : corner gp v g la lo = .ok (some r)) : HeldAt gr la lo r.1 r.2 := by
  unfold corner at h
  cases e : gp.findIdx? (fun p => p = (la, lo)) with
  | none => rw [e] at h; cases h
  | some k =>
    rw [e] at h
    simp only at h
    by_cases c : g.length < k
    · rw [if_pos c] at h; cases h
    rw [if_neg c] at h
    cases eg : g[k]? with
    | none => rw [eg] at h; cases h
    | some gi =>
      rw [eg] at h
      simp only at h
      by_cases c0 : gi = 0
      · rw [if_pos c0] at h; cases h
      rw [if_neg c0] at h
      cases ev : v[k]? with
      | none => rw [ev] at h; cases h
      | some vt =>
        rw [ev] at h
        have h := Option.some.inj (Except.ok.inj h)
        subst h
        obtain ⟨hk, hp, _⟩ := List.findIdx?_eq_some_iff_getElem.1 e
        have hp : gp[k] = (la, lo) := by simpa using hp
        obtain ⟨j, h1, h2⟩ := hm k (la, lo) (by rw [List.getElem?_eq_getElem hk, hp])
        exact ⟨b, idx, v, g, k, j, hi, hv, hg, h1, h2, ev, eg, Nat.pos_of_ne_zero c0⟩

theorem corners_sound {gr : Grid} {b : Nat} {idx : List Nat} {v : List Val} {g : List Nat} {gp : List (Int × Int)}
    (hi : Dict.get? gr.idx b = some idx) (hv : Dict.get? gr.vtec b = some v) (hg : Dict.get? gr.givei b = some g)
    (hm : ∀ (k : Nat) p, gp[k]? = some p → ∃ j, idx[k]? = some j ∧ (igpTable b)[j]? = some p) (all : List (Nat × Int × Int)) :
    ∀ (cs : List (Nat × Int × Int)) (f : Found), (∀ c ∈ cs, c ∈ all) → Sound gr all f → Post (corners gp v g b f cs) (Sound gr all)
  | [], f, _, h => Post.ok h
  | (i, la, lo) :: cs, f, hc, h => by
    rw [corners]
    cases e : corner gp v g la lo with
    | error x => exact Post.error
    | ok r =>
      rw [Py.okBind]
      refine corners_sound hi hv hg hm all cs _ (fun c h' => hc c (List.mem_cons_of_mem _ h')) ?_
      cases r with
      | none => exact h
      | some p =>
        refine ⟨distinct_set _ h.1 _ _, ?_⟩
        intro q hq
        rcases List.mem_cons.1 hq with hq | hq
        · subst hq
          exact ⟨la, lo, hc _ List.mem_cons_self, corner_sound hi hv hg hm e⟩
        · exact h.2 q (List.mem_of_mem_filter hq)

theorem bands_sound (gr : Grid) (all : List (Nat × Int × Int)) : ∀ (bs : List Nat) (f : Found), Sound gr all f →
    Post (bands gr all f bs) (Sound gr all)
  | [], f, h => Post.ok h
  | b :: bs, f, h => by
    rw [bands]
    cases hv : Dict.get? gr.vtec b with
    | none => exact bands_sound gr all bs f h
    | some v =>
      cases hg : Dict.get? gr.givei b with
      | none => exact bands_sound gr all bs f h
      | some g =>
        simp only
        cases hi : Dict.get? gr.idx b with
        | none => exact Post.error
        | some idx =>
          simp only
          cases em : idx.mapM (fun k : Nat => match (igpTable b)[k]? with
            | some p => Except.ok p
            | none => Except.error PyErr.indexError) with
          | error x => exact Post.error
          | ok gp =>
            rw [Py.okBind]
            exact Post.bind (corners_sound hi hv hg (mapM_get em) all all f (fun _ h => h) h) fun f' h' => bands_sound gr all bs f' h'

/-- **Lookup**: every corner value used is the delay held for the grid point with the coordinates of
that corner, in a band whose mask contains the point, with a positive indicator. -/
theorem search_sound (gr : Grid) (inet : Nat) (lat lon : ℚ) :
    Post (search gr inet lat lon) (Sound gr (numbered (cell lat lon))) :=
  bands_sound gr _ _ _ ⟨List.nodup_nil, by simp⟩

/-- what band `b` holds for the grid point `(la, lo)`: the delay and the indicator at the place of
the point in the mask of the band, nothing when the point is not in the mask or the indicator is 0 -/
def heldIn (gr : Grid) (b : Nat) (la lo : Int) : Option (Val × Nat) := do
  let vs ← Dict.get? gr.vtec b
  let gs ← Dict.get? gr.givei b
  let idx ← Dict.get? gr.idx b
  let k ← idx.findIdx? fun j => (igpTable b)[j]? == some (la, lo)
  let g ← gs[k]?
  let v ← vs[k]?
  if g = 0 then none else some (v, g)

/-- the last band of `bs` that holds the point -/
def lastHeld (gr : Grid) (bs : List Nat) (la lo : Int) : Option (Val × Nat) := bs.reverse.findSome? fun b => heldIn gr b la lo

/-- the last band of `bs` that holds one of the corners -/
def lastBand (gr : Grid) (cs : List (Nat × Int × Int)) (bs : List Nat) : Option Nat :=
  bs.reverse.find? fun b => cs.any fun c => (heldIn gr b c.2.1 c.2.2).isSome

theorem mapM_find {b : Nat} {q : Int × Int} : ∀ {idx : List Nat} {gp : List (Int × Int)},
    idx.mapM (fun k : Nat => match (igpTable b)[k]? with
      | some p => Except.ok p
      | none => Except.error PyErr.indexError) = .ok gp →
    gp.findIdx? (fun p => p = q) = idx.findIdx? (fun j => (igpTable b)[j]? == some q)
  | [], gp, h => by
    cases h; rfl
  | a :: idx, gp, h => by
    rw [List.mapM_cons] at h
    cases e : (igpTable b)[a]? with
    | none => rw [e] at h; cases h
    | some r =>
      rw [e] at h
      simp only at h
      rw [Py.okBind] at h
      cases e2 : idx.mapM (fun k : Nat => match (igpTable b)[k]? with
        | some p => Except.ok p
        | none => Except.error PyErr.indexError) with
      | error x => rw [e2] at h; cases h
      | ok gp' =>
        rw [e2, Py.okBind] at h
        have h := Except.ok.inj h
        subst h
        rw [List.findIdx?_cons, List.findIdx?_cons, mapM_find e2, e]
        by_cases c : r = q
        · simp [c]
        · simp [c]

theorem corner_exact {gr : Grid} {b : Nat} {idx : List Nat} {v : List Val} {g : List Nat} {gp : List (Int × Int)} {la lo : Int}
    (hi : Dict.get? gr.idx b = some idx) (hv : Dict.get? gr.vtec b = some v) (hg : Dict.get? gr.givei b = some g)
    (hm : ∀ q, gp.findIdx? (fun p => p = q) = idx.findIdx? (fun j => (igpTable b)[j]? == some q))
    {r : Option (Val × Nat)} (h : corner gp v g la lo = .ok r) : r = heldIn gr b la lo := by
  unfold corner at h
  unfold heldIn
  rw [hi, hv, hg]
  simp only [Option.bind_eq_bind, Option.bind_some]
  rw [hm] at h
  cases e : idx.findIdx? (fun j => (igpTable b)[j]? == some (la, lo)) with
  | none => rw [e] at h; exact (Except.ok.inj h).symm
  | some k =>
    rw [e] at h
    simp only at h
    by_cases c : g.length < k
    · rw [if_pos c] at h
      rw [← Except.ok.inj h, Option.bind_some, List.getElem?_eq_none (by omega)]
      rfl
    rw [if_neg c] at h
    cases eg : g[k]? with
    | none => rw [eg] at h; cases h
    | some gi =>
      rw [eg] at h
      simp only at h
      by_cases c0 : gi = 0
      · rw [if_pos c0] at h
        rw [← Except.ok.inj h, Option.bind_some, eg, Option.bind_some]
        cases v[k]? with
        | none => rfl
        | some x => rw [Option.bind_some, if_pos c0]
      rw [if_neg c0] at h
      cases ev : v[k]? with
      | none => rw [ev] at h; cases h
      | some vt =>
        rw [ev] at h
        rw [← Except.ok.inj h, Option.bind_some, eg, Option.bind_some, ev, Option.bind_some, if_neg c0]

theorem corners_exact {gr : Grid} {b : Nat} {idx : List Nat} {v : List Val} {g : List Nat} {gp : List (Int × Int)}
    (hi : Dict.get? gr.idx b = some idx) (hv : Dict.get? gr.vtec b = some v) (hg : Dict.get? gr.givei b = some g)
    (hm : ∀ q, gp.findIdx? (fun p => p = q) = idx.findIdx? (fun j => (igpTable b)[j]? == some q)) :
    ∀ (cs : List (Nat × Int × Int)) (f f' : Found), (cs.map (·.1)).Nodup → corners gp v g b f cs = .ok f' →
      (∀ i la lo, (i, la, lo) ∈ cs → Dict.get? f'.1 i = (heldIn gr b la lo).or (Dict.get? f.1 i)) ∧
      (∀ i, i ∉ cs.map (·.1) → Dict.get? f'.1 i = Dict.get? f.1 i) ∧
      f'.2 = if cs.any (fun c => (heldIn gr b c.2.1 c.2.2).isSome) then b + 1 else f.2
  | [], f, f', _, h => by
    cases h
    exact ⟨fun _ _ _ h => (by cases h), fun _ _ => rfl, rfl⟩
  | (i, la, lo) :: cs, f, f', nd, h => by
    rw [corners] at h
    cases e : corner gp v g la lo with
    | error x => rw [e] at h; cases h
    | ok r =>
      rw [e, Py.okBind] at h
      have hr := corner_exact hi hv hg hm e
      rw [List.map_cons, List.nodup_cons] at nd
      obtain ⟨h1, h2, h3⟩ := corners_exact hi hv hg hm cs _ f' nd.2 h
      cases r with
      | none =>
        simp only at h1 h2 h3
        refine ⟨?_, ?_, ?_⟩
        · intro i' la' lo' hmem
          rcases List.mem_cons.1 hmem with hq | hq
          · injection hq with q1 q2
            injection q2 with q2 q3
            subst q1 q2 q3
            rw [h2 _ nd.1, ← hr]; rfl
          · exact h1 i' la' lo' hq
        · intro i' hn
          exact h2 i' (fun hc => hn (List.mem_cons_of_mem _ hc))
        · rw [h3, List.any_cons, ← hr]; rfl
      | some p =>
        simp only at h1 h2 h3
        refine ⟨?_, ?_, ?_⟩
        · intro i' la' lo' hmem
          rcases List.mem_cons.1 hmem with hq | hq
          · injection hq with q1 q2
            injection q2 with q2 q3
            subst q1 q2 q3
            rw [h2 _ nd.1, ← hr, Dict.get?_set_self]; rfl
          · have hne : i' ≠ i := by
              rintro rfl
              exact nd.1 (List.mem_map.2 ⟨_, hq, rfl⟩)
            rw [h1 i' la' lo' hq, Dict.get?_set, if_neg hne]
        · intro i' hn
          have hne : i' ≠ i := by
            rintro rfl
            exact hn (by rw [List.map_cons]; exact List.mem_cons_self)
          rw [h2 i' (fun hc => hn (List.mem_cons_of_mem _ hc)), Dict.get?_set, if_neg hne]
        · rw [h3, List.any_cons, ← hr]
          simp

theorem heldIn_none_v {gr : Grid} {b : Nat} (h : Dict.get? gr.vtec b = none) (la lo : Int) : heldIn gr b la lo = none := by
  unfold heldIn; rw [h]; rfl

theorem heldIn_none_g {gr : Grid} {b : Nat} (h : Dict.get? gr.givei b = none) (la lo : Int) : heldIn gr b la lo = none := by
  unfold heldIn
  rw [h]
  cases Dict.get? gr.vtec b <;> rfl

theorem findSome?_append' {α β} (f : α → Option β) (l m : List α) : (l ++ m).findSome? f = (l.findSome? f).or (m.findSome? f) :=
  List.findSome?_append

theorem bands_exact (gr : Grid) (cs : List (Nat × Int × Int)) (nd : (cs.map (·.1)).Nodup) : ∀ (bs : List Nat) (f f' : Found),
    bands gr cs f bs = .ok f' →
      (∀ i la lo, (i, la, lo) ∈ cs → Dict.get? f'.1 i = (lastHeld gr bs la lo).or (Dict.get? f.1 i)) ∧
      f'.2 = ((lastBand gr cs bs).map (· + 1)).getD f.2
  | [], f, f', h => by
    cases h
    exact ⟨fun _ _ _ _ => rfl, rfl⟩
  | b :: bs, f, f', h => by
    have skip : (∀ la lo, heldIn gr b la lo = none) → bands gr cs f bs = .ok f' →
        (∀ i la lo, (i, la, lo) ∈ cs → Dict.get? f'.1 i = (lastHeld gr (b :: bs) la lo).or (Dict.get? f.1 i)) ∧
          f'.2 = ((lastBand gr cs (b :: bs)).map (· + 1)).getD f.2 := by
      intro hn h
      obtain ⟨h1, h2⟩ := bands_exact gr cs nd bs f f' h
      refine ⟨?_, ?_⟩
      · intro i la lo hm
        rw [h1 i la lo hm]
        unfold lastHeld
        rw [List.reverse_cons, List.findSome?_append, List.findSome?_cons, hn]
        simp
      · rw [h2]
        unfold lastBand
        rw [List.reverse_cons, List.find?_append]
        simp [hn]
    rw [bands] at h
    cases hv : Dict.get? gr.vtec b with
    | none => rw [hv] at h; exact skip (heldIn_none_v hv) h
    | some v =>
      cases hg : Dict.get? gr.givei b with
      | none => rw [hv, hg] at h; exact skip (heldIn_none_g hg) h
      | some g =>
        rw [hv, hg] at h
        simp only at h
        cases hi : Dict.get? gr.idx b with
        | none => rw [hi] at h; cases h
        | some idx =>
          rw [hi] at h
          simp only at h
          revert h
          cases em : idx.mapM (fun k : Nat => match (igpTable b)[k]? with
            | some p => Except.ok p
            | none => Except.error PyErr.indexError) with
          | error x => intro h; cases h
          | ok gp =>
            intro h
            rw [Py.okBind] at h
            cases ec : corners gp v g b f cs with
            | error x => rw [ec] at h; cases h
            | ok f1 =>
              rw [ec, Py.okBind] at h
              obtain ⟨c1, _, c3⟩ := corners_exact hi hv hg (fun q => mapM_find em) cs f f1 nd ec
              obtain ⟨h1, h2⟩ := bands_exact gr cs nd bs f1 f' h
              refine ⟨?_, ?_⟩
              · intro i la lo hm
                rw [h1 i la lo hm, c1 i la lo hm]
                unfold lastHeld
                rw [List.reverse_cons, List.findSome?_append, List.findSome?_cons]
                cases List.findSome? (fun b => heldIn gr b la lo) bs.reverse with
                | some x => rfl
                | none =>
                  cases heldIn gr b la lo <;> rfl
              · rw [h2, c3]
                unfold lastBand
                rw [List.reverse_cons, List.find?_append]
                cases List.find? (fun b => cs.any fun c => (heldIn gr b c.2.1 c.2.2).isSome) bs.reverse with
                | some x => rfl
                | none =>
                  rw [List.find?_cons]
                  cases (cs.any fun c => (heldIn gr b c.2.1 c.2.2).isSome) <;> rfl

/-- **Lookup, completely**: a corner is found exactly when one of the bands 0 to 10 holds its grid
point, with the delay and indicator of the last such band; the network used for the age of the grid
is one more than the number of the last band that holds any corner (the previous network when no
band does). -/
theorem search_exact (gr : Grid) (inet : Nat) (lat lon : ℚ) (f : Found) (h : search gr inet lat lon = .ok f) :
    (∀ i la lo, (i, la, lo) ∈ numbered (cell lat lon) → Dict.get? f.1 i = lastHeld gr (List.range 11) la lo) ∧
    f.2 = ((lastBand gr (numbered (cell lat lon)) (List.range 11)).map (· + 1)).getD inet := by
  have nd : ((numbered (cell lat lon)).map (·.1)).Nodup := by
    unfold numbered
    have hl : (cell lat lon).latp.length = 4 ∧ (cell lat lon).lonp.length = 4 := by
      unfold cell
      simp only [ge_iff_le]
      repeat' split
      all_goals exact ⟨rfl, by simp⟩
    rw [List.map_fst_zip (by rw [List.length_zip, hl.1, hl.2]; rfl)]
    exact List.nodup_range
  obtain ⟨h1, h2⟩ := bands_exact gr _ nd _ _ f h
  refine ⟨?_, h2⟩
  intro i la lo hm
  rw [h1 i la lo hm]
  exact Option.or_none

theorem get?_mem {α} {d : Dict Nat α} {k : Nat} {v : α} (h : Dict.get? d k = some v) : (k, v) ∈ d := by
  unfold Dict.get? at h
  cases e : d.find? (fun p => p.1 = k) with
  | none => rw [e] at h; cases h
  | some p =>
    rw [e] at h
    have h2 := List.find?_some e
    have h3 := List.mem_of_find?_eq_some e
    simp at h2 h
    rw [← h2, ← h]; exact h3

/-- at least three entries among corners 0-3 means at most one corner is missing -/
theorem three_of_length {d : Dict Nat (Val × Nat)} (h : Distinct d) (hk : ∀ p ∈ d, p.1 < 4) (hl : 3 ≤ d.length) :
    Three (fun i => (Dict.get? d i).isSome) := by
  rintro ⟨i, j, hij, hj, hi0, hj0⟩
  have key : ∀ i, (Dict.get? d i).isSome = false → i ∉ d.map (·.1) := by
    intro i h hc
    obtain ⟨p, hp, rfl⟩ := List.mem_map.1 hc
    unfold Dict.get? at h
    rw [Option.isSome_map] at h
    have := List.find?_isSome (p := fun q : Nat × (Val × Nat) => decide (q.1 = p.1)) (xs := d) |>.2 ⟨p, hp, by simp⟩
    rw [this] at h
    cases h
  have hsub : d.map (·.1) ⊆ ((List.range 4).erase i).erase j := by
    intro x hx
    have hx4 : x < 4 := by
      obtain ⟨p, hp, rfl⟩ := List.mem_map.1 hx
      exact hk p hp
    have nd : (List.range 4).Nodup := List.nodup_range
    rw [List.Nodup.mem_erase_iff (nd.erase i), List.Nodup.mem_erase_iff nd, List.mem_range]
    refine ⟨?_, ?_, hx4⟩
    · rintro rfl; exact key _ hj0 hx
    · rintro rfl; exact key _ hi0 hx
  have := (List.subperm_of_subset h hsub).length_le
  rw [List.length_map, List.length_erase_of_mem, List.length_erase_of_mem, List.length_range] at this
  · omega
  · rw [List.mem_range]; omega
  · rw [List.Nodup.mem_erase_iff List.nodup_range, List.mem_range]; omega

/-! ## Interpolation -/

theorem accum_sum (igp : Dict Nat (Val × Nat)) (w : List ℚ) (dt : ℚ) (val : Nat → ℚ) : ∀ (is : List Nat) (d var : ℚ),
    (∀ i ∈ is, ∀ p, Dict.get? igp i = some p → p.1 = some (val i)) → (∀ i ∈ is, Dict.get? igp i = none → w.getD i 0 = 0) →
    (accum igp w dt is (some d, var)).1 = some (d + (is.map fun i => w.getD i 0 * val i).sum)
  | [], d, var, _, _ => by simp [accum]
  | i :: is, d, var, h1, h2 => by
    have t1 : ∀ j ∈ is, ∀ p, Dict.get? igp j = some p → p.1 = some (val j) := fun j hj => h1 j (List.mem_cons_of_mem _ hj)
    have t2 : ∀ j ∈ is, Dict.get? igp j = none → w.getD j 0 = 0 := fun j hj => h2 j (List.mem_cons_of_mem _ hj)
    rw [accum]
    cases e : Dict.get? igp i with
    | none =>
      simp only
      rw [accum_sum igp w dt val is d var t1 t2, List.map_cons, List.sum_cons, h2 i List.mem_cons_self e]
      congr 1; ring
    | some p =>
      obtain ⟨vt, gi⟩ := p
      have hv : vt = some (val i) := h1 i List.mem_cons_self _ e
      subst hv
      simp only
      rw [accum_sum igp w dt val is _ _ t1 t2, List.map_cons, List.sum_cons]
      congr 1; ring

/-- value of the interpolation when every corner found carries the value `val` of its place -/
theorem interpolate {gr : Grid} {inet : Nat} {sf lat lon : ℚ} {age : Nat → Option ℚ} {r : Val × ℚ}
    (h : ionoSBAS gr inet sf lat lon age = .ok r) (val : Nat → ℚ)
    (hv : ∀ i la lo v g, (i, la, lo) ∈ numbered (cell lat lon) → HeldAt gr la lo v g → v = some (val i)) :
    r = (some 0, 0) ∨ ∃ av w0 w1 w2 w3, Bary av (cell lat lon).x (cell lat lon).y w0 w1 w2 w3 ∧
      r.1 = some ((w0 * val 0 + w1 * val 1 + w2 * val 2 + w3 * val 3) * sf) := by
  unfold ionoSBAS at h
  have hs := search_sound gr inet lat lon
  cases e : search gr inet lat lon with
  | error x => rw [e] at h; cases h
  | ok f =>
    have hs : Sound gr (numbered (cell lat lon)) f := hs.1 f e
    rw [e, Py.okBind] at h
    simp only at h
    by_cases hl : f.1.length < 3
    · rw [if_pos hl] at h
      left; exact (Except.ok.inj h).symm
    rw [if_neg hl] at h
    have hlt : ∀ p ∈ f.1, p.1 < 4 := by
      intro p hp
      obtain ⟨la, lo, hm, _⟩ := hs.2 p hp
      have := (List.of_mem_zip hm).1
      exact List.mem_range.1 this
    have h3 := three_of_length hs.1 hlt (by omega)
    obtain ⟨px, py⟩ := cell_position lat lon
    cases ew : weights (fun i => (Dict.get? f.1 i).isSome) (cell lat lon).x (cell lat lon).y with
    | none =>
      rw [ew] at h
      left; exact (Except.ok.inj h).symm
    | some w =>
      rw [ew] at h
      simp only at h
      cases ea : age f.2 with
      | none => rw [ea] at h; cases h
      | some dt =>
        rw [ea] at h
        simp only at h
        have h := Except.ok.inj h
        right
        obtain ⟨w0, w1, w2, w3, hw, hb⟩ := weights_spec _ _ _ ⟨px.1, px.2.le⟩ ⟨py.1, py.2.le⟩ h3 w ew
        refine ⟨_, w0, w1, w2, w3, hb, ?_⟩
        have hz : ∀ i ∈ List.range 4, Dict.get? f.1 i = none → w.getD i 0 = 0 := by
          intro i hi hn
          have hn' : (Dict.get? f.1 i).isSome = false := by rw [hn]; rfl
          have hi := List.mem_range.1 hi
          obtain ⟨o0, o1, o2, o3⟩ := hb.only
          subst hw
          match i, hi with
          | 0, _ => exact o0 hn'
          | 1, _ => exact o1 hn'
          | 2, _ => exact o2 hn'
          | 3, _ => exact o3 hn'
        have hval : ∀ i ∈ List.range 4, ∀ p, Dict.get? f.1 i = some p → p.1 = some (val i) := by
          intro i _ p hp
          obtain ⟨la, lo, hm, hh⟩ := hs.2 _ (get?_mem hp)
          exact hv i la lo p.1 p.2 hm hh
        have := accum_sum f.1 w dt val (List.range 4) 0 0 hval hz
        rw [← h]
        simp only
        rw [this, Option.map_some, hw]
        simp only [List.range, List.range.loop, List.map_cons, List.map_nil, List.sum_cons, List.sum_nil, List.getD_cons_zero,
          List.getD_cons_succ]
        congr 1; ring

theorem length_of_three {d : Dict Nat (Val × Nat)} (h : Three (fun i => (Dict.get? d i).isSome)) : 3 ≤ d.length := by
  have key : ∀ l : List Nat, l.Nodup → l.length = 3 → (∀ i ∈ l, (Dict.get? d i).isSome = true) → 3 ≤ d.length := by
    intro l nd hl hs
    have hsub : l ⊆ d.map (·.1) := by
      intro i hi
      obtain ⟨p, hp⟩ := Option.isSome_iff_exists.1 (hs i hi)
      exact List.mem_map.2 ⟨_, get?_mem hp, rfl⟩
    have := (List.subperm_of_subset nd hsub).length_le
    rw [List.length_map, hl] at this
    exact this
  rcases three_cases h with ⟨a, b, c, e⟩ | ⟨a, b, c, e⟩ | ⟨a, b, c, e⟩ | ⟨a, b, c, e⟩ | ⟨a, b, c, e⟩
  · exact key [0, 1, 2] (by decide) rfl (by simp only [List.mem_cons, List.not_mem_nil, or_false]; rintro i (rfl | rfl | rfl) <;> assumption)
  · exact key [1, 2, 3] (by decide) rfl (by simp only [List.mem_cons, List.not_mem_nil, or_false]; rintro i (rfl | rfl | rfl) <;> assumption)
  · exact key [0, 2, 3] (by decide) rfl (by simp only [List.mem_cons, List.not_mem_nil, or_false]; rintro i (rfl | rfl | rfl) <;> assumption)
  · exact key [0, 1, 3] (by decide) rfl (by simp only [List.mem_cons, List.not_mem_nil, or_false]; rintro i (rfl | rfl | rfl) <;> assumption)
  · exact key [0, 1, 2] (by decide) rfl (by simp only [List.mem_cons, List.not_mem_nil, or_false]; rintro i (rfl | rfl | rfl) <;> assumption)

/-- error bound in metres (99.9 percent) of the indicators 0 to 14 -/
def bound : List ℚ := [3 / 10, 6 / 10, 9 / 10, 12 / 10, 15 / 10, 18 / 10, 21 / 10, 24 / 10, 27 / 10, 3, 36 / 10, 45 / 10, 6, 15, 45]

/-- **Variances**: the variance of an indicator is the square of its error bound divided by 3.29,
rounded to four decimals (at most one unit of the last decimal away); that of indicator 15 is zero. -/
theorem variances : giveiT.length = 16 ∧ (∀ k < 15, |giveiT.getD k 0 - (bound.getD k 0 / (329 / 100)) ^ 2| < 1 / 10000) ∧
    giveiT.getD 15 0 = 0 := by decide +kernel

/-- what is held for corner `i` of a cell -/
def heldAt (gr : Grid) (c : Cell) (i : Nat) : Option (Val × Nat) := lastHeld gr (List.range 11) (c.latp.getD i 0) (c.lonp.getD i 0)

/-- contribution of a corner with weight `w` to the delay: undefined delays make it undefined -/
def part (w : ℚ) : Option (Val × Nat) → Val
  | none => some 0
  | some (v, _) => v.map (w * ·)

/-- contribution of a corner with weight `w` to the variance, the grid being `dt` seconds old -/
def varPart (dt w : ℚ) : Option (Val × Nat) → ℚ
  | none => 0
  | some (_, g) => w * giveiT.getD g 0 * (9 / 10 ^ 8) * |dt|

def vadd (a b : Val) : Val := a.bind fun x => b.map (x + ·)

theorem accum_cons (igp : Dict Nat (Val × Nat)) (w : List ℚ) (dt : ℚ) (i : Nat) (is : List Nat) (d : Val) (var : ℚ) :
    accum igp w dt (i :: is) (d, var) =
      accum igp w dt is (vadd d (part (w.getD i 0) (Dict.get? igp i)), var + varPart dt (w.getD i 0) (Dict.get? igp i)) := by
  rw [accum]
  cases Dict.get? igp i with
  | none =>
    simp only [part, varPart, vadd]
    cases d with
    | none => simp
    | some d => simp
  | some p =>
    obtain ⟨vt, g⟩ := p
    simp only [part, varPart, vadd]
    congr 1
    congr 1
    · cases d with
      | none => rfl
      | some d => cases vt <;> rfl

/-- **Result**: there is no correction (delay and variance zero) when fewer than three corners are
held or the point is outside the triangle of the three; otherwise the delay is the weighted sum of
the delays of the corners times the slant factor and the variance the weighted sum of their
variances, times the age of the grid and the square of the slant factor.  The age is that of the
network one above the last band used.  The weights are the bilinear ones when all four are held. -/
theorem result {gr : Grid} {inet : Nat} {sf lat lon : ℚ} {age : Nat → Option ℚ} {r : Val × ℚ}
    (h : ionoSBAS gr inet sf lat lon age = .ok r) :
    ((¬ Three (fun i => (heldAt gr (cell lat lon) i).isSome) ∨
        ¬ ∃ w0 w1 w2 w3, Bary (fun i => (heldAt gr (cell lat lon) i).isSome) (cell lat lon).x (cell lat lon).y w0 w1 w2 w3) ∧
      r = (some 0, 0)) ∨
    (Three (fun i => (heldAt gr (cell lat lon) i).isSome) ∧
      ∃ w0 w1 w2 w3 dt, Bary (fun i => (heldAt gr (cell lat lon) i).isSome) (cell lat lon).x (cell lat lon).y w0 w1 w2 w3 ∧
        ((∀ i < 4, (heldAt gr (cell lat lon) i).isSome = true) → w0 = (1 - (cell lat lon).x) * (1 - (cell lat lon).y) ∧
          w1 = (1 - (cell lat lon).x) * (cell lat lon).y ∧ w2 = (cell lat lon).x * (1 - (cell lat lon).y) ∧
          w3 = (cell lat lon).x * (cell lat lon).y) ∧
        age (((lastBand gr (numbered (cell lat lon)) (List.range 11)).map (· + 1)).getD inet) = some dt ∧
        r.1 = (vadd (vadd (vadd (part w0 (heldAt gr (cell lat lon) 0)) (part w1 (heldAt gr (cell lat lon) 1)))
          (part w2 (heldAt gr (cell lat lon) 2))) (part w3 (heldAt gr (cell lat lon) 3))).map (· * sf) ∧
        r.2 = (varPart dt w0 (heldAt gr (cell lat lon) 0) + varPart dt w1 (heldAt gr (cell lat lon) 1) +
          varPart dt w2 (heldAt gr (cell lat lon) 2) + varPart dt w3 (heldAt gr (cell lat lon) 3)) * sf ^ 2) := by
  unfold ionoSBAS at h
  cases e : search gr inet lat lon with
  | error x => rw [e] at h; cases h
  | ok f =>
    have hs : Sound gr (numbered (cell lat lon)) f := (search_sound gr inet lat lon).1 f e
    obtain ⟨x1, x2⟩ := search_exact gr inet lat lon f e
    have hl : ∃ a b c d a' b' c' d', (cell lat lon).latp = [a, b, c, d] ∧ (cell lat lon).lonp = [a', b', c', d'] := by
      unfold cell
      simp only [ge_iff_le]
      repeat' split
      all_goals exact ⟨_, _, _, _, _, _, _, _, rfl, rfl⟩
    have hget : ∀ i < 4, Dict.get? f.1 i = heldAt gr (cell lat lon) i := by
      obtain ⟨a, b, c, d, a', b', c', d', l1, l2⟩ := hl
      have hn : numbered (cell lat lon) = [(0, a, a'), (1, b, b'), (2, c, c'), (3, d, d')] := by
        unfold numbered; rw [l1, l2]; rfl
      rw [hn] at x1
      unfold heldAt
      rw [l1, l2]
      intro i hi
      match i, hi with
      | 0, _ => exact x1 0 a a' (by simp)
      | 1, _ => exact x1 1 b b' (by simp)
      | 2, _ => exact x1 2 c c' (by simp)
      | 3, _ => exact x1 3 d d' (by simp)
    have hTiff : Three (fun i => (Dict.get? f.1 i).isSome) ↔ Three (fun i => (heldAt gr (cell lat lon) i).isSome) := by
      unfold Three
      have : (∃ i j, i < j ∧ j < 4 ∧ (Dict.get? f.1 i).isSome = false ∧ (Dict.get? f.1 j).isSome = false) ↔
          (∃ i j, i < j ∧ j < 4 ∧ (heldAt gr (cell lat lon) i).isSome = false ∧ (heldAt gr (cell lat lon) j).isSome = false) := by
        constructor
        · rintro ⟨i, j, h1, h2, h3, h4⟩
          exact ⟨i, j, h1, h2, by rw [← hget i (by omega)]; exact h3, by rw [← hget j h2]; exact h4⟩
        · rintro ⟨i, j, h1, h2, h3, h4⟩
          exact ⟨i, j, h1, h2, by rw [hget i (by omega)]; exact h3, by rw [hget j h2]; exact h4⟩
      exact not_congr this
    have hB : ∀ w0 w1 w2 w3, Bary (fun i => (Dict.get? f.1 i).isSome) (cell lat lon).x (cell lat lon).y w0 w1 w2 w3 ↔
        Bary (fun i => (heldAt gr (cell lat lon) i).isSome) (cell lat lon).x (cell lat lon).y w0 w1 w2 w3 := by
      intro w0 w1 w2 w3
      have g0 := hget 0 (by omega)
      have g1 := hget 1 (by omega)
      have g2 := hget 2 (by omega)
      have g3 := hget 3 (by omega)
      constructor
      · rintro ⟨n, o, t, ea, no⟩
        exact ⟨n, by simpa only [g0, g1, g2, g3] using o, t, ea, no⟩
      · rintro ⟨n, o, t, ea, no⟩
        exact ⟨n, by simpa only [g0, g1, g2, g3] using o, t, ea, no⟩
    rw [e, Py.okBind] at h
    simp only at h
    by_cases hlen : f.1.length < 3
    · rw [if_pos hlen] at h
      left
      refine ⟨Or.inl fun h3 => ?_, (Except.ok.inj h).symm⟩
      have := length_of_three (hTiff.2 h3)
      omega
    rw [if_neg hlen] at h
    have hlt : ∀ p ∈ f.1, p.1 < 4 := by
      intro p hp
      obtain ⟨la, lo, hm, _⟩ := hs.2 p hp
      exact List.mem_range.1 (List.of_mem_zip hm).1
    have h3 := three_of_length hs.1 hlt (by omega)
    obtain ⟨px, py⟩ := cell_position lat lon
    cases ew : weights (fun i => (Dict.get? f.1 i).isSome) (cell lat lon).x (cell lat lon).y with
    | none =>
      rw [ew] at h
      left
      refine ⟨Or.inr ?_, (Except.ok.inj h).symm⟩
      rintro ⟨w0, w1, w2, w3, hb⟩
      exact (rejected_iff _ _ _ ⟨px.1, px.2.le⟩ ⟨py.1, py.2.le⟩ h3).1 ew ⟨w0, w1, w2, w3, (hB ..).2 hb⟩
    | some w =>
      rw [ew] at h
      simp only at h
      cases ea : age f.2 with
      | none => rw [ea] at h; cases h
      | some dt =>
        rw [ea] at h
        simp only at h
        have h := Except.ok.inj h
        right
        obtain ⟨w0, w1, w2, w3, hw, hb⟩ := weights_spec _ _ _ ⟨px.1, px.2.le⟩ ⟨py.1, py.2.le⟩ h3 w ew
        refine ⟨hTiff.1 h3, w0, w1, w2, w3, dt, (hB ..).1 hb, ?_, ?_, ?_, ?_⟩
        · intro hall
          have hall' : ∀ i < 4, (Dict.get? f.1 i).isSome = true := fun i hi => by rw [hget i hi]; exact hall i hi
          unfold weights at ew
          rw [if_pos ⟨hall' 0 (by omega), hall' 1 (by omega), hall' 2 (by omega), hall' 3 (by omega)⟩, hw] at ew
          simp only [Option.some.injEq, List.cons.injEq, and_true] at ew
          exact ⟨ew.1.symm, ew.2.1.symm, ew.2.2.1.symm, ew.2.2.2.symm⟩
        · rw [← x2]; exact ea
        all_goals
          rw [← h, show List.range 4 = [0, 1, 2, 3] from rfl, accum_cons, accum_cons, accum_cons, accum_cons,
            hget 0 (by omega), hget 1 (by omega), hget 2 (by omega), hget 3 (by omega), hw]
          simp only [accum, List.getD_cons_zero, List.getD_cons_succ]
        · congr 1
          congr 1
          congr 1
          congr 1
          cases part w0 (heldAt gr (cell lat lon) 0) with
          | none => rfl
          | some q => exact congrArg some (zero_add q)
        · rw [zero_add]

/-- **Constant grid**: when every grid point holds the same delay, the result is that delay times
the slant factor (or nothing, reported as zero, if fewer than three corners are available or the
point is outside their triangle). -/
theorem constant_grid {gr : Grid} {inet : Nat} {sf lat lon c : ℚ} {age : Nat → Option ℚ} {r : Val × ℚ}
    (h : ionoSBAS gr inet sf lat lon age = .ok r) (hc : ∀ la lo v g, HeldAt gr la lo v g → v = some c) :
    r = (some 0, 0) ∨ r.1 = some (c * sf) := by
  rcases interpolate h (fun _ => c) (fun i la lo v g _ hh => hc la lo v g hh) with h | ⟨av, w0, w1, w2, w3, hb, e⟩
  · exact Or.inl h
  · right
    rw [e]
    congr 1
    rw [show w0 * c + w1 * c + w2 * c + w3 * c = (w0 + w1 + w2 + w3) * c by ring, hb.total]
    ring

/-- **Linear grid**: when the delays are an affine function of latitude and longitude, so is the
result (up to 75 degrees of latitude, away from the date line). -/
theorem linear_grid {gr : Grid} {inet : Nat} {sf lat lon a b c : ℚ} {age : Nat → Option ℚ} {r : Val × ℚ}
    (h : ionoSBAS gr inet sf lat lon age = .ok r) (h1 : -75 ≤ lat ∧ lat < 75) (h2 : -180 ≤ lon ∧ lon < 170)
    (hc : ∀ la lo v g, HeldAt gr la lo v g → v = some (a + b * la + c * lo)) :
    r = (some 0, 0) ∨ r.1 = some ((a + b * lat + c * lon) * sf) := by
  obtain ⟨n, la, lo, hn, -, -, b1, b2, b3, b4, hcell⟩ := cell_spec lat lon h1 ⟨h2.1, by linarith [h2.2]⟩
  have hn' : n = 5 ∨ n = 10 := by
    by_cases c : -55 ≤ lat ∧ lat < 55
    · rw [if_pos c] at hn; exact Or.inl hn
    · rw [if_neg c] at hn; exact Or.inr hn
  have hlo : lo < 170 := by
    have : (lo : ℚ) < 170 := by linarith [h2.2]
    exact_mod_cast this
  have w1' : wrap lo = lo := if_neg (by omega)
  have w2' : wrap (lo + n) = lo + n := if_neg (by omega)
  have hnum : numbered (cell lat lon) = [(0, la, lo), (1, la + n, lo), (2, la, lo + n), (3, la + n, lo + n)] := by
    rw [hcell, w1', w2']; rfl
  have hx : (cell lat lon).x = (lon - lo) / n := by rw [hcell]
  have hy : (cell lat lon).y = (lat - la) / n := by rw [hcell]
  have hnq : (n : ℚ) ≠ 0 := by
    rcases hn' with rfl | rfl <;> norm_num
  let val : Nat → ℚ := fun i => match i with
    | 0 => a + b * la + c * lo
    | 1 => a + b * (la + n) + c * lo
    | 2 => a + b * la + c * (lo + n)
    | _ => a + b * (la + n) + c * (lo + n)
  have hval : ∀ i la lo v g, (i, la, lo) ∈ numbered (cell lat lon) → HeldAt gr la lo v g → v = some (val i) := by
    intro i la' lo' v g hm hh
    rw [hc la' lo' v g hh]
    rw [hnum] at hm
    simp only [List.mem_cons, Prod.mk.injEq, List.not_mem_nil, or_false] at hm
    rcases hm with ⟨rfl, rfl, rfl⟩ | ⟨rfl, rfl, rfl⟩ | ⟨rfl, rfl, rfl⟩ | ⟨rfl, rfl, rfl⟩ <;> simp [val]
  rcases interpolate h val hval with h | ⟨av, w0, w1, w2, w3, hb, e⟩
  · exact Or.inl h
  · right
    rw [e]
    simp only [val]
    congr 2
    have he : (w2 + w3) * n = lon - lo := by rw [hb.east, hx]; field_simp
    have hno : (w1 + w3) * n = lat - la := by rw [hb.north, hy]; field_simp
    have : w0 * (a + b * la + c * lo) + w1 * (a + b * (la + n) + c * lo) + w2 * (a + b * la + c * (lo + n)) +
        w3 * (a + b * (la + n) + c * (lo + n)) =
        (w0 + w1 + w2 + w3) * (a + b * la + c * lo) + b * ((w1 + w3) * n) + c * ((w2 + w3) * n) := by ring
    rw [this, hb.total, he, hno]
    ring

/-- **Bounds**: with delays between `lo` and `hi` (and a non-negative slant factor) the result is
between them too. -/
theorem bounded_grid {gr : Grid} {inet : Nat} {sf lat lon l u : ℚ} {age : Nat → Option ℚ} {r : Val × ℚ} (hsf : 0 ≤ sf)
    (h : ionoSBAS gr inet sf lat lon age = .ok r) (val : Nat → ℚ)
    (hv : ∀ i la lo v g, (i, la, lo) ∈ numbered (cell lat lon) → HeldAt gr la lo v g → v = some (val i))
    (hb : ∀ i, l ≤ val i ∧ val i ≤ u) :
    r = (some 0, 0) ∨ ∃ d, r.1 = some d ∧ l * sf ≤ d ∧ d ≤ u * sf := by
  rcases interpolate h val hv with h | ⟨av, w0, w1, w2, w3, ⟨⟨n0, n1, n2, n3⟩, _, t, _, _⟩, e⟩
  · exact Or.inl h
  · right
    refine ⟨_, e, ?_, ?_⟩
    · refine mul_le_mul_of_nonneg_right ?_ hsf
      calc l = (w0 + w1 + w2 + w3) * l := by rw [t]; ring
        _ = w0 * l + w1 * l + w2 * l + w3 * l := by ring
        _ ≤ _ := by
          have := mul_le_mul_of_nonneg_left (hb 0).1 n0
          have := mul_le_mul_of_nonneg_left (hb 1).1 n1
          have := mul_le_mul_of_nonneg_left (hb 2).1 n2
          have := mul_le_mul_of_nonneg_left (hb 3).1 n3
          linarith
    · refine mul_le_mul_of_nonneg_right ?_ hsf
      calc _ ≤ w0 * u + w1 * u + w2 * u + w3 * u := by
            have := mul_le_mul_of_nonneg_left (hb 0).2 n0
            have := mul_le_mul_of_nonneg_left (hb 1).2 n1
            have := mul_le_mul_of_nonneg_left (hb 2).2 n2
            have := mul_le_mul_of_nonneg_left (hb 3).2 n3
            linarith
        _ = (w0 + w1 + w2 + w3) * u := by ring
        _ = u := by rw [t]; ring

/-! ## Storing the grid -/

/-- delay of a 9-bit field in eighths of a metre, 511 means do not use -/
def delayVal (u : Nat) : Val := if u < 511 then some (u / 8) else none

theorem ionoLoop_spec (msg : BitBuf) (bid : Nat) : ∀ (n : Nat) (v : List Val) (g : List Nat) (i k : Nat), v.length = g.length →
    i + 13 * n ≤ msg.length →
    ∃ v' g' i', ionoLoop msg bid v.length v g i k n = .ok (v', g', i') ∧ v'.length = v.length ∧ g'.length = g.length ∧
      (∀ j, j < n → bid * 15 + (k + j) < v.length →
        v'[bid * 15 + (k + j)]? = some (delayVal (bitsAt msg (i + 13 * j) 9)) ∧
        g'[bid * 15 + (k + j)]? = some (bitsAt msg (i + 13 * j + 9) 4)) ∧
      (∀ p, (∀ j, j < n → p ≠ bid * 15 + (k + j)) → v'[p]? = v[p]? ∧ g'[p]? = g[p]?)
  | 0, v, g, i, k, _, _ => ⟨v, g, i, rfl, rfl, rfl, by simp, by simp⟩
  | n + 1, v, g, i, k, hvg, h => by
    rw [ionoLoop, readU_at (show i + 9 ≤ msg.length by omega), Py.okBind, readU_at (show i + 9 + 4 ≤ msg.length by omega), Py.okBind]
    by_cases c : bid * 15 + k ≥ v.length
    · rw [if_pos c]
      exact ⟨v, g, i + 13, rfl, rfl, rfl, fun j _ hj => absurd hj (by omega), fun _ _ => ⟨rfl, rfl⟩⟩
    · rw [if_neg c]
      have hd : (if bitsAt msg i 9 < 511 then some ((bitsAt msg i 9 : ℚ) * (1 / 8)) else none) = delayVal (bitsAt msg i 9) := by
        unfold delayVal
        by_cases c : bitsAt msg i 9 < 511
        · rw [if_pos c, if_pos c]; congr 1; ring
        · rw [if_neg c, if_neg c]
      rw [hd]
      obtain ⟨v', g', i', e, l1, l2, h1, h2⟩ := ionoLoop_spec msg bid n (v.set (bid * 15 + k) (delayVal (bitsAt msg i 9)))
        (g.set (bid * 15 + k) (bitsAt msg (i + 9) 4)) (i + 13) (k + 1) (by simpa using hvg) (by omega)
      rw [List.length_set] at e l1 l2 h1
      refine ⟨v', g', i', e, l1, l2, ?_, ?_⟩
      · intro j hj hb
        cases j with
        | zero =>
          obtain ⟨a, b⟩ := h2 (bid * 15 + k) (fun j _ => by omega)
          rw [Nat.add_zero, a, b, List.getElem?_set_self (by omega), List.getElem?_set_self (by omega)]
          exact ⟨rfl, rfl⟩
        | succ j =>
          have := h1 j (by omega) (by omega)
          rw [show k + 1 + j = k + (j + 1) by omega, show i + 13 + 13 * j = i + 13 * (j + 1) by omega] at this
          exact this
      · intro p hp
        obtain ⟨a, b⟩ := h2 p (fun j hj => by
          have := hp (j + 1) (by omega)
          omega)
        have hne : bid * 15 + k ≠ p := by
          have := hp 0 (by omega)
          omega
        rw [a, b, List.getElem?_set_ne hne, List.getElem?_set_ne hne]
        exact ⟨rfl, rfl⟩

/-- **Delay message** (type 26): with another mask issue it changes nothing; otherwise the k-th
delay and indicator go to point `15*block + k` of the band, no other point and no other band
changes. -/
theorem delays_spec (s : St) (msg : BitBuf) (i : Nat) (hl : i + 212 ≤ msg.length) :
    ((bitsAt msg (i + 203) 2 : Int) ≠ s.iodi → iono s msg i = .ok (s, i + 212)) ∧
    ((bitsAt msg (i + 203) 2 : Int) = s.iodi → ∀ v g, Dict.get? s.vtec (bitsAt msg i 4) = some v →
      Dict.get? s.givei (bitsAt msg i 4) = some g → v.length = g.length →
      ∃ s' i' v' g', iono s msg i = .ok (s', i') ∧
        (∀ b, Dict.get? s'.vtec b = if b = bitsAt msg i 4 then some v' else Dict.get? s.vtec b) ∧
        (∀ b, Dict.get? s'.givei b = if b = bitsAt msg i 4 then some g' else Dict.get? s.givei b) ∧
        v'.length = v.length ∧ g'.length = g.length ∧
        (∀ k, k < 15 → bitsAt msg (i + 4) 4 * 15 + k < v.length →
          v'[bitsAt msg (i + 4) 4 * 15 + k]? = some (delayVal (bitsAt msg (i + 8 + 13 * k) 9)) ∧
          g'[bitsAt msg (i + 4) 4 * 15 + k]? = some (bitsAt msg (i + 8 + 13 * k + 9) 4)) ∧
        (∀ p, (∀ k, k < 15 → p ≠ bitsAt msg (i + 4) 4 * 15 + k) → v'[p]? = v[p]? ∧ g'[p]? = g[p]?)) := by
  unfold iono
  rw [readU_at (by omega), Py.okBind]
  constructor
  · intro h; rw [if_pos h]; rfl
  · intro h v g hv hg hvg
    rw [if_neg (by simpa using h), readU_at (by omega), Py.okBind, readU_at (by omega), Py.okBind, hv, hg]
    obtain ⟨v', g', i', e, l1, l2, h1, h2⟩ := ionoLoop_spec msg (bitsAt msg (i + 4) 4) 15 v g (i + 8) 0 hvg (by omega)
    simp only
    rw [e, Py.okBind]
    refine ⟨_, _, v', g', rfl, ?_, ?_, l1, l2, ?_, ?_⟩
    · intro b; rw [Dict.get?_set]
    · intro b; rw [Dict.get?_set]
    · intro k hk hb
      have := h1 k hk (by omega)
      rw [Nat.zero_add] at this
      exact this
    · intro p hp
      exact h2 p (fun j hj => by rw [Nat.zero_add]; exact hp j hj)

/-! ## Defects and a concrete case -/

/-- grid points 35N/135E, 40N/135E, 35N/140E, 40N/140E with delays 1, 2, 3 and 4 m; the indicator of
the first is `g` -/
def exGrid (g : Nat) : Grid :=
  { idx := [(7, [196, 197]), (8, [20, 21])]
    vtec := [(7, [some 1, some 2]), (8, [some 3, some 4])]
    givei := [(7, [g, 3]), (8, [3, 3])] }

example : (igpTable 7)[196]? = some (35, 135) ∧ (igpTable 7)[197]? = some (40, 135) ∧ (igpTable 8)[20]? = some (35, 140) ∧
    (igpTable 8)[21]? = some (40, 140) := by decide +kernel

/-- the point 36N/136E gets 4/5 * 4/5 * 1 + 4/5 * 1/5 * 2 + 1/5 * 4/5 * 3 + 1/5 * 1/5 * 4 = 8/5, slant factor 2 -/
example : ((ionoSBAS (exGrid 3) 0 2 36 136 (fun _ => some 10)).toOption.map (·.1)) = some (some (16 / 5)) := by decide +kernel

/-- with all indicators 3 and an age of ten seconds the variance is 4 * 0.1331 * 9e-8 * 10 -/
example : ((ionoSBAS (exGrid 3) 0 2 36 136 (fun n => if n = 9 then some 10 else none)).toOption.map (·.2)) =
    some (4 * (1331 / 10000) * (9 / 10 ^ 8) * 10) := by decide +kernel

/-- **Defect**: indicator 0, the best quality, is taken for an unavailable point. -/
theorem best_quality_ignored : (ionoSBAS (exGrid 0) 0 2 36 136 (fun _ => some 10)).toOption = some (some 0, 0) := by decide +kernel

/-- **Defect**: indicator 15, not monitored, is used, and adds no variance. -/
theorem unmonitored_used : (ionoSBAS (exGrid 15) 0 2 36 136 (fun _ => some 10)).toOption.map (·.1) = some (some (16 / 5)) ∧
    giveiT[15]? = some 0 := by decide +kernel

/-- **Defect**: a delay marked "do not use" (511) makes the result undefined instead of being left
out. -/
theorem do_not_use_used : (ionoSBAS { exGrid 3 with vtec := [(7, [none, some 2]), (8, [some 3, some 4])] } 0 2 36 136
    (fun _ => some 10)).toOption.map (·.1) = some none := by decide +kernel

/-- **Defect**: a mask with more points than the first one received leaves the delays at their old
number; looking up the first new point raises. -/
theorem larger_mask_raises : (ionoSBAS { exGrid 3 with idx := [(7, [195, 196, 197]), (8, [20, 21])] } 0 2 36 136
    (fun _ => some 10)).toOption = none := by decide +kernel

theorem not_held {gr : Grid} {la lo : Int} (h : la.natAbs = 95) : lastHeld gr (List.range 11) la lo = none := by
  unfold lastHeld
  rw [List.findSome?_eq_none_iff]
  intro b hb
  have hb : b < 11 := List.mem_range.1 (List.mem_reverse.1 hb)
  have key : ∀ b < 11, ∀ p ∈ igpTable b, p.1.natAbs ≠ 95 := by decide +kernel
  unfold heldIn
  have hf : ∀ idx : List Nat, idx.findIdx? (fun j => (igpTable b)[j]? == some (la, lo)) = none := by
    intro idx
    rw [List.findIdx?_eq_none_iff]
    intro j _
    cases e : (igpTable b)[j]? with
    | none => rfl
    | some p =>
      have := key b hb p (List.mem_of_getElem? e)
      simp only [beq_eq_false_iff_ne, ne_eq, Option.some.injEq]
      rintro rfl
      exact this h
  cases Dict.get? gr.vtec b with
  | none => rfl
  | some vs =>
    cases Dict.get? gr.givei b with
    | none => rfl
    | some gs =>
      cases Dict.get? gr.idx b with
      | none => rfl
      | some idx =>
        simp only [Option.bind_eq_bind, Option.bind_some, hf]
        rfl

/-- polewards of 85 degrees all four corners have the same longitude, and the latitudes of two of
them, 95 degrees, do not exist -/
theorem cell_polar (lat lon : ℚ) (h2 : -180 ≤ lon ∧ lon < 180) :
    (85 ≤ lat ∧ lat < 90 → ∃ m : Int, 90 ∣ m ∧ (m : ℚ) ≤ lon ∧ lon < m + 90 ∧ (cell lat lon).lonp = [m, m, m, m] ∧
      (cell lat lon).latp = [85, 95, 85, 95]) ∧
    (-90 ≤ lat ∧ lat < -85 → ∃ m : Int, 90 ∣ m - 40 ∧ (m : ℚ) + 10 ≤ lon ∧ lon < m + 100 ∧ (cell lat lon).lonp = [m, m, m, m] ∧
      (cell lat lon).latp = [-95, -85, -95, -85]) := by
  constructor
  · intro h
    obtain ⟨c1, c2⟩ := fl_bounds lon 90 (by norm_num)
    have hw : wrap (fl lon 90) = fl lon 90 := if_neg (by
      intro hc
      rw [hc] at c1
      push_cast at c1
      linarith [h2.2])
    refine ⟨fl lon 90, fl_dvd _ _, c1, c2, ?_, ?_⟩
    all_goals
      unfold cell
      simp only [ge_iff_le]
      rw [if_neg (show ¬ (180 ≤ lon) by linarith [h2.2]), if_neg (by rintro ⟨_, h'⟩; linarith [h.1]), if_neg (by rintro ⟨_, h'⟩; linarith [h.1]),
        if_neg (by rintro ⟨_, h'⟩; linarith [h.1]), if_pos h.1]
    · show [wrap (fl lon 90), wrap (fl lon 90), wrap (fl lon 90), wrap (fl lon 90)] = _
      rw [hw]
    · rw [fl_eq (q := lat - 5) (n := 10) (k := 8) (by norm_num) (by push_cast; linarith [h.1]) (by push_cast; linarith [h.2])]
      rfl
  · intro h
    obtain ⟨c1, c2⟩ := fl_bounds (lon - 50) 90 (by norm_num)
    push_cast at c2
    have hw : wrap (fl (lon - 50) 90 + 40) = fl (lon - 50) 90 + 40 := if_neg (by
      intro hc
      have : (fl (lon - 50) 90 : ℚ) = 140 := by exact_mod_cast (show fl (lon - 50) 90 = 140 by omega)
      rw [this] at c1
      linarith [h2.2])
    refine ⟨fl (lon - 50) 90 + 40, by rw [Int.add_sub_cancel]; exact fl_dvd _ _, by push_cast; linarith, by push_cast; linarith, ?_, ?_⟩
    all_goals
      unfold cell
      simp only [ge_iff_le]
      rw [if_neg (show ¬ (180 ≤ lon) by linarith [h2.2]), if_neg (by rintro ⟨h', _⟩; linarith [h.2]), if_neg (by rintro ⟨h', _⟩; linarith [h.2]),
        if_neg (by rintro ⟨h', _⟩; linarith [h.2]), if_neg (by intro h'; linarith [h.2]), if_pos h.2]
    · show [wrap (fl (lon - 50) 90 + 40), wrap (fl (lon - 50) 90 + 40), wrap (fl (lon - 50) 90 + 40), wrap (fl (lon - 50) 90 + 40)] = _
      rw [hw]
    · rw [fl_eq (q := lat - 5) (n := 10) (k := -10) (by norm_num) (by push_cast; linarith [h.1]) (by push_cast; linarith [h.2])]
      rfl

/-- **Defect**: polewards of 85 degrees there is never a correction. -/
theorem polar_no_correction {gr : Grid} {inet : Nat} {sf lat lon : ℚ} {age : Nat → Option ℚ} {r : Val × ℚ}
    (h : ionoSBAS gr inet sf lat lon age = .ok r) (h1 : (85 ≤ lat ∧ lat < 90) ∨ (-90 ≤ lat ∧ lat < -85)) (h2 : -180 ≤ lon ∧ lon < 180) :
    r = (some 0, 0) := by
  have hn : ¬ Three (fun i => (heldAt gr (cell lat lon) i).isSome) := by
    intro h3
    refine h3 ?_
    rcases h1 with h1 | h1
    · obtain ⟨m, _, _, _, l1, l2⟩ := (cell_polar lat lon h2).1 h1
      refine ⟨1, 3, by omega, by omega, ?_, ?_⟩
      all_goals
        unfold heldAt
        rw [l1, l2]
        simp only [List.getD_cons_succ, List.getD_cons_zero]
        rw [not_held (by decide)]
        rfl
    · obtain ⟨m, _, _, _, l1, l2⟩ := (cell_polar lat lon h2).2 h1
      refine ⟨0, 2, by omega, by omega, ?_, ?_⟩
      all_goals
        unfold heldAt
        rw [l1, l2]
        simp only [List.getD_cons_succ, List.getD_cons_zero]
        rw [not_held (by decide)]
        rfl
  rcases result h with ⟨_, e⟩ | ⟨h3, _⟩
  · exact e
  · exact absurd h3 hn

/-- **Defect**: the bands 9 and 10 have their last twelve points at 80 degrees, where no corner ever
is; the grid points of that rank are at 85 degrees. -/
theorem polar_bands_80 : ∀ k < 12, ((igpTable 9)[180 + k]?.map (·.1) = some 80) ∧ ((igpTable 10)[180 + k]?.map (·.1) = some (-80)) := by
  decide +kernel

end Verif.C28
