import Verif.Model.MdcArea
import Verif.Lemmas.Fld
/-!
C107: areas of the ionosphere corrections of MADOCA-PPP.
-/

namespace Verif.C107
open Verif.MdcArea
open Verif.RtcmInteg hiding Area deg

/-! ### specification -/

/-- an area in units of the message -/
inductive Shape where
  | rect (lat : Int) (lon dlat dlon : Nat)
  | circ (lat : Int) (lon r : Nat)

structure Entry where
  num : Nat
  shape : Shape

def Entry.head (e : Entry) : List F :=
  match e.shape with
  | .rect .. => [.u 5 e.num, .u 1 0]
  | .circ .. => [.u 5 e.num, .u 1 1]

def Shape.body : Shape → List F
  | .rect a b c d => [.s 11 a, .u 12 b, .u 8 c, .u 8 d]
  | .circ a b c => [.s 15 a, .u 16 b, .u 8 c]

/-- degrees in tenths for a rectangle, in hundredths for a circle; the range in tens -/
def Shape.meant : Shape → Area
  | .rect a b c d => .rect (a / 10) (b / 10) (c / 10) (d / 10)
  | .circ a b c => .circ (a / 100) (b / 100) (c * 10)

def Entry.bits (e : Entry) : List Bool := fb e.head ++ fb e.shape.body

def Entry.Fit (e : Entry) : Prop := (∀ x ∈ e.head, x.Fit) ∧ ∀ x ∈ e.shape.body, x.Fit

structure Msg where
  tow : Nat
  uid : Nat
  mi : Nat
  iod : Nat
  reg : Nat
  alert : Nat
  len : Nat
  areas : List Entry

def Msg.h (m : Msg) : List F := [.u 20 m.tow, .u 4 m.uid, .u 1 m.mi, .u 4 m.iod]
def Msg.g (m : Msg) : List F := [.u 8 m.reg, .u 1 m.alert, .u 16 m.len, .u 5 m.areas.length]
def Msg.bits (m : Msg) : List Bool := fb m.h ++ (fb m.g ++ m.areas.flatMap Entry.bits)
def Msg.Fit (m : Msg) : Prop := (∀ x ∈ m.h, x.Fit) ∧ (∀ x ∈ m.g, x.Fit) ∧ ∀ e ∈ m.areas, e.Fit

/-- what the table says about an area of a region -/
def look (s : St) (reg num : Int) : Option Area := (Dict.get? s.pnt reg).bind fun t => Dict.get? t num

/-- the last area with this number in a list -/
def lastOf (l : List Entry) (num : Int) : Option Area := (l.reverse.find? fun e => (e.num : Int) = num).map fun e => e.shape.meant

/-! ### coverage message -/

theorem body_length {e : Entry} (h : e.Fit) : e.bits.length = 45 := by
  obtain ⟨n, sh⟩ := e
  cases sh <;> simp [Entry.bits, Entry.head, Shape.body, fb, F.bits]

theorem area_rd (b : BitBuf) (e : Entry) (h : e.Fit) : Rd b (area b) e.bits ((e.num : Int), e.shape.meant) := by
  intro i hat
  rw [body_length h]
  obtain ⟨f1, f2⟩ := h
  unfold Entry.bits at hat
  obtain ⟨h1, g1⟩ := flds_at e.head f1 hat
  obtain ⟨n, sh⟩ := e
  cases sh with
  | rect a b c d =>
    obtain ⟨h2, _⟩ := flds_at (m := []) _ f2 (by simpa using g1)
    simp only [Entry.head, Shape.body, List.map_cons, List.map_nil, F.fmt, F.val, List.sum_cons, List.sum_nil, Nat.reduceAdd] at h1 h2
    simp only [area, h1, h2, Py.okBind, el, List.getD_cons_zero, List.getD_cons_succ]
    rfl
  | circ a b c =>
    obtain ⟨h2, _⟩ := flds_at (m := []) _ f2 (by simpa using g1)
    simp only [Entry.head, Shape.body, List.map_cons, List.map_nil, F.fmt, F.val, List.sum_cons, List.sum_nil, Nat.reduceAdd] at h1 h2
    simp only [area, h1, h2, Py.okBind, el, List.getD_cons_zero, List.getD_cons_succ]
    rfl

theorem put_get (num : Int) : ∀ (l : List Entry) (t : Dict Int Area),
    Dict.get? (put t (l.map fun e => ((e.num : Int), e.shape.meant))) num = (lastOf l num).or (Dict.get? t num)
  | [], t => rfl
  | e :: l, t => by
    rw [List.map_cons, put, put_get num l, Dict.get?_set]
    simp only [lastOf, List.reverse_cons, List.find?_append]
    cases l.reverse.find? (fun e => decide ((e.num : Int) = num)) with
    | some x => simp
    | none =>
      by_cases h : num = e.num
      · simp [h]
      · simp [h, Ne.symm h]

/-- **coverage message**: afterwards the areas of the region are those of the message (the last of equal numbers counts), together with the
earlier ones of other numbers; other regions stay; the hour the correction messages count from is that of the message -/
theorem area_message {b : BitBuf} {i : Nat} (s : St) (m : Msg) (hf : m.Fit) (h : At b i m.bits) :
    ∃ s', areaMsg s b i = .ok (s', i + 59 + 45 * m.areas.length) ∧
      (∀ r n, look s' r n = if r = (m.reg : Int) then (lastOf m.areas n).or (look s r n) else look s r n) ∧
      s'.tow0 = 3600 * (m.tow / 3600 : Nat) ∧ s'.reg = m.reg ∧ s'.alrt = m.alert := by
  obtain ⟨f1, f2, f3⟩ := hf
  obtain ⟨h1, g1⟩ := flds_at m.h f1 h
  obtain ⟨h2, g2⟩ := flds_at m.g f2 g1
  have h3 := rows_rd (val := fun e : Entry => ((e.num : Int), e.shape.meant)) (fun e he => area_rd b e (f3 e he)) _ g2
  have hl : (m.areas.flatMap Entry.bits).length = 45 * m.areas.length := by
    clear h h1 h2 h3 g1 g2 f1 f2
    generalize m.areas = l at f3
    induction l with
    | nil => rfl
    | cons e l ih => simp only [List.flatMap_cons, List.length_append, body_length (f3 e (by simp)), ih fun x hx => f3 x (by simp [hx]), List.length_cons]; ring
  simp only [Msg.h, Msg.g, List.map_cons, List.map_nil, F.fmt, F.val, List.sum_cons, List.sum_nil, Nat.reduceAdd, Nat.add_assoc] at h1 h2 h3
  refine ⟨{ s with
    tow0 := (m.tow : Int) / 3600 * 3600, reg := m.reg, alrt := m.alert
    pnt := Dict.set s.pnt (m.reg : Int) (put ((Dict.get? s.pnt (m.reg : Int)).getD []) (m.areas.map fun e => ((e.num : Int), e.shape.meant))) },
    ?_, ?_, ?_, ?_, ?_⟩
  · simp only [areaMsg, h1, h2, Py.okBind, el, List.getD_cons_zero, List.getD_cons_succ, Int.toNat_natCast, h3, hl, Nat.add_assoc]
    rfl
  · intro r n
    dsimp only [look]
    rw [Dict.get?_set]
    by_cases hr : r = (m.reg : Int)
    · subst hr
      rw [if_pos rfl, if_pos rfl]
      simp only [Option.bind_some, put_get]
      cases Dict.get? s.pnt (m.reg : Int) <;> simp
    · rw [if_neg hr, if_neg hr]
  · push_cast; ring
  · rfl
  · rfl

/-! ### areas -/

/-- **rectangle**: inside means at most the half widths away from the reference point, the border included -/
theorem rect_inside (latr lonr lats lons : ℚ) (lat lon : ℝ) :
    inside (.rect latr lonr lats lons) lat lon ↔ |deg lat - latr| ≤ lats ∧ |deg lon - lonr| ≤ lons := by
  simp only [inside, abs_le]
  constructor
  · rintro ⟨h1, h2, h3, h4⟩
    refine ⟨⟨?_, ?_⟩, ?_, ?_⟩ <;> linarith
  · rintro ⟨⟨h1, h2⟩, h3, h4⟩
    refine ⟨?_, ?_, ?_, ?_⟩ <;> linarith

/-- **west**: the message counts longitudes from 0 to 360 degrees east, positions from -180 to 180; so a rectangle in the western hemisphere
contains no position -/
theorem west_missed (latr lonr lats lons : ℚ) (lat lon : ℝ) (h : 180 < lonr - lons) (hl : lon ≤ Real.pi) :
    ¬ inside (.rect latr lonr lats lons) lat lon := by
  rintro ⟨_, _, h3, _⟩
  have hd : deg lon ≤ 180 := by
    have hp := Real.pi_pos
    unfold deg
    calc lon * (180 / Real.pi) ≤ Real.pi * (180 / Real.pi) := by gcongr
      _ = 180 := by field_simp
  have : (180 : ℝ) < lonr - lons := by exact_mod_cast h
  linarith

/-- **circle**: the distance is compared in metres with ten times the range number of the message (ten metres per unit, where ten kilometres
must be meant); so who is more than 2550 m north or south of the centre is outside of every circle -/
theorem circle_small (lat0 : Int) (lon0 r : Nat) (lat lon : ℝ) (hr : r < 256) (h : 2550 < |deg lat - lat0 / 100| * (Real.pi / 180) * 6378137) :
    ¬ inside (Shape.circ lat0 lon0 r).meant lat lon := by
  simp only [Shape.meant, inside, not_le]
  push_cast
  have hr' : ((r : ℝ)) * 10 ≤ 2550 := by
    have : (r : ℝ) ≤ 255 := by exact_mod_cast Nat.lt_succ_iff.1 hr
    linarith
  refine lt_of_le_of_lt hr' (lt_of_lt_of_le h ?_)
  rw [← Real.sqrt_sq (x := |deg lat - lat0 / 100| * (Real.pi / 180) * 6378137) (by positivity)]
  apply Real.sqrt_le_sqrt
  have : (|deg lat - (lat0 : ℝ) / 100| * (Real.pi / 180) * 6378137) ^ 2 = ((deg lat - (lat0 : ℝ) / 100) * (Real.pi / 180) * 6378137) ^ 2 := by
    rw [mul_pow, mul_pow, mul_pow, mul_pow, sq_abs]
  rw [this]
  nlinarith [sq_nonneg ((deg lon - (lon0 : ℝ) / 100) * (Real.pi / 180) * 6378137 * Real.cos ((lon0 : ℝ) / 100 * (Real.pi / 180)))]

/-- **circle**: east-west distances are shrunk by the cosine of the longitude instead of the latitude; a circle at 90 degrees east contains
every longitude -/
theorem circle_all (latr rng : ℚ) (lat lon : ℝ) (h : deg lat = latr) (hr : 0 ≤ rng) : inside (.circ latr 90 rng) lat lon := by
  simp only [inside, h, sub_self, zero_mul]
  have : Real.cos (((90 : ℚ) : ℝ) * (Real.pi / 180)) = 0 := by
    have e : (((90 : ℚ) : ℝ) * (Real.pi / 180)) = Real.pi / 2 := by push_cast; ring
    rw [e, Real.cos_pi_div_two]
  rw [this]
  simpa using hr

/-- the centre belongs to the circle -/
theorem circle_centre (latr lonr rng : ℚ) (lat lon : ℝ) (h1 : deg lat = latr) (h2 : deg lon = lonr) :
    inside (.circ latr lonr rng) lat lon ↔ 0 ≤ rng := by
  simp [inside, h1, h2]

/-! ### value -/

theorem values_map (ci : Dict Int (List ℝ)) (v : List ℝ) (f : Int → List ℝ) : ∀ sats : List Int, (∀ s ∈ sats, Dict.get? ci s = some (f s)) →
    values ci v sats = .ok (sats.map fun s => (List.zipWith (· * ·) v (f s)).sum)
  | [], _ => rfl
  | s :: l, h => by
    have h1 : Dict.getItem ci s = .ok (f s) := (Dict.getItem_ok_iff ci s (f s)).2 (h s (by simp))
    rw [values, h1, Py.okBind, values_map ci v f l fun x hx => h x (by simp [hx]), Py.okBind]
    rfl

/-- **value**: for every satellite, in order, the second-degree polynomial of the offsets from the reference point in degrees -/
theorem stec_value (inet : Int) (hi : 0 ≤ inet) (n : Nat) (sats : List Int) (ci : Dict Int (List ℝ)) (c00 c01 c10 c11 c02 c20 : Int → ℝ)
    (h : ∀ s ∈ sats, Dict.get? ci s = some [c00 s, c01 s, c10 s, c11 s, c02 s, c20 s]) (x y : ℝ) :
    stec inet n sats ci x y =
      .ok (sats.map fun s => c00 s + c01 s * x + c10 s * y + c11 s * x * y + c02 s * x ^ 2 + c20 s * y ^ 2) := by
  unfold stec
  rw [if_neg (by omega), values_map ci _ _ sats h]
  congr 1
  apply List.map_congr_left
  intro s _
  simp only [List.zipWith_cons_cons, List.zipWith_nil_left, List.sum_cons, List.sum_nil]
  ring

/-- outside of all areas the correction is zero for all satellites, and there is no offset -/
theorem stec_outside (inet : Int) (hi : inet < 0) (n : Nat) (sats : List Int) (ci : Dict Int (List ℝ)) (x y : ℝ) :
    stec inet n sats ci x y = .ok (List.replicate n 0) := by
  unfold stec
  rw [if_pos hi]

/-- **offset**: degrees from the reference point of the area -/
theorem offset (s : St) (reg num : Int) (lat lon : ℝ) (a : Area) (h1 : 0 ≤ reg) (h2 : 0 ≤ num) (h : look s reg num = some a) :
    dpos s.pnt reg num lat lon = .ok (deg lat - a.ref.1, deg lon - a.ref.2) := by
  unfold look at h
  obtain ⟨t, ht, ha⟩ := Option.bind_eq_some_iff.1 h
  unfold dpos
  rw [if_neg (by omega), (Dict.getItem_ok_iff _ _ _).2 ht, Py.okBind, (Dict.getItem_ok_iff _ _ _).2 ha, Py.okBind]
  rfl

/-- **reference point**: the middle of a rectangle and the centre of a circle have offset zero, and only they -/
theorem offset_centre (s : St) (reg num : Int) (lat lon : ℝ) (latr lonr lats lons rng : ℚ) (h1 : 0 ≤ reg) (h2 : 0 ≤ num)
    (h : look s reg num = some (.rect latr lonr lats lons) ∨ look s reg num = some (.circ latr lonr rng)) :
    dpos s.pnt reg num lat lon = .ok (0, 0) ↔ deg lat = latr ∧ deg lon = lonr := by
  rcases h with h | h
  all_goals
    rw [offset s reg num lat lon _ h1 h2 h]
    simp only [Area.ref, Except.ok.injEq, Prod.mk.injEq, sub_eq_zero]

/-- no area: no offset; an area which no coverage message has named raises an exception -/
theorem offset_none (s : St) (reg num : Int) (lat lon : ℝ) :
    (reg < 0 ∨ num < 0 → dpos s.pnt reg num lat lon = .ok (0, 0)) ∧
    (0 ≤ reg → 0 ≤ num → look s reg num = none → dpos s.pnt reg num lat lon = .error .keyError) := by
  constructor
  · intro h
    unfold dpos
    rw [if_pos h]
  · intro h1 h2 h
    unfold look at h
    unfold dpos
    rw [if_neg (by omega)]
    cases ht : Dict.get? s.pnt reg with
    | none => simp only [Dict.getItem, ht]; rfl
    | some t =>
      rw [ht, Option.bind_some] at h
      simp only [Dict.getItem, ht, Py.okBind, h]
      rfl

/-! ### examples -/

def demo : Msg := ⟨400000, 1, 0, 3, 2, 0, 99, [⟨4, .rect 350 1350 20 30⟩, ⟨5, .circ (-1234) 14000 25⟩]⟩

example : demo.Fit := by
  refine ⟨?_, ?_, ?_⟩ <;> simp [demo, Msg.h, Msg.g, Entry.Fit, Entry.head, Shape.body, F.Fit]

example : lastOf demo.areas 4 = some (.rect 35 135 2 3) := by
  simp [lastOf, demo, Shape.meant]
  norm_num

/-- 35 degrees north, 135 degrees east is in its own area -/
example : inside (.rect 35 135 2 3) (35 * (Real.pi / 180)) (135 * (Real.pi / 180)) := by
  have hp := Real.pi_ne_zero
  have e : ∀ x : ℝ, deg (x * (Real.pi / 180)) = x := fun x => by unfold deg; field_simp
  rw [rect_inside, e, e]
  norm_num

end Verif.C107
