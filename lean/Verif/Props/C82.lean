import Verif.Model.Grid
import Verif.Lemmas.Post
import Mathlib.Tactic.Linarith
import Mathlib.Tactic.Ring
import Mathlib.Tactic.FieldSimp
import Mathlib.Tactic.Positivity
import Mathlib.Algebra.Order.BigOperators.Group.List
import Mathlib.Algebra.BigOperators.Ring.List
import Mathlib.Algebra.Order.Field.Rat
/-!
# C82 Grid points and interpolation of the local corrections
-/

namespace Verif.C82
open Verif.Grid

/-- what is asked of the sort: a permutation, nearer points first -/
def Sorts (srt : List Pt → List Pt) : Prop :=
  ∀ l, (srt l).Perm l ∧ (srt l).Pairwise fun a b => a.r ≤ b.r

/-! ## The nearest point -/

theorem nearest_none {g : List Pt} : nearest g = none ↔ g = [] := by
  cases g with
  | nil => simp [nearest]
  | cons p t =>
    simp only [nearest]
    cases nearest t with
    | none => simp
    | some q => by_cases h : q.r < p.r <;> simp [h]

theorem nearest_spec {g : List Pt} {p : Pt} (h : nearest g = some p) :
    ∃ pre post, g = pre ++ p :: post ∧ (∀ q ∈ pre, p.r < q.r) ∧ ∀ q ∈ post, p.r ≤ q.r := by
  induction g generalizing p with
  | nil => simp [nearest] at h
  | cons a t ih =>
    simp only [nearest] at h
    cases hn : nearest t with
    | none =>
      rw [hn] at h
      cases h
      rw [nearest_none.1 hn]
      exact ⟨[], [], rfl, by simp, by simp⟩
    | some q =>
      rw [hn] at h
      obtain ⟨pre, post, rfl, h1, h2⟩ := ih hn
      by_cases hc : q.r < a.r
      · simp only [hc, if_true, Option.some.injEq] at h
        subst h
        refine ⟨a :: pre, post, rfl, fun x hx => ?_, h2⟩
        rcases List.mem_cons.1 hx with rfl | hx
        · exact hc
        · exact h1 x hx
      · simp only [hc, if_false, Option.some.injEq] at h
        subst h
        refine ⟨[], _, rfl, by simp, fun x hx => ?_⟩
        rcases List.mem_append.1 hx with hx | hx
        · linarith [h1 x hx]
        · rcases List.mem_cons.1 hx with rfl | hx
          · linarith
          · linarith [h2 x hx]

/-- A table without points is an error. -/
theorem empty_raises (srt : List Pt → List Pt) : findGridIndex srt [] = .error .valueError := rfl

/-- **The network is that of the nearest point of the table**, the first one when several are
equally near, and a table with at least one point never raises. -/
theorem network (srt : List Pt → List Pt) {g : List Pt} (hg : g ≠ []) :
    ∃ s p pre post, findGridIndex srt g = .ok s ∧ g = pre ++ p :: post ∧
      (∀ q ∈ pre, p.r < q.r) ∧ (∀ q ∈ post, p.r ≤ q.r) ∧ s.inet = p.nid := by
  cases hn : nearest g with
  | none => exact absurd (nearest_none.1 hn) hg
  | some p =>
    obtain ⟨pre, post, h1, h2, h3⟩ := nearest_spec hn
    unfold findGridIndex
    rw [hn]
    dsimp only
    split_ifs
    · exact ⟨_, p, pre, post, rfl, h1, h2, h3, rfl⟩
    · exact ⟨_, p, pre, post, rfl, h1, h2, h3, rfl⟩

theorem nearest_of {g pre post : List Pt} {p : Pt} (hg : g = pre ++ p :: post)
    (h1 : ∀ q ∈ pre, p.r < q.r) (h2 : ∀ q ∈ post, p.r ≤ q.r) : nearest g = some p := by
  subst hg
  induction pre with
  | nil =>
    simp only [List.nil_append, nearest]
    cases hn : nearest post with
    | none => rfl
    | some q =>
      obtain ⟨a, b, rfl, -, -⟩ := nearest_spec hn
      have := h2 q (by simp)
      simp only [if_neg (not_lt.2 this)]
  | cons a t ih =>
    have := ih (fun q hq => h1 q (List.mem_cons_of_mem _ hq))
    simp only [List.cons_append, nearest, this]
    exact if_pos (h1 a List.mem_cons_self)

/-- **Within 5 km of a grid point that point alone is used.** -/
theorem near_one (srt : List Pt → List Pt) {g pre post : List Pt} {p : Pt}
    (hg : g = pre ++ p :: post) (h1 : ∀ q ∈ pre, p.r < q.r) (h2 : ∀ q ∈ post, p.r ≤ q.r)
    (h5 : p.r < 5000) : findGridIndex srt g = .ok ⟨p.nid, 1, .one p.gid, [1]⟩ := by
  unfold findGridIndex
  rw [nearest_of hg h1 h2]
  exact if_pos h5

/-! ## The points used -/

/-- the rover is at the origin; `q` lies on the rover's side of the line through `p` and `a`
(or on it, or the rover does) -/
def SameSide (p a q : Pt) : Prop :=
  0 ≤ ((a.x - p.x) * (0 - p.y) - (a.y - p.y) * (0 - p.x)) *
    ((a.x - p.x) * (q.y - p.y) - (a.y - p.y) * (q.x - p.x))

theorem between_iff (p1 p2 p3 q : Pt) :
    between p1 p2 p3 q = true ↔ SameSide p1 p2 q ∧ SameSide p1 p3 q := by
  unfold between SameSide normDot rel
  simp only [ge_iff_le, Bool.and_eq_true, decide_eq_true_eq]
  refine and_congr ?_ ?_
  · refine iff_of_eq (congrArg _ ?_)
    ring
  · refine iff_of_eq (congrArg _ ?_)
    ring

/-- which of the points of the network, in order of distance, are used: all of fewer than four;
otherwise the three nearest and the nearest of the others lying on the rover's side of both lines
from the nearest point to the second and to the third, if there is one -/
inductive Used : List Pt → List Pt → Prop where
  | few {l} : l.length < 4 → Used l l
  | three {p1 p2 p3 t} : t ≠ [] → (∀ q ∈ t, ¬ (SameSide p1 p2 q ∧ SameSide p1 p3 q)) →
      Used (p1 :: p2 :: p3 :: t) [p1, p2, p3]
  | four {p1 p2 p3 p4 a b} : (∀ q ∈ a, ¬ (SameSide p1 p2 q ∧ SameSide p1 p3 q)) →
      SameSide p1 p2 p4 → SameSide p1 p3 p4 →
      Used (p1 :: p2 :: p3 :: (a ++ p4 :: b)) [p1, p2, p3, p4]

theorem choose_some {p1 p2 p3 p4 q : Pt} {t : List Pt}
    (h : (q :: t).find? (between p1 p2 p3) = some p4) :
    choose (p1 :: p2 :: p3 :: q :: t) = [p1, p2, p3, p4] := by
  simp only [choose, h]

theorem choose_none {p1 p2 p3 q : Pt} {t : List Pt}
    (h : (q :: t).find? (between p1 p2 p3) = none) :
    choose (p1 :: p2 :: p3 :: q :: t) = [p1, p2, p3] := by
  simp only [choose, h]

theorem choose_used (l : List Pt) : Used l (choose l) := by
  match l with
  | [] => exact .few (by simp)
  | [_] => exact .few (by simp)
  | [_, _] => exact .few (by simp)
  | [_, _, _] => exact .few (by simp)
  | p1 :: p2 :: p3 :: q :: t =>
    cases h : (q :: t).find? (between p1 p2 p3) with
    | none =>
      rw [choose_none h]
      refine .three (List.cons_ne_nil q t) fun x hx hs => ?_
      have := List.find?_eq_none.1 h x hx
      exact this ((between_iff _ _ _ _).2 hs)
    | some p4 =>
      rw [choose_some h]
      obtain ⟨h4, a, b, hab, hno⟩ := List.find?_eq_some_iff_append.1 h
      rw [hab]
      have hb := (between_iff _ _ _ _).1 h4
      refine .four (fun x hx hs => ?_) hb.1 hb.2
      have := hno x hx
      rw [(between_iff _ _ _ _).2 hs] at this
      cases this

theorem used_unique {l a b : List Pt} (ha : Used l a) (hb : Used l b) : a = b := by
  have key : ∀ {l a}, Used l a → a = choose l := by
    intro l a h
    cases h with
    | few h =>
      match l, h with
      | [], _ => rfl
      | [_], _ => rfl
      | [_, _], _ => rfl
      | [_, _, _], _ => rfl
      | _ :: _ :: _ :: _ :: _, h => simp only [List.length_cons] at h; omega
    | @three p1 p2 p3 t ht hno =>
      cases t with
      | nil => exact absurd rfl ht
      | cons q t =>
        exact (choose_none (List.find?_eq_none.2 fun x hx hs =>
          hno x hx ((between_iff _ _ _ _).1 hs))).symm
    | @four p1 p2 p3 p4 a b hno h1 h2 =>
      have hf : (a ++ p4 :: b).find? (between p1 p2 p3) = some p4 :=
        List.find?_eq_some_iff_append.2 ⟨(between_iff _ _ _ _).2 ⟨h1, h2⟩, a, b, rfl, fun x hx => by
          by_contra hc
          simp only [Bool.not_eq_eq_eq_not, Bool.not_true, Bool.not_eq_false] at hc
          exact hno x hx ((between_iff _ _ _ _).1 hc)⟩
      cases a with
      | nil => exact (choose_some hf).symm
      | cons q a => exact (choose_some hf).symm
  rw [key ha, key hb]

theorem used_sublist {l u : List Pt} (h : Used l u) : u.Sublist l := by
  cases h with
  | few _ => exact List.Sublist.refl _
  | three _ _ => simp
  | @four p1 p2 p3 p4 a b _ _ _ =>
    refine .cons_cons _ (.cons_cons _ (.cons_cons _ ?_))
    exact List.singleton_sublist.2 (by simp)

theorem used_ne_nil {l u : List Pt} (h : Used l u) (hl : l ≠ []) : u ≠ [] := by
  cases h with
  | few _ => exact hl
  | three _ _ => simp
  | four _ _ _ => simp

/-- **Farther than 5 km from every grid point**, the points used are points of the nearest
point's network chosen as `Used` says from its points in order of distance; `ngrid` is the number
of points of the network, at most four. -/
theorem far_points {srt : List Pt → List Pt} (hs : Sorts srt) {g : List Pt} (hg : g ≠ [])
    (h5 : ∀ q ∈ g, 5000 ≤ q.r) :
    ∃ s used sorted p, findGridIndex srt g = .ok s ∧ p ∈ g ∧ (∀ q ∈ g, p.r ≤ q.r) ∧ s.inet = p.nid ∧
      sorted.Perm (g.filter fun q => q.nid = s.inet) ∧ sorted.Pairwise (fun a b => a.r ≤ b.r) ∧
      Used sorted used ∧ s.index = .many (used.map (·.gid)) ∧ s.weight = weights used ∧
      used ≠ [] ∧ s.ngrid = min (g.filter fun q => q.nid = s.inet).length 4 := by
  cases hn : nearest g with
  | none => exact absurd (nearest_none.1 hn) hg
  | some p =>
    obtain ⟨pre, post, h1, h2, h3⟩ := nearest_spec hn
    have hp : p ∈ g := by rw [h1]; simp
    have hmin : ∀ q ∈ g, p.r ≤ q.r := by
      intro q hq
      rw [h1] at hq
      rcases List.mem_append.1 hq with hq | hq
      · exact (h2 q hq).le
      · rcases List.mem_cons.1 hq with rfl | hq
        · exact le_refl _
        · exact h3 q hq
    have hne : srt (g.filter fun q => q.nid = p.nid) ≠ [] := by
      intro hc
      have := (hs (g.filter fun q => q.nid = p.nid)).1
      rw [hc] at this
      have hm : p ∈ g.filter fun q => q.nid = p.nid := List.mem_filter.2 ⟨hp, by simp⟩
      rw [this.symm.eq_nil] at hm
      cases hm
    refine ⟨⟨p.nid, min (g.filter fun q => q.nid = p.nid).length 4,
        .many ((choose (srt (g.filter fun q => q.nid = p.nid))).map (·.gid)),
        weights (choose (srt (g.filter fun q => q.nid = p.nid)))⟩,
      choose (srt (g.filter fun q => q.nid = p.nid)), srt (g.filter fun q => q.nid = p.nid), p,
      ?_, hp, hmin, ?_, (hs _).1, (hs _).2, choose_used _, ?_, ?_, ?_, ?_⟩
    · unfold findGridIndex
      rw [hn]
      exact if_neg (not_lt.2 (h5 p hp))
    · rfl
    · rfl
    · rfl
    · exact used_ne_nil (choose_used _) hne
    · rfl

/-! ## The weights -/

theorem inv_sum_pos {l : List Pt} (hl : l ≠ []) (hr : ∀ p ∈ l, 0 < p.r) :
    0 < (l.map fun q => 1 / q.r).sum := by
  refine List.sum_pos _ (fun x hx => ?_) (by simpa using hl)
  obtain ⟨p, hp, rfl⟩ := List.mem_map.1 hx
  have := hr p hp
  positivity

/-- **The weights are positive, add up to one and are inversely proportional to the distances.** -/
theorem weight_spec {l : List Pt} (hl : l ≠ []) (hr : ∀ p ∈ l, 0 < p.r) :
    (weights l).length = l.length ∧ (∀ w ∈ weights l, 0 < w) ∧ (weights l).sum = 1 ∧
    ∀ (i j : Nat) (hi : i < l.length) (hj : j < l.length),
      (weights l).getD i 0 * l[i].r = (weights l).getD j 0 * l[j].r := by
  have hS := inv_sum_pos hl hr
  refine ⟨by simp [weights], fun w hw => ?_, ?_, fun i j hi hj => ?_⟩
  · obtain ⟨p, hp, rfl⟩ := List.mem_map.1 hw
    have := hr p hp
    positivity
  · have : weights l = (l.map fun q => 1 / q.r).map fun x => x * ((l.map fun q => 1 / q.r).sum)⁻¹ := by
      unfold weights
      rw [List.map_map]
      rfl
    rw [this, List.sum_map_mul_right, List.map_id', mul_inv_cancel₀ hS.ne']
  · have key : ∀ (i : Nat) (hi : i < l.length),
        (weights l).getD i 0 * l[i].r = ((l.map fun q => 1 / q.r).sum)⁻¹ := by
      intro i hi
      have h0 : 0 < l[i].r := hr _ (List.getElem_mem hi)
      rw [List.getD_eq_getElem?_getD]
      unfold weights
      rw [List.getElem?_map, List.getElem?_eq_getElem hi]
      simp only [Option.map_some, Option.getD_some]
      field_simp
    rw [key i hi, key j hj]

/-- **Farther than 5 km**: the weights found by the selection, whatever the table. -/
theorem far_weights {srt : List Pt → List Pt} (hs : Sorts srt) {g : List Pt} (hg : g ≠ [])
    (h5 : ∀ q ∈ g, 5000 ≤ q.r) :
    ∃ s gids, findGridIndex srt g = .ok s ∧ s.index = .many gids ∧ s.weight.length = gids.length ∧
      1 ≤ gids.length ∧ gids.length ≤ s.ngrid ∧ s.ngrid ≤ gids.length + 1 ∧
      (∀ w ∈ s.weight, 0 < w) ∧ s.weight.sum = 1 ∧
      ∀ gid ∈ gids, ∃ q ∈ g, q.gid = gid ∧ q.nid = s.inet := by
  obtain ⟨s, used, sorted, p, h1, hp, hm, h2, h3, h4, hu, hi, hw, hne, hn⟩ := far_points hs hg h5
  have hsub : ∀ q ∈ used, q ∈ g ∧ q.nid = s.inet := by
    intro q hq
    have := h3.mem_iff.1 ((used_sublist hu).subset hq)
    simpa using this
  have hr : ∀ q ∈ used, 0 < q.r := fun q hq => by linarith [h5 q (hsub q hq).1]
  obtain ⟨w1, w2, w3, -⟩ := weight_spec hne hr
  have hlen : used.length ≤ s.ngrid ∧ s.ngrid ≤ used.length + 1 := by
    rw [hn, ← h3.length_eq]
    cases hu with
    | few h => omega
    | @three _ _ _ t ht _ =>
      have : 0 < t.length := List.length_pos_iff.2 ht
      simp only [List.length_cons, List.length_nil]
      omega
    | four _ _ _ => simp only [List.length_cons, List.length_nil, List.length_append]; omega
  refine ⟨s, _, h1, hi, ?_, ?_, ?_, ?_, by rw [hw]; exact w2, by rw [hw]; exact w3, ?_⟩
  · rw [hw, w1, List.length_map]
  · rw [List.length_map]; exact List.length_pos_iff.2 hne
  · rw [List.length_map]; exact hlen.1
  · rw [List.length_map]; exact hlen.2
  · intro gid hg
    obtain ⟨q, hq, rfl⟩ := List.mem_map.1 hg
    exact ⟨q, (hsub q hq).1, rfl, (hsub q hq).2⟩

/-! ## Interpolation -/

/-- the weighted sum of numbers -/
def wsum (w v : List ℚ) : ℚ := (List.zipWith (· * ·) w v).sum

theorem dot_some {w v : List ℚ} (h : w.length = v.length) :
    dot w (v.map some) = .ok (some (wsum w v)) := by
  unfold dot wsum
  rw [if_pos (by simpa using h)]
  congr 1
  clear h
  induction w generalizing v with
  | nil => simp
  | cons a w ih =>
    cases v with
    | nil => simp
    | cons b v =>
      simp only [List.map_cons, List.zipWith_cons_cons, List.foldr_cons, ih, smul, vadd,
        List.sum_cons]

theorem dot_nan {w : List ℚ} {c : List Val} (h : w.length = c.length) (hn : none ∈ c) :
    dot w c = .ok none := by
  unfold dot
  rw [if_pos h]
  congr 1
  induction w generalizing c with
  | nil =>
    cases c with
    | nil => cases hn
    | cons _ _ => simp at h
  | cons a w ih =>
    cases c with
    | nil => cases hn
    | cons b c =>
      rw [List.zipWith_cons_cons, List.foldr_cons]
      rcases List.mem_cons.1 hn with h1 | h1
      · rw [← h1]; rfl
      · rw [ih (by simpa using h) h1]
        cases smul a b <;> rfl

/-- **Interpolation never leaves the range of the grid values.** -/
theorem interp_range {w v : List ℚ} {lo hi : ℚ} (hl : w.length = v.length) (hw : ∀ x ∈ w, 0 < x)
    (h1 : w.sum = 1) (hv : ∀ x ∈ v, lo ≤ x ∧ x ≤ hi) : lo ≤ wsum w v ∧ wsum w v ≤ hi := by
  have key : lo * w.sum ≤ wsum w v ∧ wsum w v ≤ hi * w.sum := by
    clear h1
    unfold wsum
    induction w generalizing v with
    | nil => simp
    | cons a w ih =>
      cases v with
      | nil => simp at hl
      | cons b v =>
        have ha := hw a List.mem_cons_self
        have hb := hv b List.mem_cons_self
        have := ih (by simpa using hl) (fun x hx => hw x (List.mem_cons_of_mem _ hx))
          (fun x hx => hv x (List.mem_cons_of_mem _ hx))
        simp only [List.zipWith_cons_cons, List.sum_cons]
        constructor
        · nlinarith [this.1, mul_le_mul_of_nonneg_left hb.1 ha.le]
        · nlinarith [this.2, mul_le_mul_of_nonneg_left hb.2 ha.le]
  rw [h1, mul_one, mul_one] at key
  exact key

theorem mapM_ok {α β} {f : α → Py β} {g : α → β} {l : List α} (h : ∀ a ∈ l, f a = .ok (g a)) :
    l.mapM f = .ok (l.map g) := by
  induction l with
  | nil => rfl
  | cons a t ih =>
    rw [List.mapM_cons, h a List.mem_cons_self, ih fun x hx => h x (List.mem_cons_of_mem _ hx)]
    rfl

/-- grid number `gid` counts from one -/
theorem at_gid {d : List Val} {v : Val} {gid : Int} (h1 : 1 ≤ gid)
    (h : d[(gid - 1).toNat]? = some v) : pyGetI d (gid - 1) = .ok v := by
  unfold pyGetI pyGet
  rw [if_pos (by omega), h]

/-- **Residuals**: the value of each grid point used is the entry of its number, numbered from
one, and the correction is their weighted sum. -/
theorem residual_value {gids : List Int} {w : List ℚ} {d : List Val} {val : Int → ℚ}
    (hl : w.length = gids.length)
    (h : ∀ gid ∈ gids, 1 ≤ gid ∧ d[(gid - 1).toNat]? = some (some (val gid))) :
    residual (.many gids) w d = .ok (some (wsum w (gids.map val))) := by
  unfold residual
  dsimp only
  rw [mapM_ok (g := fun gid => some (val gid)) fun gid hg => at_gid (h gid hg).1 (h gid hg).2]
  simp only [Py.okBind]
  rw [show (gids.map fun gid => some (val gid)) = (gids.map val).map some by
    rw [List.map_map]; rfl]
  exact dot_some (by rw [hl, List.length_map])

/-- **Invalid values**: one grid point used without a value leaves no correction. -/
theorem residual_nan {gids : List Int} {w : List ℚ} {d : List Val} {val : Int → Val} {g : Int}
    (hl : w.length = gids.length)
    (h : ∀ gid ∈ gids, 1 ≤ gid ∧ d[(gid - 1).toNat]? = some (val gid)) (hg : g ∈ gids)
    (hn : val g = none) : residual (.many gids) w d = .ok none := by
  unfold residual
  dsimp only
  rw [mapM_ok (g := val) fun gid hg => at_gid (h gid hg).1 (h gid hg).2]
  simp only [Py.okBind]
  exact dot_nan (by rw [hl, List.length_map]) (List.mem_map.2 ⟨g, hg, hn⟩)

/-- **A single grid point cannot be used**: when the rover is within 5 km of a grid point the
index is a scalar and the residual term raises, whatever the data. -/
theorem residual_single (gid : Int) (w : List ℚ) (d : List Val) :
    ∃ e, residual (.one gid) w d = .error e := by
  unfold residual
  dsimp only
  cases pyGetI d (gid - 1) with
  | error e => exact ⟨e, rfl⟩
  | ok v => exact ⟨.typeError, rfl⟩

/-- a list of numbers as floats -/
def nums (l : List ℚ) : List Val := l.map some

theorem dot4 (a b c d x y : ℚ) : dot [1, x, y, x * y] (nums [a, b, c, d]) =
    .ok (some (a + b * x + c * y + d * (x * y))) := by
  unfold nums
  rw [dot_some (by rfl)]
  unfold wsum
  simp only [List.zipWith_cons_cons, List.zipWith_nil_right, List.sum_cons, List.sum_nil]
  congr 2
  ring

theorem dot3 (a b c x y : ℚ) : dot [1, x, y] (nums [a, b, c]) = .ok (some (a + b * x + c * y)) := by
  unfold nums
  rw [dot_some (by rfl)]
  unfold wsum
  simp only [List.zipWith_cons_cons, List.zipWith_nil_right, List.sum_cons, List.sum_nil]
  congr 2
  ring

theorem dot6 (a b c d e f x y : ℚ) : dot [1, x, y, x * y, x ^ 2, y ^ 2] (nums [a, b, c, d, e, f]) =
    .ok (some (a + b * x + c * y + d * (x * y) + e * x ^ 2 + f * y ^ 2)) := by
  unfold nums
  rw [dot_some (by rfl)]
  unfold wsum
  simp only [List.zipWith_cons_cons, List.zipWith_nil_right, List.sum_cons, List.sum_nil]
  congr 2
  ring

/-- whether the functional and the residual term are present -/
def hasFun (flg : Nat) : Prop := flg / 2 % 2 = 1
def hasRes (flg : Nat) : Prop := flg % 2 = 1

instance (f : Nat) : Decidable (hasFun f) := by unfold hasFun; infer_instance
instance (f : Nat) : Decidable (hasRes f) := by unfold hasRes; infer_instance

theorem bit1 (f : Nat) : f.testBit 1 = true ↔ hasFun f := by
  unfold hasFun
  rw [Nat.testBit_eq_decide_div_mod_eq]
  simp

theorem bit0 (f : Nat) : f.testBit 0 = true ↔ hasRes f := by
  unfold hasRes
  rw [Nat.testBit_eq_decide_div_mod_eq]
  simp

/-- the polynomial of the tropospheric correction -/
def poly4 (c : ℚ × ℚ × ℚ × ℚ) (x y : ℚ) : ℚ := c.1 + c.2.1 * x + c.2.2.1 * y + c.2.2.2 * (x * y)

/-- **Tropospheric correction**: the sum of the terms the network announces, the polynomial in the
offset and the weighted residuals, separately for the hydrostatic and the wet part. -/
theorem trop_value {n : Net} {gids : List Int} {w : List ℚ} {x y : ℚ} {ch cw : ℚ × ℚ × ℚ × ℚ}
    {dth dtw : List Val} {vh vw : Int → ℚ}
    (hct : n.ct = some (nums [ch.1, ch.2.1, ch.2.2.1, ch.2.2.2], nums [cw.1, cw.2.1, cw.2.2.1, cw.2.2.2]))
    (hth : n.dth = some dth) (htw : n.dtw = some dtw) (hl : w.length = gids.length)
    (h : ∀ gid ∈ gids, 1 ≤ gid ∧ dth[(gid - 1).toNat]? = some (some (vh gid)))
    (h' : ∀ gid ∈ gids, 1 ≤ gid ∧ dtw[(gid - 1).toNat]? = some (some (vw gid))) :
    getTrop n (.many gids) w x y = .ok
      (some ((if hasFun n.flgTrop then poly4 ch x y else 0) +
        (if hasRes n.flgTrop then wsum w (gids.map vh) else 0)),
       some ((if hasFun n.flgTrop then poly4 cw x y else 0) +
        (if hasRes n.flgTrop then wsum w (gids.map vw) else 0))) := by
  unfold getTrop tropFun
  rw [hct]
  simp only [dot4, Py.okBind, hth, htw, addRes, residual_value hl h, residual_value hl h']
  by_cases hf : hasFun n.flgTrop <;> by_cases hr : hasRes n.flgTrop
  · rw [if_pos ((bit1 _).2 hf), if_pos hf, if_pos hf]
    simp only [Py.okBind, pure, Except.pure]
    rw [if_pos ((bit0 _).2 hr), if_pos hr, if_pos hr]
    rfl
  · rw [if_pos ((bit1 _).2 hf), if_pos hf, if_pos hf]
    simp only [Py.okBind, pure, Except.pure]
    rw [if_neg (mt (bit0 _).1 hr), if_neg hr, if_neg hr, add_zero, add_zero]
    rfl
  · rw [if_neg (mt (bit1 _).1 hf), if_neg hf, if_neg hf]
    simp only [Py.okBind, pure, Except.pure]
    rw [if_pos ((bit0 _).2 hr), if_pos hr, if_pos hr]
    rfl
  · rw [if_neg (mt (bit1 _).1 hf), if_neg hf, if_neg hf]
    simp only [Py.okBind, pure, Except.pure]
    rw [if_neg (mt (bit0 _).1 hr), if_neg hr, if_neg hr, add_zero]

/-- **No tropospheric correction announced**: both parts are zero. -/
theorem trop_off {n : Net} (h : n.flgTrop % 4 = 0) (ix : Index) (w : List ℚ) (x y : ℚ) :
    getTrop n ix w x y = .ok (some 0, some 0) := by
  have h1 : ¬ hasFun n.flgTrop := by unfold hasFun; omega
  have h2 : ¬ hasRes n.flgTrop := by unfold hasRes; omega
  unfold getTrop tropFun
  rw [if_neg (mt (bit1 _).1 h1)]
  simp only [Py.okBind]
  rw [if_neg (mt (bit0 _).1 h2)]
  rfl

/-- **Within 5 km of a grid point the residual term of the troposphere raises.** -/
theorem trop_single {n : Net} {gid : Int} {d : List Val} (w : List ℚ) (x y : ℚ)
    (h : hasRes n.flgTrop) (hd : n.dth = some d) : ∃ e, getTrop n (.one gid) w x y = .error e := by
  unfold getTrop
  cases tropFun n x y with
  | error e => exact ⟨e, rfl⟩
  | ok v =>
    simp only [Py.okBind]
    rw [if_pos ((bit0 _).2 h), hd]
    obtain ⟨e, he⟩ := residual_single gid w d
    refine ⟨e, ?_⟩
    simp only [addRes, he]
    rfl

/-- the polynomial of the slant ionospheric correction of a satellite -/
def poly6 (c : List ℚ) (x y : ℚ) : ℚ :=
  c.getD 0 0 + c.getD 1 0 * x + c.getD 2 0 * y + c.getD 3 0 * (x * y) + c.getD 4 0 * x ^ 2 +
    c.getD 5 0 * y ^ 2

/-- **Slant ionospheric correction**: for every satellite of the network, in its order, the sum of
the terms announced: the polynomial of three or six coefficients and the weighted residuals. -/
theorem stec_value {n : Net} {gids : List Int} {w : List ℚ} {x y : ℚ} {c : Int → List ℚ}
    {d : Int → List Val} {v : Int → Int → ℚ} (hl : w.length = gids.length)
    (hc : ∀ sat ∈ n.satN, Dict.get? n.ci sat = some (nums (c sat)) ∧ ((c sat).length = 3 ∨ (c sat).length = 6))
    (hd : ∀ sat ∈ n.satN, Dict.get? n.dstec sat = some (d sat))
    (h : ∀ sat ∈ n.satN, ∀ gid ∈ gids, 1 ≤ gid ∧ (d sat)[(gid - 1).toNat]? = some (some (v sat gid))) :
    getStec n (.many gids) w x y = .ok (n.satN.map fun sat =>
      some ((if hasFun n.flgStec then poly6 (c sat) x y else 0) +
        (if hasRes n.flgStec then wsum w (gids.map (v sat)) else 0))) := by
  unfold getStec
  refine mapM_ok fun sat hs => ?_
  have hp : (do
      let ci ← Dict.getItem n.ci sat
      if ci.length = 3 then dot [1, x, y] ci
      else dot [1, x, y, x * y, x ^ 2, y ^ 2] ci) = (.ok (some (poly6 (c sat) x y)) : Py Val) := by
    rw [(Dict.getItem_ok_iff _ _ _).2 (hc sat hs).1]
    simp only [Py.okBind]
    rcases (hc sat hs).2 with h3 | h6
    · rw [if_pos (by unfold nums; rw [List.length_map]; exact h3)]
      match hcs : c sat, h3 with
      | [a, b, e], _ =>
        rw [dot3]
        simp [poly6]
    · rw [if_neg (by unfold nums; rw [List.length_map]; omega)]
      match hcs : c sat, h6 with
      | [a, b, e, f, g, i], _ =>
        rw [dot6]
        simp [poly6]
  unfold stecSat stecFun
  rw [hp, (Dict.getItem_ok_iff _ _ _).2 (hd sat hs)]
  simp only [Py.okBind, residual_value hl (h sat hs)]
  by_cases hf : hasFun n.flgStec <;> by_cases hr : hasRes n.flgStec
  · rw [if_pos ((bit1 _).2 hf), if_pos hf]
    simp only [Py.okBind, pure, Except.pure]
    rw [if_pos ((bit0 _).2 hr), if_pos hr]
    rfl
  · rw [if_pos ((bit1 _).2 hf), if_pos hf]
    simp only [Py.okBind, pure, Except.pure]
    rw [if_neg (mt (bit0 _).1 hr), if_neg hr, add_zero]
  · rw [if_neg (mt (bit1 _).1 hf), if_neg hf]
    simp only [Py.okBind, pure, Except.pure]
    rw [if_pos ((bit0 _).2 hr), if_pos hr]
    rfl
  · rw [if_neg (mt (bit1 _).1 hf), if_neg hf]
    simp only [Py.okBind, pure, Except.pure]
    rw [if_neg (mt (bit0 _).1 hr), if_neg hr, add_zero]

/-- **Within 5 km of a grid point the residual term of the ionosphere raises** as soon as the
network has a satellite. -/
theorem stec_single {n : Net} {gid : Int} {sat : Int} {t : List Int} (w : List ℚ) (x y : ℚ)
    (h : hasRes n.flgStec) (hs : n.satN = sat :: t) : ∃ e, getStec n (.one gid) w x y = .error e := by
  unfold getStec
  rw [hs, List.mapM_cons]
  have : ∃ e, stecSat n (.one gid) w x y sat = .error e := by
    unfold stecSat
    cases stecFun n sat x y with
    | error e => exact ⟨e, rfl⟩
    | ok v =>
      simp only [Py.okBind]
      rw [if_pos ((bit0 _).2 h)]
      cases Dict.getItem n.dstec sat with
      | error e => exact ⟨e, rfl⟩
      | ok d =>
        obtain ⟨e, he⟩ := residual_single gid w d
        simp only [Py.okBind, he]
        exact ⟨e, rfl⟩
  obtain ⟨e, he⟩ := this
  rw [he]
  exact ⟨e, rfl⟩

/-- **The offset is taken from the first point of the network** in the order of the table. -/
theorem dpos_first {g pre post : List Pt} {p : Pt} (lat lon : ℚ) (hg : g = pre ++ p :: post)
    (hno : ∀ q ∈ pre, q.nid ≠ p.nid) :
    getDpos g p.nid lat lon = .ok (lat - p.lat, lon - p.lon) := by
  unfold getDpos
  have : (g.filter fun q => q.nid = p.nid) = p :: (post.filter fun q => q.nid = p.nid) := by
    rw [hg, List.filter_append, List.filter_cons]
    have : (pre.filter fun q => decide (q.nid = p.nid)) = [] :=
      List.filter_eq_nil_iff.2 fun q hq => by simpa using hno q hq
    rw [this]
    simp
  rw [this]

/-! ## A concrete case -/

/-- an insertion sort by distance -/
def ins (p : Pt) : List Pt → List Pt
  | [] => [p]
  | q :: t => if p.r ≤ q.r then p :: q :: t else q :: ins p t

def isort (l : List Pt) : List Pt := l.foldr ins []

theorem ins_perm (p : Pt) (l : List Pt) : (ins p l).Perm (p :: l) := by
  induction l with
  | nil => exact List.Perm.refl _
  | cons q t ih =>
    unfold ins
    split_ifs
    · exact List.Perm.refl _
    · exact (ih.cons q).trans (List.Perm.swap _ _ _)

theorem ins_sorted {p : Pt} {l : List Pt} (h : l.Pairwise fun a b => a.r ≤ b.r) :
    (ins p l).Pairwise fun a b => a.r ≤ b.r := by
  induction l with
  | nil => simp [ins]
  | cons q t ih =>
    unfold ins
    obtain ⟨h1, h2⟩ := List.pairwise_cons.1 h
    split_ifs with hc
    · refine List.pairwise_cons.2 ⟨fun x hx => ?_, h⟩
      rcases List.mem_cons.1 hx with rfl | hx
      · exact hc
      · exact le_trans hc (h1 x hx)
    · refine List.pairwise_cons.2 ⟨fun x hx => ?_, ih h2⟩
      rcases List.mem_cons.1 ((ins_perm p t).mem_iff.1 hx) with rfl | hx
      · exact (not_le.1 hc).le
      · exact h1 x hx

/-- the hypothesis on the sort can be met -/
theorem isort_sorts : Sorts isort := by
  intro l
  induction l with
  | nil => exact ⟨List.Perm.refl _, List.Pairwise.nil⟩
  | cons p t ih =>
    exact ⟨(ins_perm p (isort t)).trans (ih.1.cons p), ins_sorted ih.2⟩

/-- five points of network 7 and a far one of network 3; the rover at the origin -/
def tbl : List Pt :=
  [⟨3, 1, 30, 130, 90000, 90000, 127279⟩, ⟨7, 1, 35, 135, -6000, -8000, 10000⟩,
   ⟨7, 2, 35, 136, 12000, -16000, 20000⟩, ⟨7, 3, 36, 135, -15000, 20000, 25000⟩,
   ⟨7, 4, 34, 134, -24000, -32000, 40000⟩, ⟨7, 5, 36, 136, 30000, 40000, 50000⟩]

example : findGridIndex isort tbl =
    .ok ⟨7, 4, .many [1, 2, 3, 5], [100 / 210, 50 / 210, 40 / 210, 20 / 210]⟩ := by
  decide +kernel

example : tbl ≠ [] ∧ ∀ q ∈ tbl, 5000 ≤ q.r := by decide +kernel

example : getTrop ⟨3, some (nums [2, 1, 0, 0], nums [1, 0, 0, 0]), some (nums [1, 2, 3, 4, 5]),
      some (nums [0, 0, 0, 0, 21]), 0, [], [], []⟩
    (.many [1, 2, 3, 5]) [100 / 210, 50 / 210, 40 / 210, 20 / 210] 3 5 =
    .ok (some (5 + 420 / 210), some (1 + 2)) := by decide +kernel

end Verif.C82
