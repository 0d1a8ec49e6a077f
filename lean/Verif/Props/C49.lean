import Verif.Model.Sdres
import Verif.Lemmas.Post
import Mathlib.LinearAlgebra.Matrix.PosDef
import Mathlib.Data.Real.Basic
import Mathlib.Analysis.RCLike.Basic
import Mathlib.Algebra.Order.BigOperators.Group.List
import Mathlib.Algebra.Order.Star.Real
import Mathlib.Tactic.Abel
import Mathlib.Tactic.Linarith
import Mathlib.Tactic.Positivity
import Mathlib.Tactic.NormNum
/-!
# C49  Measurement covariance and filter update preserve symmetry and positivity
-/

namespace Verif.C49
open Verif.Sd Verif.Sat Matrix

/-! ### Part 1: the filter update -/

section kalman

variable {n m : Type} [Fintype n] [DecidableEq n] [Fintype m] [DecidableEq m]

/-- completing the square -/
theorem joseph_split (P : Matrix n n ℝ) (H : Matrix m n ℝ) (R : Matrix m m ℝ) (G K : Matrix n m ℝ)
    (hP : Pᵀ = P) (hR : Rᵀ = R) (hK : K * innov P H R = P * Hᵀ) :
    joseph P H R G = P - K * innov P H R * Kᵀ +
      (G - K) * innov P H R * (G - K)ᵀ := by
  have hS : (innov P H R)ᵀ = innov P H R := by
    unfold innov
    simp only [transpose_add, transpose_mul, transpose_transpose, hP, hR, Matrix.mul_assoc]
  have hK' : innov P H R * Kᵀ = H * P := by
    have := congrArg transpose hK
    simpa only [transpose_mul, transpose_transpose, hP, hS] using this
  have e1 : (G - K) * innov P H R * (G - K)ᵀ =
      G * innov P H R * Gᵀ - G * (H * P) - P * Hᵀ * Gᵀ + K * innov P H R * Kᵀ := by
    rw [transpose_sub, Matrix.sub_mul, Matrix.sub_mul, Matrix.mul_sub, Matrix.mul_sub,
      Matrix.mul_assoc G (innov P H R) Kᵀ, hK', Matrix.mul_assoc K (innov P H R) Gᵀ,
      ← Matrix.mul_assoc K (innov P H R) Gᵀ, hK]
    abel
  rw [e1]
  unfold joseph innov
  simp only [transpose_sub, transpose_one, transpose_mul, Matrix.sub_mul, Matrix.mul_sub,
    Matrix.one_mul, Matrix.mul_one, Matrix.mul_add, Matrix.add_mul, Matrix.mul_assoc]
  abel

/-- **Any gain**: the Joseph form maps a symmetric positive semidefinite covariance to one. -/
theorem joseph_psd (P : Matrix n n ℝ) (H : Matrix m n ℝ) (R : Matrix m m ℝ) (G : Matrix n m ℝ)
    (hP : P.PosSemidef) (hR : R.PosSemidef) : (joseph P H R G).PosSemidef := by
  unfold joseph
  have a := hP.mul_mul_conjTranspose_same (1 - G * H)
  have b := hR.mul_mul_conjTranspose_same G
  rw [conjTranspose_eq_transpose_of_trivial] at a b
  exact a.add b

theorem innov_posDef (P : Matrix n n ℝ) (H : Matrix m n ℝ) (R : Matrix m m ℝ)
    (hP : P.PosSemidef) (hR : R.PosDef) : (innov P H R).PosDef := by
  unfold innov
  have a := hP.mul_mul_conjTranspose_same H
  rw [conjTranspose_eq_transpose_of_trivial, Matrix.mul_assoc] at a
  exact PosDef.posSemidef_add a hR

open Classical in
/-- **Filter update**: for a symmetric positive semidefinite covariance and a positive definite
measurement covariance the update succeeds; the new covariance is symmetric positive semidefinite,
not larger than the old one, equals `(I-KH)P`, and is the smallest any gain `G` can give. -/
theorem update (x : n → ℝ) (P : Matrix n n ℝ) (H : Matrix m n ℝ) (v : m → ℝ) (R : Matrix m m ℝ)
    (hP : P.PosSemidef) (hR : R.PosDef) :
    ∃ x' P' S, kfupdate x P H v R = some (x', P', S) ∧
      S.PosDef ∧ P'.PosSemidef ∧ (P - P').PosSemidef ∧
      P' = (1 - P * Hᵀ * S⁻¹ * H) * P ∧
      (∀ G, (joseph P H R G - P').PosSemidef) ∧
      x' = x + P *ᵥ (Hᵀ *ᵥ (S⁻¹ *ᵥ v)) := by
  have hSd := innov_posDef P H R hP hR
  have hunit : IsUnit (innov P H R) := hSd.isUnit
  have hdet : (innov P H R).det ≠ 0 := by
    rw [isUnit_iff_isUnit_det] at hunit
    exact hunit.ne_zero
  have hK : gain P H R * innov P H R = P * Hᵀ := by
    unfold gain
    rw [Matrix.mul_assoc, Matrix.nonsing_inv_mul _ (isUnit_iff_ne_zero.2 hdet), Matrix.mul_one]
  have hPt : Pᵀ = P := by
    have := hP.isHermitian
    rwa [IsHermitian, conjTranspose_eq_transpose_of_trivial] at this
  have hRt : Rᵀ = R := by
    have := hR.isHermitian
    rwa [IsHermitian, conjTranspose_eq_transpose_of_trivial] at this
  have hSt : (innov P H R)ᵀ = innov P H R := by
    have := hSd.isHermitian
    rwa [IsHermitian, conjTranspose_eq_transpose_of_trivial] at this
  have hj : joseph P H R (gain P H R) =
      P - gain P H R * innov P H R * (gain P H R)ᵀ := by
    rw [joseph_split P H R (gain P H R) (gain P H R) hPt hRt hK]
    simp
  refine ⟨_, _, _, by unfold kfupdate; rw [if_neg hdet], hSd, joseph_psd P H R _ hP hR.posSemidef,
    ?_, ?_, ?_, ?_⟩
  · rw [hj, sub_sub_cancel]
    have := hSd.posSemidef.mul_mul_conjTranspose_same (gain P H R)
    rwa [conjTranspose_eq_transpose_of_trivial] at this
  · rw [hj, Matrix.mul_assoc]
    have hK' : innov P H R * (gain P H R)ᵀ = H * P := by
      have := congrArg transpose hK
      simpa only [transpose_mul, transpose_transpose, hPt, hSt] using this
    rw [hK', Matrix.sub_mul, Matrix.one_mul, ← Matrix.mul_assoc]
    rfl
  · intro G
    rw [joseph_split P H R G (gain P H R) hPt hRt hK, hj, add_sub_cancel_left]
    have := hSd.posSemidef.mul_mul_conjTranspose_same (G - gain P H R)
    rwa [conjTranspose_eq_transpose_of_trivial] at this
  · unfold gain
    simp only [Matrix.mulVec_mulVec, Matrix.mul_assoc]

end kalman

/-! ### Part 2: which differences are formed -/

section differences

variable {K : Type} [Field K] [LinearOrder K]

/-- the reference satellite of a constellation: the first of those with the highest elevation -/
def IsRef (v : In K) (m : Sys) (i : Nat) : Prop :=
  sysAt v i = some m ∧ (∀ k, sysAt v k = some m → v.el k ≤ v.el i) ∧
    ∀ k, k < i → sysAt v k = some m → v.el k < v.el i

theorem argmax_spec (el : Nat → K) (b : Nat) (l : List Nat) (hs : (b :: l).Pairwise (· < ·)) :
    argmax el b l ∈ b :: l ∧ (∀ k ∈ b :: l, el k ≤ el (argmax el b l)) ∧
      ∀ k ∈ b :: l, k < argmax el b l → el k < el (argmax el b l) := by
  induction l generalizing b with
  | nil => simp [argmax]
  | cons c l ih =>
    rw [List.pairwise_cons] at hs
    unfold argmax
    by_cases h : el b < el c
    · rw [if_pos h]
      obtain ⟨h1, h2, h3⟩ := ih c hs.2
      refine ⟨List.mem_cons_of_mem _ h1, ?_, ?_⟩
      · intro k hk
        rcases List.mem_cons.1 hk with rfl | hk
        · exact h.le.trans (h2 c (by simp))
        · exact h2 k hk
      · intro k hk hlt
        rcases List.mem_cons.1 hk with rfl | hk
        · exact h.trans_le (h2 c (by simp))
        · exact h3 k hk hlt
    · rw [if_neg h]
      have hbl : (b :: l).Pairwise (· < ·) := by
        rw [List.pairwise_cons]
        exact ⟨fun k hk => hs.1 k (by simp [hk]), (List.pairwise_cons.1 hs.2).2⟩
      obtain ⟨h1, h2, h3⟩ := ih b hbl
      push Not at h
      refine ⟨?_, ?_, ?_⟩
      · rcases List.mem_cons.1 h1 with e | e
        · rw [e]; simp
        · simp [e]
      · intro k hk
        rcases List.mem_cons.1 hk with rfl | hk
        · exact h2 _ (by simp)
        · rcases List.mem_cons.1 hk with rfl | hk
          · exact h.trans (h2 b (by simp))
          · exact h2 k (by simp [hk])
      · intro k hk hlt
        rcases List.mem_cons.1 hk with rfl | hk
        · exact h3 _ (by simp) hlt
        · rcases List.mem_cons.1 hk with rfl | hk
          · -- the maximum lies beyond `c`, hence beyond `b`
            have hb : b < argmax el b l := (hs.1 k (by simp)).trans hlt
            exact h.trans_lt (h3 b (by simp) hb)
          · exact h3 k (by simp [hk]) hlt

theorem sysAt_lt {v : In K} {k : Nat} {m : Sys} (h : sysAt v k = some m) : k < v.sat.length := by
  unfold sysAt at h
  by_contra hc
  rw [List.getElem?_eq_none (by omega)] at h
  cases h

theorem mem_sysidx (v : In K) (m : Sys) (k : Nat) : k ∈ sysidx v m ↔ sysAt v k = some m := by
  unfold sysidx
  rw [List.mem_filter, List.mem_range, decide_eq_true_iff]
  exact ⟨fun h => h.2, fun h => ⟨sysAt_lt h, h⟩⟩

theorem sysidx_sorted (v : In K) (m : Sys) : (sysidx v m).Pairwise (· < ·) :=
  List.Pairwise.filter _ List.pairwise_lt_range

theorem isRef_unique {v : In K} {m : Sys} {i i' : Nat} (h : IsRef v m i) (h' : IsRef v m i') :
    i = i' := by
  rcases Nat.lt_trichotomy i i' with hl | hl | hl
  · exact absurd (h.2.1 i' h'.1) (not_le.2 (h'.2.2 i hl h.1))
  · exact hl
  · exact absurd (h'.2.1 i h.1) (not_le.2 (h.2.2 i' hl h'.1))

/-- what is known of a difference: two satellites of one constellation, one of them its reference,
neither measurement missing, the other not edited -/
structure Diff (v : In K) (m : Sys) (f : Nat) (r : Row) : Prop where
  ref : IsRef v m r.i
  sys : sysAt v r.j = some m
  ne : r.j ≠ r.i
  freq : r.f = f
  yi : v.y r.i f ≠ 0
  yj : v.y r.j f ≠ 0
  edt : v.edt r.j = false

theorem groupRows_spec (v : In K) (m : Sys) (f : Nat) :
    if sysidx v m = [] then groupRows v m f = none
    else ∃ rs, groupRows v m f = some rs ∧ (∀ r, r ∈ rs ↔ Diff v m f r) ∧
      rs.Pairwise (fun a b => a.j < b.j) ∧ rs.length < (sysidx v m).length := by
  cases hs : sysidx v m with
  | nil => simp [groupRows, hs]
  | cons k ks =>
    rw [if_neg (by simp)]
    have hso := sysidx_sorted v m
    rw [hs] at hso
    obtain ⟨h1, h2, h3⟩ := argmax_spec v.el k ks hso
    have hmem : ∀ x, x ∈ k :: ks ↔ sysAt v x = some m := by
      intro x; rw [← hs]; exact mem_sysidx v m x
    have href : IsRef v m (argmax v.el k ks) :=
      ⟨(hmem _).1 h1, fun x hx => h2 x ((hmem x).2 hx), fun x hlt hx => h3 x ((hmem x).2 hx) hlt⟩
    refine ⟨_, by unfold groupRows; rw [hs], ?_, ?_, ?_⟩
    · intro r
      rw [List.mem_map]
      constructor
      · rintro ⟨j, hj, rfl⟩
        rw [List.mem_filter, decide_eq_true_iff] at hj
        obtain ⟨hj, hn⟩ := hj
        push Not at hn
        exact ⟨href, (hmem j).1 hj, fun e => hn.2.2.2 e.symm, rfl, hn.2.1, hn.2.2.1, by
          simpa using hn.1⟩
      · rintro ⟨a, b, c, d, e, g, h⟩
        have hi : r.i = argmax v.el k ks := isRef_unique a href
        refine ⟨r.j, ?_, ?_⟩
        · rw [List.mem_filter, decide_eq_true_iff, ← hi]
          refine ⟨(hmem _).2 b, ?_⟩
          push Not
          exact ⟨by simp [h], e, g, fun e => c e.symm⟩
        · rw [← hi, ← d]
    · rw [List.pairwise_map]
      exact hso.filter _
    · rw [List.length_map]
      apply List.length_filter_lt_length_iff_exists.2
      exact ⟨_, h1, by simp⟩

/-- the groups in processing order -/
def groups (v : In K) : List (Sys × Nat) :=
  v.keys.flatMap fun m => (List.range (v.nf * 2)).map fun f => (m, f)

/-- the differences of a group -/
def rowsOf (v : In K) (mf : Sys × Nat) : List Row := (groupRows v mf.1 mf.2).getD []

theorem mem_rowsOf (v : In K) (mf : Sys × Nat) (r : Row) : r ∈ rowsOf v mf ↔ Diff v mf.1 mf.2 r := by
  have h := groupRows_spec v mf.1 mf.2
  unfold rowsOf
  by_cases hs : sysidx v mf.1 = []
  · rw [if_pos hs] at h
    rw [h]
    constructor
    · intro hr; cases hr
    · intro hd
      have := (mem_sysidx v mf.1 r.j).2 hd.sys
      rw [hs] at this
      cases this
  · rw [if_neg hs] at h
    obtain ⟨rs, e, h1, _⟩ := h
    rw [e]
    exact h1 r

theorem rowsOf_nodup (v : In K) (mf : Sys × Nat) : (rowsOf v mf).Nodup := by
  have h := groupRows_spec v mf.1 mf.2
  unfold rowsOf
  by_cases hs : sysidx v mf.1 = []
  · rw [if_pos hs] at h
    rw [h]; simp
  · rw [if_neg hs] at h
    obtain ⟨rs, e, _, h2, _⟩ := h
    rw [e]
    exact h2.imp (fun hab e => by subst e; exact Nat.lt_irrefl _ hab)

theorem rowsOf_length (v : In K) (mf : Sys × Nat) :
    (rowsOf v mf).length ≤ (sysidx v mf.1).length := by
  have h := groupRows_spec v mf.1 mf.2
  unfold rowsOf
  by_cases hs : sysidx v mf.1 = []
  · rw [if_pos hs] at h
    rw [h]; simp
  · rw [if_neg hs] at h
    obtain ⟨rs, e, _, _, h3⟩ := h
    rw [e]
    exact h3.le

theorem sysidx_sum (v : In K) (keys : List Sys) (hk : keys.Nodup) :
    (keys.map fun m => (sysidx v m).length).sum ≤ v.sat.length := by
  have : (keys.map fun m => (sysidx v m).length).sum = (keys.flatMap (sysidx v)).length := by
    rw [List.length_flatMap]
  rw [this]
  have hnd : (keys.flatMap (sysidx v)).Nodup := by
    rw [List.nodup_flatMap]
    refine ⟨fun m _ => (sysidx_sorted v m).imp (fun h => Nat.ne_of_lt h), hk.imp ?_⟩
    intro a b hab x hx hy
    rw [mem_sysidx] at hx hy
    rw [hx] at hy
    exact hab (Option.some.inj hy)
  have hsub : keys.flatMap (sysidx v) ⊆ List.range v.sat.length := by
    intro x hx
    obtain ⟨m, _, hm⟩ := List.mem_flatMap.1 hx
    exact List.mem_range.2 (sysAt_lt ((mem_sysidx v m x).1 hm))
  have := (List.subperm_of_subset hnd hsub).length_le
  simpa using this

theorem rows_total (v : In K) (hk : v.keys.Nodup) :
    ((groups v).flatMap (rowsOf v)).length ≤ v.sat.length * v.nf * 2 := by
  have h1 : ∀ keys : List Sys, ((keys.flatMap fun m => (List.range (v.nf * 2)).map fun f =>
      (m, f)).flatMap (rowsOf v)).length ≤
      (keys.map fun m => (sysidx v m).length).sum * (v.nf * 2) := by
    intro keys
    induction keys with
    | nil => simp
    | cons m keys ih =>
      rw [List.flatMap_cons, List.flatMap_append, List.length_append, List.map_cons, List.sum_cons,
        Nat.add_mul]
      refine Nat.add_le_add ?_ ih
      have : ∀ n, (((List.range n).map fun f => (m, f)).flatMap (rowsOf v)).length ≤
          (sysidx v m).length * n := by
        intro n
        induction n with
        | zero => simp
        | succ n ihn =>
          rw [List.range_succ, List.map_append, List.flatMap_append, List.length_append]
          simp only [List.map_cons, List.map_nil, List.flatMap_cons, List.flatMap_nil,
            List.append_nil]
          have := rowsOf_length v (m, n)
          simp only at this
          rw [Nat.mul_succ]
          omega
      exact this _
  refine (h1 v.keys).trans ?_
  rw [Nat.mul_assoc]
  exact Nat.mul_le_mul_right _ (sysidx_sum v v.keys hk)

/-- the groups that count: those with satellites -/
def live (v : In K) (gs : List (Sys × Nat)) : List (Sys × Nat) :=
  gs.filter fun g => decide (sysidx v g.1 ≠ [])

theorem sdres_fold (v : In K) (gs : List (Sys × Nat)) (nb : List Nat) (rows : List Row)
    (h1 : nb.length + gs.length ≤ 2 * v.keys.length * v.nf)
    (h2 : rows.length + (gs.flatMap (rowsOf v)).length ≤ v.sat.length * v.nf * 2) :
    gs.foldlM (sdGroup v) (nb, rows) =
      .ok (nb ++ (live v gs).map fun g => (rowsOf v g).length, rows ++ gs.flatMap (rowsOf v)) := by
  induction gs generalizing nb rows with
  | nil => simp [live]; rfl
  | cons g gs ih =>
    simp only [List.length_cons, List.flatMap_cons, List.length_append] at h1 h2
    have h := groupRows_spec v g.1 g.2
    by_cases hs : sysidx v g.1 = []
    · rw [if_pos hs] at h
      have hr : rowsOf v g = [] := by unfold rowsOf; rw [h]; rfl
      have hg : sdGroup v (nb, rows) g = .ok (nb, rows) := by unfold sdGroup; rw [h]
      rw [List.foldlM_cons, hg, Py.okBind, ih nb rows (by omega) (by omega)]
      simp [live, hs, hr]
    · rw [if_neg hs] at h
      obtain ⟨rs, e, _⟩ := h
      have hr : rowsOf v g = rs := by unfold rowsOf; rw [e]; rfl
      have hg : sdGroup v (nb, rows) g = .ok (nb ++ [rs.length], rows ++ rs) := by
        unfold sdGroup
        rw [e]
        simp only
        rw [if_pos ⟨.inr (by omega), by rw [hr] at h2; omega⟩]
      rw [List.foldlM_cons, hg, Py.okBind, ih _ _ (by
        rw [List.length_append, List.length_singleton]; omega) (by
        rw [List.length_append]; rw [hr] at h2; omega)]
      simp [live, hs, hr]

omit [Field K] [LinearOrder K] in
theorem groups_length (v : In K) : (groups v).length = 2 * v.keys.length * v.nf := by
  unfold groups
  rw [List.length_flatMap]
  simp only [List.length_map, List.length_range]
  induction v.keys with
  | nil => simp
  | cons m ks ih =>
    simp only [List.map_cons, List.sum_cons, List.length_cons, ih]
    ring

/-- **Differences**: `sdres` never overruns its vectors; it forms, group by group, exactly the
differences against the reference satellite. -/
theorem differences (v : In K) (hk : v.keys.Nodup) :
    sdres v = .ok ((live v (groups v)).map fun g => (rowsOf v g).length,
      (groups v).flatMap (rowsOf v)) := by
  unfold sdres
  rw [show (v.keys.flatMap fun m => (List.range (v.nf * 2)).map fun f => (m, f)) = groups v from rfl,
    sdres_fold v (groups v) [] [] (by rw [groups_length]; simp) (by
      simpa using rows_total v hk)]
  simp

end differences

/-! ### Part 3: the covariance -/

section covariance

variable {K : Type} [Field K] [LinearOrder K]

theorem ddElem_get (ri rj : Nat → K) (k i j : Nat) (R : Nat → Nat → K) (p q : Nat) :
    ddElem ri rj k i j R p q =
      if p = k + i ∧ q = k + j then (if i = j then ri p + rj p else ri p) else R p q := by
  unfold ddElem
  by_cases hij : i = j
  · subst hij
    simp only [if_true, upd2, and_self]
    by_cases h : p = k + i ∧ q = k + i
    · rw [if_pos h, if_pos h, h.1]
    · rw [if_neg h, if_neg h, if_neg h]
  · simp only [if_neg hij, upd2]
    by_cases h : p = k + i ∧ q = k + j
    · rw [if_pos h, if_pos h, h.1]
    · rw [if_neg h, if_neg h]

theorem ddRow_get (ri rj : Nat → K) (k i n : Nat) (R : Nat → Nat → K) (p q : Nat) :
    ((List.range n).foldl (fun R j => ddElem ri rj k i j R) R) p q =
      if p = k + i ∧ k ≤ q ∧ q < k + n then (if p = q then ri p + rj p else ri p) else R p q := by
  induction n with
  | zero =>
    rw [if_neg (by omega)]; rfl
  | succ n ih =>
    rw [List.range_succ, List.foldl_append, List.foldl_cons, List.foldl_nil, ddElem_get, ih]
    by_cases h : p = k + i ∧ q = k + n
    · rw [if_pos h, if_pos (show p = k + i ∧ k ≤ q ∧ q < k + (n + 1) by omega)]
      by_cases hin : i = n
      · rw [if_pos hin, if_pos (show p = q by omega)]
      · rw [if_neg hin, if_neg (show ¬ p = q by omega)]
    · rw [if_neg h]
      by_cases h2 : p = k + i ∧ k ≤ q ∧ q < k + n
      · rw [if_pos h2, if_pos (show p = k + i ∧ k ≤ q ∧ q < k + (n + 1) by omega)]
      · rw [if_neg h2, if_neg (show ¬ (p = k + i ∧ k ≤ q ∧ q < k + (n + 1)) by omega)]

theorem ddBlock_get (ri rj : Nat → K) (k n : Nat) (R : Nat → Nat → K) (p q : Nat) :
    ddBlock ri rj k n R p q =
      if (k ≤ p ∧ p < k + n) ∧ k ≤ q ∧ q < k + n then (if p = q then ri p + rj p else ri p)
      else R p q := by
  unfold ddBlock
  have : ∀ m, ((List.range m).foldl (fun R i => (List.range n).foldl
      (fun R j => ddElem ri rj k i j R) R) R) p q =
      if (k ≤ p ∧ p < k + m) ∧ k ≤ q ∧ q < k + n then (if p = q then ri p + rj p else ri p)
      else R p q := by
    intro m
    induction m with
    | zero => rw [if_neg (by omega)]; rfl
    | succ m ih =>
      rw [List.range_succ, List.foldl_append, List.foldl_cons, List.foldl_nil, ddRow_get, ih]
      by_cases h : p = k + m ∧ k ≤ q ∧ q < k + n
      · rw [if_pos h, if_pos (show (k ≤ p ∧ p < k + (m + 1)) ∧ k ≤ q ∧ q < k + n by omega)]
      · rw [if_neg h]
        by_cases h2 : (k ≤ p ∧ p < k + m) ∧ k ≤ q ∧ q < k + n
        · rw [if_pos h2, if_pos (show (k ≤ p ∧ p < k + (m + 1)) ∧ k ≤ q ∧ q < k + n by omega)]
        · rw [if_neg h2, if_neg (show ¬((k ≤ p ∧ p < k + (m + 1)) ∧ k ≤ q ∧ q < k + n) by omega)]
  exact this n

/-- positions counted from `k` fall into consecutive blocks of the sizes `nb`, and two positions
have the same key exactly when they lie in the same block -/
def Blocks {κ : Type} (key : Nat → κ) : Nat → List Nat → Prop
  | _, [] => True
  | k, n :: ns =>
    (∀ p q, k ≤ p → p < k + n → k ≤ q → q < k + n → key p = key q) ∧
    (∀ p q, p < k → k ≤ q → q < k + n → key p ≠ key q) ∧ Blocks key (k + n) ns

theorem ddcov_fold {κ : Type} [DecidableEq κ] (key : Nat → κ) (ri rj : Nat → K) (nb : List Nat)
    (k : Nat) (R : Nat → Nat → K) (hb : Blocks key k nb)
    (hR : ∀ p q, R p q = if p < k ∧ q < k ∧ key p = key q then
      (if p = q then ri p + rj p else ri p) else 0) (p q : Nat) :
    (nb.foldl (fun (s : (Nat → Nat → K) × Nat) n => (ddBlock ri rj s.2 n s.1, s.2 + n))
      (R, k)).1 p q =
      if p < k + nb.sum ∧ q < k + nb.sum ∧ key p = key q then
        (if p = q then ri p + rj p else ri p) else 0 := by
  induction nb generalizing k R with
  | nil => simpa using hR p q
  | cons n ns ih =>
    obtain ⟨h1, h2, h3⟩ := hb
    rw [List.foldl_cons, List.sum_cons, ← Nat.add_assoc]
    refine ih (k + n) _ h3 ?_
    intro p q
    simp only
    rw [ddBlock_get]
    by_cases hin : (k ≤ p ∧ p < k + n) ∧ k ≤ q ∧ q < k + n
    · rw [if_pos hin, if_pos (c := p < k + n ∧ q < k + n ∧ key p = key q) ⟨hin.1.2, hin.2.2, h1 p q hin.1.1 hin.1.2 hin.2.1 hin.2.2⟩]
    · rw [if_neg hin, hR]
      by_cases hlt : p < k ∧ q < k ∧ key p = key q
      · rw [if_pos hlt, if_pos (c := p < k + n ∧ q < k + n ∧ key p = key q)
          ⟨by omega, by omega, hlt.2.2⟩]
      · rw [if_neg hlt, if_neg]
        rintro ⟨a, b, c⟩
        by_cases hp : p < k
        · by_cases hq : q < k
          · exact hlt ⟨hp, hq, c⟩
          · exact h2 p q hp (by omega) b c
        · by_cases hq : q < k
          · exact h2 q p hq (by omega) a c.symm
          · exact hin ⟨⟨by omega, a⟩, by omega, b⟩

/-- the key of a difference: its reference and its signal -/
def keyOf (rows : List Row) (p : Nat) : Option (Nat × Nat) := rows[p]?.map fun r => (r.i, r.f)

theorem diff_group {v : In K} {g g' : Sys × Nat} {r r' : Row} (h : Diff v g.1 g.2 r)
    (h' : Diff v g'.1 g'.2 r') (hi : (r.i, r.f) = (r'.i, r'.f)) : g = g' := by
  simp only [Prod.mk.injEq] at hi
  have a := h.ref.1
  have b := h'.ref.1
  rw [hi.1] at a
  rw [a] at b
  refine Prod.ext (Option.some.inj b) ?_
  rw [← h.freq, ← h'.freq, hi.2]

theorem blocks_rows (v : In K) (gs done : List (Sys × Nat)) (hnd : (done ++ gs).Nodup)
    (rest : List Row) :
    Blocks (keyOf ((done ++ gs).flatMap (rowsOf v) ++ rest)) (done.flatMap (rowsOf v)).length
      ((live v gs).map fun g => (rowsOf v g).length) := by
  induction gs generalizing done with
  | nil => trivial
  | cons g gs ih =>
    have hgd : g ∉ done := by
      rw [List.nodup_append] at hnd
      intro hd
      exact hnd.2.2 g hd g (by simp) rfl
    have ih' := ih (done ++ [g]) (by simpa using hnd)
    have hlen : ((done ++ [g]).flatMap (rowsOf v)).length =
        (done.flatMap (rowsOf v)).length + (rowsOf v g).length := by simp
    rw [List.append_assoc, List.singleton_append, hlen] at ih'
    by_cases hs : sysidx v g.1 = []
    · have hl : live v (g :: gs) = live v gs := by simp [live, hs]
      have hr : rowsOf v g = [] := by
        have := rowsOf_length v g
        rw [hs] at this
        exact List.length_eq_zero_iff.1 (by simpa using this)
      rw [hl]
      rw [hr] at ih'
      simpa using ih'
    · have hl : live v (g :: gs) = g :: live v gs := by simp [live, hs]
      rw [hl, List.map_cons]
      have split : (done ++ g :: gs).flatMap (rowsOf v) ++ rest =
          done.flatMap (rowsOf v) ++ (rowsOf v g ++ (gs.flatMap (rowsOf v) ++ rest)) := by
        simp [List.flatMap_append, List.append_assoc]
      have key_in : ∀ p, (done.flatMap (rowsOf v)).length ≤ p →
          p < (done.flatMap (rowsOf v)).length + (rowsOf v g).length →
          ∃ r, Diff v g.1 g.2 r ∧
            keyOf ((done ++ g :: gs).flatMap (rowsOf v) ++ rest) p = some (r.i, r.f) := by
        intro p h1 h2
        have hlt : p - (done.flatMap (rowsOf v)).length < (rowsOf v g).length := by omega
        refine ⟨(rowsOf v g)[p - (done.flatMap (rowsOf v)).length],
          (mem_rowsOf v g _).1 (List.getElem_mem _), ?_⟩
        unfold keyOf
        rw [split, List.getElem?_append_right h1, List.getElem?_append_left hlt,
          List.getElem?_eq_getElem hlt]
        rfl
      have key_before : ∀ p, p < (done.flatMap (rowsOf v)).length →
          ∃ g' r, g' ∈ done ∧ Diff v g'.1 g'.2 r ∧
            keyOf ((done ++ g :: gs).flatMap (rowsOf v) ++ rest) p = some (r.i, r.f) := by
        intro p h1
        have hm := List.getElem_mem h1
        obtain ⟨g', hg', hr⟩ := List.mem_flatMap.1 hm
        refine ⟨g', _, hg', (mem_rowsOf v g' _).1 hr, ?_⟩
        unfold keyOf
        rw [split, List.getElem?_append_left h1, List.getElem?_eq_getElem h1]
        rfl
      refine ⟨?_, ?_, ih'⟩
      · intro p q a b c d
        obtain ⟨r, hr, e⟩ := key_in p a b
        obtain ⟨r', hr', e'⟩ := key_in q c d
        rw [e, e', isRef_unique hr.ref hr'.ref, hr.freq, hr'.freq]
      · intro p q a b c e
        obtain ⟨g', r, hg', hr, e1⟩ := key_before p a
        obtain ⟨r', hr', e2⟩ := key_in q b c
        rw [e1, e2] at e
        have := diff_group hr hr' (Option.some.inj e)
        subst this
        exact hgd hg'

theorem groups_nodup (v : In K) (hk : v.keys.Nodup) : (groups v).Nodup := by
  unfold groups
  rw [List.nodup_flatMap]
  refine ⟨fun m _ => List.nodup_range.map (fun a b h => by simpa using h), hk.imp ?_⟩
  intro a b hab x hx hy
  simp only [List.mem_map] at hx hy
  obtain ⟨f, _, e⟩ := hx
  obtain ⟨f', _, e'⟩ := hy
  rw [← e] at e'
  exact hab (congrArg Prod.fst e').symm

theorem rows_nodup (v : In K) (hk : v.keys.Nodup) : ((groups v).flatMap (rowsOf v)).Nodup := by
  rw [List.nodup_flatMap]
  refine ⟨fun g _ => rowsOf_nodup v g, (groups_nodup v hk).imp ?_⟩
  intro g g' hgg r hr hr'
  exact hgg (diff_group ((mem_rowsOf v g r).1 hr) ((mem_rowsOf v g' r).1 hr') rfl)

theorem live_sum (v : In K) (gs : List (Sys × Nat)) :
    ((live v gs).map fun g => (rowsOf v g).length).sum = (gs.flatMap (rowsOf v)).length := by
  induction gs with
  | nil => rfl
  | cons g gs ih =>
    rw [List.flatMap_cons, List.length_append, ← ih]
    by_cases hs : sysidx v g.1 = []
    · have hr : rowsOf v g = [] := by
        have := rowsOf_length v g
        rw [hs] at this
        exact List.length_eq_zero_iff.1 (by simpa using this)
      simp [live, hs, hr]
    · simp [live, hs]

/-- the elements of the covariance -/
theorem cov_get (v : In K) (hk : v.keys.Nodup) (nb : List Nat) (rows : List Row)
    (h : sdres v = .ok (nb, rows)) (p q : Nat) (hp : p < rows.length) (hq : q < rows.length) :
    cov v nb rows p q =
      if (rows[p].i, rows[p].f) = (rows[q].i, rows[q].f) then
        varerr v rows[p].i rows[p].f + (if p = q then varerr v rows[p].j rows[p].f else 0)
      else 0 := by
  rw [differences v hk] at h
  simp only [Except.ok.injEq, Prod.mk.injEq] at h
  obtain ⟨rfl, rfl⟩ := h
  have hb := blocks_rows v (groups v) [] (by simpa using groups_nodup v hk) []
  simp only [List.nil_append, List.append_nil, List.flatMap_nil, List.length_nil] at hb
  unfold cov ddcov
  rw [ddcov_fold (keyOf ((groups v).flatMap (rowsOf v))) _ _ _ 0 _ hb (by
    intro p q; rw [if_neg (by omega)]), live_sum, Nat.zero_add]
  have ep : keyOf ((groups v).flatMap (rowsOf v)) p =
      some ((((groups v).flatMap (rowsOf v))[p]).i, (((groups v).flatMap (rowsOf v))[p]).f) := by
    unfold keyOf; rw [List.getElem?_eq_getElem hp]; rfl
  have eq : keyOf ((groups v).flatMap (rowsOf v)) q =
      some ((((groups v).flatMap (rowsOf v))[q]).i, (((groups v).flatMap (rowsOf v))[q]).f) := by
    unfold keyOf; rw [List.getElem?_eq_getElem hq]; rfl
  have eri : Ri v ((groups v).flatMap (rowsOf v)) p = varerr v
      (((groups v).flatMap (rowsOf v))[p]).i (((groups v).flatMap (rowsOf v))[p]).f := by
    unfold Ri; rw [List.getElem?_eq_getElem hp]
  have erj : Rj v ((groups v).flatMap (rowsOf v)) p = varerr v
      (((groups v).flatMap (rowsOf v))[p]).j (((groups v).flatMap (rowsOf v))[p]).f := by
    unfold Rj; rw [List.getElem?_eq_getElem hp]
  rw [ep, eq, eri, erj]
  simp only [hp, hq, true_and, Option.some.injEq]
  by_cases hc : ((((groups v).flatMap (rowsOf v))[p]).i, (((groups v).flatMap (rowsOf v))[p]).f) =
      ((((groups v).flatMap (rowsOf v))[q]).i, (((groups v).flatMap (rowsOf v))[q]).f)
  · rw [if_pos hc, if_pos hc]
    by_cases hpq : p = q
    · rw [if_pos hpq, if_pos hpq]
    · rw [if_neg hpq, if_neg hpq, add_zero]
  · rw [if_neg hc, if_neg hc]

/-- every difference belongs to some group -/
theorem row_diff (v : In K) (hk : v.keys.Nodup) (nb : List Nat) (rows : List Row)
    (h : sdres v = .ok (nb, rows)) (r : Row) (hr : r ∈ rows) :
    ∃ m ∈ v.keys, ∃ f < 2 * v.nf, Diff v m f r := by
  rw [differences v hk] at h
  simp only [Except.ok.injEq, Prod.mk.injEq] at h
  obtain ⟨rfl, rfl⟩ := h
  obtain ⟨g, hg, hr'⟩ := List.mem_flatMap.1 hr
  simp only [groups, List.mem_flatMap, List.mem_map, List.mem_range] at hg
  obtain ⟨m, hm, f, hf, rfl⟩ := hg
  exact ⟨m, hm, f, by omega, (mem_rowsOf v _ r).1 hr'⟩

end covariance

section main

/-- the differencing operator: row `p` takes measurement `(s, f)` (satellite position and signal)
with weight 1 if it is that of the reference, -1 if it is that of the other satellite -/
def D (v : In ℝ) (rows : List Row) :
    Matrix (Fin rows.length) (Fin v.sat.length × Fin (2 * v.nf)) ℝ := fun p s =>
  (if (s.1.val, s.2.val) = (rows[p].i, rows[p].f) then 1 else 0) -
    (if (s.1.val, s.2.val) = (rows[p].j, rows[p].f) then 1 else 0)

/-- the covariance of the undifferenced measurements: independent errors of variance `varerr` -/
noncomputable def V (v : In ℝ) : Matrix (Fin v.sat.length × Fin (2 * v.nf)) (Fin v.sat.length × Fin (2 * v.nf)) ℝ :=
  Matrix.diagonal fun s => varerr v s.1 s.2

/-- the covariance matrix `R` returned by `sdres` -/
noncomputable def Rmat (v : In ℝ) (nb : List Nat) (rows : List Row) :
    Matrix (Fin rows.length) (Fin rows.length) ℝ := fun p q => cov v nb rows p q

theorem sum_pick {α : Type} [Fintype α] [DecidableEq α] (a b : α) (c d : α) (w : α → ℝ) :
    ∑ s, ((if s = a then 1 else 0) - (if s = b then 1 else 0)) *
      (w s * ((if s = c then 1 else 0) - (if s = d then 1 else 0))) =
    (if a = c then w a else 0) - (if a = d then w a else 0) - (if b = c then w b else 0) +
      (if b = d then w b else 0) := by
  have : ∀ s, ((if s = a then (1 : ℝ) else 0) - (if s = b then 1 else 0)) *
      (w s * ((if s = c then 1 else 0) - (if s = d then 1 else 0))) =
      (if s = a then (if a = c then w a else 0) else 0) -
      (if s = a then (if a = d then w a else 0) else 0) -
      (if s = b then (if b = c then w b else 0) else 0) +
      (if s = b then (if b = d then w b else 0) else 0) := by
    intro s
    by_cases h1 : s = a <;> by_cases h2 : s = b <;> by_cases h3 : s = c <;> by_cases h4 : s = d <;>
      simp_all
  simp only [this, Finset.sum_add_distrib, Finset.sum_sub_distrib, Finset.sum_ite_eq',
    Finset.mem_univ, if_true]

/-- the measurement of the reference / of the other satellite of a difference -/
theorem D_eq (v : In ℝ) (hk : v.keys.Nodup) (nb : List Nat) (rows : List Row)
    (h : sdres v = .ok (nb, rows)) (p : Fin rows.length) :
    ∃ (a b : Fin v.sat.length × Fin (2 * v.nf)),
      (a.1.val, a.2.val) = (rows[p].i, rows[p].f) ∧ (b.1.val, b.2.val) = (rows[p].j, rows[p].f) ∧
      ∀ s, D v rows p s = (if s = a then 1 else 0) - (if s = b then 1 else 0) := by
  obtain ⟨m, _, f, hf, hd⟩ := row_diff v hk nb rows h rows[p] (List.getElem_mem _)
  have hff := hd.freq
  refine ⟨(⟨rows[p].i, sysAt_lt hd.ref.1⟩, ⟨rows[p].f, by omega⟩),
    (⟨rows[p].j, sysAt_lt hd.sys⟩, ⟨rows[p].f, by omega⟩), rfl, rfl, fun s => ?_⟩
  unfold D
  congr 1
  · congr 1
    simp [Prod.ext_iff, Fin.ext_iff]
  · congr 1
    simp [Prod.ext_iff, Fin.ext_iff]

/-- relations between two differences -/
theorem rows_rel (v : In ℝ) (hk : v.keys.Nodup) (nb : List Nat) (rows : List Row)
    (h : sdres v = .ok (nb, rows)) (p q : Fin rows.length) :
    (rows[p].i, rows[p].f) ≠ (rows[q].j, rows[q].f) ∧
    ((rows[p].j, rows[p].f) = (rows[q].j, rows[q].f) → p = q) := by
  obtain ⟨m, _, f, _, hd⟩ := row_diff v hk nb rows h rows[p] (List.getElem_mem _)
  obtain ⟨m', _, f', _, hd'⟩ := row_diff v hk nb rows h rows[q] (List.getElem_mem _)
  constructor
  · intro e
    simp only [Prod.mk.injEq] at e
    have a := hd.ref.1
    rw [e.1, hd'.sys] at a
    have hm : m' = m := Option.some.inj a
    subst hm
    exact hd'.ne (by rw [← e.1, isRef_unique hd.ref hd'.ref])
  · intro e
    simp only [Prod.mk.injEq] at e
    have a := hd.sys
    rw [e.1, hd'.sys] at a
    have hm : m' = m := Option.some.inj a
    subst hm
    have hr : rows[p] = rows[q] := by
      have := isRef_unique hd.ref hd'.ref
      have e1 := e.1
      have e2 := e.2
      revert this e1 e2
      generalize rows[p] = r
      generalize rows[q] = r'
      intro a b c
      cases r; cases r'
      simp_all
    have hnd : rows.Nodup := by
      rw [differences v hk] at h
      simp only [Except.ok.injEq, Prod.mk.injEq] at h
      rw [← h.2]
      exact rows_nodup v hk
    exact Fin.ext ((List.Nodup.getElem_inj_iff hnd).1 hr)

/-- **Covariance**: the matrix `R` is the covariance of the formed differences when the
undifferenced measurements have independent errors with the variances of `varerr`:
`R = D V Dᵀ`. -/
theorem covariance (v : In ℝ) (hk : v.keys.Nodup) (nb : List Nat) (rows : List Row)
    (h : sdres v = .ok (nb, rows)) : Rmat v nb rows = D v rows * V v * (D v rows)ᵀ := by
  ext p q
  obtain ⟨a, b, ha, hb, hD⟩ := D_eq v hk nb rows h p
  obtain ⟨c, d, hc, hd, hD'⟩ := D_eq v hk nb rows h q
  have e : (D v rows * V v * (D v rows)ᵀ) p q =
      ∑ s, ((if s = a then 1 else 0) - (if s = b then 1 else 0)) *
        (varerr v s.1 s.2 * ((if s = c then 1 else 0) - (if s = d then 1 else 0))) := by
    rw [Matrix.mul_apply]
    apply Finset.sum_congr rfl
    intro s _
    unfold V
    rw [Matrix.mul_diagonal, Matrix.transpose_apply, hD, hD', mul_assoc]
  rw [e, sum_pick a b c d (fun s => varerr v s.1 s.2)]
  unfold Rmat
  rw [cov_get v hk nb rows h p q p.2 q.2]
  have conv : ∀ (x y : Fin v.sat.length × Fin (2 * v.nf)),
      x = y ↔ (x.1.val, x.2.val) = (y.1.val, y.2.val) := by
    intro x y; simp [Prod.ext_iff, Fin.ext_iff]
  obtain ⟨r1, r2⟩ := rows_rel v hk nb rows h p q
  obtain ⟨r3, _⟩ := rows_rel v hk nb rows h q p
  have n1 : ¬ a = d := by rw [conv, ha, hd]; exact r1
  have n2 : ¬ b = c := by rw [conv, hb, hc]; exact fun e => r3 e.symm
  have hac : a = c ↔ (rows[p].i, rows[p].f) = (rows[q].i, rows[q].f) := by rw [conv, ha, hc]
  have hbd : b = d ↔ p = q := by
    rw [conv, hb, hd]
    exact ⟨r2, fun e => by subst e; rfl⟩
  rw [if_neg n1, if_neg n2]
  simp only [Prod.mk.injEq] at ha hb
  simp only [hac, hbd, sub_zero]
  by_cases hpq : p = q
  · subst hpq
    simp [ha.1, ha.2, hb.1, hb.2]
  · have hv : ¬ p.val = q.val := fun e => hpq (Fin.ext e)
    simp only [if_neg hpq, if_neg hv, add_zero, ha.1, ha.2]
    rfl

theorem varerr_nonneg (v : In ℝ) (s f : Nat) : 0 ≤ varerr v s f := by
  unfold varerr
  positivity

theorem varerr_pos (v : In ℝ) (s f : Nat) (hlo : 0 < v.lo) (he : v.err1 ≠ 0 ∨ v.err2 ≠ 0)
    (hr : ∀ f, v.eratio f ≠ 0) : 0 < varerr v s f := by
  unfold varerr
  have hs : 0 < max (v.sinEl s) v.lo := lt_max_of_lt_right hlo
  have hf : (if f ≥ v.nf then v.eratio (f - v.nf) else 1) ≠ 0 := by
    split
    · exact hr _
    · exact one_ne_zero
  simp only
  rcases he with he | he
  · have : 0 < ((if f ≥ v.nf then v.eratio (f - v.nf) else 1) * v.err1) ^ 2 := by positivity
    positivity
  · have : 0 < ((if f ≥ v.nf then v.eratio (f - v.nf) else 1) * v.err2 /
        max (v.sinEl s) v.lo) ^ 2 := by
      have := hs.ne'
      positivity
    positivity

/-- each difference involves a measurement no other difference involves -/
theorem D_inj (v : In ℝ) (hk : v.keys.Nodup) (nb : List Nat) (rows : List Row)
    (h : sdres v = .ok (nb, rows)) : Function.Injective (D v rows).vecMul := by
  have key : ∀ (x : Fin rows.length → ℝ) (q : Fin rows.length),
      ∃ b, ∀ x : Fin rows.length → ℝ, (x ᵥ* D v rows) b = - x q := by
    intro _ q
    obtain ⟨a, b, ha, hb, hD⟩ := D_eq v hk nb rows h q
    refine ⟨b, fun x => ?_⟩
    have conv : ∀ (x y : Fin v.sat.length × Fin (2 * v.nf)),
        x = y ↔ (x.1.val, x.2.val) = (y.1.val, y.2.val) := by
      intro x y; simp [Prod.ext_iff, Fin.ext_iff]
    have hp : ∀ p, D v rows p b = if p = q then -1 else 0 := by
      intro p
      obtain ⟨c, d, hc, hd, hD'⟩ := D_eq v hk nb rows h p
      obtain ⟨r1, r2⟩ := rows_rel v hk nb rows h p q
      rw [hD']
      have n1 : ¬ b = c := by rw [conv, hb, hc]; exact fun e => r1 e.symm
      have n2 : b = d ↔ p = q := by
        rw [conv, hb, hd]
        exact ⟨fun e => r2 e.symm, fun e => by subst e; rfl⟩
      rw [if_neg n1]
      simp only [n2]
      by_cases hpq : p = q
      · rw [if_pos hpq, if_pos hpq]; norm_num
      · rw [if_neg hpq, if_neg hpq]; norm_num
    rw [Matrix.vecMul, dotProduct]
    simp only [hp, mul_ite, mul_neg, mul_one, mul_zero, Finset.sum_ite_eq', Finset.mem_univ,
      if_true]
  intro x y hxy
  funext q
  obtain ⟨b, hb⟩ := key x q
  have := congrFun hxy b
  simp only [hb] at this
  linarith

/-- **Positivity**: `R` is symmetric positive semidefinite; positive definite if the error model
is not zero. -/
theorem cov_psd (v : In ℝ) (hk : v.keys.Nodup) (nb : List Nat) (rows : List Row)
    (h : sdres v = .ok (nb, rows)) :
    (Rmat v nb rows).PosSemidef ∧
    (0 < v.lo → (v.err1 ≠ 0 ∨ v.err2 ≠ 0) → (∀ f, v.eratio f ≠ 0) → (Rmat v nb rows).PosDef) := by
  rw [covariance v hk nb rows h]
  constructor
  · have hV : (V v).PosSemidef := PosSemidef.diagonal (fun s => varerr_nonneg v _ _)
    have := hV.mul_mul_conjTranspose_same (D v rows)
    rwa [conjTranspose_eq_transpose_of_trivial] at this
  · intro hlo he hr
    have hV : (V v).PosDef := PosDef.diagonal (fun s => varerr_pos v _ _ hlo he hr)
    have := hV.mul_mul_conjTranspose_same (B := D v rows) (D_inj v hk nb rows h)
    rwa [conjTranspose_eq_transpose_of_trivial] at this

end main

/-! ### Cases -/

/-- two constellations, a missing and an edited measurement -/
def demo : In ℚ where
  keys := [.gps, .gal]
  nf := 1
  sat := [3, 40, 7, 9, 50]
  el := fun k => [1/2, 1, 3/2, 1/5, 1/3].getD k 0
  sinEl := fun k => [1/2, 1, 1, 1/5, 1/4].getD k 0
  y := fun k f => if k = 0 ∧ f = 1 then 0 else 1
  edt := fun _ => false
  lo := 1/573
  err1 := 1
  err2 := 1
  eratio := fun _ => 10

/-- reference G07 (position 2) and E08 (position 1) -/
example : (sdres demo).toOption = some ([2, 1, 1, 1],
    [⟨2, 0, 0⟩, ⟨2, 3, 0⟩, ⟨2, 3, 1⟩, ⟨1, 4, 0⟩, ⟨1, 4, 1⟩]) := by decide +kernel

example : (List.range 5).map (fun p => (List.range 5).map fun q =>
    cov demo [2, 1, 1, 1] [⟨2, 0, 0⟩, ⟨2, 3, 0⟩, ⟨2, 3, 1⟩, ⟨1, 4, 0⟩, ⟨1, 4, 1⟩] p q) =
    [[7, 2, 0, 0, 0], [2, 28, 0, 0, 0], [0, 0, 2800, 0, 0], [0, 0, 0, 19, 0],
     [0, 0, 0, 0, 1900]] := by decide +kernel

/-- a real instance -/
noncomputable def demoR : In ℝ where
  keys := [.gps]
  nf := 1
  sat := [1, 2]
  el := fun _ => 0
  sinEl := fun _ => 1
  y := fun _ _ => 1
  edt := fun _ => false
  lo := 1
  err1 := 1
  err2 := 1
  eratio := fun _ => 1

/-- the hypotheses of `cov_psd` and `update` are met -/
example : ∃ nb rows, sdres demoR = .ok (nb, rows) ∧ (Rmat demoR nb rows).PosDef :=
  ⟨_, _, differences demoR (by decide), (cov_psd demoR (by decide) _ _
    (differences demoR (by decide))).2 zero_lt_one (.inl one_ne_zero) fun _ => one_ne_zero⟩

example : (1 : Matrix (Fin 3) (Fin 3) ℝ).PosDef := PosDef.one


end Verif.C49
