import Verif.Model.KfUpdate
import Mathlib.LinearAlgebra.Matrix.ToLinearEquiv
import Mathlib.Tactic.Linarith
import Mathlib.Tactic.Ring
import Mathlib.Tactic.Abel
import Mathlib.Tactic.FieldSimp
/-!
# C09 Kalman measurement update leaves inactive states untouched
-/

namespace Verif.C09
open Matrix Verif.KfUpdate

variable {n m : Nat}

theorem mem_active (P : Matrix (Fin n) (Fin n) ℚ) (i : Fin n) : i ∈ active P ↔ 0 < P i i := by
  simp [active]

theorem active_nodup (P : Matrix (Fin n) (Fin n) ℚ) : (active P).Nodup :=
  (List.nodup_finRange n).filter _

theorem foldl_update_notMem {α : Type} (ix : List (Fin n)) (v : Fin ix.length → α) (i : Fin n)
    (h : i ∉ ix) : ∀ (l : List (Fin ix.length)) (x : Fin n → α),
    (l.foldl (fun y j => Function.update y (ix.get j) (v j)) x) i = x i
  | [], x => rfl
  | j :: l, x => by
    rw [List.foldl_cons, foldl_update_notMem ix v i h l, Function.update_of_ne]
    rintro rfl
    exact h (List.get_mem ix j)

theorem assign_notMem {α : Type} (x : Fin n → α) (ix : List (Fin n)) (v : Fin ix.length → α)
    (i : Fin n) (h : i ∉ ix) : assign x ix v i = x i :=
  foldl_update_notMem ix v i h _ x

theorem foldl_update_mem {α : Type} (ix : List (Fin n)) (hn : ix.Nodup) (v : Fin ix.length → α)
    (a : Fin ix.length) : ∀ (l : List (Fin ix.length)) (x : Fin n → α), a ∈ l →
    (l.foldl (fun y j => Function.update y (ix.get j) (v j)) x) (ix.get a) = v a := by
  intro l
  induction l using List.reverseRecOn with
  | nil => intro x h; simp at h
  | append_singleton l b ih =>
    intro x h
    rw [List.foldl_append]
    simp only [List.foldl_cons, List.foldl_nil]
    by_cases hab : a = b
    · subst hab; simp
    · rw [Function.update_of_ne]
      · apply ih
        simpa [hab] using h
      · intro he
        exact hab ((List.nodup_iff_injective_get.mp hn) he)

theorem assign_mem {α : Type} (x : Fin n → α) (ix : List (Fin n)) (hn : ix.Nodup)
    (v : Fin ix.length → α) (a : Fin ix.length) : assign x ix v (ix.get a) = v a :=
  foldl_update_mem ix hn v a _ x (List.mem_finRange a)

theorem kfupdate_ok (x : Fin n → ℚ) (P : Matrix (Fin n) (Fin n) ℚ)
    (H : Matrix (Fin m) (Fin n) ℚ) (v : Fin m → ℚ) (R : Matrix (Fin m) (Fin m) ℚ)
    (r : Result n m) (h : kfupdate x P H v R = .ok r) :
    let e := (active P).get
    let Pa := P.submatrix e e
    let Ha := H.submatrix id e
    let Sa := Ha * (Pa * Haᵀ) + R
    let K := Pa * Haᵀ * Sa⁻¹
    r.S = Sa ∧ r.x = assign x (active P) (fun a => x (e a) + K.mulVec v a) ∧
      ∀ i j, r.P i j = assign (fun i j => P i j) (active P)
        (fun a => assign (fun c => P (e a) c) (active P) (fun b => (Pa - K * Ha * Pa) a b)) i j := by
  intro e Pa Ha Sa K
  unfold kfupdate at h
  simp only at h
  split at h
  · cases h
  · cases h
    exact ⟨rfl, rfl, fun i j => rfl⟩

/-- A state whose variance is not positive keeps its value, its variance and all its
cross-covariances (rows and columns) through a successful update. -/
theorem inactive_untouched (x : Fin n → ℚ) (P : Matrix (Fin n) (Fin n) ℚ)
    (H : Matrix (Fin m) (Fin n) ℚ) (v : Fin m → ℚ) (R : Matrix (Fin m) (Fin m) ℚ)
    (r : Result n m) (h : kfupdate x P H v R = .ok r) (i : Fin n) (hi : ¬ 0 < P i i) :
    r.x i = x i ∧ (∀ j, r.P i j = P i j) ∧ (∀ j, r.P j i = P j i) := by
  have hm : i ∉ active P := by rw [mem_active]; exact hi
  obtain ⟨-, hx, hP⟩ := kfupdate_ok x P H v R r h
  refine ⟨?_, fun j => ?_, fun j => ?_⟩
  · rw [hx]; exact assign_notMem _ _ _ _ hm
  · rw [hP, assign_notMem _ _ _ _ hm]
  · rw [hP]
    by_cases hj : j ∈ active P
    · obtain ⟨a, rfl⟩ := List.get_of_mem hj
      rw [assign_mem _ _ (active_nodup P), assign_notMem _ _ _ _ hm]
    · rw [assign_notMem _ _ _ _ hj]

/-- The index selection of the states with positive variance (specification): an enumeration of
exactly those indices. -/
def IsActiveEnum (P : Matrix (Fin n) (Fin n) ℚ) {k : Nat} (e : Fin k → Fin n) : Prop :=
  Function.Injective e ∧ ∀ i, (∃ a, e a = i) ↔ 0 < P i i

/-- The active states receive the standard Kalman update of the active sub-block, each at its own
position: gain `K = P Hᵀ (H P Hᵀ + R)⁻¹`, `x + K v`, `P - K H P`. -/
theorem active_updated (x : Fin n → ℚ) (P : Matrix (Fin n) (Fin n) ℚ)
    (H : Matrix (Fin m) (Fin n) ℚ) (v : Fin m → ℚ) (R : Matrix (Fin m) (Fin m) ℚ)
    (r : Result n m) (h : kfupdate x P H v R = .ok r) :
    ∃ (k : Nat) (e : Fin k → Fin n), IsActiveEnum P e ∧
      let Pa := P.submatrix e e
      let Ha := H.submatrix id e
      let Sa := Ha * Pa * Haᵀ + R
      let K := Pa * Haᵀ * Sa⁻¹
      r.S = Sa ∧ (∀ a, r.x (e a) = x (e a) + (K.mulVec v) a) ∧
        (∀ a b, r.P (e a) (e b) = (Pa - K * Ha * Pa) a b) := by
  refine ⟨(active P).length, (active P).get, ⟨List.nodup_iff_injective_get.mp (active_nodup P), ?_⟩,
    ?_⟩
  · intro i
    rw [← mem_active P i]
    constructor
    · rintro ⟨a, rfl⟩; exact List.get_mem _ _
    · exact List.get_of_mem
  · obtain ⟨hS, hx, hP⟩ := kfupdate_ok x P H v R r h
    simp only
    rw [Matrix.mul_assoc (H.submatrix id (active P).get)]
    refine ⟨hS, fun a => ?_, fun a b => ?_⟩
    · rw [hx, assign_mem _ _ (active_nodup P)]
    · rw [hP, assign_mem _ _ (active_nodup P), assign_mem _ _ (active_nodup P)]

/-- The update raises exactly when the innovation matrix of the active block is singular. -/
theorem raises_iff_singular (x : Fin n → ℚ) (P : Matrix (Fin n) (Fin n) ℚ)
    (H : Matrix (Fin m) (Fin n) ℚ) (v : Fin m → ℚ) (R : Matrix (Fin m) (Fin m) ℚ) :
    kfupdate x P H v R = .error .zeroDivision ↔
      (H.submatrix id (active P).get * P.submatrix (active P).get (active P).get *
        (H.submatrix id (active P).get)ᵀ + R).det = 0 := by
  rw [Matrix.mul_assoc]
  unfold kfupdate
  constructor
  · intro h
    simp only at h
    split at h
    · assumption
    · cases h
  · intro h
    exact if_pos h

/-- A symmetric covariance stays symmetric (with a symmetric measurement covariance). -/
theorem symmetric_preserved (x : Fin n → ℚ) (P : Matrix (Fin n) (Fin n) ℚ)
    (H : Matrix (Fin m) (Fin n) ℚ) (v : Fin m → ℚ) (R : Matrix (Fin m) (Fin m) ℚ)
    (r : Result n m) (h : kfupdate x P H v R = .ok r) (hP : Pᵀ = P) (hR : Rᵀ = R) :
    r.Pᵀ = r.P := by
  obtain ⟨k, e, ⟨-, he⟩, hS, -, hPP⟩ := active_updated x P H v R r h
  ext i j
  rw [Matrix.transpose_apply]
  have hPij : P j i = P i j := congrFun (congrFun hP i) j
  by_cases hi : 0 < P i i
  · by_cases hj : 0 < P j j
    · obtain ⟨a, rfl⟩ := (he i).2 hi
      obtain ⟨b, rfl⟩ := (he j).2 hj
      rw [hPP, hPP]
      have hPs : (P.submatrix e e)ᵀ = P.submatrix e e := by
        rw [Matrix.transpose_submatrix, hP]
      have hsym : (P.submatrix e e - P.submatrix e e * (H.submatrix id e)ᵀ *
          (H.submatrix id e * P.submatrix e e * (H.submatrix id e)ᵀ + R)⁻¹ *
          H.submatrix id e * P.submatrix e e)ᵀ = P.submatrix e e - P.submatrix e e *
          (H.submatrix id e)ᵀ *
          (H.submatrix id e * P.submatrix e e * (H.submatrix id e)ᵀ + R)⁻¹ *
          H.submatrix id e * P.submatrix e e := by
        simp only [Matrix.transpose_sub, Matrix.transpose_mul, Matrix.transpose_transpose,
          Matrix.transpose_nonsing_inv, Matrix.transpose_add, hPs, hR, Matrix.mul_assoc]
      exact congrFun (congrFun hsym a) b
    · rw [(inactive_untouched x P H v R r h j hj).2.1, (inactive_untouched x P H v R r h j hj).2.2,
        hPij]
  · rw [(inactive_untouched x P H v R r h i hi).2.1, (inactive_untouched x P H v R r h i hi).2.2,
      hPij]

/-- A concrete update with an inactive first state: the update succeeds, the second state is
corrected by gain 1/2, the first keeps its value although `H` refers to it. -/
example : ∃ r, kfupdate (n := 2) (m := 1) ![5, 1] !![0, 0; 0, 1] !![3, 1] ![4] !![1] = .ok r ∧
    r.x 0 = 5 ∧ r.x 1 = 3 := by
  have hact : active !![(0 : ℚ), 0; 0, 1] = [1] := by decide
  have h1 : (!![(3 : ℚ), 1].submatrix id [(1 : Fin 2)].get) = !![1] := by
    ext i j; fin_cases i; fin_cases j; rfl
  have h2 : (!![(0 : ℚ), 0; 0, 1].submatrix [(1 : Fin 2)].get [(1 : Fin 2)].get) = !![1] := by
    ext i j; fin_cases i; fin_cases j; rfl
  have ht : (!![(1 : ℚ)])ᵀ = !![1] := by ext i j; fin_cases i; fin_cases j; rfl
  have h3 : (!![(1 : ℚ)] * (!![1] * !![1]) + !![1]) = !![2] := by
    ext i j; fin_cases i; fin_cases j; norm_num [Matrix.mul_apply]
  have h4 : (!![(2 : ℚ)])⁻¹ = !![1 / 2] := by
    apply Matrix.inv_eq_right_inv
    ext i j; fin_cases i; fin_cases j; norm_num [Matrix.mul_apply]
  have hd : (!![(2 : ℚ)]).det ≠ 0 := by simp
  cases hr : kfupdate (n := 2) (m := 1) ![5, 1] !![0, 0; 0, 1] !![3, 1] ![4] !![1] with
  | error e =>
    exfalso
    have he : e = .zeroDivision := by
      unfold kfupdate at hr; simp only at hr; split at hr <;> cases hr; rfl
    rw [he, raises_iff_singular, Matrix.mul_assoc] at hr
    rw [hact, h1, h2, ht, h3] at hr
    exact hd hr
  | ok r =>
    refine ⟨r, rfl, (inactive_untouched _ _ _ _ _ r hr 0 (by simp)).1, ?_⟩
    obtain ⟨-, hx, -⟩ := kfupdate_ok _ _ _ _ _ r hr
    rw [hx, hact, h1, h2, ht, h3, h4]
    change assign _ [1] _ ([(1 : Fin 2)].get 0) = _
    rw [assign_mem _ _ (by simp)]
    norm_num [Matrix.mulVec, Matrix.mul_apply]

/-! ## Against the textbook -/

/-- symmetric, no negative variance in any direction -/
def Psd (P : Matrix (Fin n) (Fin n) ℚ) : Prop := Pᵀ = P ∧ ∀ w, 0 ≤ w ⬝ᵥ P *ᵥ w

/-- symmetric, positive variance in every direction -/
def Pd (R : Matrix (Fin m) (Fin m) ℚ) : Prop := Rᵀ = R ∧ ∀ w, w ≠ 0 → 0 < w ⬝ᵥ R *ᵥ w

theorem Psd.symm {P : Matrix (Fin n) (Fin n) ℚ} (h : Psd P) (i j : Fin n) : P i j = P j i :=
  congrFun (congrFun h.1 j) i

theorem quad_two (P : Matrix (Fin n) (Fin n) ℚ) (i j : Fin n) (a b : ℚ) :
    (Pi.single i a + Pi.single j b) ⬝ᵥ P *ᵥ (Pi.single i a + Pi.single j b) =
      a * a * P i i + a * b * P i j + b * a * P j i + b * b * P j j := by
  simp only [mulVec_add, dotProduct_add, add_dotProduct, mulVec_single, single_dotProduct, Pi.smul_apply,
    col_apply, MulOpposite.smul_eq_mul_unop, MulOpposite.unop_op]
  ring

/-- a state of no variance has no covariances -/
theorem Psd.zero_row {P : Matrix (Fin n) (Fin n) ℚ} (h : Psd P) (i : Fin n) (hi : ¬ 0 < P i i) (j : Fin n) : P i j = 0 := by
  by_contra hne
  have hq : ∀ a b : ℚ, 0 ≤ a * a * P i i + a * b * P i j + b * a * P j i + b * b * P j j := fun a b => by
    rw [← quad_two]; exact h.2 _
  rw [h.symm j i] at hq
  have h0 := hq 1 0
  have hii : P i i = 0 := by push Not at hi; nlinarith
  rw [hii] at hq
  have h1 := hq (-(P j j + 1) / (2 * P i j)) 1
  have : -(P j j + 1) / (2 * P i j) * 1 * P i j = -(P j j + 1) / 2 := by field_simp
  nlinarith

theorem sum_get (l : List (Fin n)) (hn : l.Nodup) (f : Fin n → ℚ) (h0 : ∀ i, i ∉ l → f i = 0) :
    ∑ a, f (l.get a) = ∑ i, f i := by
  have h1 : ∑ a, f (l.get a) = ∑ i ∈ l.toFinset, f i := by
    rw [List.sum_toFinset f hn, ← List.sum_ofFn]
    congr 1
    exact (List.ofFn_getElem_eq_map l f)
  rw [h1]
  exact Finset.sum_subset (Finset.subset_univ _) (fun i _ hi => h0 i (by simpa using hi))

theorem det_ne_zero {R : Matrix (Fin m) (Fin m) ℚ} (h : Pd R) : R.det ≠ 0 := by
  intro h0
  obtain ⟨w, hw, h1⟩ := Matrix.exists_mulVec_eq_zero_iff.2 h0
  have := h.2 w hw
  rw [h1, dotProduct_zero] at this
  exact lt_irrefl _ this

theorem quad_conj {k : Nat} (H : Matrix (Fin m) (Fin k) ℚ) (P : Matrix (Fin k) (Fin k) ℚ) (w : Fin m → ℚ) :
    w ⬝ᵥ (H * P * Hᵀ) *ᵥ w = (Hᵀ *ᵥ w) ⬝ᵥ P *ᵥ (Hᵀ *ᵥ w) := by
  rw [← mulVec_mulVec, ← mulVec_mulVec, dotProduct_mulVec, ← mulVec_transpose]

theorem innovation_pd {k : Nat} {P : Matrix (Fin k) (Fin k) ℚ} {R : Matrix (Fin m) (Fin m) ℚ} (hP : Psd P) (hR : Pd R)
    (H : Matrix (Fin m) (Fin k) ℚ) : Pd (H * P * Hᵀ + R) := by
  refine ⟨?_, fun w hw => ?_⟩
  · rw [transpose_add, transpose_mul, transpose_mul, transpose_transpose, hP.1, hR.1, Matrix.mul_assoc]
  · rw [add_mulVec, dotProduct_add, quad_conj]
    have := hP.2 (Hᵀ *ᵥ w)
    have := hR.2 w hw
    linarith

theorem Psd.sub {k : Nat} {P : Matrix (Fin n) (Fin n) ℚ} (h : Psd P) (e : Fin k → Fin n) : Psd (P.submatrix e e) := by
  refine ⟨by rw [transpose_submatrix, h.1], fun w => ?_⟩
  have h1 : P.submatrix e e = ((1 : Matrix (Fin n) (Fin n) ℚ).submatrix e id) * P *
      ((1 : Matrix (Fin n) (Fin n) ℚ).submatrix e id)ᵀ := by
    rw [transpose_submatrix, transpose_one]
    ext i j
    simp [Matrix.mul_apply, Matrix.one_apply]
  rw [h1, quad_conj]
  exact h.2 _

section
variable (P : Matrix (Fin n) (Fin n) ℚ) (H : Matrix (Fin m) (Fin n) ℚ)

theorem sub_PHt (h : Psd P) (a : Fin (active P).length) (j : Fin m) :
    (P.submatrix (active P).get (active P).get * (H.submatrix id (active P).get)ᵀ) a j =
      (P * Hᵀ) ((active P).get a) j := by
  simp only [Matrix.mul_apply, submatrix_apply, transpose_apply, id]
  refine sum_get (active P) (active_nodup P) (fun i => P ((active P).get a) i * H j i) fun i hi => ?_
  rw [mem_active] at hi
  rw [h.symm, h.zero_row i hi, zero_mul]

theorem sub_S (h : Psd P) :
    H.submatrix id (active P).get * (P.submatrix (active P).get (active P).get * (H.submatrix id (active P).get)ᵀ) =
      H * P * Hᵀ := by
  ext i j
  rw [Matrix.mul_assoc, Matrix.mul_apply, Matrix.mul_apply]
  simp only [sub_PHt P H h, submatrix_apply, id]
  refine sum_get (active P) (active_nodup P) (fun k => H i k * (P * Hᵀ) k j) fun k hk => ?_
  rw [mem_active] at hk
  have : (P * Hᵀ) k j = 0 := by
    rw [Matrix.mul_apply]
    exact Finset.sum_eq_zero fun l _ => by rw [h.zero_row k hk, zero_mul]
  rw [this, mul_zero]

theorem sub_HP (h : Psd P) (i : Fin m) (b : Fin (active P).length) :
    (H.submatrix id (active P).get * P.submatrix (active P).get (active P).get) i b = (H * P) i ((active P).get b) := by
  simp only [Matrix.mul_apply, submatrix_apply, id]
  refine sum_get (active P) (active_nodup P) (fun k => H i k * P k ((active P).get b)) fun k hk => ?_
  rw [mem_active] at hk
  rw [h.zero_row k hk, mul_zero]

theorem zero_row_mul {k : Nat} (h : Psd P) (i : Fin n) (hi : ¬ 0 < P i i) (A : Matrix (Fin n) (Fin k) ℚ) (j : Fin k) :
    (P * A) i j = 0 := by
  rw [Matrix.mul_apply]
  exact Finset.sum_eq_zero fun l _ => by rw [h.zero_row i hi, zero_mul]

end

/-- the covariance after the update, in the symmetric form -/
theorem joseph (P : Matrix (Fin n) (Fin n) ℚ) (H : Matrix (Fin m) (Fin n) ℚ) (R : Matrix (Fin m) (Fin m) ℚ)
    (hP : Psd P) (hR : Pd R) :
    let K := P * Hᵀ * (H * P * Hᵀ + R)⁻¹
    P - K * H * P = (1 - K * H) * P * (1 - K * H)ᵀ + K * R * Kᵀ := by
  intro K
  have hS := innovation_pd hP hR H
  have hu : IsUnit (H * P * Hᵀ + R).det := isUnit_iff_ne_zero.2 (det_ne_zero hS)
  have hK : K * (H * P * Hᵀ + R) = P * Hᵀ := by
    change P * Hᵀ * _ * _ = _
    rw [Matrix.mul_assoc, Matrix.nonsing_inv_mul _ hu, Matrix.mul_one]
  have h1 : K * R = P * Hᵀ - K * H * P * Hᵀ := by
    rw [← hK, Matrix.mul_add, ← Matrix.mul_assoc, ← Matrix.mul_assoc]
    abel
  rw [h1, transpose_sub, transpose_one, transpose_mul]
  simp only [Matrix.mul_sub, Matrix.sub_mul, Matrix.mul_one, Matrix.one_mul, Matrix.mul_assoc]
  abel

/-- **The update is that of the textbook** whenever the covariance has no negative variance and the measurements have
positive ones: it never fails, whatever states have no variance, and the new covariance has no negative variance -/
theorem textbook (x : Fin n → ℚ) (P : Matrix (Fin n) (Fin n) ℚ) (H : Matrix (Fin m) (Fin n) ℚ) (v : Fin m → ℚ)
    (R : Matrix (Fin m) (Fin m) ℚ) (hP : Psd P) (hR : Pd R) :
    ∃ r, kfupdate x P H v R = .ok r ∧
      let K := P * Hᵀ * (H * P * Hᵀ + R)⁻¹
      r.S = H * P * Hᵀ + R ∧ r.x = x + K *ᵥ v ∧ r.P = P - K * H * P ∧ Psd r.P := by
  cases hr : kfupdate x P H v R with
  | error e =>
    exfalso
    have he : e = .zeroDivision := by
      unfold kfupdate at hr; simp only at hr; split at hr <;> cases hr; rfl
    rw [he, raises_iff_singular, Matrix.mul_assoc, sub_S P H hP] at hr
    exact det_ne_zero (innovation_pd hP hR H) hr
  | ok r =>
    refine ⟨r, rfl, ?_⟩
    intro K
    obtain ⟨hS, hx, hPP⟩ := kfupdate_ok x P H v R r hr
    rw [sub_S P H hP] at hS hx hPP
    have hKa : ∀ a j, (P.submatrix (active P).get (active P).get * (H.submatrix id (active P).get)ᵀ *
        (H * P * Hᵀ + R)⁻¹) a j = K ((active P).get a) j := fun a j => by
      change _ = (P * Hᵀ * (H * P * Hᵀ + R)⁻¹) _ _
      rw [Matrix.mul_apply, Matrix.mul_apply]
      simp only [sub_PHt P H hP]
    have hP' : r.P = P - K * H * P := by
      ext i j
      rw [Matrix.sub_apply]
      by_cases hi : 0 < P i i
      · by_cases hj : 0 < P j j
        · obtain ⟨a, rfl⟩ := List.get_of_mem ((mem_active P i).2 hi)
          obtain ⟨b, rfl⟩ := List.get_of_mem ((mem_active P j).2 hj)
          rw [hPP, assign_mem _ _ (active_nodup P), assign_mem _ _ (active_nodup P), Matrix.sub_apply,
            Matrix.mul_assoc (_ * _ * (H * P * Hᵀ + R)⁻¹), Matrix.mul_assoc K, Matrix.mul_apply, Matrix.mul_apply]
          simp only [hKa, sub_HP P H hP, submatrix_apply]
        · rw [(inactive_untouched x P H v R r hr j hj).2.2]
          have : (K * H * P) i j = 0 := by
            rw [Matrix.mul_apply]
            exact Finset.sum_eq_zero fun l _ => by rw [hP.symm, hP.zero_row j hj, mul_zero]
          rw [this, sub_zero]
      · rw [(inactive_untouched x P H v R r hr i hi).2.1]
        have : (K * H * P) i j = 0 := by
          change (P * Hᵀ * (H * P * Hᵀ + R)⁻¹ * H * P) i j = 0
          simp only [Matrix.mul_assoc]
          exact zero_row_mul P hP i hi _ _
        rw [this, sub_zero]
    refine ⟨hS, ?_, hP', ?_⟩
    · funext i
      by_cases hi : 0 < P i i
      · obtain ⟨a, rfl⟩ := List.get_of_mem ((mem_active P i).2 hi)
        rw [hx, assign_mem _ _ (active_nodup P), Pi.add_apply]
        congr 1
        simp only [mulVec, dotProduct, hKa]
      · rw [(inactive_untouched x P H v R r hr i hi).1, Pi.add_apply]
        have : (K *ᵥ v) i = 0 := by
          rw [mulVec, dotProduct]
          refine Finset.sum_eq_zero fun l _ => ?_
          have : K i l = 0 := by
            change (P * Hᵀ * (H * P * Hᵀ + R)⁻¹) i l = 0
            rw [Matrix.mul_assoc]
            exact zero_row_mul P hP i hi _ _
          rw [this, zero_mul]
        rw [this, add_zero]
    · refine ⟨symmetric_preserved x P H v R r hr hP.1 hR.1, fun w => ?_⟩
      rw [hP', joseph P H R hP hR, add_mulVec, dotProduct_add, quad_conj, quad_conj]
      have h1 := hP.2 ((1 - K * H)ᵀ *ᵥ w)
      have h2 : 0 ≤ (Kᵀ *ᵥ w) ⬝ᵥ R *ᵥ (Kᵀ *ᵥ w) := by
        by_cases h0 : Kᵀ *ᵥ w = 0
        · rw [h0, zero_dotProduct]
        · exact (hR.2 _ h0).le
      exact add_nonneg h1 h2

/-- hypotheses met, with one state of no variance -/
example : Psd !![(0 : ℚ), 0; 0, 1] ∧ Pd !![(2 : ℚ)] := by
  refine ⟨⟨by ext i j; fin_cases i <;> fin_cases j <;> rfl, fun w => ?_⟩, ⟨by ext i j; fin_cases i; fin_cases j; rfl,
    fun w hw => ?_⟩⟩
  · simp [Matrix.mulVec, dotProduct, Fin.sum_univ_two]
    exact mul_self_nonneg _
  · have h0 : w 0 ≠ 0 := fun h => hw (by funext i; fin_cases i; exact h)
    have := mul_self_pos.2 h0
    simp [Matrix.mulVec, dotProduct]
    linarith

end Verif.C09
