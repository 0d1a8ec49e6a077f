import Verif.Model.Mlambda
/-!
# Lemmas on `ldldecom` and `mlambda`
-/

namespace Verif.Lambda
open Finset Matrix

/-- symmetric -/
def Sym (n : Nat) (Q : Nat → Nat → ℝ) : Prop := ∀ i j, i < n → j < n → Q i j = Q j i

/-- the part of the loop done after the rows `t … n-1` -/
noncomputable def ldlFrom (n : Nat) (Q : Nat → Nat → ℝ) (t : Nat) : Ld :=
  (List.range' t (n - t)).reverse.foldl ldlStep { A := Q, L := fun _ _ => 0, d := fun _ => 0 }

theorem ldlFrom_n (n : Nat) (Q : Nat → Nat → ℝ) :
    ldlFrom n Q n = { A := Q, L := fun _ _ => 0, d := fun _ => 0 } := by
  unfold ldlFrom; rw [Nat.sub_self]; rfl

theorem ldlFrom_succ {n : Nat} {Q : Nat → Nat → ℝ} {t : Nat} (h : t < n) :
    ldlFrom n Q t = ldlStep (ldlFrom n Q (t + 1)) t := by
  unfold ldlFrom
  rw [show n - t = (n - (t + 1)) + 1 by omega, List.range'_succ, List.reverse_cons, List.foldl_append]
  rfl

theorem ldlLoop_eq (n : Nat) (Q : Nat → Nat → ℝ) : ldlLoop n Q = ldlFrom n Q 0 := by
  unfold ldlLoop ldlFrom
  rw [List.range_eq_range', Nat.sub_zero]

/-- one row for a positive pivot -/
theorem ldlStep_pos {c : Ld} {i : Nat} (hp : 0 < c.A i i) :
    ldlStep c i =
      { d := upd c.d i (c.A i i)
        A := fun j q => if j < i ∧ q ≤ j then c.A j q - c.A i q / c.A i i * c.A i i * (c.A i j / c.A i i)
             else c.A j q
        L := upd c.L i fun q => if q ≤ i then c.A i q / c.A i i else c.L i q } := by
  have hs : 0 < Real.sqrt (c.A i i) := Real.sqrt_pos.2 hp
  have hss : Real.sqrt (c.A i i) * Real.sqrt (c.A i i) = c.A i i := Real.mul_self_sqrt hp.le
  unfold ldlStep
  rw [Ld.mk.injEq]
  refine ⟨?_, ?_, rfl⟩
  · funext j q
    by_cases h : j < i ∧ q ≤ j
    · rw [if_pos h, if_pos h]
      beta_reduce
      rw [if_pos (show q ≤ i by omega), if_pos (show j ≤ i by omega), div_mul_div_comm, hss]
      field_simp
    · rw [if_neg h, if_neg h]
  · congr 1
    funext q
    by_cases h : q ≤ i
    · have : c.A i i / Real.sqrt (c.A i i) = Real.sqrt (c.A i i) := by
        rw [div_eq_iff hs.ne', hss]
      rw [if_pos h, if_pos h]
      beta_reduce
      rw [if_pos h, if_pos (Nat.le_refl i), this, div_div, hss]
    · rw [if_neg h, if_neg h]

/-- the rows done are kept -/
theorem ldlFrom_d {n : Nat} {Q : Nat → Nat → ℝ} {t i : Nat} (h : t ≤ i) (hi : i < n) :
    (ldlFrom n Q 0).d i = (ldlFrom n Q t).d i := by
  have : ∀ s, s ≤ t → (ldlFrom n Q (t - s)).d i = (ldlFrom n Q t).d i := by
    intro s
    induction s with
    | zero => intro _; rfl
    | succ s ih =>
      intro hs
      rw [ldlFrom_succ (by omega : t - (s + 1) < n), show t - (s + 1) + 1 = t - s by omega]
      show upd _ _ _ i = _
      rw [upd_ne _ _ (by omega)]
      exact ih (by omega)
  have := this t (Nat.le_refl _)
  rwa [Nat.sub_self] at this

/-- the invariant of the decomposition -/
theorem ldl_inv {n : Nat} {Q : Nat → Nat → ℝ}
    (hd : ∀ i, i < n → 0 < (ldlFrom n Q 0).d i) : ∀ s t, t + s = n →
    (∀ p q, q ≤ p → p < n → Q p q = (if p < t then (ldlFrom n Q t).A p q else 0) +
      ∑ r ∈ Ico t n, (ldlFrom n Q t).L r p * (ldlFrom n Q t).d r * (ldlFrom n Q t).L r q) ∧
    (∀ r, t ≤ r → r < n → (ldlFrom n Q t).L r r = 1) ∧
    (∀ r q, r < q → (ldlFrom n Q t).L r q = 0) := by
  intro s
  induction s with
  | zero =>
    intro t ht
    have : t = n := by omega
    subst this
    rw [ldlFrom_n, Ico_self]
    refine ⟨fun p q _ h => ?_, fun r h1 h2 => by omega, fun _ _ _ => rfl⟩
    rw [if_pos h, sum_empty, add_zero]
  | succ s ih =>
    intro t ht
    have htn : t < n := by omega
    obtain ⟨h1, h2, h3⟩ := ih (t + 1) (by omega)
    have hp : 0 < (ldlFrom n Q (t + 1)).A t t := by
      have := hd t htn
      rw [ldlFrom_d (Nat.le_refl t) htn, ldlFrom_succ htn] at this
      simpa [ldlStep, upd_self] using this
    rw [ldlFrom_succ htn, ldlStep_pos hp]
    generalize ldlFrom n Q (t + 1) = c at *
    refine ⟨fun p q hqp hpn => ?_, fun r hr hrn => ?_, fun r q hrq => ?_⟩
    · have eI : Ioo t n = Ico (t + 1) n := by ext l; rw [mem_Ioo, mem_Ico]; omega
      rw [h1 p q hqp hpn, sum_Ico_eq _ _ htn, eI]
      have hrest : ∑ r ∈ Ico (t + 1) n, upd c.L t (fun q => if q ≤ t then c.A t q / c.A t t else c.L t q) r p *
          upd c.d t (c.A t t) r * upd c.L t (fun q => if q ≤ t then c.A t q / c.A t t else c.L t q) r q =
          ∑ r ∈ Ico (t + 1) n, c.L r p * c.d r * c.L r q := by
        refine sum_congr rfl fun r hr => ?_
        rw [mem_Ico] at hr
        rw [upd_ne _ _ (by omega), upd_ne _ _ (by omega)]
      show _ = ite _ (ite (p < t ∧ q ≤ p) _ _) 0 + (upd c.L t _ t p * upd c.d t _ t * upd c.L t _ t q +
        ∑ r ∈ Ico (t + 1) n, upd c.L t (fun q => if q ≤ t then c.A t q / c.A t t else c.L t q) r p *
          upd c.d t (c.A t t) r * upd c.L t (fun q => if q ≤ t then c.A t q / c.A t t else c.L t q) r q)
      rw [hrest, upd_self, upd_self]
      rcases Nat.lt_trichotomy p t with e | e | e
      · rw [if_pos (by omega), if_pos e, if_pos ⟨e, hqp⟩, if_pos (by omega), if_pos (by omega)]
        ring
      · subst e
        rw [if_pos (by omega), if_neg (by omega), if_pos (by omega), if_pos hqp, div_self hp.ne']
        field_simp
        ring
      · rw [if_neg (by omega), if_neg (by omega), if_neg (by omega), h3 t p e]
        ring
    · show upd c.L t _ r r = 1
      by_cases e : r = t
      · subst e; rw [upd_self, if_pos (Nat.le_refl _), div_self hp.ne']
      · rw [upd_ne _ _ e]; exact h2 r (by omega) hrn
    · show upd c.L t _ r q = 0
      by_cases e : r = t
      · subst e; rw [upd_self, if_neg (by omega)]; exact h3 r q hrq
      · rw [upd_ne _ _ e]; exact h3 r q hrq

theorem ltdl_entry {K : Type} [Field K] {n : Nat} (L : Nat → Nat → K) (d : Nat → K) (p q : Fin n) :
    ltdl n L d p q = ∑ r ∈ range n, L r p * d r * L r q := by
  unfold ltdl
  rw [Matrix.mul_apply, ← Fin.sum_univ_eq_sum_range (fun r => L r p * d r * L r q)]
  refine Finset.sum_congr rfl fun r _ => ?_
  rw [Matrix.mul_diagonal]
  rfl

/-- what an accepted decomposition is -/
theorem ldldecom_sound {n : Nat} {Q L : Nat → Nat → ℝ} {d : Nat → ℝ} (hs : Sym n Q)
    (h : ldldecom n Q = .ok (L, d)) :
    mat n Q = ltdl n L d ∧ UnitLower n L ∧ ∀ i, i < n → 1 / 10 ^ 10 ≤ d i := by
  unfold ldldecom at h
  simp only at h
  split at h
  · cases h
  · rename_i hno
    push Not at hno
    rw [Except.ok.injEq, Prod.mk.injEq] at h
    obtain ⟨hL, hd⟩ := h
    rw [ldlLoop_eq] at *
    have hpos : ∀ i, i < n → 0 < (ldlFrom n Q 0).d i := fun i hi =>
      lt_of_lt_of_le (by norm_num) (hno i hi)
    obtain ⟨h1, h2, h3⟩ := ldl_inv hpos n 0 (by omega)
    rw [hL, hd] at h1
    rw [hL] at h2 h3
    rw [hd] at hno
    refine ⟨?_, ⟨fun i hi => h2 i (Nat.zero_le _) hi, fun i j hij _ => h3 i j hij⟩, hno⟩
    ext p q
    rw [ltdl_entry, ← Nat.Ico_zero_eq_range]
    show Q p q = _
    rcases Nat.le_total q p with e | e
    · have := h1 p q e p.2
      rw [if_neg (by omega), zero_add] at this
      exact this
    · have := h1 q p e q.2
      rw [if_neg (by omega), zero_add] at this
      rw [hs p q p.2 q.2, this]
      exact sum_congr rfl fun r _ => by ring

/-- every such factorisation is found -/
theorem ldldecom_complete {n : Nat} {Q L : Nat → Nat → ℝ} {d : Nat → ℝ}
    (hQ : mat n Q = ltdl n L d) (hL : UnitLower n L) (hd : ∀ i, i < n → 1 / 10 ^ 10 ≤ d i) :
    ∃ L' d', ldldecom n Q = .ok (L', d') ∧ (∀ i, i < n → d' i = d i) ∧
      ∀ i j, i < n → j < n → L' i j = L i j := by
  have hQ' : ∀ p q, p < n → q < n → Q p q = ∑ r ∈ range n, L r p * d r * L r q := by
    intro p q hp hq
    have := congrFun (congrFun hQ ⟨p, hp⟩) ⟨q, hq⟩
    rw [ltdl_entry] at this
    exact this
  have hdp : ∀ i, i < n → 0 < d i := fun i hi => lt_of_lt_of_le (by norm_num) (hd i hi)
  have key : ∀ s t, t + s = n →
      (∀ p q, q ≤ p → p < t → (ldlFrom n Q t).A p q = ∑ r ∈ range t, L r p * d r * L r q) ∧
      (∀ r, t ≤ r → r < n → (ldlFrom n Q t).d r = d r ∧ ∀ q, q < n → (ldlFrom n Q t).L r q = L r q) ∧
      (∀ r q, r < q → (ldlFrom n Q t).L r q = 0) := by
    intro s
    induction s with
    | zero =>
      intro t ht
      have : t = n := by omega
      subst this
      rw [ldlFrom_n]
      exact ⟨fun p q h1 h2 => hQ' p q h2 (by omega), fun r h1 h2 => by omega, fun _ _ _ => rfl⟩
    | succ s ih =>
      intro t ht
      have htn : t < n := by omega
      obtain ⟨h1, h2, h3⟩ := ih (t + 1) (by omega)
      have hrow : ∀ q, q ≤ t → (ldlFrom n Q (t + 1)).A t q = d t * L t q := by
        intro q hq
        rw [h1 t q hq (by omega), sum_range_succ,
          sum_eq_zero (fun r hr => by rw [hL.2 r t (mem_range.1 hr) htn]; ring), hL.1 t htn]
        ring
      have hp : 0 < (ldlFrom n Q (t + 1)).A t t := by
        rw [hrow t (Nat.le_refl _), hL.1 t htn, mul_one]; exact hdp t htn
      have hne := (hdp t htn).ne'
      rw [ldlFrom_succ htn, ldlStep_pos hp]
      have hdt : (ldlFrom n Q (t + 1)).A t t = d t := by rw [hrow t (Nat.le_refl _), hL.1 t htn, mul_one]
      generalize ldlFrom n Q (t + 1) = c at *
      refine ⟨fun p q hqp hpt => ?_, fun r hr hrn => ⟨?_, fun q hq => ?_⟩, fun r q hrq => ?_⟩
      · show ite (p < t ∧ q ≤ p) _ _ = _
        rw [if_pos ⟨hpt, hqp⟩, h1 p q hqp (by omega), sum_range_succ, hdt, hrow q (by omega), hrow p (by omega)]
        field_simp
        ring
      · show upd c.d t _ r = d r
        by_cases e : r = t
        · subst e; rw [upd_self, hdt]
        · rw [upd_ne _ _ e]; exact (h2 r (by omega) hrn).1
      · show upd c.L t _ r q = L r q
        by_cases e : r = t
        · subst e
          rw [upd_self]
          by_cases e' : q ≤ r
          · rw [if_pos e', hrow q e', hdt, mul_div_cancel_left₀ _ hne]
          · rw [if_neg e', h3 r q (by omega), hL.2 r q (by omega) hq]
        · rw [upd_ne _ _ e]; exact (h2 r (by omega) hrn).2 q hq
      · show upd c.L t _ r q = 0
        by_cases e : r = t
        · subst e; rw [upd_self, if_neg (by omega)]; exact h3 r q hrq
        · rw [upd_ne _ _ e]; exact h3 r q hrq
  obtain ⟨_, h2, _⟩ := key n 0 (by omega)
  refine ⟨_, _, ?_, fun i hi => (h2 i (Nat.zero_le _) hi).1, fun i j hi hj => (h2 i (Nat.zero_le _) hi).2 j hj⟩
  unfold ldldecom
  rw [ldlLoop_eq]
  simp only
  rw [if_neg]
  push Not
  intro i hi
  rw [(h2 i (Nat.zero_le _) hi).1]
  exact hd i hi

/-! ## The change of variables -/

variable {K : Type} [Field K] [LinearOrder K] [IsStrictOrderedRing K] [FloorRing K]

/-- a unimodular integer matrix has an integer inverse -/
theorem zinv {n : Nat} {Z : Matrix (Fin n) (Fin n) Int} (h : Z.det = 1 ∨ Z.det = -1) :
    ∃ W : Matrix (Fin n) (Fin n) Int, Zᵀ * W = 1 ∧ W * Zᵀ = 1 := by
  have hu : IsUnit (Zᵀ).det := by
    rw [det_transpose]
    rcases h with e | e <;> rw [e]
    · exact isUnit_one
    · exact isUnit_one.neg
  exact ⟨(Zᵀ)⁻¹, mul_nonsing_inv _ hu, nonsing_inv_mul _ hu⟩

omit [LinearOrder K] [IsStrictOrderedRing K] [FloorRing K] in
theorem toK_one {n : Nat} : toK K (1 : Matrix (Fin n) (Fin n) Int) = 1 :=
  Matrix.map_one _ (map_zero _) (map_one _)

omit [LinearOrder K] [IsStrictOrderedRing K] [FloorRing K] in
theorem toK_transpose {n : Nat} (Z : Matrix (Fin n) (Fin n) Int) : toK K Zᵀ = (toK K Z)ᵀ := rfl

omit [LinearOrder K] [IsStrictOrderedRing K] [FloorRing K] in
theorem toK_mulVec {n : Nat} (Z : Matrix (Fin n) (Fin n) Int) (v : Fin n → Int) :
    toK K Z *ᵥ (fun i => (v i : K)) = fun i => ((Z *ᵥ v) i : K) := by
  funext i
  unfold toK Matrix.mulVec dotProduct
  simp

omit [LinearOrder K] [IsStrictOrderedRing K] [FloorRing K] in
/-- distances are kept by the change of variables -/
theorem sqdist_change {n : Nat} {Q : Matrix (Fin n) (Fin n) K} {Z : Matrix (Fin n) (Fin n) Int}
    (hz : Z.det = 1 ∨ Z.det = -1) (a : Fin n → K) (v : Fin n → Int) :
    sqdist ((toK K Z)ᵀ * Q * toK K Z) ((toK K Z)ᵀ *ᵥ a) (Zᵀ *ᵥ v) = sqdist Q a v := by
  have hdz : IsUnit (toK K Z).det := by
    unfold toK
    rw [← RingHom.mapMatrix_apply, ← RingHom.map_det]
    rcases hz with e | e <;> rw [e] <;> simp
  have hdzt : IsUnit ((toK K Z)ᵀ).det := by rw [det_transpose]; exact hdz
  have e : (fun i => ((toK K Z)ᵀ *ᵥ a) i - (((Zᵀ *ᵥ v) i : Int) : K)) =
      (toK K Z)ᵀ *ᵥ fun i => a i - (v i : K) := by
    have h1 := toK_mulVec (K := K) Zᵀ v
    rw [toK_transpose] at h1
    funext i
    rw [← congrFun h1 i]
    show _ = ((toK K Z)ᵀ *ᵥ (a - fun i => (v i : K))) i
    rw [mulVec_sub]
    rfl
  unfold sqdist
  rw [e]
  generalize (fun i => a i - (v i : K)) = w
  rw [Matrix.mul_inv_rev, Matrix.mul_inv_rev, mulVec_mulVec, Matrix.mul_assoc, Matrix.mul_assoc,
    nonsing_inv_mul _ hdzt, Matrix.mul_one, ← mulVec_mulVec, dotProduct_comm, dotProduct_mulVec,
    vecMul_transpose, mulVec_mulVec, mul_nonsing_inv _ hdz, one_mulVec, dotProduct_comm]

/-- `estimILS` finds the best candidates -/
theorem estimILS_best' {n : Nat} {L : Nat → Nat → K} {d ahat : Nat → K} {ncands : Nat}
    (hL : UnitLower n L) (hd : ∀ i, i < n → 0 < d i) (hn : 0 < n) (hc : 0 < ncands)
    (hA : ∃ A : Finset (Fin n → Int), A.card = ncands ∧
      ∀ z ∈ A, sqdist (ltdl n L d) (vec n ahat) z < 10 ^ 18) :
    ∃ r, Best (ltdl n L d) (vec n ahat) ncands (vecs n r) ∧
      ∃ fuel, ∀ fuel', fuel ≤ fuel' → estimILS n L d ahat ncands fuel' = some r := by
  obtain ⟨c, N, fuel, h1, h2, h3⟩ := estimILS_ends (L := L) (ahat := ahat) hd hn hc
  exact ⟨_, best_of_cands hL hd h1 h2 hA, fuel, h3⟩

/-- the inverse computed by `mlambda` is the exact integer inverse -/
theorem invZt_eq {n : Nat} {Z : Nat → Nat → Int} {W : Matrix (Fin n) (Fin n) Int}
    (h : (zmat n Z)ᵀ * W = 1) : invZt n Z = toK ℝ W := by
  have e : ((toK ℝ (zmat n Z))ᵀ)⁻¹ = toK ℝ W := by
    refine Matrix.inv_eq_right_inv ?_
    rw [← toK_transpose, ← toK_mul, h, toK_one]
  have hr : ∀ m : Int, rnd (m : ℝ) = m := by
    intro m
    unfold rnd
    rw [Int.floor_intCast, sub_self, if_pos (by norm_num)]
  ext i j
  show ((rnd (((toK ℝ (zmat n Z))ᵀ)⁻¹ i j) : Int) : ℝ) = _
  rw [e]
  show ((rnd ((W i j : Int) : ℝ) : Int) : ℝ) = ((W i j : Int) : ℝ)
  rw [hr]

theorem vec_ztA (n : Nat) (Z : Nat → Nat → Int) (ahat : Nat → ℝ) :
    vec n (ztA n Z ahat) = (toK ℝ (zmat n Z))ᵀ *ᵥ vec n ahat := by
  funext i
  unfold vec ztA Matrix.mulVec dotProduct
  rw [← Fin.sum_univ_eq_sum_range (fun j => (Z j i : ℝ) * ahat j) n]
  rfl

/-- the whole of `mlambda` with full fixing -/
theorem mlambda_best' {n : Nat} {ahat : Nat → ℝ} {Q : Nat → Nat → ℝ} {ncands : Nat} (hn : 0 < n)
    (hc : 0 < ncands) {L : Nat → Nat → ℝ} {d : Nat → ℝ} (hQ : mat n Q = ltdl n L d)
    (hL : UnitLower n L) (hd : ∀ i, i < n → 1 / 10 ^ 10 ≤ d i)
    (hA : ∃ A : Finset (Fin n → Int), A.card = ncands ∧
      ∀ z ∈ A, sqdist (mat n Q) (vec n ahat) z < 10 ^ 18) :
    ∃ r, Best (mat n Q) (vec n ahat) ncands r ∧
      ∃ fuel, ∀ fuel', fuel ≤ fuel' →
        mlambda n ahat Q ncands fuel' = .ok (some (r.map fun p => (fun i => (p.1 i : ℝ), p.2))) := by
  have hsym : Sym n Q := by
    intro i j hi hj
    have h1 := congrFun (congrFun hQ ⟨i, hi⟩) ⟨j, hj⟩
    have h2 := congrFun (congrFun hQ ⟨j, hj⟩) ⟨i, hi⟩
    rw [ltdl_entry] at h1 h2
    show mat n Q ⟨i, hi⟩ ⟨j, hj⟩ = mat n Q ⟨j, hj⟩ ⟨i, hi⟩
    rw [h1, h2]
    exact sum_congr rfl fun r _ => by ring
  obtain ⟨L', d', e, _, _⟩ := ldldecom_complete hQ hL hd
  obtain ⟨hQ', hL', hd'⟩ := ldldecom_sound hsym e
  have hpos : ∀ i, i < n → 0 < d' i := fun i hi => lt_of_lt_of_le (by norm_num) (hd' i hi)
  obtain ⟨c, f1, hrel, _, _, hf1⟩ := reduction_ends hL' hpos hn
  obtain ⟨W, hW1, hW2⟩ := zinv hrel.det
  rw [hQ'] at hA ⊢
  have hch : ∀ v : Fin n → Int, sqdist (ltdl n c.L c.d) (vec n (ztA n c.Z ahat)) ((zmat n c.Z)ᵀ *ᵥ v) =
      sqdist (ltdl n L' d') (vec n ahat) v := by
    intro v
    rw [hrel.eq, vec_ztA]
    exact sqdist_change hrel.det _ _
  have hch' : ∀ v : Fin n → Int, sqdist (ltdl n c.L c.d) (vec n (ztA n c.Z ahat)) v =
      sqdist (ltdl n L' d') (vec n ahat) (W *ᵥ v) := by
    intro v
    rw [← hch, mulVec_mulVec, hW1, one_mulVec]
  have hinj : Function.Injective fun v : Fin n → Int => W *ᵥ v := by
    intro v w h
    have h' := congrArg (fun u => (zmat n c.Z)ᵀ *ᵥ u) h
    simp only [mulVec_mulVec, hW1, one_mulVec] at h'
    exact h'
  have hinjZ : Function.Injective fun v : Fin n → Int => (zmat n c.Z)ᵀ *ᵥ v := by
    intro v w h
    have h' := congrArg (fun u => W *ᵥ u) h
    simp only [mulVec_mulVec, hW2, one_mulVec] at h'
    exact h'
  obtain ⟨A, hA1, hA2⟩ := hA
  obtain ⟨r, hr, f2, hf2⟩ := estimILS_best' (ahat := ztA n c.Z ahat) hrel.low hrel.pos hn hc
    ⟨A.map ⟨_, hinjZ⟩, by rw [Finset.card_map, hA1], fun z hz => by
      rw [Finset.mem_map] at hz
      obtain ⟨v, hv, e⟩ := hz
      rw [← e]
      show sqdist _ _ ((zmat n c.Z)ᵀ *ᵥ v) < _
      rw [hch]
      exact hA2 v hv⟩
  refine ⟨(vecs n r).map fun p => (W *ᵥ p.1, p.2), ⟨?_, ?_, ?_, ?_, ?_⟩, max f1 f2, fun fuel' hf => ?_⟩
  · rw [List.length_map]; exact hr.length
  · rw [List.pairwise_map]; exact hr.sorted
  · have : ((vecs n r).map fun p => (W *ᵥ p.1, p.2)).map Prod.fst =
        ((vecs n r).map Prod.fst).map fun v => W *ᵥ v := by
      rw [List.map_map, List.map_map]; rfl
    rw [this]
    exact hr.nodup.map hinj
  · intro p hp
    rw [List.mem_map] at hp
    obtain ⟨q, hq, e⟩ := hp
    subst e
    show q.2 = sqdist _ _ (W *ᵥ q.1)
    rw [← hch', hr.value q hq]
  · intro z hz p hp
    rw [List.mem_map] at hp
    obtain ⟨q, hq, e⟩ := hp
    subst e
    show q.2 ≤ _
    rw [← hch z]
    refine hr.best _ (fun hm => hz ?_) q hq
    rw [List.mem_map] at hm ⊢
    obtain ⟨p, hp, e⟩ := hm
    refine ⟨(W *ᵥ p.1, p.2), List.mem_map.2 ⟨p, hp, rfl⟩, ?_⟩
    show W *ᵥ p.1 = z
    rw [e, mulVec_mulVec, hW2, one_mulVec]
  · unfold mlambda
    rw [e]
    show Except.ok ((reduction n L' d' fuel').bind _) = _
    rw [hf1 fuel' (le_of_max_le_left hf)]
    show Except.ok ((estimILS n c.L c.d (ztA n c.Z ahat) ncands fuel').map _) = _
    rw [hf2 fuel' (le_of_max_le_right hf)]
    show Except.ok (some (List.map _ r)) = _
    unfold vecs
    rw [List.map_map, List.map_map, invZt_eq hW1]
    congr 2
    refine List.map_congr_left fun p _ => ?_
    show (toK ℝ W *ᵥ (fun i : Fin n => ((vec n p.1 i : Int) : ℝ)), p.2) = _
    rw [toK_mulVec]
    rfl

end Verif.Lambda
