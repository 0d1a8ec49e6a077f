import Verif.Lemmas.Mlambda
/-!
# C29 Integer least-squares search returns the optimum

`Best Q a m r` says: `r` lists `m` different integer vectors in order of their distance
`(a - z)ᵀ Q⁻¹ (a - z)`, each with its distance, and every integer vector not listed is at least as
far away as all listed ones.  The only hypothesis beyond the shape of the factors is that `m`
integer vectors closer than `10^18` exist, the start value of the search bound.
-/

namespace Verif.C29
open Verif.Lambda Finset Matrix
variable {K : Type} [Field K] [LinearOrder K] [IsStrictOrderedRing K] [FloorRing K]

/-- `m` integer vectors within the initial search bound -/
def Enough {n : Nat} (Q : Matrix (Fin n) (Fin n) K) (a : Fin n → K) (m : Nat) : Prop :=
  ∃ A : Finset (Fin n → Int), A.card = m ∧ ∀ z ∈ A, sqdist Q a z < 10 ^ 18

/-- `estimILS` ends with the best candidates -/
theorem estimILS_best {n ncands : Nat} {L : Nat → Nat → K} {d ahat : Nat → K}
    (hL : UnitLower n L) (hd : ∀ i, i < n → 0 < d i) (hn : 0 < n) (hc : 0 < ncands)
    (hA : Enough (ltdl n L d) (vec n ahat) ncands) :
    ∃ r, Best (ltdl n L d) (vec n ahat) ncands (vecs n r) ∧
      ∃ fuel, ∀ fuel', fuel ≤ fuel' → estimILS n L d ahat ncands fuel' = some r :=
  estimILS_best' hL hd hn hc hA

/-- `msearch` ends with the best candidates -/
theorem msearch_best {n ncands : Nat} {L : Nat → Nat → K} {d ahat : Nat → K}
    (hL : UnitLower n L) (hd : ∀ i, i < n → 0 < d i) (hn : 0 < n) (hc : 0 < ncands)
    (hA : Enough (ltdl n L d) (vec n ahat) ncands) :
    ∃ r, Best (ltdl n L d) (vec n ahat) ncands (vecs n r) ∧
      ∃ fuel, ∀ fuel', fuel ≤ fuel' → msearch n L d ahat ncands fuel' = some r := by
  obtain ⟨c, N, fuel, h1, h2, h3⟩ := msearch_ends (L := L) (ahat := ahat) hd hn hc
  exact ⟨_, best_of_cands hL hd h1 h2 hA, fuel, h3⟩

/-- both searches give the same distances -/
theorem same_distances {n : Nat} {Q : Matrix (Fin n) (Fin n) K} {a : Fin n → K} {m : Nat}
    {r r' : List ((Fin n → Int) × K)} (h : Best Q a m r) (h' : Best Q a m r') :
    r.map Prod.snd = r'.map Prod.snd := by
  have key : ∀ {r r' : List ((Fin n → Int) × K)}, Best Q a m r → Best Q a m r' →
      ∀ i (hi : i < r.length) (hi' : i < r'.length), r[i].2 ≤ r'[i].2 := by
    intro r r' h h' i hi hi'
    by_contra hlt
    rw [not_le] at hlt
    -- the first `i + 1` vectors of `r'` are all among the first `i` of `r`
    have hsub : ((r'.take (i + 1)).map Prod.fst).toFinset ⊆ ((r.take i).map Prod.fst).toFinset := by
      intro z hz
      rw [List.mem_toFinset, List.mem_map] at hz ⊢
      obtain ⟨p, hp, e⟩ := hz
      obtain ⟨k, hk, ek⟩ := List.getElem_of_mem hp
      rw [List.length_take] at hk
      rw [List.getElem_take] at ek
      have hle : p.2 ≤ r'[i].2 := by
        rw [← ek]
        rcases Nat.lt_or_ge k i with g | g
        · exact List.pairwise_iff_getElem.1 h'.sorted k i (by omega) hi' g
        · have : k = i := by omega
          subst this; exact le_refl _
      have hval := h'.value p (List.mem_of_mem_take hp)
      by_contra hno
      have hmem : z ∈ r.map Prod.fst := by
        by_contra hm
        have := h.best z hm r[i] (List.getElem_mem _)
        rw [← e, ← hval] at this
        exact absurd (this.trans hle) (not_le.2 hlt)
      rw [List.mem_map] at hmem
      obtain ⟨q, hq, eq⟩ := hmem
      obtain ⟨l, hl, el⟩ := List.getElem_of_mem hq
      have hqv : q.2 = p.2 := by rw [h.value q hq, hval, eq, e]
      rcases Nat.lt_or_ge l i with g | g
      · refine hno ⟨q, ?_, eq⟩
        rw [← el, List.mem_take_iff_getElem]
        exact ⟨l, by omega, rfl⟩
      · have : r[i].2 ≤ r[l].2 := by
          rcases Nat.lt_or_ge i l with g' | g'
          · exact List.pairwise_iff_getElem.1 h.sorted i l hi hl g'
          · have : l = i := by omega
            subst this; exact le_refl _
        rw [el, hqv] at this
        exact absurd (this.trans hle) (not_le.2 hlt)
    have hcard := Finset.card_le_card hsub
    have n1 : ((r'.take (i + 1)).map Prod.fst).Nodup := by
      rw [List.map_take]; exact h'.nodup.sublist (List.take_sublist _ _)
    have n2 : ((r.take i).map Prod.fst).Nodup := by
      rw [List.map_take]; exact h.nodup.sublist (List.take_sublist _ _)
    rw [List.toFinset_card_of_nodup n1, List.toFinset_card_of_nodup n2, List.length_map,
      List.length_map, List.length_take, List.length_take] at hcard
    omega
  refine List.ext_getElem (by rw [List.length_map, List.length_map, h.length, h'.length]) ?_
  intro i h1 h2
  rw [List.getElem_map, List.getElem_map]
  rw [List.length_map] at h1 h2
  exact le_antisymm (key h h' i h1 h2) (key h' h i h2 h1)

/-- `mlambda` with full fixing: for every covariance with a factorisation `Lᵀ D L` whose diagonal
is at least `10^-10`, and every float vector, the returned vectors are integer vectors and the best
candidates of the original problem -/
theorem mlambda_best {n ncands : Nat} {ahat : Nat → ℝ} {Q L : Nat → Nat → ℝ} {d : Nat → ℝ}
    (hQ : mat n Q = ltdl n L d) (hL : UnitLower n L) (hd : ∀ i, i < n → 1 / 10 ^ 10 ≤ d i)
    (hn : 0 < n) (hc : 0 < ncands) (hA : Enough (mat n Q) (vec n ahat) ncands) :
    ∃ r, Best (mat n Q) (vec n ahat) ncands r ∧
      ∃ fuel, ∀ fuel', fuel ≤ fuel' →
        mlambda n ahat Q ncands fuel' = .ok (some (r.map fun p => (fun i => (p.1 i : ℝ), p.2))) :=
  mlambda_best' hn hc hQ hL hd hA

/-- a symmetric matrix without such a factorisation is refused -/
theorem mlambda_refuses {n ncands fuel : Nat} {ahat : Nat → ℝ} {Q : Nat → Nat → ℝ}
    (hs : ∀ i j, i < n → j < n → Q i j = Q j i) :
    mlambda n ahat Q ncands fuel = .error .systemExit ↔
      ¬ ∃ L d, mat n Q = ltdl n L d ∧ UnitLower n L ∧ ∀ i, i < n → 1 / 10 ^ 10 ≤ d i := by
  constructor
  · rintro h ⟨L, d, h1, h2, h3⟩
    obtain ⟨L', d', e, _⟩ := ldldecom_complete h1 h2 h3
    unfold mlambda at h
    rw [e] at h
    cases h
  · intro h
    unfold mlambda
    cases e : ldldecom n Q with
    | ok p =>
      obtain ⟨L, d⟩ := p
      exact absurd ⟨L, d, ldldecom_sound hs e⟩ h
    | error x =>
      unfold ldldecom at e
      simp only at e
      split at e
      · cases e; rfl
      · cases e

/-! ## Concrete cases -/

def exL : Nat → Nat → ℚ := fun i j => if i = j then 1 else if i = 1 ∧ j = 0 then 7 / 10 else 0
def exD : Nat → ℚ := fun i => if i = 0 then 1 / 25 else 2
def exA : Nat → ℚ := fun i => if i = 0 then 23 / 10 else -7 / 4

theorem exL_ok : UnitLower 2 exL :=
  ⟨fun i _ => by simp [exL], fun i j h1 h2 => by
    have : i = 0 := by omega
    have : j = 1 := by omega
    subst_vars; decide +kernel⟩

theorem exD_ok : ∀ i, i < 2 → 0 < exD i := by decide +kernel

/-- the hypotheses of both searches hold for a correlated two-dimensional problem -/
example : Enough (ltdl 2 exL exD) (vec 2 exA) 2 := by
  refine ⟨{![2, -2], ![3, -1]}, by decide +kernel, fun z hz => ?_⟩
  rw [Finset.mem_insert, Finset.mem_singleton] at hz
  have h := sqdist_eq exL_ok exD_ok (ahat := exA) (arr z)
  rw [vec_arr] at h
  rw [h]
  rcases hz with e | e <;> subst e <;> decide +kernel

/-- and the searches then give -/
example : (estimILS 2 exL exD exA 2 100).map (fun r => r.map fun p => (p.1 0, p.1 1, p.2)) =
    (msearch 2 exL exD exA 2 100).map (fun r => r.map fun p => (p.1 0, p.1 1, p.2)) := by
  decide +kernel

/-- the bound matters: with no integer vector within `10^18` a zero vector with distance zero is
returned -/
example : (estimILS 1 (fun _ _ => (1 : ℚ)) (fun _ => 1 / 10 ^ 20) (fun _ => 9 / 2) 1 10).map
    (fun r => r.map fun p => (p.1 0, p.2)) = some [(0, 0)] := by decide +kernel

/-- the hypotheses of `mlambda_best` hold for a correlated two-dimensional covariance -/
example : ∃ (Q L : Nat → Nat → ℝ) (d ahat : Nat → ℝ), mat 2 Q = ltdl 2 L d ∧ UnitLower 2 L ∧
    (∀ i, i < 2 → 1 / 10 ^ 10 ≤ d i) ∧ Enough (mat 2 Q) (vec 2 ahat) 2 ∧ Q 0 1 ≠ 0 := by
  let L : Nat → Nat → ℝ := fun i j => if i = j then 1 else if i = 1 ∧ j = 0 then 1 / 2 else 0
  let d : Nat → ℝ := fun i => if i = 0 then 1 / 25 else 2
  let a : Nat → ℝ := fun i => if i = 0 then 23 / 10 else -7 / 4
  let Q : Nat → Nat → ℝ := fun i j => ∑ r ∈ range 2, L r i * d r * L r j
  have hQ : mat 2 Q = ltdl 2 L d := by
    ext p q
    rw [ltdl_entry]
    rfl
  have hL : UnitLower 2 L := ⟨fun i _ => by simp [L], fun i j h1 h2 => by
    have : i = 0 := by omega
    have : j = 1 := by omega
    subst_vars; simp [L]⟩
  have hd : ∀ i, i < 2 → 1 / 10 ^ 10 ≤ d i := by
    intro i _
    show (1 : ℝ) / 10 ^ 10 ≤ if i = 0 then 1 / 25 else 2
    split_ifs <;> norm_num
  refine ⟨Q, L, d, a, hQ, hL, hd, ?_, ?_⟩
  · refine ⟨{![2, -2], ![3, -1]}, by decide +kernel, fun z hz => ?_⟩
    rw [Finset.mem_insert, Finset.mem_singleton] at hz
    have h := sqdist_eq hL (fun i hi => lt_of_lt_of_le (by norm_num) (hd i hi)) (ahat := a) (arr z)
    rw [vec_arr] at h
    rw [hQ, h]
    have e2 : Ioo 0 2 = {1} := by decide
    have e1 : Ioo 1 2 = ∅ := by decide
    rcases hz with e | e <;> subst e <;>
      simp [Lambda.norm, resid, Finset.sum_range_succ, upd, L, d, a, arr, e1, e2] <;> norm_num
  · show ∑ r ∈ range 2, L r 0 * d r * L r 1 ≠ 0
    simp [Finset.sum_range_succ, L, d]

end Verif.C29
