import Verif.Lemmas.Search
/-!
# `msearch` and `estimILS` compute the search without caches
-/

namespace Verif.Lambda
open Finset
variable {K : Type} [Field K] [LinearOrder K] [IsStrictOrderedRing K] [FloorRing K]
variable {n : Nat} {L : Nat → Nat → K} {d ahat : Nat → K} {ncands : Nat}

/-- the sums cached in `S` -/
def T (n : Nat) (L : Nat → Nat → K) (acond : Nat → K) (z : Nat → Int) (j i : Nat) : K :=
  - ∑ l ∈ Ioo j n, (acond l - z l) * L l i

theorem T_congr {a a' : Nat → K} {z z' : Nat → Int} {j i : Nat}
    (h : ∀ l, j < l → l < n → a l = a' l ∧ z l = z' l) : T n L a z j i = T n L a' z' j i := by
  unfold T
  congr 1
  refine sum_congr rfl fun l hl => ?_
  rw [mem_Ioo] at hl
  rw [(h l hl.1 hl.2).1, (h l hl.1 hl.2).2]

theorem T_succ (a : Nat → K) (z : Nat → Int) {j : Nat} (i : Nat) (h : j + 1 < n) :
    T n L a z j i = T n L a z (j + 1) i - (a (j + 1) - z (j + 1)) * L (j + 1) i := by
  unfold T
  have e : Ioo j n = Ico (j + 1) n := by ext l; rw [mem_Ioo, mem_Ico]; omega
  rw [e, sum_Ico_eq _ _ h]
  ring

theorem T_top (a : Nat → K) (z : Nat → Int) {j : Nat} (i : Nat) (h : n ≤ j + 1) :
    T n L a z j i = 0 := by
  unfold T
  have e : Ioo j n = ∅ := by ext l; simp; omega
  rw [e, sum_empty, neg_zero]

theorem centre_T (a : Nat → K) (z : Nat → Int) (k : Nat) :
    centre n L ahat a z k = ahat k + T n L a z k k := by
  unfold centre T; ring

/-! ## `msearch` -/

def Ms.core (c : Ms K) : Core K := ⟨c.k, c.chi2, c.dist, c.acond, c.z, c.s, c.cand⟩

structure MsInv (n : Nat) (L : Nat → Nat → K) (c : Ms K) : Prop where
  k : c.k < n
  left : c.left = c.acond c.k - c.z c.k
  S : ∀ m, c.k ≤ m → m < n → ∀ i, i ≤ m → c.S m i = T n L c.acond c.z m i

theorem ms_sim {c : Ms K} (h : MsInv n L c) :
    (coreStep n L d ahat ncands 0 c.core = none → msStep n L d ahat ncands c = none) ∧
    ∀ c', coreStep n L d ahat ncands 0 c.core = some c' →
      ∃ m, msStep n L d ahat ncands c = some m ∧ m.core = c' ∧ MsInv n L m := by
  have hkn := h.k
  have hnd : c.core.nd d = c.dist c.k + c.left ^ 2 / d c.k := by rw [h.left]; rfl
  unfold coreStep msStep
  rw [hnd]
  by_cases c1 : c.dist c.k + c.left ^ 2 / d c.k < c.chi2
  · rw [if_pos (show c.dist c.k + c.left ^ 2 / d c.k < c.core.chi2 from c1)]
    simp only [if_pos c1]
    by_cases c2 : c.k ≠ 0
    · have c2' : c.core.k ≠ 0 := c2
      rw [if_pos c2', if_pos c2]
      refine ⟨fun e => (by cases e), fun c' e => ?_⟩
      cases e
      refine ⟨_, rfl, ?_, ?_⟩
      · have ha : ahat (c.k - 1) + (upd c.S (c.k - 1) (fun i => if i < c.k - 1 + 1
            then c.S (c.k - 1 + 1) i + ((c.z (c.k - 1 + 1) : K) - c.acond (c.k - 1 + 1)) * L (c.k - 1 + 1) i
            else c.S (c.k - 1) i)) (c.k - 1) (c.k - 1) = centre n L ahat c.acond c.z (c.k - 1) := by
          rw [centre_T, upd_self, if_pos (by omega), T_succ _ _ _ (by omega),
            show c.k - 1 + 1 = c.k by omega, h.S c.k (Nat.le_refl _) hkn _ (by omega)]
          ring
        unfold Ms.core Core.down
        simp only [ha]
        rw [← hnd]
        rfl
      · refine ⟨by show c.k - 1 < n; omega, ?_, fun m h1 h2 i hi => ?_⟩
        · simp only [upd_self]
        · replace h1 : c.k - 1 ≤ m := h1
          have ht : T n L (upd c.acond (c.k - 1) (ahat (c.k - 1) + (upd c.S (c.k - 1) (fun i => if i < c.k - 1 + 1
            then c.S (c.k - 1 + 1) i + ((c.z (c.k - 1 + 1) : K) - c.acond (c.k - 1 + 1)) * L (c.k - 1 + 1) i
            else c.S (c.k - 1) i)) (c.k - 1) (c.k - 1))) (upd c.z (c.k - 1) (rnd (ahat (c.k - 1) + (upd c.S (c.k - 1) (fun i => if i < c.k - 1 + 1
            then c.S (c.k - 1 + 1) i + ((c.z (c.k - 1 + 1) : K) - c.acond (c.k - 1 + 1)) * L (c.k - 1 + 1) i
            else c.S (c.k - 1) i)) (c.k - 1) (c.k - 1)))) m i = T n L c.acond c.z m i :=
            T_congr fun l g1 g2 => ⟨upd_ne _ _ (by omega), upd_ne _ _ (by omega)⟩
          refine Eq.trans ?_ ht.symm
          show upd c.S (c.k - 1) _ m i = _
          by_cases e : m = c.k - 1
          · subst e
            rw [upd_self, if_pos (by omega), T_succ _ _ _ (by omega),
              show c.k - 1 + 1 = c.k by omega, h.S c.k (Nat.le_refl _) hkn _ (by omega)]
            ring
          · rw [upd_ne _ _ e]
            exact h.S m (by omega) h2 i hi
    · have c2' : ¬ c.core.k ≠ 0 := c2
      have e0 : c.k = 0 := by omega
      rw [if_neg c2', if_neg c2]
      refine ⟨fun e => (by cases e), fun c' e => ?_⟩
      cases e
      refine ⟨_, rfl, ?_, ?_⟩
      · unfold Core.recd
        rw [hnd]
        unfold Ms.core Core.sib
        simp only [e0]
      · refine ⟨hkn, ?_, fun m h1 h2 i hi => ?_⟩
        · simp only [e0, upd_self]
        · refine Eq.trans (h.S m h1 h2 i hi) (T_congr fun l g1 g2 => ⟨rfl, ?_⟩)
          exact (upd_ne _ _ (by omega)).symm
  · rw [if_neg (show ¬ c.dist c.k + c.left ^ 2 / d c.k < c.core.chi2 from c1)]
    simp only [if_neg c1]
    by_cases c2 : c.k = n - 1
    · have c2' : c.core.k = n - 1 := c2
      rw [if_pos c2', if_pos c2]
      exact ⟨fun _ => rfl, fun c' e => (by cases e)⟩
    · have c2' : ¬ c.core.k = n - 1 := c2
      rw [if_neg c2', if_neg c2]
      refine ⟨fun e => (by cases e), fun c' e => ?_⟩
      cases e
      refine ⟨_, rfl, rfl, by show c.k + 1 < n; omega, ?_, fun m h1 h2 i hi => ?_⟩
      · simp only [upd_self]
      · replace h1 : c.k + 1 ≤ m := h1
        refine Eq.trans (h.S m (by omega) h2 i hi) (T_congr fun l g1 g2 => ⟨rfl, ?_⟩)
        exact (upd_ne _ _ (by omega)).symm

/-- lifting runs through a simulation that takes one or more steps -/
theorem reach_lift {σ τ : Type} {f : σ → Option σ} {g : τ → Option τ} {R : τ → σ → Prop}
    (hsim : ∀ t s, R t s → ∀ s', f s = some s' → ∃ t', Reach g t t' ∧ R t' s') {s s' : σ}
    (h : Reach f s s') : ∀ t, R t s → ∃ t', Reach g t t' ∧ R t' s' := by
  induction h with
  | refl c => exact fun t ht => ⟨t, Reach.refl t, ht⟩
  | step hs _ ih =>
    intro t ht
    obtain ⟨t1, r1, q1⟩ := hsim t _ ht _ hs
    obtain ⟨t2, r2, q2⟩ := ih t1 q1
    exact ⟨t2, r1.trans r2, q2⟩

theorem msInit_inv (hn : 0 < n) : MsInv n L (msInit n ahat ncands) := by
  refine ⟨by show n - 1 < n; omega, ?_, fun m h1 h2 i _ => ?_⟩
  · simp only [msInit, upd_self]
  · replace h1 : n - 1 ≤ m := h1
    rw [T_top _ _ _ (by omega)]
    rfl

/-- `msearch` ends with the candidates of the search without caches -/
theorem msearch_ends (hd : ∀ i, i < n → 0 < d i) (hn : 0 < n) (hc : 0 < ncands) :
    ∃ (c : Core K) (N fuel : Nat), Cands n L d ahat ncands c N ∧
      (∀ z, norm n L d ahat z < c.chi2 → ∃ i, i < N ∧ ∀ l, l < n → z l = c.cand.af i l) ∧
      ∀ fuel', fuel ≤ fuel' → msearch n L d ahat ncands fuel' = some (output ncands c.cand) := by
  obtain ⟨c, N, r, e, hN, hcov⟩ := core_ends (L := L) (ahat := ahat) hd hn hc (k0 := 0) (Or.inl rfl)
  obtain ⟨m, r', q1, q2⟩ := reach_lift (g := msStep n L d ahat ncands)
    (R := fun m c => m.core = c ∧ MsInv n L m)
    (fun t s ⟨h1, h2⟩ s' hs => by
      subst h1
      obtain ⟨m, g1, g2, g3⟩ := (ms_sim h2).2 s' hs
      exact ⟨m, Reach.step g1 (Reach.refl _), g2, g3⟩) r (msInit n ahat ncands)
    ⟨rfl, msInit_inv hn⟩
  have hend : msStep n L d ahat ncands m = none := (ms_sim q2).1 (by rw [q1]; exact e)
  obtain ⟨fuel, hf⟩ := r'.iter hend
  refine ⟨c, N, fuel, hN, hcov, fun fuel' hle => ?_⟩
  unfold msearch
  rw [iter_mono hf fuel' hle, ← q1]
  rfl

/-! ## `estimILS` -/

def Es.core (c : Es K) : Core K := ⟨c.k, c.chi2, c.dist, c.acond, c.z, c.s, c.cand⟩

structure EsInv (n : Nat) (L : Nat → Nat → K) (c : Es K) : Prop where
  k : c.k < n
  il : c.up.getD c.k ≤ c.k
  left : ∀ j, c.k ≤ j → j < n → c.left j = c.acond j - c.z j
  pn : ∀ i, i < n → c.path i < n
  pi : ∀ i, i + 1 < n → i < c.path i
  pk : c.up = none → ∀ i, i < c.k → c.k ≤ c.path i
  anti : ∀ i i', i ≤ i' → i' < c.up.getD c.k → c.path i' ≤ c.path i
  low : ∀ i, i < c.up.getD c.k → ∀ j, c.path i ≤ j → c.k ≤ j → j < n →
    c.S j i = T n L c.acond c.z j i
  act : ∀ i, c.up.getD c.k ≤ i → i < n → ∀ j, i ≤ j → c.k ≤ j → j < n →
    c.S j i = T n L c.acond c.z j i

/-- what the sweep over one column computes -/
theorem sweep_spec {left : Nat → K} {acond : Nat → K} {z : Nat → Int} {k : Nat}
    (hl : ∀ j, k < j → j < n → left j = acond j - z j) :
    ∀ m top, top = k + m → top < n → ∀ S : Nat → Nat → K,
      (∀ j, top ≤ j → j < n → S j k = T n L acond z j k) →
      (∀ j, k ≤ j → j < n → sweep L left k m top S j k = T n L acond z j k) ∧
      ∀ j i, i ≠ k → sweep L left k m top S j i = S j i := by
  intro m
  induction m with
  | zero =>
    intro top ht hn S hS
    unfold sweep
    exact ⟨fun j h1 h2 => hS j (by omega) h2, fun _ _ _ => rfl⟩
  | succ m ih =>
    intro top ht hn S hS
    unfold sweep
    obtain ⟨g1, g2⟩ := ih (top - 1) (by omega) (by omega)
      (upd S (top - 1) (upd (S (top - 1)) k (S top k - left top * L top k))) (fun j h1 h2 => by
        by_cases e : j = top - 1
        · subst e
          rw [upd_self, upd_self, hS top (Nat.le_refl _) hn, hl top (by omega) hn,
            T_succ (j := top - 1) _ _ _ (by omega), show top - 1 + 1 = top by omega]
        · rw [upd_ne _ _ e]
          exact hS j (by omega) h2)
    refine ⟨g1, fun j i hi => ?_⟩
    rw [g2 j i hi]
    by_cases e : j = top - 1
    · subst e; rw [upd_self, upd_ne _ _ hi]
    · rw [upd_ne _ _ e]

/-- what the loop with the `break` computes -/
theorem lower_spec {k : Nat} : ∀ m (p : Nat → Nat), (∀ i i', i ≤ i' → i' < m → p i' ≤ p i) →
    (∀ i, i < m → lower k m p i = max (p i) k) ∧ ∀ i, m ≤ i → lower k m p i = p i := by
  intro m
  induction m with
  | zero => intro p _; exact ⟨fun i h => by omega, fun _ _ => rfl⟩
  | succ m ih =>
    intro p hp
    unfold lower
    split
    · rename_i h
      obtain ⟨g1, g2⟩ := ih (upd p m k) (fun i i' h1 h2 => by
        rw [upd_ne _ _ (by omega), upd_ne _ _ (by omega)]; exact hp i i' h1 (by omega))
      refine ⟨fun i hi => ?_, fun i hi => ?_⟩
      · by_cases e : i = m
        · subst e; rw [g2 i (Nat.le_refl _), upd_self]; omega
        · rw [g1 i (by omega), upd_ne _ _ e]
      · rw [g2 i (by omega), upd_ne _ _ (by omega)]
    · rename_i h
      refine ⟨fun i hi => ?_, fun _ _ => rfl⟩
      have := hp i m (by omega) (by omega)
      omega

/-- leaving the second loop -/
theorem es_turn {c : Es K} {il : Nat} (h : EsInv n L c) (hu : c.up = some il) :
    EsInv n L { c with up := none,
                       path := lower c.k il fun i => if il ≤ i ∧ i < c.k then c.k else c.path i } := by
  have hkn := h.k
  have hil : il ≤ c.k := by have := h.il; rw [hu] at this; exact this
  have hanti : ∀ i i', i ≤ i' → i' < il → c.path i' ≤ c.path i := by
    have := h.anti; rw [hu] at this; exact this
  have hlow : ∀ i, i < il → ∀ j, c.path i ≤ j → c.k ≤ j → j < n →
    c.S j i = T n L c.acond c.z j i := by
    have := h.low; rw [hu] at this; exact this
  have hact : ∀ i, il ≤ i → i < n → ∀ j, i ≤ j → c.k ≤ j → j < n →
    c.S j i = T n L c.acond c.z j i := by
    have := h.act; rw [hu] at this; exact this
  obtain ⟨g1, g2⟩ := lower_spec (k := c.k) il (fun i => if il ≤ i ∧ i < c.k then c.k else c.path i)
    (fun i i' h1 h2 => by
      rw [if_neg (by omega), if_neg (by omega)]; exact hanti i i' h1 h2)
  have hp : ∀ i, lower c.k il (fun i => if il ≤ i ∧ i < c.k then c.k else c.path i) i =
      if i < il then max (c.path i) c.k else if i < c.k then c.k else c.path i := by
    intro i
    by_cases e : i < il
    · rw [g1 i e, if_pos e, if_neg (by omega)]
    · rw [g2 i (by omega), if_neg e]
      by_cases e' : i < c.k
      · rw [if_pos ⟨by omega, e'⟩, if_pos e']
      · rw [if_neg (by omega), if_neg e']
  refine ⟨hkn, Nat.le_refl _, h.left, fun i hi => ?_, fun i hi => ?_, fun _ i hi => ?_,
    fun i i' h1 h2 => ?_, fun i hi j h1 h2 h3 => ?_, fun i hi h0 j h1 h2 h3 => ?_⟩
  · show lower _ _ _ i < n
    have := h.pn i hi
    rw [hp]; split_ifs <;> omega
  · show i < lower _ _ _ i
    have := h.pi i hi
    rw [hp]; split_ifs <;> omega
  · show c.k ≤ lower _ _ _ i
    replace hi : i < c.k := hi
    rw [hp]; split_ifs <;> omega
  · show lower _ _ _ i' ≤ lower _ _ _ i
    replace h2 : i' < c.k := h2
    rw [hp, hp]
    by_cases e : i' < il
    · have := hanti i i' h1 e
      rw [if_pos e, if_pos (by omega)]; omega
    · rw [if_neg e, if_pos h2]
      split_ifs <;> omega
  · replace hi : i < c.k := hi
    replace h1 : lower _ _ _ i ≤ j := h1
    rw [hp] at h1
    by_cases e : i < il
    · rw [if_pos e] at h1
      exact hlow i e j (by omega) h2 h3
    · rw [if_neg e, if_pos hi] at h1
      exact hact i (by omega) (by omega) j (by omega) h2 h3
  · replace hi : c.k ≤ i := hi
    exact hact i (by omega) h0 j h1 h2 h3

/-- one level down -/
theorem es_down {c : Es K} (h : EsInv n L c) (hu : c.up = none) (hk : c.k ≠ 0) (nd : K) :
    let k := c.k - 1
    let S := sweep L c.left k (c.path k - k) (c.path k) c.S
    let a := ahat k + S k k
    a = centre n L ahat c.acond c.z k ∧
    EsInv n L { c with k := k, dist := upd c.dist k nd, S := S, acond := upd c.acond k a,
                       z := upd c.z k (rnd a), left := upd c.left k (a - rnd a),
                       s := upd c.s k (step0 (a - rnd a)) } := by
  intro k S a
  have hkn := h.k
  have hkk : k + 1 = c.k := by show c.k - 1 + 1 = c.k; omega
  have hlow : ∀ i, i < c.k → ∀ j, c.path i ≤ j → c.k ≤ j → j < n →
    c.S j i = T n L c.acond c.z j i := by
    have := h.low; rw [hu] at this; exact this
  have hact : ∀ i, c.k ≤ i → i < n → ∀ j, i ≤ j → c.k ≤ j → j < n →
    c.S j i = T n L c.acond c.z j i := by
    have := h.act; rw [hu] at this; exact this
  have hanti : ∀ i i', i ≤ i' → i' < c.k → c.path i' ≤ c.path i := by
    have := h.anti; rw [hu] at this; exact this
  have hpk := h.pk hu
  have hp : c.k ≤ c.path k := hpk k (by omega)
  obtain ⟨g1, g2⟩ := sweep_spec (n := n) (L := L) (acond := c.acond) (z := c.z) (k := k)
    (fun j h1 h2 => h.left j (by omega) h2) (c.path k - k) (c.path k) (by omega)
    (h.pn k (by omega)) c.S (fun j h1 h2 => hlow k (by omega) j h1 (by omega) h2)
  have ha : a = centre n L ahat c.acond c.z k := by
    rw [centre_T]
    exact congrArg _ (g1 k (Nat.le_refl _) (by omega))
  refine ⟨ha, ?_⟩
  have hT : ∀ j i, k ≤ j → T n L (upd c.acond k a) (upd c.z k (rnd a)) j i =
      T n L c.acond c.z j i := fun j i hj =>
    T_congr fun l h1 h2 => ⟨upd_ne _ _ (by omega), upd_ne _ _ (by omega)⟩
  refine ⟨by show k < n; omega, by show c.up.getD k ≤ k; rw [hu]; exact Nat.le_refl _,
    fun j h1 h2 => ?_, h.pn, h.pi, fun _ i hi => ?_, fun i i' h1 h2 => ?_,
    fun i hi j h1 h2 h3 => ?_, fun i hi h0 j h1 h2 h3 => ?_⟩
  · replace h1 : k ≤ j := h1
    show upd c.left k (a - rnd a) j = upd c.acond k a j - ((upd c.z k (rnd a) j : Int) : K)
    by_cases e : j = k
    · rw [e, upd_self, upd_self, upd_self]
    · rw [upd_ne _ _ e, upd_ne _ _ e, upd_ne _ _ e]
      exact h.left j (by omega) h2
  · replace hi : i < k := hi
    have := hpk i (by omega)
    show k ≤ c.path i
    omega
  · replace h2 : i' < c.up.getD k := h2
    rw [hu] at h2
    replace h2 : i' < k := h2
    exact hanti i i' h1 (by omega)
  · replace hi : i < c.up.getD k := hi
    rw [hu] at hi
    replace hi : i < k := hi
    replace h1 : c.path i ≤ j := h1
    replace h2 : k ≤ j := h2
    show S j i = T n L (upd c.acond k a) (upd c.z k (rnd a)) j i
    rw [hT j i h2]
    have := hpk i (by omega)
    rw [show S j i = c.S j i from g2 j i (by omega)]
    exact hlow i (by omega) j h1 (by omega) h3
  · replace hi : c.up.getD k ≤ i := hi
    rw [hu] at hi
    replace hi : k ≤ i := hi
    replace h2 : k ≤ j := h2
    show S j i = T n L (upd c.acond k a) (upd c.z k (rnd a)) j i
    rw [hT j i h2]
    by_cases e : i = k
    · rw [e]; exact g1 j h2 h3
    · rw [show S j i = c.S j i from g2 j i e]
      exact hact i (by omega) h0 j h1 (by omega) h3

/-- the next sibling at the same or a higher level -/
theorem es_next {c : Es K} (h : EsInv n L c) {k : Nat} (hk : c.k ≤ k) (hkn : k < n)
    (hd : c.up = none → k = c.k ∨ (k = 1 ∧ c.k = 0)) : EsInv n L (esNext c k) := by
  have hil : c.up.getD c.k ≤ c.k := h.il
  have hile : c.up.getD k ≤ k := by
    cases e : c.up with
    | none => exact Nat.le_refl _
    | some x => rw [e] at hil; exact Nat.le_trans hil hk
  have hT : ∀ j i, k ≤ j → T n L c.acond (upd c.z k (c.z k + c.s k)) j i =
      T n L c.acond c.z j i := fun j i hj =>
    T_congr fun l h1 h2 => ⟨rfl, upd_ne _ _ (by omega)⟩
  have key : c.up.getD k = c.up.getD c.k ∨ (k = 1 ∧ c.k = 0 ∧ c.up = none) := by
    cases e : c.up with
    | none =>
      rcases hd e with h | h
      · left; rw [h]
      · right; exact ⟨h.1, h.2, rfl⟩
    | some x => left; rfl
  refine ⟨hkn, hile, fun j h1 h2 => ?_, h.pn, h.pi, fun hu i hi => ?_, fun i i' h1 h2 => ?_,
    fun i hi j h1 h2 h3 => ?_, fun i hi h0 j h1 h2 h3 => ?_⟩
  · replace h1 : k ≤ j := h1
    show upd c.left k _ j = c.acond j - ((upd c.z k (c.z k + c.s k) j : Int) : K)
    by_cases e : j = k
    · rw [e, upd_self, upd_self]
    · rw [upd_ne _ _ e, upd_ne _ _ e]
      exact h.left j (by omega) h2
  · replace hi : i < k := hi
    replace hu : c.up = none := hu
    show k ≤ c.path i
    rcases hd hu with e | e
    · rw [e]; exact h.pk hu i (by omega)
    · have := h.pi i (by omega); omega
  · replace h2 : i' < c.up.getD k := h2
    rcases key with e | ⟨e, e2, e3⟩
    · rw [e] at h2; exact h.anti i i' h1 h2
    · rw [e3, e] at h2
      replace h2 : i' < 1 := h2
      rw [show i = i' by omega]
  · replace h2 : k ≤ j := h2
    replace h1 : c.path i ≤ j := h1
    replace hi : i < c.up.getD k := hi
    show c.S j i = T n L c.acond (upd c.z k (c.z k + c.s k)) j i
    rw [hT j i h2]
    rcases key with e | ⟨e, e2, e3⟩
    · rw [e] at hi; exact h.low i hi j h1 (by omega) h3
    · rw [e3, e] at hi
      replace hi : i < 1 := hi
      refine h.act i ?_ (by omega) j (by omega) (by omega) h3
      rw [e3]; show c.k ≤ i; omega
  · replace h2 : k ≤ j := h2
    replace hi : c.up.getD k ≤ i := hi
    show c.S j i = T n L c.acond (upd c.z k (c.z k + c.s k)) j i
    rw [hT j i h2]
    refine h.act i ?_ h0 j h1 (by omega) h3
    rcases key with e | ⟨e, e2, e3⟩
    · rw [← e]; exact hi
    · rw [e3]; show c.k ≤ i; omega

/-- `k0` of line 156 -/
def k0Of (n ncands : Nat) : Nat := if ncands = 1 ∧ 1 < n then 1 else 0

theorem k0Of_ok (n ncands : Nat) : K0 n ncands (k0Of n ncands) := by
  unfold k0Of K0; split_ifs <;> omega

theorem es_sim {c : Es K} (h : EsInv n L c) :
    (coreStep n L d ahat ncands (k0Of n ncands) c.core = none →
      ∃ m, Reach (esStep n L d ahat ncands) c m ∧ esStep n L d ahat ncands m = none ∧
        m.cand = c.cand) ∧
    ∀ c', coreStep n L d ahat ncands (k0Of n ncands) c.core = some c' →
      ∃ m, Reach (esStep n L d ahat ncands) c m ∧ m.core = c' ∧ EsInv n L m := by
  have hkn := h.k
  have hnd : c.core.nd d = c.dist c.k + c.left c.k ^ 2 / d c.k := by
    rw [h.left c.k (Nat.le_refl _) hkn]; rfl
  by_cases c1 : c.dist c.k + c.left c.k ^ 2 / d c.k < c.chi2
  · -- inside the first loop, possibly after leaving the second
    have main : ∀ e : Es K, e.up = none → e.core = c.core → EsInv n L e →
        ∃ m, esStep n L d ahat ncands e = some m ∧
          coreStep n L d ahat ncands (k0Of n ncands) c.core = some m.core ∧ EsInv n L m := by
      intro e hu hec hi
      have hkn' := hi.k
      have hnd' : e.core.nd d = e.dist e.k + e.left e.k ^ 2 / d e.k := by
        rw [hi.left e.k (Nat.le_refl _) hkn']; rfl
      have c1' : e.dist e.k + e.left e.k ^ 2 / d e.k < e.chi2 := by
        rw [← hnd', hec, hnd]
        have : e.core.chi2 = c.core.chi2 := by rw [hec]
        exact lt_of_lt_of_eq c1 this.symm
      rw [← hec]
      unfold coreStep esStep
      rw [hnd', hu]
      simp only [if_pos c1']
      rw [if_pos (show e.dist e.k + e.left e.k ^ 2 / d e.k < e.core.chi2 from c1')]
      by_cases c2 : e.k ≠ 0
      · rw [if_pos c2, if_pos (show e.core.k ≠ 0 from c2)]
        obtain ⟨g1, g2⟩ := es_down (ahat := ahat) hi hu c2 (e.dist e.k + e.left e.k ^ 2 / d e.k)
        refine ⟨_, rfl, ?_, hu ▸ g2⟩
        unfold Core.down
        rw [hnd']
        unfold Es.core
        simp only
        rw [← g1]
      · rw [if_neg c2, if_neg (show ¬ e.core.k ≠ 0 from c2)]
        have e0 : e.k = 0 := by omega
        refine ⟨_, rfl, ?_, ?_⟩
        · unfold Core.recd
          rw [hnd']
          rfl
        · have hi' : EsInv n L { e with cand := (record ncands e.cand e.chi2 e.z (e.dist e.k + e.left e.k ^ 2 / d e.k)).1, chi2 := (record ncands e.cand e.chi2 e.z (e.dist e.k + e.left e.k ^ 2 / d e.k)).2 } :=
            ⟨hi.k, hi.il, hi.left, hi.pn, hi.pi, hi.pk, hi.anti, hi.low, hi.act⟩
          refine hu ▸ es_next hi' ?_ ?_ ?_
          · show e.k ≤ _; omega
          · split_ifs <;> omega
          · intro _
            show _ = e.k ∨ _ ∧ e.k = 0
            split_ifs <;> omega
    cases hu : c.up with
    | none =>
      obtain ⟨m, g1, g2, g3⟩ := main c hu rfl h
      rw [g2]
      exact ⟨fun e => (by cases e), fun c' e => ⟨m, Reach.step g1 (Reach.refl _), by cases e; rfl, g3⟩⟩
    | some il =>
      have hs : esStep n L d ahat ncands c = some
          { c with up := none, path := lower c.k il fun i => if il ≤ i ∧ i < c.k then c.k else c.path i } := by
        unfold esStep
        rw [hu]
        simp only [if_neg (not_le.2 c1)]
      obtain ⟨m, g1, g2, g3⟩ := main
        { c with up := none, path := lower c.k il fun i => if il ≤ i ∧ i < c.k then c.k else c.path i }
        rfl rfl (es_turn h hu)
      rw [g2]
      exact ⟨fun e => (by cases e),
        fun c' e => ⟨m, Reach.step hs (Reach.step g1 (Reach.refl _)), by cases e; rfl, g3⟩⟩
  · have hcore : coreStep n L d ahat ncands (k0Of n ncands) c.core =
        if c.k = n - 1 then none else some (c.core.sib (c.k + 1)) := by
      unfold coreStep
      rw [hnd, if_neg (show ¬ c.dist c.k + c.left c.k ^ 2 / d c.k < c.core.chi2 from c1)]
      rfl
    -- inside the second loop, possibly after entering it
    have main : ∀ (e : Es K) (il : Nat), e.up = some il → e.core = c.core → EsInv n L e →
        (c.k = n - 1 → esStep n L d ahat ncands e = none) ∧
        (c.k ≠ n - 1 → ∃ m, esStep n L d ahat ncands e = some m ∧ m.core = c.core.sib (c.k + 1) ∧
          EsInv n L m) := by
      intro e il hu hec hi
      have hkn' := hi.k
      have hek : e.k = c.k := by
        have : e.core.k = c.core.k := by rw [hec]
        exact this
      have hnd' : e.core.nd d = e.dist e.k + e.left e.k ^ 2 / d e.k := by
        rw [hi.left e.k (Nat.le_refl _) hkn']; rfl
      have c1' : e.chi2 ≤ e.dist e.k + e.left e.k ^ 2 / d e.k := by
        rw [← hnd', hec, hnd]
        have : e.core.chi2 = c.core.chi2 := by rw [hec]
        exact le_of_eq_of_le this (not_lt.1 c1)
      unfold esStep
      rw [hu]
      simp only [if_pos c1']
      refine ⟨fun h => by rw [if_pos (by omega)], fun h => ⟨_, by rw [if_neg (by omega)], ?_, ?_⟩⟩
      · rw [← hek, ← hec]; rfl
      · refine es_next hi (by omega) (by omega) fun hn => ?_
        rw [hu] at hn; cases hn
    rw [hcore]
    cases hu : c.up with
    | none =>
      have hs : esStep n L d ahat ncands c = some { c with up := some c.k } := by
        unfold esStep
        rw [hu]
        simp only [if_neg c1]
      have hi' : EsInv n L { c with up := some c.k } := by
        refine ⟨h.k, Nat.le_refl _, h.left, h.pn, h.pi, fun e => (by cases e), ?_, ?_, ?_⟩
        · have := h.anti; rw [hu] at this; exact this
        · have := h.low; rw [hu] at this; exact this
        · have := h.act; rw [hu] at this; exact this
      obtain ⟨g1, g2⟩ := main { c with up := some c.k } c.k rfl rfl hi'
      by_cases e : c.k = n - 1
      · rw [if_pos e]
        exact ⟨fun _ => ⟨_, Reach.step hs (Reach.refl _), g1 e, rfl⟩, fun c' e => (by cases e)⟩
      · rw [if_neg e]
        obtain ⟨m, q1, q2, q3⟩ := g2 e
        exact ⟨fun e => (by cases e), fun c' e =>
          ⟨m, Reach.step hs (Reach.step q1 (Reach.refl _)), by cases e; exact q2, q3⟩⟩
    | some il =>
      obtain ⟨g1, g2⟩ := main c il hu rfl h
      by_cases e : c.k = n - 1
      · rw [if_pos e]
        exact ⟨fun _ => ⟨c, Reach.refl _, g1 e, rfl⟩, fun c' e => (by cases e)⟩
      · rw [if_neg e]
        obtain ⟨m, q1, q2, q3⟩ := g2 e
        exact ⟨fun e => (by cases e), fun c' e =>
          ⟨m, Reach.step q1 (Reach.refl _), by cases e; exact q2, q3⟩⟩

theorem esInit_inv (hn : 0 < n) : EsInv n L (esInit n ahat ncands) := by
  refine ⟨by show n - 1 < n; omega, Nat.le_refl _, fun j h1 h2 => ?_, fun i _ => ?_, fun i hi => ?_,
    fun _ i hi => ?_, fun i i' _ _ => Nat.le_refl _, fun i hi j h1 h2 h3 => ?_,
    fun i hi h0 j h1 h2 h3 => ?_⟩
  · replace h1 : n - 1 ≤ j := h1
    have e : j = n - 1 := by omega
    subst e
    simp only [esInit, upd_self]
  · show n - 1 < n; omega
  · show i < n - 1; omega
  · exact Nat.le_refl _
  · replace h2 : n - 1 ≤ j := h2
    rw [T_top _ _ _ (by omega)]; rfl
  · replace h2 : n - 1 ≤ j := h2
    rw [T_top _ _ _ (by omega)]; rfl

/-- `estimILS` ends with the candidates of the search without caches -/
theorem estimILS_ends (hd : ∀ i, i < n → 0 < d i) (hn : 0 < n) (hc : 0 < ncands) :
    ∃ (c : Core K) (N fuel : Nat), Cands n L d ahat ncands c N ∧
      (∀ z, norm n L d ahat z < c.chi2 → ∃ i, i < N ∧ ∀ l, l < n → z l = c.cand.af i l) ∧
      ∀ fuel', fuel ≤ fuel' → estimILS n L d ahat ncands fuel' = some (output ncands c.cand) := by
  obtain ⟨c, N, r, e, hN, hcov⟩ := core_ends (L := L) (ahat := ahat) hd hn hc (k0Of_ok n ncands)
  obtain ⟨m, r', q1, q2⟩ := reach_lift (g := esStep n L d ahat ncands)
    (R := fun m c => m.core = c ∧ EsInv n L m)
    (fun t s ⟨h1, h2⟩ s' hs => by
      subst h1
      exact (es_sim h2).2 s' hs) r (esInit n ahat ncands) ⟨rfl, esInit_inv hn⟩
  obtain ⟨m', r'', hend, hcand⟩ := (es_sim (d := d) (ahat := ahat) (ncands := ncands) q2).1
    (by rw [q1]; exact e)
  obtain ⟨fuel, hf⟩ := (r'.trans r'').iter hend
  refine ⟨c, N, fuel, hN, hcov, fun fuel' hle => ?_⟩
  unfold estimILS
  rw [iter_mono hf fuel' hle]
  show some (output ncands m'.cand) = _
  rw [hcand, ← q1]
  rfl

end Verif.Lambda
