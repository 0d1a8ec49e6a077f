import Verif.Model.Stdpos
import Verif.Lemmas.Post
import Verif.Props.C09
import Mathlib.Tactic.NormNum
import Mathlib.Algebra.Order.Field.Basic
import Mathlib.Tactic.FinCases
/-!
# C99 Single point positioning
-/

namespace Verif.C99
open Verif.Std Verif.Sat Matrix
open Verif.C09 (Psd Pd)

variable {k : Bool}

/-! ## Specification -/

/-- the range formed from the measurements: the first one, or the combination of two with the squared ratio of frequencies of
GPS L1/L2 or L1/L5 -/
def Range (rmode : Int) (P : List ℚ) (p : ℚ) : Prop :=
  (rmode = 0 ∧ P[0]? = some p) ∨
    ∃ p0 p1 g, P[0]? = some p0 ∧ P[1]? = some p1 ∧ p = (p1 - g * p0) / (1 - g) ∧
      ((rmode = 1 ∧ g = (15754200 / 12276000) ^ 2) ∨ (rmode = 2 ∧ g = (15754200 / 11764500) ^ 2))

/-- residual of a satellite: measured minus computed range; 0 below the elevation mask -/
def Resid (c : Cfg k) (ep : Ep k) (x : Vec k) (s : Nat) (y : ℚ) : Prop :=
  let g := ep.geo x s
  if g.low then y = 0
  else ∃ p, Range c.rmode (ep.P s) p ∧
    y = p - (g.r + x (icb k) - 299792458 * ep.dts s + g.trop + if c.rmode = 0 then g.iono else 0)

/-- variance of a row: that of DGPS in status 2, otherwise growing with the inverse sine of the elevation -/
def Var (c : Cfg k) (smode : Int) (g : Geo) (f : Nat) (w : ℚ) : Prop :=
  if smode = 2 then w = g.varD
  else ∃ a, c.eratio[f]? = some a ∧ w = (a * c.err1) ^ 2 + (a * c.err2 / max g.sinEl c.smin) ^ 2

/-- the rows of an epoch: one for each satellite in use with signals in the header and each signal; only those of the first
signal have a residual -/
structure Rows (c : Cfg k) (smode : Int) (ep : Ep k) (x : Vec k) (sat : List Nat) (l : List Row) : Prop where
  nodup : (l.map fun r => (r.f, r.sat)).Nodup
  mem : ∀ s f, (f, s) ∈ (l.map fun r => (r.f, r.sat)) ↔
    s ∈ sat ∧ ep.edt s = false ∧ (sat2prn s).1 ∈ ep.sigs ∧ f < if c.rmode = 0 then c.nf else 1
  res : ∀ r ∈ l, if r.f = 0 then Resid c ep x r.sat r.v else r.v = 0
  dir : ∀ r ∈ l, r.e = (ep.geo x r.sat).e
  var : ∀ r ∈ l, Var c smode (ep.geo x r.sat) r.f r.w

/-- options and observations as the program sets them up -/
structure Sound (c : Cfg k) (ep : Ep k) : Prop where
  nf : 0 < c.nf
  mode : c.rmode = 0 ∨ c.rmode = 1 ∨ c.rmode = 2
  cols : ∀ s ∈ ep.sat, (if c.rmode = 0 then 1 else 2) ≤ (ep.P s).length
  ratio : ∀ f, (f < if c.rmode = 0 then c.nf else 1) → ∃ a, c.eratio[f]? = some a ∧ 0 < a
  err : c.err1 ≠ 0 ∨ c.err2 ≠ 0
  smin : 0 < c.smin
  dgps : ∀ x s, 0 < (ep.geo x s).varD
  noise : ∀ i, 0 ≤ c.q i
  th : 0 ≤ c.th
  sat : ep.sat.Nodup
  sigs : ep.sigs.Nodup

/-! ## Epochs that are skipped -/

theorem no_observations (c : Cfg k) (n : Nav k) (ep : Ep k) (h : ep.sat = []) : process c n ep = .ok (n, none) := by
  unfold process; rw [if_pos h]

/-- **fewer than four positions**: the filter and its time stay -/
theorem too_few_positions (c : Cfg k) (n : Nav k) (ep : Ep k) (h : ep.sat ≠ []) (h4 : ep.npos < 4) :
    process c n ep = .ok ({ n with smode := if ep.cs = .dgps then 2 else n.smode }, none) := by
  unfold process; rw [if_neg h]
  simp only [if_pos h4]
  split <;> rfl

/-- **fewer than four satellites left**: the time of the solution is that of the epoch, though position and covariance are not
carried to it -/
theorem too_few_left (c : Cfg k) (n : Nav k) (ep : Ep k) (h : ep.sat ≠ []) (h4 : 4 ≤ ep.npos)
    (hu : (ep.sat.filter ep.sel).length < 4) :
    process c n ep = .ok ({ n with
      smode := if ep.cs = .dgps then 2 else n.smode, t := ep.t, nsat := (ep.sat.filter ep.sel).length }, none) := by
  unfold process; rw [if_neg h]
  have hu' : (used ep).length < 4 := hu
  simp only [if_neg (not_lt.2 h4), if_pos hu']
  split <;> rfl

/-! ## Time update -/

/-- position and clock advance with velocity and drift -/
theorem advanced (tt : ℚ) (x : Vec true) :
    (∀ i : Fin 3, advance true tt x (⟨i.val, by unfold dim; simp; omega⟩) =
      x ⟨i.val, by unfold dim; simp; omega⟩ + x ⟨i.val + 3, by unfold dim; simp; omega⟩ * tt) ∧
    advance true tt x (6 : Fin 8) = x (6 : Fin 8) + x (7 : Fin 8) * tt ∧
    (∀ i : Fin 8, 3 ≤ i.val → i ≠ 6 → advance true tt x i = x i) := by
  refine ⟨fun i => by fin_cases i <;> rfl, rfl, fun i h h6 => ?_⟩
  have e : advance true tt x i = if i.val < 3 then x i + x (i + 3 : Fin 8) * tt
    else if i = 6 then x i + x (7 : Fin 8) * tt else x i := rfl
  rw [e, if_neg (by omega), if_neg h6]

theorem quad_diag {n : Nat} (d w : Fin n → ℚ) : w ⬝ᵥ (diagonal d) *ᵥ w = ∑ i, d i * (w i) ^ 2 := by
  simp only [dotProduct, mulVec_diagonal]
  exact Finset.sum_congr rfl fun i _ => by ring

theorem diag_psd {n : Nat} (d : Fin n → ℚ) (h : ∀ i, 0 ≤ d i) : Psd (diagonal d) := by
  refine ⟨diagonal_transpose _, fun w => ?_⟩
  rw [quad_diag]
  exact Finset.sum_nonneg fun i _ => mul_nonneg (h i) (sq_nonneg _)

theorem diag_pd {n : Nat} (d : Fin n → ℚ) (h : ∀ i, 0 < d i) : Pd (diagonal d) := by
  refine ⟨diagonal_transpose _, fun w hw => ?_⟩
  rw [quad_diag]
  obtain ⟨i, hi⟩ := Function.ne_iff.1 hw
  exact Finset.sum_pos' (fun i _ => mul_nonneg (h i).le (sq_nonneg _))
    ⟨i, Finset.mem_univ _, mul_pos (h i) (by have : w i ≠ 0 := hi; positivity)⟩

theorem psd_add {n : Nat} {A B : Matrix (Fin n) (Fin n) ℚ} (ha : Psd A) (hb : Psd B) : Psd (A + B) := by
  refine ⟨by rw [transpose_add, ha.1, hb.1], fun w => ?_⟩
  rw [add_mulVec, dotProduct_add]
  exact add_nonneg (ha.2 w) (hb.2 w)

theorem psd_conj {n : Nat} {A : Matrix (Fin n) (Fin n) ℚ} (ha : Psd A) (F : Matrix (Fin n) (Fin n) ℚ) :
    Psd (F * A * Fᵀ) := by
  refine ⟨by rw [transpose_mul, transpose_mul, transpose_transpose, ha.1, Matrix.mul_assoc], fun w => ?_⟩
  rw [C09.quad_conj]
  exact ha.2 _

/-- the covariance of the time update -/
theorem predicted (c : Cfg k) (n : Nav k) (t : ℚ) (hq : ∀ i, 0 ≤ c.q i) (ht : n.t ≤ t) (hP : Psd n.P) :
    Psd (udstate c n t).P := by
  unfold udstate
  exact psd_add (psd_conj hP _) (diag_psd _ fun i => mul_nonneg (hq i) (sub_nonneg.2 ht))

/-- the transition of the covariance is that of the state -/
theorem transition (tt : ℚ) (x : Vec k) : advance k tt x = phi k tt *ᵥ x := by
  cases k
  · funext i
    simp only [advance, phi, mulVec, dotProduct, of_apply, Bool.false_eq_true, false_and, if_false, ite_mul, one_mul, zero_mul,
      Finset.sum_ite_eq, Finset.mem_univ, if_true]
  · funext (i : Fin 8)
    have e : ∀ i j : Fin 8, phi true tt i j =
        if i.val < 3 ∧ 3 ≤ j.val ∧ j.val < 6 then (if j.val = i.val + 3 then tt else 0)
        else if i.val = 6 ∧ j.val = 7 then tt else if i = j then 1 else 0 := fun i j => by
      change (if true = true ∧ i.val < 3 ∧ 3 ≤ j.val ∧ j.val < 6 then _ else
        if true = true ∧ i.val = 6 ∧ j.val = 7 then _ else _) = _
      simp only [true_and]
      split_ifs <;> first | rfl | (exfalso; tauto)
    have a : advance true tt x i = if i.val < 3 then x i + x (i + 3 : Fin 8) * tt
      else if i = 6 then x i + x (7 : Fin 8) * tt else x i := rfl
    rw [a]
    change _ = ∑ j : Fin 8, phi true tt i j * x j
    rw [Fin.sum_univ_eight]
    simp only [e]
    fin_cases i <;> simp <;> ring

/-! ## Rows -/

theorem mapM_ok {α β : Type} {f : α → Py β} : ∀ {l : List α} {r : List β}, l.mapM f = .ok r →
    List.Forall₂ (fun a b => f a = .ok b) l r
  | [], r, h => by cases h; exact .nil
  | a :: l, r, h => by
    rw [List.mapM_cons] at h
    cases h1 : f a with
    | error e => rw [h1] at h; cases h
    | ok b =>
      cases h2 : l.mapM f with
      | error e => rw [h1, h2] at h; cases h
      | ok bs => rw [h1, h2] at h; cases h; exact .cons h1 (mapM_ok h2)

theorem mapM_total {α β : Type} {f : α → Py β} : ∀ {l : List α}, (∀ a ∈ l, ∃ b, f a = .ok b) → ∃ r, l.mapM f = .ok r
  | [], _ => ⟨[], rfl⟩
  | a :: l, h => by
    obtain ⟨b, hb⟩ := h a (.head _)
    obtain ⟨r, hr⟩ := mapM_total fun x hx => h x (.tail _ hx)
    exact ⟨b :: r, by rw [List.mapM_cons, hb, hr]; rfl⟩

theorem range_ok {rmode : Int} {P : List ℚ} {p : ℚ} (h : range rmode P = .ok p) : Range rmode P p := by
  unfold Verif.Std.range at h
  have get : ∀ i q, pyGet P i = .ok q → P[i]? = some q := fun i q hq => by
    unfold pyGet at hq
    split at hq
    · rename_i e; cases hq; exact e
    · cases hq
  split at h
  · rename_i h0; exact .inl ⟨h0, get 0 p h⟩
  · right
    have aux : ∀ g : ℚ, (do let p1 ← pyGet P 1; let p0 ← pyGet P 0; pure ((p1 - g * p0) / (1 - g)) : Py ℚ) = .ok p →
        ∃ p0 p1, P[0]? = some p0 ∧ P[1]? = some p1 ∧ p = (p1 - g * p0) / (1 - g) := fun g hg => by
      cases h1 : pyGet P 1 with
      | error e => rw [h1] at hg; cases hg
      | ok p1 =>
        cases h0 : pyGet P 0 with
        | error e => rw [h1, h0] at hg; cases hg
        | ok p0 => rw [h1, h0] at hg; cases hg; exact ⟨p0, p1, get 0 _ h0, get 1 _ h1, rfl⟩
    by_cases m1 : rmode = 1
    · simp only [if_pos m1] at h
      obtain ⟨p0, p1, a, b, e⟩ := aux gam1 h
      exact ⟨p0, p1, _, a, b, e, .inl ⟨m1, by norm_num [gam1]⟩⟩
    · by_cases m2 : rmode = 2
      · simp only [if_neg m1, if_pos m2] at h
        obtain ⟨p0, p1, a, b, e⟩ := aux gam2 h
        exact ⟨p0, p1, _, a, b, e, .inr ⟨m2, by norm_num [gam2]⟩⟩
      · simp only [if_neg m1, if_neg m2] at h
        cases h

theorem range_total {rmode : Int} {P : List ℚ} (hm : rmode = 0 ∨ rmode = 1 ∨ rmode = 2)
    (hl : (if rmode = 0 then 1 else 2) ≤ P.length) : ∃ p, range rmode P = .ok p := by
  unfold Verif.Std.range
  match P, hl with
  | [], hl => simp at hl; split at hl <;> omega
  | [a], hl =>
    have h0 : rmode = 0 := by by_contra h; simp [h] at hl
    exact ⟨a, by rw [if_pos h0]; rfl⟩
  | a :: b :: l, _ =>
    rcases hm with rfl | rfl | rfl
    · exact ⟨a, rfl⟩
    · exact ⟨_, rfl⟩
    · exact ⟨_, rfl⟩

theorem zd_ok {c : Cfg k} {ep : Ep k} {x : Vec k} {s : Nat} {y : ℚ} (he : ep.edt s = false) (h : zd c ep x s = .ok y) :
    Resid c ep x s y := by
  unfold zd at h
  unfold Resid
  simp only [he, Bool.false_eq_true, if_false] at h ⊢
  split at h
  · rename_i hl
    rw [if_pos hl]; cases h; rfl
  · rename_i hl
    rw [if_neg hl]
    cases hr : range c.rmode (ep.P s) with
    | error e => rw [hr] at h; cases h
    | ok p =>
      rw [hr, Py.okBind] at h
      split at h
      · cases h
      · cases h
        exact ⟨p, range_ok hr, by unfold clight; ring⟩

theorem zd_total {c : Cfg k} {ep : Ep k} (hs : Sound c ep) (x : Vec k) {s : Nat} (hm : s ∈ ep.sat) :
    ∃ y, zd c ep x s = .ok y := by
  unfold zd
  simp only
  split
  · exact ⟨_, rfl⟩
  · split
    · exact ⟨_, rfl⟩
    · obtain ⟨p, hp⟩ := range_total hs.mode (hs.cols s hm)
      rw [hp, Py.okBind, if_neg hs.nf.ne']
      exact ⟨_, rfl⟩

theorem resid_total {c : Cfg k} {ep : Ep k} (hs : Sound c ep) (x : Vec k) : ∃ y, resid c ep x = .ok y := by
  unfold resid
  refine mapM_total fun s hm => ?_
  obtain ⟨y, hy⟩ := zd_total hs x hm
  exact ⟨(s, y), by rw [hy]; rfl⟩

theorem look_ok {c : Cfg k} {ep : Ep k} {x : Vec k} {s : Nat} : ∀ {l : List Nat} {y : List (Nat × ℚ)},
    (l.mapM fun s => do let y ← zd c ep x s; pure (s, y)) = .ok y → s ∈ l → zd c ep x s = .ok (look y s)
  | [], _, _, h => absurd h List.not_mem_nil
  | a :: l, y, h, hm => by
    rw [List.mapM_cons] at h
    cases h1 : zd c ep x a with
    | error e => rw [h1] at h; cases h
    | ok b =>
      cases h2 : (l.mapM fun s => do let y ← zd c ep x s; pure (s, y)) with
      | error e => rw [h1, h2] at h; cases h
      | ok bs =>
        rw [h1, h2] at h
        cases h
        by_cases ha : a = s
        · subst ha
          simpa [look, List.find?_cons] using h1
        · have := look_ok h2 ((List.mem_cons.1 hm).resolve_left (Ne.symm ha))
          simpa [look, List.find?_cons, ha] using this

theorem varerr_ok {c : Cfg k} {sm : Int} {g : Geo} {f : Nat} {w : ℚ} (h : varerr c sm g f = .ok w) : Var c sm g f w := by
  unfold varerr at h
  unfold Var
  split at h
  · rename_i h2; rw [if_pos h2]; cases h; rfl
  · rename_i h2
    rw [if_neg h2]
    unfold pyGet at h
    split at h
    · rename_i a ha
      cases h
      exact ⟨a, ha, rfl⟩
    · cases h

theorem var_total {c : Cfg k} {ep : Ep k} (hs : Sound c ep) (sm : Int) (x : Vec k) (s : Nat) {f : Nat}
    (hf : f < if c.rmode = 0 then c.nf else 1) : ∃ w, varerr c sm (ep.geo x s) f = .ok w := by
  unfold varerr
  split
  · exact ⟨_, rfl⟩
  · obtain ⟨a, ha, -⟩ := hs.ratio f hf
    simp only [pyGet, ha, Py.okBind]
    exact ⟨_, rfl⟩

theorem var_pos {c : Cfg k} {ep : Ep k} (hs : Sound c ep) {sm : Int} {x : Vec k} {s f : Nat} {w : ℚ}
    (hf : f < if c.rmode = 0 then c.nf else 1) (h : Var c sm (ep.geo x s) f w) : 0 < w := by
  unfold Var at h
  split at h
  · rw [h]; exact hs.dgps x s
  · obtain ⟨a, ha, rfl⟩ := h
    obtain ⟨a', ha', hp⟩ := hs.ratio f hf
    rw [ha] at ha'
    cases ha'
    have hm : 0 < max (ep.geo x s).sinEl c.smin := lt_max_of_lt_right hs.smin
    rcases hs.err with h1 | h2
    · have : a * c.err1 ≠ 0 := mul_ne_zero hp.ne' h1
      positivity
    · have : a * c.err2 / max (ep.geo x s).sinEl c.smin ≠ 0 := div_ne_zero (mul_ne_zero hp.ne' h2) hm.ne'
      positivity

/-- pairs of signal and satellite in the order of the rows -/
def pairs (c : Cfg k) (ep : Ep k) (sat : List Nat) : List (Nat × Nat) :=
  ep.sigs.flatMap fun sys => (List.range (nsig c)).flatMap fun f => (ofSys ep sat sys).map fun s => (f, s)

theorem mem_pairs {c : Cfg k} {ep : Ep k} {sat : List Nat} (f s : Nat) :
    (f, s) ∈ pairs c ep sat ↔ s ∈ sat ∧ ep.edt s = false ∧ (sat2prn s).1 ∈ ep.sigs ∧ f < nsig c := by
  unfold pairs ofSys
  simp only [List.mem_flatMap, List.mem_map, List.mem_range, List.mem_filter, Prod.mk.injEq]
  constructor
  · rintro ⟨sys, h1, f', hf, s', ⟨h2, h3⟩, rfl, rfl⟩
    simp at h3
    exact ⟨h2, h3.2, h3.1 ▸ h1, hf⟩
  · rintro ⟨h2, he, h1, hf⟩
    exact ⟨_, h1, f, hf, s, ⟨h2, by simp [he]⟩, rfl, rfl⟩

theorem pairs_nodup {c : Cfg k} {ep : Ep k} {sat : List Nat} (hs : ep.sigs.Nodup) (hn : sat.Nodup) :
    (pairs c ep sat).Nodup := by
  unfold pairs
  rw [List.nodup_flatMap]
  refine ⟨fun sys _ => ?_, ?_⟩
  · rw [List.nodup_flatMap]
    refine ⟨fun f _ => (hn.filter _).map fun a b h => (Prod.mk.inj h).2, ?_⟩
    refine (List.nodup_range).imp fun {a b} hab => ?_
    intro p hp hq
    simp only [List.mem_map] at hp hq
    obtain ⟨_, _, rfl⟩ := hp
    obtain ⟨_, _, h⟩ := hq
    exact hab (Prod.mk.inj h).1.symm
  · refine hs.imp fun {a b} hab => ?_
    intro p hp hq
    simp only [List.mem_flatMap, List.mem_map, ofSys, List.mem_filter] at hp hq
    obtain ⟨_, _, s, ⟨_, hs1⟩, rfl⟩ := hp
    obtain ⟨_, _, s', ⟨_, hs2⟩, h⟩ := hq
    obtain ⟨_, rfl⟩ := Prod.mk.inj h
    simp at hs1 hs2
    exact hab (hs1.1.symm.trans hs2.1)

theorem row_ok {c : Cfg k} {sm : Int} {ep : Ep k} {x : Vec k} {y : Nat → ℚ} {f s : Nat} {r : Row}
    (h : Std.row c sm ep x y f s = .ok r) : r.f = f ∧ r.sat = s ∧ (r.v = if f = 0 then y s else 0) ∧ r.e = (ep.geo x s).e ∧
      varerr c sm (ep.geo x s) f = .ok r.w := by
  unfold Std.row at h
  cases hw : varerr c sm (ep.geo x s) f with
  | error e => rw [hw] at h; cases h
  | ok w => rw [hw] at h; cases h; exact ⟨rfl, rfl, rfl, rfl, rfl⟩

theorem sdres_total {c : Cfg k} {ep : Ep k} (hs : Sound c ep) (sm : Int) (x : Vec k) (y : Nat → ℚ) (sat : List Nat) :
    ∃ l, sdres c sm ep x y sat = .ok l := by
  have : ∃ l, (pairs c ep sat).mapM (fun p => Std.row c sm ep x y p.1 p.2) = .ok l := by
    refine mapM_total fun p hp => ?_
    obtain ⟨w, hw⟩ := var_total hs sm x p.2 ((mem_pairs p.1 p.2).1 hp).2.2.2
    exact ⟨_, by unfold Std.row; rw [hw]; rfl⟩
  obtain ⟨l, hl⟩ := this
  exact ⟨l, hl⟩

theorem forall₂_map {α β γ : Type} {R : α → β → Prop} {g : β → γ} {h : α → γ} (hg : ∀ a b, R a b → g b = h a) :
    ∀ {l : List α} {r : List β}, List.Forall₂ R l r → r.map g = l.map h
  | _, _, .nil => rfl
  | _, _, .cons a b => by rw [List.map_cons, List.map_cons, hg _ _ a, forall₂_map hg b]

theorem forall₂_mem {α β : Type} {R : α → β → Prop} : ∀ {l : List α} {r : List β}, List.Forall₂ R l r → ∀ b ∈ r, ∃ a ∈ l, R a b
  | _, _, .nil, _, h => absurd h List.not_mem_nil
  | _, _, .cons h t, b, hb => by
    rcases List.mem_cons.1 hb with rfl | hb
    · exact ⟨_, .head _, h⟩
    · obtain ⟨a, ha, hr⟩ := forall₂_mem t b hb
      exact ⟨a, .tail _ ha, hr⟩

theorem sdres_pairs {c : Cfg k} {sm : Int} {ep : Ep k} {x : Vec k} {y : Nat → ℚ} {sat : List Nat} {l : List Row}
    (h : sdres c sm ep x y sat = .ok l) :
    List.Forall₂ (fun p r => Std.row c sm ep x y p.1 p.2 = .ok r) (pairs c ep sat) l := by
  exact mapM_ok h

/-- **the rows** -/
theorem rows {c : Cfg k} {sm : Int} {ep : Ep k} {x : Vec k} {y : List (Nat × ℚ)} {sat : List Nat} {l : List Row}
    (hs : ep.sigs.Nodup) (hn : sat.Nodup) (hsub : ∀ s ∈ sat, s ∈ ep.sat) (hy : resid c ep x = .ok y)
    (h : sdres c sm ep x (look y) sat = .ok l) : Rows c sm ep x sat l := by
  have h2 := sdres_pairs h
  have hm : l.map (fun r => (r.f, r.sat)) = pairs c ep sat := by
    rw [forall₂_map (g := fun r : Row => (r.f, r.sat)) (h := id) (fun p r hr => ?_) h2, List.map_id]
    obtain ⟨a, b, -⟩ := row_ok hr
    simp [a, b]
  refine ⟨hm ▸ pairs_nodup hs hn, fun s f => by rw [hm]; exact mem_pairs f s, fun r hr => ?_, fun r hr => ?_, fun r hr => ?_⟩
  · obtain ⟨p, hp, h⟩ := forall₂_mem h2 r hr
    obtain ⟨a, b, d, -⟩ := row_ok h
    obtain ⟨h3, h4, -⟩ := (mem_pairs p.1 p.2).1 hp
    rw [a, b, d]
    split
    · exact zd_ok h4 (look_ok hy (hsub _ h3))
    · rfl
  · obtain ⟨p, hp, h⟩ := forall₂_mem h2 r hr
    obtain ⟨a, b, d, e, -⟩ := row_ok h
    rw [e, b]
  · obtain ⟨p, hp, h⟩ := forall₂_mem h2 r hr
    obtain ⟨a, b, d, e, w⟩ := row_ok h
    rw [a, b]
    exact varerr_ok w

/-! ## Update -/

/-- partial derivatives: direction towards the receiver, 1 for the clock, 0 for the others -/
def Design (k : Bool) (l : List Row) (H : Matrix (Fin l.length) (Fin (dim k)) ℚ) : Prop :=
  ∀ i j, H i j = match j.val with
    | 0 => -(l.get i).e 0
    | 1 => -(l.get i).e 1
    | 2 => -(l.get i).e 2
    | m => if m = (if k then 6 else 3) then 1 else 0

/-- the mean of the innovations beyond the threshold: the clock is set to the mean of those that are not 0 and they are
reduced by it -/
def Reset (c : Cfg k) (x : Vec k) (l : List Row) (x' : Vec k) (l' : List Row) : Prop :=
  (l'.map fun r => (r.f, r.sat, r.e, r.w)) = (l.map fun r => (r.f, r.sat, r.e, r.w)) ∧
  if c.th * l.length < |(l.map Row.v).sum| then
    ∃ m, m * ((l.map Row.v).filter (· ≠ 0)).length = (l.map Row.v).sum ∧ x' (icb k) = m ∧
      (∀ i, i ≠ icb k → x' i = x i) ∧ l'.map Row.v = (l.map Row.v).map fun v => if v = 0 then 0 else v - m
  else x' = x ∧ l' = l

theorem icb_val (k : Bool) : (icb k).val = if k then 6 else 3 := by cases k <;> rfl

theorem design_spec (l : List Row) : Design k l (design k l) := by
  intro i j
  have e : design k l i j = if h : j.val < 3 then -(l.get i).e ⟨j.val, h⟩ else if j = icb k then 1 else 0 := rfl
  rw [e]
  have hj : j = icb k ↔ j.val = if k then 6 else 3 := by rw [Fin.ext_iff, icb_val]
  simp only [hj]
  obtain ⟨j, hlt⟩ := j
  simp only
  match j with
  | 0 => rfl
  | 1 => rfl
  | 2 => rfl
  | j + 3 => rw [dif_neg (by omega)]; rfl

theorem sum_filter (l : List ℚ) : (l.filter (· ≠ 0)).sum = l.sum := by
  induction l with
  | nil => rfl
  | cons a l ih =>
    rw [List.filter_cons]
    split
    · rw [List.sum_cons, List.sum_cons, ih]
    · rename_i h
      have : a = 0 := by simpa using h
      rw [List.sum_cons, ih, this, zero_add]

theorem reset_spec (c : Cfg k) (hth : 0 ≤ c.th) (x : Vec k) (l : List Row) :
    Reset c x l (reset c x l).1 (reset c x l).2 := by
  unfold Reset reset
  have hc : (l ≠ [] ∧ c.th < |mean (l.map Row.v)|) ↔ c.th * l.length < |(l.map Row.v).sum| := by
    unfold mean
    rw [abs_div, List.length_map, Nat.abs_cast]
    by_cases h : l = []
    · subst h; simp
    · have : (0 : ℚ) < l.length := by
        have := List.length_pos_iff.2 h
        exact_mod_cast this
      rw [lt_div_iff₀ this]
      exact ⟨fun h => h.2, fun h' => ⟨h, h'⟩⟩
  by_cases h : l ≠ [] ∧ c.th < |mean (l.map Row.v)|
  · rw [if_pos h, if_pos (hc.1 h)]
    refine ⟨?_, _, ?_, Function.update_self .., fun i hi => Function.update_of_ne hi .., ?_⟩
    · rw [List.map_map]
      exact List.map_congr_left fun r _ => by simp only [Function.comp]; split <;> rfl
    · unfold mean
      rw [sum_filter]
      have hne : (((l.map Row.v).filter (· ≠ 0)).length : ℚ) ≠ 0 := by
        intro h0
        have h1 : (l.map Row.v).filter (· ≠ 0) = [] := List.length_eq_zero_iff.1 (by exact_mod_cast h0)
        have h2 := sum_filter (l.map Row.v)
        rw [h1, List.sum_nil] at h2
        have h3 := hc.1 h
        rw [← h2, abs_zero] at h3
        have : (0 : ℚ) ≤ c.th * l.length := mul_nonneg hth (Nat.cast_nonneg _)
        linarith
      exact div_mul_cancel₀ _ hne
    · rw [List.map_map, List.map_map]
      refine List.map_congr_left fun r _ => ?_
      simp only [Function.comp]
      by_cases hv : r.v = 0
      · rw [if_neg (by simpa using hv), if_pos hv, hv]
      · rw [if_pos hv, if_neg hv]
  · rw [if_neg h, if_neg (fun h' => h (hc.2 h'))]
    exact ⟨rfl, rfl, rfl⟩

theorem reset_mem (c : Cfg k) (x : Vec k) (l : List Row) : ∀ r ∈ (reset c x l).2, ∃ r' ∈ l, r.sat = r'.sat ∧ r.f = r'.f ∧
    r.e = r'.e ∧ r.w = r'.w := by
  unfold reset
  split
  · intro r hr
    obtain ⟨r', h, rfl⟩ := List.mem_map.1 hr
    refine ⟨r', h, ?_⟩
    split <;> exact ⟨rfl, rfl, rfl, rfl⟩
  · exact fun r hr => ⟨r, hr, rfl, rfl, rfl, rfl⟩

/-- status with which the variances are chosen -/
def statusAt (n : Nav k) (ep : Ep k) : Int := if ep.cs = .dgps then 2 else n.smode

/-- **an epoch with enough satellites**: it never fails; the state is carried to the epoch, the rows are those of the
satellites in use, the clock may be reset, and the update is that of the textbook; the covariance stays free of negative
variances -/
theorem epoch {c : Cfg k} {n : Nav k} {ep : Ep k} (hs : Sound c ep) (hP : Psd n.P) (ht : n.t ≤ ep.t) (h0 : ep.sat ≠ [])
    (h4 : 4 ≤ ep.npos) (hu : 4 ≤ (ep.sat.filter ep.sel).length) :
    ∃ (n' : Nav k) (l l' : List Row) (x' : Vec k) (H : Matrix (Fin l'.length) (Fin (dim k)) ℚ),
      process c n ep = .ok (n', some 0) ∧
      let F := phi k (ep.t - n.t)
      let x := F *ᵥ n.x
      let P := F * n.P * Fᵀ + diagonal fun i => c.q i * (ep.t - n.t)
      let R := diagonal fun i => (l'.get i).w
      let K := P * Hᵀ * (H * P * Hᵀ + R)⁻¹
      Rows c (statusAt n ep) ep x (ep.sat.filter ep.sel) l ∧ Reset c x l x' l' ∧ Design k l' H ∧
      n'.x = x' + K *ᵥ (fun i => (l'.get i).v) ∧ n'.P = P - K * H * P ∧ Psd n'.P ∧
      n'.t = ep.t ∧ n'.nsat = (ep.sat.filter ep.sel).length ∧ n'.smode = (if ep.cs = .none then 1 else 2) := by
  unfold process
  have hu' : ¬ (used ep).length < 4 := not_lt.2 hu
  simp only [if_neg h0, if_neg (not_lt.2 h4), if_neg hu']
  set n0 : Nav k := if ep.cs = .dgps then { n with smode := 2 } else n with hn0
  have e1 : n0.x = n.x ∧ n0.P = n.P ∧ n0.t = n.t ∧ n0.smode = statusAt n ep := by
    rw [hn0]; unfold statusAt; split <;> exact ⟨rfl, rfl, rfl, rfl⟩
  have hx : (udstate c n0 ep.t).x = phi k (ep.t - n.t) *ᵥ n.x := by
    rw [← transition, ← e1.2.2.1, ← e1.1]; rfl
  have hPm : (udstate c n0 ep.t).P = phi k (ep.t - n.t) * n.P * (phi k (ep.t - n.t))ᵀ +
      diagonal fun i => c.q i * (ep.t - n.t) := by rw [← e1.2.2.1, ← e1.2.1]; rfl
  have hsm : (udstate c n0 ep.t).smode = statusAt n ep := e1.2.2.2
  have hpsd : Psd (udstate c n0 ep.t).P := predicted c n0 ep.t hs.noise (by rw [e1.2.2.1]; exact ht) (by rw [e1.2.1]; exact hP)
  rw [hx, hsm]
  obtain ⟨y, hy⟩ := resid_total hs (phi k (ep.t - n.t) *ᵥ n.x)
  obtain ⟨l, hl⟩ := sdres_total hs (statusAt n ep) (phi k (ep.t - n.t) *ᵥ n.x) (look y) (used ep)
  have hrows := rows hs.sigs (hs.sat.filter _) (fun s h => (List.mem_filter.1 h).1) hy hl
  rw [hy, Py.okBind, hl, Py.okBind]
  have hreset := reset_spec c hs.th (phi k (ep.t - n.t) *ᵥ n.x) l
  have hmem := reset_mem c (phi k (ep.t - n.t) *ᵥ n.x) l
  generalize reset c (phi k (ep.t - n.t) *ᵥ n.x) l = q at hreset hmem
  obtain ⟨x', l'⟩ := q
  simp only at hreset hmem ⊢
  have hR : Pd (cov l') := by
    refine diag_pd _ fun i => ?_
    obtain ⟨r', h, h1, h2, -, h3⟩ := hmem (l'.get i) (List.get_mem _ _)
    rw [h3]
    exact var_pos hs ((hrows.mem r'.sat r'.f).1 (List.mem_map.2 ⟨r', h, rfl⟩)).2.2.2 (hrows.var r' h)
  obtain ⟨r, hr, hS, hrx, hrP, hrpsd⟩ := C09.textbook x' (udstate c n0 ep.t).P (design k l') (fun i => (l'.get i).v) (cov l')
    hpsd hR
  unfold update
  rw [hr, Py.okBind]
  refine ⟨_, l, l', x', design k l', rfl, hrows, hreset, design_spec l', ?_, ?_, hrpsd, rfl, rfl, rfl⟩
  · rw [← hPm]; exact hrx
  · rw [← hPm]; exact hrP

/-- **any number of epochs** in order of time: the filter never fails and its covariance never has a negative variance -/
theorem epochs (c : Cfg k) : ∀ (l : List (Ep k)) (n : Nav k), (∀ ep ∈ l, Sound c ep) → Psd n.P →
    List.IsChain (· ≤ ·) (n.t :: l.map Ep.t) → ∃ n', run c n l = .ok n' ∧ Psd n'.P
  | [], n, _, hP, _ => ⟨n, rfl, hP⟩
  | ep :: l, n, hs, hP, ht => by
    rw [List.map_cons, List.isChain_cons_cons] at ht
    have step : ∃ n1 v, process c n ep = .ok (n1, v) ∧ Psd n1.P ∧ n1.t ≤ ep.t := by
      by_cases h0 : ep.sat = []
      · exact ⟨n, _, no_observations c n ep h0, hP, ht.1⟩
      · by_cases h4 : ep.npos < 4
        · exact ⟨_, _, too_few_positions c n ep h0 h4, hP, ht.1⟩
        · by_cases hu : (ep.sat.filter ep.sel).length < 4
          · exact ⟨_, _, too_few_left c n ep h0 (not_lt.1 h4) hu, hP, le_refl _⟩
          · obtain ⟨n', _, _, _, _, h, h'⟩ := epoch (hs ep (.head _)) hP ht.1 h0 (not_lt.1 h4) (not_lt.1 hu)
            exact ⟨n', _, h, h'.2.2.2.2.2.1, h'.2.2.2.2.2.2.1.le⟩
    obtain ⟨n1, v, h1, hP1, ht1⟩ := step
    have hch : List.IsChain (· ≤ ·) (n1.t :: l.map Ep.t) := by
      rcases l with _ | ⟨e, l⟩
      · exact List.isChain_singleton _
      · have h2 := ht.2
        rw [List.map_cons, List.isChain_cons_cons] at h2 ⊢
        exact ⟨ht1.trans h2.1, h2.2⟩
    obtain ⟨n', h, hP'⟩ := epochs c l n1 (fun e he => hs e (.tail _ he)) hP1 hch
    refine ⟨n', ?_, hP'⟩
    unfold run at h ⊢
    rw [List.foldlM_cons, h1]
    exact h

/-! ## What the residuals mean -/

/-- the first range of a satellite is distance, clocks and delays for the receiver clock `b` -/
def Exact (ep : Ep k) (x : Vec k) (b : ℚ) (s : Nat) : Prop :=
  let g := ep.geo x s
  g.low = false ∧ (ep.P s)[0]? = some (g.r + b - 299792458 * ep.dts s + g.trop + g.iono)

/-- the residual of exact ranges is the error of the clock -/
theorem exact_residual {c : Cfg k} {ep : Ep k} {x : Vec k} {b : ℚ} {s : Nat} {y : ℚ} (hm : c.rmode = 0)
    (h : Exact ep x b s) (hy : Resid c ep x s y) : y = b - x (icb k) := by
  obtain ⟨h1, h2⟩ := h
  unfold Resid at hy
  simp only [h1, Bool.false_eq_true, if_false, if_pos hm] at hy
  obtain ⟨p, hp, rfl⟩ := hy
  rcases hp with ⟨_, hp⟩ | ⟨_, _, _, _, _, _, ⟨hr, _⟩ | ⟨hr, _⟩⟩
  · rw [h2] at hp
    cases hp
    ring
  · rw [hm] at hr; exact absurd hr (by decide)
  · rw [hm] at hr; exact absurd hr (by decide)

/-- **two frequencies**: with delays `d` and `u d`, `u` the squared ratio of the frequencies of the satellite, the combination
leaves `d (u - g) / (1 - g)`: nothing for the frequencies of GPS, and something for any other pair -/
theorem combined {c : Cfg k} {ep : Ep k} {x : Vec k} {s : Nat} {y b d u g : ℚ}
    (hm : (c.rmode = 1 ∧ g = (15754200 / 12276000) ^ 2) ∨ (c.rmode = 2 ∧ g = (15754200 / 11764500) ^ 2))
    (hl : (ep.geo x s).low = false)
    (h0 : (ep.P s)[0]? = some ((ep.geo x s).r + b - 299792458 * ep.dts s + (ep.geo x s).trop + d))
    (h1 : (ep.P s)[1]? = some ((ep.geo x s).r + b - 299792458 * ep.dts s + (ep.geo x s).trop + u * d))
    (hy : Resid c ep x s y) :
    y = b - x (icb k) + d * (u - g) / (1 - g) ∧ (d ≠ 0 → (y = b - x (icb k) ↔ u = g)) := by
  have hg : 1 - g ≠ 0 := by rcases hm with ⟨_, rfl⟩ | ⟨_, rfl⟩ <;> norm_num
  have e : y = b - x (icb k) + d * (u - g) / (1 - g) := by
    unfold Resid at hy
    have hm0 : c.rmode ≠ 0 := by rcases hm with ⟨h, _⟩ | ⟨h, _⟩ <;> rw [h] <;> decide
    simp only [hl, Bool.false_eq_true, if_false, if_neg hm0] at hy
    obtain ⟨p, hp, rfl⟩ := hy
    rcases hp with ⟨hp, _⟩ | ⟨p0, p1, g', e0, e1, rfl, hg'⟩
    · exact absurd hp hm0
    · rw [h0] at e0
      rw [h1] at e1
      cases e0
      cases e1
      have : g' = g := by
        rcases hm with ⟨a, rfl⟩ | ⟨a, rfl⟩ <;> rcases hg' with ⟨b, rfl⟩ | ⟨b, rfl⟩ <;> first | rfl | (rw [a] at b; exact absurd b (by decide))
      subst this
      field_simp
      ring
  refine ⟨e, fun hd => ?_⟩
  rw [e]
  constructor
  · intro h
    have : d * (u - g) / (1 - g) = 0 := by linarith
    rw [div_eq_zero_iff] at this
    have := (mul_eq_zero.1 (this.resolve_right hg)).resolve_left hd
    linarith
  · rintro rfl
    simp

/-- the pair E1/E5a of Galileo in the mode for L1/L2 keeps more than 22 percent of the delay, with the opposite sign -/
example : ((15754200 / 11764500 : ℚ) ^ 2 - (15754200 / 12276000) ^ 2) / (1 - (15754200 / 12276000) ^ 2) < -(22 / 100) := by norm_num

/-! ## Clock reset -/

theorem sum_rows (d : ℚ) : ∀ l : List Row, (∀ r ∈ l, r.v = if r.f = 0 then d else 0) →
    (l.map Row.v).sum = d * ((l.map fun r => (r.f, r.sat)).filter fun p => p.1 = 0).length
  | [], _ => by simp
  | r :: l, h => by
    have ih := sum_rows d l fun r hr => h r (.tail _ hr)
    rw [List.map_cons, List.sum_cons, ih, h r (.head _), List.map_cons, List.filter_cons]
    by_cases hf : r.f = 0
    · simp [hf]; ring
    · simp [hf]

theorem nonzero_rows {d : ℚ} (hd : d ≠ 0) : ∀ l : List Row, (∀ r ∈ l, r.v = if r.f = 0 then d else 0) →
    ((l.map Row.v).filter (· ≠ 0)).length = ((l.map fun r => (r.f, r.sat)).filter fun p => p.1 = 0).length
  | [], _ => by simp
  | r :: l, h => by
    have ih := nonzero_rows hd l fun r hr => h r (.tail _ hr)
    rw [List.map_cons, List.filter_cons, List.map_cons, List.filter_cons]
    have hr := h r (.head _)
    by_cases hf : r.f = 0
    · rw [if_pos hf] at hr
      simp only [hr, hf, ne_eq, hd, not_false_eq_true, decide_true, if_true, List.length_cons]
      rw [← ih]
    · rw [if_neg hf] at hr
      simp only [hr, hf, ne_eq, not_true_eq_false, decide_false, Bool.false_eq_true, if_false, ih]

/-- one of `N` rows is one of the first signal -/
theorem count_rows {N : Nat} (hN : 0 < N) {A : Finset Nat} {T : List (Nat × Nat)} (hn : T.Nodup)
    (hm : ∀ f s, (f, s) ∈ T ↔ s ∈ A ∧ f < N) :
    T.length = N * (T.filter fun p => p.1 = 0).length ∧ (T.filter fun p => p.1 = 0).length = A.card := by
  have h1 : T.toFinset = Finset.range N ×ˢ A := by
    ext ⟨f, s⟩
    rw [List.mem_toFinset, hm, Finset.mem_product, Finset.mem_range]
    exact and_comm
  have h2 : (T.filter fun p => p.1 = 0).toFinset = {0} ×ˢ A := by
    ext ⟨f, s⟩
    rw [List.mem_toFinset, List.mem_filter, hm, Finset.mem_product, Finset.mem_singleton, decide_eq_true_iff]
    constructor
    · rintro ⟨⟨a, _⟩, b⟩; exact ⟨b, a⟩
    · rintro ⟨b, a⟩; simp only at b; exact ⟨⟨a, b ▸ hN⟩, b⟩
  have c1 := List.toFinset_card_of_nodup hn
  have c2 := List.toFinset_card_of_nodup (hn.filter fun p => decide (p.1 = 0))
  rw [h1, Finset.card_product, Finset.card_range] at c1
  rw [h2, Finset.card_product, Finset.card_singleton, one_mul] at c2
  rw [← c1, ← c2]
  exact ⟨rfl, rfl⟩

/-- **clock reset**: with exact ranges and a clock error of more than the threshold times the number of signals, the clock is
set to the *error* of the clock instead of being corrected by it; nothing else moves.  Below that there is no reset. -/
theorem clock_reset {c : Cfg k} {n : Nav k} {ep : Ep k} (hs : Sound c ep) (hP : Psd n.P) (ht : n.t ≤ ep.t) (h0 : ep.sat ≠ [])
    (h4 : 4 ≤ ep.npos) (hu : 4 ≤ (ep.sat.filter ep.sel).length) (hm : c.rmode = 0) {b : ℚ} {x : Vec k}
    (hx : x = phi k (ep.t - n.t) *ᵥ n.x)
    (hd : ∀ s ∈ ep.sat.filter ep.sel, ep.edt s = false ∧ (sat2prn s).1 ∈ ep.sigs ∧ Exact ep x b s)
    (hb : c.th * c.nf < |b - x (icb k)|) :
    ∃ n', process c n ep = .ok (n', some 0) ∧ Psd n'.P ∧ n'.t = ep.t ∧ n'.x (icb k) = b - x (icb k) ∧
      ∀ i, i ≠ icb k → n'.x i = x i := by
  obtain ⟨n', l, l', x', H, hp, hrows, ⟨-, hreset⟩, -, hx', -, hpsd, ht', -⟩ := epoch hs hP ht h0 h4 hu
  refine ⟨n', hp, hpsd, ht', ?_⟩
  rw [← hx] at hrows hreset
  set d := b - x (icb k) with hdd
  have hd0 : d ≠ 0 := by
    intro h
    rw [h, abs_zero] at hb
    have : (0 : ℚ) ≤ c.th * c.nf := mul_nonneg hs.th (Nat.cast_nonneg _)
    linarith
  have hv : ∀ r ∈ l, r.v = if r.f = 0 then d else 0 := fun r hr => by
    have h1 := hrows.res r hr
    have h2 := (hrows.mem r.sat r.f).1 (List.mem_map.2 ⟨r, hr, rfl⟩)
    split
    · rename_i hf
      rw [if_pos hf] at h1
      exact exact_residual hm (hd _ h2.1).2.2 h1
    · rename_i hf
      rw [if_neg hf] at h1
      exact h1
  obtain ⟨hc1, hc2⟩ := count_rows (A := (ep.sat.filter ep.sel).toFinset) hs.nf hrows.nodup fun f s => by
    rw [hrows.mem, List.mem_toFinset, if_pos hm]
    exact ⟨fun h => ⟨h.1, h.2.2.2⟩, fun h => ⟨h.1, (hd s h.1).1, (hd s h.1).2.1, h.2⟩⟩
  have hpos : 0 < ((l.map fun r => (r.f, r.sat)).filter fun p => p.1 = 0).length := by
    rw [hc2, Finset.card_pos]
    obtain ⟨s, hs⟩ := List.exists_mem_of_length_pos (lt_of_lt_of_le (by norm_num) hu)
    exact ⟨s, by rw [List.mem_toFinset]; exact hs⟩
  have hpos' : (0 : ℚ) < (((l.map fun r => (r.f, r.sat)).filter fun p => p.1 = 0).length : ℚ) := by exact_mod_cast hpos
  rw [List.length_map] at hc1
  have hcond : c.th * l.length < |(l.map Row.v).sum| := by
    rw [sum_rows d l hv, abs_mul, Nat.abs_cast, hc1, Nat.cast_mul, ← mul_assoc]
    exact mul_lt_mul_of_pos_right hb hpos'
  rw [if_pos hcond] at hreset
  obtain ⟨m, hm1, hm2, hm3, hm4⟩ := hreset
  rw [nonzero_rows hd0 l hv, sum_rows d l hv] at hm1
  have hmd : m = d := mul_right_cancel₀ hpos'.ne' hm1
  have hz : (fun i => (l'.get i).v) = 0 := by
    funext i
    have : (l'.get i).v ∈ l'.map Row.v := List.mem_map.2 ⟨_, List.get_mem _ _, rfl⟩
    rw [hm4] at this
    obtain ⟨v, hvm, hve⟩ := List.mem_map.1 this
    obtain ⟨r, hr, rfl⟩ := List.mem_map.1 hvm
    rw [← hve, hv r hr, hmd]
    split_ifs <;> simp_all
  rw [hz, mulVec_zero, add_zero] at hx'
  rw [hx']
  exact ⟨hm2.trans hmd, hm3⟩

/-- the state is not moved by the time update of a receiver without velocity states -/
theorem phi_static (tt : ℚ) (x : Vec false) : phi false tt *ᵥ x = x := (transition (k := false) tt x).symm

/-- **the clock never settles**: exact ranges of a receiver whose clock is `b`, started with the clock `a`, both `a` and
`b - a` beyond the threshold: after any number of epochs the clock is `a` or `b - a`, in turn -/
theorem alternates {c : Cfg false} {b a : ℚ} (hm : c.rmode = 0) (ha : c.th * c.nf < |a|) (hb : c.th * c.nf < |b - a|) :
    ∀ (l : List (Ep false)) (n : Nav false), Psd n.P → List.IsChain (· ≤ ·) (n.t :: l.map Ep.t) →
      (∀ ep ∈ l, Sound c ep ∧ ep.sat ≠ [] ∧ 4 ≤ ep.npos ∧ 4 ≤ (ep.sat.filter ep.sel).length ∧
        ∀ x : Vec false, (∀ i, i ≠ icb false → x i = n.x i) → ∀ s ∈ ep.sat.filter ep.sel,
          ep.edt s = false ∧ (sat2prn s).1 ∈ ep.sigs ∧ Exact ep x b s) →
      (n.x (icb false) = a ∨ n.x (icb false) = b - a) →
      ∃ n', run c n l = .ok n' ∧ n'.x (icb false) =
        if l.length % 2 = 0 then n.x (icb false) else b - n.x (icb false)
  | [], n, _, _, _, _ => ⟨n, rfl, rfl⟩
  | ep :: l, n, hP, ht, he, hn => by
    rw [List.map_cons, List.isChain_cons_cons] at ht
    obtain ⟨hs, h0, h4, hu, hd⟩ := he ep (.head _)
    have hb' : c.th * c.nf < |b - n.x (icb false)| := by
      rcases hn with h | h <;> rw [h]
      · exact hb
      · rw [sub_sub_cancel]; exact ha
    obtain ⟨n1, h1, hP1, ht1, hx1, hx2⟩ := clock_reset hs hP ht.1 h0 h4 hu hm (b := b) (x := n.x)
      (phi_static _ _).symm (hd _ fun _ _ => rfl) hb'
    obtain ⟨n', h', hx'⟩ := alternates hm ha hb l n1 hP1 (by rw [ht1]; exact ht.2)
      (fun e hel => by
        obtain ⟨a1, a2, a3, a4, a5⟩ := he e (.tail _ hel)
        exact ⟨a1, a2, a3, a4, fun x hx => a5 x fun i hi => by rw [hx i hi, hx2 i hi]⟩)
      (by rw [hx1]; rcases hn with h | h <;> rw [h]
          · exact .inr rfl
          · left; ring)
    refine ⟨n', ?_, ?_⟩
    · unfold run at h' ⊢
      rw [List.foldlM_cons, h1]
      exact h'
    · rw [hx', hx1, List.length_cons]
      by_cases hl : l.length % 2 = 0
      · rw [if_pos hl, if_neg (by omega)]
      · rw [if_neg hl, if_pos (by omega)]; ring

/-! ## A case -/

def caseCfg : Cfg false := ⟨1, 0, [50], 1 / 100, 5 / 1000, 1 / 1000, 100, fun _ => 1⟩
def caseGeo : Geo := ⟨20000000, fun _ => 1 / 2, 1 / 2, false, 2, 3, 1⟩
def caseEp (t : ℚ) : Ep false where
  t := t
  sat := [1, 2, 3, 4]
  sigs := [.gps]
  P := fun _ => [20000000 + 5000 + 2 + 3]
  cs := .none
  npos := 4
  dts := fun _ => 0
  edt := fun _ => false
  sel := fun _ => true
  geo := fun _ _ => caseGeo
def caseNav : Nav false := ⟨fun _ => 1000, diagonal fun _ => 10000, 0, 0, 0⟩

theorem case_sound (t : ℚ) : Sound caseCfg (caseEp t) where
  nf := by decide
  mode := .inl rfl
  cols := fun s _ => by simp [caseCfg, caseEp]
  ratio := fun f hf => by
    have : f = 0 := by simpa [caseCfg] using hf
    exact ⟨50, by rw [this]; rfl, by norm_num⟩
  err := .inl (by norm_num [caseCfg])
  smin := by norm_num [caseCfg]
  dgps := fun _ _ => by norm_num [caseEp, caseGeo]
  noise := fun _ => by norm_num [caseCfg]
  th := by norm_num [caseCfg]
  sat := show [1, 2, 3, 4].Nodup by decide
  sigs := show [Sys.gps].Nodup by decide

/-- a clock of 5000 m started at 1000 m: the filter shows 4000 m and 1000 m in turn, never 5000 m -/
example : ∃ n', run caseCfg caseNav [caseEp 1, caseEp 2, caseEp 3] = .ok n' ∧ n'.x (icb false) = 4000 := by
  obtain ⟨n', h, hx⟩ := alternates (c := caseCfg) (b := 5000) (a := 1000) rfl (by norm_num [caseCfg]) (by norm_num [caseCfg])
    [caseEp 1, caseEp 2, caseEp 3] caseNav (diag_psd _ fun _ => by norm_num)
    (by simp [caseEp, caseNav]; norm_num)
    (fun ep hep => by
      have : ∃ t, ep = caseEp t := by
        simp only [List.mem_cons, List.not_mem_nil, or_false] at hep
        rcases hep with rfl | rfl | rfl <;> exact ⟨_, rfl⟩
      obtain ⟨t, rfl⟩ := this
      refine ⟨case_sound t, by simp [caseEp], le_refl _, by simp [caseEp], fun x _ s hs => ⟨rfl, ?_, rfl, ?_⟩⟩
      · have hs' : s ∈ [1, 2, 3, 4] := (List.mem_filter.1 hs).1
        simp only [List.mem_cons, List.not_mem_nil, or_false] at hs'
        change (sat2prn s).1 ∈ [Sys.gps]
        rcases hs' with rfl | rfl | rfl | rfl <;> decide
      · simp only [caseEp, caseGeo]
        norm_num)
    (.inl rfl)
  refine ⟨n', h, ?_⟩
  rw [hx]
  norm_num [caseNav]

end Verif.C99
