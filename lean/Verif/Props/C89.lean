import Verif.Model.SdVal
import Verif.Props.C49
import Verif.Props.C87
import Verif.Props.C88
/-!
# C89 Differences of the measurements and their design matrix

Specification: the coefficient of every state in every difference; the difference is the measured one minus what the states
account for; with measurements without error it is 0 at the true states, except for a stated remainder when the satellites
transmit on different frequencies.
-/

namespace Verif.C89
open Verif.Sat Verif.Sig Verif.Sd Verif.SdVal
open Verif.Ud (need freq)
open Verif.Ppp (nsat pyIdx IT)
open Verif.C88 (freq_spec need_ok pyGet_some)
open Finset (Ico)

/-! ## Specification -/

/-- documented layout of the states: `q` kinematic states, then the zenith delay, slant delays, ambiguities; the zenith delay
is estimated only together with slant delays (see C47) -/
structure Layout (v : SdVal.In) (q : Nat) : Prop where
  kin : 3 ≤ q
  na : v.na = q + (if v.trop then 1 else 0) + (if v.iono then 233 else 0)
  nx : v.nx = v.na + 233 * v.sel.nf
  both : v.trop = true → v.iono = true

/-- zenith delay, slant delay of satellite `s`, its ambiguity of phase `f` -/
def ztd (q : Nat) : Nat := q
def ion (v : SdVal.In) (q s : Nat) : Nat := q + (if v.trop then 1 else 0) + (s - 1)
def amb (v : SdVal.In) (s f : Nat) : Nat := v.na + 233 * f + (s - 1)

/-- frequency of satellite `s` in column `f`: phases first, then ranges -/
def frq (v : SdVal.In) (s f : Nat) : ℚ :=
  let t := if f < v.sel.nf then Typ.L else Typ.C
  match ((((v.sig (sat2prn s).1).bind fun d => d t)).getD [])[f % v.sel.nf]? with
  | some g => (Msm.frequency g.sys (g.sig.tdiv 100).toNat ((Dict.get? v.gloCh s).getD 0)).getD 0
  | none => 0

/-- frequency of the slant delays: the first phase (GLONASS: channel 0) -/
def frq0 (v : SdVal.In) (s : Nat) : ℚ :=
  match ((((v.sig (sat2prn s).1).bind fun d => d .L)).getD [])[0]? with
  | some g => (Msm.frequency g.sys (g.sig.tdiv 100).toNat 0).getD 0
  | none => 0

/-- effect of a slant delay of 1 m: phases advanced, ranges delayed -/
def mu (v : SdVal.In) (s f : Nat) : ℚ :=
  if f < v.sel.nf then -(frq0 v s / frq v s f) ^ 2 else (frq0 v s / frq v s f) ^ 2

def lam (v : SdVal.In) (s f : Nat) : ℚ := 299792458 / frq v s f

/-- the measured difference: between satellites, with a base also between receivers -/
def meas (v : SdVal.In) (i j f : Nat) : ℚ :=
  let z := fun k => if v.dd then v.sel.y k f - v.sel.y (k + v.sel.sat.length) f else v.sel.y k f
  z i - z j

/-- a satellite of the list -/
def SatAt (v : SdVal.In) (k s : Nat) : Prop := v.sel.sat[k]? = some s

/-! ## Lookups -/

theorem sigAt_ok {v : SdVal.In} {m : Sys} {t : Typ} {f : Nat} {g : Sig} (h : sigAt v m t f = .ok g) :
    (((v.sig m).bind fun d => d t).getD [])[f]? = some g := by
  unfold sigAt at h
  split at h
  · next l e => rw [e, Option.getD_some]; exact pyGet_some h
  · cases h

theorem chan_ok {v : SdVal.In} {m : Sys} {s : Nat} {k : Option Int} (h : chan v m s = .ok k) :
    ∀ x, k = some x → (Dict.get? v.gloCh s).getD 0 = x := by
  intro x hx
  unfold chan at h
  split_ifs at h
  · obtain ⟨a, h1, h2⟩ := Py.bind_ok.1 h
    rw [Py.pure_ok] at h2
    rw [Dict.getItem_ok_iff] at h1
    rw [h1]
    subst h2
    simpa using hx
  · cases h; cases hx

/-- what a satellite's lookup gives -/
theorem look_ok {v : SdVal.In} {m : Sys} {f s : Nat} {g : Sig} {fj u : ℚ} (hm : (sat2prn s).1 = m) (hf : f < 2 * v.sel.nf)
    (h : look v m f s = .ok (g, fj, u)) :
    fj = frq v s f ∧ u = mu v s f ∧
      ((((v.sig m).bind fun d => d (if f < v.sel.nf then Typ.L else Typ.C))).getD [])[f % v.sel.nf]? = some g := by
  unfold look at h
  obtain ⟨g0, h0, h⟩ := Py.bind_ok.1 h
  obtain ⟨q0, h1, h⟩ := Py.bind_ok.1 h
  obtain ⟨sg, h2, h⟩ := Py.bind_ok.1 h
  obtain ⟨k, h3, h⟩ := Py.bind_ok.1 h
  obtain ⟨fj', h4, h⟩ := Py.bind_ok.1 h
  rw [Py.pure_ok] at h
  simp only [Prod.mk.injEq] at h
  obtain ⟨rfl, rfl, rfl⟩ := h
  unfold sigOf at h2
  have e2 : ((((v.sig m).bind fun d => d (if f < v.sel.nf then Typ.L else Typ.C))).getD [])[f % v.sel.nf]? = some sg := by
    by_cases c : f < v.sel.nf
    · rw [if_pos c] at h2 ⊢
      rw [Nat.mod_eq_of_lt c]
      exact sigAt_ok h2
    · rw [if_neg c] at h2 ⊢
      exact sigAt_ok h2
  have e4 : fj' = frq v s f := by
    unfold frq
    simp only [hm]
    rw [e2]
    simp only
    rw [freq_spec (need_ok h4) ((Dict.get? v.gloCh s).getD 0) (chan_ok h3)]
    rfl
  have e1 : q0 = frq0 v s := by
    unfold frq0
    rw [hm, sigAt_ok h0]
    simp only
    rw [freq_spec (need_ok h1) 0 (by
      intro x hx
      split_ifs at hx
      cases hx
      rfl)]
    rfl
  refine ⟨e4, ?_, e2⟩
  unfold mu
  rw [e1, e4]

theorem frq_i {v : SdVal.In} {m : Sys} {f s : Nat} {g : Sig} {k : Option Int} {fi : ℚ} (hm : (sat2prn s).1 = m)
    (hg : ((((v.sig m).bind fun d => d (if f < v.sel.nf then Typ.L else Typ.C))).getD [])[f % v.sel.nf]? = some g)
    (hk : chan v m s = .ok k) (h : need (freq g k) = .ok fi) : fi = frq v s f := by
  unfold frq
  simp only [hm]
  rw [hg]
  simp only
  rw [freq_spec (need_ok h) ((Dict.get? v.gloCh s).getD 0) (chan_ok hk)]
  rfl

/-- satellites of one constellation other than GLONASS have the same frequencies -/
theorem same_frq (v : SdVal.In) (s t f : Nat) (h : (sat2prn s).1 = (sat2prn t).1)
    (hg : ∀ ty l g, (v.sig (sat2prn s).1).bind (fun d => d ty) = some l → g ∈ l → g.sys ≠ .glo) : frq v s f = frq v t f := by
  unfold frq
  simp only
  rw [← h]
  generalize hty : (if f < v.sel.nf then Typ.L else Typ.C) = ty
  cases hl : (v.sig (sat2prn s).1).bind fun d => d ty with
  | none => rfl
  | some l =>
    rw [Option.getD_some]
    cases hh : l[f % v.sel.nf]? with
    | none => rfl
    | some g =>
      have := hg ty l g hl (List.mem_of_getElem? hh)
      simp only
      congr 1
      generalize g.sys = y at this
      unfold Msm.frequency
      split <;> first | rfl | simp_all

/-! ## Sums over the states -/

theorem sum_put (S : Finset Nat) (H x : Nat → ℚ) (a : Nat) (w : ℚ) (ha : a ∈ S) (h0 : H a = 0) :
    ∑ k ∈ S, put H a w k * x k = ∑ k ∈ S, H k * x k + w * x a := by
  have : ∀ k ∈ S, put H a w k * x k = H k * x k + if k = a then w * x a else 0 := by
    intro k _
    unfold put
    by_cases c : k = a
    · subst c; simp [h0]
    · simp [c]
  rw [Finset.sum_congr rfl this, Finset.sum_add_distrib, Finset.sum_ite_eq' S a, if_pos ha]

/-! ## One difference -/

/-- the row of the design matrix -/
structure Design (v : SdVal.In) (q : Nat) (i j f si sj : Nat) (H : Nat → ℚ) : Prop where
  pos : ∀ k < 3, H k = v.e j k - v.e i k
  ztd : v.trop = true → H (ztd q) = v.mapw i - v.mapw j
  ioni : v.iono = true → H (ion v q si) = mu v sj f
  ionj : v.iono = true → H (ion v q sj) = -mu v sj f
  ambi : f < v.sel.nf → H (amb v si f) = lam v si f
  ambj : f < v.sel.nf → H (amb v sj f) = -lam v sj f
  other : ∀ k, 3 ≤ k → (v.trop = true → k ≠ C89.ztd q) → (v.iono = true → k ≠ ion v q si ∧ k ≠ ion v q sj) →
    (f < v.sel.nf → k ≠ amb v si f ∧ k ≠ amb v sj f) → H k = 0

/-- what the states account for, all but the position -/
def acc (v : SdVal.In) (H : Nat → ℚ) : ℚ := ∑ k ∈ Ico 3 v.nx, H k * v.x k

theorem start_spec (v : SdVal.In) (r : Row) :
    (start v r).1 = meas v r.i r.j r.f - acc v (start v r).2 ∧ (∀ k < 3, (start v r).2 k = v.e r.j k - v.e r.i k) ∧
    ∀ k, 3 ≤ k → (start v r).2 k = 0 := by
  have h3 : ∀ k, 3 ≤ k → (start v r).2 k = 0 := by
    intro k hk
    unfold start
    exact if_neg (by omega)
  refine ⟨?_, ?_, h3⟩
  · have : acc v (start v r).2 = 0 := by
      unfold acc
      refine Finset.sum_eq_zero fun k hk => ?_
      rw [h3 k (Finset.mem_Ico.1 hk).1, zero_mul]
    rw [this]
    unfold start meas
    cases v.dd <;> simp
  · intro k hk
    unfold start
    simp only
    rw [if_pos hk]
    ring

theorem acc_put {v : SdVal.In} {H : Nat → ℚ} {a : Nat} (w : ℚ) (h3 : 3 ≤ a) (hn : a < v.nx) (h0 : H a = 0) :
    acc v (put H a w) = acc v H + w * v.x a := sum_put _ _ _ _ _ (Finset.mem_Ico.2 ⟨h3, hn⟩) h0

theorem put_same (H : Nat → ℚ) (a : Nat) (w : ℚ) : put H a w a = w := if_pos rfl
theorem put_ne (H : Nat → ℚ) {a k : Nat} (w : ℚ) (h : k ≠ a) : put H a w k = H k := if_neg h

def Num (s : Nat) : Prop := 1 ≤ s ∧ s ≤ 233

theorem trop_spec {v : SdVal.In} {q : Nat} (L : Layout v q) {r : Row} {a b : DVal} (h0 : ∀ k, 3 ≤ k → a.2 k = 0)
    (h : tropPart v r a = .ok b) :
    b.1 = a.1 - (if v.trop then (v.mapw r.i - v.mapw r.j) * v.x (ztd q) else 0) ∧
    b.1 + acc v b.2 = a.1 + acc v a.2 ∧ (v.trop = true → b.2 (ztd q) = v.mapw r.i - v.mapw r.j) ∧
    ∀ k, (v.trop = true → k ≠ ztd q) → b.2 k = a.2 k := by
  unfold tropPart at h
  cases ht : v.trop with
  | false =>
    rw [ht] at h
    cases h
    exact ⟨by simp, rfl, by simp, fun _ _ => rfl⟩
  | true =>
    rw [ht, if_pos rfl] at h
    have hna := L.na
    rw [ht, L.both ht, if_pos rfl, if_pos rfl] at hna
    have hnx := L.nx
    have hq := L.kin
    have e : pyIdx v.nx (IT v.na) = some (ztd q) := by
      unfold pyIdx IT ztd nsat
      rw [if_pos (by omega)]
      congr 1
      omega
    rw [e] at h
    cases h
    refine ⟨by simp, ?_, fun _ => put_same _ _ _, fun k hk => put_ne _ _ (hk rfl)⟩
    simp only
    rw [acc_put _ (by unfold ztd; omega) (by unfold ztd; omega) (h0 _ (by unfold ztd; omega))]
    ring

theorem ion_spec {v : SdVal.In} {q : Nat} (L : Layout v q) {si sj : Nat} (hi : Num si) (hj : Num sj) (hne : si ≠ sj) (u : ℚ)
    (a : DVal) (h0 : v.iono = true → a.2 (ion v q si) = 0 ∧ a.2 (ion v q sj) = 0) :
    (ionPart v si sj u a).1 = a.1 - (if v.iono then u * (v.x (ion v q si) - v.x (ion v q sj)) else 0) ∧
    (ionPart v si sj u a).1 + acc v (ionPart v si sj u a).2 = a.1 + acc v a.2 ∧
    (v.iono = true → (ionPart v si sj u a).2 (ion v q si) = u ∧ (ionPart v si sj u a).2 (ion v q sj) = -u) ∧
    ∀ k, (v.iono = true → k ≠ ion v q si ∧ k ≠ ion v q sj) → (ionPart v si sj u a).2 k = a.2 k := by
  unfold ionPart
  cases ht : v.iono with
  | false => exact ⟨by simp, rfl, by simp, fun _ _ => rfl⟩
  | true =>
    obtain ⟨z1, z2⟩ := h0 ht
    have hna := L.na
    rw [ht, if_pos rfl] at hna
    have hnx := L.nx
    have hq := L.kin
    unfold Num at hi hj
    have e : ∀ s, 1 ≤ s → v.na - nsat + s - 1 = ion v q s := by
      intro s hs
      unfold ion nsat
      omega
    have hb : ∀ s, 1 ≤ s → s ≤ 233 → 3 ≤ ion v q s ∧ ion v q s < v.nx := by
      intro s h1 h2
      unfold ion
      omega
    have hne' : ion v q sj ≠ ion v q si := by
      unfold ion
      omega
    simp only [if_true]
    rw [e si hi.1, e sj hj.1]
    refine ⟨rfl, ?_, fun _ => ⟨?_, put_same _ _ _⟩, fun k hk => ?_⟩
    · rw [acc_put _ (hb sj hj.1 hj.2).1 (hb sj hj.1 hj.2).2 (by rw [put_ne _ _ hne', z2]),
        acc_put _ (hb si hi.1 hi.2).1 (hb si hi.1 hi.2).2 z1]
      ring
    · rw [put_ne _ _ hne'.symm, put_same]
    · rw [put_ne _ _ (hk trivial).2, put_ne _ _ (hk trivial).1]

theorem lam_same {v : SdVal.In} {m : Sys} {si sj : Nat} {g : Sig} {k : Option Int} {fj fi : ℚ} (hm : m ≠ .glo)
    (h1 : need (freq g k) = .ok fi) (hk : chan v m si = .ok k) (h2 : ∃ k', chan v m sj = .ok k' ∧ need (freq g k') = .ok fj) :
    fi = fj := by
  obtain ⟨k', h3, h4⟩ := h2
  unfold chan at hk h3
  rw [if_neg hm] at hk h3
  cases hk
  cases h3
  rw [h1] at h4
  cases h4
  rfl

theorem amb_spec {v : SdVal.In} {q : Nat} (L : Layout v q) {m : Sys} {f si sj : Nat} (hi : Num si) (hj : Num sj)
    (hne : si ≠ sj) (hmi : (sat2prn si).1 = m) (hf : f < 2 * v.sel.nf) {g : Sig} {fj u : ℚ}
    (hl : look v m f sj = .ok (g, fj, u)) (hmj : (sat2prn sj).1 = m)
    {a b : DVal} (h0 : f < v.sel.nf → a.2 (amb v si f) = 0 ∧ a.2 (amb v sj f) = 0) (h : ambPart v m f si sj g fj a = .ok b) :
    b.1 = a.1 - (if f < v.sel.nf then lam v si f * (v.x (amb v si f) - v.x (amb v sj f)) else 0) ∧
    b.1 + acc v b.2 = a.1 + acc v a.2 + (if f < v.sel.nf then (lam v si f - lam v sj f) * v.x (amb v sj f) else 0) ∧
    (f < v.sel.nf → b.2 (amb v si f) = lam v si f ∧ b.2 (amb v sj f) = -lam v sj f) ∧
    ∀ k, (f < v.sel.nf → k ≠ amb v si f ∧ k ≠ amb v sj f) → b.2 k = a.2 k := by
  obtain ⟨l1, -, l2⟩ := look_ok hmj hf hl
  unfold ambPart at h
  by_cases c : f < v.sel.nf
  · rw [if_pos c] at h
    obtain ⟨ki, h1, h⟩ := Py.bind_ok.1 h
    obtain ⟨fi, h2, h⟩ := Py.bind_ok.1 h
    rw [Py.pure_ok] at h
    have e1 := frq_i hmi l2 h1 h2
    have e2 : (if m = .glo then Msm.clight / fj else Msm.clight / fi) = lam v sj f := by
      split_ifs with hg
      · rw [l1]; rfl
      · have : fi = fj := by
          refine lam_same (sj := sj) hg h2 h1 ?_
          unfold look at hl
          obtain ⟨_, _, hl⟩ := Py.bind_ok.1 hl
          obtain ⟨_, _, hl⟩ := Py.bind_ok.1 hl
          obtain ⟨sg, _, hl⟩ := Py.bind_ok.1 hl
          obtain ⟨k, x1, hl⟩ := Py.bind_ok.1 hl
          obtain ⟨w, x2, hl⟩ := Py.bind_ok.1 hl
          rw [Py.pure_ok] at hl
          simp only [Prod.mk.injEq] at hl
          obtain ⟨rfl, rfl, -⟩ := hl
          exact ⟨k, x1, x2⟩
        rw [this, l1]
        rfl
    have e3 : Msm.clight / fi = lam v si f := by rw [e1]; rfl
    rw [e2, e3] at h
    obtain ⟨z1, z2⟩ := h0 c
    have hna := L.na
    have hnx := L.nx
    have hq := L.kin
    unfold Num at hi hj
    have e : ∀ s, 1 ≤ s → v.na + nsat * f + s - 1 = amb v s f := by
      intro s hs
      unfold amb nsat
      omega
    have hb : ∀ s, 1 ≤ s → s ≤ 233 → 3 ≤ amb v s f ∧ amb v s f < v.nx := by
      intro s h1 h2
      unfold amb
      omega
    have hne' : amb v sj f ≠ amb v si f := by
      unfold amb
      omega
    rw [e si hi.1, e sj hj.1] at h
    subst h
    refine ⟨by rw [if_pos c], ?_, fun _ => ⟨?_, put_same _ _ _⟩, fun k hk => ?_⟩
    · rw [if_pos c, acc_put _ (hb sj hj.1 hj.2).1 (hb sj hj.1 hj.2).2 (by rw [put_ne _ _ hne', z2]),
        acc_put _ (hb si hi.1 hi.2).1 (hb si hi.1 hi.2).2 z1]
      ring
    · show put (put _ _ _) _ _ _ = _
      rw [put_ne _ _ hne'.symm, put_same]
    · show put (put _ _ _) _ _ _ = _
      rw [put_ne _ _ (hk c).2, put_ne _ _ (hk c).1]
  · rw [if_neg c] at h
    cases h
    exact ⟨by rw [if_neg c, sub_zero], by rw [if_neg c, add_zero], fun x => absurd x c, fun _ _ => rfl⟩

/-- one difference and its row -/
theorem row_spec {v : SdVal.In} {q : Nat} (L : Layout v q) {m : Sys} {r : Row} {si sj : Nat} (ai : SatAt v r.i si)
    (aj : SatAt v r.j sj) (hi : Num si) (hj : Num sj) (hne : si ≠ sj) (hmi : (sat2prn si).1 = m) (hmj : (sat2prn sj).1 = m)
    (hf : r.f < 2 * v.sel.nf) {d : ℚ} {H : Nat → ℚ} (h : rowVal v m r = .ok (d, H)) :
    Design v q r.i r.j r.f si sj H ∧
    d = meas v r.i r.j r.f - acc v H +
      (if r.f < v.sel.nf then (lam v si r.f - lam v sj r.f) * v.x (amb v sj r.f) else 0) ∧
    d = meas v r.i r.j r.f - (if v.trop then (v.mapw r.i - v.mapw r.j) * v.x (ztd q) else 0) -
      (if v.iono then mu v sj r.f * (v.x (ion v q si) - v.x (ion v q sj)) else 0) -
      (if r.f < v.sel.nf then lam v si r.f * (v.x (amb v si r.f) - v.x (amb v sj r.f)) else 0) := by
  unfold rowVal at h
  obtain ⟨si', h1, h⟩ := Py.bind_ok.1 h
  obtain ⟨sj', h2, h⟩ := Py.bind_ok.1 h
  have := pyGet_some h1
  unfold SatAt at ai aj
  rw [ai] at this
  cases this
  have := pyGet_some h2
  rw [aj] at this
  cases this
  obtain ⟨⟨g, fj, u⟩, h3, h⟩ := Py.bind_ok.1 h
  obtain ⟨b, h4, h⟩ := Py.bind_ok.1 h
  obtain ⟨s1, s2, s3⟩ := start_spec v r
  obtain ⟨t0, t1, t2, t3⟩ := trop_spec L s3 h4
  have hu := (look_ok hmj hf h3).2.1
  have hna := L.na
  have hq := L.kin
  have di : ∀ s, Num s → 3 ≤ ion v q s ∧ (v.trop = true → ion v q s ≠ ztd q) ∧ (v.iono = true → ion v q s < v.na) := by
    intro s hs
    unfold Num at hs
    refine ⟨by unfold ion; omega, fun ht => by unfold ion ztd; rw [ht, if_pos rfl]; omega, fun ht => ?_⟩
    unfold ion
    rw [ht] at hna
    simp only [if_pos] at hna
    omega
  have da : ∀ s, v.na ≤ amb v s r.f := by
    intro s
    unfold amb
    omega
  have dz : v.trop = true → ztd q < v.na := by
    intro ht
    unfold ztd
    rw [ht] at hna
    simp only [if_pos] at hna
    omega
  have bi : ∀ s, Num s → b.2 (ion v q s) = 0 := by
    intro s hs
    rw [t3 _ (di s hs).2.1, s3 _ (di s hs).1]
  have ba : ∀ s, b.2 (amb v s r.f) = 0 := by
    intro s
    have := da s
    rw [t3 _ fun ht => by have := dz ht; omega, s3 _ (by omega)]
  obtain ⟨i0, i1, i2, i3⟩ := ion_spec L hi hj hne u b fun _ => ⟨bi si hi, bi sj hj⟩
  have na_ion : ∀ s, v.iono = true → amb v s r.f ≠ ion v q si ∧ amb v s r.f ≠ ion v q sj := by
    intro s ht
    have x1 := (di si hi).2.2 ht
    have x2 := (di sj hj).2.2 ht
    have := da s
    omega
  have ca : ∀ s, (ionPart v si sj u b).2 (amb v s r.f) = 0 := by
    intro s
    rw [i3 _ (na_ion s), ba s]
  obtain ⟨a0, a1, a2, a3⟩ := amb_spec L hi hj hne hmi hf h3 hmj (fun _ => ⟨ca si, ca sj⟩) h
  simp only at a0 a1 a2 a3
  have low : ∀ k, k < v.na → H k = (ionPart v si sj u b).2 k := by
    intro k hk
    refine a3 k fun _ => ?_
    have := da si
    have := da sj
    omega
  refine ⟨⟨?_, ?_, ?_, ?_, fun c => (a2 c).1, fun c => (a2 c).2, ?_⟩, ?_, ?_⟩
  · intro k hk
    rw [low k (by omega), i3 k fun _ => ⟨by have := (di si hi).1; omega, by have := (di sj hj).1; omega⟩, t3 k fun ht => by
      unfold ztd; omega, s2 k hk]
  · intro ht
    rw [low _ (dz ht), i3 _ fun _ => ⟨((di si hi).2.1 ht).symm, ((di sj hj).2.1 ht).symm⟩, t2 ht]
  · intro ht
    rw [low _ ((di si hi).2.2 ht), (i2 ht).1, hu]
  · intro ht
    rw [low _ ((di sj hj).2.2 ht), (i2 ht).2, hu]
  · intro k hk x1 x2 x3
    rw [a3 k x3, i3 k x2, t3 k x1, s3 k hk]
  · linarith
  · have x : (start v r).1 = meas v r.i r.j r.f := by
      unfold start meas
      cases v.dd <;> simp
    rw [a0, i0, t0, x, hu]

/-! ## All differences -/

/-- the differences `sdres` forms, with their rows -/
theorem rows_of {v : SdVal.In} (hk : v.sel.keys.Nodup) (hs : v.sel.sat.Nodup) {l : List DVal} (h : values v = .ok l)
    {p : Nat} {d : ℚ} {H : Nat → ℚ} (hp : l[p]? = some (d, H)) :
    ∃ nb rows r m si sj, Sd.sdres v.sel = .ok (nb, rows) ∧ l.length = rows.length ∧ rows[p]? = some r ∧
      SatAt v r.i si ∧ SatAt v r.j sj ∧ si ≠ sj ∧ (sat2prn si).1 = m ∧ (sat2prn sj).1 = m ∧ r.f < 2 * v.sel.nf ∧
      rowVal v m r = .ok (d, H) := by
  unfold values at h
  obtain ⟨⟨nb, rows⟩, h1, h⟩ := Py.bind_ok.1 h
  obtain ⟨_, _, h⟩ := Py.bind_ok.1 h
  obtain ⟨e1, e2⟩ := C87.mapM_spec h
  have hlt : p < l.length := by
    by_contra hc
    rw [List.getElem?_eq_none (by omega)] at hp
    cases hp
  have hlt' : p < rows.length := by rw [← e1]; exact hlt
  have hr : rows[p]? = some rows[p] := List.getElem?_eq_getElem hlt'
  obtain ⟨m, _, f, hf, hd⟩ := C49.row_diff v.sel hk nb rows h1 rows[p] (List.getElem_mem _)
  obtain ⟨b, hb, hrow⟩ := e2 p rows[p] hr
  rw [hp] at hb
  cases hb
  have y1 := hd.ref.1
  have y2 := hd.sys
  unfold rowAt at hrow
  rw [y2] at hrow
  unfold Sd.sysAt at y1 y2
  obtain ⟨si, x1, x2⟩ := Option.map_eq_some_iff.1 y1
  obtain ⟨sj, x3, x4⟩ := Option.map_eq_some_iff.1 y2
  refine ⟨nb, rows, rows[p], m, si, sj, h1, e1, hr, x1, x3, ?_, x2, x4, by rw [hd.freq]; exact hf, hrow⟩
  intro he
  subst he
  obtain ⟨w1, w2⟩ := List.getElem?_eq_some_iff.1 x1
  obtain ⟨w3, w4⟩ := List.getElem?_eq_some_iff.1 x3
  exact hd.ne ((hs.getElem_inj_iff (hi := w3) (hj := w1)).1 (w4.trans w2.symm))

/-- **Design matrix**: the coefficients of every difference -/
theorem design {v : SdVal.In} {q : Nat} (L : Layout v q) (hk : v.sel.keys.Nodup) (hs : v.sel.sat.Nodup)
    (hn : ∀ s ∈ v.sel.sat, Num s) {l : List DVal} (h : values v = .ok l) {p : Nat} {d : ℚ} {H : Nat → ℚ}
    (hp : l[p]? = some (d, H)) :
    ∃ nb rows r si sj, Sd.sdres v.sel = .ok (nb, rows) ∧ l.length = rows.length ∧ rows[p]? = some r ∧
      SatAt v r.i si ∧ SatAt v r.j sj ∧ si ≠ sj ∧ Design v q r.i r.j r.f si sj H := by
  obtain ⟨nb, rows, r, m, si, sj, h1, h2, h3, h4, h5, h6, h7, h8, h9, h10⟩ := rows_of hk hs h hp
  exact ⟨nb, rows, r, si, sj, h1, h2, h3, h4, h5, h6,
    (row_spec L h4 h5 (hn _ (List.mem_of_getElem? h4)) (hn _ (List.mem_of_getElem? h5)) h6 h7 h8 h9 h10).1⟩

/-- **Residuals**: the measured difference minus what the states other than the position account for by the design matrix,
and a remainder when the wavelengths of the two satellites differ -/
theorem residual {v : SdVal.In} {q : Nat} (L : Layout v q) (hk : v.sel.keys.Nodup) (hs : v.sel.sat.Nodup)
    (hn : ∀ s ∈ v.sel.sat, Num s) {l : List DVal} (h : values v = .ok l) {p : Nat} {d : ℚ} {H : Nat → ℚ}
    (hp : l[p]? = some (d, H)) {nb : List Nat} {rows : List Row} (hr : Sd.sdres v.sel = .ok (nb, rows)) {r : Row}
    (hrp : rows[p]? = some r) {si sj : Nat} (hi : SatAt v r.i si) (hj : SatAt v r.j sj) :
    d = meas v r.i r.j r.f - ∑ k ∈ Ico 3 v.nx, H k * v.x k +
      (if r.f < v.sel.nf then (lam v si r.f - lam v sj r.f) * v.x (amb v sj r.f) else 0) := by
  obtain ⟨nb', rows', r', m, si', sj', h1, h2, h3, h4, h5, h6, h7, h8, h9, h10⟩ := rows_of hk hs h hp
  rw [hr] at h1
  cases h1
  rw [hrp] at h3
  cases h3
  unfold SatAt at hi hj
  have h4' := h4
  have h5' := h5
  unfold SatAt at h4' h5'
  rw [hi] at h4'
  rw [hj] at h5'
  cases h4'
  cases h5'
  exact (row_spec L h4 h5 (hn _ (List.mem_of_getElem? h4)) (hn _ (List.mem_of_getElem? h5)) h6 h7 h8 h9 h10).2.1

/-- **Linearity**: for satellites of constellations with one frequency per signal the remainder is 0 -/
theorem linear {v : SdVal.In} {q : Nat} (L : Layout v q) (hk : v.sel.keys.Nodup) (hs : v.sel.sat.Nodup)
    (hn : ∀ s ∈ v.sel.sat, Num s) {l : List DVal} (h : values v = .ok l) {p : Nat} {d : ℚ} {H : Nat → ℚ}
    (hp : l[p]? = some (d, H)) {nb : List Nat} {rows : List Row} (hr : Sd.sdres v.sel = .ok (nb, rows)) {r : Row}
    (hrp : rows[p]? = some r) {si : Nat} (hi : SatAt v r.i si)
    (hg : ∀ ty l g, (v.sig (sat2prn si).1).bind (fun d => d ty) = some l → g ∈ l → g.sys ≠ .glo) :
    d = meas v r.i r.j r.f - ∑ k ∈ Ico 3 v.nx, H k * v.x k := by
  obtain ⟨nb', rows', r', m, si', sj', h1, h2, h3, h4, h5, h6, h7, h8, h9, h10⟩ := rows_of hk hs h hp
  rw [hr] at h1
  cases h1
  rw [hrp] at h3
  cases h3
  have h4' := h4
  unfold SatAt at hi h4'
  rw [hi] at h4'
  cases h4'
  rw [residual L hk hs hn h hp hr hrp h4 h5]
  have : lam v si r.f = lam v sj' r.f := by
    unfold lam
    rw [same_frq v si sj' r.f (h7.trans h8.symm) hg]
  rw [this, sub_self, zero_mul, ite_self, add_zero]

/-- measurements without error: clock offset `c` of the signal, zenith delay, slant delay and ambiguity, the residuals of the
geometry being 0; between receivers when there is a base -/
def Exact (v : SdVal.In) (q : Nat) (c : Nat → ℚ) (k s f : Nat) : Prop :=
  (if v.dd then v.sel.y k f - v.sel.y (k + v.sel.sat.length) f else v.sel.y k f) =
    c f + (if v.trop then v.mapw k * v.x (ztd q) else 0) + (if v.iono then mu v s f * v.x (ion v q s) else 0) +
      (if f < v.sel.nf then lam v s f * v.x (amb v s f) else 0)

/-- **Consistency**: with measurements without error the clocks cancel and the difference is 0, but for what the two
satellites' frequencies differ in -/
theorem consistent {v : SdVal.In} {q : Nat} (L : Layout v q) (hk : v.sel.keys.Nodup) (hs : v.sel.sat.Nodup)
    (hn : ∀ s ∈ v.sel.sat, Num s) {l : List DVal} (h : values v = .ok l) {p : Nat} {d : ℚ} {H : Nat → ℚ}
    (hp : l[p]? = some (d, H)) {nb : List Nat} {rows : List Row} (hr : Sd.sdres v.sel = .ok (nb, rows)) {r : Row}
    (hrp : rows[p]? = some r) {si sj : Nat} (hi : SatAt v r.i si) (hj : SatAt v r.j sj) (c : Nat → ℚ)
    (ei : Exact v q c r.i si r.f) (ej : Exact v q c r.j sj r.f) :
    d = (if v.iono then (mu v si r.f - mu v sj r.f) * v.x (ion v q si) else 0) +
        (if r.f < v.sel.nf then (lam v si r.f - lam v sj r.f) * v.x (amb v sj r.f) else 0) := by
  obtain ⟨nb', rows', r', m, si', sj', h1, h2, h3, h4, h5, h6, h7, h8, h9, h10⟩ := rows_of hk hs h hp
  rw [hr] at h1
  cases h1
  rw [hrp] at h3
  cases h3
  have h4' := h4
  have h5' := h5
  unfold SatAt at hi hj h4' h5'
  rw [hi] at h4'
  rw [hj] at h5'
  cases h4'
  cases h5'
  have e := (row_spec L h4 h5 (hn _ (List.mem_of_getElem? h4)) (hn _ (List.mem_of_getElem? h5)) h6 h7 h8 h9 h10).2.2
  unfold Exact at ei ej
  rw [e]
  unfold meas
  simp only
  rw [ei, ej]
  split_ifs <;> ring

/-- in particular 0 for constellations with one frequency per signal -/
theorem consistent_cdma {v : SdVal.In} {q : Nat} (L : Layout v q) (hk : v.sel.keys.Nodup) (hs : v.sel.sat.Nodup)
    (hn : ∀ s ∈ v.sel.sat, Num s) {l : List DVal} (h : values v = .ok l) {p : Nat} {d : ℚ} {H : Nat → ℚ}
    (hp : l[p]? = some (d, H)) {nb : List Nat} {rows : List Row} (hr : Sd.sdres v.sel = .ok (nb, rows)) {r : Row}
    (hrp : rows[p]? = some r) {si sj : Nat} (hi : SatAt v r.i si) (hj : SatAt v r.j sj) (c : Nat → ℚ)
    (ei : Exact v q c r.i si r.f) (ej : Exact v q c r.j sj r.f)
    (hg : ∀ ty l g, (v.sig (sat2prn si).1).bind (fun d => d ty) = some l → g ∈ l → g.sys ≠ .glo) : d = 0 := by
  rw [consistent L hk hs hn h hp hr hrp hi hj c ei ej]
  obtain ⟨nb', rows', r', m, si', sj', h1, h2, h3, h4, h5, h6, h7, h8, h9, h10⟩ := rows_of hk hs h hp
  rw [hr] at h1
  cases h1
  rw [hrp] at h3
  cases h3
  unfold SatAt at hi hj h4 h5
  rw [hi] at h4
  rw [hj] at h5
  cases h4
  cases h5
  have e := same_frq v si sj r.f (h7.trans h8.symm) hg
  have e0 : frq0 v si = frq0 v sj := by
    unfold frq0
    rw [h7, h8]
  unfold mu lam
  rw [e, e0]
  simp

/-- a GLONASS satellite of unknown channel stops the processing, edited or not -/
theorem channel_missing {v : SdVal.In} (hg : Sys.glo ∈ v.sel.keys) (hf : 0 < v.sel.nf) {s : Nat}
    (hs : s ∈ v.sel.sat) (hsys : (sat2prn s).1 = .glo) (hc : Dict.get? v.gloCh s = none) : ∃ e, values v = .error e := by
  cases h : values v with
  | error e => exact ⟨e, rfl⟩
  | ok l =>
    exfalso
    unfold values at h
    obtain ⟨_, h1, h⟩ := Py.bind_ok.1 h
    obtain ⟨_, h2, h⟩ := Py.bind_ok.1 h
    obtain ⟨b, h3⟩ := C88.mapM_all h2 _ hg
    obtain ⟨b, h4⟩ := C88.mapM_all h3 0 (List.mem_range.2 (by omega))
    obtain ⟨j, hj⟩ := List.mem_iff_getElem?.1 hs
    obtain ⟨b, h5⟩ := C88.mapM_all h4 j ((C49.mem_sysidx v.sel .glo j).2 (by
      unfold Sd.sysAt
      rw [hj, ← hsys]
      rfl))
    obtain ⟨s', h6, h7⟩ := Py.bind_ok.1 h5
    have := pyGet_some h6
    rw [hj] at this
    cases this
    unfold look at h7
    obtain ⟨_, _, h7⟩ := Py.bind_ok.1 h7
    obtain ⟨_, _, h7⟩ := Py.bind_ok.1 h7
    obtain ⟨_, _, h7⟩ := Py.bind_ok.1 h7
    obtain ⟨k, h8, h7⟩ := Py.bind_ok.1 h7
    unfold chan at h8
    rw [if_pos rfl] at h8
    obtain ⟨k', h9, _⟩ := Py.bind_ok.1 h8
    rw [Dict.getItem_ok_iff, hc] at h9
    cases h9

/-! ## Examples -/

/-- one signal, two satellites `s` and `t`, zenith and slant delays and ambiguities of some size, measurements without error
and clock offset 5 -/
def demo (m : Sys) (s t : Nat) (ch : Dict Nat Int) (y : Nat → Nat → ℚ) : SdVal.In where
  sel := { keys := [m], nf := 1, sat := [s, t], el := fun k => 1 - k, sinEl := fun _ => 1, y := y, edt := fun _ => false,
           lo := 1/573, err1 := 1, err2 := 1, eratio := fun _ => 100 }
  nx := 470
  na := 237
  trop := true
  iono := true
  dd := false
  x := fun k => if k = 3 then 2 else if k = 3 + s then 7 else if k = 3 + t then 4 else if k = 236 + s then 100
    else if k = 236 + t then 300 else 0
  e := fun i k => i + k
  mapw := fun i => 1 + i
  sig := fun m' => if m' = m then some fun ty => if ty = .L then some [⟨m, .L, 101⟩] else some [⟨m, .C, 101⟩] else none
  gloCh := ch

/-- the measurements of the model of the specification -/
def truth (v : SdVal.In) : Nat → Nat → ℚ := fun k f =>
  let s := v.sel.sat.getD k 0
  5 + v.mapw k * v.x 3 + mu v s f * v.x (3 + s) + (if f = 0 then lam v s f * v.x (236 + s) else 0)

def gpsDemo : SdVal.In := demo .gps 3 7 [] (truth (demo .gps 3 7 [] fun _ _ => 0))
def gloDemo : SdVal.In := demo .glo 151 155 [(151, 1), (155, -3)] (truth (demo .glo 151 155 [(151, 1), (155, -3)] fun _ _ => 0))

/-- the hypotheses are met -/
example : Layout gpsDemo 3 ∧ gpsDemo.sel.keys.Nodup ∧ gpsDemo.sel.sat.Nodup ∧ (∀ s ∈ gpsDemo.sel.sat, Num s) :=
  ⟨⟨by decide, by decide, by decide, fun _ => rfl⟩, by decide, by decide, by unfold Num; decide⟩

/-- GPS: phase and range differences are 0; coefficients of position, zenith delay, slant delays and ambiguities -/
example : ((values gpsDemo).toOption.map fun l => l.map fun r => (r.1, [0, 1, 2, 3, 6, 10, 239, 243, 240].map r.2)) =
    some [(0, [1, 1, 1, -1, -1, 1, 149896229 / 787710000, -149896229 / 787710000, 0]),
          (0, [1, 1, 1, -1, 1, -1, 0, 0, 0])] := by decide +kernel

/-- GLONASS: measurements without error, yet differences of centimetres -/
example : ((values gloDemo).toOption.map fun l => l.map fun r => decide (|r.1| > 1/100)) = some [true, true] := by
  decide +kernel

example : ∃ e, values (demo .glo 151 155 [(151, 1)] fun _ _ => 0) = .error e :=
  channel_missing (s := 155) (by decide) (by decide) (by decide) (by decide) (by decide)

end Verif.C89
