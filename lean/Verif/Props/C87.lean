import Verif.Model.Edit
import Verif.Lemmas.Post
/-!
# C87 Editing of observations before the filter

Specification: which satellites are used, which signals are flagged, and what is remembered for the detection of cycle slips.
-/

namespace Verif.C87
open Verif.Sat Verif.Sig Verif.Edit
open Verif.Ppp (nsat sats)

/-! ## Specification -/

/-- row `j` of the epoch belongs to satellite `s` -/
def RowOf (o : Obs) (s j : Nat) : Prop := o.sat[j]? = some s ∧ ∀ k < j, o.sat[k]? ≠ some s

/-- the satellite may be used: observed, not excluded, with orbit and clock, healthy, high enough -/
def Fit (c : Cfg) (o : Obs) (s j : Nat) : Prop :=
  RowOf o s j ∧ s ∉ c.excl ∧ o.eph j = true ∧ o.svh j ≤ 0 ∧ c.elmin ≤ o.el j

/-- lowest signal strength for a signal -/
def minS (c : Cfg) (o : Obs) (s f : Nat) : ℚ :=
  match ((o.sig (sat2prn s).1 .S).getD [])[f]? with
  | some g => if g.sys = .gps ∧ (g.sig = 123 ∨ g.sig = 223) then c.cnrMinPY else c.cnrMin
  | none => c.cnrMin

/-- the measurements of signal `f` are good: no loss of lock, range and phase present, strength unknown or sufficient -/
def Clean (c : Cfg) (o : Obs) (s j f : Nat) : Prop :=
  o.lli j f ≠ 1 ∧ o.P j f ≠ 0 ∧ o.L j f ≠ 0 ∧ (o.S j f ≤ 0 ∨ minS c o s f ≤ o.S j f)

/-- wavelength of phase signal `f` of a satellite -/
def lam (c : Cfg) (o : Obs) (s f : Nat) : ℚ :=
  match ((o.sig (sat2prn s).1 .L).getD [])[f]? with
  | some g => 299792458 / (Msm.frequency g.sys (g.sig.tdiv 100).toNat ((Dict.get? c.gloCh s).getD 0)).getD 0
  | none => 0

/-- the geometry-free combination in metres -/
def comb (c : Cfg) (o : Obs) (s j : Nat) : ℚ := o.L j 0 * lam c o s 0 - o.L j 1 * lam c o s 1

/-- it is available: two phases -/
def Both (o : Obs) (j : Nat) : Prop := o.cols > 1 ∧ o.L j 0 ≠ 0 ∧ o.L j 1 ≠ 0

/-- a jump of the combination against the last one (0: none so far) -/
def Slip (c : Cfg) (o : Obs) (s j : Nat) (old : ℚ) : Prop :=
  Both o j ∧ old ≠ 0 ∧ comb c o s j ≠ 0 ∧ |comb c o s j - old| > c.thres

/-- signal `f` of the satellite is kept -/
def Kept (c : Cfg) (o : Obs) (gf : List ℚ) (s f : Nat) : Prop :=
  ∃ j, Fit c o s j ∧ Clean c o s j f ∧ (f < 2 → ¬ Slip c o s j (gf.getD s 0))

/-- the combination to be remembered -/
def Renewed (c : Cfg) (o : Obs) (s : Nat) (v : ℚ) : Prop :=
  ∃ j, Fit c o s j ∧ Both o j ∧ comb c o s j ≠ 0 ∧ v = comb c o s j

/-! ## One satellite -/

theorem idxOf_some {l : List Nat} {s j : Nat} : l.idxOf? s = some j ↔ l[j]? = some s ∧ ∀ k < j, l[k]? ≠ some s := by
  rw [List.idxOf?_eq_some_iff]
  constructor
  · rintro ⟨h, h1, h2⟩
    refine ⟨by rw [List.getElem?_eq_getElem h, h1], fun k hk e => h2 k hk ?_⟩
    rw [List.getElem?_eq_getElem (by omega)] at e
    exact Option.some.inj e
  · rintro ⟨h1, h2⟩
    obtain ⟨h, h1⟩ := List.getElem?_eq_some_iff.1 h1
    refine ⟨h, h1, fun k hk e => h2 k hk ?_⟩
    rw [List.getElem?_eq_getElem (by omega), e]

theorem row_unique {o : Obs} {s j k : Nat} (h1 : RowOf o s j) (h2 : RowOf o s k) : j = k := by
  rcases Nat.lt_trichotomy j k with h | h | h
  · exact absurd h1.1 (h2.2 j h)
  · exact h
  · exact absurd h2.1 (h1.2 k h)

theorem col_ok {α : Type} {o : Obs} {m : Nat → Nat → α} {j f : Nat} {x : α} (h : col o m j f = .ok x) :
    x = m j f ∧ f < o.cols := by
  unfold col at h
  split_ifs at h with c
  cases h
  exact ⟨rfl, c⟩

theorem flag_spec {c : Cfg} {o : Obs} {s j f x : Nat} {cn : List Sig} (hc : o.sig (sat2prn s).1 .S = some cn)
    (h : flag c o cn j f = .ok x) : (x = 0 ∧ Clean c o s j f) ∨ (x = 1 ∧ ¬ Clean c o s j f) := by
  unfold flag at h
  obtain ⟨l, h1, h⟩ := Py.bind_ok.1 h
  obtain ⟨rfl, _⟩ := col_ok h1
  split_ifs at h with c1
  · cases h; exact Or.inr ⟨rfl, fun x => x.1 c1⟩
  obtain ⟨p, h1, h⟩ := Py.bind_ok.1 h
  obtain ⟨rfl, _⟩ := col_ok h1
  split_ifs at h with c2
  · cases h; exact Or.inr ⟨rfl, fun x => x.2.1 c2⟩
  obtain ⟨p, h1, h⟩ := Py.bind_ok.1 h
  obtain ⟨rfl, _⟩ := col_ok h1
  split_ifs at h with c3
  · cases h; exact Or.inr ⟨rfl, fun x => x.2.2.1 c3⟩
  obtain ⟨g, hg, h⟩ := Py.bind_ok.1 h
  obtain ⟨p, h1, h⟩ := Py.bind_ok.1 h
  obtain ⟨rfl, _⟩ := col_ok h1
  have hg' : cn[f]? = some g := by
    unfold pyGet at hg
    cases hh : cn[f]? with
    | none => rw [hh] at hg; cases hg
    | some a => rw [hh] at hg; cases hg; rfl
  have hm : minS c o s f = if isPY g then c.cnrMinPY else c.cnrMin := by
    unfold minS isPY
    rw [hc, Option.getD_some, hg']
    simp
  rw [← hm] at h
  split_ifs at h with c4
  · cases h
    exact Or.inr ⟨rfl, fun x => x.2.2.2.elim (fun y => absurd c4.1 (not_lt.2 y)) (fun y => absurd c4.2 (not_lt.2 y))⟩
  · cases h
    refine Or.inl ⟨rfl, c1, c2, c3, ?_⟩
    by_cases c5 : 0 < o.S j f
    · exact Or.inr (not_lt.1 fun x => c4 ⟨c5, x⟩)
    · exact Or.inl (not_lt.1 c5)

/-- the channel matters only in the first two bands of GLONASS -/
theorem freq_channel (sys : Sys) (b : Nat) (k k' : Int) (h : ¬ (sys = .glo ∧ b ≤ 2)) :
    Msm.frequency sys b k = Msm.frequency sys b k' := by
  by_cases hs : sys = .glo
  · subst hs
    have hb : ¬ b ≤ 2 := fun x => h ⟨rfl, x⟩
    unfold Msm.frequency
    split <;> first | rfl | (exfalso; omega) | simp_all
  · unfold Msm.frequency
    split <;> first | rfl | simp_all

theorem wavelength_spec {g : Sig} {k : Option Int} {l : ℚ} (h : wavelength g k = some l) (k' : Int)
    (hk : ∀ x, k = some x → k' = x) :
    l = 299792458 / (Msm.frequency g.sys (g.sig.tdiv 100).toNat k').getD 0 := by
  unfold wavelength at h
  simp only at h
  split_ifs at h with c
  have e : Msm.frequency g.sys (g.sig.tdiv 100).toNat (k.getD 0) = Msm.frequency g.sys (g.sig.tdiv 100).toNat k' := by
    cases k with
    | some x => rw [hk x rfl]; rfl
    | none => exact freq_channel _ _ _ _ fun x => c ⟨x.1, rfl, x.2⟩
  rw [e] at h
  obtain ⟨f, hf, rfl⟩ := Option.map_eq_some_iff.1 h
  rw [hf]
  rfl

theorem sigList_ok {o : Obs} {sys : Sys} {t : Typ} {l : List Sig} (h : sigList o sys t = .ok l) : o.sig sys t = some l := by
  unfold sigList at h
  cases hs : o.sig sys t with
  | none => rw [hs] at h; cases h
  | some a => rw [hs] at h; cases h; rfl

theorem timesLam_ok {x y : ℚ} {l : Option ℚ} (h : timesLam x l = .ok y) : ∃ a, l = some a ∧ y = x * a := by
  unfold timesLam at h
  cases l with
  | none => cases h
  | some a => cases h; exact ⟨a, rfl, rfl⟩

theorem channel_ok {c : Cfg} {sys : Sys} {s : Nat} {k : Option Int} (h : channel c sys s = .ok k) :
    ∀ x, k = some x → (Dict.get? c.gloCh s).getD 0 = x := by
  unfold channel at h
  split_ifs at h with c1
  · obtain ⟨a, h1, h⟩ := Py.bind_ok.1 h
    cases h
    intro x hx
    cases hx
    rw [(Dict.getItem_ok_iff _ _ _).1 h1]
    rfl
  · cases h
    intro x hx
    cases hx

theorem gfSlip_spec {c : Cfg} {o : Obs} {s j : Nat} {gf gf' : List ℚ} {b : Bool} (h : gfSlip c o s j gf = .ok (gf', b)) :
    (b = true ↔ Slip c o s j (gf.getD s 0)) ∧ gf'.length = gf.length ∧ (Both o j → s < gf.length) ∧
      (Both o j → comb c o s j ≠ 0 → gf' = gf.set s (comb c o s j)) ∧ ((¬ Both o j ∨ comb c o s j = 0) → gf' = gf) := by
  unfold gfSlip at h
  by_cases c1 : o.cols > 1
  · rw [if_pos c1] at h
    simp only at h
    obtain ⟨sl, h1, h⟩ := Py.bind_ok.1 h
    have hs := sigList_ok h1
    match sl, hs, h with
    | [], _, h => cases h
    | [_], _, h => cases h
    | g1 :: g2 :: r, hs, h =>
      simp only at h
      obtain ⟨k, hk, h⟩ := Py.bind_ok.1 h
      by_cases c2 : o.L j 0 ≠ 0 ∧ o.L j 1 ≠ 0
      · rw [if_pos c2] at h
        obtain ⟨a, ha, h⟩ := Py.bind_ok.1 h
        obtain ⟨b', hb, h⟩ := Py.bind_ok.1 h
        obtain ⟨gf0, h0, h⟩ := Py.bind_ok.1 h
        obtain ⟨l1, e1, rfl⟩ := timesLam_ok ha
        obtain ⟨l2, e2, rfl⟩ := timesLam_ok hb
        have f1 := wavelength_spec e1 _ (channel_ok hk)
        have f2 := wavelength_spec e2 _ (channel_ok hk)
        have hcomb : comb c o s j = o.L j 0 * l1 - o.L j 1 * l2 := by
          unfold comb lam
          rw [hs, f1, f2]
          rfl
        rw [← hcomb] at h
        have hb : Both o j := ⟨c1, c2⟩
        have hget : gf.getD s 0 = gf0 ∧ s < gf.length := by
          unfold pyGet at h0
          cases hh : gf[s]? with
          | none => rw [hh] at h0; cases h0
          | some a =>
            rw [hh] at h0
            cases h0
            exact ⟨by rw [List.getD_eq_getElem?_getD, hh]; rfl, (List.getElem?_eq_some_iff.1 hh).1⟩
        cases h
        refine ⟨?_, ?_, fun _ => hget.2, ?_, ?_⟩
        · rw [decide_eq_true_iff, hget.1]
          exact ⟨fun x => ⟨hb, x⟩, fun x => x.2⟩
        · split_ifs <;> simp
        · intro _ x
          rw [if_pos x]
        · intro x
          rcases x with x | x
          · exact absurd hb x
          · rw [if_neg (not_not.2 x)]
      · rw [if_neg c2] at h
        cases h
        have hb : ¬ Both o j := fun x => c2 x.2
        exact ⟨⟨(fun x => by cases x), fun x => absurd x.1 hb⟩, rfl, fun x => absurd x hb, fun x => absurd x hb, fun _ => rfl⟩
  · rw [if_neg c1] at h
    cases h
    have hb : ¬ Both o j := fun x => c1 x.1
    exact ⟨⟨(fun x => by cases x), fun x => absurd x.1 hb⟩, rfl, fun x => absurd x hb, fun x => absurd x hb, fun _ => rfl⟩

theorem mapM_spec {α β : Type} {f : α → Py β} : ∀ {l : List α} {r : List β}, l.mapM f = .ok r →
    r.length = l.length ∧ ∀ (i : Nat) a, l[i]? = some a → ∃ b, r[i]? = some b ∧ f a = .ok b
  | [], r, h => by
    rw [List.mapM_nil] at h
    cases h
    exact ⟨rfl, fun i a h => by simp at h⟩
  | x :: l, r, h => by
    rw [List.mapM_cons] at h
    obtain ⟨y, h1, h⟩ := Py.bind_ok.1 h
    obtain ⟨ys, h2, h⟩ := Py.bind_ok.1 h
    cases h
    obtain ⟨i1, i2⟩ := mapM_spec h2
    refine ⟨by simp [i1], fun i a ha => ?_⟩
    cases i with
    | zero =>
      simp only [List.getElem?_cons_zero] at ha ⊢
      cases ha
      exact ⟨y, rfl, h1⟩
    | succ i =>
      rw [List.getElem?_cons_succ] at ha ⊢
      exact i2 i a ha

/-- the row of flags of a satellite -/
def RowIs (c : Cfg) (o : Obs) (gf : List ℚ) (s : Nat) (row : List Nat) : Prop :=
  row.length = c.nf ∧ ∀ f < c.nf, (row[f]? = some 0 ∧ Kept c o gf s f) ∨ (row[f]? = some 1 ∧ ¬ Kept c o gf s f)

/-- the stored combination of satellite `s` afterwards, all others being as before -/
structure Stored (c : Cfg) (o : Obs) (s : Nat) (gf gf' : List ℚ) : Prop where
  len : gf'.length = gf.length
  other : ∀ t, t ≠ s → gf'.getD t 0 = gf.getD t 0
  new : ∀ v, Renewed c o s v → gf'.getD s 0 = v
  old : (¬ ∃ v, Renewed c o s v) → gf'.getD s 0 = gf.getD s 0

theorem not_kept {c : Cfg} {o : Obs} {gf : List ℚ} {s : Nat} (h : ∀ j, ¬ Fit c o s j) :
    RowIs c o gf s (List.replicate c.nf 1) ∧ Stored c o s gf gf := by
  refine ⟨⟨List.length_replicate, fun f hf => Or.inr ⟨?_, ?_⟩⟩, rfl, fun _ _ => rfl, ?_, fun _ => rfl⟩
  · rw [List.getElem?_replicate, if_pos hf]
  · rintro ⟨j, hj, _⟩
    exact h j hj
  · rintro v ⟨j, hj, _⟩
    exact absurd hj (h j)

theorem getD_set (l : List ℚ) (s t : Nat) (v : ℚ) (hs : s < l.length) :
    (l.set s v).getD t 0 = if t = s then v else l.getD t 0 := by
  rw [List.getD_eq_getElem?_getD, List.getElem?_set, List.getD_eq_getElem?_getD]
  by_cases h : s = t
  · subst h
    simp [hs]
  · rw [if_neg h, if_neg fun e => h e.symm]

theorem editSat_spec {c : Cfg} {o : Obs} {gf gf' : List ℚ} {s : Nat} {row : List Nat}
    (h : editSat c o gf s = .ok (row, gf')) : RowIs c o gf s row ∧ Stored c o s gf gf' := by
  unfold editSat at h
  cases hi : o.sat.idxOf? s with
  | none =>
    rw [hi] at h
    cases h
    refine not_kept fun j hj => ?_
    have := idxOf_some.2 hj.1
    rw [hi] at this
    cases this
  | some j =>
    rw [hi] at h
    simp only at h
    have hrow : RowOf o s j := idxOf_some.1 hi
    have only : ∀ {k}, Fit c o s k → k = j := fun hk => row_unique hk.1 hrow
    split_ifs at h with c1 c2 c3 c4
    · cases h; exact not_kept fun k hk => hk.2.1 c1
    · cases h; exact not_kept fun k hk => by have := only hk; subst this; rw [hk.2.2.1] at c2; cases c2
    · cases h; exact not_kept fun k hk => by have := only hk; subst this; exact absurd c3 (not_lt.2 hk.2.2.2.1)
    · cases h; exact not_kept fun k hk => by have := only hk; subst this; exact absurd c4 (not_lt.2 hk.2.2.2.2)
    have hfit : Fit c o s j := ⟨hrow, c1, by simpa using c2, not_lt.1 c3, not_lt.1 c4⟩
    obtain ⟨_, _, h⟩ := Py.bind_ok.1 h
    obtain ⟨_, _, h⟩ := Py.bind_ok.1 h
    obtain ⟨cn, h1, h⟩ := Py.bind_ok.1 h
    obtain ⟨r, h2, h⟩ := Py.bind_ok.1 h
    obtain ⟨⟨gf1, b⟩, h3, h⟩ := Py.bind_ok.1 h
    cases h
    obtain ⟨m1, m2⟩ := mapM_spec h2
    rw [List.length_range] at m1
    obtain ⟨g1, g2, g3, g4, g5⟩ := gfSlip_spec h3
    have hflag : ∀ f < c.nf, (r[f]? = some 0 ∧ Clean c o s j f) ∨ (r[f]? = some 1 ∧ ¬ Clean c o s j f) := by
      intro f hf
      obtain ⟨x, hx, hfx⟩ := m2 f f (by rw [List.getElem?_range hf])
      rcases flag_spec (sigList_ok h1) hfx with ⟨rfl, y⟩ | ⟨rfl, y⟩
      · exact Or.inl ⟨hx, y⟩
      · exact Or.inr ⟨hx, y⟩
    refine ⟨⟨?_, fun f hf => ?_⟩, g2, ?_, ?_, ?_⟩
    · split_ifs
      · unfold setTwo; rw [List.length_mapIdx, m1]
      · exact m1
    · have hk : ∀ {gf}, Kept c o gf s f ↔ Clean c o s j f ∧ (f < 2 → ¬ Slip c o s j (gf.getD s 0)) := by
        intro gf
        constructor
        · rintro ⟨k, k1, k2⟩
          have := only k1
          subst this
          exact k2
        · exact fun x => ⟨j, hfit, x⟩
      rw [hk]
      by_cases hs : b = true
      · rw [if_pos hs]
        unfold setTwo
        rw [List.getElem?_mapIdx]
        by_cases h2 : f < 2
        · right
          refine ⟨?_, fun x => x.2 h2 (g1.1 hs)⟩
          rcases hflag f hf with ⟨x, _⟩ | ⟨x, _⟩ <;> rw [x] <;> simp [h2]
        · rcases hflag f hf with ⟨x, y⟩ | ⟨x, y⟩ <;> rw [x]
          · exact Or.inl ⟨by simp [h2], y, fun z => absurd z h2⟩
          · exact Or.inr ⟨by simp [h2], fun z => y z.1⟩
      · rw [if_neg hs]
        rcases hflag f hf with ⟨x, y⟩ | ⟨x, y⟩
        · exact Or.inl ⟨x, y, fun _ z => hs (g1.2 z)⟩
        · exact Or.inr ⟨x, fun z => y z.1⟩
    · intro t ht
      by_cases x : Both o j ∧ comb c o s j ≠ 0
      · rw [g4 x.1 x.2, getD_set _ _ _ _ (g3 x.1), if_neg ht]
      · rw [g5 (by by_contra hn; rw [not_or, not_not] at hn; exact x hn)]
    · rintro v ⟨k, k1, k2, k3, rfl⟩
      have := only k1
      subst this
      rw [g4 k2 k3, getD_set _ _ _ _ (g3 k2), if_pos rfl]
    · intro hn
      rw [g5 (by by_contra hc; rw [not_or, not_not] at hc; exact hn ⟨_, j, hfit, hc.1, hc.2, rfl⟩)]

/-! ## All satellites -/

theorem kept_congr {c : Cfg} {o : Obs} {gf gf' : List ℚ} {s f : Nat} (h : gf'.getD s 0 = gf.getD s 0) :
    Kept c o gf' s f ↔ Kept c o gf s f := by
  unfold Kept
  rw [h]

theorem any_row {c : Cfg} {o : Obs} {gf : List ℚ} {s : Nat} {row : List Nat} (h : RowIs c o gf s row) :
    (row.any fun x => x > 0) = true ↔ ¬ ∀ f < c.nf, Kept c o gf s f := by
  rw [List.any_eq_true]
  constructor
  · rintro ⟨x, hx, h0⟩ hk
    obtain ⟨f, hf, e⟩ := List.mem_iff_getElem.1 hx
    rw [h.1] at hf
    rcases h.2 f hf with ⟨a, _⟩ | ⟨_, b⟩
    · rw [List.getElem?_eq_getElem (by rw [h.1]; exact hf), e] at a
      cases a
      simp at h0
    · exact b (hk f hf)
  · intro hn
    rw [not_forall] at hn
    obtain ⟨f, hn⟩ := hn
    rw [Classical.not_imp] at hn
    rcases h.2 f hn.1 with ⟨_, b⟩ | ⟨a, _⟩
    · exact absurd b hn.2
    · exact ⟨1, List.mem_of_getElem? a, by simp⟩

def step (c : Cfg) (o : Obs) (r : Out) (s : Nat) : Py Out := do
  let (row, gf) ← editSat c o r.gf s
  pure ⟨r.edt ++ [row], gf, if row.any fun x => x > 0 then r.sat else r.sat ++ [s]⟩

open Classical in
theorem loop_spec {c : Cfg} {o : Obs} : ∀ {l : List Nat}, l.Nodup → ∀ {r r' : Out}, l.foldlM (step c o) r = .ok r' →
    (∃ rows : List (List Nat), r'.edt = r.edt ++ rows ∧ rows.length = l.length ∧
      ∀ (i s : Nat), l[i]? = some s → ∃ row, rows[i]? = some row ∧ RowIs c o r.gf s row) ∧
    r'.sat = r.sat ++ l.filter (fun s => decide (∀ f < c.nf, Kept c o r.gf s f)) ∧
    r'.gf.length = r.gf.length ∧ (∀ t, t ∉ l → r'.gf.getD t 0 = r.gf.getD t 0) ∧
    ∀ t ∈ l, (∀ v, Renewed c o t v → r'.gf.getD t 0 = v) ∧ ((¬ ∃ v, Renewed c o t v) → r'.gf.getD t 0 = r.gf.getD t 0)
  | [], _, r, r', h => by
    cases h
    exact ⟨⟨[], by simp, rfl, fun i s h => by simp at h⟩, by simp, rfl, fun _ _ => rfl, fun t h => by simp at h⟩
  | s :: l, hn, r, r', h => by
    rw [List.nodup_cons] at hn
    rw [List.foldlM_cons] at h
    obtain ⟨r1, h1, h⟩ := Py.bind_ok.1 h
    unfold step at h1
    obtain ⟨⟨row, gf⟩, h2, h1⟩ := Py.bind_ok.1 h1
    cases h1
    obtain ⟨e1, e2⟩ := editSat_spec h2
    obtain ⟨⟨rows, i1, i2, i3⟩, i4, i5, i6, i7⟩ := loop_spec hn.2 h
    simp only at i1 i3 i4 i5 i6 i7
    have hk : ∀ t ∈ l, gf.getD t 0 = r.gf.getD t 0 := fun t ht => e2.other t fun e => hn.1 (e ▸ ht)
    refine ⟨⟨row :: rows, ?_, by simp [i2], ?_⟩, ?_, by rw [i5, e2.len], ?_, ?_⟩
    · rw [i1, List.append_assoc]
      rfl
    · intro i t ht
      cases i with
      | zero =>
        simp only [List.getElem?_cons_zero] at ht ⊢
        cases ht
        exact ⟨row, rfl, e1⟩
      | succ i =>
        rw [List.getElem?_cons_succ] at ht ⊢
        obtain ⟨row', a, b⟩ := i3 i t ht
        have ht := List.mem_of_getElem? ht
        refine ⟨row', a, b.1, fun f hf => ?_⟩
        have := b.2 f hf
        rwa [kept_congr (hk t ht)] at this
    · rw [i4, List.filter_cons]
      have e : (l.filter fun t => decide (∀ f < c.nf, Kept c o gf t f)) =
          l.filter fun t => decide (∀ f < c.nf, Kept c o r.gf t f) := by
        refine List.filter_congr fun t ht => ?_
        simp only [kept_congr (hk t ht)]
      rw [e]
      have ha := any_row e1
      by_cases c1 : (row.any fun x => x > 0) = true
      · rw [if_pos c1, if_neg (by rw [decide_eq_true_iff]; exact ha.1 c1)]
      · rw [if_neg c1, if_pos (by rw [decide_eq_true_iff]; by_contra hc; exact c1 (ha.2 hc)), List.append_assoc]
        rfl
    · intro t ht
      rw [List.mem_cons, not_or] at ht
      rw [i6 t ht.2, e2.other t ht.1]
    · intro t ht
      rcases List.mem_cons.1 ht with rfl | ht
      · rw [i6 t hn.1]
        exact ⟨e2.new, e2.old⟩
      · obtain ⟨a, b⟩ := i7 t ht
        exact ⟨a, fun x => by rw [b x, hk t ht]⟩

theorem sats_nodup : sats.Nodup := by decide +kernel
theorem sats_mem {s : Nat} : s ∈ sats ↔ 1 ≤ s ∧ s ≤ 233 := by
  unfold sats
  rw [List.mem_map]
  constructor
  · rintro ⟨k, hk, rfl⟩
    have := List.mem_range.1 hk
    unfold nsat at this
    omega
  · rintro ⟨h1, h2⟩
    exact ⟨s - 1, List.mem_range.2 (by unfold nsat; omega), by omega⟩
theorem sats_get {s : Nat} (h : 1 ≤ s ∧ s ≤ 233) : sats[s - 1]? = some s := by
  unfold sats
  rw [List.getElem?_map, List.getElem?_range (by unfold nsat; omega), Option.map_some]
  congr 1
  omega
theorem sats_sorted : sats.Pairwise (· < ·) := by decide +kernel

/-- **Editing.** Exactly the satellites all of whose signals are kept are accepted, in ascending order; a signal has the flag
0 if it is kept and 1 otherwise; the combination of phases is remembered for each usable satellite with two phases. -/
theorem editing {c : Cfg} {o : Obs} {gf : List ℚ} {r : Out} (h : qcedit c o gf = .ok r) :
    (∀ s, s ∈ r.sat ↔ (1 ≤ s ∧ s ≤ 233) ∧ ∀ f < c.nf, Kept c o gf s f) ∧ r.sat.Pairwise (· < ·) ∧ r.edt.length = 233 ∧
    (∀ s, 1 ≤ s ∧ s ≤ 233 → ∃ row, r.edt[s - 1]? = some row ∧ row.length = c.nf ∧
      ∀ f < c.nf, (row[f]? = some 0 ∧ Kept c o gf s f) ∨ (row[f]? = some 1 ∧ ¬ Kept c o gf s f)) ∧
    r.gf.length = gf.length ∧
    ∀ s, (1 ≤ s ∧ s ≤ 233 → ∀ v, Renewed c o s v → r.gf.getD s 0 = v) ∧
      ((¬ ∃ v, (1 ≤ s ∧ s ≤ 233) ∧ Renewed c o s v) → r.gf.getD s 0 = gf.getD s 0) := by
  classical
  obtain ⟨⟨rows, i1, i2, i3⟩, i4, i5, i6, i7⟩ := loop_spec sats_nodup (r := ⟨[], gf, []⟩) h
  simp only [List.nil_append] at i1 i3 i4 i5 i6 i7
  refine ⟨?_, ?_, ?_, ?_, i5, ?_⟩
  · intro s
    rw [i4, List.mem_filter, sats_mem, decide_eq_true_iff]
  · rw [i4]
    exact sats_sorted.filter _
  · rw [i1, i2]
    decide +kernel
  · intro s hs
    obtain ⟨row, a, b⟩ := i3 _ s (sats_get hs)
    exact ⟨row, by rw [i1, a], b.1, b.2⟩
  · intro s
    constructor
    · intro hs v hv
      exact (i7 s (sats_mem.2 hs)).1 v hv
    · intro hn
      by_cases hs : s ∈ sats
      · exact (i7 s hs).2 fun ⟨v, hv⟩ => hn ⟨v, sats_mem.1 hs, hv⟩
      · exact i6 s hs

/-! ## When the editing raises -/

/-- the tables and signals the editing of a usable satellite needs -/
structure Able (c : Cfg) (o : Obs) (n s j : Nat) : Prop where
  cols : c.nf ≤ o.cols
  code : ∃ l, o.sig (sat2prn s).1 .C = some l
  cn : ∃ l, o.sig (sat2prn s).1 .S = some l ∧ c.nf ≤ l.length
  ph : ∃ l, o.sig (sat2prn s).1 .L = some l ∧ (o.cols > 1 → ∃ g1 g2 r, l = g1 :: g2 :: r ∧
    ((sat2prn s).1 = .glo → ∃ k, Dict.get? c.gloCh s = some k) ∧
    (Both o j → s < n ∧ ∀ g ∈ [g1, g2], (wavelength g (if (sat2prn s).1 = .glo then Dict.get? c.gloCh s else none)).isSome))

theorem mapM_total {α β : Type} {f : α → Py β} : ∀ {l : List α}, (∀ a ∈ l, ∃ b, f a = .ok b) → ∃ r, l.mapM f = .ok r
  | [], _ => ⟨[], rfl⟩
  | a :: l, h => by
    obtain ⟨b, hb⟩ := h a (by simp)
    obtain ⟨r, hr⟩ := mapM_total (l := l) fun a ha => h a (by simp [ha])
    exact ⟨b :: r, by rw [List.mapM_cons, hb, Py.okBind, hr, Py.okBind]; rfl⟩

theorem flag_total {c : Cfg} {o : Obs} {cn : List Sig} {j f : Nat} (h1 : f < o.cols) (h2 : f < cn.length) :
    ∃ x, flag c o cn j f = .ok x := by
  have hc : ∀ {α : Type} (m : Nat → Nat → α), col o m j f = .ok (m j f) := fun m => if_pos h1
  have hg : pyGet cn f = .ok cn[f] := by unfold pyGet; rw [List.getElem?_eq_getElem h2]
  unfold flag
  rw [hc, Py.okBind]
  split_ifs
  · exact ⟨_, rfl⟩
  rw [hc, Py.okBind]
  split_ifs
  · exact ⟨_, rfl⟩
  rw [hc, Py.okBind]
  split_ifs
  · exact ⟨_, rfl⟩
  rw [hg, Py.okBind, hc, Py.okBind]
  split_ifs <;> exact ⟨_, rfl⟩

theorem gfSlip_total {c : Cfg} {o : Obs} {s j : Nat} {gf : List ℚ} (h : Able c o gf.length s j) :
    ∃ x, gfSlip c o s j gf = .ok x := by
  unfold gfSlip
  by_cases c1 : o.cols > 1
  · rw [if_pos c1]
    obtain ⟨l, hl, h⟩ := h.ph
    obtain ⟨g1, g2, r, rfl, hk, hb⟩ := h c1
    have e1 : sigList o (sat2prn s).1 .L = .ok (g1 :: g2 :: r) := by unfold sigList; rw [hl]
    simp only
    rw [e1, Py.okBind]
    simp only
    have e2 : channel c (sat2prn s).1 s = .ok (if (sat2prn s).1 = .glo then Dict.get? c.gloCh s else none) := by
      unfold channel
      split_ifs with cg
      · obtain ⟨k, hk⟩ := hk cg
        rw [(Dict.getItem_ok_iff _ _ _).2 hk, Py.okBind, hk]
        rfl
      · rfl
    rw [e2, Py.okBind]
    by_cases c2 : o.L j 0 ≠ 0 ∧ o.L j 1 ≠ 0
    · rw [if_pos c2]
      obtain ⟨hs, hw⟩ := hb ⟨c1, c2⟩
      obtain ⟨a, ha⟩ := Option.isSome_iff_exists.1 (hw g1 (by simp))
      obtain ⟨b, hb⟩ := Option.isSome_iff_exists.1 (hw g2 (by simp))
      have hg : pyGet gf s = .ok gf[s] := by unfold pyGet; rw [List.getElem?_eq_getElem hs]
      rw [ha, hb]
      unfold timesLam
      simp only [Py.okBind, hg]
      exact ⟨_, rfl⟩
    · rw [if_neg c2]
      exact ⟨_, rfl⟩
  · rw [if_neg c1]
    exact ⟨_, rfl⟩

theorem editSat_total {c : Cfg} {o : Obs} {gf : List ℚ} {s : Nat} (h : ∀ j, Fit c o s j → Able c o gf.length s j) :
    ∃ x, editSat c o gf s = .ok x := by
  unfold editSat
  cases hi : o.sat.idxOf? s with
  | none => exact ⟨_, rfl⟩
  | some j =>
    simp only
    split_ifs with c1 c2 c3 c4
    · exact ⟨_, rfl⟩
    · exact ⟨_, rfl⟩
    · exact ⟨_, rfl⟩
    · exact ⟨_, rfl⟩
    have hA := h j ⟨idxOf_some.1 hi, c1, by simpa using c2, not_lt.1 c3, not_lt.1 c4⟩
    obtain ⟨lc, hc⟩ := hA.code
    obtain ⟨ls, hs, hn⟩ := hA.cn
    obtain ⟨ll, hl, _⟩ := hA.ph
    have e : ∀ {t l}, o.sig (sat2prn s).1 t = some l → sigList o (sat2prn s).1 t = .ok l := by
      intro t l h
      unfold sigList
      rw [h]
    rw [e hc, Py.okBind, e hl, Py.okBind, e hs, Py.okBind]
    obtain ⟨row, hrow⟩ := mapM_total (f := flag c o ls j) (l := List.range c.nf) fun f hf => by
      have := List.mem_range.1 hf
      have := hA.cols
      exact flag_total (by omega) (by omega)
    obtain ⟨⟨g, b⟩, hg⟩ := gfSlip_total hA
    rw [hrow, Py.okBind, hg, Py.okBind]
    exact ⟨_, rfl⟩

/-- **No exception** when the tables have the signals of every usable satellite; satellite 233 must not have two phases,
since the table of combinations has 233 entries and is indexed by the satellite number. -/
theorem editing_total {c : Cfg} {o : Obs} {gf : List ℚ}
    (h : ∀ s j, 1 ≤ s ∧ s ≤ 233 → Fit c o s j → Able c o gf.length s j) : ∃ r, qcedit c o gf = .ok r := by
  have key : ∀ (l : List Nat) (r : Out), (∀ s ∈ l, s ∈ sats) → r.gf.length = gf.length →
      ∃ r', l.foldlM (step c o) r = .ok r' := by
    intro l
    induction l with
    | nil => exact fun r _ _ => ⟨r, rfl⟩
    | cons s l ih =>
      intro r hl hr
      obtain ⟨⟨row, gf1⟩, he⟩ := editSat_total (c := c) (o := o) (gf := r.gf) (s := s) fun j hj => by
        rw [hr]
        exact h s j (sats_mem.1 (hl s (by simp))) hj
      have hlen := (editSat_spec he).2.len
      obtain ⟨r', hr'⟩ := ih ⟨r.edt ++ [row], gf1, if row.any fun x => x > 0 then r.sat else r.sat ++ [s]⟩
        (fun t ht => hl t (by simp [ht])) (by simp only; rw [hlen, hr])
      refine ⟨r', ?_⟩
      rw [List.foldlM_cons]
      unfold step at hr' ⊢
      rw [he, Py.okBind]
      exact hr'
  exact key sats ⟨[], gf, []⟩ (fun _ h => h) rfl

/-- **The last satellite.** With a table of 233 combinations the editing never returns when satellite 233 is usable and has
two phases. -/
theorem last_satellite {c : Cfg} {o : Obs} {gf : List ℚ} (hg : gf.length = 233) {j : Nat} (hf : Fit c o 233 j)
    (hb : Both o j) (r : Out) : qcedit c o gf ≠ .ok r := by
  intro h
  have e : sats = (sats.take 232) ++ [233] := by decide +kernel
  have h : sats.foldlM (step c o) ⟨[], gf, []⟩ = .ok r := h
  rw [e, List.foldlM_append] at h
  obtain ⟨r1, h1, h⟩ := Py.bind_ok.1 h
  have hn : (sats.take 232).Nodup := sats_nodup.sublist (List.take_sublist ..)
  have hlen := (loop_spec hn h1).2.2.1
  simp only at hlen
  rw [hg] at hlen
  rw [List.foldlM_cons] at h
  obtain ⟨r2, h2, _⟩ := Py.bind_ok.1 h
  unfold step at h2
  obtain ⟨⟨row, gf1⟩, h3, _⟩ := Py.bind_ok.1 h2
  unfold editSat at h3
  have hi := idxOf_some.2 hf.1
  rw [hi] at h3
  simp only at h3
  rw [if_neg hf.2.1, if_neg (by rw [hf.2.2.1]; decide), if_neg (not_lt.2 hf.2.2.2.1), if_neg (not_lt.2 hf.2.2.2.2)] at h3
  obtain ⟨_, _, h3⟩ := Py.bind_ok.1 h3
  obtain ⟨_, _, h3⟩ := Py.bind_ok.1 h3
  obtain ⟨_, _, h3⟩ := Py.bind_ok.1 h3
  obtain ⟨_, _, h3⟩ := Py.bind_ok.1 h3
  obtain ⟨⟨g, b⟩, h4, _⟩ := Py.bind_ok.1 h3
  have := (gfSlip_spec h4).2.2.1 hb
  omega

/-! ## Twice, and relative positioning -/

theorem renewed_unique {c : Cfg} {o : Obs} {s j : Nat} (hf : Fit c o s j) (hb : Both o j) (h0 : comb c o s j ≠ 0) :
    Renewed c o s (comb c o s j) := ⟨j, hf, hb, h0, rfl⟩

/-- **Editing the same epoch again** finds no cycle slip: the combination it compares with is that of the epoch itself. -/
theorem twice {c : Cfg} {o : Obs} {gf : List ℚ} {r : Out} (ht : 0 ≤ c.thres) (h : qcedit c o gf = .ok r) {s : Nat}
    (hs : 1 ≤ s ∧ s ≤ 233) (f : Nat) : Kept c o r.gf s f ↔ ∃ j, Fit c o s j ∧ Clean c o s j f := by
  obtain ⟨_, _, _, _, _, h5⟩ := editing h
  constructor
  · rintro ⟨j, h1, h2, _⟩
    exact ⟨j, h1, h2⟩
  · rintro ⟨j, h1, h2⟩
    refine ⟨j, h1, h2, fun _ hsl => ?_⟩
    obtain ⟨b, _, n0, hgt⟩ := hsl
    rw [(h5 s).1 hs _ (renewed_unique h1 b n0), sub_self, abs_zero] at hgt
    exact absurd hgt (not_lt.2 ht)

/-- **Relative positioning.** The table of flags left for the filter is that of the rover without any test of the
geometry-free combination, whatever the base observed; only the list of common satellites is affected by the base. -/
theorem relative {c : Cfg} {o b : Obs} {g g' : Gf} {edt : List (List Nat)} {l : List Nat} (ht : 0 ≤ c.thres)
    (h : rtkEdit c o b g = .ok (edt, g', l)) :
    (∀ s, 1 ≤ s ∧ s ≤ 233 → ∃ row, edt[s - 1]? = some row ∧ row.length = c.nf ∧ ∀ f < c.nf,
      (row[f]? = some 0 ∧ ∃ j, Fit c o s j ∧ Clean c o s j f) ∨ (row[f]? = some 1 ∧ ¬ ∃ j, Fit c o s j ∧ Clean c o s j f)) ∧
    ∀ s, s ∈ l ↔ (1 ≤ s ∧ s ≤ 233) ∧ ∀ f < c.nf, (∃ j, Fit c o s j ∧ Clean c o s j f) ∧ Kept c b g.base s f := by
  unfold rtkEdit at h
  obtain ⟨r1, h1, h⟩ := Py.bind_ok.1 h
  obtain ⟨rb, h2, h⟩ := Py.bind_ok.1 h
  obtain ⟨r2, h3, h⟩ := Py.bind_ok.1 h
  cases h
  obtain ⟨a1, _, _, a4, _⟩ := editing h3
  obtain ⟨b1, _⟩ := editing h2
  constructor
  · intro s hs
    obtain ⟨row, e1, e2, e3⟩ := a4 s hs
    refine ⟨row, e1, e2, fun f hf => ?_⟩
    have := e3 f hf
    rwa [twice ht h1 hs] at this
  · intro s
    rw [List.mem_filter, a1, decide_eq_true_iff, b1]
    constructor
    · rintro ⟨⟨hs, x⟩, _, y⟩
      exact ⟨hs, fun f hf => ⟨(twice ht h1 hs f).1 (x f hf), y f hf⟩⟩
    · rintro ⟨hs, x⟩
      exact ⟨⟨hs, fun f hf => (twice ht h1 hs f).2 (x f hf).1⟩, hs, fun f hf => (x f hf).2⟩

/-! ## Instances -/

/-- GPS satellites 3 and 5 with two signals; the phases of satellite 3 may jump; satellite 5 has lost lock on L2 -/
def obsE (jump : ℚ) (sats : List Nat) : Obs where
  sat := sats
  cols := 2
  lli := fun j f => if j = 1 ∧ f = 1 then 1 else 0
  P := fun _ _ => 20000000
  L := fun j f => 100000000 + (if j = 0 ∧ f = 0 then jump else 0)
  S := fun _ _ => 40
  sig := fun _ t => some [⟨.gps, t, 103⟩, ⟨.gps, t, 223⟩]
  eph := fun _ => true
  svh := fun _ => 0
  el := fun _ => 1
def cfgE : Cfg := { nf := 2, elmin := 1 / 10 }
def gfE : List ℚ := List.replicate 233 0

def satsOf (r : Py Out) : Option (List Nat × List Nat) := r.toOption.map fun r => (r.sat, (r.edt[2]?).getD [])
def afterE (o : Obs) : List ℚ := ((qcedit cfgE o gfE).toOption.map (·.gf)).getD []

/-- satellite 3 is accepted, satellite 5 not -/
example : satsOf (qcedit cfgE (obsE 0 [3, 5]) gfE) = some ([3], [0, 0]) := by decide +kernel
/-- a jump by one cycle on L1 in the next epoch is a slip -/
example : satsOf (qcedit cfgE (obsE 1 [3, 5]) (afterE (obsE 0 [3, 5]))) = some ([], [1, 1]) := by decide +kernel
/-- in relative positioning it is not -/
example : ((rtkEdit cfgE (obsE 1 [3, 5]) (obsE 0 [3]) ⟨afterE (obsE 0 [3, 5]), gfE⟩).toOption.map fun r => (r.2.2, r.1[2]?)) =
    some ([3], some [0, 0]) := by decide +kernel
/-- a jump at the base removes the satellite, but leaves no flag -/
example : ((rtkEdit cfgE (obsE 0 [3, 5]) (obsE 1 [3]) ⟨afterE (obsE 0 [3, 5]), afterE (obsE 0 [3])⟩).toOption.map
    fun r => (r.2.2, r.1[2]?)) = some ([], some [0, 0]) := by decide +kernel
/-- satellite 233 -/
example : Fit cfgE (obsE 0 [3, 233]) 233 1 ∧ Both (obsE 0 [3, 233]) 1 := by
  refine ⟨⟨⟨rfl, ?_⟩, by decide, rfl, by decide, by decide +kernel⟩, by decide, by decide +kernel, by decide +kernel⟩
  intro k hk
  have : k = 0 := by omega
  subst this
  decide
/-- the condition of success -/
example : Able cfgE (obsE 0 [3, 5]) 233 3 0 :=
  ⟨by decide, ⟨_, rfl⟩, ⟨_, rfl, by decide⟩, _, rfl, fun _ => ⟨_, _, _, rfl, (fun h => absurd h (by decide +kernel)), fun _ =>
    ⟨by decide, by decide +kernel⟩⟩⟩

end Verif.C87
