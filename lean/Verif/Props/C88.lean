import Verif.Model.Udstate
import Verif.Lemmas.Post
import Mathlib.Tactic.Ring
import Mathlib.Tactic.Linarith
import Mathlib.Tactic.FieldSimp
import Mathlib.Algebra.Order.BigOperators.Group.Finset
/-!
# C88 Time update of the filter

Specification: the predicted states and covariances; which ambiguities and slant delays are dropped, which are started anew
and with what value and variance; that the covariance stays symmetric and positive semidefinite.
-/

namespace Verif.C88
open Verif.Sat Verif.Sig Verif.Ud
open Verif.Ppp (nsat sats)
open Finset (range sum_congr)

/-! ## Specification -/

/-- the satellite's constellation is observed and the satellite is to be started anew: too long without a valid phase, or
flagged by the editing -/
def Reset (c : Cfg) (o : Obs) (outc : Nat → Nat → Int) (s f : Nat) : Prop :=
  (o.sig (sat2prn s).1).isSome = true ∧ (outc s f + 1 > c.maxout ∨ c.edt s = true)

/-- frequency of signal `n` of a type -/
def frq (c : Cfg) (o : Obs) (s : Nat) (t : Typ) (n : Nat) : ℚ :=
  match ((((o.sig (sat2prn s).1).bind fun d => d t)).getD [])[n]? with
  | some g => (Msm.frequency g.sys (g.sig.tdiv 100).toNat ((Dict.get? c.gloCh s).getD 0)).getD 0
  | none => 0

/-- two ranges are used for slant delays -/
def Dual (c : Cfg) : Prop := 1 < c.nf ∧ c.iono = true

/-- no values are taken from this row -/
def Skip (c : Cfg) (o : Obs) (i s : Nat) : Prop :=
  c.edt s = true ∨ (Dual c ∧ (o.P i 0 = 0 ∨ o.P i 1 = 0 ∨ ((sat2prn s).1 = .glo ∧ Dict.get? c.gloCh s = none)))

instance (c : Cfg) : Decidable (Dual c) := by unfold Dual; infer_instance
instance (c : Cfg) (o : Obs) (i s : Nat) : Decidable (Skip c o i s) := by unfold Skip; infer_instance

/-- slant delay from two ranges -/
def ionVal (c : Cfg) (o : Obs) (i s : Nat) : ℚ :=
  if Skip c o i s ∨ ¬ Dual c then 0 else (o.P i 0 - o.P i 1) / (1 - (frq c o s .C 0 / frq c o s .C 1) ^ 2)

/-- ambiguity from phase, range and slant delay -/
def biasVal (c : Cfg) (o : Obs) (f i s : Nat) : ℚ :=
  let lam := 299792458 / frq c o s .L f
  if Skip c o i s ∨ o.L i f = 0 ∨ o.P i f = 0 then 0
  else o.L i f - o.P i f / lam + 2 * ionVal c o i s / lam * (frq c o s .C 0 / frq c o s .L f) ^ 2

/-- the first value that is not 0 -/
def first : List ℚ → ℚ
  | [] => 0
  | a :: l => if a = 0 then first l else a

/-- the values of a satellite (of its first row that has one) -/
def ofSat (o : Obs) (s : Nat) (v : Nat → ℚ) : ℚ :=
  first ((List.range o.sat.length).map fun i => if o.sat[i]? = some s then v i else 0)

def biasOf (c : Cfg) (o : Obs) (f s : Nat) : ℚ := ofSat o s fun i => biasVal c o f i s
def ionOf (c : Cfg) (o : Obs) (s : Nat) : ℚ := ofSat o s fun i => ionVal c o i s

/-- sizes: the first three states are the position, the ambiguities and slant delays come after it -/
structure Layout (c : Cfg) : Prop where
  na : 3 ≤ c.na
  ion : c.iono = true → 236 ≤ c.na

def Num (s : Nat) : Prop := 1 ≤ s ∧ s ≤ 233

/-- symmetric and positive semidefinite -/
structure Psd (n : Nat) (P : Nat → Nat → ℚ) : Prop where
  symm : ∀ a < n, ∀ b < n, P a b = P b a
  pos : ∀ v : Nat → ℚ, 0 ≤ ∑ a ∈ range n, ∑ b ∈ range n, v a * P a b * v b

/-! ## Prediction -/

/-- a sum with the transition matrix -/
theorem phi_sum (c : Cfg) (i : Nat) (hi : i < c.nx) (h6 : 0 < c.pmode → 6 ≤ c.nx) (v : Nat → ℚ) :
    ∑ a ∈ range c.nx, phi c i a * v a = v i + (if 0 < c.pmode ∧ i < 3 then c.tt * v (i + 3) else 0) := by
  have e : ∀ a, phi c i a * v a = (if a = i then v a else 0) +
      (if a = i + 3 then (if 0 < c.pmode ∧ i < 3 then c.tt * v a else 0) else 0) := by
    intro a
    unfold phi
    by_cases h1 : 0 < c.pmode ∧ i < 3
    · by_cases h2 : a = i + 3
      · subst h2
        rw [if_pos ⟨h1.1, h1.2, by omega, by omega⟩, if_pos rfl, if_neg (by omega), if_pos rfl, if_pos h1, zero_add]
      · by_cases h3 : a = i
        · subst h3
          rw [if_neg (by omega), if_pos rfl, if_pos rfl, if_neg h2, one_mul, add_zero]
        · have h4 : ¬ i = a := fun e => h3 e.symm
          simp only [h2, h3, h4, if_false]
          split_ifs <;> ring
    · rw [if_neg (fun h => h1 ⟨h.1, h.2.1⟩), if_neg h1]
      by_cases h3 : a = i
      · subst h3; simp
      · rw [if_neg (fun e => h3 e.symm), if_neg h3]; simp
  rw [sum_congr rfl fun a _ => e a, Finset.sum_add_distrib, Finset.sum_ite_eq', Finset.sum_ite_eq',
    if_pos (Finset.mem_range.2 hi)]
  congr 1
  by_cases h1 : 0 < c.pmode ∧ i < 3
  · rw [if_pos h1, if_pos (Finset.mem_range.2 (by have := h6 h1.1; omega))]
  · simp [h1]

/-- **Prediction.** The position moves by velocity times elapsed time; the covariances follow, and the noise of the elapsed
time is added to the variances. -/
theorem predicted {c : Cfg} {st : St} (h6 : 0 < c.pmode → 6 ≤ c.nx) :
    (∀ i, (predict c st).x i = st.x i + if 0 < c.pmode ∧ i < 3 then c.tt * st.x (i + 3) else 0) ∧
    ∀ i < c.nx, ∀ j < c.nx, (predict c st).P i j =
      st.P i j + (if 0 < c.pmode ∧ i < 3 then c.tt * st.P (i + 3) j else 0) +
      (if 0 < c.pmode ∧ j < 3 then c.tt * st.P i (j + 3) else 0) +
      (if 0 < c.pmode ∧ i < 3 ∧ j < 3 then c.tt ^ 2 * st.P (i + 3) (j + 3) else 0) +
      if i = j ∧ i < c.nq then c.tt * c.q i else 0 := by
  constructor
  · intro i
    unfold predict
    simp only
    split_ifs <;> ring
  · intro i hi j hj
    unfold predict
    simp only
    have e1 : ∑ b ∈ range c.nx, (∑ a ∈ range c.nx, phi c i a * st.P a b) * phi c j b =
        ∑ b ∈ range c.nx, phi c j b * (st.P i b + if 0 < c.pmode ∧ i < 3 then c.tt * st.P (i + 3) b else 0) := by
      refine sum_congr rfl fun b _ => ?_
      rw [phi_sum c i hi h6 fun a => st.P a b]
      ring
    rw [e1, phi_sum c j hj h6 fun b => st.P i b + if 0 < c.pmode ∧ i < 3 then c.tt * st.P (i + 3) b else 0]
    by_cases p : 0 < c.pmode <;> by_cases hi3 : i < 3 <;> by_cases hj3 : j < 3 <;> by_cases e : i = j ∧ i < c.nq <;>
      simp only [p, hi3, hj3, e, and_self, and_true, and_false, true_and, false_and, if_true, if_false] <;> ring

theorem quad_swap (n : Nat) (F : Nat → Nat → ℚ) :
    ∑ a ∈ range n, ∑ b ∈ range n, F a b = ∑ b ∈ range n, ∑ a ∈ range n, F a b := Finset.sum_comm

theorem psd_predict {c : Cfg} {st : St} (ht : 0 ≤ c.tt) (hq : ∀ i, 0 ≤ c.q i) (h : Psd c.nx st.P) :
    Psd c.nx (predict c st).P := by
  constructor
  · intro i _ j _
    unfold predict
    simp only
    congr 1
    · rw [show (∑ b ∈ range c.nx, (∑ a ∈ range c.nx, phi c i a * st.P a b) * phi c j b) =
        ∑ b ∈ range c.nx, ∑ a ∈ range c.nx, phi c i a * st.P a b * phi c j b from
          sum_congr rfl fun b _ => Finset.sum_mul ..]
      rw [show (∑ b ∈ range c.nx, (∑ a ∈ range c.nx, phi c j a * st.P a b) * phi c i b) =
        ∑ b ∈ range c.nx, ∑ a ∈ range c.nx, phi c j a * st.P a b * phi c i b from
          sum_congr rfl fun b _ => Finset.sum_mul ..]
      rw [Finset.sum_comm]
      refine sum_congr rfl fun a ha => sum_congr rfl fun b hb => ?_
      rw [h.symm a (Finset.mem_range.1 ha) b (Finset.mem_range.1 hb)]
      ring
    · by_cases e : i = j
      · subst e; rfl
      · rw [if_neg (fun x => e x.1), if_neg (fun x => e x.1.symm)]
  · intro v
    let w : Nat → ℚ := fun a => ∑ i ∈ range c.nx, v i * phi c i a
    have e : ∑ i ∈ range c.nx, ∑ j ∈ range c.nx, v i * (predict c st).P i j * v j =
        (∑ a ∈ range c.nx, ∑ b ∈ range c.nx, w a * st.P a b * w b) +
          ∑ i ∈ range c.nx, if i < c.nq then v i ^ 2 * (c.q i * c.tt) else 0 := by
      unfold predict
      simp only
      have e1 : ∀ i ∈ range c.nx, ∑ j ∈ range c.nx, v i * ((∑ b ∈ range c.nx, (∑ a ∈ range c.nx, phi c i a * st.P a b) *
          phi c j b) + if i = j ∧ i < c.nq then c.q i * c.tt else 0) * v j =
          (∑ b ∈ range c.nx, (v i * ∑ a ∈ range c.nx, phi c i a * st.P a b) * w b) +
          if i < c.nq then v i ^ 2 * (c.q i * c.tt) else 0 := by
        intro i hi
        have : ∀ j ∈ range c.nx, v i * ((∑ b ∈ range c.nx, (∑ a ∈ range c.nx, phi c i a * st.P a b) *
          phi c j b) + if i = j ∧ i < c.nq then c.q i * c.tt else 0) * v j =
            (∑ b ∈ range c.nx, (v i * ∑ a ∈ range c.nx, phi c i a * st.P a b) * (v j * phi c j b)) +
            if i = j then (if i < c.nq then v i ^ 2 * (c.q i * c.tt) else 0) else 0 := by
          intro j _
          rw [mul_add, add_mul, Finset.mul_sum, Finset.sum_mul]
          congr 1
          · exact sum_congr rfl fun b _ => by ring
          · by_cases e : i = j
            · subst e
              by_cases e2 : i < c.nq
              · rw [if_pos ⟨rfl, e2⟩, if_pos rfl, if_pos e2]; ring
              · rw [if_neg (fun x => e2 x.2), if_pos rfl, if_neg e2]; ring
            · rw [if_neg (fun x => e x.1), if_neg e]; ring
        rw [sum_congr rfl this, Finset.sum_add_distrib, Finset.sum_ite_eq, if_pos hi, Finset.sum_comm]
        congr 1
        exact sum_congr rfl fun b _ => by rw [← Finset.mul_sum]
      rw [sum_congr rfl e1, Finset.sum_add_distrib]
      congr 1
      rw [Finset.sum_comm]
      rw [Finset.sum_comm (f := fun a b => w a * st.P a b * w b)]
      refine sum_congr rfl fun b _ => ?_
      rw [← Finset.sum_mul, ← Finset.sum_mul]
      congr 1
      have : ∀ i ∈ range c.nx, v i * ∑ a ∈ range c.nx, phi c i a * st.P a b =
          ∑ a ∈ range c.nx, v i * phi c i a * st.P a b := by
        intro i _
        rw [Finset.mul_sum]
        exact sum_congr rfl fun a _ => by ring
      rw [sum_congr rfl this, Finset.sum_comm]
      exact sum_congr rfl fun a _ => by rw [← Finset.sum_mul]
    rw [e]
    refine add_nonneg (h.pos w) (Finset.sum_nonneg fun i _ => ?_)
    split_ifs
    · exact mul_nonneg (sq_nonneg _) (mul_nonneg (hq i) ht)
    · exact le_refl _

theorem psd_initx {n : Nat} {st : St} {x0 v0 : ℚ} {i : Nat} (hv : 0 ≤ v0) (h : Psd n st.P) :
    Psd n (initx st x0 v0 i).P := by
  constructor
  · intro a ha b hb
    unfold initx
    simp only
    by_cases e : a = i ∨ b = i
    · rw [if_pos e, if_pos e.symm]
      by_cases e2 : a = b
      · rw [if_pos e2, if_pos e2.symm]
      · rw [if_neg e2, if_neg fun x => e2 x.symm]
    · rw [if_neg e, if_neg fun x => e x.symm, h.symm a ha b hb]
  · intro v
    let w : Nat → ℚ := fun a => if a = i then 0 else v a
    have e : ∀ a b, v a * (initx st x0 v0 i).P a b * v b =
        w a * st.P a b * w b + if a = b then (if a = i then v0 * v a ^ 2 else 0) else 0 := by
      intro a b
      unfold initx
      simp only [w]
      by_cases h1 : a = i
      · subst h1
        by_cases h2 : a = b
        · subst h2
          simp only [true_or, if_true]
          ring
        · simp [h2]
      · by_cases h2 : b = i
        · subst h2
          simp [h1]
        · simp [h1, h2]
    rw [sum_congr rfl fun a _ => sum_congr rfl fun b _ => e a b]
    rw [sum_congr rfl fun a _ => Finset.sum_add_distrib, Finset.sum_add_distrib]
    refine add_nonneg (h.pos w) (Finset.sum_nonneg fun a _ => Finset.sum_nonneg fun b _ => ?_)
    split_ifs
    · exact mul_nonneg hv (sq_nonneg _)
    · exact le_refl _
    · exact le_refl _

theorem psd_reset {c : Cfg} {o : Obs} {f n s : Nat} {st : St} (h : Psd n st.P) : Psd n (resetSat c o f st s).P := by
  have z : (0 : ℚ) ≤ 0 := le_refl _
  unfold resetSat
  simp only
  split_ifs
  · exact h
  · exact psd_initx z (psd_initx (x0 := 0) (i := IB c s f) z h)
  · exact psd_initx (x0 := 0) (i := IB c s f) z h
  · exact psd_initx (x0 := 0) (i := II c s) z h
  · exact h
  · exact psd_initx (x0 := 0) (i := IB c s f) z h
  · exact h

theorem psd_init {c : Cfg} {f n : Nat} {r : Nat × ℚ × ℚ} {st : St} (h : Psd n st.P) : Psd n (initRow c f st r).P := by
  unfold initRow
  simp only
  split_ifs <;> first | exact h | exact psd_initx (sq_nonneg _) h |
    exact psd_initx (sq_nonneg _) (psd_initx (sq_nonneg _) h)

theorem psd_fold {α : Type} {n : Nat} {g : St → α → St} (hg : ∀ st a, Psd n st.P → Psd n (g st a).P) :
    ∀ (l : List α) (st : St), Psd n st.P → Psd n (l.foldl g st).P
  | [], _, h => h
  | a :: l, st, h => psd_fold hg l _ (hg st a h)

/-- **The covariance stays symmetric and positive semidefinite** when time does not run backwards. -/
theorem covariance {c : Cfg} {o : Obs} {st st' : St} (ht : 0 ≤ c.tt) (hq : ∀ i, 0 ≤ c.q i) (h : Psd c.nx st.P)
    (hr : udstate c o st = .ok st') : Psd c.nx st'.P := by
  refine (Post.foldlM (I := fun st => Psd c.nx st.P) (fun st f _ hs => ?_) (psd_predict ht hq h)).out st' hr
  unfold signal
  simp only
  exact Post.bind_any fun r => Post.pure (psd_fold (fun _ _ => psd_init) _ _ (psd_fold (fun _ _ => psd_reset) _ _ hs))

/-! ## Slots -/

/-- `st'` comes from `st` by starting anew the slots of `J` with the variances `V` (0 if the value is 0) -/
structure Upd (V : Nat → ℚ) (st st' : St) (J : Nat → Prop) : Prop where
  x : ∀ k, ¬ J k → st'.x k = st.x k
  keep : ∀ a b, ¬ J a → ¬ J b → st'.P a b = st.P a b
  zero : ∀ a b, J a → b ≠ a → st'.P a b = 0 ∧ st'.P b a = 0
  diag : ∀ a, J a → st'.P a a = if st'.x a = 0 then 0 else V a

theorem Upd.congr {V : Nat → ℚ} {st st' : St} {J J' : Nat → Prop} (h : Upd V st st' J) (e : ∀ k, J k ↔ J' k) :
    Upd V st st' J' := by
  have : J = J' := funext fun k => propext (e k)
  rwa [← this]

theorem Upd.refl {V : Nat → ℚ} {st st' : St} (h1 : st'.x = st.x) (h2 : st'.P = st.P) : Upd V st st' fun _ => False :=
  ⟨fun _ _ => by rw [h1], fun _ _ _ _ => by rw [h2], fun _ _ h => h.elim, fun _ h => h.elim⟩

theorem Upd.one {V : Nat → ℚ} {st : St} {x0 v0 : ℚ} {i : Nat} (h : v0 = if x0 = 0 then 0 else V i) :
    Upd V st (initx st x0 v0 i) fun k => k = i := by
  unfold initx
  refine ⟨fun k hk => if_neg hk, fun a b ha hb => if_neg (fun x => x.elim ha hb), ?_, ?_⟩
  · rintro a b rfl hb
    simp [hb, hb.symm]
  · rintro a rfl
    simp only [true_or, if_true]
    exact h

theorem Upd.trans {V : Nat → ℚ} {st st1 st2 : St} {J1 J2 : Nat → Prop} (h1 : Upd V st st1 J1) (h2 : Upd V st1 st2 J2) :
    Upd V st st2 fun k => J1 k ∨ J2 k := by
  refine ⟨?_, ?_, ?_, ?_⟩
  · intro k hk
    rw [not_or] at hk
    rw [h2.x k hk.2, h1.x k hk.1]
  · intro a b ha hb
    rw [not_or] at ha hb
    rw [h2.keep a b ha.2 hb.2, h1.keep a b ha.1 hb.1]
  · intro a b ha hb
    by_cases a2 : J2 a
    · exact h2.zero a b a2 hb
    · have a1 := ha.resolve_right a2
      by_cases b2 : J2 b
      · exact (h2.zero b a b2 hb.symm).symm
      · rw [h2.keep a b a2 b2, h2.keep b a b2 a2]
        exact h1.zero a b a1 hb
  · intro a ha
    by_cases a2 : J2 a
    · exact h2.diag a a2
    · have a1 := ha.resolve_right a2
      rw [h2.keep a a a2 a2, h2.x a a2]
      exact h1.diag a a1

/-- the slots of a satellite -/
def Own (c : Cfg) (s f k : Nat) : Prop := k = IB c s f ∨ (c.iono = true ∧ k = II c s)

/-- variances of new slots -/
def var (c : Cfg) (k : Nat) : ℚ := if c.na ≤ k then c.sigN ^ 2 else c.sigI ^ 2

theorem IB_inj {c : Cfg} {s t f g : Nat} (hs : Num s) (ht : Num t) (h : IB c s f = IB c t g) : s = t ∧ f = g := by
  unfold IB nsat at h
  obtain ⟨h1, h2⟩ := hs
  obtain ⟨h3, h4⟩ := ht
  have : f = g := by omega
  subst this
  exact ⟨by omega, rfl⟩

theorem II_inj {c : Cfg} {s t : Nat} (hl : Layout c) (hi : c.iono = true) (hs : Num s) (ht : Num t)
    (h : II c s = II c t) : s = t := by
  unfold II nsat at h
  obtain ⟨h1, h2⟩ := hs
  obtain ⟨h3, h4⟩ := ht
  omega

theorem IB_II {c : Cfg} {s t f : Nat} (hl : Layout c) (hi : c.iono = true) (hs : Num s) (ht : Num t) :
    IB c s f ≠ II c t ∧ c.na ≤ IB c s f ∧ II c t < c.na ∧ 3 ≤ II c t := by
  have := hl.ion hi
  unfold IB II nsat
  obtain ⟨h1, h2⟩ := hs
  obtain ⟨h3, h4⟩ := ht
  omega

theorem IB_na {c : Cfg} {s f : Nat} (hs : Num s) : c.na ≤ IB c s f := by
  unfold IB nsat
  obtain ⟨h1, h2⟩ := hs
  omega

/-- a slot dropped on a condition -/
def rst (r : Bool) (st : St) (j : Nat) : St := if r = true ∧ st.x j ≠ 0 then initx st 0 0 j else st

theorem rst_spec {V : Nat → ℚ} {r : Bool} {st : St} {j : Nat} :
    Upd V st (rst r st j) (fun k => k = j ∧ r = true ∧ st.x k ≠ 0) ∧ (r = true → (rst r st j).x j = 0) := by
  unfold rst
  by_cases h : r = true ∧ st.x j ≠ 0
  · rw [if_pos h]
    refine ⟨(Upd.one (by simp)).congr fun k => ⟨?_, fun x => x.1⟩, fun _ => by simp [initx]⟩
    rintro rfl
    exact ⟨rfl, h⟩
  · rw [if_neg h]
    refine ⟨(Upd.refl rfl rfl).congr fun k => ⟨False.elim, ?_⟩, fun hr => ?_⟩
    · rintro ⟨rfl, h1, h2⟩
      exact h ⟨h1, h2⟩
    · by_contra hc
      exact h ⟨hr, hc⟩

/-- the condition as computed -/
def rb (c : Cfg) (o : Obs) (outc : Nat → Nat → Int) (s f : Nat) : Bool :=
  (o.sig (sat2prn s).1).isSome && (decide (outc s f + 1 > c.maxout) || c.edt s)

theorem rb_iff {c : Cfg} {o : Obs} {outc : Nat → Nat → Int} {s f : Nat} : rb c o outc s f = true ↔ Reset c o outc s f := by
  unfold rb Reset
  simp

theorem resetSat_eq (c : Cfg) (o : Obs) (f s : Nat) (st : St) :
    let r := rb c o st.outc s f
    let A := rst r st (IB c s f)
    let B := if c.iono = true then rst r A (II c s) else A
    (resetSat c o f st s).x = B.x ∧ (resetSat c o f st s).P = B.P ∧
      (resetSat c o f st s).outc = fun t g => if t = s ∧ g = f then
        (if r = true ∧ st.x (IB c s f) ≠ 0 then 0 else st.outc s f + 1) else st.outc t g := by
  cases h1 : o.sig (sat2prn s).1 with
  | none => simp [resetSat, rb, rst, h1]
  | some d =>
    have e : rb c o st.outc s f = (decide (st.outc s f + 1 > c.maxout) || c.edt s) := by simp [rb, h1]
    intro r A B
    simp only [B, A, r, e, resetSat, h1, Option.isNone_some, Bool.false_eq_true, if_false]
    generalize (decide (st.outc s f + 1 > c.maxout) || c.edt s) = b
    cases b
    · simp [rst]
    · by_cases h2 : st.x (IB c s f) = 0 <;> by_cases h3 : c.iono = true <;> by_cases h4 : st.x (II c s) = 0 <;>
        by_cases h5 : II c s = IB c s f <;> simp_all [rst, initx] <;>
        (refine funext fun t => funext fun g => ?_; split_ifs <;> rfl)

/-- reset of one satellite -/
theorem reset_one {c : Cfg} {o : Obs} {f s : Nat} {st : St} (hl : Layout c) (hs : Num s) :
    Upd (var c) st (resetSat c o f st s) (fun k => Own c s f k ∧ Reset c o st.outc s f ∧ st.x k ≠ 0) ∧
    (∀ k, Own c s f k → Reset c o st.outc s f → (resetSat c o f st s).x k = 0) ∧
    (∀ t g, ¬ (t = s ∧ g = f) → (resetSat c o f st s).outc t g = st.outc t g) ∧
    (Reset c o st.outc s f ∧ st.x (IB c s f) ≠ 0 → (resetSat c o f st s).outc s f = 0) ∧
    (¬ (Reset c o st.outc s f ∧ st.x (IB c s f) ≠ 0) → (resetSat c o f st s).outc s f = st.outc s f + 1) := by
  obtain ⟨e1, e2, e3⟩ := resetSat_eq c o f s st
  obtain ⟨a1, a2⟩ := rst_spec (V := var c) (r := rb c o st.outc s f) (st := st) (j := IB c s f)
  have out : (∀ t g, ¬ (t = s ∧ g = f) → (resetSat c o f st s).outc t g = st.outc t g) ∧
    (Reset c o st.outc s f ∧ st.x (IB c s f) ≠ 0 → (resetSat c o f st s).outc s f = 0) ∧
    (¬ (Reset c o st.outc s f ∧ st.x (IB c s f) ≠ 0) → (resetSat c o f st s).outc s f = st.outc s f + 1) := by
    rw [e3, ← rb_iff]
    exact ⟨fun t g h => if_neg h, fun h => by simp only [and_self, if_true]; exact if_pos h,
      fun h => by simp only [and_self, if_true]; exact if_neg h⟩
  rw [← and_assoc]
  refine ⟨?_, out⟩
  have tr : ∀ {B : St} {J : Nat → Prop}, (resetSat c o f st s).x = B.x → (resetSat c o f st s).P = B.P → Upd (var c) st B J →
      Upd (var c) st (resetSat c o f st s) J := fun hx hP h =>
    ⟨fun k hk => by rw [hx, h.x k hk], fun a b ha hb => by rw [hP, h.keep a b ha hb],
      fun a b ha hb => by rw [hP]; exact h.zero a b ha hb, fun a ha => by rw [hP, hx, h.diag a ha]⟩
  by_cases hi : c.iono = true
  · rw [if_pos hi] at e1 e2
    have hne := (IB_II (f := f) hl hi hs hs).1
    obtain ⟨b1, b2⟩ := rst_spec (V := var c) (r := rb c o st.outc s f) (st := rst (rb c o st.outc s f) st (IB c s f))
      (j := II c s)
    have ex : (rst (rb c o st.outc s f) st (IB c s f)).x (II c s) = st.x (II c s) := a1.x _ fun h => hne h.1.symm
    constructor
    · refine tr e1 e2 ((a1.trans b1).congr fun k => ?_)
      rw [← rb_iff]
      unfold Own
      constructor
      · rintro (⟨rfl, h1, h2⟩ | ⟨rfl, h1, h2⟩)
        · exact ⟨Or.inl rfl, h1, h2⟩
        · rw [ex] at h2
          exact ⟨Or.inr ⟨hi, rfl⟩, h1, h2⟩
      · rintro ⟨rfl | ⟨_, rfl⟩, h1, h2⟩
        · exact Or.inl ⟨rfl, h1, h2⟩
        · exact Or.inr ⟨rfl, h1, by rwa [ex]⟩
    · intro k hk hr
      rw [← rb_iff] at hr
      rw [e1]
      rcases hk with rfl | ⟨_, rfl⟩
      · rw [b1.x _ fun h => hne h.1, a2 hr]
      · exact b2 hr
  · rw [if_neg hi] at e1 e2
    constructor
    · refine tr e1 e2 (a1.congr fun k => ?_)
      rw [← rb_iff]
      unfold Own
      simp [hi]
    · intro k hk hr
      rw [← rb_iff] at hr
      rw [e1]
      rcases hk with rfl | ⟨h, _⟩
      · exact a2 hr
      · exact absurd h hi

theorem reset_congr {c : Cfg} {o : Obs} {a b : Nat → Nat → Int} {s f : Nat} (h : a s f = b s f) :
    Reset c o a s f ↔ Reset c o b s f := by
  unfold Reset
  rw [h]

/-- all satellites -/
theorem reset_all {c : Cfg} {o : Obs} {f : Nat} (hl : Layout c) : ∀ {l : List Nat}, l.Nodup → (∀ s ∈ l, Num s) → ∀ {st : St},
    Upd (var c) st (l.foldl (resetSat c o f) st) (fun k => (∃ s ∈ l, Own c s f k ∧ Reset c o st.outc s f) ∧ st.x k ≠ 0) ∧
    (∀ k, (∃ s ∈ l, Own c s f k ∧ Reset c o st.outc s f) → (l.foldl (resetSat c o f) st).x k = 0) ∧
    (∀ t g, ¬ (t ∈ l ∧ g = f) → (l.foldl (resetSat c o f) st).outc t g = st.outc t g) ∧
    ∀ t ∈ l, (Reset c o st.outc t f ∧ st.x (IB c t f) ≠ 0 → (l.foldl (resetSat c o f) st).outc t f = 0) ∧
      (¬ (Reset c o st.outc t f ∧ st.x (IB c t f) ≠ 0) → (l.foldl (resetSat c o f) st).outc t f = st.outc t f + 1)
  | [], _, _, st => by
    refine ⟨(Upd.refl rfl rfl).congr fun k => ⟨False.elim, ?_⟩, ?_, fun _ _ _ => rfl, ?_⟩
    · rintro ⟨⟨s, hs, _⟩, _⟩; simp at hs
    · rintro k ⟨s, hs, _⟩; simp at hs
    · intro t ht; simp at ht
  | s :: l, hn, hN, st => by
    rw [List.nodup_cons] at hn
    obtain ⟨a1, a2, a3, a4, a5⟩ := reset_one (o := o) (f := f) (st := st) hl (hN s (by simp))
    obtain ⟨b1, b2, b3, b4⟩ := reset_all (o := o) (f := f) hl hn.2 (fun t ht => hN t (by simp [ht])) (st := resetSat c o f st s)
    rw [List.foldl_cons]
    have hne : ∀ t ∈ l, t ≠ s := fun t ht e => hn.1 (e ▸ ht)
    have hR : ∀ t ∈ l, Reset c o (resetSat c o f st s).outc t f ↔ Reset c o st.outc t f := fun t ht =>
      reset_congr (a3 t f fun h => hne t ht h.1)
    have hx : ∀ t ∈ l, (resetSat c o f st s).x (IB c t f) = st.x (IB c t f) := by
      intro t ht
      refine a1.x _ ?_
      rintro ⟨h | h, _, _⟩
      · exact hne t ht (IB_inj (hN t (by simp [ht])) (hN s (by simp)) h).1
      · exact (IB_II (f := f) hl h.1 (hN t (by simp [ht])) (hN s (by simp))).1 h.2
    refine ⟨(a1.trans b1).congr ?_, ?_, ?_, ?_⟩
    · intro k
      constructor
      · rintro (⟨h1, h2, h3⟩ | ⟨⟨t, ht, h1, h2⟩, h3⟩)
        · exact ⟨⟨s, by simp, h1, h2⟩, h3⟩
        · rw [hR t ht] at h2
          refine ⟨⟨t, by simp [ht], h1, h2⟩, ?_⟩
          by_cases h4 : Own c s f k ∧ Reset c o st.outc s f ∧ st.x k ≠ 0
          · exact h4.2.2
          · rwa [a1.x k h4] at h3
      · rintro ⟨⟨t, ht, h1, h2⟩, h3⟩
        rcases List.mem_cons.1 ht with rfl | ht
        · exact Or.inl ⟨h1, h2, h3⟩
        · by_cases h4 : Own c s f k ∧ Reset c o st.outc s f ∧ st.x k ≠ 0
          · exact Or.inl h4
          · exact Or.inr ⟨⟨t, ht, h1, (hR t ht).2 h2⟩, by rwa [a1.x k h4]⟩
    · rintro k ⟨t, ht, h1, h2⟩
      rcases List.mem_cons.1 ht with rfl | ht
      · by_cases h4 : (∃ u ∈ l, Own c u f k ∧ Reset c o (resetSat c o f st t).outc u f) ∧ (resetSat c o f st t).x k ≠ 0
        · exact b2 k h4.1
        · rw [b1.x k h4]
          exact a2 k h1 h2
      · exact b2 k ⟨t, ht, h1, (hR t ht).2 h2⟩
    · intro t g h
      rw [b3 t g fun x => h ⟨by simp [x.1], x.2⟩, a3 t g fun x => h ⟨by simp [x.1], x.2⟩]
    · intro t ht
      rcases List.mem_cons.1 ht with rfl | ht
      · rw [b3 t f fun x => hn.1 x.1]
        exact ⟨a4, a5⟩
      · have := b4 t ht
        rw [hR t ht, hx t ht, a3 t f fun h => hne t ht h.1] at this
        exact this

/-! ## New values -/

/-- the value a row offers to slot `k` -/
def put (c : Cfg) (f : Nat) (r : Nat × ℚ × ℚ) (k : Nat) : ℚ :=
  if k = IB c r.1 f then r.2.1 else if c.iono = true ∧ k = II c r.1 then r.2.2 else 0

theorem init_one {c : Cfg} {f : Nat} {r : Nat × ℚ × ℚ} {st : St} (hl : Layout c) (hs : Num r.1) :
    Upd (var c) st (initRow c f st r) (fun k => st.x k = 0 ∧ put c f r k ≠ 0) ∧
    ∀ k, (initRow c f st r).x k = if st.x k = 0 then put c f r k else st.x k := by
  have hB : var c (IB c r.1 f) = c.sigN ^ 2 := if_pos (IB_na hs)
  have hI : c.iono = true → var c (II c r.1) = c.sigI ^ 2 ∧ IB c r.1 f ≠ II c r.1 := fun h =>
    ⟨if_neg (by have := (IB_II (f := f) hl h hs hs).2.2.1; omega), (IB_II hl h hs hs).1⟩
  have key : Upd (var c) st (initRow c f st r) (fun k => st.x k = 0 ∧ put c f r k ≠ 0) ∧
      ∀ k, st.x k = 0 → (initRow c f st r).x k = put c f r k := by
    generalize hR : initRow c f st r = R
    unfold initRow at hR
    simp only at hR
    have uB := fun (h : r.2.1 ≠ 0) => Upd.one (V := var c) (st := st) (x0 := r.2.1) (v0 := c.sigN ^ 2) (i := IB c r.1 f)
      (by rw [if_neg h, hB])
    have uI := fun (st : St) (hi : c.iono = true) (h : r.2.2 ≠ 0) => Upd.one (V := var c) (st := st) (x0 := r.2.2)
      (v0 := c.sigI ^ 2) (i := II c r.1) (by rw [if_neg h, (hI hi).1])
    by_cases h1 : r.2.1 ≠ 0 ∧ st.x (IB c r.1 f) = 0
    · rw [if_pos h1] at hR
      by_cases h2 : c.iono = true
      · have hne := (hI h2).2
        rw [if_pos h2] at hR
        have e : (initx st r.2.1 (c.sigN ^ 2) (IB c r.1 f)).x (II c r.1) = st.x (II c r.1) := by
          simp only [initx]; rw [if_neg hne.symm]
        rw [e] at hR
        by_cases h3 : r.2.2 ≠ 0 ∧ st.x (II c r.1) = 0
        · rw [if_pos h3] at hR
          subst hR
          refine ⟨((uB h1.1).trans (uI _ h2 h3.1)).congr ?_, ?_⟩
          · intro k
            unfold put
            constructor
            · rintro (rfl | rfl)
              · exact ⟨h1.2, by simpa using h1.1⟩
              · exact ⟨h3.2, by simpa [hne.symm, h2] using h3.1⟩
            · rintro ⟨_, h⟩
              split_ifs at h with a b
              · exact Or.inl a
              · exact Or.inr b.2
              · exact absurd rfl h
          · intro k hk
            unfold put
            simp only [initx, h2, true_and]
            split_ifs with a b b
            · exact absurd (b.symm.trans a) hne
            · rfl
            · rfl
            · exact hk
        · rw [if_neg h3] at hR
          subst hR
          refine ⟨(uB h1.1).congr ?_, ?_⟩
          · intro k
            unfold put
            constructor
            · rintro rfl
              exact ⟨h1.2, by simpa using h1.1⟩
            · rintro ⟨hk, h⟩
              split_ifs at h with a b
              · exact a
              · exact absurd ⟨h, b.2 ▸ hk⟩ h3
              · exact absurd rfl h
          · intro k hk
            unfold put
            simp only [initx, h2, true_and]
            split_ifs with a b
            · rfl
            · rw [hk]
              by_contra hc
              exact h3 ⟨fun x => hc x.symm, b ▸ hk⟩
            · exact hk
      · rw [if_neg h2] at hR
        subst hR
        refine ⟨(uB h1.1).congr ?_, ?_⟩
        · intro k
          unfold put
          constructor
          · rintro rfl
            exact ⟨h1.2, by simpa using h1.1⟩
          · rintro ⟨hk, h⟩
            split_ifs at h with a b
            · exact a
            · exact absurd b.1 h2
            · exact absurd rfl h
        · intro k hk
          unfold put
          simp only [initx]
          split_ifs with a b
          · rfl
          · exact absurd b.1 h2
          · exact hk
    · rw [if_neg h1] at hR
      by_cases h2 : c.iono = true
      · have hne := (hI h2).2
        rw [if_pos h2] at hR
        by_cases h3 : r.2.2 ≠ 0 ∧ st.x (II c r.1) = 0
        · rw [if_pos h3] at hR
          subst hR
          refine ⟨(uI _ h2 h3.1).congr ?_, ?_⟩
          · intro k
            unfold put
            constructor
            · rintro rfl
              exact ⟨h3.2, by simpa [hne.symm, h2] using h3.1⟩
            · rintro ⟨hk, h⟩
              split_ifs at h with a b
              · exact absurd ⟨h, a ▸ hk⟩ h1
              · exact b.2
              · exact absurd rfl h
          · intro k hk
            unfold put
            simp only [initx, h2, true_and]
            split_ifs with a b b
            · exact absurd (a.symm.trans b) hne.symm
            · rfl
            · rw [hk]
              by_contra hc
              exact h1 ⟨fun x => hc x.symm, b ▸ hk⟩
            · exact hk
        · rw [if_neg h3] at hR
          subst hR
          have hp : ∀ k, st.x k = 0 → put c f r k = 0 := by
            intro k hk
            unfold put
            split_ifs with a b
            · by_contra hc; exact h1 ⟨hc, a ▸ hk⟩
            · by_contra hc; exact h3 ⟨hc, b.2 ▸ hk⟩
            · rfl
          exact ⟨(Upd.refl rfl rfl).congr fun k => ⟨False.elim, fun h => h.2 (hp k h.1)⟩, fun k hk => by rw [hp k hk, hk]⟩
      · rw [if_neg h2] at hR
        subst hR
        have hp : ∀ k, st.x k = 0 → put c f r k = 0 := by
          intro k hk
          unfold put
          split_ifs with a b
          · by_contra hc; exact h1 ⟨hc, a ▸ hk⟩
          · exact absurd b.1 h2
          · rfl
        exact ⟨(Upd.refl rfl rfl).congr fun k => ⟨False.elim, fun h => h.2 (hp k h.1)⟩, fun k hk => by rw [hp k hk, hk]⟩
  refine ⟨key.1, fun k => ?_⟩
  by_cases hk : st.x k = 0
  · rw [if_pos hk, key.2 k hk]
  · rw [if_neg hk, key.1.x k fun h => hk h.1]

theorem init_outc {c : Cfg} {f : Nat} : ∀ (l : List (Nat × ℚ × ℚ)) (st : St), (l.foldl (initRow c f) st).outc = st.outc
  | [], _ => rfl
  | r :: l, st => by
    rw [List.foldl_cons, init_outc l]
    unfold initRow initx
    simp only
    split_ifs <;> rfl

theorem init_all {c : Cfg} {f : Nat} (hl : Layout c) : ∀ {l : List (Nat × ℚ × ℚ)}, (∀ r ∈ l, Num r.1) → ∀ {st : St},
    Upd (var c) st (l.foldl (initRow c f) st) (fun k => st.x k = 0 ∧ first (l.map fun r => put c f r k) ≠ 0) ∧
    ∀ k, (l.foldl (initRow c f) st).x k = if st.x k = 0 then first (l.map fun r => put c f r k) else st.x k
  | [], _, st => by
    refine ⟨(Upd.refl rfl rfl).congr fun k => ⟨False.elim, fun h => h.2 rfl⟩, fun k => ?_⟩
    split_ifs with h
    · exact h
    · rfl
  | r :: l, hN, st => by
    obtain ⟨a1, a2⟩ := init_one (f := f) (st := st) hl (hN r (by simp))
    obtain ⟨b1, b2⟩ := init_all (f := f) hl (l := l) (fun r hr => hN r (by simp [hr])) (st := initRow c f st r)
    rw [List.foldl_cons]
    have e : ∀ k, first ((r :: l).map fun r => put c f r k) =
        if put c f r k = 0 then first (l.map fun r => put c f r k) else put c f r k := fun k => rfl
    refine ⟨(a1.trans b1).congr ?_, ?_⟩
    · intro k
      rw [a2 k, e]
      by_cases h1 : st.x k = 0 <;> by_cases h2 : put c f r k = 0 <;> simp [h1, h2]
    · intro k
      rw [b2 k, a2 k, e]
      by_cases h1 : st.x k = 0 <;> by_cases h2 : put c f r k = 0 <;> simp [h1, h2]

/-! ## Values from the measurements -/

theorem freq_spec {g : Sig} {k : Option Int} {l : ℚ} (h : freq g k = some l) (k' : Int)
    (hk : ∀ x, k = some x → k' = x) : Msm.frequency g.sys (g.sig.tdiv 100).toNat k' = some l := by
  unfold freq at h
  simp only at h
  split_ifs at h with c
  cases k with
  | some x => rw [hk x rfl]; exact h
  | none =>
    rw [← h]
    have c' : ¬ (g.sys = .glo ∧ (g.sig.tdiv 100).toNat ≤ 2) := fun x => c ⟨x.1, rfl, x.2⟩
    generalize (g.sig.tdiv 100).toNat = b at c' ⊢
    by_cases hs : g.sys = .glo
    · rw [hs]
      have hb : ¬ b ≤ 2 := fun x => c' ⟨hs, x⟩
      unfold Msm.frequency
      split <;> first | rfl | (exfalso; omega) | simp_all
    · generalize g.sys = y at hs ⊢
      unfold Msm.frequency
      split <;> first | rfl | simp_all

theorem need_ok {x : Option ℚ} {a : ℚ} (h : need x = .ok a) : x = some a := by
  unfold need at h
  cases x with
  | none => cases h
  | some b => cases h; rfl

theorem pyGet_some {α : Type} {l : List α} {i : Nat} {a : α} (h : pyGet l i = .ok a) : l[i]? = some a := by
  unfold pyGet at h
  cases hh : l[i]? with
  | none => rw [hh] at h; cases h
  | some b => rw [hh] at h; cases h; rfl

theorem col_ok {o : Obs} {m : Nat → Nat → ℚ} {i f : Nat} {x : ℚ} (h : Ud.col o m i f = .ok x) : x = m i f := by
  unfold Ud.col at h
  split_ifs at h
  cases h
  rfl

theorem frq_of {c : Cfg} {o : Obs} {s n : Nat} {t : Typ} {l : List Sig} {g : Sig} {k : Option Int} {a : ℚ}
    (h1 : Ud.sigList o (sat2prn s).1 t = .ok l) (h2 : pyGet l n = .ok g) (h3 : need (freq g k) = .ok a)
    (hk : ∀ x, k = some x → Dict.get? c.gloCh s = some x) : frq c o s t n = a := by
  unfold Ud.sigList at h1
  cases hs : (o.sig (sat2prn s).1).bind fun d => d t with
  | none => rw [hs] at h1; cases h1
  | some l' =>
    rw [hs] at h1
    cases h1
    unfold frq
    rw [hs, Option.getD_some, pyGet_some h2]
    simp only
    rw [freq_spec (need_ok h3) ((Dict.get? c.gloCh s).getD 0) fun x hx => by rw [hk x hx]; rfl]
    rfl

theorem slant_spec {c : Cfg} {o : Obs} {i s : Nat} {d : Option (ℚ × ℚ)} (he : c.edt s = false) (h : slant c o i s = .ok d) :
    (d = none ∧ Skip c o i s) ∨
    (∃ f1, d = some (ionVal c o i s, f1) ∧ ¬ Skip c o i s ∧ (Dual c → f1 = frq c o s .C 0)) := by
  unfold slant at h
  simp only at h
  by_cases hd : Dual c
  · have hd' : 1 < c.nf ∧ c.iono = true := hd
    rw [if_pos hd'] at h
    obtain ⟨l, h1, h⟩ := Py.bind_ok.1 h
    obtain ⟨g1, h2, h⟩ := Py.bind_ok.1 h
    obtain ⟨g2, h3, h⟩ := Py.bind_ok.1 h
    obtain ⟨p1, h4, h⟩ := Py.bind_ok.1 h
    obtain ⟨p2, h5, h⟩ := Py.bind_ok.1 h
    have := col_ok h4
    have := col_ok h5
    subst p1 p2
    by_cases c1 : o.P i 0 = 0 ∨ o.P i 1 = 0
    · rw [if_pos c1] at h
      cases h
      exact Or.inl ⟨rfl, Or.inr ⟨hd, c1.elim Or.inl fun x => Or.inr (Or.inl x)⟩⟩
    rw [if_neg c1] at h
    by_cases c2 : (sat2prn s).1 = .glo ∧ Dict.mem c.gloCh s = false
    · rw [if_pos c2] at h
      cases h
      refine Or.inl ⟨rfl, Or.inr ⟨hd, Or.inr (Or.inr ⟨c2.1, ?_⟩)⟩⟩
      have := c2.2
      unfold Dict.mem at this
      simpa using this
    rw [if_neg c2] at h
    obtain ⟨f1, h6, h⟩ := Py.bind_ok.1 h
    obtain ⟨f2, h7, h⟩ := Py.bind_ok.1 h
    have hk : ∀ x, (if (sat2prn s).1 = .glo then Dict.get? c.gloCh s else none) = some x → Dict.get? c.gloCh s = some x := by
      intro x hx
      split_ifs at hx with y
      exact hx
    have e1 := frq_of h1 h2 h6 hk
    have e2 := frq_of h1 h3 h7 hk
    split_ifs at h with c3
    cases h
    have hns : ¬ Skip c o i s := by
      rintro (hx | ⟨_, hx | hx | ⟨hx, hy⟩⟩)
      · rw [he] at hx; cases hx
      · exact c1 (Or.inl hx)
      · exact c1 (Or.inr hx)
      · exact c2 ⟨hx, by unfold Dict.mem; rw [hy]; rfl⟩
    refine Or.inr ⟨f1, ?_, hns, fun _ => e1.symm⟩
    unfold ionVal
    rw [if_neg (by rw [not_or, not_not]; exact ⟨hns, hd⟩), e1, e2]
  · rw [if_neg (show ¬ (1 < c.nf ∧ c.iono = true) from hd)] at h
    cases h
    have hns : ¬ Skip c o i s := by
      rintro (hx | ⟨hx, _⟩)
      · rw [he] at hx; cases hx
      · exact hd hx
    refine Or.inr ⟨0, ?_, hns, fun x => absurd x hd⟩
    unfold ionVal
    rw [if_pos (Or.inr hd)]

theorem meas_spec {c : Cfg} {o : Obs} {f i s : Nat} {m : ℚ × ℚ} (h : meas c o f i s = .ok m) :
    m = (biasVal c o f i s, ionVal c o i s) := by
  unfold meas at h
  simp only at h
  by_cases he : c.edt s = true
  · rw [if_pos he] at h
    cases h
    have hs : Skip c o i s := Or.inl he
    unfold biasVal ionVal
    rw [if_pos (Or.inl hs), if_pos (Or.inl hs)]
  rw [if_neg he] at h
  have he' : c.edt s = false := by simpa using he
  obtain ⟨d, h1, h⟩ := Py.bind_ok.1 h
  rcases slant_spec he' h1 with ⟨rfl, hs⟩ | ⟨f1, rfl, hs, hf⟩
  · cases h
    unfold biasVal ionVal
    rw [if_pos (Or.inl hs), if_pos (Or.inl hs)]
  · simp only at h
    obtain ⟨l, h2, h⟩ := Py.bind_ok.1 h
    obtain ⟨g, h3, h⟩ := Py.bind_ok.1 h
    have key : ∃ k : Option Int, (∀ x, k = some x → Dict.get? c.gloCh s = some x) ∧ (do
        let fi ← need (freq g k)
        let lam := Msm.clight / fi
        let cp ← Ud.col o o.L i f
        let pr ← Ud.col o o.P i f
        if cp = 0 ∨ pr = 0 then pure (0, ionVal c o i s)
        else pure (cp - pr / lam + 2 * ionVal c o i s / lam * (f1 / fi) ^ 2, ionVal c o i s)) = Except.ok m := by
      by_cases hg : (sat2prn s).1 = .glo
      · rw [if_pos hg] at h
        obtain ⟨k, hk, h⟩ := Py.bind_ok.1 h
        obtain ⟨k', hk', hk⟩ := Py.bind_ok.1 hk
        cases hk
        refine ⟨some k', fun x hx => ?_, h⟩
        cases hx
        exact (Dict.getItem_ok_iff _ _ _).1 hk'
      · rw [if_neg hg] at h
        exact ⟨none, (fun x hx => by cases hx), h⟩
    obtain ⟨k, hk, h⟩ := key
    obtain ⟨fi, h4, h⟩ := Py.bind_ok.1 h
    obtain ⟨cp, h5, h⟩ := Py.bind_ok.1 h
    obtain ⟨pr, h6, h⟩ := Py.bind_ok.1 h
    have := col_ok h5
    have := col_ok h6
    subst cp pr
    have e := frq_of h2 h3 h4 hk
    unfold biasVal
    simp only
    by_cases c1 : o.L i f = 0 ∨ o.P i f = 0
    · rw [if_pos c1] at h
      cases h
      rw [if_pos (Or.inr c1)]
    · rw [if_neg c1] at h
      cases h
      rw [if_neg (by rw [not_or]; exact ⟨hs, c1⟩), e]
      by_cases hd : Dual c
      · rw [hf hd]
        rfl
      · have : ionVal c o i s = 0 := by unfold ionVal; rw [if_pos (Or.inr hd)]
        rw [this]
        simp only [mul_zero, zero_div, zero_mul]
        rfl

theorem mapM_eq {α β : Type} {g : α → Py β} {v : α → β} : ∀ {l : List α} {r : List β}, (∀ a ∈ l, ∀ b, g a = .ok b → b = v a) →
    l.mapM g = .ok r → r = l.map v
  | [], r, _, h => by
    rw [List.mapM_nil] at h
    cases h
    rfl
  | x :: l, r, hv, h => by
    rw [List.mapM_cons] at h
    obtain ⟨y, h1, h⟩ := Py.bind_ok.1 h
    obtain ⟨ys, h2, h⟩ := Py.bind_ok.1 h
    cases h
    rw [List.map_cons, hv x (by simp) y h1, mapM_eq (fun a ha => hv a (by simp [ha])) h2]

theorem rows_spec {c : Cfg} {o : Obs} {f : Nat} {r : List (Nat × ℚ × ℚ)} (h : rows c o f = .ok r) :
    r = (List.range o.sat.length).map fun i => (o.sat.getD i 0, biasVal c o f i (o.sat.getD i 0), ionVal c o i (o.sat.getD i 0)) := by
  refine mapM_eq (fun i hi b hb => ?_) h
  obtain ⟨s, h1, hb⟩ := Py.bind_ok.1 hb
  obtain ⟨m, h2, hb⟩ := Py.bind_ok.1 hb
  cases hb
  have : o.sat.getD i 0 = s := by rw [List.getD_eq_getElem?_getD, pyGet_some h1]; rfl
  rw [this, meas_spec h2]

/-- what all rows offer to a slot -/
def offer (c : Cfg) (o : Obs) (f k : Nat) : ℚ :=
  first ((List.range o.sat.length).map fun i =>
    put c f (o.sat.getD i 0, biasVal c o f i (o.sat.getD i 0), ionVal c o i (o.sat.getD i 0)) k)

theorem first_congr {α : Type} {l : List α} {u v : α → ℚ} (h : ∀ a ∈ l, u a = v a) : first (l.map u) = first (l.map v) := by
  rw [List.map_congr_left h]

theorem first_zero {α : Type} : ∀ {l : List α} {u : α → ℚ}, (∀ a ∈ l, u a = 0) → first (l.map u) = 0
  | [], _, _ => rfl
  | a :: l, u, h => by
    rw [List.map_cons]
    unfold first
    rw [if_pos (h a (by simp))]
    exact first_zero fun b hb => h b (by simp [hb])

theorem getD_of {l : List Nat} {i : Nat} (hi : i < l.length) : l[i]? = some (l.getD i 0) ∧ l.getD i 0 ∈ l := by
  rw [List.getD_eq_getElem?_getD, List.getElem?_eq_getElem hi]
  exact ⟨rfl, List.getElem_mem hi⟩

theorem offer_IB {c : Cfg} {o : Obs} {s f g : Nat} (hl : Layout c) (ho : ∀ s ∈ o.sat, Num s) (hs : Num s) :
    offer c o g (IB c s f) = if g = f then biasOf c o f s else 0 := by
  have hput : ∀ i < o.sat.length, put c g (o.sat.getD i 0, biasVal c o g i (o.sat.getD i 0), ionVal c o i (o.sat.getD i 0)) (IB c s f) =
      if g = f ∧ o.sat[i]? = some s then biasVal c o f i s else 0 := by
    intro i hi
    obtain ⟨e1, e2⟩ := getD_of hi
    have hn := ho _ e2
    rw [e1]
    unfold put
    simp only
    by_cases h1 : IB c s f = IB c (o.sat.getD i 0) g
    · obtain ⟨h2, h3⟩ := IB_inj hs hn h1
      rw [if_pos h1, if_pos ⟨h3.symm, by rw [h2]⟩, ← h2, h3]
    · rw [if_neg h1, if_neg (fun h => (IB_II (f := f) hl h.1 hs hn).1 h.2), if_neg]
      rintro ⟨rfl, h2⟩
      exact h1 (by rw [Option.some.inj h2])
  unfold offer
  rw [first_congr fun i hi => hput i (List.mem_range.1 hi)]
  by_cases h : g = f
  · rw [if_pos h]
    simp only [h, true_and]
    rfl
  · rw [if_neg h]
    exact first_zero fun i _ => if_neg fun x => h x.1

theorem offer_II {c : Cfg} {o : Obs} {s g : Nat} (hl : Layout c) (hi : c.iono = true) (ho : ∀ s ∈ o.sat, Num s) (hs : Num s) :
    offer c o g (II c s) = ionOf c o s := by
  refine first_congr fun i hi' => ?_
  obtain ⟨e1, e2⟩ := getD_of (List.mem_range.1 hi')
  have hn := ho _ e2
  rw [e1]
  unfold put
  simp only
  rw [if_neg fun h => (IB_II (f := g) hl hi hn hs).1 h.symm]
  by_cases h : s = o.sat.getD i 0
  · rw [if_pos ⟨hi, by rw [← h]⟩, if_pos (by rw [← h]), ← h]
  · rw [if_neg fun x => h (II_inj hl hi hs hn x.2), if_neg fun x => h (Option.some.inj x).symm]

theorem offer_other {c : Cfg} {o : Obs} {g k : Nat} (ho : ∀ s ∈ o.sat, Num s) (h : ∀ s, Num s → ¬ Own c s g k) :
    offer c o g k = 0 := by
  refine first_zero fun i hi => ?_
  obtain ⟨_, e2⟩ := getD_of (List.mem_range.1 hi)
  have := h _ (ho _ e2)
  unfold put
  simp only
  rw [if_neg fun x => this (Or.inl x), if_neg fun x => this (Or.inr x)]

/-! ## All signals -/

theorem sats_nodup : sats.Nodup := by decide +kernel
theorem sats_mem {s : Nat} : s ∈ sats ↔ Num s := by
  unfold sats Num
  rw [List.mem_map]
  constructor
  · rintro ⟨k, hk, rfl⟩
    have := List.mem_range.1 hk
    unfold nsat at this
    omega
  · rintro ⟨h1, h2⟩
    exact ⟨s - 1, List.mem_range.2 (by unfold nsat; omega), by omega⟩

/-- slot `k` is dropped in the pass of signal `f` -/
def Hit (c : Cfg) (o : Obs) (outc : Nat → Nat → Int) (f k : Nat) : Prop := ∃ s, Num s ∧ Own c s f k ∧ Reset c o outc s f

open Classical in
theorem signal_spec {c : Cfg} {o : Obs} {st st' : St} {f : Nat} (hl : Layout c) (ho : ∀ s ∈ o.sat, Num s)
    (h : signal c o st f = .ok st') :
    (∃ J, Upd (var c) st st' J ∧ ∀ k, J k ↔ (Hit c o st.outc f k ∧ st.x k ≠ 0) ∨
      ((Hit c o st.outc f k ∨ st.x k = 0) ∧ offer c o f k ≠ 0)) ∧
    (∀ k, st'.x k = if Hit c o st.outc f k ∨ st.x k = 0 then offer c o f k else st.x k) ∧
    ∀ t g, st'.outc t g = if Num t ∧ g = f then
      (if Reset c o st.outc t f ∧ st.x (IB c t f) ≠ 0 then 0 else st.outc t f + 1) else st.outc t g := by
  unfold signal at h
  simp only at h
  obtain ⟨r, hr, h⟩ := Py.bind_ok.1 h
  cases h
  obtain ⟨a1, a2, a3, a4⟩ := reset_all (o := o) (f := f) hl sats_nodup (fun s hs => sats_mem.1 hs) (st := st)
  have hrs := rows_spec hr
  have hN : ∀ x ∈ r, Num x.1 := by
    intro x hx
    rw [hrs] at hx
    obtain ⟨i, hi, rfl⟩ := List.mem_map.1 hx
    exact ho _ (getD_of (List.mem_range.1 hi)).2
  obtain ⟨b1, b2⟩ := init_all (f := f) hl hN (st := sats.foldl (resetSat c o f) st)
  have hoff : ∀ k, first (r.map fun x => put c f x k) = offer c o f k := by
    intro k
    rw [hrs, List.map_map]
    rfl
  have hhit : ∀ k, (∃ s ∈ sats, Own c s f k ∧ Reset c o st.outc s f) ↔ Hit c o st.outc f k := by
    intro k
    unfold Hit
    simp only [sats_mem]
  have hx : ∀ k, (sats.foldl (resetSat c o f) st).x k = if Hit c o st.outc f k then 0 else st.x k := by
    intro k
    by_cases hk : Hit c o st.outc f k
    · rw [if_pos hk]
      exact a2 k ((hhit k).2 hk)
    · rw [if_neg hk]
      exact a1.x k fun x => hk ((hhit k).1 x.1)
  refine ⟨⟨_, a1.trans b1, fun k => ?_⟩, fun k => ?_, fun t g => ?_⟩
  · rw [hhit, hoff, hx]
    by_cases hk : Hit c o st.outc f k <;> simp [hk]
  · rw [b2, hoff, hx]
    by_cases hk : Hit c o st.outc f k <;> simp [hk]
  · rw [init_outc]
    by_cases ht : Num t ∧ g = f
    · rw [if_pos ht]
      obtain ⟨ht, rfl⟩ := ht
      obtain ⟨c1, c2⟩ := a4 t (sats_mem.2 ht)
      by_cases hc : Reset c o st.outc t g ∧ st.x (IB c t g) ≠ 0
      · rw [if_pos hc, c1 hc]
      · rw [if_neg hc, c2 hc]
    · rw [if_neg ht]
      exact a3 t g fun x => ht ⟨sats_mem.1 x.1, x.2⟩

theorem hit_IB {c : Cfg} {o : Obs} {outc : Nat → Nat → Int} {s f g : Nat} (hl : Layout c) (hs : Num s) :
    Hit c o outc g (IB c s f) ↔ g = f ∧ Reset c o outc s f := by
  constructor
  · rintro ⟨t, ht, h | h, hr⟩
    · obtain ⟨rfl, rfl⟩ := IB_inj hs ht h
      exact ⟨rfl, hr⟩
    · exact absurd h.2 (IB_II hl h.1 hs ht).1
  · rintro ⟨rfl, hr⟩
    exact ⟨s, hs, Or.inl rfl, hr⟩

theorem hit_II {c : Cfg} {o : Obs} {outc : Nat → Nat → Int} {s g : Nat} (hl : Layout c) (hi : c.iono = true) (hs : Num s) :
    Hit c o outc g (II c s) ↔ Reset c o outc s g := by
  constructor
  · rintro ⟨t, ht, h | h, hr⟩
    · exact absurd h.symm (IB_II hl hi ht hs).1
    · have := II_inj hl hi hs ht h.2
      subst this
      exact hr
  · intro hr
    exact ⟨s, hs, Or.inr ⟨hi, rfl⟩, hr⟩

/-- state after the first `n` signals -/
structure Inv (c : Cfg) (o : Obs) (st0 : St) (n : Nat) (st : St) : Prop where
  upd : ∃ J, Upd (var c) st0 st J ∧
    (∀ s f, Num s → (J (IB c s f) ↔ f < n ∧ ((st0.x (IB c s f) ≠ 0 ∧ Reset c o st0.outc s f) ∨
      (st0.x (IB c s f) = 0 ∧ biasOf c o f s ≠ 0)))) ∧
    (c.iono = true → ∀ s, Num s → (J (II c s) ↔ (st0.x (II c s) ≠ 0 ∧ ∃ f < n, Reset c o st0.outc s f) ∨
      (st0.x (II c s) = 0 ∧ 0 < n ∧ ionOf c o s ≠ 0))) ∧
    ∀ k, J k → ∃ s, Num s ∧ ((∃ f < n, k = IB c s f) ∨ (c.iono = true ∧ k = II c s))
  amb : ∀ s f, Num s → (f < n → (Reset c o st0.outc s f ∨ st0.x (IB c s f) = 0 → st.x (IB c s f) = biasOf c o f s) ∧
    (¬ (Reset c o st0.outc s f ∨ st0.x (IB c s f) = 0) → st.x (IB c s f) = st0.x (IB c s f))) ∧
    (n ≤ f → st.x (IB c s f) = st0.x (IB c s f))
  ion : c.iono = true → ∀ s, Num s →
    ((∃ f < n, Reset c o st0.outc s f) ∨ (0 < n ∧ st0.x (II c s) = 0) → st.x (II c s) = ionOf c o s) ∧
    (¬ ((∃ f < n, Reset c o st0.outc s f) ∨ (0 < n ∧ st0.x (II c s) = 0)) → st.x (II c s) = st0.x (II c s))
  outc : ∀ t g, (Num t ∧ g < n → (Reset c o st0.outc t g ∧ st0.x (IB c t g) ≠ 0 → st.outc t g = 0) ∧
    (¬ (Reset c o st0.outc t g ∧ st0.x (IB c t g) ≠ 0) → st.outc t g = st0.outc t g + 1)) ∧
    (¬ (Num t ∧ g < n) → st.outc t g = st0.outc t g)

theorem inv_zero (c : Cfg) (o : Obs) (st : St) : Inv c o st 0 st := by
  refine ⟨⟨fun _ => False, Upd.refl rfl rfl, ?_, ?_, fun k h => h.elim⟩, ?_, ?_, ?_⟩
  · intro s f _
    exact ⟨False.elim, fun h => absurd h.1 (by omega)⟩
  · intro _ s _
    refine ⟨False.elim, ?_⟩
    rintro (⟨_, f, hf, _⟩ | ⟨_, h, _⟩) <;> omega
  · intro s f _
    exact ⟨fun h => absurd h (by omega), fun _ => rfl⟩
  · intro _ s _
    refine ⟨?_, fun _ => rfl⟩
    rintro (⟨f, hf, _⟩ | ⟨h, _⟩) <;> omega
  · intro t g
    exact ⟨fun h => absurd h.2 (by omega), fun _ => rfl⟩

open Classical in
theorem inv_succ {c : Cfg} {o : Obs} {st0 st st' : St} {n : Nat} (hl : Layout c) (ho : ∀ s ∈ o.sat, Num s)
    (hI : Inv c o st0 n st) (h : signal c o st n = .ok st') : Inv c o st0 (n + 1) st' := by
  obtain ⟨⟨J', u', hJ'⟩, hx, ho'⟩ := signal_spec hl ho h
  obtain ⟨J, u, j1, j2, j3⟩ := hI.upd
  have hr : ∀ s, Reset c o st.outc s n ↔ Reset c o st0.outc s n := fun s =>
    reset_congr ((hI.outc s n).2 fun x => absurd x.2 (by omega))
  have xB : ∀ s f, Num s → st'.x (IB c s f) = if (n = f ∧ Reset c o st0.outc s f) ∨ st.x (IB c s f) = 0 then
      (if n = f then biasOf c o f s else 0) else st.x (IB c s f) := by
    intro s f hs
    rw [hx, offer_IB hl ho hs]
    have e : Hit c o st.outc n (IB c s f) ↔ n = f ∧ Reset c o st0.outc s f := by
      rw [hit_IB hl hs]
      constructor <;> rintro ⟨rfl, h⟩
      · exact ⟨rfl, (hr s).1 h⟩
      · exact ⟨rfl, (hr s).2 h⟩
    simp only [e]
  have jB : ∀ s f, Num s → (J' (IB c s f) ↔ ((n = f ∧ Reset c o st0.outc s f) ∧ st.x (IB c s f) ≠ 0) ∨
      (((n = f ∧ Reset c o st0.outc s f) ∨ st.x (IB c s f) = 0) ∧ (if n = f then biasOf c o f s else 0) ≠ 0)) := by
    intro s f hs
    rw [hJ', offer_IB hl ho hs]
    have e : Hit c o st.outc n (IB c s f) ↔ n = f ∧ Reset c o st0.outc s f := by
      rw [hit_IB hl hs]
      constructor <;> rintro ⟨rfl, h⟩
      · exact ⟨rfl, (hr s).1 h⟩
      · exact ⟨rfl, (hr s).2 h⟩
    rw [e]
  refine ⟨⟨fun k => J k ∨ J' k, u.trans u', ?_, ?_, ?_⟩, ?_, ?_, ?_⟩
  · intro s f hs
    simp only
    rw [j1 s f hs, jB s f hs]
    by_cases hf : n = f
    · subst hf
      rw [((hI.amb s n hs).2 (le_refl _))]
      by_cases h1 : Reset c o st0.outc s n <;> by_cases h2 : st0.x (IB c s n) = 0 <;> by_cases h3 : biasOf c o n s = 0 <;>
        simp [h1, h2, h3]
    · simp only [hf, false_and, if_false, ne_eq, not_true_eq_false, and_false, or_false]
      have : f < n + 1 ↔ f < n := by omega
      rw [this]
  · intro hi s hs
    simp only
    rw [j2 hi s hs, hJ', hit_II hl hi hs, offer_II hl hi ho hs, hr]
    obtain ⟨i1, i2⟩ := hI.ion hi s hs
    have e : (∃ f < n + 1, Reset c o st0.outc s f) ↔ (∃ f < n, Reset c o st0.outc s f) ∨ Reset c o st0.outc s n := by
      constructor
      · rintro ⟨f, hf, hr'⟩
        by_cases hfn : f = n
        · rw [hfn] at hr'; exact Or.inr hr'
        · exact Or.inl ⟨f, by omega, hr'⟩
      · rintro (⟨f, hf, hr'⟩ | hr')
        · exact ⟨f, by omega, hr'⟩
        · exact ⟨n, by omega, hr'⟩
    rw [e]
    by_cases h0 : (∃ f < n, Reset c o st0.outc s f) ∨ (0 < n ∧ st0.x (II c s) = 0)
    · rw [i1 h0]
      by_cases h1 : Reset c o st0.outc s n <;> by_cases h2 : st0.x (II c s) = 0 <;> by_cases h3 : ionOf c o s = 0 <;>
        by_cases h4 : (∃ f < n, Reset c o st0.outc s f) <;> by_cases h5 : 0 < n <;> simp_all
    · rw [i2 h0]
      rw [not_or] at h0
      have hz : ¬ (∃ f < n, Reset c o st0.outc s f) := h0.1
      have hy : ¬ (0 < n ∧ st0.x (II c s) = 0) := h0.2
      by_cases h1 : Reset c o st0.outc s n <;> by_cases h2 : st0.x (II c s) = 0 <;> by_cases h3 : ionOf c o s = 0 <;>
        simp only [hz, h1, h2, h3] <;> simp [h2, h3]
  · rintro k (hk | hk)
    · obtain ⟨s, hs, ⟨f, hf, e⟩ | e⟩ := j3 k hk
      · exact ⟨s, hs, Or.inl ⟨f, by omega, e⟩⟩
      · exact ⟨s, hs, Or.inr e⟩
    · by_contra hc
      have hn : ∀ s, Num s → ¬ Own c s n k := by
        rintro s hs (e | e)
        · exact hc ⟨s, hs, Or.inl ⟨n, by omega, e⟩⟩
        · exact hc ⟨s, hs, Or.inr e⟩
      rw [hJ', offer_other ho hn] at hk
      rcases hk with ⟨⟨s, hs, e, _⟩, _⟩ | ⟨_, h⟩
      · exact hn s hs e
      · exact h rfl
  · intro s f hs
    obtain ⟨a1, a2⟩ := hI.amb s f hs
    constructor
    · intro hf
      rw [xB s f hs]
      by_cases hfn : n = f
      · subst hfn
        rw [a2 (le_refl _)]
        simp only [true_and, if_true]
        exact ⟨fun h => if_pos h, fun h => if_neg h⟩
      · obtain ⟨b1, b2⟩ := a1 (by omega)
        simp only [hfn, false_and, false_or, if_false]
        constructor
        · intro h
          rw [b1 h]
          split_ifs with z
          · exact z.symm
          · rfl
        · intro h
          rw [b2 h]
          split_ifs with z
          · exact z.symm
          · rfl
    · intro hf
      rw [xB s f hs, a2 (by omega)]
      have hfn : ¬ n = f := by omega
      simp only [hfn, false_and, false_or, if_false]
      split_ifs with z
      · exact z.symm
      · rfl
  · intro hi s hs
    obtain ⟨i1, i2⟩ := hI.ion hi s hs
    rw [hx, offer_II hl hi ho hs]
    simp only [hit_II hl hi hs, hr]
    by_cases h0 : (∃ f < n, Reset c o st0.outc s f) ∨ (0 < n ∧ st0.x (II c s) = 0)
    · rw [i1 h0]
      constructor
      · intro _
        split_ifs <;> rfl
      · intro h
        refine absurd ?_ h
        rcases h0 with ⟨f, hf, hr'⟩ | ⟨_, h0⟩
        · exact Or.inl ⟨f, by omega, hr'⟩
        · exact Or.inr ⟨by omega, h0⟩
    · rw [i2 h0]
      constructor
      · rintro (⟨f, hf, hrf⟩ | ⟨_, h⟩)
        · have : f = n := by
            by_contra hc
            exact h0 (Or.inl ⟨f, by omega, hrf⟩)
          subst this
          exact if_pos (Or.inl hrf)
        · exact if_pos (Or.inr h)
      · intro h
        rw [not_or] at h
        refine if_neg ?_
        rintro (h1 | h1)
        · exact h.1 ⟨n, by omega, h1⟩
        · exact h.2 ⟨by omega, h1⟩
  · intro t g
    obtain ⟨o1, o2⟩ := hI.outc t g
    rw [ho' t g]
    constructor
    · rintro ⟨ht, hg⟩
      by_cases hgn : g = n
      · subst hgn
        rw [if_pos ⟨ht, rfl⟩, (hI.amb t g ht).2 (le_refl _), o2 fun x => absurd x.2 (by omega)]
        simp only [hr]
        exact ⟨fun h => if_pos h, fun h => if_neg h⟩
      · rw [if_neg fun x => hgn x.2]
        exact o1 ⟨ht, by omega⟩
    · intro h
      rw [if_neg fun x => h ⟨x.1, by omega⟩]
      exact o2 fun x => h ⟨x.1, by omega⟩

theorem inv_all {c : Cfg} {o : Obs} {st st' : St} (hl : Layout c) (ho : ∀ s ∈ o.sat, Num s)
    (h : udstate c o st = .ok st') : Inv c o (predict c st) c.nf st' :=
  (Post.foldlM_range (I := fun n s => Inv c o (predict c st) n s)
    (fun _ _ _ hI => ⟨fun _ ha => inv_succ hl ho hI ha⟩) (inv_zero c o (predict c st))).out st' h

theorem predict_slot {c : Cfg} {st : St} {k : Nat} (hk : 3 ≤ k) : (predict c st).x k = st.x k := by
  unfold predict
  simp only
  rw [if_neg (by omega)]

theorem slots_ge {c : Cfg} (hl : Layout c) {s : Nat} (hs : Num s) (f : Nat) :
    3 ≤ IB c s f ∧ (c.iono = true → 3 ≤ II c s) :=
  ⟨le_trans hl.na (IB_na hs), fun hi => (IB_II (f := f) hl hi hs hs).2.2.2⟩

/-- **Ambiguities.** An ambiguity that is to be started anew or was not set gets the value of the measurements (0 if there is
none); any other is kept. -/
theorem ambiguities {c : Cfg} {o : Obs} {st st' : St} (hl : Layout c) (ho : ∀ s ∈ o.sat, Num s)
    (h : udstate c o st = .ok st') {s f : Nat} (hs : Num s) (hf : f < c.nf) :
    (Reset c o st.outc s f ∨ st.x (IB c s f) = 0 → st'.x (IB c s f) = biasOf c o f s) ∧
    (¬ (Reset c o st.outc s f ∨ st.x (IB c s f) = 0) → st'.x (IB c s f) = st.x (IB c s f)) := by
  have := ((inv_all hl ho h).amb s f hs).1 hf
  rwa [predict_slot (slots_ge hl hs f).1] at this

/-- **Slant delays.** -/
theorem slants {c : Cfg} {o : Obs} {st st' : St} (hl : Layout c) (ho : ∀ s ∈ o.sat, Num s)
    (h : udstate c o st = .ok st') (hi : c.iono = true) {s : Nat} (hs : Num s) (hn : 0 < c.nf) :
    ((∃ f < c.nf, Reset c o st.outc s f) ∨ st.x (II c s) = 0 → st'.x (II c s) = ionOf c o s) ∧
    (¬ ((∃ f < c.nf, Reset c o st.outc s f) ∨ st.x (II c s) = 0) → st'.x (II c s) = st.x (II c s)) := by
  have := (inv_all hl ho h).ion hi s hs
  rw [predict_slot ((slots_ge hl hs 0).2 hi)] at this
  simp only [hn, true_and, show (predict c st).outc = st.outc from rfl] at this
  exact this

/-- **All other states** are as predicted. -/
theorem others {c : Cfg} {o : Obs} {st st' : St} (hl : Layout c) (ho : ∀ s ∈ o.sat, Num s) (h : udstate c o st = .ok st')
    {k : Nat} (hB : ∀ s f, Num s → f < c.nf → k ≠ IB c s f) (hI : c.iono = true → ∀ s, Num s → k ≠ II c s) :
    st'.x k = (predict c st).x k := by
  obtain ⟨J, u, _, _, j3⟩ := (inv_all hl ho h).upd
  refine u.x k fun hk => ?_
  obtain ⟨s, hs, ⟨f, hf, e⟩ | ⟨hi, e⟩⟩ := j3 k hk
  · exact hB s f hs hf e
  · exact hI hi s hs e

/-- **Outage counters** count up, and start from 0 when an ambiguity is dropped. -/
theorem outages {c : Cfg} {o : Obs} {st st' : St} (hl : Layout c) (ho : ∀ s ∈ o.sat, Num s) (h : udstate c o st = .ok st')
    {s f : Nat} (hs : Num s) (hf : f < c.nf) :
    (Reset c o st.outc s f ∧ st.x (IB c s f) ≠ 0 → st'.outc s f = 0) ∧
    (¬ (Reset c o st.outc s f ∧ st.x (IB c s f) ≠ 0) → st'.outc s f = st.outc s f + 1) := by
  have := ((inv_all hl ho h).outc s f).1 ⟨hs, hf⟩
  rwa [predict_slot (slots_ge hl hs f).1] at this

/-- **Covariances of states started anew** are 0, their variance is the initial one (0 when no value was found); all other
covariances are as predicted. -/
theorem covariances {c : Cfg} {o : Obs} {st st' : St} (hl : Layout c) (ho : ∀ s ∈ o.sat, Num s)
    (h : udstate c o st = .ok st') : ∃ J : Nat → Prop,
    (∀ s f, Num s → f < c.nf → (J (IB c s f) ↔ (st.x (IB c s f) ≠ 0 ∧ Reset c o st.outc s f) ∨
      (st.x (IB c s f) = 0 ∧ biasOf c o f s ≠ 0))) ∧
    (c.iono = true → 0 < c.nf → ∀ s, Num s → (J (II c s) ↔ (st.x (II c s) ≠ 0 ∧ ∃ f < c.nf, Reset c o st.outc s f) ∨
      (st.x (II c s) = 0 ∧ ionOf c o s ≠ 0))) ∧
    (∀ k, J k → ∃ s, Num s ∧ ((∃ f < c.nf, k = IB c s f) ∨ (c.iono = true ∧ k = II c s))) ∧
    (∀ a b, ¬ J a → ¬ J b → st'.P a b = (predict c st).P a b) ∧
    (∀ a b, J a → b ≠ a → st'.P a b = 0 ∧ st'.P b a = 0) ∧
    (∀ s f, Num s → J (IB c s f) → st'.P (IB c s f) (IB c s f) = if st'.x (IB c s f) = 0 then 0 else c.sigN ^ 2) ∧
    (c.iono = true → ∀ s, Num s → J (II c s) → st'.P (II c s) (II c s) = if st'.x (II c s) = 0 then 0 else c.sigI ^ 2) := by
  obtain ⟨J, u, j1, j2, j3⟩ := (inv_all hl ho h).upd
  refine ⟨J, ?_, ?_, j3, u.keep, u.zero, ?_, ?_⟩
  · intro s f hs hf
    rw [j1 s f hs, predict_slot (slots_ge hl hs f).1]
    simp [hf, predict]
  · intro hi hn s hs
    rw [j2 hi s hs, predict_slot ((slots_ge hl hs 0).2 hi)]
    simp [hn, predict]
  · intro s f hs hJ
    rw [u.diag _ hJ, show var c (IB c s f) = c.sigN ^ 2 from if_pos (IB_na hs)]
  · intro hi s hs hJ
    have := (IB_II (f := 0) hl hi hs hs).2.2.1
    rw [u.diag _ hJ, show var c (II c s) = c.sigI ^ 2 from if_neg (by omega)]

/-! ## Consequences -/

theorem ofSat_zero {o : Obs} {s : Nat} {v : Nat → ℚ} (h : ∀ i, o.sat[i]? = some s → v i = 0) : ofSat o s v = 0 := by
  refine first_zero fun i _ => ?_
  split_ifs with c
  · exact h i c
  · rfl

/-- **A flagged satellite** of an observed constellation, in particular one that is out of sight for a single epoch (C87),
loses its ambiguities and its slant delay at once, whatever the permitted outage. -/
theorem flagged {c : Cfg} {o : Obs} {st st' : St} (hl : Layout c) (ho : ∀ s ∈ o.sat, Num s)
    (h : udstate c o st = .ok st') {s f : Nat} (hs : Num s) (hf : f < c.nf) (he : c.edt s = true)
    (hy : (o.sig (sat2prn s).1).isSome = true) :
    st'.x (IB c s f) = 0 ∧ (c.iono = true → st'.x (II c s) = 0) := by
  have hr : ∀ f, Reset c o st.outc s f := fun f => ⟨hy, Or.inr he⟩
  have hskip : ∀ i, Skip c o i s := fun i => Or.inl he
  constructor
  · rw [(ambiguities hl ho h hs hf).1 (Or.inl (hr f))]
    exact ofSat_zero fun i _ => by unfold biasVal; exact if_pos (Or.inl (hskip i))
  · intro hi
    rw [(slants hl ho h hi hs (by omega)).1 (Or.inl ⟨f, hf, hr f⟩)]
    exact ofSat_zero fun i _ => by unfold ionVal; exact if_pos (Or.inl (hskip i))

/-- **Initial values without error.** From ranges `ρ + I (f1/f)²` and phases `(ρ - I (f1/f)²)/λ + N` in which `ρ` is the
distance, `I` the delay at the first frequency and `N` the ambiguity, the values are `I` and `N`. -/
theorem exact_values {c : Cfg} {o : Obs} {f i s : Nat} {rho I N : ℚ} (hd : Dual c) (hs : ¬ Skip c o i s)
    (h1 : frq c o s .C 0 ≠ 0) (h2 : frq c o s .C 1 ≠ 0) (hf : frq c o s .L f ≠ 0)
    (h12 : frq c o s .C 0 ^ 2 ≠ frq c o s .C 1 ^ 2)
    (p1 : o.P i 0 = rho + I) (p2 : o.P i 1 = rho + I * (frq c o s .C 0 / frq c o s .C 1) ^ 2)
    (pf : o.P i f = rho + I * (frq c o s .C 0 / frq c o s .L f) ^ 2)
    (lf : o.L i f = (rho - I * (frq c o s .C 0 / frq c o s .L f) ^ 2) / (299792458 / frq c o s .L f) + N)
    (n1 : o.P i f ≠ 0) (n2 : o.L i f ≠ 0) :
    ionVal c o i s = I ∧ biasVal c o f i s = N := by
  have e : ionVal c o i s = I := by
    unfold ionVal
    rw [if_neg (by rw [not_or, not_not]; exact ⟨hs, hd⟩), p1, p2]
    have : 1 - (frq c o s .C 0 / frq c o s .C 1) ^ 2 ≠ 0 := by
      rw [div_pow, sub_ne_zero]
      intro h
      rw [eq_div_iff (pow_ne_zero 2 h2), one_mul] at h
      exact h12 h.symm
    rw [div_eq_iff this]
    ring
  refine ⟨e, ?_⟩
  unfold biasVal
  simp only
  rw [if_neg (by rw [not_or, not_or]; exact ⟨hs, n2, n1⟩), e, lf, pf]
  field_simp
  ring

theorem mapM_all {α β : Type} {g : α → Py β} : ∀ {l : List α} {r : List β}, l.mapM g = .ok r → ∀ a ∈ l, ∃ b, g a = .ok b
  | [], _, _, a, ha => by simp at ha
  | x :: l, r, h, a, ha => by
    rw [List.mapM_cons] at h
    obtain ⟨y, h1, h⟩ := Py.bind_ok.1 h
    obtain ⟨ys, h2, h⟩ := Py.bind_ok.1 h
    rcases List.mem_cons.1 ha with rfl | ha
    · exact ⟨y, h1⟩
    · exact mapM_all h2 a ha

/-- **GLONASS without channel.** Where slant delays are not estimated, a GLONASS satellite that passed the editing but has no
frequency channel stops the time update. -/
theorem channel_missing {c : Cfg} {o : Obs} {st : St} (hn : 0 < c.nf) (hd : ¬ Dual c) {i s : Nat} (hi : o.sat[i]? = some s)
    (he : c.edt s = false) (hg : (sat2prn s).1 = .glo) (hc : Dict.get? c.gloCh s = none) (st' : St) :
    udstate c o st ≠ .ok st' := by
  intro h
  unfold udstate at h
  obtain ⟨n, hn⟩ : ∃ n, c.nf = n + 1 := ⟨c.nf - 1, by omega⟩
  rw [hn, List.range_succ_eq_map, List.foldlM_cons] at h
  obtain ⟨st1, h, _⟩ := Py.bind_ok.1 h
  unfold signal at h
  simp only at h
  obtain ⟨r, h, _⟩ := Py.bind_ok.1 h
  obtain ⟨b, hb⟩ := mapM_all h i (List.mem_range.2 (List.getElem?_eq_some_iff.1 hi).1)
  obtain ⟨s', h1, hb⟩ := Py.bind_ok.1 hb
  have := (pyGet_some h1).symm.trans hi
  cases this
  obtain ⟨m, h2, _⟩ := Py.bind_ok.1 hb
  unfold meas at h2
  simp only at h2
  rw [if_neg (by rw [he]; decide)] at h2
  obtain ⟨d, h3, h2⟩ := Py.bind_ok.1 h2
  unfold slant at h3
  simp only at h3
  rw [if_neg (show ¬ (1 < c.nf ∧ c.iono = true) from hd)] at h3
  cases h3
  simp only at h2
  obtain ⟨l, _, h2⟩ := Py.bind_ok.1 h2
  obtain ⟨g, _, h2⟩ := Py.bind_ok.1 h2
  rw [if_pos hg] at h2
  obtain ⟨k, hk, _⟩ := Py.bind_ok.1 h2
  obtain ⟨k', hk', _⟩ := Py.bind_ok.1 hk
  rw [Dict.getItem_ok_iff, hc] at hk'
  cases hk'

/-! ## Instances -/

/-- kinematic with zenith and slant delays, two signals; satellite 5 is flagged -/
def cfgE : Cfg :=
  { pmode := 1, tt := 30, nx := 706, na := 240, nq := 240, q := fun _ => 1 / 100, nf := 2, iono := true, maxout := 5,
    sigN := 30, sigI := 10, edt := fun s => s == 5 }
/-- GPS satellite 3 with L1 C/A and L2: distance 20000 km, delay 9 m, ambiguities 7 and -4 cycles; satellite 5 -/
def obsE : Obs where
  sat := [3, 5]
  cols := 2
  P := fun _ f => if f = 0 then 20000000 + 9 else 20000000 + 9 * (1575420000 / 1227600000) ^ 2
  L := fun _ f => if f = 0 then (20000000 - 9) / (299792458 / 1575420000) + 7
    else (20000000 - 9 * (1575420000 / 1227600000) ^ 2) / (299792458 / 1227600000) - 4
  sig := fun y => if y = .gps then some (fun t => some [⟨.gps, t, 103⟩, ⟨.gps, t, 223⟩]) else none
/-- satellite 5 has an ambiguity so far, a satellite of another constellation too -/
def stE : St where
  x := fun k => if k = 0 then 100 else if k = 3 then 2 else if k = 240 + 4 then 11 else if k = 240 + 40 then 12 else 0
  P := fun a b => if a = b then 1 else 0
  outc := fun _ _ => 0

example : Layout cfgE := ⟨by decide, fun _ => by decide⟩
example : ∀ s ∈ obsE.sat, Num s := by unfold Num; decide
/-- position, slant delay, ambiguities of satellites 3, 5 and 41 -/
example : ((udstate cfgE obsE stE).toOption.map fun st => [st.x 0, st.x (II cfgE 3), st.x (IB cfgE 3 0), st.x (IB cfgE 3 1),
    st.x (IB cfgE 5 0), st.x (IB cfgE 41 0), st.P (IB cfgE 3 0) (IB cfgE 3 0), st.P (IB cfgE 3 0) 0]) =
    some [160, 9, 7, -4, 0, 12, 900, 0] := by decide +kernel
example : ((udstate cfgE obsE stE).toOption.map fun st => [st.outc 3 0, st.outc 5 0, st.outc 41 1]) = some [1, 0, 1] := by
  decide +kernel
example : Dual cfgE ∧ ¬ Skip cfgE obsE 0 3 ∧ Reset cfgE obsE stE.outc 5 0 ∧ ¬ Reset cfgE obsE stE.outc 41 0 := by
  refine ⟨by decide, by decide +kernel, ⟨by decide +kernel, Or.inr rfl⟩, ?_⟩
  rintro ⟨h, _⟩
  revert h
  decide +kernel
/-- a covariance to start with -/
example : Psd 706 (fun a b => if a = b then 1 else 0) := by
  refine ⟨fun a _ b _ => ?_, fun v => Finset.sum_nonneg fun a _ => Finset.sum_nonneg fun b _ => ?_⟩
  · by_cases h : a = b
    · subst h; rfl
    · rw [if_neg h, if_neg fun e => h e.symm]
  · split_ifs with h
    · subst h; rw [mul_one]; exact mul_self_nonneg _
    · simp

end Verif.C88
