import Verif.Model.Csmooth
import Mathlib.Tactic.Linarith
import Mathlib.Tactic.Ring
import Mathlib.Tactic.FieldSimp
import Mathlib.Algebra.BigOperators.Group.List.Basic
/-!
# C50  Carrier smoothing
-/

namespace Verif.C50
open Verif.Cs Verif.Time

/-! ### Specification

Histories are lists of calls, the most recent first. -/

/-- a usable measurement -/
def Valid (c : Call) : Prop := c.P ≠ 0 ∧ c.L ≠ 0

instance (c : Call) : Decidable (Valid c) := by unfold Valid; infer_instance

/-- code minus carrier -/
def cmc (c : Call) : ℚ := c.P - c.L

/-- the smoothed code-minus-carrier of a run of measurements: each new one enters with weight
1 over their number, but at least `1/ns` -/
def off (ns : Nat) : List Call → ℚ
  | [] => 0
  | c :: r => let a : ℚ := 1 / (min (r.length + 1) ns : Nat)
    a * cmc c + (1 - a) * off ns r

/-- the run of measurements in use after the calls `h` of one satellite: it is empty after a
missing measurement, and starts afresh when it was empty, after a gap and when code and carrier
disagree by `cs` or more -/
def active (o : Par) : List Call → List Call
  | [] => []
  | c :: h =>
    if ¬ Valid c then []
    else
      match active o h with
      | [] => [c]
      | p :: r =>
        if timediff c.t p.t > o.dt then [c]
        else if |cmc c - off o.ns (p :: r)| < o.cs then c :: p :: r
        else [c]

/-- the value of the most recent call of `h`, when it does not raise -/
def value (o : Par) (h : List Call) : ℚ :=
  match h with
  | [] => 0
  | c :: _ => if Valid c then c.L + off o.ns (active o h) else c.P

/-- the calls of one satellite -/
def of (s : Nat) (h : List Call) : List Call := h.filter fun c => c.sat = s

/-! ### The implementation -/

/-- invariant: what the dictionaries hold for satellite `s` after its calls `h` -/
def Inv (o : Par) (st : St) (s : Nat) (h : List Call) : Prop :=
  if h = [] then st.cnt.get? s = none ∧ st.t0.get? s = none
  else if ∃ c, h.getLast? = some c ∧ ¬ Valid c then
    st.cnt.get? s = some 1 ∧ st.t0.get? s = none
  else
    ∃ n t p l, st.cnt.get? s = some n ∧ st.t0.get? s = some t ∧ st.ps.get? s = some p ∧
      st.lp.get? s = some l ∧
      match active o h with
      | [] => n = 1
      | c :: r => n = min (r.length + 2) o.ns ∧ t = c.t ∧ l = c.L ∧ p = c.L + off o.ns (c :: r)

theorem finish_ok (o : Par) (st : St) (c : Call) (n : Nat) (p : ℚ)
    (hn : st.cnt.get? c.sat = some n) (hp : st.ps.get? c.sat = some p) :
    finish o st c = ({ st with cnt := st.cnt.set c.sat (min (n + 1) o.ns)
                               lp := st.lp.set c.sat c.L
                               t0 := st.t0.set c.sat c.t }, .ok p) := by
  unfold finish
  rw [hn, hp]

/-- a restart -/
theorem smooth_one (o : Par) (st : St) (c : Call) (hn : st.cnt.get? c.sat = some 1) :
    smooth o st c = ({ cnt := st.cnt.set c.sat (min 2 o.ns)
                       lp := st.lp.set c.sat c.L
                       ps := st.ps.set c.sat c.P
                       t0 := st.t0.set c.sat c.t }, .ok c.P) := by
  unfold smooth
  rw [hn]
  simp only [if_true]
  rw [finish_ok o _ c 1 c.P (by simpa using hn) (by simp)]

theorem off_one (ns : Nat) (hns : 1 ≤ ns) (c : Call) : off ns [c] = cmc c := by
  have : min (([] : List Call).length + 1) ns = 1 := by simp; omega
  simp only [off, this]
  simp

theorem frame_finish (o : Par) (st : St) (c : Call) (s : Nat) (h : s ≠ c.sat) :
    (finish o st c).1.cnt.get? s = st.cnt.get? s ∧ (finish o st c).1.t0.get? s = st.t0.get? s ∧
    (finish o st c).1.ps.get? s = st.ps.get? s ∧ (finish o st c).1.lp.get? s = st.lp.get? s := by
  unfold finish
  split
  · simp [Dict.get?_set_ne _ _ h]
  · simp

theorem frame_ps (st : St) (c : Call) (s : Nat) (h : s ≠ c.sat) {st' : St} (p : ℚ)
    (hf : st'.cnt.get? s = ({ st with ps := st.ps.set c.sat p } : St).cnt.get? s ∧
      st'.t0.get? s = ({ st with ps := st.ps.set c.sat p } : St).t0.get? s ∧
      st'.ps.get? s = ({ st with ps := st.ps.set c.sat p } : St).ps.get? s ∧
      st'.lp.get? s = ({ st with ps := st.ps.set c.sat p } : St).lp.get? s) :
    st'.cnt.get? s = st.cnt.get? s ∧ st'.t0.get? s = st.t0.get? s ∧
      st'.ps.get? s = st.ps.get? s ∧ st'.lp.get? s = st.lp.get? s := by
  obtain ⟨a, b, d, e⟩ := hf
  exact ⟨a, b, by rw [d]; exact Dict.get?_set_ne _ _ h, e⟩

theorem frame_smooth (o : Par) (st : St) (c : Call) (s : Nat) (h : s ≠ c.sat) :
    (smooth o st c).1.cnt.get? s = st.cnt.get? s ∧ (smooth o st c).1.t0.get? s = st.t0.get? s ∧
    (smooth o st c).1.ps.get? s = st.ps.get? s ∧ (smooth o st c).1.lp.get? s = st.lp.get? s := by
  unfold smooth
  split
  · simp
  · split
    · have := frame_finish o { st with ps := st.ps.set c.sat c.P } c s h
      simpa [Dict.get?_set_ne _ _ h] using this
    · split
      · simp only
        split
        · split
          · simp
          · exact frame_ps st c s h _ (frame_finish o _ c s h)
        · obtain ⟨a, b, d, e⟩ := frame_finish o
            { st with cnt := st.cnt.set c.sat 1, ps := st.ps.set c.sat c.P } c s h
          exact ⟨by rw [a]; exact Dict.get?_set_ne _ _ h, b,
            by rw [d]; exact Dict.get?_set_ne _ _ h, e⟩
      · simp

theorem frame (o : Par) (st : St) (c : Call) (s : Nat) (h : s ≠ c.sat) :
    (csmooth o st c).1.cnt.get? s = st.cnt.get? s ∧ (csmooth o st c).1.t0.get? s = st.t0.get? s ∧
    (csmooth o st c).1.ps.get? s = st.ps.get? s ∧ (csmooth o st c).1.lp.get? s = st.lp.get? s := by
  have h1 : ∀ n, (Dict.set st.cnt c.sat n).get? s = st.cnt.get? s :=
    fun n => Dict.get?_set_ne _ _ h
  unfold csmooth
  split
  · simp [h1]
  · split
    · have := frame_smooth o { st with cnt := st.cnt.set c.sat 1 } c s h
      simpa [h1] using this
    · split
      · simp
      · split
        · have := frame_smooth o { st with cnt := st.cnt.set c.sat 1 } c s h
          simpa [h1] using this
        · exact frame_smooth o st c s h

theorem inv_other (o : Par) (st st' : St) (s : Nat) (h : List Call)
    (h1 : st'.cnt.get? s = st.cnt.get? s ∧ st'.t0.get? s = st.t0.get? s ∧
      st'.ps.get? s = st.ps.get? s ∧ st'.lp.get? s = st.lp.get? s) (hi : Inv o st s h) :
    Inv o st' s h := by
  obtain ⟨a, b, c, d⟩ := h1
  unfold Inv at *
  rw [a, b, c, d]
  exact hi

theorem getLast_cons_ne (c : Call) (h : List Call) (hne : h ≠ []) :
    (c :: h).getLast? = h.getLast? := by
  cases h with
  | nil => exact absurd rfl hne
  | cons d h => simp [List.getLast?_cons]

/-- one call of satellite `s` -/
theorem step (o : Par) (hns : 1 ≤ o.ns) (st : St) (c : Call) (h : List Call)
    (hi : Inv o st c.sat h) :
    Inv o (csmooth o st c).1 c.sat (c :: h) ∧
    (csmooth o st c).2 =
      if Valid c ∧ ∃ d, (c :: h).getLast? = some d ∧ ¬ Valid d then .error .keyError
      else .ok (value o (c :: h)) := by
  by_cases hv : Valid c
  · have hv' : ¬ (c.P = 0 ∨ c.L = 0) := by
      rintro (e | e)
      · exact hv.1 e
      · exact hv.2 e
    have restart : ∀ st1 : St, st1.cnt.get? c.sat = some 1 → active o (c :: h) = [c] →
        (¬ ∃ d, (c :: h).getLast? = some d ∧ ¬ Valid d) →
        Inv o (smooth o st1 c).1 c.sat (c :: h) ∧
          (smooth o st1 c).2 = .ok (value o (c :: h)) := by
      intro st1 h1 ha hl
      rw [smooth_one o st1 c h1]
      constructor
      · unfold Inv
        rw [if_neg (by simp), if_neg hl]
        refine ⟨_, _, _, _, Dict.get?_set_self _ _ _, Dict.get?_set_self _ _ _,
          Dict.get?_set_self _ _ _, Dict.get?_set_self _ _ _, ?_⟩
        rw [ha]
        simp only [List.length_nil, Nat.zero_add, true_and]
        rw [off_one o.ns hns]
        unfold cmc; ring
      · simp only [value, if_pos hv, ha, off_one o.ns hns, cmc]
        congr 1; ring
    unfold csmooth
    rw [if_neg hv']
    unfold Inv at hi
    by_cases hne : h = []
    · subst hne
      rw [if_pos rfl] at hi
      have hl : ¬ ∃ d, [c].getLast? = some d ∧ ¬ Valid d := by
        rintro ⟨d, e, hd⟩
        simp at e
        subst e
        exact hd hv
      rw [if_pos (by simp [Dict.mem, hi.1]), if_neg (by rintro ⟨_, e⟩; exact hl e)]
      exact restart _ (by simp) (by simp [active, hv]) hl
    · rw [if_neg hne] at hi
      have hlast := getLast_cons_ne c h hne
      by_cases hbad : ∃ d, h.getLast? = some d ∧ ¬ Valid d
      · rw [if_pos hbad] at hi
        rw [if_neg (by simp [Dict.mem, hi.1]), hi.2]
        rw [hlast, if_pos ⟨hv, hbad⟩]
        refine ⟨?_, rfl⟩
        unfold Inv
        rw [if_neg (by simp), hlast, if_pos hbad]
        exact hi
      · rw [if_neg hbad] at hi
        obtain ⟨n, t, p, l, e1, e2, e3, e4, e5⟩ := hi
        have hl : ¬ ∃ d, (c :: h).getLast? = some d ∧ ¬ Valid d := by rw [hlast]; exact hbad
        rw [if_neg (by simp [Dict.mem, e1]), e2, if_neg (by rintro ⟨_, e⟩; exact hl e)]
        simp only
        cases hact : active o h with
        | nil =>
          rw [hact] at e5
          simp only at e5
          subst e5
          have ha : active o (c :: h) = [c] := by simp [active, hv, hact]
          split
          · exact restart _ (by simp) ha hl
          · exact restart _ e1 ha hl
        | cons q r =>
          rw [hact] at e5
          obtain ⟨f1, f2, f3, f4⟩ := e5
          subst f2 f3 f4
          by_cases hgap : timediff c.t q.t > o.dt
          · rw [if_pos hgap]
            exact restart _ (by simp) (by
              simp only [active, hv, hact, not_true, if_false]
              rw [if_pos hgap]) hl
          · rw [if_neg hgap]
            by_cases hn1 : n = 1
            · -- only with `ns = 1`
              subst hn1
              have hns1 : o.ns = 1 := by omega
              have hs := smooth_one o st c e1
              rw [hs]
              have hoff : ∀ r : List Call, off o.ns (c :: r) = cmc c := by
                intro r
                simp only [off, hns1]
                have : min (r.length + 1) 1 = 1 := by omega
                rw [this]; simp
              have hact' : ∃ r', active o (c :: h) = c :: r' := by
                simp only [active, hv, hact, not_true, if_false]
                rw [if_neg hgap]
                split
                · exact ⟨_, rfl⟩
                · exact ⟨_, rfl⟩
              obtain ⟨r', ha⟩ := hact'
              constructor
              · unfold Inv
                rw [if_neg (by simp), if_neg hl]
                refine ⟨_, _, _, _, Dict.get?_set_self _ _ _, Dict.get?_set_self _ _ _,
                  Dict.get?_set_self _ _ _, Dict.get?_set_self _ _ _, ?_⟩
                rw [ha]
                simp only [true_and, hoff]
                refine ⟨by omega, by unfold cmc; ring⟩
              · simp only [value, if_pos hv, ha, hoff, cmc]
                congr 1; ring
            · have hpp : q.L + off o.ns (q :: r) + (c.L - q.L) = c.L + off o.ns (q :: r) := by ring
              have hdiff : c.P - (c.L + off o.ns (q :: r)) = cmc c - off o.ns (q :: r) := by
                unfold cmc; ring
              unfold smooth
              rw [e1]
              simp only
              rw [if_neg hn1, e3, e4]
              simp only
              rw [hpp, hdiff]
              by_cases hslip : |cmc c - off o.ns (q :: r)| < o.cs
              · rw [if_pos hslip]
                have ha : active o (c :: h) = c :: q :: r := by
                  simp only [active, hv, hact, not_true, if_false]
                  rw [if_neg hgap, if_pos hslip]
                rw [if_neg (show ¬ n = 0 by omega)]
                rw [finish_ok o _ c n _ (by simpa using e1) (Dict.get?_set_self _ _ _)]
                have hval : (1 / (n : ℚ)) * c.P + (1 - 1 / (n : ℚ)) * (c.L + off o.ns (q :: r)) =
                    c.L + off o.ns (c :: q :: r) := by
                  have : min ((q :: r).length + 1) o.ns = n := by
                    rw [List.length_cons]; omega
                  rw [show off o.ns (c :: q :: r) = (1 / ((min ((q :: r).length + 1) o.ns : Nat) : ℚ)) *
                    cmc c + (1 - 1 / ((min ((q :: r).length + 1) o.ns : Nat) : ℚ)) *
                      off o.ns (q :: r) from rfl, this]
                  unfold cmc; ring
                constructor
                · unfold Inv
                  rw [if_neg (by simp), if_neg hl]
                  refine ⟨_, _, _, _, Dict.get?_set_self _ _ _, Dict.get?_set_self _ _ _,
                    Dict.get?_set_self _ _ _, Dict.get?_set_self _ _ _, ?_⟩
                  rw [ha]
                  simp only [true_and, List.length_cons]
                  exact ⟨by omega, hval⟩
                · simp only [value, if_pos hv, ha]
                  rw [hval]
              · rw [if_neg hslip]
                have ha : active o (c :: h) = [c] := by
                  simp only [active, hv, hact, not_true, if_false]
                  rw [if_neg hgap, if_neg hslip]
                rw [finish_ok o _ c 1 c.P (Dict.get?_set_self _ _ _) (Dict.get?_set_self _ _ _)]
                constructor
                · unfold Inv
                  rw [if_neg (by simp), if_neg hl]
                  refine ⟨_, _, _, _, Dict.get?_set_self _ _ _, Dict.get?_set_self _ _ _,
                    Dict.get?_set_self _ _ _, Dict.get?_set_self _ _ _, ?_⟩
                  rw [ha]
                  simp only [true_and, List.length_nil]
                  rw [off_one o.ns hns]
                  unfold cmc; ring
                · simp only [value, if_pos hv, ha, off_one o.ns hns, cmc]
                  congr 1; ring
  · have hv' : c.P = 0 ∨ c.L = 0 := by
      unfold Valid at hv
      by_contra hc
      push Not at hc
      exact hv hc
    unfold csmooth
    rw [if_pos hv', if_neg (fun e => hv e.1)]
    refine ⟨?_, by simp [value, hv]⟩
    unfold Inv
    rw [if_neg (by simp)]
    unfold Inv at hi
    by_cases hne : h = []
    · subst hne
      rw [if_pos rfl] at hi
      rw [if_pos ⟨c, by simp, hv⟩]
      exact ⟨Dict.get?_set_self _ _ _, hi.2⟩
    · rw [if_neg hne] at hi
      rw [getLast_cons_ne c h hne]
      by_cases hbad : ∃ d, h.getLast? = some d ∧ ¬ Valid d
      · rw [if_pos hbad] at hi ⊢
        exact ⟨Dict.get?_set_self _ _ _, hi.2⟩
      · rw [if_neg hbad] at hi ⊢
        obtain ⟨n, t, p, l, e1, e2, e3, e4, e5⟩ := hi
        refine ⟨1, t, p, l, Dict.get?_set_self _ _ _, e2, e3, e4, ?_⟩
        simp [active, hv]

theorem run_inv (o : Par) (hns : 1 ≤ o.ns) (h : List Call) (s : Nat) :
    Inv o (run o h).1 s (of s h) := by
  induction h with
  | nil => simp [Inv, run, of]
  | cons c h ih =>
    simp only [run]
    by_cases hs : c.sat = s
    · have e : of s (c :: h) = c :: of s h := by simp [of, hs]
      rw [e]
      subst hs
      exact (step o hns _ c _ ih).1
    · have e : of s (c :: h) = of s h := by simp [of, hs]
      rw [e]
      exact inv_other o _ _ s _ (frame o _ c s (fun e => hs e.symm)) ih

/-! ### Theorems -/

/-- **Result of every call**: whatever the history of calls of any satellites, a call raises
`KeyError` exactly when its measurement is valid and the very first measurement of the satellite
was not; otherwise the result depends only on the calls of this satellite and is the specified
value: the code when it is missing or the phase is, else the phase plus the smoothed
code-minus-carrier of the current run. -/
theorem result (o : Par) (hns : 1 ≤ o.ns) (h : List Call) (c : Call) :
    (csmooth o (run o h).1 c).2 =
      if Valid c ∧ ∃ d, (of c.sat (c :: h)).getLast? = some d ∧ ¬ Valid d then .error .keyError
      else .ok (value o (of c.sat (c :: h))) := by
  have := (step o hns _ c _ (run_inv o hns h c.sat)).2
  have e : of c.sat (c :: h) = c :: of c.sat h := by simp [of]
  rw [e]
  exact this

/-- a satellite whose first measurement was incomplete is never smoothed again: every later
complete measurement raises -/
theorem never_recovers (o : Par) (hns : 1 ≤ o.ns) (h : List Call) (c d : Call)
    (hd : (of c.sat h).getLast? = some d) (hbad : ¬ Valid d) (hc : Valid c) :
    (csmooth o (run o h).1 c).2 = .error .keyError := by
  rw [result o hns h c, if_pos]
  refine ⟨hc, d, ?_, hbad⟩
  have e : of c.sat (c :: h) = c :: of c.sat h := by simp [of]
  rw [e, getLast_cons_ne]
  · exact hd
  · intro e; rw [e] at hd; cases hd

/-- **Average**: as long as a run has no more than `ns` measurements, the smoothed
code-minus-carrier is their plain average. -/
theorem average (ns : Nat) (r : List Call) (hr : r.length ≤ ns) (hne : r ≠ []) :
    off ns r = (r.map cmc).sum / r.length := by
  induction r with
  | nil => exact absurd rfl hne
  | cons c r ih =>
    simp only [List.length_cons] at hr
    cases r with
    | nil => rw [off_one ns (by simpa using hr)]; simp
    | cons d r =>
      have ih' := ih (by omega) (by simp)
      have hm : min ((d :: r).length + 1) ns = (d :: r).length + 1 := by omega
      rw [show off ns (c :: d :: r) = (1 / ((min ((d :: r).length + 1) ns : Nat) : ℚ)) * cmc c +
        (1 - 1 / ((min ((d :: r).length + 1) ns : Nat) : ℚ)) * off ns (d :: r) from rfl, hm, ih',
        List.map_cons (a := c), List.sum_cons, List.length_cons (a := c)]
      have hpos : (0 : ℚ) < ((d :: r).length : Nat) := by
        exact_mod_cast (show 0 < (d :: r).length by simp)
      have hpos' : ((((d :: r).length + 1 : Nat)) : ℚ) = ((d :: r).length : Nat) + 1 := by push_cast; ring
      rw [hpos']
      generalize (((d :: r).length : Nat) : ℚ) = k at *
      generalize ((d :: r).map cmc).sum = z at *
      have : k + 1 ≠ 0 := by linarith
      field_simp
      ring

/-- **Convexity**: the smoothed value lies between any bounds of the code-minus-carrier values of
its run, whatever its length. -/
theorem bounded (ns : Nat) (hns : 1 ≤ ns) (r : List Call) (hne : r ≠ []) (lo hi : ℚ)
    (hb : ∀ c ∈ r, lo ≤ cmc c ∧ cmc c ≤ hi) : lo ≤ off ns r ∧ off ns r ≤ hi := by
  induction r with
  | nil => exact absurd rfl hne
  | cons c r ih =>
    cases r with
    | nil => rw [off_one ns hns]; exact hb c (by simp)
    | cons d r =>
      obtain ⟨h1, h2⟩ := ih (by simp) (fun x hx => hb x (by simp [hx]))
      obtain ⟨h3, h4⟩ := hb c (by simp)
      rw [show off ns (c :: d :: r) = (1 / ((min ((d :: r).length + 1) ns : Nat) : ℚ)) * cmc c +
        (1 - 1 / ((min ((d :: r).length + 1) ns : Nat) : ℚ)) * off ns (d :: r) from rfl]
      have hm : 1 ≤ min ((d :: r).length + 1) ns := by omega
      generalize min ((d :: r).length + 1) ns = k at *
      have hk : (1 : ℚ) ≤ (k : ℚ) := by exact_mod_cast hm
      have ha : 0 < 1 / (k : ℚ) := by positivity
      have ha1 : 1 / (k : ℚ) ≤ 1 := by
        rw [div_le_one (by linarith)]; exact hk
      generalize 1 / (k : ℚ) = a at *
      constructor <;> nlinarith

/-- the run consists of the latest calls: it is an initial segment of the history with only valid
measurements -/
theorem active_prefix (o : Par) (h : List Call) : active o h <+: h ∧ ∀ c ∈ active o h, Valid c := by
  induction h with
  | nil => simp [active]
  | cons c h ih =>
    simp only [active]
    by_cases hv : Valid c
    · rw [if_neg (by simp [hv])]
      cases ha : active o h with
      | nil => simp [hv]
      | cons q r =>
        rw [ha] at ih
        simp only
        split
        · simp [hv]
        · split
          · refine ⟨?_, ?_⟩
            · obtain ⟨t, ht⟩ := ih.1
              exact ⟨t, by rw [← ht]; rfl⟩
            · intro x hx
              rcases List.mem_cons.1 hx with rfl | hx
              · exact hv
              · exact ih.2 x hx
          · simp [hv]
    · rw [if_pos hv]; simp

/-! ### Cases -/

def m (t : Int) (s : Nat) (P L : ℚ) : Call := ⟨⟨t, 0⟩, s, P, L⟩

/-- averaging of two, a restart by a slip of 30 m, another satellite in between -/
example : (run {} [m 3 1 40 9, m 2 1 13 9, m 1 2 7 7, m 1 1 10 8, m 0 2 5 4]).2.map
    Except.toOption = [some 40, some (9 + 3), some (7 + 1/2), some 10, some 5] := by decide +kernel

/-- a satellite first seen without phase: every later measurement raises -/
example : (run {} [m 2 1 10 9, m 1 1 10 8, m 0 1 5 0]).2.map Except.toOption =
    [none, none, some 5] := by decide +kernel

end Verif.C50
