import Verif.Model.Satposs
import Verif.Lemmas.Post
import Mathlib.Tactic.Ring
import Mathlib.Tactic.Linarith
/-!
# C44  Evaluating satellite positions and the stored corrections
-/

namespace Verif.C44
open Verif.Sp Verif.Sat Verif.Time

/-! ### Specification -/

/-- the orbit correction belongs to the current list of satellites (issue `iodssr`) or to the
previous one, and the satellite is on that list -/
def OrbitListed (cs : Cs) (s : Nat) : Prop :=
  (0 ≤ cs.iodssr ∧ cs.iodOrb = cs.iodssr ∧ s ∈ cs.satN) ∨
  (¬ (0 ≤ cs.iodssr ∧ cs.iodOrb = cs.iodssr) ∧ 0 ≤ cs.iodssrP ∧ cs.iodOrb = cs.iodssrP ∧
    s ∈ cs.satNP)

/-- likewise for the clock; HAS: the mask has not changed since, or the satellite is on the
previous list -/
def ClockListed (cs : Cs) (s : Nat) : Prop :=
  if cs.mode = .hasSis then cs.maskId = cs.maskIdClk ∨ s ∈ cs.satNP
  else (cs.iodClk = cs.iodssr ∧ s ∈ cs.satN) ∨
    (cs.iodClk ≠ cs.iodssr ∧ cs.iodClk = cs.iodssrP ∧ s ∈ cs.satNP)

/-- the orbit correction at an epoch: Cartesian services transmit a rate -/
def orbitAt (cs : Cs) (t : GTime) (s : Nat) : Option N3 :=
  match cs.dorb.get? s with
  | none => none
  | some d =>
    if cs.mode.direct then
      match cs.dvel.get? s, cs.t0Orb.get? s with
      | some w, some t0 => some (d.axpy w (timediff t t0))
      | _, _ => none
    else some d

/-- the clock correction at an epoch -/
def clockAt (cs : Cs) (t : GTime) (s : Nat) : Option Num :=
  if cs.mode = .bds then
    match cs.iodc.get? s, cs.iodcC.get? s, cs.iodcCP.get? s with
    | some o, some c, cp =>
      if o = c then cs.dclk.get? s else if cp = some o then cs.dclkP.get? s else none
    | _, _, _ => none
  else
    match cs.dclk.get? s with
    | none => none
    | some d =>
      let d := if cs.hclkOn then
          match cs.hclk.get? s with
          | some (some h) => Num.add d (some h)
          | _ => d
        else d
      if cs.mode.direct then
        match cs.ddft.get? s, cs.t0Clk.get? s with
        | some r, some t0 => some (Num.add d (Num.mul r (timediff t t0)))
        | _, _ => none
      else some d

/-- corrections are applied: listed, both present and no component missing -/
def Applied (cs : Cs) (t : GTime) (s : Nat) (sys : Sys) (x : Sel) : Prop :=
  OrbitListed cs s ∧ (cs.mode ≠ .bds → ClockListed cs s) ∧
  cs.iode.get? s = some x.iode ∧ cs.navMode.get? sys = some x.mode ∧
  (∃ d, orbitAt cs t s = some d ∧ d.val = some x.dorb) ∧ clockAt cs t s = some (some x.dclk)

/-! ### The gates -/

theorem getItem_some {κ α : Type} [DecidableEq κ] {d : Dict κ α} {k : κ} {a : α}
    (h : Dict.get? d k = some a) : Dict.getItem d k = .ok a := by
  unfold Dict.getItem; rw [h]

theorem getItem_none {κ α : Type} [DecidableEq κ] {d : Dict κ α} {k : κ}
    (h : Dict.get? d k = none) : Dict.getItem d k = .error .keyError := by
  unfold Dict.getItem; rw [h]

theorem orbGate_iff (cs : Cs) (s : Nat) :
    orbGate cs s = true ↔ OrbitListed cs s ∧ ∃ e, cs.iode.get? s = some e := by
  unfold orbGate OrbitListed Dict.mem
  by_cases h1 : cs.iodssr ≥ 0 ∧ cs.iodOrb = cs.iodssr
  · rw [if_pos h1]
    simp only [Bool.and_eq_true, decide_eq_true_eq, Option.isSome_iff_exists]
    have : 0 ≤ cs.iodssr ∧ cs.iodOrb = cs.iodssr := h1
    simp [this]
  · rw [if_neg h1]
    have h1' : ¬ (0 ≤ cs.iodssr ∧ cs.iodOrb = cs.iodssr) := h1
    by_cases h2 : cs.iodssrP ≥ 0 ∧ cs.iodOrb = cs.iodssrP
    · rw [if_pos h2]
      have h2' : 0 ≤ cs.iodssrP ∧ cs.iodOrb = cs.iodssrP := h2
      simp only [Bool.and_eq_true, decide_eq_true_eq, Option.isSome_iff_exists]
      constructor
      · rintro ⟨a, b⟩; exact ⟨.inr ⟨h1', h2'.1, h2'.2, a⟩, b⟩
      · rintro ⟨a | a, b⟩
        · exact absurd ⟨a.1, a.2.1⟩ h1'
        · exact ⟨a.2.2.2, b⟩
    · rw [if_neg h2]
      have h2' : ¬ (0 ≤ cs.iodssrP ∧ cs.iodOrb = cs.iodssrP) := h2
      simp only [Bool.false_and, Bool.false_eq_true, false_iff]
      rintro ⟨a | a, b⟩
      · exact h1' ⟨a.1, a.2.1⟩
      · exact h2' ⟨a.2.1, a.2.2.1⟩

theorem clkGate_iff (cs : Cs) (s : Nat) : clkGate cs s = true ↔ ClockListed cs s := by
  unfold clkGate ClockListed
  split
  · simp
  · by_cases h1 : cs.iodClk = cs.iodssr
    · simp [h1]
    · rw [if_neg h1]
      by_cases h2 : cs.iodClk = cs.iodssrP
      · rw [if_pos h2]; simp only [decide_eq_true_eq]
        constructor
        · intro h; exact .inr ⟨h1, h2, h⟩
        · rintro (⟨a, _⟩ | ⟨_, _, c⟩)
          · exact absurd a h1
          · exact c
      · rw [if_neg h2]
        simp [h1, h2]

/-- the object after the in-place update of satellite `s` -/
def store (cs : Cs) (s : Nat) (d : N3) : Cs := { cs with dorb := cs.dorb.set s d }

theorem dorbStep_ok (cs : Cs) (t : GTime) (s : Nat) (d : N3) (h : orbitAt cs t s = some d) :
    dorbStep cs t s = .ok (if cs.mode.direct then store cs s d else cs, d) := by
  unfold orbitAt at h
  unfold dorbStep
  cases hd : cs.dorb.get? s with
  | none => rw [hd] at h; cases h
  | some d0 =>
    rw [hd] at h
    simp only at h
    rw [getItem_some hd, Py.okBind]
    by_cases hm : cs.mode.direct
    · rw [if_pos hm] at h ⊢
      cases hw : cs.dvel.get? s with
      | none => rw [hw] at h; cases h
      | some w =>
        cases ht : cs.t0Orb.get? s with
        | none => rw [hw, ht] at h; cases h
        | some t0 =>
          rw [hw, ht] at h
          simp only [Option.some.injEq] at h
          rw [getItem_some hw, Py.okBind, getItem_some ht, Py.okBind, if_pos hm, h]
          rfl
    · rw [if_neg hm] at h ⊢
      rw [if_neg hm]
      cases h
      rfl

theorem dorbStep_err (cs : Cs) (t : GTime) (s : Nat) (h : orbitAt cs t s = none) :
    dorbStep cs t s = .error .keyError := by
  unfold orbitAt at h
  unfold dorbStep
  cases hd : cs.dorb.get? s with
  | none => rw [getItem_none hd, Py.errBind]
  | some d0 =>
    rw [hd] at h
    simp only at h
    rw [getItem_some hd, Py.okBind]
    by_cases hm : cs.mode.direct
    · rw [if_pos hm] at h ⊢
      cases hw : cs.dvel.get? s with
      | none => rw [getItem_none hw, Py.errBind]
      | some w =>
        cases ht : cs.t0Orb.get? s with
        | none => rw [getItem_some hw, Py.okBind, getItem_none ht, Py.errBind]
        | some t0 => rw [hw, ht] at h; cases h
    · rw [if_neg hm] at h; cases h

theorem clk_store (poss : Bool) (cs : Cs) (t : GTime) (s s' : Nat) (d : N3) :
    clkStep poss (store cs s' d) t s = clkStep poss cs t s := rfl

theorem clkStep_spec (poss : Bool) (cs : Cs) (t : GTime) (s : Nat) (c : ℚ) :
    clkStep poss cs t s = .ok (some (some c)) ↔
      (cs.mode ≠ .bds → ClockListed cs s) ∧ clockAt cs t s = some (some c) := by
  unfold clkStep clockAt
  by_cases hb : cs.mode = .bds
  · rw [if_pos hb, if_pos hb]
    simp only [hb, ne_eq, not_true, false_implies, true_and]
    unfold clkBds
    cases h1 : cs.iodc.get? s with
    | none => rw [getItem_none h1, Py.errBind]; simp
    | some o =>
      rw [getItem_some h1, Py.okBind]
      cases h2 : cs.iodcC.get? s with
      | none => rw [getItem_none h2, Py.errBind]; simp
      | some c' =>
        rw [getItem_some h2, Py.okBind]
        simp only
        by_cases h3 : o = c'
        · rw [if_pos h3, if_pos h3]
          cases h4 : cs.dclk.get? s with
          | none => rw [getItem_none h4, Py.errBind]; simp
          | some d => rw [getItem_some h4, Py.okBind]; simp [pure, Except.pure]
        · rw [if_neg h3, if_neg h3]
          cases h4 : cs.iodcCP.get? s with
          | none => rw [getItem_none h4, Py.errBind]; simp
          | some cp =>
            rw [getItem_some h4, Py.okBind]
            by_cases h5 : o = cp
            · rw [if_pos h5, if_pos (by rw [h5])]
              cases h6 : cs.dclkP.get? s with
              | none => rw [getItem_none h6, Py.errBind]; simp
              | some d => rw [getItem_some h6, Py.okBind]; simp [pure, Except.pure]
            · rw [if_neg h5, if_neg (by simpa using fun e => h5 e.symm)]
              simp [pure, Except.pure]
  · rw [if_neg hb, if_neg hb]
    simp only [ne_eq, hb, not_false_eq_true, true_implies]
    unfold clkOther
    rw [← clkGate_iff]
    cases hg : clkGate cs s with
    | false => simp
    | true =>
      simp only [Bool.true_eq_false, if_false, true_and]
      cases h1 : cs.dclk.get? s with
      | none => cases poss <;> simp
      | some d =>
        simp only
        rw [show (if cs.hclkOn = true then
            (match cs.hclk.get? s with | some (some h) => Num.add d (some h) | _ => d) else d) =
          addHclk cs s d from rfl]
        generalize addHclk cs s d = d'
        unfold addRate
        by_cases hm : cs.mode.direct
        · rw [if_pos hm, if_pos hm]
          cases h2 : cs.ddft.get? s with
          | none => rw [getItem_none h2, Py.errBind, Py.errBind]; simp
          | some r =>
            cases h3 : cs.t0Clk.get? s with
            | none => rw [getItem_some h2, Py.okBind, getItem_none h3, Py.errBind, Py.errBind]; simp
            | some t0 =>
              rw [getItem_some h2, Py.okBind, getItem_some h3, Py.okBind]
              simp [pure, Except.pure, bind, Except.bind]
        · rw [if_neg hm, if_neg hm]
          simp [pure, Except.pure, bind, Except.bind]

/-- the correction object is left as it was, or with the updated orbit correction -/
theorem select_state (poss : Bool) (cs : Cs) (t : GTime) (s : Nat) (sys : Sys) :
    (select poss cs t s sys).1 =
      if orbGate cs s = true ∧ cs.mode.direct then
        (match orbitAt cs t s with | some d => store cs s d | none => cs)
      else cs := by
  unfold select
  cases hg : orbGate cs s with
  | false => simp
  | true =>
    simp only [Bool.true_eq_false, if_false, true_and]
    cases ho : orbitAt cs t s with
    | none =>
      rw [dorbStep_err cs t s ho]
      simp
    | some d =>
      rw [dorbStep_ok cs t s d ho]
      simp only
      by_cases hm : cs.mode.direct
      · simp only [if_pos hm]
        split <;> rfl
      · simp only [if_neg hm]
        split <;> rfl

/-- **Gates**: corrections are applied to a satellite exactly when orbit and clock corrections
belong to lists containing it and are complete; and then these are the values applied. -/
theorem gates (poss : Bool) (cs : Cs) (t : GTime) (s : Nat) (sys : Sys) (x : Sel) :
    (select poss cs t s sys).2 = .ok (some x) ↔ Applied cs t s sys x := by
  unfold select Applied
  cases hg : orbGate cs s with
  | false =>
    simp only [if_true, Except.ok.injEq, reduceCtorEq, false_iff]
    rintro ⟨h1, _, h3, _⟩
    have := (orbGate_iff cs s).2 ⟨h1, _, h3⟩
    rw [hg] at this; cases this
  | true =>
    obtain ⟨hl, e, he⟩ := (orbGate_iff cs s).1 hg
    simp only [Bool.true_eq_false, if_false, hl, true_and, he]
    cases ho : orbitAt cs t s with
    | none => rw [dorbStep_err cs t s ho]; simp
    | some d =>
      rw [dorbStep_ok cs t s d ho]
      simp only
      have hclk : clkStep poss (if cs.mode.direct then store cs s d else cs) t s =
          clkStep poss cs t s := by
        split <;> rfl
      have hpick : ∀ c, pick (if cs.mode.direct then store cs s d else cs) s sys d c =
          pick cs s sys d c := by
        intro c; split <;> rfl
      rw [hclk]
      have hsp := clkStep_spec poss cs t s
      cases hc : clkStep poss cs t s with
      | error err =>
        rw [hc] at hsp
        simp only [reduceCtorEq, false_iff] at hsp ⊢
        rintro ⟨h2, _, _, _, h6⟩
        exact hsp x.dclk ⟨h2, h6⟩
      | ok c =>
        rw [hc] at hsp
        simp only [Except.ok.injEq] at hsp ⊢
        rw [hpick]
        unfold pick
        rcases c with _ | _ | c
        · simp only [Except.ok.injEq, reduceCtorEq, false_iff]
          rintro ⟨h2, _, _, _, h6⟩
          exact absurd ((hsp x.dclk).2 ⟨h2, h6⟩) (by simp)
        · simp only [Except.ok.injEq, reduceCtorEq, false_iff]
          rintro ⟨h2, _, _, _, h6⟩
          exact absurd ((hsp x.dclk).2 ⟨h2, h6⟩) (by simp)
        · obtain ⟨h2, h6⟩ := (hsp c).1 rfl
          simp only [he]
          cases hv : d.val with
          | none =>
            simp only [Except.ok.injEq, reduceCtorEq, false_iff]
            rintro ⟨_, _, _, ⟨d', hd, hv'⟩, _⟩
            cases hd
            rw [hv] at hv'; cases hv'
          | some v =>
            simp only
            cases hn : cs.navMode.get? sys with
            | none => simp
            | some m =>
              simp only [Except.ok.injEq, Option.some.injEq, h6]
              constructor
              · rintro rfl
                exact ⟨h2, rfl, rfl, ⟨d, rfl, hv⟩, rfl⟩
              · rintro ⟨_, a, b, ⟨d', hd, hv'⟩, c'⟩
                cases hd
                rw [hv] at hv'
                cases hv'
                cases x
                simp only at a b c'
                subst a b
                simp_all

/-! ### What evaluation leaves behind -/

/-- satellites that are evaluated: their constellation has signals and their orbit correction is
listed and present -/
def Evaluated (o : Obs) (cs : Cs) (s : Nat) : Prop :=
  s ∈ o.sats.map (·.1) ∧ (sat2prn (s : Nat)).1 ∈ o.keys ∧ OrbitListed cs s ∧
    ∃ e, cs.iode.get? s = some e

/-- objects that differ at most in the orbit corrections -/
def SameBut (cs cs' : Cs) : Prop := cs' = { cs with dorb := cs'.dorb }

theorem sameBut_refl (cs : Cs) : SameBut cs cs := rfl

theorem sameBut_trans {a b c : Cs} (h : SameBut a b) (h' : SameBut b c) : SameBut a c := by
  unfold SameBut at *
  rw [h'] ; rw [h]

theorem sameBut_gate {a b : Cs} (h : SameBut a b) (s : Nat) : orbGate b s = orbGate a s := by
  unfold SameBut at h
  rw [h]; rfl

theorem possOne_state (env : Env) (o : Obs) (cs : Cs) (sp : Nat × ℚ) :
    (possOne env o cs sp).1 = if (sat2prn (sp.1 : Nat)).1 ∈ o.keys then
      (select true cs o.t sp.1 (sat2prn (sp.1 : Nat)).1).1 else cs := by
  unfold possOne
  by_cases hk : (sat2prn (sp.1 : Nat)).1 ∈ o.keys
  · rw [if_pos hk, if_neg (by simpa using hk)]
    simp only
    rcases hs : select true cs o.t sp.1 (sat2prn (sp.1 : Nat)).1 with ⟨cs', e | _ | x⟩
    · rfl
    · rfl
    · simp only
      cases env.find (timeadd o.t (-sp.2 / clight)) sp.1 x.iode x.mode with
      | none => rfl
      | some e =>
        simp only
        split
        · rfl
        · split <;> rfl
  · rw [if_neg hk, if_pos hk]

theorem possOne_err (env : Env) (o : Obs) (cs : Cs) (sp : Nat × ℚ) (r : Option Res)
    (h : (possOne env o cs sp).2 = .ok r) (hk : (sat2prn (sp.1 : Nat)).1 ∈ o.keys) :
    ∃ q, (select true cs o.t sp.1 (sat2prn (sp.1 : Nat)).1).2 = .ok q := by
  unfold possOne at h
  rw [if_neg (by simpa using hk)] at h
  simp only at h
  rcases hs : select true cs o.t sp.1 (sat2prn (sp.1 : Nat)).1 with ⟨cs', e | q⟩
  · rw [hs] at h; cases h
  · exact ⟨q, rfl⟩

theorem select_orbit (cs : Cs) (t : GTime) (s : Nat) (sys : Sys) (q : Option Sel)
    (h : (select true cs t s sys).2 = .ok q) (hg : orbGate cs s = true) :
    ∃ d, orbitAt cs t s = some d := by
  unfold select at h
  rw [if_neg (by simp [hg])] at h
  cases ho : orbitAt cs t s with
  | none => rw [dorbStep_err cs t s ho] at h; cases h
  | some d => exact ⟨d, rfl⟩

theorem orbitAt_frame {a b : Cs} (h : SameBut a b) (t : GTime) (s : Nat)
    (hd : b.dorb.get? s = a.dorb.get? s) : orbitAt b t s = orbitAt a t s := by
  unfold SameBut at h
  unfold orbitAt
  rw [hd]
  rw [h]

theorem loop_state (env : Env) (o : Obs) (l : List (Nat × ℚ)) (cs : Cs)
    (hnd : (l.map (·.1)).Nodup) :
    SameBut cs (satpossLoop env o l cs).1 ∧
    (¬ cs.mode.direct → (satpossLoop env o l cs).1 = cs) ∧
    ∀ rs, (satpossLoop env o l cs).2 = .ok rs → ∀ s,
      (satpossLoop env o l cs).1.dorb.get? s =
        if cs.mode.direct ∧ s ∈ l.map (·.1) ∧ (sat2prn (s : Nat)).1 ∈ o.keys ∧ orbGate cs s = true
        then orbitAt cs o.t s else cs.dorb.get? s := by
  induction l generalizing cs with
  | nil =>
    refine ⟨sameBut_refl _, fun _ => rfl, ?_⟩
    intro rs _ s
    simp [satpossLoop]
  | cons sp l ih =>
    rw [List.map_cons, List.nodup_cons] at hnd
    have hst := possOne_state env o cs sp
    have hsame : SameBut cs (possOne env o cs sp).1 := by
      rw [hst]
      split
      · rw [select_state]
        split
        · split <;> rfl
        · rfl
      · rfl
    have hkeep : ¬ cs.mode.direct → (possOne env o cs sp).1 = cs := by
      intro hm
      rw [hst]
      split
      · rw [select_state, if_neg (fun e => hm e.2)]
      · rfl
    unfold satpossLoop
    rcases hp : possOne env o cs sp with ⟨cs', e | r⟩
    · rw [hp] at hsame hkeep
      exact ⟨hsame, hkeep, fun rs h => by cases h⟩
    · rw [hp] at hsame hkeep hst
      simp only at hsame hkeep hst ⊢
      obtain ⟨i1, i2, i3⟩ := ih cs' hnd.2
      have hmode : cs'.mode = cs.mode := by unfold SameBut at hsame; rw [hsame]
      rw [hmode] at i2 i3
      have hd1 : ∀ s, cs'.dorb.get? s = if cs.mode.direct ∧ s = sp.1 ∧
          (sat2prn (s : Nat)).1 ∈ o.keys ∧ orbGate cs s = true then orbitAt cs o.t s
          else cs.dorb.get? s := by
        intro s
        rw [hst]
        by_cases hk : (sat2prn (sp.1 : Nat)).1 ∈ o.keys
        · rw [if_pos hk, select_state]
          by_cases hc : orbGate cs sp.1 = true ∧ cs.mode.direct
          · rw [if_pos hc]
            obtain ⟨q, hq⟩ := possOne_err env o cs sp r (by rw [hp]) hk
            obtain ⟨d, hd⟩ := select_orbit cs o.t sp.1 _ q hq hc.1
            rw [hd]
            simp only [store]
            rw [Dict.get?_set]
            by_cases hs : s = sp.1
            · subst hs
              rw [if_pos rfl, if_pos ⟨hc.2, rfl, hk, hc.1⟩, hd]
            · rw [if_neg hs, if_neg (fun e => hs e.2.1)]
          · rw [if_neg hc, if_neg]
            rintro ⟨a, rfl, _, b⟩
            exact hc ⟨b, a⟩
        · rw [if_neg hk, if_neg]
          rintro ⟨_, rfl, b, _⟩
          exact hk b
      rcases hl : satpossLoop env o l cs' with ⟨cs'', e | rs'⟩
      · rw [hl] at i1 i2
        refine ⟨sameBut_trans hsame i1, fun hm => ?_, fun rs h => by cases h⟩
        simp only at i2 ⊢
        rw [i2 hm, hkeep hm]
      · rw [hl] at i1 i2 i3
        refine ⟨sameBut_trans hsame i1, fun hm => ?_, ?_⟩
        · simp only at i2 ⊢
          rw [i2 hm, hkeep hm]
        · intro rs _ s
          have := i3 rs' rfl s
          refine this.trans ?_
          rw [sameBut_gate hsame]
          by_cases hs : s = sp.1
          · subst hs
            rw [if_neg (fun e => hnd.1 e.2.1), hd1]
            simp
          · have hd : cs'.dorb.get? s = cs.dorb.get? s := by
              rw [hd1, if_neg (fun e => hs e.2.1)]
            rw [orbitAt_frame hsame o.t s hd, hd]
            have hmem : s ∈ (sp :: l).map (·.1) ↔ s ∈ l.map (·.1) := by
              rw [List.map_cons, List.mem_cons]; exact or_iff_right hs
            by_cases hc : cs.mode.direct ∧ s ∈ l.map (·.1) ∧ (sat2prn (s : Nat)).1 ∈ o.keys ∧
                orbGate cs s = true
            · rw [if_pos hc, if_pos ⟨hc.1, hmem.2 hc.2.1, hc.2.2⟩]
            · rw [if_neg hc, if_neg (fun e => hc ⟨e.1, hmem.1 e.2.1, e.2.2⟩)]

/-- **Services with radial/along/cross corrections**: evaluation leaves the correction object as
it was, so repeating it gives the same result. -/
theorem unchanged (env : Env) (o : Obs) (cs : Cs) (hm : ¬ cs.mode.direct)
    (hnd : (o.sats.map (·.1)).Nodup) :
    (satposs env o cs).1 = cs ∧ satposs env o (satposs env o cs).1 = satposs env o cs := by
  have h := (loop_state env o o.sats cs hnd).2.1 hm
  have h' : (satposs env o cs).1 = cs := h
  rw [h']
  exact ⟨rfl, rfl⟩

/-- the same for the single-satellite function -/
theorem unchanged_satpos (env : Env) (cs : Cs) (t : GTime) (s : Nat) (hm : ¬ cs.mode.direct) :
    (satpos env cs t s).1 = cs := by
  have h := select_state false cs t s (sat2prn (s : Nat)).1
  rw [if_neg (fun e => hm e.2)] at h
  unfold satpos
  simp only
  rcases hs : select false cs t s (sat2prn (s : Nat)).1 with ⟨cs', e | _ | x⟩
  · rw [hs] at h; exact h
  · rw [hs] at h; exact h
  · rw [hs] at h
    simp only at h ⊢
    cases env.find t s x.iode x.mode <;> exact h

/-- **Cartesian services** (PVS, SBAS L1/L5): evaluation changes nothing but the orbit
corrections; a successful one replaces the correction of every evaluated satellite by its value at
the epoch, keeping the rate and its reference time. -/
theorem overwritten (env : Env) (o : Obs) (cs : Cs) (hm : cs.mode.direct)
    (hnd : (o.sats.map (·.1)).Nodup) :
    SameBut cs (satposs env o cs).1 ∧
    ∀ rs, (satposs env o cs).2 = .ok rs → ∀ s,
      (Evaluated o cs s → (satposs env o cs).1.dorb.get? s = orbitAt cs o.t s) ∧
      (¬ Evaluated o cs s → (satposs env o cs).1.dorb.get? s = cs.dorb.get? s) := by
  obtain ⟨h1, _, h3⟩ := loop_state env o o.sats cs hnd
  refine ⟨h1, fun rs hr s => ?_⟩
  have := h3 rs hr s
  have hiff : Evaluated o cs s ↔ cs.mode.direct ∧ s ∈ o.sats.map (·.1) ∧
      (sat2prn (s : Nat)).1 ∈ o.keys ∧ orbGate cs s = true := by
    unfold Evaluated
    rw [orbGate_iff]
    exact ⟨fun h => ⟨hm, h⟩, fun h => h.2⟩
  constructor
  · intro he
    exact this.trans (if_pos (hiff.1 he))
  · intro he
    exact this.trans (if_neg (fun e => he (hiff.2 e)))

/-- a series of evaluations that all succeed -/
def Series (env : Env) : List Obs → Cs → Cs → Prop
  | [], a, b => a = b
  | o :: os, a, b => (o.sats.map (·.1)).Nodup ∧ (∃ rs, (satposs env o a).2 = .ok rs) ∧
      Series env os (satposs env o a).1 b

theorem axpy_axpy (a b : N3) (x y : ℚ) : (a.axpy b x).axpy b y = a.axpy b (x + y) := by
  obtain ⟨a1, a2, a3⟩ := a
  obtain ⟨b1, b2, b3⟩ := b
  have : ∀ a b : Num, Num.add (Num.add a (Num.mul b x)) (Num.mul b y) =
      Num.add a (Num.mul b (x + y)) := by
    intro a b
    cases a <;> cases b <;> simp [Num.add, Num.mul]
    ring
  simp only [N3.axpy, this]

theorem evaluated_frame {o : Obs} {a b : Cs} (h : SameBut a b) (s : Nat) (he : Evaluated o a s) :
    Evaluated o b s := by
  unfold SameBut at h
  rw [h]
  exact he

/-- one successful evaluation in a Cartesian service -/
theorem one_step (env : Env) (o : Obs) (cs : Cs) (hm : cs.mode.direct)
    (hnd : (o.sats.map (·.1)).Nodup) (rs : List (Option Res)) (hr : (satposs env o cs).2 = .ok rs)
    (s : Nat) (d w : N3) (t0 : GTime) (hd : cs.dorb.get? s = some d)
    (hw : cs.dvel.get? s = some w) (ht : cs.t0Orb.get? s = some t0) (he : Evaluated o cs s) :
    (satposs env o cs).1.dorb.get? s = some (d.axpy w (timediff o.t t0)) := by
  rw [((overwritten env o cs hm hnd).2 rs hr s).1 he]
  unfold orbitAt
  rw [hd]
  simp only
  rw [if_pos hm, hw, ht]

theorem accumulates_from (env : Env) (os : List Obs) (cs cs' : Cs) (hm : cs.mode.direct) (s : Nat)
    (d w : N3) (x : ℚ) (t0 : GTime) (hd : cs.dorb.get? s = some (d.axpy w x))
    (hw : cs.dvel.get? s = some w)
    (ht : cs.t0Orb.get? s = some t0) (hs : Series env os cs cs')
    (he : ∀ o ∈ os, Evaluated o cs s) :
    SameBut cs cs' ∧
    cs'.dorb.get? s = some (d.axpy w (x + (os.map fun o => timediff o.t t0).sum)) := by
  induction os generalizing cs x with
  | nil =>
    have hcs : cs = cs' := hs
    subst hcs
    refine ⟨sameBut_refl _, ?_⟩
    rw [hd]; simp
  | cons o os ih =>
    obtain ⟨hnd, ⟨rs, hr⟩, hrest⟩ := hs
    have h1 := one_step env o cs hm hnd rs hr s _ w t0 hd hw ht (he o (by simp))
    rw [axpy_axpy] at h1
    have hsame := (overwritten env o cs hm hnd).1
    have e1 : (satposs env o cs).1.mode = cs.mode := by unfold SameBut at hsame; rw [hsame]
    have e2 : (satposs env o cs).1.dvel = cs.dvel := by unfold SameBut at hsame; rw [hsame]
    have e3 : (satposs env o cs).1.t0Orb = cs.t0Orb := by unfold SameBut at hsame; rw [hsame]
    obtain ⟨g1, g2⟩ := ih (satposs env o cs).1 (by rw [e1]; exact hm) _ h1 (by rw [e2]; exact hw)
      (by rw [e3]; exact ht) hrest
      (fun o' ho' => evaluated_frame hsame s (he o' (by simp [ho'])))
    refine ⟨sameBut_trans hsame g1, ?_⟩
    rw [g2, List.map_cons, List.sum_cons, add_assoc]

/-- **Accumulation**: in a Cartesian service every evaluation of a satellite adds rate times age
once more: after evaluations at epochs `t1 … tk` the stored correction is the transmitted one plus
the rate times the *sum* of the ages. -/
theorem accumulates (env : Env) (o : Obs) (os : List Obs) (cs cs' : Cs) (hm : cs.mode.direct)
    (s : Nat) (d w : N3) (t0 : GTime) (hd : cs.dorb.get? s = some d)
    (hw : cs.dvel.get? s = some w)
    (ht : cs.t0Orb.get? s = some t0) (hs : Series env (o :: os) cs cs')
    (he : ∀ q ∈ o :: os, Evaluated q cs s) :
    SameBut cs cs' ∧
    cs'.dorb.get? s = some (d.axpy w (((o :: os).map fun o => timediff o.t t0).sum)) := by
  obtain ⟨hnd, ⟨rs, hr⟩, hrest⟩ := hs
  have h1 := one_step env o cs hm hnd rs hr s d w t0 hd hw ht (he o (by simp))
  have hsame := (overwritten env o cs hm hnd).1
  have e1 : (satposs env o cs).1.mode = cs.mode := by unfold SameBut at hsame; rw [hsame]
  have e2 : (satposs env o cs).1.dvel = cs.dvel := by unfold SameBut at hsame; rw [hsame]
  have e3 : (satposs env o cs).1.t0Orb = cs.t0Orb := by unfold SameBut at hsame; rw [hsame]
  obtain ⟨g1, g2⟩ := accumulates_from env os (satposs env o cs).1 cs' (by rw [e1]; exact hm) s
    d w _ t0 h1 (by rw [e2]; exact hw) (by rw [e3]; exact ht) hrest
    (fun o' ho' => evaluated_frame hsame s (he o' (by simp [ho'])))
  exact ⟨sameBut_trans hsame g1, by rw [g2, List.map_cons, List.sum_cons]⟩

/-- **The correction applied after earlier evaluations**: with no component missing, the orbit
correction applied at epoch `t` exceeds the transmitted one by the rate times the age at `t` plus
the ages of all earlier evaluations; it is the right one exactly when the rate vanishes or those
ages add up to zero. -/
theorem applied_after (env : Env) (os : List Obs) (cs cs' : Cs) (hm : cs.mode.direct) (s : Nat)
    (d w : V3) (t0 t : GTime) (sys : Sys) (x : Sel)
    (hd : cs.dorb.get? s = some ⟨some d.1, some d.2.1, some d.2.2⟩)
    (hw : cs.dvel.get? s = some ⟨some w.1, some w.2.1, some w.2.2⟩)
    (ht : cs.t0Orb.get? s = some t0) (hs : Series env os cs cs')
    (he : ∀ o ∈ os, Evaluated o cs s) (hx : (select true cs' t s sys).2 = .ok (some x)) :
    let a := (os.map fun o => timediff o.t t0).sum
    x.dorb = ⟨d.1 + w.1 * (a + timediff t t0), d.2.1 + w.2.1 * (a + timediff t t0),
        d.2.2 + w.2.2 * (a + timediff t t0)⟩ ∧
    (x.dorb = ⟨d.1 + w.1 * timediff t t0, d.2.1 + w.2.1 * timediff t t0,
        d.2.2 + w.2.2 * timediff t t0⟩ ↔ w = (0, 0, 0) ∨ a = 0) := by
  intro a
  have h0 : cs.dorb.get? s = some (N3.axpy (some d.1, some d.2.1, some d.2.2)
      (some w.1, some w.2.1, some w.2.2) 0) := by
    rw [hd]; simp [N3.axpy, Num.add, Num.mul]
  obtain ⟨hsame, hfin⟩ := accumulates_from env os cs cs' hm s _ _ 0 t0 h0 hw ht hs he
  have e1 : cs'.mode = cs.mode := by unfold SameBut at hsame; rw [hsame]
  have e2 : cs'.dvel = cs.dvel := by unfold SameBut at hsame; rw [hsame]
  have e3 : cs'.t0Orb = cs.t0Orb := by unfold SameBut at hsame; rw [hsame]
  obtain ⟨_, _, _, _, ⟨d', hd', hv⟩, _⟩ := (gates _ cs' t s sys x).1 hx
  unfold orbitAt at hd'
  rw [hfin] at hd'
  simp only at hd'
  rw [if_pos (by rw [e1]; exact hm), e2, hw, e3, ht] at hd'
  simp only [Option.some.injEq] at hd'
  rw [axpy_axpy] at hd'
  subst hd'
  have hval : x.dorb = ⟨d.1 + w.1 * (a + timediff t t0), d.2.1 + w.2.1 * (a + timediff t t0),
      d.2.2 + w.2.2 * (a + timediff t t0)⟩ := by
    simp only [N3.axpy, Num.add, Num.mul, N3.val, Option.map_some, zero_add] at hv
    exact (Option.some.inj hv).symm
  refine ⟨hval, ?_⟩
  rw [hval]
  simp only [Prod.mk.injEq]
  obtain ⟨wx, wy, wz⟩ := w
  simp only [Prod.mk.injEq]
  have key : ∀ u v : ℚ, u + v * (a + timediff t t0) = u + v * timediff t t0 ↔ v = 0 ∨ a = 0 := by
    intro u v
    rw [add_right_inj, mul_add, add_eq_right, mul_eq_zero]
  rw [key, key, key]
  tauto

/-- services that transmit Cartesian corrections with rates -/
def cartesian : Mode → Bool
  | .pvs | .sbasL1 | .sbasL5 => true
  | _ => false

/-- **Cartesian services** are the Australian/New Zealand PPP service and SBAS on L1 and L5. -/
theorem cartesian_iff (m : Mode) : m.direct ↔ cartesian m = true := by
  unfold Mode.direct
  cases m <;> decide

/-- position, velocity and clock of a satellite from its ephemeris (position `p`, velocity `v`,
clock `c`, group delay `g`) and the corrections `x`; `axes` turns radial, along-track and
cross-track components of corrections into Cartesian ones -/
def corrected (m : Mode) (sys : Sys) (axes : V3 → V3) (p v : V3) (c g : ℚ) (x : Sel) : Res :=
  let d := if cartesian m then x.dorb else axes x.dorb
  ((p.1 - d.1, p.2.1 - d.2.1, p.2.2 - d.2.2), v,
    c + x.dclk / 299792458 - if sys = .gps ∧ (cartesian m = true ∨ m = .dgps) then g else 0)

theorem apply_eq (env : Env) (poss : Bool) (m : Mode) (sys : Sys) (t : GTime) (e : env.Eph) (x : Sel) :
    Sp.apply env poss m sys t e x = corrected m sys (env.frame (m = .bds) (env.pos poss t e).1 (env.pos poss t e).2.1)
      (env.pos poss t e).1 (env.pos poss t e).2.1 (env.pos poss t e).2.2 (env.tgd e) x := by
  unfold Sp.apply corrected
  simp only [cartesian_iff]
  have h : ∀ c : Prop, ∀ [Decidable c] [Decidable (sys = .gps)], (if c ∧ sys = .gps then (env.pos poss t e).2.2 + x.dclk / clight - env.tgd e
      else (env.pos poss t e).2.2 + x.dclk / clight) =
      (env.pos poss t e).2.2 + x.dclk / 299792458 - if sys = .gps ∧ c then env.tgd e else 0 := by
    intro c _ _
    by_cases hc : c
    · by_cases hs : sys = .gps
      · rw [if_pos ⟨hc, hs⟩, if_pos ⟨hs, hc⟩]; rfl
      · rw [if_neg (fun h => hs h.2), if_neg (fun h => hs h.1), sub_zero]; rfl
    · rw [if_neg (fun h => hc h.1), if_neg (fun h => hc h.2), sub_zero]; rfl
  rw [h]
  rfl

/-- **The result**: a satellite gets a position only if corrections apply and its ephemeris with
the issue named by the corrections is found; the position is that of the ephemeris at the time of
transmission less the orbit correction, the clock that of the ephemeris plus the clock correction
(less the group delay for GPS in the Cartesian services and DGPS). -/
theorem position (env : Env) (o : Obs) (cs : Cs) (sp : Nat × ℚ) (r : Res)
    (h : (possOne env o cs sp).2 = .ok (some r)) :
    ∃ x e tt, Applied cs o.t sp.1 (sat2prn (sp.1 : Nat)).1 x ∧
      env.find (timeadd o.t (-sp.2 / clight)) sp.1 x.iode x.mode = some e ∧
      tt = timeadd (timeadd o.t (-sp.2 / clight)) (-env.clk (timeadd o.t (-sp.2 / clight)) e) ∧
      r = corrected cs.mode (sat2prn (sp.1 : Nat)).1 (env.frame (cs.mode = .bds) (env.pos true tt e).1 (env.pos true tt e).2.1)
        (env.pos true tt e).1 (env.pos true tt e).2.1 (env.pos true tt e).2.2 (env.tgd e) x := by
  have hkm : SameBut cs (possOne env o cs sp).1 := by
    rw [possOne_state]
    split
    · rw [select_state]
      split
      · split <;> rfl
      · rfl
    · rfl
  unfold possOne at h hkm
  by_cases hk : (sat2prn (sp.1 : Nat)).1 ∈ o.keys
  swap
  · rw [if_pos hk] at h; cases h
  rw [if_neg (not_not.2 hk)] at h hkm
  simp only at h hkm
  have hg := gates true cs o.t sp.1 (sat2prn (sp.1 : Nat)).1
  rcases hs : select true cs o.t sp.1 (sat2prn (sp.1 : Nat)).1 with ⟨cs', er | _ | x⟩
  · rw [hs] at h; cases h
  · rw [hs] at h; cases h
  · rw [hs] at h hg hkm
    simp only at h hkm
    cases hf : env.find (timeadd o.t (-sp.2 / clight)) sp.1 x.iode x.mode with
    | none => rw [hf] at h; cases h
    | some e =>
      rw [hf] at h hkm
      simp only at h hkm
      by_cases h1 : Dict.mem cs'.t0Orb sp.1 = false
      · rw [if_pos h1] at h; cases h
      rw [if_neg h1] at h hkm
      by_cases h2 : sp.1 ≥ 233
      · rw [if_pos h2] at h; cases h
      rw [if_neg h2] at h hkm
      simp only [Except.ok.injEq, Option.some.injEq] at h hkm
      have hmode : cs'.mode = cs.mode := by unfold SameBut at hkm; rw [hkm]
      refine ⟨x, e, _, (hg x).1 rfl, hf, rfl, ?_⟩
      rw [← h, hmode]
      exact apply_eq ..

/-- **The same for the single-satellite function**: at the given time, and with the ephemeris
evaluated without the relativistic term. -/
theorem position_satpos (env : Env) (cs : Cs) (t : GTime) (s : Nat) (r : Res) :
    (satpos env cs t s).2 = .ok (some r) ↔
    ∃ x e, Applied cs t s (sat2prn (s : Nat)).1 x ∧ env.find t s x.iode x.mode = some e ∧
      r = corrected cs.mode (sat2prn (s : Nat)).1 (env.frame (cs.mode = .bds) (env.pos false t e).1 (env.pos false t e).2.1)
        (env.pos false t e).1 (env.pos false t e).2.1 (env.pos false t e).2.2 (env.tgd e) x := by
  have hg := gates false cs t s (sat2prn (s : Nat)).1
  have hst := select_state false cs t s (sat2prn (s : Nat)).1
  unfold satpos
  simp only
  rcases hs : select false cs t s (sat2prn (s : Nat)).1 with ⟨cs', er | _ | x⟩
  · rw [hs] at hg
    simp only [reduceCtorEq, false_iff] at hg ⊢
    rintro ⟨x, e, ha, _⟩
    exact hg x ha
  · rw [hs] at hg
    simp only [Except.ok.injEq, reduceCtorEq, false_iff] at hg ⊢
    rintro ⟨x, e, ha, _⟩
    exact hg x ha
  · rw [hs] at hg hst
    simp only [Except.ok.injEq, Option.some.injEq] at hg hst
    have hmode : cs'.mode = cs.mode := by
      rw [hst]
      split
      · split <;> rfl
      · rfl
    simp only
    cases hf : env.find t s x.iode x.mode with
    | none =>
      simp only [Except.ok.injEq, reduceCtorEq, false_iff]
      rintro ⟨x', e, ha, hf', _⟩
      obtain rfl := (hg x').2 ha
      rw [hf] at hf'; cases hf'
    | some e =>
      simp only [Except.ok.injEq, Option.some.injEq]
      rw [hmode, apply_eq]
      constructor
      · intro h
        exact ⟨x, e, (hg x).1 rfl, hf, h.symm⟩
      · rintro ⟨x', e', ha, hf', hr⟩
        obtain rfl := (hg x').2 ha
        rw [hf] at hf'
        obtain rfl := Option.some.inj hf'
        exact hr.symm

/-! ### A concrete case: the Australian/New Zealand PPP service, GPS 3, evaluated twice -/

def demoT (k : Int) : GTime := ⟨k, 0⟩

def demo : Cs where
  mode := .pvs
  iodssr := 2
  iodssrP := 1
  iodOrb := 2
  iodClk := 2
  satN := [3, 5]
  satNP := [3]
  iode := [(3, 40)]
  dorb := [(3, (some 1, some 2, some 3))]
  dvel := [(3, (some (1/100), some 0, some 0))]
  t0Orb := [(3, demoT 1000)]
  t0Clk := [(3, demoT 1000)]
  iodc := []
  iodcC := []
  iodcCP := []
  dclk := [(3, some 7)]
  dclkP := []
  ddft := [(3, some 0)]
  hclkOn := false
  hclk := []
  maskId := 0
  maskIdClk := 0
  navMode := [(.gps, 0)]

def demoEnv : Env where
  Eph := Unit
  find := fun _ _ i _ => if i = 40 then some () else none
  clk := fun _ _ => 0
  pos := fun _ _ _ => ((100, 200, 300), (0, 0, 0), 0)
  tgd := fun _ => 0
  frame := fun _ _ _ d => d

def demoObs (k : Int) : Obs := ⟨demoT k, [(3, 20000000)], [.gps]⟩

/-- the x coordinate after one and after two evaluations at an age of 100 s -/
example :
    ((satposs demoEnv (demoObs 1100) demo).2.toOption.map (·.map (·.map (·.1.1)))) =
      some [some 98] ∧
    ((satposs demoEnv (demoObs 1100) (satposs demoEnv (demoObs 1100) demo).1).2.toOption.map
      (·.map (·.map (·.1.1)))) = some [some 97] := by
  constructor <;> decide +kernel

example : Evaluated (demoObs 1100) demo 3 := by
  refine ⟨by decide, by decide +kernel, ?_, 40, rfl⟩
  exact .inl ⟨by decide, rfl, by decide⟩

example : Series demoEnv [demoObs 1100, demoObs 1200] demo
    (satposs demoEnv (demoObs 1200) (satposs demoEnv (demoObs 1100) demo).1).1 := by
  have hok : ∀ p : Cs × Py (List (Option Res)), p.2.toOption.isSome = true →
      ∃ rs, p.2 = .ok rs := by
    rintro ⟨c, e | rs⟩ h
    · cases h
    · exact ⟨rs, rfl⟩
  exact ⟨by decide, hok _ (by decide +kernel), by decide, hok _ (by decide +kernel), rfl⟩

example : ((select true demo (demoT 1100) 3 .gps).2.toOption == some (some ⟨40, (2, 2, 3), 7, 0⟩)) =
    true := by decide +kernel

end Verif.C44
