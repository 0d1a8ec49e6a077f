import Verif.Model.Zdres
import Verif.Props.C87
import Verif.Props.C88
import Mathlib.Tactic.Ring
import Mathlib.Tactic.Linarith
/-!
# C91 Signal biases and undifferenced residuals

Specification: the bias each measurement is corrected by, as a function of the stored corrections alone; when a satellite is
left out; the residual.
-/

namespace Verif.C91
open Verif.Sat Verif.Sig Verif.Zd
open Verif.Ud (need freq)
open Verif.C88 (freq_spec need_ok pyGet_some)

/-! ## Specification -/

/-- the signal of the same band with attribute X -/
def anyX (g : Sig) : Sig := ⟨g.sys, g.typ, g.sig.tdiv 100 * 100 + 24⟩

/-- a range or phase with known band and attribute -/
structure Valid (t : Typ) (g : Sig) : Prop where
  typ : g.typ = t
  sig : g.sig ∈ uSIG
  pos : 0 < g.sig
  sys : g.sys ≠ .none

def IsHas (mode : Nat) : Prop := mode = 2 ∨ mode = 3
instance (mode : Nat) : Decidable (IsHas mode) := by unfold IsHas; infer_instance

/-- the bias of a signal: that of GPS L2P for L2W of HAS; else of the signal itself; else of the band with attribute X; else 0
(`none` is NaN) -/
def biasOf (mode : Nat) (tab : Tab) (s : Nat) (g : Sig) : Option ℚ :=
  match tab.bind fun d => Dict.get? d s with
  | none => some 0
  | some d =>
    let p := Dict.get? d ⟨.gps, g.typ, 216⟩
    if IsHas mode ∧ g.sys = .gps ∧ g.sig = 223 ∧ p.isSome = true then p.getD none
    else ((Dict.get? d g).or (Dict.get? d (anyX g))).getD (some 0)

def tab (lc : Lc) (t : Typ) : Tab := if t = .C then lc.cb else lc.pb
def on (lc : Lc) (t : Typ) : Bool := if t = .C then lc.cOn else lc.pOn

/-- the total bias of the corrections: global plus network, with the sign of the service -/
def total (cs : Cs) (inet : Int) (s : Nat) (g : Sig) : Option ℚ :=
  let part := fun n => if on (cs.lc n) g.typ then biasOf cs.mode (tab (cs.lc n) g.typ) s g else some 0
  let net := if 0 < inet then part inet.toNat else some 0
  let sum := (part 0).bind fun a => net.map fun b => a + b
  if cs.mode = 0 ∨ cs.mode = 4 ∨ cs.mode = 7 then sum.map fun a => -a else sum

/-! ## Signals -/

theorem toAtt_table : ∀ m ∈ [Sys.gps, .gal, .qzs, .glo, .bds, .sbs, .irn], ∀ t ∈ [Typ.C, .L], ∀ n ∈ uSIG, 0 < n →
    (if m = .sbs ∧ n.tdiv 100 = 1 then (toAtt ⟨m, t, n⟩ ['X']).toOption = none
     else (toAtt ⟨m, t, n⟩ ['X']).toOption = some ⟨m, t, n.tdiv 100 * 100 + 24⟩) := by decide +kernel

theorem toAtt_spec {t : Typ} {g : Sig} (ht : t = .C ∨ t = .L) (hg : Valid t g) {x : Sig} (h : toAtt g ['X'] = .ok x) :
    x = anyX g := by
  obtain ⟨m, ty, n⟩ := g
  obtain ⟨h1, h2, h3, h4⟩ := hg
  simp only at h1 h2 h3 h4
  subst h1
  have := toAtt_table m (by cases m <;> simp_all) ty (by simpa using ht) n h2 h3
  rw [h] at this
  split_ifs at this
  · cases this
  · unfold anyX
    simpa [Except.toOption] using this

theorem toAtt_total {t : Typ} {g : Sig} (ht : t = .C ∨ t = .L) (hg : Valid t g) (hs : ¬ (g.sys = .sbs ∧ g.sig.tdiv 100 = 1)) :
    toAtt g ['X'] = .ok (anyX g) := by
  obtain ⟨m, ty, n⟩ := g
  obtain ⟨h1, h2, h3, h4⟩ := hg
  simp only at h1 h2 h3 h4 hs
  subst h1
  have := toAtt_table m (by cases m <;> simp_all) ty (by simpa using ht) n h2 h3
  rw [if_neg hs] at this
  unfold anyX
  simp only
  generalize toAtt ⟨m, ty, n⟩ ['X'] = r at this ⊢
  cases r with
  | error e => cases this
  | ok x => simp only [Except.toOption, Option.some.injEq] at this; rw [this]

theorem anyX_ne (g : Sig) (t : Typ) : anyX g ≠ g2W t := by
  unfold anyX g2W
  intro h
  simp only [Sig.mk.injEq] at h
  have := h.2.2
  generalize g.sig.tdiv 100 = q at this
  omega

/-! ## One table -/

/-- the bias of a signal among those of a satellite -/
def pick (mode : Nat) (d : Dict Sig (Option ℚ)) (g : Sig) : Option ℚ :=
  if IsHas mode ∧ g.sys = .gps ∧ g.sig = 223 ∧ (Dict.get? d ⟨.gps, g.typ, 216⟩).isSome = true then
    (Dict.get? d ⟨.gps, g.typ, 216⟩).getD none
  else ((Dict.get? d g).or (Dict.get? d (anyX g))).getD (some 0)

theorem biasOf_some (mode : Nat) {tb : Tab} {s : Nat} {d : Dict Sig (Option ℚ)} (g : Sig)
    (h : tb.bind (fun d => Dict.get? d s) = some d) : biasOf mode tb s g = pick mode d g := by
  unfold biasOf
  rw [h]
  rfl

theorem patch_get {mode : Nat} {t : Typ} (ht : t = .C ∨ t = .L) (d : Dict Sig (Option ℚ)) (g : Sig) :
    Dict.get? (patch mode t d) g =
      if IsHas mode ∧ g = g2W t ∧ (Dict.get? d (g2P t)).isSome = true then Dict.get? d (g2P t) else Dict.get? d g := by
  unfold patch IsHas hasSis hasIdd
  by_cases hm : mode = 2 ∨ mode = 3
  · rw [if_pos hm, if_pos ht]
    cases hp : Dict.get? d (g2P t) with
    | none => simp
    | some b =>
      simp only
      rw [Dict.get?_set]
      by_cases hg : g = g2W t
      · rw [if_pos hg, if_pos ⟨hm, hg, rfl⟩]
      · rw [if_neg hg, if_neg (fun x => hg x.2.1)]
  · rw [if_neg hm, if_neg (fun x => hm x.1)]

theorem g2W_iff {t : Typ} {g : Sig} (h : g.typ = t) : g = g2W t ↔ g.sys = .gps ∧ g.sig = 223 := by
  obtain ⟨m, ty, n⟩ := g
  simp only at h
  subst h
  unfold g2W
  simp

theorem g2P_ne (t t' : Typ) : g2P t ≠ g2W t' := by
  unfold g2P g2W
  intro h
  simp at h

theorem pick_patch {mode : Nat} {t : Typ} (ht : t = .C ∨ t = .L) (d : Dict Sig (Option ℚ)) (g : Sig) (hg : g.typ = t) :
    pick mode (patch mode t d) g = pick mode d g := by
  unfold pick
  have e1 : Dict.get? (patch mode t d) ⟨.gps, g.typ, 216⟩ = Dict.get? d ⟨.gps, g.typ, 216⟩ := by
    rw [patch_get ht, if_neg]
    rintro ⟨-, h, -⟩
    exact g2P_ne _ _ h
  have e2 : Dict.get? (patch mode t d) (anyX g) = Dict.get? d (anyX g) := by
    rw [patch_get ht, if_neg]
    rintro ⟨-, h, -⟩
    exact anyX_ne _ _ h
  rw [e1, e2, patch_get ht]
  by_cases c : IsHas mode ∧ g.sys = .gps ∧ g.sig = 223 ∧ (Dict.get? d ⟨.gps, g.typ, 216⟩).isSome = true
  · rw [if_pos c, if_pos c]
  · rw [if_neg c, if_neg c, if_neg]
    rintro ⟨x1, x2, x3⟩
    obtain ⟨y1, y2⟩ := (g2W_iff hg).1 x2
    refine c ⟨x1, y1, y2, ?_⟩
    rw [hg]
    exact x3

theorem lookSig_spec {mode : Nat} {t : Typ} (ht : t = .C ∨ t = .L) {d : Dict Sig (Option ℚ)} {g : Sig} (hg : Valid t g)
    {b : Option ℚ} (h : lookSig (patch mode t d) g = .ok b) : b = pick mode d g := by
  rw [← pick_patch ht d g hg.typ]
  have e1 : Dict.get? (patch mode t d) ⟨.gps, g.typ, 216⟩ = Dict.get? d (g2P t) := by
    rw [patch_get ht, if_neg, hg.typ]
    · rfl
    · rintro ⟨-, h, -⟩
      exact g2P_ne _ _ h
  have key : ∀ r, Dict.get? (patch mode t d) g = r → pick mode (patch mode t d) g =
      (r.or (Dict.get? (patch mode t d) (anyX g))).getD (some 0) := by
    intro r hr
    unfold pick
    rw [e1, ← hr]
    by_cases c : IsHas mode ∧ g.sys = .gps ∧ g.sig = 223 ∧ (Dict.get? d (g2P t)).isSome = true
    · rw [if_pos c, patch_get ht d g, if_pos ⟨c.1, (g2W_iff hg.typ).2 ⟨c.2.1, c.2.2.1⟩, c.2.2.2⟩]
      have := c.2.2.2
      cases hp : Dict.get? d (g2P t) with
      | none => rw [hp] at this; cases this
      | some x => rfl
    · rw [if_neg c]
  unfold lookSig at h
  cases hh : Dict.get? (patch mode t d) g with
  | some x =>
    rw [hh] at h
    cases h
    rw [key _ hh]
    rfl
  | none =>
    rw [hh] at h
    simp only at h
    obtain ⟨x, h1, h2⟩ := Py.bind_ok.1 h
    rw [Py.pure_ok] at h2
    rw [← h2, toAtt_spec ht hg h1, key _ hh, Option.none_or]

/-! ## Changes of the corrections -/

/-- the same corrections as far as any bias is concerned -/
structure SameLc (mode : Nat) (a b : Lc) : Prop where
  cOn : b.cOn = a.cOn
  pOn : b.pOn = a.pOn
  satN : b.satN = a.satN
  bias : ∀ s g, g.typ = .C ∨ g.typ = .L → biasOf mode (tab b g.typ) s g = biasOf mode (tab a g.typ) s g

structure Same (a b : Cs) : Prop where
  mode : b.mode = a.mode
  lc : ∀ n, SameLc a.mode (a.lc n) (b.lc n)

theorem SameLc.refl (mode : Nat) (a : Lc) : SameLc mode a a := ⟨rfl, rfl, rfl, fun _ _ _ => rfl⟩
theorem Same.refl (a : Cs) : Same a a := ⟨rfl, fun _ => SameLc.refl _ _⟩
theorem Same.trans {a b c : Cs} (h : Same a b) (k : Same b c) : Same a c :=
  ⟨k.mode.trans h.mode, fun n => by
    have x := h.lc n
    have y := k.lc n
    rw [h.mode] at y
    exact ⟨y.cOn.trans x.cOn, y.pOn.trans x.pOn, y.satN.trans x.satN, fun s g hg => (y.bias s g hg).trans (x.bias s g hg)⟩⟩

theorem Same.put {a : Cs} {n : Nat} {l : Lc} (h : SameLc a.mode (a.lc n) l) : Same a (a.put n l) := by
  refine ⟨rfl, fun k => ?_⟩
  unfold Cs.put
  simp only
  split_ifs with hk
  · rw [hk]; exact h
  · exact SameLc.refl _ _

theorem mapM_zero (l : List Sig) : (l.map fun _ => (some 0 : Option ℚ)) = List.replicate l.length (some 0) := by
  rw [List.map_const']

/-- **Biases of one table** -/
theorem find_spec {mode : Nat} {lc : Lc} {l : List Sig} {s : Nat} {t : Typ} (ht : t = .C ∨ t = .L) (hl : ∀ g ∈ l, Valid t g)
    {v : List (Option ℚ)} {lc' : Lc} (h : findBias mode lc l s = .ok (v, lc')) :
    v = l.map (biasOf mode (tab lc t) s) ∧ SameLc mode lc lc' := by
  unfold findBias at h
  cases l with
  | nil => cases h; exact ⟨rfl, SameLc.refl _ _⟩
  | cons g r =>
    have hty : g.typ = t := (hl g (List.mem_cons_self ..)).typ
    have htab : tabOf lc g.typ = tab lc t := by rw [hty]; rfl
    simp only at h
    rw [htab] at h
    cases htb : tab lc t with
    | none =>
      rw [htb] at h
      cases h
      exact ⟨List.map_congr_left fun _ _ => rfl, SameLc.refl _ _⟩
    | some tb =>
      rw [htb] at h
      simp only at h
      cases hd : Dict.get? tb s with
      | none =>
        rw [hd] at h
        cases h
        refine ⟨List.map_congr_left fun x _ => ?_, SameLc.refl _ _⟩
        unfold biasOf
        rw [Option.bind_some, hd]
      | some d =>
        rw [hd, hty] at h
        simp only at h
        obtain ⟨w, h1, h2⟩ := Py.bind_ok.1 h
        rw [Py.pure_ok] at h2
        simp only [Prod.mk.injEq] at h2
        obtain ⟨rfl, rfl⟩ := h2
        refine ⟨?_, ?_⟩
        · rw [C88.mapM_eq (v := fun g => biasOf mode (some tb) s g) (fun a ha b hb => ?_) h1]
          rw [lookSig_spec ht (hl a ha) hb, biasOf_some mode a (by rw [Option.bind_some, hd])]
        · have key : ∀ s' g', g'.typ = t → biasOf mode (some (Dict.set tb s (patch mode t d))) s' g' = biasOf mode (some tb) s' g' := by
            intro s' g' hg'
            by_cases hs : s' = s
            · subst hs
              rw [biasOf_some mode g' (d := patch mode t d) (by rw [Option.bind_some, Dict.get?_set_self]),
                biasOf_some mode g' (d := d) (by rw [Option.bind_some, hd]), pick_patch ht d g' hg']
            · unfold biasOf
              rw [Option.bind_some, Option.bind_some, Dict.get?_set_ne _ _ hs]
          unfold setTab
          rcases ht with rfl | rfl
          · rw [if_pos rfl]
            refine ⟨rfl, rfl, rfl, fun s' g' hg' => ?_⟩
            unfold tab at htb ⊢
            rcases hg' with hg' | hg'
            · rw [hg', if_pos rfl, if_pos rfl, key s' g' hg']
              rw [if_pos rfl] at htb
              rw [htb]
            · rw [hg']; rfl
          · rw [if_neg (by decide)]
            refine ⟨rfl, rfl, rfl, fun s' g' hg' => ?_⟩
            unfold tab at htb ⊢
            rcases hg' with hg' | hg'
            · rw [hg']; rfl
            · rw [hg', if_neg (by decide), if_neg (by decide), key s' g' hg']
              rw [if_neg (by decide)] at htb
              rw [htb]

/-- the lookup succeeds unless a bias of SBAS L1 is missing -/
theorem find_total (mode : Nat) (lc : Lc) {l : List Sig} (s : Nat) {t : Typ} (ht : t = .C ∨ t = .L) (hl : ∀ g ∈ l, Valid t g)
    (hs : ∀ g ∈ l, ¬ (g.sys = .sbs ∧ g.sig.tdiv 100 = 1)) : ∃ v lc', findBias mode lc l s = .ok (v, lc') := by
  unfold findBias
  split
  · exact ⟨_, _, rfl⟩
  · next g r =>
    split
    · exact ⟨_, _, rfl⟩
    · split
      · exact ⟨_, _, rfl⟩
      · next d _ =>
        have := C87.mapM_total (f := lookSig (patch mode g.typ d)) (l := g :: r) fun a ha => by
          unfold lookSig
          split
          · exact ⟨_, rfl⟩
          · rw [toAtt_total ht (hl a ha) (hs a ha)]
            exact ⟨_, rfl⟩
        obtain ⟨w, hw⟩ := this
        simp only [hw]
        exact ⟨_, _, rfl⟩

/-! ## Sum of the corrections -/

/-- global plus network, before the sign -/
def sum (cs : Cs) (inet : Int) (s : Nat) (g : Sig) : Option ℚ :=
  ((if on (cs.lc 0) g.typ then biasOf cs.mode (tab (cs.lc 0) g.typ) s g else some 0)).bind fun a =>
    (if 0 < inet then (if on (cs.lc inet.toNat) g.typ then biasOf cs.mode (tab (cs.lc inet.toNat) g.typ) s g else some 0)
      else some 0).map fun b => a + b

theorem addN_eq (a b : Option ℚ) : addN a b = a.bind fun x => b.map fun y => x + y := by
  cases a <;> cases b <;> rfl

theorem gather_spec {cs : Cs} {inet : Int} {nf : Nat} {sel : Lc → Bool} {l : List Sig} {s : Nat} {t : Typ}
    (ht : t = .C ∨ t = .L) (hl : ∀ g ∈ l, Valid t g) (hn : l.length = nf) (hsel : ∀ c, sel c = on c t)
    {v : List (Option ℚ)} {cs' : Cs} (h : gather cs inet nf sel l s = .ok (v, cs')) :
    v = l.map (sum cs inet s) ∧ Same cs cs' := by
  unfold gather at h
  obtain ⟨⟨v0, cs0⟩, h1, h⟩ := Py.bind_ok.1 h
  have st0 : v0 = (l.map fun g => if on (cs.lc 0) t then biasOf cs.mode (tab (cs.lc 0) t) s g else some 0) ∧ Same cs cs0 ∧
      ∀ n, n ≠ 0 → cs0.lc n = cs.lc n := by
    unfold gather0 at h1
    rw [hsel] at h1
    cases ho : on (cs.lc 0) t with
    | false =>
      rw [ho] at h1
      simp only [Bool.false_eq_true, if_false] at h1
      rw [Py.pure_ok] at h1
      cases h1
      refine ⟨?_, Same.refl _, fun _ _ => rfl⟩
      simp only [Bool.false_eq_true, if_false]
      rw [← hn, List.map_const']
    | true =>
      rw [ho] at h1
      simp only [if_true] at h1
      obtain ⟨⟨w, lc'⟩, h2, h3⟩ := Py.bind_ok.1 h1
      rw [Py.pure_ok] at h3
      cases h3
      obtain ⟨e1, e2⟩ := find_spec ht hl h2
      refine ⟨by simp only [if_true]; exact e1, Same.put e2, fun n hn => ?_⟩
      unfold Cs.put
      simp only
      rw [if_neg hn]
  obtain ⟨e0, s0, k0⟩ := st0
  have hsum : ∀ g ∈ l, sum cs inet s g =
      addN (if on (cs.lc 0) t then biasOf cs.mode (tab (cs.lc 0) t) s g else some 0)
        (if 0 < inet then (if on (cs.lc inet.toNat) t then biasOf cs.mode (tab (cs.lc inet.toNat) t) s g else some 0)
          else some 0) := by
    intro g hg
    unfold sum
    rw [(hl g hg).typ, addN_eq]
  have addz : ∀ a : Option ℚ, addN a (some 0) = a := by
    intro a
    cases a with
    | none => rfl
    | some x => simp [addN]
  simp only at h
  rw [hsel] at h
  by_cases hi : 0 < inet
  · rw [k0 inet.toNat (by omega)] at h
    by_cases ho : on (cs.lc inet.toNat) t = true
    · rw [if_pos ⟨hi, ho⟩] at h
      obtain ⟨⟨w, lc'⟩, h2, h⟩ := Py.bind_ok.1 h
      obtain ⟨u, h3, h⟩ := Py.bind_ok.1 h
      rw [Py.pure_ok] at h
      cases h
      rw [s0.mode] at h2
      obtain ⟨e1, e2⟩ := find_spec ht hl h2
      unfold addV at h3
      split_ifs at h3
      cases h3
      refine ⟨?_, s0.trans (Same.put ?_)⟩
      · rw [e0, e1, List.zipWith_map, List.zipWith_self]
        refine List.map_congr_left fun g hg => ?_
        rw [hsum g hg, if_pos hi, if_pos ho]
      · rw [s0.mode, k0 inet.toNat (by omega)]
        exact e2
    · rw [if_neg (fun x => ho x.2)] at h
      rw [Py.pure_ok] at h
      cases h
      refine ⟨?_, s0⟩
      rw [e0]
      refine List.map_congr_left fun g hg => ?_
      rw [hsum g hg, if_pos hi, if_neg ho, addz]
  · rw [if_neg (fun x => hi x.1)] at h
    rw [Py.pure_ok] at h
    cases h
    refine ⟨?_, s0⟩
    rw [e0]
    refine List.map_congr_left fun g hg => ?_
    rw [hsum g hg, if_neg hi, addz]

theorem sum_same {a b : Cs} (h : Same a b) (inet : Int) (s : Nat) (g : Sig) (hg : g.typ = .C ∨ g.typ = .L) :
    sum b inet s g = sum a inet s g := by
  have hon : ∀ n, on (b.lc n) g.typ = on (a.lc n) g.typ := by
    intro n
    unfold on
    rw [(h.lc n).cOn, (h.lc n).pOn]
  unfold sum
  rw [hon, hon, h.mode, (h.lc 0).bias s g hg, (h.lc inet.toNat).bias s g hg]

theorem total_same {a b : Cs} (h : Same a b) (inet : Int) (s : Nat) (g : Sig) (hg : g.typ = .C ∨ g.typ = .L) :
    total b inet s g = total a inet s g := by
  have := sum_same h inet s g hg
  unfold sum at this
  unfold total
  simp only
  rw [this, h.mode]

theorem total_eq (cs : Cs) (inet : Int) (s : Nat) (g : Sig) :
    total cs inet s g = if cs.mode = 0 ∨ cs.mode = 4 ∨ cs.mode = 7 then (sum cs inet s g).map fun a => -a else sum cs inet s g :=
  rfl

/-- **Biases from corrections**: global plus network bias with the sign of the service; the lookups change no bias -/
theorem cssr_biases {cs : Cs} {inet : Int} {nf : Nat} {pr cp : List Sig} {s : Nat} (hp : ∀ g ∈ pr, Valid .C g)
    (hc : ∀ g ∈ cp, Valid .L g) (np : pr.length = nf) (nc : cp.length = nf) {c p : List (Option ℚ)} {cs' : Cs}
    (h : cssrBias cs inet nf pr cp s = .ok (c, p, cs')) :
    c = pr.map (total cs inet s) ∧ p = cp.map (total cs inet s) ∧ Same cs cs' := by
  unfold cssrBias at h
  obtain ⟨⟨c0, cs0⟩, h1, h⟩ := Py.bind_ok.1 h
  obtain ⟨⟨p0, cs1⟩, h2, h⟩ := Py.bind_ok.1 h
  simp only at h
  obtain ⟨e1, s1⟩ := gather_spec (.inl rfl) hp np (fun _ => rfl) h1
  obtain ⟨e2, s2⟩ := gather_spec (.inr rfl) hc nc (fun _ => rfl) h2
  have s12 := s1.trans s2
  have e2' : p0 = cp.map (sum cs inet s) := by
    rw [e2]
    exact List.map_congr_left fun g hg => sum_same s1 inet s g (.inr (hc g hg).typ)
  unfold clas bdsPpp pvs at h
  rw [s12.mode] at h
  by_cases hm : cs.mode = 0 ∨ cs.mode = 4 ∨ cs.mode = 7
  · rw [if_pos hm, Py.pure_ok] at h
    cases h
    rw [e1, e2', List.map_map, List.map_map]
    refine ⟨List.map_congr_left fun g _ => ?_, List.map_congr_left fun g _ => ?_, s12⟩ <;>
    · rw [total_eq, if_pos hm]; rfl
  · rw [if_neg hm, Py.pure_ok] at h
    cases h
    rw [e1, e2']
    refine ⟨List.map_congr_left fun g _ => ?_, List.map_congr_left fun g _ => ?_, s12⟩ <;>
    · rw [total_eq, if_neg hm]

/-! ## Residuals -/

/-- the bias of a signal in metres: Bias-SINEX with the opposite sign, no phase biases of GLONASS; corrections; none -/
def bias (src : Src) (inet : Int) (s : Nat) (g : Sig) : Option ℚ :=
  match src with
  | .sinex osb => if g.typ = .L ∧ (sat2prn s).1 = .glo then some 0 else (osb s g).map fun b => -(b * (299792458 / 1000000000))
  | .cssr cs => total cs inet s g
  | .none => some 0

/-- the source of biases is the same as far as any bias is concerned -/
def SameSrc : Src → Src → Prop
  | .cssr a, .cssr b => Same a b
  | .sinex a, .sinex b => a = b
  | .none, .none => True
  | _, _ => False

theorem SameSrc.refl (a : Src) : SameSrc a a := by cases a <;> first | exact Same.refl _ | rfl | trivial
theorem SameSrc.trans {a b c : Src} (h : SameSrc a b) (k : SameSrc b c) : SameSrc a c := by
  cases a <;> cases b <;> cases c <;> first | exact h.elim | exact k.elim | exact Same.trans h k | exact Eq.trans h k | trivial

theorem bias_same {a b : Src} (h : SameSrc a b) (inet : Int) (s : Nat) (g : Sig) (hg : g.typ = .C ∨ g.typ = .L) :
    bias b inet s g = bias a inet s g := by
  cases a <;> cases b <;> first | exact h.elim | skip
  · cases h; rfl
  · exact total_same h inet s g hg
  · rfl

theorem biases_spec {src : Src} {inet : Int} {nf : Nat} {pr cp : List Sig} {s : Nat} (hp : ∀ g ∈ pr, Valid .C g)
    (hc : ∀ g ∈ cp, Valid .L g) (np : pr.length = nf) (nc : cp.length = nf) {c p : List (Option ℚ)} {src' : Src}
    (h : biases src inet nf (sat2prn s).1 pr cp s = .ok (c, p, src')) :
    c = pr.map (bias src inet s) ∧ p = cp.map (bias src inet s) ∧ SameSrc src src' := by
  unfold biases at h
  cases src with
  | none =>
    cases h
    refine ⟨?_, ?_, trivial⟩
    · rw [← np, ← List.map_const']; rfl
    · rw [← nc, ← List.map_const']; rfl
  | sinex osb =>
    simp only at h
    cases h
    have e : ∀ b : ℚ, -b * (clight * (1 / 1000000000)) = -(b * (299792458 / 1000000000)) := by
      intro b
      unfold clight
      ring
    refine ⟨List.map_congr_left fun g hg => ?_, ?_, rfl⟩
    · simp only [bias]
      rw [if_neg (by rw [(hp g hg).typ]; simp)]
      simp only [e]
    · by_cases hm : (sat2prn s).1 = .glo
      · rw [if_neg (fun x => x hm), ← nc, ← List.map_const']
        refine List.map_congr_left fun g hg => ?_
        simp only [bias]
        rw [if_pos ⟨(hc g hg).typ, hm⟩]
      · rw [if_pos hm]
        refine List.map_congr_left fun g hg => ?_
        simp only [bias]
        rw [if_neg (fun x => hm x.2)]
        simp only [e]
  | cssr cs =>
    simp only at h
    obtain ⟨⟨c', p', cs'⟩, h1, h2⟩ := Py.bind_ok.1 h
    rw [Py.pure_ok] at h2
    cases h2
    exact cssr_biases hp hc np nc h1

/-- ranges or phases of the constellation of a satellite -/
def sigsOf (v : Zd.In) (s : Nat) (t : Typ) : List Sig := ((v.sig (sat2prn s).1).bind fun d => d t).getD []

/-- the satellite gets no residuals: edited, without network correction, with an invalid bias, below the mask, or without
antenna corrections -/
def LeftOut (v : Zd.In) (src : Src) (i s : Nat) : Prop :=
  v.edt s = true ∨ (0 < v.inet ∧ s ∉ v.satN) ∨ (∃ g, (g ∈ sigsOf v s .C ∨ g ∈ sigsOf v s .L) ∧ bias src v.inet s g = none) ∨
  (v.geo i).up = false ∨ (v.geo i).rxP = none ∨ (v.geo i).rxL = none ∨ (v.geo i).txP = none ∨ (v.geo i).txL = none

/-- frequency of phase `f` -/
def frq (v : Zd.In) (s f : Nat) : ℚ :=
  match (sigsOf v s .L)[f]? with
  | some g => (Msm.frequency g.sys (g.sig.tdiv 100).toNat ((Dict.get? v.gloCh s).getD 0)).getD 0
  | none => 0

/-- bias of range or phase `f` -/
def biasAt (v : Zd.In) (src : Src) (s : Nat) (t : Typ) (f : Nat) : ℚ :=
  match (sigsOf v s t)[f]? with
  | some g => (bias src v.inet s g).getD 0
  | none => 0

/-- slant delay on phase `f` from corrections -/
def slant (v : Zd.In) (i s f : Nat) : ℚ :=
  if v.ionoOpt = 2 ∧ 0 < v.inet then 403 * 10 ^ 15 * (v.geo i).stec / frq v s f ^ 2 else 0

/-- modelled range of a satellite for a receiver with exact clock -/
def modelled (v : Zd.In) (src : Src) (i s f : Nat) (t : Typ) : ℚ :=
  let g := v.geo i
  let ant := fun o : Option (Nat → ℚ) => (o.getD fun _ => 0) f
  g.r + g.rel - 299792458 * g.dts + g.trop +
    (if t = .C then ant g.rxP + ant g.txP + slant v i s f
     else ant g.rxL + ant g.txL - slant v i s f + 299792458 / frq v s f * g.phw) - biasAt v src s t f

/-- the residuals of a satellite -/
structure Residual (v : Zd.In) (src : Src) (i s : Nat) (row : Nat → ℚ) : Prop where
  out : LeftOut v src i s → ∀ k, row k = 0
  phase : ¬ LeftOut v src i s → ∀ f < v.nf, row f = (v.geo i).L f * (299792458 / frq v s f) - modelled v src i s f .L
  range : ¬ LeftOut v src i s → ∀ f < v.nf, row (v.nf + f) = (v.geo i).P f - modelled v src i s f .C

theorem sigs_ok {v : Zd.In} {s : Nat} {t : Typ} {l : List Sig} (h : sigs v (sat2prn s).1 t = .ok l) : sigsOf v s t = l := by
  unfold sigs at h
  unfold sigsOf
  split at h
  · next e => rw [e]; cases h; rfl
  · cases h

theorem freqs_ok {v : Zd.In} {s : Nat} {cp : List Sig} {fr : List ℚ} (hcp : sigsOf v s .L = cp)
    (h : freqs v (sat2prn s).1 s cp = .ok fr) (f : Nat) (hf : f < cp.length) : fr.getD f 0 = frq v s f := by
  have key : ∀ (k : Option Int) (a : ℚ), (∀ x, k = some x → (Dict.get? v.gloCh s).getD 0 = x) →
      need (freq cp[f] k) = .ok a → fr[f]? = some a → fr.getD f 0 = frq v s f := by
    intro k a hk h1 h2
    unfold frq
    rw [hcp, List.getElem?_eq_getElem hf]
    simp only
    rw [freq_spec (need_ok h1) _ hk, List.getD_eq_getElem?_getD, h2]
  have hget : cp[f]? = some cp[f] := List.getElem?_eq_getElem hf
  unfold freqs at h
  split_ifs at h
  · obtain ⟨a, h1, h2⟩ := (C87.mapM_spec h).2 f cp[f] hget
    obtain ⟨k, h3, h4⟩ := Py.bind_ok.1 h2
    rw [Dict.getItem_ok_iff] at h3
    exact key (some k) a (fun x hx => by cases hx; rw [h3]; rfl) h4 h1
  · obtain ⟨a, h1, h2⟩ := (C87.mapM_spec h).2 f cp[f] hget
    exact key none a (fun x hx => by cases hx) h2 h1

theorem any_none {src : Src} {inet : Int} {s : Nat} {l : List Sig} :
    (l.map (bias src inet s)).any (·.isNone) = true ↔ ∃ g ∈ l, bias src inet s g = none := by
  rw [List.any_map, List.any_eq_true]
  simp only [Function.comp, Option.isNone_iff_eq_none]

theorem vals_map (v : Zd.In) (src : Src) (s : Nat) (t : Typ) (f : Nat) :
    vals ((sigsOf v s t).map (bias src v.inet s)) f = biasAt v src s t f := by
  unfold vals biasAt
  rw [List.getD_eq_getElem?_getD, List.getElem?_map]
  cases (sigsOf v s t)[f]? <;> rfl

/-- one satellite -/
theorem sat1_spec {v : Zd.In} {src src' : Src} {i s : Nat} {row : Nat → ℚ} (hp : ∀ g ∈ sigsOf v s .C, Valid .C g)
    (hc : ∀ g ∈ sigsOf v s .L, Valid .L g) (h : sat1 v src i s = .ok (row, src')) :
    Residual v src i s row ∧ SameSrc src src' := by
  unfold sat1 at h
  have zero : LeftOut v src i s → Residual v src i s (fun _ => 0) := fun hl =>
    ⟨fun _ _ => rfl, fun hn => absurd hl hn, fun hn => absurd hl hn⟩
  by_cases he : v.edt s = true
  · rw [if_pos he] at h
    cases h
    exact ⟨zero (.inl he), SameSrc.refl _⟩
  · rw [if_neg he] at h
    by_cases hn : 0 < v.inet ∧ s ∉ v.satN
    · rw [if_pos hn] at h
      cases h
      exact ⟨zero (.inr (.inl hn)), SameSrc.refl _⟩
    · rw [if_neg hn] at h
      simp only at h
      obtain ⟨pr, h1, h⟩ := Py.bind_ok.1 h
      obtain ⟨cp, h2, h⟩ := Py.bind_ok.1 h
      by_cases hlen : pr.length ≠ v.nf ∨ cp.length ≠ v.nf
      · rw [if_pos hlen] at h
        cases h
      rw [if_neg hlen] at h
      have hlen' : pr.length = v.nf ∧ cp.length = v.nf := by omega
      obtain ⟨fr, h3, h⟩ := Py.bind_ok.1 h
      obtain ⟨⟨cb, pb, src1⟩, h4, h⟩ := Py.bind_ok.1 h
      have e1 := sigs_ok h1
      have e2 := sigs_ok h2
      rw [e1] at hp
      rw [e2] at hc
      obtain ⟨b1, b2, b3⟩ := biases_spec hp hc hlen'.1 hlen'.2 h4
      simp only at h
      have hany : (cb.any (·.isNone) || pb.any (·.isNone)) = true ↔
          ∃ g, (g ∈ sigsOf v s .C ∨ g ∈ sigsOf v s .L) ∧ bias src v.inet s g = none := by
        rw [Bool.or_eq_true, b1, b2, any_none, any_none, e1, e2]
        constructor
        · rintro (⟨g, x, y⟩ | ⟨g, x, y⟩)
          · exact ⟨g, .inl x, y⟩
          · exact ⟨g, .inr x, y⟩
        · rintro ⟨g, x | x, y⟩
          · exact .inl ⟨g, x, y⟩
          · exact .inr ⟨g, x, y⟩
      by_cases ha : (cb.any (·.isNone) || pb.any (·.isNone)) = true
      · rw [if_pos ha, Py.pure_ok] at h
        cases h
        exact ⟨zero (.inr (.inr (.inl (hany.1 ha)))), b3⟩
      · rw [if_neg ha] at h
        by_cases hu : (v.geo i).up = false
        · rw [if_pos hu, Py.pure_ok] at h
          cases h
          exact ⟨zero (.inr (.inr (.inr (.inl hu)))), b3⟩
        · rw [if_neg hu] at h
          split at h
          · next rxP rxL txP txL a1 a2 a3 a4 =>
            rw [Py.pure_ok] at h
            cases h
            have notOut : ¬ LeftOut v src i s := by
              rintro (x | x | x | x | x | x | x | x)
              · exact he x
              · exact hn x
              · exact ha (hany.2 x)
              · exact hu x
              · rw [a1] at x; cases x
              · rw [a2] at x; cases x
              · rw [a3] at x; cases x
              · rw [a4] at x; cases x
            have hcb : ∀ f, vals cb f = biasAt v src s .C f := by
              intro f
              rw [b1, ← e1, vals_map]
            have hpb : ∀ f, vals pb f = biasAt v src s .L f := by
              intro f
              rw [b2, ← e2, vals_map]
            refine ⟨⟨fun x => absurd x notOut, fun _ f hf => ?_, fun _ f hf => ?_⟩, b3⟩
            · have hfr := freqs_ok e2 h3 f (by omega)
              unfold rowOf
              simp only
              rw [if_pos hf, hpb, hfr]
              unfold modelled slant clight
              simp only
              rw [if_neg (show ¬ Typ.L = Typ.C by decide), a2, a4]
              simp only [Option.getD_some]
              split_ifs <;> ring
            · have hfr := freqs_ok e2 h3 f (by omega)
              unfold rowOf
              simp only
              rw [if_neg (by omega), if_pos (by omega), Nat.add_sub_cancel_left, hcb, hfr]
              unfold modelled slant clight
              simp only
              simp only [if_true]
              rw [a1, a3]
              simp only [Option.getD_some]
              split_ifs <;> ring
          · next hno =>
            rw [Py.pure_ok] at h
            cases h
            refine ⟨zero (.inr (.inr (.inr (.inr ?_)))), b3⟩
            cases x1 : (v.geo i).rxP with
            | none => exact .inl rfl
            | some a =>
              cases x2 : (v.geo i).rxL with
              | none => exact .inr (.inl rfl)
              | some b =>
                cases x3 : (v.geo i).txP with
                | none => exact .inr (.inr (.inl rfl))
                | some c =>
                  cases x4 : (v.geo i).txL with
                  | none => exact .inr (.inr (.inr rfl))
                  | some d => exact (hno a b c d x1 x2 x3 x4).elim

theorem residual_same {v : Zd.In} {a b : Src} (h : SameSrc a b) {i s : Nat} {row : Nat → ℚ}
    (hp : ∀ g ∈ sigsOf v s .C, Valid .C g) (hc : ∀ g ∈ sigsOf v s .L, Valid .L g) (hr : Residual v b i s row) :
    Residual v a i s row := by
  have hb : ∀ g, (g ∈ sigsOf v s .C ∨ g ∈ sigsOf v s .L) → bias b v.inet s g = bias a v.inet s g := by
    rintro g (x | x)
    · exact bias_same h _ _ _ (.inl (hp g x).typ)
    · exact bias_same h _ _ _ (.inr (hc g x).typ)
  have hl : LeftOut v b i s ↔ LeftOut v a i s := by
    unfold LeftOut
    have : (∃ g, (g ∈ sigsOf v s .C ∨ g ∈ sigsOf v s .L) ∧ bias b v.inet s g = none) ↔
        ∃ g, (g ∈ sigsOf v s .C ∨ g ∈ sigsOf v s .L) ∧ bias a v.inet s g = none :=
      ⟨fun ⟨g, x, y⟩ => ⟨g, x, by rw [← hb g x]; exact y⟩, fun ⟨g, x, y⟩ => ⟨g, x, by rw [hb g x]; exact y⟩⟩
    rw [this]
  have hat : ∀ t f, (t = .C ∨ t = .L) → biasAt v b s t f = biasAt v a s t f := by
    intro t f ht
    unfold biasAt
    cases hg : (sigsOf v s t)[f]? with
    | none => rfl
    | some g =>
      simp only
      rw [hb g]
      have := List.mem_of_getElem? hg
      rcases ht with rfl | rfl
      · exact .inl this
      · exact .inr this
  have hm : ∀ t f, (t = .C ∨ t = .L) → modelled v b i s f t = modelled v a i s f t := by
    intro t f ht
    unfold modelled
    rw [hat t f ht]
  refine ⟨fun x => hr.out (hl.2 x), fun x f hf => ?_, fun x f hf => ?_⟩
  · rw [hr.phase (fun y => x (hl.1 y)) f hf, hm _ _ (.inr rfl)]
  · rw [hr.range (fun y => x (hl.1 y)) f hf, hm _ _ (.inl rfl)]

/-- **Residuals**: every satellite's residuals follow from the corrections as they were before the epoch -/
theorem residuals {v : Zd.In} {src src' : Src} {rows : List (Nat → ℚ)}
    (hv : ∀ s ∈ v.sat, (∀ g ∈ sigsOf v s .C, Valid .C g) ∧ ∀ g ∈ sigsOf v s .L, Valid .L g)
    (h : zdres v src = .ok (rows, src')) :
    rows.length = v.sat.length ∧ SameSrc src src' ∧
    ∀ (i : Nat) s row, v.sat[i]? = some s → rows[i]? = some row → Residual v src i s row := by
  unfold zdres at h
  have := (Post.foldlM_range (n := v.sat.length) (I := fun n a => a.1.length = n ∧ SameSrc src a.2 ∧
    ∀ (i : Nat) s row, v.sat[i]? = some s → a.1[i]? = some row → Residual v src i s row) (a := ([], src)) (f := _)
    (fun k a hk hI => by
      constructor
      intro b hb
      obtain ⟨s, h1, hb⟩ := Py.bind_ok.1 hb
      obtain ⟨⟨row, src1⟩, h2, hb⟩ := Py.bind_ok.1 hb
      rw [Py.pure_ok] at hb
      subst hb
      have hs := pyGet_some h1
      obtain ⟨p1, p2⟩ := hv s (List.mem_of_getElem? hs)
      obtain ⟨r1, r2⟩ := sat1_spec p1 p2 h2
      obtain ⟨i1, i2, i3⟩ := hI
      refine ⟨by simp [i1], i2.trans r2, fun i s' row' hi hr => ?_⟩
      simp only at hr
      by_cases hik : i < a.1.length
      · rw [List.getElem?_append_left hik] at hr
        exact i3 i s' row' hi hr
      · rw [List.getElem?_append_right (by omega)] at hr
        have hik' : i = k := by
          by_contra hc
          rw [List.getElem?_eq_none (by simp; omega)] at hr
          cases hr
        subst hik'
        rw [i1, Nat.sub_self] at hr
        cases hr
        rw [hs] at hi
        cases hi
        exact residual_same i2 p1 p2 r1)
    ⟨rfl, SameSrc.refl _, fun i s row _ hr => by simp at hr⟩).out _ h
  exact this

/-- **Measurements without error** leave the receiver clock, and for phases the ambiguity -/
theorem exact_measurement {v : Zd.In} {src : Src} {i s : Nat} {row : Nat → ℚ} (h : Residual v src i s row)
    (hl : ¬ LeftOut v src i s) {f : Nat} (hf : f < v.nf) (clk n : ℚ)
    (eL : (v.geo i).L f * (299792458 / frq v s f) = modelled v src i s f .L + clk + 299792458 / frq v s f * n)
    (eP : (v.geo i).P f = modelled v src i s f .C + clk) :
    row f = clk + 299792458 / frq v s f * n ∧ row (v.nf + f) = clk := by
  rw [h.phase hl f hf, h.range hl f hf, eL, eP]
  constructor <;> ring

/-- a satellite without biases in the corrections is used uncorrected; without bias in Bias-SINEX it is left out -/
theorem missing (cs : Cs) (osb : Nat → Sig → Option ℚ) (v : Zd.In) (i s : Nat) (g : Sig) (hg : g ∈ sigsOf v s .C)
    (hC : g.typ = .C) (h : ∀ n, (tab (cs.lc n) .C).bind (fun d => Dict.get? d s) = none) (ho : osb s g = none) :
    bias (.cssr cs) v.inet s g = some 0 ∧ LeftOut v (.sinex osb) i s := by
  constructor
  · have hb : ∀ n, biasOf cs.mode (tab (cs.lc n) .C) s g = some 0 := by
      intro n
      unfold biasOf
      rw [h n]
    unfold bias total
    simp only [hC, hb]
    simp
  · refine .inr (.inr (.inl ⟨g, .inl hg, ?_⟩))
    simp only [bias]
    rw [if_neg (by rw [hC]; simp), ho]
    rfl

/-- a missing bias of SBAS L1 stops the processing -/
theorem sbas_missing (mode : Nat) (lc : Lc) (s : Nat) (d : Dict Nat (Dict Sig (Option ℚ))) (b : Dict Sig (Option ℚ))
    (h1 : lc.cb = some d) (h2 : Dict.get? d s = some b) (h3 : Dict.get? b ⟨.sbs, .C, 103⟩ = none) :
    findBias mode lc [⟨.sbs, .C, 103⟩] s = .error .valueError := by
  unfold findBias
  simp only
  rw [show tabOf lc .C = lc.cb from rfl, h1]
  simp only
  rw [h2]
  simp only
  have hp : Dict.get? (patch mode .C b) ⟨.sbs, .C, 103⟩ = none := by
    rw [patch_get (.inl rfl), if_neg (by rintro ⟨-, x, -⟩; unfold g2W at x; simp at x), h3]
  rw [List.mapM_cons]
  unfold lookSig
  rw [hp]
  simp only
  rw [show toAtt ⟨.sbs, .C, 103⟩ ['X'] = .error .valueError by decide +kernel]
  rfl

/-! ## Examples -/

/-- two signals of GPS (L1C, L2W) and a satellite in geometry of some size -/
def demo (inet : Int) (L P : Nat → ℚ) : Zd.In where
  nf := 2
  ionoOpt := 2
  inet := inet
  sat := [3, 7]
  edt := fun s => s == 7
  satN := [3, 7]
  sig := fun m => if m = .gps then some fun t => if t = .C ∨ t = .L then some [⟨.gps, t, 103⟩, ⟨.gps, t, 223⟩] else none else none
  geo := fun _ => { r := 20000000, up := true, rel := 1/50, dts := 1/100000, trop := 5, stec := 2, phw := 1/4,
                    rxP := some fun _ => 1/10, rxL := some fun _ => 1/20, txP := some fun _ => 0, txL := some fun _ => 0, L := L, P := P }

/-- global range biases of HAS, with a value for L2P; nothing else -/
def lc0 : Lc := ⟨true, true, some [(3, [(⟨.gps, .C, 103⟩, some 2), (⟨.gps, .C, 216⟩, some 7), (⟨.gps, .C, 223⟩, some 1)])], some [], []⟩
def lc1 : Lc := ⟨true, false, some [(3, [(⟨.gps, .C, 124⟩, some (1/2))])], none, []⟩
def csDemo (mode : Nat) : Cs := ⟨mode, fun n => if n = 0 then lc0 else lc1⟩

/-- the hypothesis on the signals is met -/
example : ∀ s ∈ (demo 1 (fun _ => 0) fun _ => 0).sat, (∀ g ∈ sigsOf (demo 1 (fun _ => 0) fun _ => 0) s .C, Valid .C g) ∧
    ∀ g ∈ sigsOf (demo 1 (fun _ => 0) fun _ => 0) s .L, Valid .L g := by
  have e : ∀ s ∈ [3, 7], ∀ t ∈ [Typ.C, .L], sigsOf (demo 1 (fun _ => 0) fun _ => 0) s t = [⟨.gps, t, 103⟩, ⟨.gps, t, 223⟩] := by
    decide +kernel
  have k : ∀ t ∈ [Typ.C, .L], ∀ g ∈ [(⟨.gps, t, 103⟩ : Sig), ⟨.gps, t, 223⟩], Valid t g := by
    intro t _ g hg
    simp only [List.mem_cons, List.not_mem_nil, or_false] at hg
    rcases hg with rfl | rfl
    · exact ⟨rfl, show (103 : Int) ∈ uSIG by decide +kernel, show (0 : Int) < 103 by decide, by simp⟩
    · exact ⟨rfl, show (223 : Int) ∈ uSIG by decide +kernel, show (0 : Int) < 223 by decide, by simp⟩
  intro s hs
  rw [e s hs .C (by simp), e s hs .L (by simp)]
  exact ⟨k .C (by simp), k .L (by simp)⟩

/-- L2W of HAS has the bias of L2P, with the sign as sent; of MADOCA (1) its own; of CLAS (0) with the other sign -/
example : ([2, 1, 0].map fun m => [bias (.cssr (csDemo m)) (-1) 3 ⟨.gps, .C, 103⟩, bias (.cssr (csDemo m)) (-1) 3 ⟨.gps, .C, 223⟩]) =
    [[some 2, some 7], [some 2, some 1], [some (-2), some (-1)]] := by decide +kernel

/-- the network bias (of L1X) is added -/
example : bias (.cssr (csDemo 0)) 1 3 ⟨.gps, .C, 103⟩ = some (-5/2) := by decide +kernel

/-- the stored bias of L2W is overwritten by the lookup -/
example : ((findBias 2 lc0 [⟨.gps, .C, 223⟩] 3).toOption.map fun r =>
    (r.1, (r.2.cb.bind fun d => Dict.get? d 3).bind fun d => Dict.get? d ⟨.gps, .C, 223⟩)) = some ([some 7], some (some 7)) := by
  decide +kernel

/-- satellite 3 has ranges without error and clock 9, satellite 7 is edited -/
example : ((zdres (demo 1 (fun _ => 0) fun f => if f = 0 then 20000000 + 2/100 - 299792458/100000 + 5 + 1/10 +
      2 * (403 * 10 ^ 15) / 1575420000 ^ 2 + 5/2 + 9 else 0) (.cssr (csDemo 0))).toOption.map fun r =>
    r.1.map fun row => [row 2, if row 3 = 0 then 0 else 1]) = some [[9, 1], [0, 0]] := by decide +kernel

example : findBias 1 ⟨true, true, some [(130, [])], none, []⟩ [⟨.sbs, .C, 103⟩] 130 = .error .valueError :=
  sbas_missing _ _ _ [(130, [])] [] rfl rfl rfl

end Verif.C91
