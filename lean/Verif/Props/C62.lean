import Verif.Props.C60
/-!
# C62 Contents of the network messages of Compact SSR: combined orbit and clock, and bias corrections

Specification: the bit layout.  After the common header of 21 bits come three flags.  With the network flag set, the
number of a network (5 bits) and one bit per satellite of the mask follow, and only the satellites with a set bit have
an item.
-/

namespace Verif.C62
open Verif.Sat Verif.Sig Verif.Mask Verif.Time Verif.Cssr Verif.C60

/-! ## Specification -/

/-- a single bit of the message -/
def flag (b : BitBuf) (p : Nat) : Bool := bitsAt b p 1 = 1

/-- is the `k`-th satellite of the mask covered?  The third flag of a message is the network flag. -/
def covered (b : BitBuf) (i k : Nat) : Bool := !flag b (i + 23) || flag b (i + 29 + k)
/-- the covered satellites, by place in the mask -/
def satAt (s : St) (b : BitBuf) (i k : Nat) : Option Int := if covered b i k then s.satN[k]? else none
/-- first bit after the flags and the network part -/
def body (s : St) (b : BitBuf) (i : Nat) : Nat := if flag b (i + 23) then i + 29 + s.nsatN else i + 24
/-- correction slot the message is for -/
def slotOf (b : BitBuf) (i inet : Nat) : Nat := if flag b (i + 23) then bitsAt b (i + 24) 5 else inet

/-- epochs after a message at `tm` that brings corrections of the kinds `named sat` for satellite `sat` -/
def Epochs2 (t t' : Dict Int (Dict CType GTime)) (named : Int → CType → Prop) (tm : GTime) : Prop :=
  (∀ sat c, named sat c → look t' sat c = some tm) ∧
  (∀ sat c, ¬ named sat c → (∃ c', named sat c') → look t' sat c =
    if (Dict.get? t sat).isSome then look t sat c else if c ∈ kinds then some ⟨0, 0⟩ else none) ∧
  (∀ sat, (¬ ∃ c, named sat c) → Dict.get? t' sat = Dict.get? t sat)

/-! ## Helpers -/

theorem bitsAt_one {b : BitBuf} {p : Nat} (h : p < b.length) : bitsAt b p 1 = (b[p]).toNat := by
  unfold bitsAt
  have : (b.drop p).take 1 = [b[p]] := by
    rw [List.drop_eq_getElem_cons h]; rfl
  rw [this]
  simp [bitsToNat]

theorem isset_at {b : BitBuf} {p n k : Nat} (h : p + n ≤ b.length) (hk : k < n) :
    isset (bitsAt b p n) n k = .ok (flag b (p + k)) := by
  unfold isset
  rw [if_pos hk]
  have hs : (seg b p n).length = n := seg_length h
  have h1 : (bitsAt b p n).testBit (n - k - 1) = b[p + k]'(by omega) := by
    have hk2 : k < (seg b p n).length := by omega
    have := testBit_bitsToNat (seg b p n) k hk2
    show (bitsToNat (seg b p n)).testBit (n - k - 1) = _
    have e : n - k - 1 = (seg b p n).length - k - 1 := by rw [hs]
    rw [e, this]
    simp [seg]
  have h2 : flag b (p + k) = b[p + k]'(by omega) := by
    unfold flag
    rw [bitsAt_one (by omega)]
    cases b[p + k]'(by omega) <;> rfl
  rw [h2, ← h1, Nat.testBit, Nat.and_comm]

theorem flag_eq {b : BitBuf} {p : Nat} : (bitsAt b p 1 = 1) ↔ flag b p = true := by
  unfold flag; simp

theorem epochs2_refl (t : Dict Int (Dict CType GTime)) (tm : GTime) : Epochs2 t t (fun _ _ => False) tm :=
  ⟨fun _ _ h => h.elim, fun _ _ _ ⟨_, h⟩ => h.elim, fun _ _ => rfl⟩

theorem epochs2_congr {t t' : Dict Int (Dict CType GTime)} {P Q : Int → CType → Prop} {tm : GTime}
    (h : Epochs2 t t' P tm) (e : ∀ sat c, Q sat c ↔ P sat c) : Epochs2 t t' Q tm := by
  have : Q = P := funext fun x => funext fun c => propext (e x c)
  rw [this]; exact h

theorem epochs2_set {t q : Dict Int (Dict CType GTime)} {P : Int → CType → Prop} {tm : GTime}
    (h : Epochs2 t q P tm) (sat : Int) (c : CType) :
    Epochs2 t (addT0 q sat c tm) (fun x c' => P x c' ∨ (x = sat ∧ c' = c)) tm := by
  have hlook : ∀ x c', look (addT0 q sat c tm) x c' = if x = sat then
      (if c' = c then some tm else if (Dict.get? q sat).isSome then look q sat c'
        else if c' ∈ kinds then some ⟨0, 0⟩ else none) else look q x c' := by
    intro x c'
    unfold look addT0 LC.setT0
    simp only
    rw [Dict.get?_set]
    by_cases e : x = sat
    · rw [if_pos e, if_pos e]
      simp only [Option.bind_some]
      rw [Dict.get?_set]
      by_cases e2 : c' = c
      · rw [if_pos e2, if_pos e2]
      · rw [if_neg e2, if_neg e2]
        cases hd : Dict.get? q sat with
        | some d => simp
        | none =>
          simp only [Option.getD_none, Option.isSome_none, Bool.false_eq_true, if_false]
          cases c' <;> rfl
    · rw [if_neg e, if_neg e]
  obtain ⟨h1, h2, h3⟩ := h
  refine ⟨?_, ?_, ?_⟩
  · intro x c' hx
    rw [hlook]
    by_cases e : x = sat
    · rw [if_pos e]
      by_cases e2 : c' = c
      · rw [if_pos e2]
      · have hp : P x c' := hx.resolve_right fun g => e2 g.2
        have hk := h1 x c' hp
        have hs : (Dict.get? q sat).isSome := by
          subst e
          unfold look at hk
          cases hd : Dict.get? q x with
          | some d => rfl
          | none => rw [hd] at hk; cases hk
        rw [if_neg e2, if_pos hs, ← e]; exact hk
    · rw [if_neg e]; exact h1 x c' (hx.resolve_right fun g => e g.1)
  · intro x c' hne hx
    have hn1 : ¬ P x c' := fun g => hne (Or.inl g)
    rw [hlook]
    by_cases e : x = sat
    · subst e
      have e2 : c' ≠ c := fun g => hne (Or.inr ⟨rfl, g⟩)
      rw [if_pos rfl, if_neg e2]
      by_cases hp : ∃ c0, P x c0
      · obtain ⟨c0, hp0⟩ := hp
        have hs : (Dict.get? q x).isSome := by
          have := h1 x c0 hp0
          unfold look at this
          cases hd : Dict.get? q x with
          | some d => rfl
          | none => rw [hd] at this; cases this
        rw [if_pos hs]
        exact h2 x c' hn1 ⟨c0, hp0⟩
      · have := h3 x hp
        unfold look
        rw [this]
    · rw [if_neg e]
      obtain ⟨c0, hc0⟩ := hx
      exact h2 x c' hn1 ⟨c0, hc0.resolve_right fun g => e g.1⟩
  · intro x hx
    have hx1 : ¬ ∃ c0, P x c0 := fun ⟨c0, g⟩ => hx ⟨c0, Or.inl g⟩
    have hx2 : x ≠ sat := fun g => hx ⟨c, Or.inr ⟨g, rfl⟩⟩
    rw [← h3 x hx1]
    unfold addT0 LC.setT0
    simp only
    rw [Dict.get?_set, if_neg hx2]

theorem filled_skip {κ α : Type} [DecidableEq κ] {d : Dict κ α} {f : Nat → Option κ} {v : Nat → α} {n : Nat}
    (h : Filled d f v n) (hk : f n = none) : Filled d f v (n + 1) := by
  intro y
  rw [lastOf, hk, if_neg (by simp), h]

theorem among_skip {f : Nat → Option Int} {n : Nat} (h : f n = none) (x : Int) : among f (n + 1) x ↔ among f n x := by
  constructor
  · rintro ⟨k, hk, e⟩
    rcases Nat.lt_succ_iff_lt_or_eq.1 hk with g | g
    · exact ⟨k, g, e⟩
    · subst g; rw [h] at e; cases e
  · rintro ⟨k, hk, e⟩; exact ⟨k, by omega, e⟩

theorem posOf_le (w : Nat → Nat) (i n : Nat) : i ≤ posOf w i n := by
  induction n with
  | zero => exact Nat.le_refl _
  | succ k ih => exact ih.trans (posOf_mono w i k)

theorem unz {b : BitBuf} {i n : Nat} (h : 0 < n) :
    Exact b.length (i + n) (readUnz b i n) (fun v => v = bitsAt b i n) := by
  unfold readUnz
  rw [if_neg (by omega)]
  exact Exact.u

/-- the satellites of a network -/
def localSats (s : St) (b : BitBuf) (p : Nat) : List Int :=
  ((List.range s.nsatN).filter fun k => flag b (p + k)).map fun k => s.satN.getD k 0

theorem local_spec {s : St} {b : BitBuf} {p : Nat} (hm : s.nsatN = s.satN.length) (h : p + s.nsatN ≤ b.length) :
    decodeLocalSat s (bitsAt b p s.nsatN) = .ok (localSats s b p) := by
  unfold decodeLocalSat localSats
  have key : ∀ n, n ≤ s.nsatN → (List.range n).foldlM (fun (acc : List Int) k => do
      let b ← isset (bitsAt b p s.nsatN) s.nsatN k
      if b then do
        let sat ← pyGet s.satN k
        pure (acc ++ [sat])
      else pure acc) [] =
      (.ok (((List.range n).filter fun k => flag b (p + k)).map fun k => s.satN.getD k 0) : Py (List Int)) := by
    intro n
    induction n with
    | zero => intro _; rfl
    | succ n ih =>
      intro hn
      rw [List.range_succ, List.foldlM_append, ih (by omega), List.filter_append, List.map_append]
      rw [Py.okBind, List.foldlM_cons, isset_at h (by omega)]
      have g1 : s.satN[n]? = some (s.satN[n]'(by omega)) := List.getElem?_eq_getElem (by omega)
      have g2 : s.satN.getD n 0 = s.satN[n]'(by omega) := by rw [List.getD_eq_getElem?_getD, g1]; rfl
      cases hf : flag b (p + n)
      · simp only [List.filter_cons, hf, Bool.false_eq_true, if_false, List.filter_nil, List.map_nil, List.append_nil]
        rfl
      · simp only [List.filter_cons, hf, if_true, List.filter_nil, List.map_cons, List.map_nil, g2]
        have e : pyGet s.satN n = .ok (s.satN[n]'(by omega)) := pyGet_of g1
        rw [Py.okBind]
        simp only [if_true, e]
        rfl
  exact key s.nsatN (Nat.le_refl _)

/-! ## Combined orbit and clock -/

/-- bits of the item of the `k`-th satellite of the mask -/
def combW (s : St) (b : BitBuf) (i k : Nat) : Nat :=
  if covered b i k then
    (if flag b (i + 21) then orbBits false (s.sysN.getD k .none) else 0) + (if flag b (i + 22) then 15 else 0)
  else 0
/-- first bit of that item -/
def combPos (s : St) (b : BitBuf) (i k : Nat) : Nat := posOf (combW s b i) (body s b i) k
/-- first bit of its clock correction -/
def combClk (s : St) (b : BitBuf) (i k : Nat) : Nat :=
  combPos s b i k + if flag b (i + 21) then orbBits false (s.sysN.getD k .none) else 0

/-- kinds of correction in a combined message -/
def combKind (b : BitBuf) (i : Nat) (c : CType) : Prop :=
  (c = .orbit ∧ flag b (i + 21) = true) ∨ (c = .clock ∧ flag b (i + 22) = true)

theorem kinds_one {A E : Prop} {c : CType} {fo fk : Bool} (h : fk = false) :
    ((A ∨ E) ∧ ((c = .orbit ∧ fo = true) ∨ (c = .clock ∧ fk = true))) ↔
    ((A ∧ ((c = .orbit ∧ fo = true) ∨ (c = .clock ∧ fk = true))) ∨ (E ∧ c = .orbit ∧ fo = true)) := by
  subst h
  simp only [Bool.false_eq_true, and_false, or_false]
  tauto

theorem kinds_both {A E : Prop} {c : CType} {fo fk : Bool} (h : fk = true) :
    ((A ∨ E) ∧ ((c = .orbit ∧ fo = true) ∨ (c = .clock ∧ fk = true))) ↔
    (((A ∧ ((c = .orbit ∧ fo = true) ∨ (c = .clock ∧ fk = true))) ∨ (E ∧ c = .orbit ∧ fo = true)) ∨
      (E ∧ c = .clock)) := by
  subst h
  simp only [and_true]
  tauto

set_option maxHeartbeats 1000000 in
/-- **Combined orbit and clock corrections.** -/
theorem combined_content (s : St) (b : BitBuf) (i inet : Nat) (l : LC) (hc : s.cfg = cfgClas)
    (hm : MaskOk s) (hl : s.lc[slotOf b i inet]? = some l) (hiod : (bitsAt b (i + 17) 4 : Int) = s.iodssr)
    (hz : flag b (i + 23) = true → 0 < s.nsatN) :
    Exact b.length (combPos s b i s.nsatN) (decodeCssrComb s b i inet) (fun r => ∃ tow tm d e c q,
      Stamp false s (bitsAt b i 12) tow tm ∧
      r = ({ s with tow := tow, time := tm, flgNet := flag b (i + 23),
                    inet := if flag b (i + 23) then (bitsAt b (i + 24) 5 : Int) else s.inet,
                    udi := fun c => if (c = .orbit ∧ flag b (i + 21)) ∨ (c = .clock ∧ flag b (i + 22))
                      then bitsAt b (i + 12) 4 else s.udi c,
                    lc := s.lc.set (slotOf b i inet)
                      { l with dorb := d, iode := e, dclk := c, t0 := q,
                               svmask := if flag b (i + 23) then bitsAt b (i + 29) s.nsatN else l.svmask,
                               cstat := (l.cstat ||| if flag b (i + 22) then 4 else 0) |||
                                 if flag b (i + 21) then 2 else 0 } },
            (combPos s b i s.nsatN : Int)) ∧
      (if flag b (i + 21) then Filled d (satAt s b i)
          (fun k => orbVal false b (combPos s b i k + issueBits (s.sysN.getD k .none))) s.nsatN ∧
        Filled e (satAt s b i) (fun k => bitsAt b (combPos s b i k) (issueBits (s.sysN.getD k .none))) s.nsatN
       else d = l.dorb ∧ e = l.iode) ∧
      (if flag b (i + 22) then Filled c (satAt s b i)
          (fun k => num false (intAt b (combClk s b i k) 15) 15 (16 / 10000)) s.nsatN
       else c = l.dclk) ∧
      Epochs2 l.t0 q (fun sat c => among (satAt s b i) s.nsatN sat ∧ combKind b i c) tm) := by
  have hc' : s.cfg = cfgOf false := hc
  have hbody : i + 24 ≤ body s b i := by unfold body; split <;> omega
  have hend : body s b i ≤ combPos s b i s.nsatN := posOf_le _ _ _
  unfold decodeCssrComb
  refine Exact.bind (head_spec false s b i hc') (by simp only [hdr]; simp; omega) ?_
  rintro ⟨s1, h, j⟩ ⟨tow, tm, hS, h1, h2, h3, h4⟩ hlen
  simp only at h1 h2 h3 h4 ⊢
  have hj : j = i + 21 := h4
  subst h1 hj
  clear h4
  have h3' : h.iodssr = s.iodssr := by rw [h3]; exact hiod
  have hne : ¬ (s.iodssr ≠ h.iodssr) := by rw [h3']; exact fun h => h rfl
  simp only [if_neg hne]
  refine Exact.bind Exact.u (by omega) fun orb ho _ => Exact.bind Exact.u (by omega) fun clk hk _ =>
    Exact.bind Exact.u (by omega) fun net hn hlen2 => ?_
  have eo : orb = 1 ↔ flag b (i + 21) = true := by rw [ho]; exact flag_eq
  have ek : clk = 1 ↔ flag b (i + 22) = true := by rw [hk]; exact flag_eq
  have en : net = 1 ↔ flag b (i + 23) = true := by rw [hn]; exact flag_eq
  clear ho hk hn
  set fo := flag b (i + 21) with hfo
  set fk := flag b (i + 22) with hfk
  set fn := flag b (i + 23) with hfn
  simp only [eo, ek, en]
  set sA : St := { s with tow := tow, time := tm, flgNet := fn, inet := if fn then (bitsAt b (i + 24) 5 : Int) else s.inet } with hsA
  set lA : LC := { l with svmask := if fn then bitsAt b (i + 29) s.nsatN else l.svmask } with hlA
  set N := slotOf b i inet with hN
  have hlA2 : sA.lc[N]? = some l := hl
  refine Exact.bind (Q := fun r : St × Nat × Nat × Nat => r = (put sA N lA, body s b i, N,
    if fn then bitsAt b (i + 29) s.nsatN else 0)) (p := body s b i) ?_ hend ?_
  · cases hfv : fn
    · have e1 : body s b i = i + 24 := by unfold body; rw [← hfn, hfv]; rfl
      have e2 : N = inet := by rw [hN]; unfold slotOf; rw [← hfn, hfv]; rfl
      rw [if_neg (by simp)]
      refine Exact.ret (by omega) ?_
      have e3 : lA = l := by rw [hlA, hfv]; rfl
      rw [e3, put_self hlA2, e1, e2, hsA, hfv]
      rfl
    · have e1 : body s b i = i + 29 + s.nsatN := by unfold body; rw [← hfn, hfv]; rfl
      have e2 : N = bitsAt b (i + 24) 5 := by rw [hN]; unfold slotOf; rw [← hfn, hfv]; rfl
      rw [if_pos rfl]
      refine Exact.bind Exact.u (by omega) fun x hx _ => Exact.bind (unz (hz hfv)) (by rw [e1]) fun m hm2 hle => ?_
      have hxN : x = N := by rw [hx, e2]
      subst hxN hm2
      refine Exact.step (modLC_eq (s := { s with tow := tow, time := tm, flgNet := decide (true = true), inet := (N : Int) })
        hl _) (Exact.ret (by rw [e1]; omega) ?_)
      rw [hlA, hsA, hfv, e1]
      simp only [if_true]
      rw [← e2]
      rfl
  rintro _ rfl hlen3
  simp only
  -- emptied tables
  set uu := h.udi with huu
  set sB : St := { sA with udi := fun c => if (c = .orbit ∧ fo = true) ∨ (c = .clock ∧ fk = true) then uu else s.udi c } with hsB
  set sO : St := { sA with udi := fun c => if (c = .orbit ∧ fo = true) then uu else s.udi c } with hsO
  set lO : LC := { lA with dorb := if fo then [] else l.dorb, iode := if fo then [] else l.iode } with hlO
  refine Exact.bind (Q := fun r : St => r = put sO N lO) (p := body s b i) ?_ hend ?_
  · cases hfv : fo
    · rw [if_neg (by simp)]
      refine Exact.ret hlen3 ?_
      rw [hsO, hlO, hfv]
      simp only [Bool.false_eq_true, and_false, if_false]
      rfl
    · rw [if_pos rfl]
      refine Exact.step (modLC_put hlA2 _ _) (Exact.ret hlen3 ?_)
      rw [hsO, hlO, hfv]
      simp only [and_true, if_true]
      rfl
  rintro _ rfl _
  set lB : LC := { lA with dorb := if fo then [] else l.dorb, iode := if fo then [] else l.iode,
                           dclk := if fk then [] else l.dclk } with hlB
  refine Exact.bind (Q := fun r : St => r = put sB N lB) (p := body s b i) ?_ hend ?_
  · cases hfv : fk
    · rw [if_neg (by simp)]
      refine Exact.ret hlen3 ?_
      rw [hsB, hsO, hlB, hfv]
      simp only [Bool.false_eq_true, and_false, if_false, or_false]
      rfl
    · rw [if_pos rfl]
      refine Exact.step (modLC_put (s := sO) hlA2 _ _) (Exact.ret hlen3 ?_)
      rw [hsB, hsO, hlB, hfv]
      simp only [and_true, if_true]
      unfold setUdi put
      simp only
      congr 1
      funext c
      by_cases e1 : c = .clock
      · rw [if_pos e1, if_pos (Or.inr e1)]
      · rw [if_neg e1]
        by_cases e2 : c = .orbit ∧ fo = true
        · rw [if_pos e2, if_pos (Or.inl e2)]
        · rw [if_neg e2, if_neg (fun g => g.elim e2 e1)]
  rintro _ rfl _
  have hlB2 : sB.lc[N]? = some l := hl
  -- satellites
  set P : Nat → St × Nat → Prop := fun n r => ∃ d e c q,
      r = (put sB N { lB with dorb := d, iode := e, dclk := c, t0 := q }, combPos s b i n) ∧
      (if fo then Filled d (satAt s b i)
          (fun k => orbVal false b (combPos s b i k + issueBits (s.sysN.getD k .none))) n ∧
        Filled e (satAt s b i) (fun k => bitsAt b (combPos s b i k) (issueBits (s.sysN.getD k .none))) n
       else d = l.dorb ∧ e = l.iode) ∧
      (if fk then Filled c (satAt s b i)
          (fun k => num false (intAt b (combClk s b i k) 15) 15 (16 / 10000)) n
       else c = l.dclk) ∧
      Epochs2 l.t0 q (fun sat c => among (satAt s b i) n sat ∧ combKind b i c) tm with hP
  refine Exact.bind (Q := P s.nsatN) (p := combPos s b i s.nsatN) ?_ (Nat.le_refl _) ?_
  · refine Exact.range (I := P) (pos := combPos s b i) (posOf_mono _ _) hlen3 ?_ ?_
    · refine ⟨lB.dorb, lB.iode, lB.dclk, lB.t0, rfl, ?_, ?_, epochs2_congr (epochs2_refl _ _) fun x c => ?_⟩
      · cases hfv : fo
        · rw [if_neg (by simp), hlB, hfv]; exact ⟨rfl, rfl⟩
        · rw [if_pos rfl, hlB, hfv]; exact ⟨filled_nil _ _, filled_nil _ _⟩
      · cases hfv : fk
        · rw [if_neg (by simp), hlB, hfv]; rfl
        · rw [if_pos rfl, hlB, hfv]; exact filled_nil _ _
      · rw [among_zero]; simp
    · rintro k _ hk ⟨d, e, c, q, rfl, hd, hcl, hq⟩ hlk
      have hk1 : k < s.satN.length := by rw [← hm.sats]; exact hk
      have hk2 : k < s.sysN.length := by rw [hm.syss]; exact hk
      have g1 : s.satN[k]? = some s.satN[k] := List.getElem?_eq_getElem hk1
      have g2 : s.sysN[k]? = some s.sysN[k] := List.getElem?_eq_getElem hk2
      have g3 : s.sysN.getD k .none = s.sysN[k] := by rw [List.getD_eq_getElem?_getD, g2]; rfl
      have hcov : (if fn = true then isset (if fn then bitsAt b (i + 29) s.nsatN else 0) sB.nsatN k else pure true) =
          (.ok (covered b i k) : Py Bool) := by
        unfold covered
        rw [← hfn]
        cases hfv : fn
        · rfl
        · rw [if_pos rfl, if_pos rfl]
          have : i + 29 + s.nsatN ≤ b.length := by
            have e1 : body s b i = i + 29 + s.nsatN := by unfold body; rw [← hfn, hfv]; rfl
            omega
          exact isset_at this hk
      refine Exact.step hcov ?_
      have hps : combPos s b i (k + 1) = combPos s b i k + combW s b i k := rfl
      cases hcv : covered b i k
      · have hsn : satAt s b i k = none := by unfold satAt; rw [hcv]; rfl
        have hw : combPos s b i (k + 1) = combPos s b i k := by rw [hps]; unfold combW; rw [hcv]; rfl
        rw [if_neg (by simp)]
        refine Exact.ret (by rw [hw]; exact hlk) ⟨d, e, c, q, by rw [hw], ?_, ?_, epochs2_congr hq fun x c => ?_⟩
        · cases hfv : fo
          · rw [hfv, if_neg (by simp)] at hd; rw [if_neg (by simp)]; exact hd
          · rw [hfv, if_pos rfl] at hd; rw [if_pos rfl]
            exact ⟨filled_skip hd.1 hsn, filled_skip hd.2 hsn⟩
        · cases hfv : fk
          · rw [hfv, if_neg (by simp)] at hcl; rw [if_neg (by simp)]; exact hcl
          · rw [hfv, if_pos rfl] at hcl; rw [if_pos rfl]
            exact filled_skip hcl hsn
        · rw [among_skip hsn]
      · have hsn : satAt s b i k = some s.satN[k] := by unfold satAt; rw [hcv]; exact g1
        have hw : combPos s b i (k + 1) = combClk s b i k + if fk then 15 else 0 := by
          rw [hps]; unfold combW combClk; rw [hcv, if_pos rfl, ← hfo, ← hfk, Nat.add_assoc]
        rw [if_pos rfl]
        refine Exact.step (a := s.satN[k]) (pyGet_of g1) ?_
        refine Exact.bind (Q := fun r : St × Nat => ∃ d e q,
            r = (put sB N { lB with dorb := d, iode := e, dclk := c, t0 := q }, combClk s b i k) ∧
            (if fo then Filled d (satAt s b i)
                (fun k => orbVal false b (combPos s b i k + issueBits (s.sysN.getD k .none))) (k + 1) ∧
              Filled e (satAt s b i) (fun k => bitsAt b (combPos s b i k) (issueBits (s.sysN.getD k .none))) (k + 1)
             else d = l.dorb ∧ e = l.iode) ∧
            Epochs2 l.t0 q (fun sat c => (among (satAt s b i) k sat ∧ combKind b i c) ∨
              (sat = s.satN[k] ∧ c = .orbit ∧ fo = true)) tm) (p := combClk s b i k) ?_ (by rw [hw]; omega) ?_
        · cases hfv : fo
          · rw [if_neg (by simp)]
            have e0 : combClk s b i k = combPos s b i k := by unfold combClk; rw [← hfo, hfv]; rfl
            refine Exact.ret (by rw [e0]; exact hlk) ⟨d, e, q, by rw [e0], ?_, epochs2_congr hq fun x c => by simp⟩
            rw [hfv, if_neg (by simp)] at hd; rw [if_neg (by simp)]; exact hd
          · rw [hfv, if_pos rfl] at hd
            rw [if_pos rfl]
            have e0 : combClk s b i k = combPos s b i k + orbBits false s.sysN[k] := by
              unfold combClk; rw [← hfo, hfv, g3]; rfl
            refine Exact.step (a := s.sysN[k]) (pyGet_of g2) ?_
            refine Exact.bind (orbSat_spec false hlB2 hc _ b (combPos s b i k) s.satN[k] s.sysN[k])
              (by rw [e0]) ?_
            rintro _ rfl hle2
            refine Exact.step (modLC_put hlB2 _ _) (Exact.ret (by rw [e0]; exact hle2) ?_)
            refine ⟨Dict.set d s.satN[k] (orbVal false b (combPos s b i k + issueBits s.sysN[k])),
              Dict.set e s.satN[k] (bitsAt b (combPos s b i k) (issueBits s.sysN[k])), addT0 q s.satN[k] .orbit tm,
              ?_, ?_, epochs2_congr (epochs2_set hq s.satN[k] .orbit) fun x c => ?_⟩
            · rw [e0]; rfl
            · rw [if_pos rfl]
              exact ⟨filled_set hd.1 hsn (by simp only [g3]), filled_set hd.2 hsn (by simp only [g3])⟩
            · simp
        · rintro _ ⟨d, e, q, rfl, hd, hq⟩ hlc
          cases hfv : fk
          · rw [if_neg (by simp)]
            have e0 : combPos s b i (k + 1) = combClk s b i k := by rw [hw, hfv]; rfl
            refine Exact.ret (by rw [e0]; exact hlc) ⟨d, e, c, q, by rw [e0], hd, ?_, epochs2_congr hq fun x c => ?_⟩
            · rw [hfv, if_neg (by simp)] at hcl; rw [if_neg (by rw [hfv]; simp)]; exact hcl
            · rw [among_succ hsn]
              exact kinds_one hfv
          · rw [hfv, if_pos rfl] at hcl
            rw [if_pos rfl]
            have e0 : combPos s b i (k + 1) = combClk s b i k + 15 := by rw [hw, hfv]; rfl
            refine Exact.bind (clkSat_spec false hlB2 hc _ b (combClk s b i k) s.satN[k] 1 (fun h => by cases h))
              (Nat.le_of_eq e0.symm) ?_
            rintro _ rfl hle2
            refine Exact.step (modLC_put hlB2 _ _) (Exact.ret (by rw [e0]; exact hle2) ?_)
            refine ⟨d, e, Dict.set c s.satN[k] (num false (intAt b (combClk s b i k) 15) 15 (16 / 10000)),
              addT0 q s.satN[k] .clock tm, ?_, hd, ?_, epochs2_congr (epochs2_set hq s.satN[k] .clock) fun x c => ?_⟩
            · rw [e0]; rfl
            · rw [if_pos hfv]
              exact filled_set hcl hsn rfl
            · rw [among_succ hsn]
              exact kinds_both hfv
  · rintro _ ⟨d, e, c, q, rfl, hd, hcl, hq⟩ hle2
    refine Exact.bind (Q := fun r : St => r = put sB N
      { lB with dorb := d, iode := e, dclk := c, t0 := q, cstat := l.cstat ||| if fk then 4 else 0 }) (p := combPos s b i s.nsatN) ?_ (Nat.le_refl _) ?_
    · cases hfv : fk
      · rw [if_neg (by simp)]
        exact Exact.ret hle2 (by simp only [Bool.false_eq_true, if_false, Nat.or_zero]; rfl)
      · rw [if_pos rfl]
        have e : setStat (put sB N { lB with dorb := d, iode := e, dclk := c, t0 := q }) N .clock = _ := modLC_put hlB2 _ _
        rw [e]
        exact Exact.ret hle2 rfl
    rintro _ rfl _
    refine Exact.bind (Q := fun r : St => r = put sB N
      { lB with dorb := d, iode := e, dclk := c, t0 := q,
                cstat := (l.cstat ||| if fk then 4 else 0) ||| if fo then 2 else 0 }) (p := combPos s b i s.nsatN) ?_ (Nat.le_refl _) ?_
    · cases hfv : fo
      · rw [if_neg (by simp)]
        exact Exact.ret hle2 (by simp only [Bool.false_eq_true, if_false, Nat.or_zero])
      · rw [if_pos rfl]
        have e : setStat (put sB N
          { lB with dorb := d, iode := e, dclk := c, t0 := q, cstat := l.cstat ||| if fk then 4 else 0 }) N .orbit = _ := modLC_put hlB2 _ _
        rw [e]
        exact Exact.ret hle2 rfl
    rintro _ rfl _
    refine Exact.ret hle2 ⟨tow, tm, d, e, c, q, hS, ?_, hd, hcl, hq⟩
    have hu : uu = bitsAt b (i + 12) 4 := h2
    rw [← hu]
    rfl

/-- A combined message of another issue is ignored but for the running time. -/
theorem combined_other_issue (s : St) (b : BitBuf) (i inet : Nat) (hc : s.cfg = cfgClas)
    (hiod : (bitsAt b (i + 17) 4 : Int) ≠ s.iodssr) :
    Exact b.length (i + 21) (decodeCssrComb s b i inet) (fun r => ∃ tow tm,
      Stamp false s (bitsAt b i 12) tow tm ∧ r = ({ s with tow := tow, time := tm }, -1)) := by
  have hc' : s.cfg = cfgOf false := hc
  unfold decodeCssrComb
  refine Exact.bind (head_spec false s b i hc') (Nat.le_refl _) ?_
  rintro ⟨s1, h, j⟩ ⟨tow, tm, hS, h1, h2, h3, h4⟩ hlen
  simp only at h1 h2 h3 h4 ⊢
  subst h1
  have hne : s.iodssr ≠ h.iodssr := by rw [h3]; exact fun g => hiod g.symm
  simp only [if_pos hne]
  exact Exact.ret hlen ⟨tow, tm, hS, rfl⟩

/-! ## Biases of a network -/

/-- bits per signal: code bias 11, phase bias 15 and counter 2 -/
def sigW (b : BitBuf) (i : Nat) : Nat := (if flag b (i + 21) then 11 else 0) + (if flag b (i + 22) then 17 else 0)
/-- bits of the items of the `k`-th satellite of the mask -/
def biasW (s : St) (b : BitBuf) (i k : Nat) : Nat :=
  if flag b (i + 29 + k) then sigW b i * (sigsOf s k).length else 0
/-- first bit of those items -/
def nbPos (s : St) (b : BitBuf) (i k : Nat) : Nat := posOf (biasW s b i) (i + 29 + s.nsatN) k
/-- first bit of the phase bias of the `j`-th signal -/
def nbPhase (s : St) (b : BitBuf) (i k j : Nat) : Nat :=
  nbPos s b i k + sigW b i * j + if flag b (i + 21) then 11 else 0
/-- the satellites of the network, by place in the mask -/
def netSat (s : St) (b : BitBuf) (i k : Nat) : Option Int := if flag b (i + 29 + k) then s.satN[k]? else none
/-- those with at least one signal -/
def netSig (s : St) (b : BitBuf) (i k : Nat) : Option Int := if flag b (i + 29 + k) then withSig s k else none
/-- kinds of correction in a bias message -/
def biasKind (b : BitBuf) (i : Nat) (c : CType) : Prop :=
  (c = .cbias ∧ flag b (i + 21) = true) ∨ (c = .pbias ∧ flag b (i + 22) = true)

/-- one signal of a satellite, as in the model -/
def sigStep (b : BitBuf) (fc fp : Bool) (sat : Int) (inet : Nat) (si : St × Nat) (j : Nat) : Py (St × Nat) := do
  let (s, i) := si
  let (s, i) ← (if fc = true then do
      let sigs ← Dict.getItem s.sigN sat
      let g ← pyGet sigs j
      let (s, i) ← decodeCbiasSat s b i sat (toTyp g .C) inet
      let s ← modLC s inet fun l => l.setT0 sat .cbias s.time
      pure (s, i)
    else pure (s, i))
  if fp = true then do
    let sigs ← Dict.getItem s.sigN sat
    let g ← pyGet sigs j
    let (s, i) ← decodePbiasSat s b i sat (toTyp g .L) inet
    let s ← modLC s inet fun l => l.setT0 sat .pbias s.time
    pure (s, i)
  else pure (s, i)

theorem rows_skip {α : Type} {C : Dict Int (Dict Sig α)} {sats : Nat → Option Int} {g : Nat → Nat → Option Sig}
    {v : Nat → Nat → α} {m : Nat → Nat} {n : Nat} (h : Rows C sats g v m n) (hs : sats n = none) :
    Rows C sats g v m (n + 1) := by
  intro x
  rw [lastOf, hs, if_neg (by simp)]
  exact h x

theorem kinds_row {A E : Prop} {c : CType} {fc fp : Bool} {j : Nat} :
    ((A ∨ (E ∧ 0 < j + 1)) ∧ ((c = .cbias ∧ fc = true) ∨ (c = .pbias ∧ fp = true))) ↔
    (((A ∨ (E ∧ 0 < j)) ∧ ((c = .cbias ∧ fc = true) ∨ (c = .pbias ∧ fp = true))) ∨ (E ∧ c = .cbias ∧ fc = true)) ∨
      (E ∧ c = .pbias ∧ fp = true) := by
  have : 0 < j + 1 := by omega
  simp only [this, and_true]
  tauto

/-- contents of a table of one satellite and of the others -/
def RowIs {α : Type} (f : Bool) (C C0 : Dict Int (Dict Sig α)) (sat : Int) (g : Nat → Option Sig) (v : Nat → α) (n : Nat) :
    Prop := (f = true → ∃ d, Dict.get? C sat = some d ∧ Filled d g v n) ∧ (f = false → C = C0) ∧
      ∀ x, x ≠ sat → Dict.get? C x = Dict.get? C0 x

theorem biasRow_spec {s : St} {inet : Nat} {l0 : LC} (hl : s.lc[inet]? = some l0)
    (hc : s.cfg = cfgClas) (l : LC) (b : BitBuf) (fc fp : Bool) (p : Nat) (hp : p ≤ b.length) (sat : Int)
    (sigs : List Sig) (hsig : Dict.get? s.sigN sat = some sigs)
    (hd : fc = true → Dict.get? l.cbias sat = some []) (hd2 : fp = true → Dict.get? l.pbias sat = some [])
    (hd3 : fp = true → Dict.get? l.di sat = some [])
    {t : Dict Int (Dict CType GTime)} {A : Int → Prop}
    (ht : Epochs2 t l.t0 (fun x c => A x ∧ ((c = .cbias ∧ fc = true) ∨ (c = .pbias ∧ fp = true))) s.time) (w : Nat)
    (hw : w = (if fc then 11 else 0) + if fp then 17 else 0) :
    Exact b.length (p + w * sigs.length) ((List.range sigs.length).foldlM (sigStep b fc fp sat inet) (put s inet l, p))
      (fun r => ∃ C D E q, r = (put s inet { l with cbias := C, pbias := D, di := E, t0 := q }, p + w * sigs.length) ∧
      RowIs fc C l.cbias sat (fun j => (sigs[j]?).map fun g => ⟨g.sys, .C, g.sig⟩) (fun j => cbVal false b (p + w * j))
        sigs.length ∧
      RowIs fp D l.pbias sat (fun j => (sigs[j]?).map fun g => ⟨g.sys, .L, g.sig⟩)
        (fun j => pbVal false b (p + w * j + if fc then 11 else 0)) sigs.length ∧
      RowIs fp E l.di sat (fun j => (sigs[j]?).map fun g => ⟨g.sys, .L, g.sig⟩)
        (fun j => bitsAt b (p + w * j + (if fc then 11 else 0) + 15) 2) sigs.length ∧
      Epochs2 t q (fun x c => (A x ∨ (x = sat ∧ 0 < sigs.length)) ∧
        ((c = .cbias ∧ fc = true) ∨ (c = .pbias ∧ fp = true))) s.time) := by
  refine Exact.range (I := fun n (r : St × Nat) => ∃ C D E q,
      r = (put s inet { l with cbias := C, pbias := D, di := E, t0 := q }, p + w * n) ∧
      RowIs fc C l.cbias sat (fun j => (sigs[j]?).map fun g => ⟨g.sys, .C, g.sig⟩) (fun j => cbVal false b (p + w * j)) n ∧
      RowIs fp D l.pbias sat (fun j => (sigs[j]?).map fun g => ⟨g.sys, .L, g.sig⟩)
        (fun j => pbVal false b (p + w * j + if fc then 11 else 0)) n ∧
      RowIs fp E l.di sat (fun j => (sigs[j]?).map fun g => ⟨g.sys, .L, g.sig⟩)
        (fun j => bitsAt b (p + w * j + (if fc then 11 else 0) + 15) 2) n ∧
      Epochs2 t q (fun x c => (A x ∨ (x = sat ∧ 0 < n)) ∧
        ((c = .cbias ∧ fc = true) ∨ (c = .pbias ∧ fp = true))) s.time) (pos := fun n => p + w * n)
    (fun k => by rw [Nat.mul_add]; omega) hp ?_ ?_
  · refine ⟨l.cbias, l.pbias, l.di, l.t0, rfl, ⟨fun h => ⟨[], hd h, filled_nil _ _⟩, fun _ => rfl, fun _ _ => rfl⟩,
      ⟨fun h => ⟨[], hd2 h, filled_nil _ _⟩, fun _ => rfl, fun _ _ => rfl⟩,
      ⟨fun h => ⟨[], hd3 h, filled_nil _ _⟩, fun _ => rfl, fun _ _ => rfl⟩, epochs2_congr ht fun x c => by simp⟩
  rintro k _ hk ⟨C, D, E, q, rfl, hC, hD, hE, hq⟩ hlk
  have g1 : sigs[k]? = some sigs[k] := List.getElem?_eq_getElem hk
  unfold sigStep
  simp only
  have hnext : p + w * (k + 1) = p + w * k + (if fc then 11 else 0) + if fp then 17 else 0 := by
    rw [Nat.mul_add, Nat.mul_one]; omega
  refine Exact.bind (Q := fun r : St × Nat => ∃ C q,
      r = (put s inet { l with cbias := C, pbias := D, di := E, t0 := q }, p + w * k + if fc then 11 else 0) ∧
      RowIs fc C l.cbias sat (fun j => (sigs[j]?).map fun g => ⟨g.sys, .C, g.sig⟩) (fun j => cbVal false b (p + w * j))
        (k + 1) ∧
      Epochs2 t q (fun x c => ((A x ∨ (x = sat ∧ 0 < k)) ∧
        ((c = .cbias ∧ fc = true) ∨ (c = .pbias ∧ fp = true))) ∨ (x = sat ∧ c = .cbias ∧ fc = true)) s.time)
    (p := p + w * k + if fc then 11 else 0) ?_ (by simp only [hnext]; omega) ?_
  · cases hfv : fc
    · rw [if_neg (by simp)]
      refine Exact.ret (by simpa using hlk) ⟨C, q, rfl, ⟨fun h => (by cases h), hfv ▸ hC.2.1, hC.2.2⟩,
        epochs2_congr hq fun x c => ?_⟩
      rw [hfv]; simp
    · rw [if_pos rfl]
      obtain ⟨d, hg, hF⟩ := hC.1 hfv
      refine Exact.step (a := sigs) (getItem_of hsig) (Exact.step (a := sigs[k]) (pyGet_of g1) ?_)
      refine Exact.bind (cbSat_spec false hl hc _ b (p + w * k) sat (toTyp sigs[k] .C) d hg) (Nat.le_refl _) ?_
      rintro _ rfl hle
      refine Exact.step (modLC_put hl _ _) (Exact.ret hle ?_)
      refine ⟨Dict.set C sat (Dict.set d (toTyp sigs[k] .C) (cbVal false b (p + w * k))), addT0 q sat .cbias s.time, rfl,
        ⟨fun _ => ⟨_, Dict.get?_set_self _ _ _, filled_set hF ?_ rfl⟩, fun h => (by cases h), fun x hx => ?_⟩,
        epochs2_congr (epochs2_set hq sat .cbias) fun x c => ?_⟩
      · simp only [g1]; rfl
      · rw [Dict.get?_set, if_neg hx]; exact hC.2.2 x hx
      · rw [hfv]; simp
  rintro _ ⟨C, q, rfl, hC, hq⟩ hlk2
  cases hfv : fp
  · rw [if_neg (by simp)]
    have e0 : p + w * (k + 1) = p + w * k + if fc then 11 else 0 := by rw [hnext, hfv]; rfl
    refine Exact.ret (by rw [e0]; exact hlk2) ⟨C, D, E, q, by rw [e0], hC,
      ⟨fun h => (by cases h), hfv ▸ hD.2.1, hD.2.2⟩, ⟨fun h => (by cases h), hfv ▸ hE.2.1, hE.2.2⟩,
      epochs2_congr hq fun x c => ?_⟩
    rw [kinds_row, hfv]; simp
  · rw [if_pos rfl]
    obtain ⟨d, hg, hF⟩ := hD.1 hfv
    obtain ⟨e, he, hG⟩ := hE.1 hfv
    have e0 : p + w * (k + 1) = p + w * k + (if fc then 11 else 0) + 17 := by rw [hnext, hfv]; rfl
    refine Exact.step (a := sigs) (getItem_of hsig) (Exact.step (a := sigs[k]) (pyGet_of g1) ?_)
    refine Exact.bind (pbSat_spec false hl hc _ b (p + w * k + if fc then 11 else 0) sat (toTyp sigs[k] .L) d e hg he)
      (Nat.le_of_eq e0.symm) ?_
    rintro _ rfl hle
    refine Exact.step (modLC_put hl _ _) (Exact.ret (by rw [e0]; exact hle) ?_)
    refine ⟨C, Dict.set D sat (Dict.set d (toTyp sigs[k] .L) (pbVal false b (p + w * k + if fc then 11 else 0))),
      Dict.set E sat (Dict.set e (toTyp sigs[k] .L) (bitsAt b (p + w * k + (if fc then 11 else 0) + 15) 2)),
      addT0 q sat .pbias s.time, by rw [e0]; rfl, hC,
      ⟨fun _ => ⟨_, Dict.get?_set_self _ _ _, filled_set hF ?_ rfl⟩, fun h => (by cases h), fun x hx => ?_⟩,
      ⟨fun _ => ⟨_, Dict.get?_set_self _ _ _, filled_set hG ?_ rfl⟩, fun h => (by cases h), fun x hx => ?_⟩,
      epochs2_congr (epochs2_set hq sat .pbias) fun x c => ?_⟩
    · simp only [g1]; rfl
    · rw [Dict.get?_set, if_neg hx]; exact hD.2.2 x hx
    · simp only [g1]; rfl
    · rw [Dict.get?_set, if_neg hx]; exact hE.2.2 x hx
    · rw [kinds_row, hfv]; simp

theorem netSig_row {s : St} {b : BitBuf} {i k : Nat} {sat : Int} (g1 : s.satN[k]? = some sat)
    (hf : flag b (i + 29 + k) = true) (x : Int) :
    among (netSig s b i) (k + 1) x ↔ among (netSig s b i) k x ∨ (x = sat ∧ 0 < (sigsOf s k).length) := by
  by_cases e : sigsOf s k = []
  · have hw : netSig s b i k = none := by unfold netSig withSig; rw [hf, if_pos rfl, if_pos e]
    rw [among_skip hw, e]
    simp
  · have hw : netSig s b i k = some sat := by unfold netSig withSig; rw [hf, if_pos rfl, if_neg e]; exact g1
    rw [among_succ hw]
    have : 0 < (sigsOf s k).length := List.length_pos_of_ne_nil e
    simp [this]

/-- the numbers of signals belong to the mask in force (true after a mask message without repeated satellites) -/
def SigCount (s : St) : Prop := ∀ k, k < s.nsatN → s.nsigN[k]? = some (sigsOf s k).length

theorem mask_counts (s : St) (msg : BitBuf) (i : Nat) (hi : i ≤ msg.length) (hlc : s.lc ≠ []) {s' : St} {j : Int}
    (h : decodeCssrMask s msg i = .ok (s', j)) (hn : s'.satN.Nodup) : SigCount s' := by
  have hm := mask_lists s msg i hi hlc h
  obtain ⟨h1, -, -, -, -, -, -, h8⟩ := C11.accepted_consistent s msg i hi hlc h
  intro k hk
  have hk1 : k < s'.satN.length := by rw [← h1]; exact hk
  have g1 : s'.satN[k]? = some s'.satN[k] := List.getElem?_eq_getElem hk1
  have := h8 hn k _ g1
  rw [sigs_of hm g1] at this
  rw [← this]; rfl

set_option maxHeartbeats 1000000 in
/-- **Bias corrections of a network.** -/
theorem bias_content (s : St) (b : BitBuf) (i inet : Nat) (l : LC) (hc : s.cfg = cfgClas)
    (hm : MaskOk s) (hsc : SigCount s) (hnet : flag b (i + 23) = true) (hl : s.lc[bitsAt b (i + 24) 5]? = some l)
    (hz : 0 < s.nsatN) :
    Exact b.length (nbPos s b i s.nsatN) (decodeCssrBias s b i inet) (fun r => ∃ tow tm C D E q,
      Stamp false s (bitsAt b i 12) tow tm ∧
      r = ({ s with tow := tow, time := tm, flgNet := true, inet := (bitsAt b (i + 24) 5 : Int),
                    udi := fun c => if (c = .cbias ∧ flag b (i + 21)) ∨ (c = .pbias ∧ flag b (i + 22))
                      then bitsAt b (i + 12) 4 else s.udi c,
                    iodssrC := fun c => if (c = .cbias ∧ flag b (i + 21)) ∨ (c = .pbias ∧ flag b (i + 22))
                      then (bitsAt b (i + 17) 4 : Int) else s.iodssrC c,
                    lc := s.lc.set (bitsAt b (i + 24) 5)
                      { l with cbias := C, pbias := D, di := E, t0 := q, satN := localSats s b (i + 29),
                               nsatN := (localSats s b (i + 29)).length,
                               cstat := (l.cstat ||| if flag b (i + 21) then 8 else 0) |||
                                 if flag b (i + 22) then 16 else 0 } },
            (nbPos s b i s.nsatN : Int)) ∧
      (if flag b (i + 21) then Rows C (netSat s b i) (sigAt .C s) (fun k j => cbVal false b (nbPos s b i k + sigW b i * j))
          (fun k => (sigsOf s k).length) s.nsatN
       else C = l.cbias) ∧
      (if flag b (i + 22) then Rows D (netSat s b i) (sigAt .L s) (fun k j => pbVal false b (nbPhase s b i k j))
          (fun k => (sigsOf s k).length) s.nsatN ∧
        Rows E (netSat s b i) (sigAt .L s) (fun k j => bitsAt b (nbPhase s b i k j + 15) 2)
          (fun k => (sigsOf s k).length) s.nsatN
       else D = l.pbias ∧ E = l.di) ∧
      Epochs2 l.t0 q (fun sat c => among (netSig s b i) s.nsatN sat ∧ biasKind b i c) tm) := by
  have hc' : s.cfg = cfgOf false := hc
  have hend : i + 29 + s.nsatN ≤ nbPos s b i s.nsatN := posOf_le _ _ _
  unfold decodeCssrBias
  refine Exact.bind (head_spec false s b i hc') (by simp only [hdr]; simp; omega) ?_
  rintro ⟨s1, h, j⟩ ⟨tow, tm, hS, h1, h2, h3, h4⟩ hlen
  simp only at h1 h2 h3 h4 ⊢
  have hj : j = i + 21 := h4
  subst h1 hj
  clear h4
  refine Exact.bind Exact.u (by omega) fun cb ho _ => Exact.bind Exact.u (by omega) fun pb hk _ =>
    Exact.bind Exact.u (by omega) fun net hn hlen2 => ?_
  have eo : cb = 1 ↔ flag b (i + 21) = true := by rw [ho]; exact flag_eq
  have ek : pb = 1 ↔ flag b (i + 22) = true := by rw [hk]; exact flag_eq
  have en : net = 1 := by rw [hn]; exact flag_eq.2 hnet
  clear ho hk hn
  have hsw : sigW b i = (if flag b (i + 21) then 11 else 0) + if flag b (i + 22) then 17 else 0 := rfl
  have hph : ∀ k j, nbPhase s b i k j = nbPos s b i k + sigW b i * j + if flag b (i + 21) then 11 else 0 :=
    fun _ _ => rfl
  have hkind : ∀ c, biasKind b i c ↔ ((c = .cbias ∧ flag b (i + 21) = true) ∨ (c = .pbias ∧ flag b (i + 22) = true)) :=
    fun _ => Iff.rfl
  simp only [hkind]
  generalize flag b (i + 21) = fc at eo hsw hph ⊢
  generalize flag b (i + 22) = fp at ek hsw hph ⊢
  simp only [eo, ek, en, if_true, decide_true]
  set N := bitsAt b (i + 24) 5 with hN
  set sats := localSats s b (i + 29) with hsats
  set sA : St := { s with tow := tow, time := tm, flgNet := true, inet := (N : Int) } with hsA
  set lA : LC := { l with satN := sats, nsatN := sats.length } with hlA
  have hlA2 : sA.lc[N]? = some l := hl
  refine Exact.bind (Q := fun r : St × Nat × Nat × Option Nat => r = (put sA N lA, i + 29 + s.nsatN, N,
    some (bitsAt b (i + 29) s.nsatN))) (p := i + 29 + s.nsatN) ?_ hend ?_
  · refine Exact.bind Exact.u (by omega) fun x hx _ => Exact.bind (unz hz) (Nat.le_refl _) fun m hm2 hle => ?_
    have hxN : x = N := hx
    subst hxN hm2
    have hls := local_spec (s := { s with tow := tow, time := tm, flgNet := true }) (b := b) (p := i + 29) hm.sats hle
    refine Exact.step hls (Exact.step (modLC_eq hlA2 _) (Exact.ret hle ?_))
    rfl
  rintro _ rfl hlen3
  simp only
  set uu := h.udi with huu
  set sB : St := { sA with udi := fun c => if (c = .cbias ∧ fc = true) ∨ (c = .pbias ∧ fp = true) then uu else s.udi c } with hsB
  set sO : St := { sA with udi := fun c => if (c = .cbias ∧ fc = true) then uu else s.udi c } with hsO
  set lO : LC := { lA with cbias := if fc then [] else l.cbias } with hlO
  refine Exact.bind (Q := fun r : St => r = put sO N lO) (p := i + 29 + s.nsatN) ?_ hend ?_
  · cases hfv : fc
    · rw [if_neg (by simp)]
      refine Exact.ret hlen3 ?_
      rw [hsO, hlO, hfv]
      simp only [Bool.false_eq_true, and_false, if_false]
      rfl
    · rw [if_pos rfl]
      refine Exact.step (modLC_put hlA2 _ _) (Exact.ret hlen3 ?_)
      rw [hsO, hlO, hfv]
      simp only [and_true, if_true]
      rfl
  rintro _ rfl _
  set lB : LC := { lA with cbias := if fc then [] else l.cbias, pbias := if fp then [] else l.pbias,
                           di := if fp then [] else l.di } with hlB
  refine Exact.bind (Q := fun r : St => r = put sB N lB) (p := i + 29 + s.nsatN) ?_ hend ?_
  · cases hfv : fp
    · rw [if_neg (by simp)]
      refine Exact.ret hlen3 ?_
      rw [hsB, hsO, hlB, hlO, hfv]
      simp only [Bool.false_eq_true, and_false, if_false, or_false]
      rfl
    · rw [if_pos rfl]
      refine Exact.step (modLC_put (s := sO) hlA2 _ _) (Exact.ret hlen3 ?_)
      rw [hsB, hsO, hlB, hlO, hfv]
      simp only [and_true, if_true]
      unfold setUdi put
      simp only
      congr 1
      funext c
      by_cases e1 : c = .pbias
      · rw [if_pos e1, if_pos (Or.inr e1)]
      · rw [if_neg e1]
        by_cases e2 : c = .cbias ∧ fc = true
        · rw [if_pos e2, if_pos (Or.inl e2)]
        · rw [if_neg e2, if_neg (fun g => g.elim e2 e1)]
  rintro _ rfl _
  have hlB2 : sB.lc[N]? = some l := hl
  set P : Nat → St × Nat → Prop := fun n r => ∃ C D E q,
      r = (put sB N { lB with cbias := C, pbias := D, di := E, t0 := q }, nbPos s b i n) ∧
      (if fc then Rows C (netSat s b i) (sigAt .C s) (fun k j => cbVal false b (nbPos s b i k + sigW b i * j))
          (fun k => (sigsOf s k).length) n
       else C = l.cbias) ∧
      (if fp then Rows D (netSat s b i) (sigAt .L s) (fun k j => pbVal false b (nbPhase s b i k j))
          (fun k => (sigsOf s k).length) n ∧
        Rows E (netSat s b i) (sigAt .L s) (fun k j => bitsAt b (nbPhase s b i k j + 15) 2)
          (fun k => (sigsOf s k).length) n
       else D = l.pbias ∧ E = l.di) ∧
      Epochs2 l.t0 q (fun sat c => among (netSig s b i) n sat ∧
        ((c = .cbias ∧ fc = true) ∨ (c = .pbias ∧ fp = true))) tm with hP
  refine Exact.bind (Q := P s.nsatN) (p := nbPos s b i s.nsatN) ?_ (Nat.le_refl _) ?_
  · refine Exact.range (I := P) (pos := nbPos s b i) (posOf_mono _ _) hlen3 ?_ ?_
    · refine ⟨lB.cbias, lB.pbias, lB.di, lB.t0, rfl, ?_, ?_, epochs2_congr (epochs2_refl _ _) fun x c => ?_⟩
      · cases hfv : fc
        · rw [if_neg (by simp), hlB, hfv]; rfl
        · rw [if_pos rfl, hlB, hfv]; exact rows_nil _ _ _ _
      · cases hfv : fp
        · rw [if_neg (by simp), hlB, hfv]; exact ⟨rfl, rfl⟩
        · rw [if_pos rfl, hlB, hfv]; exact ⟨rows_nil _ _ _ _, rows_nil _ _ _ _⟩
      · rw [among_zero]; simp
    · rintro k _ hk ⟨C, D, E, q, rfl, hC, hD, hq⟩ hlk
      have hk1 : k < s.satN.length := by rw [← hm.sats]; exact hk
      have g1 : s.satN[k]? = some s.satN[k] := List.getElem?_eq_getElem hk1
      have hps : nbPos s b i (k + 1) = nbPos s b i k + biasW s b i k := rfl
      refine Exact.step (a := bitsAt b (i + 29) s.nsatN) rfl (Exact.step (a := flag b (i + 29 + k)) (isset_at hlen3 hk) ?_)
      cases hcv : flag b (i + 29 + k)
      · have hsn : netSat s b i k = none := by unfold netSat; rw [hcv]; rfl
        have hsg : netSig s b i k = none := by unfold netSig; rw [hcv]; rfl
        have hw : nbPos s b i (k + 1) = nbPos s b i k := by rw [hps]; unfold biasW; rw [hcv]; rfl
        rw [if_neg (by simp)]
        refine Exact.ret (by rw [hw]; exact hlk) ⟨C, D, E, q, by rw [hw], ?_, ?_, epochs2_congr hq fun x c => ?_⟩
        · cases hfv : fc
          · rw [hfv, if_neg (by simp)] at hC; rw [if_neg (by simp)]; exact hC
          · rw [hfv, if_pos rfl] at hC; rw [if_pos rfl]; exact rows_skip hC hsn
        · cases hfv : fp
          · rw [hfv, if_neg (by simp)] at hD; rw [if_neg (by simp)]; exact hD
          · rw [hfv, if_pos rfl] at hD; rw [if_pos rfl]; exact ⟨rows_skip hD.1 hsn, rows_skip hD.2 hsn⟩
        · rw [among_skip hsg]
      · have hsn : netSat s b i k = some s.satN[k] := by unfold netSat; rw [hcv]; exact g1
        have hw : nbPos s b i (k + 1) = nbPos s b i k + sigW b i * (sigsOf s k).length := by
          rw [hps]; unfold biasW; rw [hcv, if_pos rfl]
        rw [if_pos rfl]
        refine Exact.step (a := s.satN[k]) (pyGet_of g1) ?_
        set C1 := if fc then Dict.set C s.satN[k] [] else C with hC1
        set D1 := if fp then Dict.set D s.satN[k] [] else D with hD1
        set E1 := if fp then Dict.set E s.satN[k] [] else E with hE1
        refine Exact.step (a := put sB N { lB with cbias := C1, pbias := D, di := E, t0 := q }) ?_ ?_
        · cases hfv : fc
          · rw [if_neg (by simp), hC1, hfv]; rfl
          · rw [if_pos rfl, modLC_put hlB2, hC1, hfv]; rfl
        refine Exact.step (a := put sB N { lB with cbias := C1, pbias := D1, di := E1, t0 := q }) ?_ ?_
        · cases hfv : fp
          · rw [if_neg (by simp), hD1, hE1, hfv]; rfl
          · rw [if_pos rfl, modLC_put hlB2, hD1, hE1, hfv]; rfl
        refine Exact.step (a := (sigsOf s k).length) (pyGet_of (hsc k hk)) ?_
        have row := biasRow_spec hlB2 hc { lB with cbias := C1, pbias := D1, di := E1, t0 := q } b fc fp (nbPos s b i k) hlk
          s.satN[k] (sigsOf s k) (sigs_of hm g1)
          (fun h => by show Dict.get? C1 _ = _; rw [hC1, h]; exact Dict.get?_set_self _ _ _)
          (fun h => by show Dict.get? D1 _ = _; rw [hD1, h]; exact Dict.get?_set_self _ _ _)
          (fun h => by show Dict.get? E1 _ = _; rw [hE1, h]; exact Dict.get?_set_self _ _ _)
          hq (sigW b i) hsw
        rw [hw]
        refine row.mono ?_
        rintro _ ⟨C', D', E', q', rfl, hC', hD', hE', hq'⟩
        refine ⟨C', D', E', q', by rw [hw], ?_, ?_, epochs2_congr hq' fun x c => ?_⟩
        · cases hfv : fc
          · rw [hfv, if_neg (by simp)] at hC
            rw [if_neg (by simp), hC'.2.1 hfv, ← hC, hC1, hfv]; rfl
          · rw [hfv, if_pos rfl] at hC; rw [if_pos rfl]
            obtain ⟨d, hd, hF⟩ := hC'.1 hfv
            refine rows_add hC hsn hd hF fun x hx => ?_
            rw [hC'.2.2 x hx]
            show Dict.get? C1 x = _
            rw [hC1, hfv]
            exact Dict.get?_set_ne _ _ hx
        · cases hfv : fp
          · rw [hfv, if_neg (by simp)] at hD
            rw [if_neg (by simp), hD'.2.1 hfv, hE'.2.1 hfv]
            refine ⟨?_, ?_⟩
            · rw [← hD.1, hD1, hfv]; rfl
            · rw [← hD.2, hE1, hfv]; rfl
          · rw [hfv, if_pos rfl] at hD; rw [if_pos rfl]
            obtain ⟨d, hd, hF⟩ := hD'.1 hfv
            obtain ⟨e, he, hG⟩ := hE'.1 hfv
            simp only [hph]
            simp only [hph] at hD
            refine ⟨rows_add hD.1 hsn hd hF fun x hx => ?_, rows_add hD.2 hsn he hG fun x hx => ?_⟩
            · rw [hD'.2.2 x hx]
              show Dict.get? D1 x = _
              rw [hD1, hfv]
              exact Dict.get?_set_ne _ _ hx
            · rw [hE'.2.2 x hx]
              show Dict.get? E1 x = _
              rw [hE1, hfv]
              exact Dict.get?_set_ne _ _ hx
        · rw [netSig_row g1 hcv]
  · rintro _ ⟨C, D, E, q, rfl, hC, hD, hq⟩ hle2
    set I0 : CType → Int := s.iodssrC with hI0
    set v := h.iodssr with hv
    set s5 : St := { sB with iodssrC := fun c => if (c = .cbias ∧ fc = true) then v else s.iodssrC c } with hs5
    set s6 : St := { sB with iodssrC := fun c => if (c = .cbias ∧ fc = true) ∨ (c = .pbias ∧ fp = true) then v else s.iodssrC c } with hs6
    set l5 : LC := { lB with cbias := C, pbias := D, di := E, t0 := q, cstat := l.cstat ||| if fc then 8 else 0 } with hl5
    set l6 : LC := { lB with cbias := C, pbias := D, di := E, t0 := q,
                             cstat := (l.cstat ||| if fc then 8 else 0) ||| if fp then 16 else 0 } with hl6
    refine Exact.step (a := put s5 N l5) ?_ ?_
    · cases hfv : fc
      · rw [if_neg (by simp), hs5, hl5, hfv]
        simp only [Bool.false_eq_true, and_false, if_false, Nat.or_zero]
        rfl
      · rw [if_pos rfl]
        have e : setStat (setIodC (put sB N { lB with cbias := C, pbias := D, di := E, t0 := q }) .cbias v) N .cbias = _ :=
          modLC_put (s := setIodC sB .cbias v) hlB2 _ _
        rw [e, hs5, hl5, hfv]
        simp only [and_true, if_true]
        rfl
    refine Exact.step (a := put s6 N l6) ?_ (Exact.ret hle2 ⟨tow, tm, C, D, E, q, hS, ?_, hC, hD, hq⟩)
    · cases hfv : fp
      · rw [if_neg (by simp), hs5, hl5, hs6, hl6, hfv]
        simp only [Bool.false_eq_true, and_false, if_false, or_false, Nat.or_zero]
        rfl
      · rw [if_pos rfl]
        have e : setStat (setIodC (put s5 N l5) .pbias v) N .pbias = _ :=
          modLC_put (s := setIodC s5 .pbias v) hlB2 _ _
        rw [e, hs5, hl5, hs6, hl6, hfv]
        simp only [and_true, if_true]
        congr 1
        unfold setIodC put
        simp only
        congr 1
        funext c
        by_cases e1 : c = .pbias
        · rw [if_pos e1, if_pos (Or.inr e1)]
        · rw [if_neg e1]
          by_cases e2 : c = .cbias ∧ fc = true
          · rw [if_pos e2, if_pos (Or.inl e2)]
          · rw [if_neg e2, if_neg (fun g => g.elim e2 e1)]
    · have hu : uu = bitsAt b (i + 12) 4 := h2
      have hv2 : v = (bitsAt b (i + 17) 4 : Int) := h3
      rw [← hu, ← hv2]
      rfl

theorem setUdi_put (s : St) (n : Nat) (l : LC) (c : CType) (u : Nat) :
    setUdi (put s n l) c u = put (setUdi s c u) n l := rfl

/-- A bias message without a network raises as soon as there is a satellite in the mask. -/
theorem bias_no_network (s : St) (b : BitBuf) (i inet : Nat) (l : LC) (hc : s.cfg = cfgClas)
    (hlen : i + 24 ≤ b.length) (hnet : flag b (i + 23) = false) (hl : s.lc[inet]? = some l) (hz : 0 < s.nsatN) :
    decodeCssrBias s b i inet = .error .unboundLocal := by
  have hc' : s.cfg = cfgOf false := hc
  unfold decodeCssrBias
  obtain ⟨⟨s1, h, j⟩, e1, tow, tm, hS, h1, h2, h3, h4⟩ := (head_spec false s b i hc').ok (by simp only [hdr]; simp; omega)
  have hj : j = i + 21 := h4
  simp only at h1
  subst h1 hj
  rw [e1, Py.okBind]
  simp only
  rw [readU_at (by omega), Py.okBind, readU_at (by omega), Py.okBind, readU_at (by omega), Py.okBind]
  have en : ¬ bitsAt b (i + 21 + 2) 1 = 1 := fun g => by
    have := flag_eq.1 g
    rw [hnet] at this; cases this
  simp only [en, if_false]
  show (pure _ >>= _ : Py (St × Int)) = _
  rw [pure_bind]
  simp only
  obtain ⟨n, hn⟩ : ∃ n, s.nsatN = n + 1 := ⟨s.nsatN - 1, by omega⟩
  set s0 : St := { s with tow := tow, time := tm, flgNet := decide False } with hs0
  have hl0 : s0.lc[inet]? = some l := hl
  by_cases g1 : bitsAt b (i + 21) 1 = 1
  · by_cases g2 : bitsAt b (i + 21 + 1) 1 = 1
    · simp only [if_pos g1, if_pos g2, modLC_eq hl0]
      rw [Py.okBind, pure_bind, setUdi_put, modLC_put (s := setUdi s0 .cbias h.udi) hl0, Py.okBind, pure_bind]
      show ((List.range s.nsatN).foldlM _ _ >>= _ : Py (St × Int)) = _
      rw [hn, List.range_succ_eq_map, List.foldlM_cons]
      rfl
    · simp only [if_pos g1, if_neg g2, modLC_eq hl0]
      rw [Py.okBind, pure_bind, pure_bind]
      show ((List.range s.nsatN).foldlM _ _ >>= _ : Py (St × Int)) = _
      rw [hn, List.range_succ_eq_map, List.foldlM_cons]
      rfl
  · by_cases g2 : bitsAt b (i + 21 + 1) 1 = 1
    · simp only [if_neg g1, if_pos g2]
      rw [pure_bind, modLC_eq hl0, Py.okBind, pure_bind]
      show ((List.range s.nsatN).foldlM _ _ >>= _ : Py (St × Int)) = _
      rw [hn, List.range_succ_eq_map, List.foldlM_cons]
      rfl
    · simp only [if_neg g1, if_neg g2]
      rw [pure_bind, pure_bind]
      show ((List.range s.nsatN).foldlM _ _ >>= _ : Py (St × Int)) = _
      rw [hn, List.range_succ_eq_map, List.foldlM_cons]
      rfl

/-- A network message is refused when there is no mask yet. -/
theorem no_mask (s : St) (b : BitBuf) (i inet : Nat) (hc : s.cfg = cfgClas) (hz : s.nsatN = 0)
    (hnet : flag b (i + 23) = true) :
    decodeCssrBias s b i inet = .error .bitstruct ∧
    ((bitsAt b (i + 17) 4 : Int) = s.iodssr → decodeCssrComb s b i inet = .error .bitstruct) := by
  have hc' : s.cfg = cfgOf false := hc
  have hu : ∀ p, readUnz b p s.nsatN = .error .bitstruct := fun p => by unfold readUnz; rw [if_pos hz]
  have rd : ∀ p n, readU b p n = .ok (bitsAt b p n) ∨ readU b p n = .error .bitstruct := fun p n => by
    rcases Nat.lt_or_ge b.length (p + n) with h | h
    · exact Or.inr (Exact.u.err h)
    · exact Or.inl (readU_at h)
  have en : bitsAt b (i + 21 + 2) 1 = 1 := flag_eq.2 hnet
  constructor
  · unfold decodeCssrBias
    rcases Nat.lt_or_ge b.length (i + 21) with g | g
    · rw [(head_spec false s b i hc').err g]; rfl
    obtain ⟨⟨s1, h, j⟩, e1, tow, tm, hS, h1, h2, h3, h4⟩ := (head_spec false s b i hc').ok g
    have hj : j = i + 21 := h4
    simp only at h1
    subst h1 hj
    rw [e1, Py.okBind]
    simp only
    rcases rd (i + 21) 1 with g1 | g1 <;> rw [g1] <;> [skip; rfl]
    rw [Py.okBind]
    rcases rd (i + 21 + 1) 1 with g1 | g1 <;> rw [g1] <;> [skip; rfl]
    rw [Py.okBind]
    rcases rd (i + 21 + 2) 1 with g1 | g1 <;> rw [g1] <;> [skip; rfl]
    rw [Py.okBind, if_pos en]
    rcases rd (i + 21 + 3) 5 with g1 | g1 <;> rw [g1] <;> [skip; rfl]
    rw [Py.okBind, hu]
    rfl
  · intro hiod
    unfold decodeCssrComb
    rcases Nat.lt_or_ge b.length (i + 21) with g | g
    · rw [(head_spec false s b i hc').err g]; rfl
    obtain ⟨⟨s1, h, j⟩, e1, tow, tm, hS, h1, h2, h3, h4⟩ := (head_spec false s b i hc').ok g
    have hj : j = i + 21 := h4
    simp only at h1 h3
    subst h1 hj
    rw [e1, Py.okBind]
    simp only
    have h3' : h.iodssr = s.iodssr := by rw [h3]; exact hiod
    rw [if_neg (by rw [h3']; exact fun h => h rfl)]
    rcases rd (i + 21) 1 with g1 | g1 <;> rw [g1] <;> [skip; rfl]
    rw [Py.okBind]
    rcases rd (i + 21 + 1) 1 with g1 | g1 <;> rw [g1] <;> [skip; rfl]
    rw [Py.okBind]
    rcases rd (i + 21 + 2) 1 with g1 | g1 <;> rw [g1] <;> [skip; rfl]
    rw [Py.okBind, if_pos en]
    rcases rd (i + 21 + 3) 5 with g1 | g1 <;> rw [g1] <;> [skip; rfl]
    rw [Py.okBind, hu]
    rfl

/-! ## Concrete cases -/

/-- header: time 60, update interval 3, issue 5; then the flags "orbit, clock, network", network 1 and the second
satellite only -/
def exComb : BitBuf := exHead ++ [true, true, true] ++ natToBits 5 1 ++ [false, true] ++
  natToBits 10 900 ++ natToBits 15 1 ++ natToBits 13 2 ++ natToBits 13 3 ++ natToBits 15 5

/-- read a part of slot 1 of the result -/
def got1 {α : Type} (r : Py (St × Int)) (f : LC → α) : Option α :=
  match r with
  | .ok (s, _) => (s.lc[1]?).map f
  | .error _ => none

example : (demo false).cfg = cfgClas ∧ MaskOk (demo false) ∧ (demo false).lc[slotOf exComb 0 0]? = some {} ∧
    (bitsAt exComb 17 4 : Int) = (demo false).iodssr ∧ flag exComb 23 = true ∧ 0 < (demo false).nsatN ∧
    combPos (demo false) exComb 0 (demo false).nsatN = exComb.length :=
  ⟨rfl, demo_mask false, by decide +kernel, by decide +kernel, by decide +kernel, by decide, by decide +kernel⟩
example : got1 (decodeCssrComb (demo false) exComb 0) LC.dorb =
    some [(34, (some (16 / 10000), some (128 / 10000), some (192 / 10000)))] := by decide +kernel
example : got1 (decodeCssrComb (demo false) exComb 0) LC.iode = some [(34, 900)] ∧
    got1 (decodeCssrComb (demo false) exComb 0) LC.cstat = some 6 ∧
    stop (decodeCssrComb (demo false) exComb 0) = some (21 + 3 + 7 + 66) := by decide +kernel
example : got1 (decodeCssrComb (demo false) exComb 0) LC.dclk = some [(34, some (8 / 1000))] := by decide +kernel

/-- code and phase bias, network 1, first satellite only (two signals) -/
def exBias : BitBuf := exHead ++ [true, true, true] ++ natToBits 5 1 ++ [true, false] ++
  natToBits 11 100 ++ natToBits 15 7 ++ natToBits 2 1 ++ natToBits 11 1024 ++ natToBits 15 32767 ++ natToBits 2 3

theorem demo_count (has : Bool) : SigCount (demo has) := by
  intro k hk
  have : k < 2 := hk
  rcases (by omega : k = 0 ∨ k = 1) with rfl | rfl <;> rfl

example : (demo false).lc[bitsAt exBias 24 5]? = some {} ∧ flag exBias 23 = true ∧
    nbPos (demo false) exBias 0 (demo false).nsatN = exBias.length :=
  ⟨by decide +kernel, by decide +kernel, by decide +kernel⟩
example : got1 (decodeCssrBias (demo false) exBias 0) LC.cbias =
    some [(1, [(⟨.gps, .C, 223⟩, none), (⟨.gps, .C, 103⟩, some 2)])] := by decide +kernel
example : got1 (decodeCssrBias (demo false) exBias 0) LC.pbias =
    some [(1, [(⟨.gps, .L, 223⟩, some (-1 / 1000)), (⟨.gps, .L, 103⟩, some (7 / 1000))])] := by decide +kernel
example : got1 (decodeCssrBias (demo false) exBias 0) LC.di =
    some [(1, [(⟨.gps, .L, 223⟩, 3), (⟨.gps, .L, 103⟩, 1)])] := by decide +kernel
example : got1 (decodeCssrBias (demo false) exBias 0) LC.satN = some [1] ∧
    got1 (decodeCssrBias (demo false) exBias 0) LC.cstat = some 24 := by decide +kernel

end Verif.C62
