import Verif.Props.C27
/-!
# C26 SBAS fast corrections are gated by the mask issue

Positions are counted from the start of the message; the data field begins at bit 14.
-/

namespace Verif.C26
open Verif.Sbas Verif.Sat

/-! ## Loops -/

/-- value of a 12-bit fast correction: eighths of a metre with the sign reversed, 2047 means not
available -/
def fastVal (u : Int) : Val := if u = 2047 then none else some (-(u / 8))

theorem fastVal_eq (u : Int) : neg (Sval.svalSbas u 12 (1 / 8)) = fastVal u := by
  unfold neg Sval.svalSbas fastVal
  norm_num
  by_cases h : u = 2047
  · rw [if_pos h, if_pos h]; rfl
  · rw [if_neg h, if_neg h, Option.map_some]
    congr 2
    ring

/-- number of fields read for a block of `n` beginning at satellite `j` of a mask of `len` -/
def fieldsRead (n len j : Nat) : Nat := min n (len - j + 1)

theorem fastLoop_spec (msg : BitBuf) (typ : Nat) : ∀ (n : Nat) (s : St) (i k : Nat), i + 12 * n ≤ msg.length → s.sat.Nodup →
    ∃ d, fastLoop s msg i typ k n = .ok ({ s with hclk := d }, i + 12 * fieldsRead n s.sat.length (typ * 13 + k)) ∧
      (∀ j x, j < n → s.sat[typ * 13 + (k + j)]? = some x → Dict.get? d x = some (fastVal (intAt msg (i + 12 * j) 12))) ∧
      (∀ x, (∀ j, j < n → s.sat[typ * 13 + (k + j)]? ≠ some x) → Dict.get? d x = Dict.get? s.hclk x)
  | 0, s, i, k, _, _ => ⟨s.hclk, by simp [fastLoop, fieldsRead], by simp, by simp⟩
  | n + 1, s, i, k, h, hn => by
    rw [fastLoop, readS_at (show i + 12 ≤ msg.length by omega), Py.okBind]
    cases hs : s.sat[typ * 13 + k]? with
    | none =>
      have hl : s.sat.length ≤ typ * 13 + k := List.getElem?_eq_none_iff.1 hs
      refine ⟨s.hclk, ?_, ?_, ?_⟩
      · simp only
        unfold fieldsRead
        rw [show min (n + 1) (s.sat.length - (typ * 13 + k) + 1) = 1 by omega]
        rfl
      · intro j x _ hj
        rw [List.getElem?_eq_none (by omega)] at hj
        cases hj
      · intro x _; rfl
    | some sat =>
      simp only
      have hl : typ * 13 + k < s.sat.length := (List.getElem?_eq_some_iff.1 hs).1
      have hcur := (List.getElem?_eq_some_iff.1 hs).2
      obtain ⟨d, e, h1, h2⟩ := fastLoop_spec msg typ n
        { s with hclk := Dict.set s.hclk sat (neg (Sval.svalSbas (intAt msg i 12) 12 (1 / 8))) } (i + 12) (k + 1) (by omega) hn
      refine ⟨d, ?_, ?_, ?_⟩
      · rw [e]
        simp only
        have : 12 + 12 * fieldsRead n s.sat.length (typ * 13 + (k + 1)) = 12 * fieldsRead (n + 1) s.sat.length (typ * 13 + k) := by
          unfold fieldsRead; omega
        rw [← this, Nat.add_assoc]
      · intro j x hj hx
        cases j with
        | zero =>
          have hx' : x = sat := by
            rw [Nat.add_zero, hs] at hx
            exact (Option.some.inj hx).symm
          rw [h2 x ?_, hx', Dict.get?_set, if_pos rfl, fastVal_eq]
          · rfl
          · intro j' _ hc
            simp only at hc
            obtain ⟨l', hc'⟩ := List.getElem?_eq_some_iff.1 hc
            rw [hx', ← hcur] at hc'
            have := (List.Nodup.getElem_inj_iff hn).1 hc'
            omega
        | succ j =>
          have := h1 j x (by omega) (by
            rw [show k + 1 + j = k + (j + 1) by omega]; exact hx)
          rw [this, show i + 12 + 12 * j = i + 12 * (j + 1) by omega]
      · intro x hx
        rw [h2 x (fun j hj => by
          have := hx (j + 1) (by omega)
          rw [show k + (j + 1) = k + 1 + j by omega] at this
          exact this)]
        rw [Dict.get?_set, if_neg]
        intro hc
        exact hx 0 (by omega) (by rw [Nat.add_zero, hs, hc])

theorem udreiLoop_spec (msg : BitBuf) (typ : Nat) : ∀ (n : Nat) (s : St) (i k : Nat), i + 4 * n ≤ msg.length → s.sat.Nodup →
    ∃ u t, udreiLoop s msg i typ k n = .ok ({ s with udrei := u, t0H := t }, i + 4 * fieldsRead n s.sat.length (typ * 13 + k)) ∧
      (∀ j x, j < n → s.sat[typ * 13 + (k + j)]? = some x → Dict.get? u x = some (bitsAt msg (i + 4 * j) 4) ∧ Dict.get? t x = some s.time) ∧
      (∀ x, (∀ j, j < n → s.sat[typ * 13 + (k + j)]? ≠ some x) → Dict.get? u x = Dict.get? s.udrei x ∧ Dict.get? t x = Dict.get? s.t0H x)
  | 0, s, i, k, _, _ => ⟨s.udrei, s.t0H, by simp [udreiLoop, fieldsRead], by simp, by simp⟩
  | n + 1, s, i, k, h, hn => by
    rw [udreiLoop, readU_at (show i + 4 ≤ msg.length by omega), Py.okBind]
    cases hs : s.sat[typ * 13 + k]? with
    | none =>
      have hl : s.sat.length ≤ typ * 13 + k := List.getElem?_eq_none_iff.1 hs
      refine ⟨s.udrei, s.t0H, ?_, ?_, ?_⟩
      · simp only
        unfold fieldsRead
        rw [show min (n + 1) (s.sat.length - (typ * 13 + k) + 1) = 1 by omega]
        rfl
      · intro j x _ hj
        rw [List.getElem?_eq_none (by omega)] at hj
        cases hj
      · intro x _; exact ⟨rfl, rfl⟩
    | some sat =>
      simp only
      have hl : typ * 13 + k < s.sat.length := (List.getElem?_eq_some_iff.1 hs).1
      have hcur := (List.getElem?_eq_some_iff.1 hs).2
      obtain ⟨u, t, e, h1, h2⟩ := udreiLoop_spec msg typ n
        { s with udrei := Dict.set s.udrei sat (bitsAt msg i 4), t0H := Dict.set s.t0H sat s.time } (i + 4) (k + 1) (by omega) hn
      refine ⟨u, t, ?_, ?_, ?_⟩
      · rw [e]
        simp only
        have : 4 + 4 * fieldsRead n s.sat.length (typ * 13 + (k + 1)) = 4 * fieldsRead (n + 1) s.sat.length (typ * 13 + k) := by
          unfold fieldsRead; omega
        rw [← this, Nat.add_assoc]
      · intro j x hj hx
        cases j with
        | zero =>
          have hx' : x = sat := by
            rw [Nat.add_zero, hs] at hx
            exact (Option.some.inj hx).symm
          have h2' := h2 x (by
            intro j' _ hc
            simp only at hc
            obtain ⟨l', hc'⟩ := List.getElem?_eq_some_iff.1 hc
            rw [hx', ← hcur] at hc'
            have := (List.Nodup.getElem_inj_iff hn).1 hc'
            omega)
          rw [h2'.1, h2'.2, hx', Dict.get?_set, if_pos rfl, Dict.get?_set, if_pos rfl]
          exact ⟨rfl, rfl⟩
        | succ j =>
          have := h1 j x (by omega) (by
            rw [show k + 1 + j = k + (j + 1) by omega]; exact hx)
          rw [show i + 4 + 4 * j = i + 4 * (j + 1) by omega] at this
          exact this
      · intro x hx
        have h2' := h2 x (fun j hj => by
          have := hx (j + 1) (by omega)
          rw [show k + (j + 1) = k + 1 + j by omega] at this
          exact this)
        have hne : ¬(x = sat) := fun hc => hx 0 (by omega) (by rw [Nat.add_zero, hs, hc])
        rw [h2'.1, h2'.2, Dict.get?_set, if_neg hne, Dict.get?_set, if_neg hne]
        exact ⟨rfl, rfl⟩

/-- a block of `n` fast corrections starting at bit `i`, for the satellites of block `typ`.  The
integrity indicators follow after the corrections actually read. -/
theorem fastBlk_spec (msg : BitBuf) (typ n : Nat) (s : St) (i : Nat) (h : i + 16 * n ≤ msg.length) (hn : s.sat.Nodup) :
    ∃ d u t, fastBlk s msg i n typ = .ok ({ s with hclk := d, udrei := u, t0H := t },
        i + 16 * fieldsRead n s.sat.length (typ * 13)) ∧
      (∀ j x, j < n → s.sat[typ * 13 + j]? = some x →
        Dict.get? d x = some (fastVal (intAt msg (i + 12 * j) 12)) ∧
        Dict.get? u x = some (bitsAt msg (i + 12 * fieldsRead n s.sat.length (typ * 13) + 4 * j) 4) ∧
        Dict.get? t x = some s.time) ∧
      (∀ x, (∀ j, j < n → s.sat[typ * 13 + j]? ≠ some x) →
        Dict.get? d x = Dict.get? s.hclk x ∧ Dict.get? u x = Dict.get? s.udrei x ∧ Dict.get? t x = Dict.get? s.t0H x) := by
  obtain ⟨d, e, h1, h2⟩ := fastLoop_spec msg typ n s i 0 (by omega) hn
  have hf : fieldsRead n s.sat.length (typ * 13) ≤ n := by unfold fieldsRead; omega
  obtain ⟨u, t, e', h3, h4⟩ := udreiLoop_spec msg typ n { s with hclk := d } (i + 12 * fieldsRead n s.sat.length (typ * 13)) 0
    (by omega) hn
  refine ⟨d, u, t, ?_, ?_, ?_⟩
  · unfold fastBlk
    rw [e, Py.okBind]
    show udreiLoop _ _ _ _ _ _ = _
    rw [Nat.add_zero, e']
    congr 2
    simp only [Nat.add_zero]
    omega
  · intro j x hj hx
    rw [← Nat.zero_add j] at hx
    have a := h1 j x hj hx
    have b := h3 j x hj hx
    exact ⟨a, b.1, b.2⟩
  · intro x hx
    have hx' : ∀ j, j < n → s.sat[typ * 13 + (0 + j)]? ≠ some x := by
      intro j hj; rw [Nat.zero_add]; exact hx j hj
    exact ⟨h2 x hx', (h4 x hx').1, (h4 x hx').2⟩

/-! ## Dispatch -/

theorem decode_l1 {s : St} {msg : BitBuf} {mt : Nat} (h : bitsAt msg 8 6 = mt) (hl : 14 ≤ msg.length) :
    decode s false msg = (do
      let (s, _) ←
        if mt = 1 then mask1 s msg 14
        else if mt = 2 ∨ mt = 3 ∨ mt = 4 ∨ mt = 5 then fastCorr s msg mt 14
        else if mt = 6 then integrity s msg 14
        else if mt = 7 then degradation s msg 14
        else if mt = 18 then igpMask s msg 14
        else if mt = 24 then mixed s msg 14
        else if mt = 25 then longCorr s msg 14
        else if mt = 26 then iono s msg 14
        else if mt = 31 then mask31 s msg 14
        else if mt = 32 then corr32 s msg 14
        else if mt = 34 then mt34 s msg 14
        else if mt = 35 ∨ mt = 36 then mt3536 s msg 14
        else pure (s, 14)
      pure s) := by
  unfold decode
  rw [if_neg (by simp), if_neg (by simp), readU_at (by omega), Py.okBind, h]

/-! ## Fast corrections -/

/-- **Gate**: a fast-correction message (types 2-5) for another mask issue changes nothing. -/
theorem fast_rejected (s : St) (msg : BitBuf) (hl : 226 ≤ msg.length) (hm : 2 ≤ bitsAt msg 8 6 ∧ bitsAt msg 8 6 ≤ 5)
    (hi : (bitsAt msg 16 2 : Int) ≠ s.iodp) : decode s false msg = .ok s := by
  rw [decode_l1 rfl (by omega), if_neg (by omega), if_pos (by omega)]
  unfold fastCorr
  rw [readU_at (by omega), Py.okBind, readU_at (by omega), Py.okBind, if_pos hi]
  rfl

/-- **Fast corrections**: with the current mask issue, message type `2 + b` gives the k-th value to
the k-th satellite of block `b` (thirteen satellites of the mask) and changes no other satellite.
The integrity indicators are read after the corrections of the satellites the mask has (plus one),
instead of after thirteen. -/
theorem fast_accepted (s : St) (msg : BitBuf) (b : Nat) (hb : b ≤ 3) (hl : 226 ≤ msg.length) (hm : bitsAt msg 8 6 = b + 2)
    (hi : (bitsAt msg 16 2 : Int) = s.iodp) (hn : s.sat.Nodup) :
    ∃ d u t, decode s false msg = .ok { s with hclk := d, udrei := u, t0H := t } ∧
      (∀ k x, k < 13 → s.sat[b * 13 + k]? = some x →
        Dict.get? d x = some (fastVal (intAt msg (18 + 12 * k) 12)) ∧
        Dict.get? u x = some (bitsAt msg (18 + 12 * min 13 (s.sat.length - b * 13 + 1) + 4 * k) 4) ∧
        Dict.get? t x = some s.time) ∧
      (∀ x, (∀ k, k < 13 → s.sat[b * 13 + k]? ≠ some x) →
        Dict.get? d x = Dict.get? s.hclk x ∧ Dict.get? u x = Dict.get? s.udrei x ∧ Dict.get? t x = Dict.get? s.t0H x) := by
  obtain ⟨d, u, t, e, h1, h2⟩ := fastBlk_spec msg b 13 s 18 (by omega) hn
  refine ⟨d, u, t, ?_, h1, h2⟩
  rw [decode_l1 hm (by omega), if_neg (by omega), if_pos (by omega)]
  unfold fastCorr
  rw [readU_at (by omega), Py.okBind, readU_at (by omega), Py.okBind, if_neg (by simpa using hi),
    show b + 2 - 2 = b by omega, e]
  rfl

/-- **Integrity indicators of full blocks** are the ones transmitted for the satellite, at bit 174
on. -/
theorem fast_udrei (s : St) (msg : BitBuf) (b : Nat) (hb : b ≤ 3) (hl : 226 ≤ msg.length) (hm : bitsAt msg 8 6 = b + 2)
    (hi : (bitsAt msg 16 2 : Int) = s.iodp) (hn : s.sat.Nodup) (hf : b * 13 + 12 ≤ s.sat.length) :
    ∃ s', decode s false msg = .ok s' ∧
      ∀ k x, k < 13 → s.sat[b * 13 + k]? = some x → Dict.get? s'.udrei x = some (bitsAt msg (174 + 4 * k) 4) := by
  obtain ⟨d, u, t, e, h1, _⟩ := fast_accepted s msg b hb hl hm hi hn
  refine ⟨_, e, ?_⟩
  intro k x hk hx
  have := (h1 k x hk hx).2.1
  rw [show min 13 (s.sat.length - b * 13 + 1) = 13 by omega] at this
  exact this

/-! ## Integrity and degradation -/

theorem perSat_spec (msg : BitBuf) (sat : List Int) : ∀ (n : Nat) (d : Dict Int Nat) (i k : Nat),
    i + 4 * n ≤ msg.length → sat.Nodup →
    ∃ d' j', perSat msg sat d i k n = .ok (d', j') ∧
      (∀ j x, j < n → sat[k + j]? = some x → Dict.get? d' x = some (bitsAt msg (i + 4 * j) 4)) ∧
      (∀ x, (∀ j, j < n → sat[k + j]? ≠ some x) → Dict.get? d' x = Dict.get? d x)
  | 0, d, i, k, _, _ => ⟨d, i, rfl, by simp, by simp⟩
  | n + 1, d, i, k, h, hn => by
    rw [perSat]
    cases hs : sat[k]? with
    | none =>
      refine ⟨d, i, rfl, ?_, fun _ _ => rfl⟩
      intro j x _ hj
      have := List.getElem?_eq_none_iff.1 hs
      rw [List.getElem?_eq_none (by omega)] at hj
      cases hj
    | some y =>
      simp only
      rw [readU_at (show i + 4 ≤ msg.length by omega), Py.okBind]
      have hcur := (List.getElem?_eq_some_iff.1 hs).2
      obtain ⟨d', j', e, h1, h2⟩ := perSat_spec msg sat n (Dict.set d y (bitsAt msg i 4)) (i + 4) (k + 1) (by omega) hn
      refine ⟨d', j', e, ?_, ?_⟩
      · intro j x hj hx
        cases j with
        | zero =>
          have hx' : x = y := by
            rw [Nat.add_zero, hs] at hx
            exact (Option.some.inj hx).symm
          rw [h2 x ?_, hx', Dict.get?_set, if_pos rfl]
          · rfl
          · intro j' _ hc
            obtain ⟨l', hc'⟩ := List.getElem?_eq_some_iff.1 hc
            rw [hx', ← hcur] at hc'
            have := (List.Nodup.getElem_inj_iff hn).1 hc'
            omega
        | succ j =>
          have := h1 j x (by omega) (by
            rw [show k + 1 + j = k + (j + 1) by omega]; exact hx)
          rw [this, show i + 4 + 4 * j = i + 4 * (j + 1) by omega]
      · intro x hx
        rw [h2 x (fun j hj => by
          have := hx (j + 1) (by omega)
          rw [show k + (j + 1) = k + 1 + j by omega] at this
          exact this)]
        rw [Dict.get?_set, if_neg]
        intro hc
        exact hx 0 (by omega) (by rw [Nat.add_zero, hs, hc])

/-- **Integrity message** (type 6, which carries no mask issue): the k-th indicator goes to the k-th
satellite of the mask, all others are unchanged. -/
theorem integrity_spec (s : St) (msg : BitBuf) (hl : 226 ≤ msg.length) (hm : bitsAt msg 8 6 = 6) (hn : s.sat.Nodup) :
    ∃ u, decode s false msg = .ok { s with udrei := u } ∧
      (∀ k x, k < 51 → s.sat[k]? = some x → Dict.get? u x = some (bitsAt msg (22 + 4 * k) 4)) ∧
      (∀ x, (∀ k, k < 51 → s.sat[k]? ≠ some x) → Dict.get? u x = Dict.get? s.udrei x) := by
  obtain ⟨d', j', e, h1, h2⟩ := perSat_spec msg s.sat 51 s.udrei 22 0 (by omega) hn
  refine ⟨d', ?_, ?_, ?_⟩
  · rw [decode_l1 hm (by omega), if_neg (by omega), if_neg (by omega), if_pos rfl]
    unfold integrity
    rw [readU_at (by omega), Py.okBind, e]
    rfl
  · intro k x hk hx
    exact h1 k x hk (by rw [Nat.zero_add]; exact hx)
  · intro x hx
    exact h2 x (fun j hj => by rw [Nat.zero_add]; exact hx j hj)

/-- **Degradation factors** (type 7): gated, and assigned in the same way. -/
theorem degradation_spec (s : St) (msg : BitBuf) (hl : 226 ≤ msg.length) (hm : bitsAt msg 8 6 = 7) (hn : s.sat.Nodup) :
    ((bitsAt msg 18 2 : Int) ≠ s.iodp → decode s false msg = .ok s) ∧
    ((bitsAt msg 18 2 : Int) = s.iodp → ∃ a, decode s false msg = .ok { s with ai := a } ∧
      (∀ k x, k < 51 → s.sat[k]? = some x → Dict.get? a x = some (bitsAt msg (22 + 4 * k) 4)) ∧
      (∀ x, (∀ k, k < 51 → s.sat[k]? ≠ some x) → Dict.get? a x = Dict.get? s.ai x)) := by
  have hd : decode s false msg = (do let (s, _) ← degradation s msg 14; pure s) := by
    rw [decode_l1 hm (by omega), if_neg (by omega), if_neg (by omega), if_neg (by omega), if_pos rfl]
  constructor
  · intro hi
    rw [hd]
    unfold degradation
    rw [readU_at (by omega), Py.okBind, readU_at (by omega), Py.okBind, if_pos hi]
    rfl
  · intro hi
    obtain ⟨d', j', e, h1, h2⟩ := perSat_spec msg s.sat 51 s.ai 22 0 (by omega) hn
    refine ⟨d', ?_, ?_, ?_⟩
    · rw [hd]
      unfold degradation
      rw [readU_at (by omega), Py.okBind, readU_at (by omega), Py.okBind, if_neg (by simpa using hi), e]
      rfl
    · intro k x hk hx
      exact h1 k x hk (by rw [Nat.zero_add]; exact hx)
    · intro x hx
      exact h2 x (fun j hj => by rw [Nat.zero_add]; exact hx j hj)

/-! ## Long-term and mixed corrections -/

/-- issue of the mask a half message belongs to, and the satellites (mask numbers) it corrects -/
def halfIssue (msg : BitBuf) (i : Nat) : Nat :=
  if bitsAt msg i 1 = 0 then bitsAt msg (i + 103) 2 else bitsAt msg (i + 104) 2

def halfNumbers (msg : BitBuf) (i : Nat) : List Nat :=
  if bitsAt msg i 1 = 0 then [bitsAt msg (i + 1) 6, bitsAt msg (i + 52) 6].filter (· > 0) else [bitsAt msg (i + 1) 6]

theorem readShort_at {msg : BitBuf} {i : Nat} (h : i + 51 ≤ msg.length) : ∃ l : Long, readShort msg i = .ok l ∧ l.slot = bitsAt msg i 6 ∧
    l.iodn = bitsAt msg (i + 6) 8 := by
  unfold readShort
  rw [readU_at (by omega), Py.okBind, readU_at (by omega), Py.okBind, readS_at (by omega), Py.okBind, readS_at (by omega), Py.okBind,
    readS_at (by omega), Py.okBind, readS_at (by omega), Py.okBind]
  exact ⟨_, rfl, rfl, rfl⟩

theorem readLong_at {msg : BitBuf} {i : Nat} (h : i + 90 ≤ msg.length) : ∃ l : Long, readLong msg i = .ok l ∧ l.slot = bitsAt msg i 6 ∧
    l.iodn = bitsAt msg (i + 6) 8 := by
  unfold readLong
  rw [readU_at (by omega), Py.okBind, readU_at (by omega), Py.okBind, readS_at (by omega), Py.okBind, readS_at (by omega), Py.okBind,
    readS_at (by omega), Py.okBind, readS_at (by omega), Py.okBind, readS_at (by omega), Py.okBind, readS_at (by omega), Py.okBind,
    readS_at (by omega), Py.okBind, readS_at (by omega), Py.okBind]
  exact ⟨_, rfl, rfl, rfl⟩

/-- what two states may differ in after correcting the satellites `xs` -/
def OnlySats (xs : List Int) (s s' : St) : Prop :=
  s'.sat = s.sat ∧ s'.iodp = s.iodp ∧ s'.hclk = s.hclk ∧ s'.udrei = s.udrei ∧ s'.ai = s.ai ∧
  (∀ x, x ∉ xs → Dict.get? s'.iode x = Dict.get? s.iode x ∧ Dict.get? s'.dorb x = Dict.get? s.dorb x ∧
    Dict.get? s'.dclk x = Dict.get? s.dclk x ∧ Dict.get? s'.dvel x = Dict.get? s.dvel x ∧ Dict.get? s'.ddft x = Dict.get? s.ddft x)

theorem onlySats_addCorr (s : St) (l : Long) : OnlySats [slot2sat l.slot] s (addCorr s l) := by
  refine ⟨rfl, rfl, rfl, rfl, rfl, ?_⟩
  intro x hx
  have hx : ¬(x = slot2sat l.slot) := by simpa using hx
  unfold addCorr
  simp only [Dict.get?_set]
  simp only [if_neg hx, and_self]

theorem OnlySats.trans {xs ys : List Int} {a b c : St} (h1 : OnlySats xs a b) (h2 : OnlySats ys b c) : OnlySats (xs ++ ys) a c := by
  obtain ⟨a1, a2, a3, a4, a5, a6⟩ := h1
  obtain ⟨b1, b2, b3, b4, b5, b6⟩ := h2
  refine ⟨b1.trans a1, b2.trans a2, b3.trans a3, b4.trans a4, b5.trans a5, ?_⟩
  intro x hx
  rw [List.mem_append, not_or] at hx
  obtain ⟨p1, p2, p3, p4, p5⟩ := a6 x hx.1
  obtain ⟨q1, q2, q3, q4, q5⟩ := b6 x hx.2
  exact ⟨q1.trans p1, q2.trans p2, q3.trans p3, q4.trans p4, q5.trans p5⟩

/-- **Half message gate and satellites**: a half message of another mask issue changes nothing (and
moves on by one bit only); an accepted one corrects only the satellites obtained by taking its mask
numbers for slot numbers. -/
theorem half_spec (s : St) (msg : BitBuf) (i : Nat) (h : i + 106 ≤ msg.length) :
    ((halfIssue msg i : Int) ≠ s.iodp → lcorrHalf s msg i = .ok (s, i + 1)) ∧
    ((halfIssue msg i : Int) = s.iodp → ∃ s', lcorrHalf s msg i = .ok (s', i + 106) ∧
      OnlySats ((halfNumbers msg i).map fun n : Nat => slot2sat n) s s') := by
  unfold lcorrHalf halfIssue halfNumbers
  rw [readU_at (show i + 1 ≤ msg.length by omega), Py.okBind]
  by_cases c : bitsAt msg i 1 = 0
  · simp only [if_pos c]
    rw [show i + 1 + 102 = i + 103 by omega, readU_at (show i + 103 + 2 ≤ msg.length by omega), Py.okBind]
    constructor
    · intro hi; rw [if_pos hi]; rfl
    · intro hi
      rw [if_neg (by simpa using hi)]
      obtain ⟨a, ea, sa, _⟩ := readShort_at (msg := msg) (i := i + 1) (by omega)
      obtain ⟨b, eb, sb, _⟩ := readShort_at (msg := msg) (i := i + 1 + 51) (by omega)
      rw [ea, Py.okBind, eb, Py.okBind]
      refine ⟨_, rfl, ?_⟩
      have key : ∀ (t : St) (l : Long), OnlySats ([l.slot].filter (· > 0) |>.map fun n : Nat => slot2sat n) t (addIf t l) := by
        intro t l
        unfold addIf
        by_cases c : l.slot > 0
        · rw [if_pos c, List.filter_cons_of_pos (by simpa using c)]
          exact onlySats_addCorr t l
        · rw [if_neg c]
          exact ⟨rfl, rfl, rfl, rfl, rfl, fun _ _ => ⟨rfl, rfl, rfl, rfl, rfl⟩⟩
      have hab := (key s a).trans (key (addIf s a) b)
      rw [← List.map_append, ← List.filter_append, sa, sb] at hab
      exact hab
  · simp only [if_neg c]
    rw [show i + 1 + 103 = i + 104 by omega, readU_at (show i + 104 + 2 ≤ msg.length by omega), Py.okBind]
    constructor
    · intro hi; rw [if_pos hi]; rfl
    · intro hi
      rw [if_neg (by simpa using hi)]
      obtain ⟨a, ea, sa, _⟩ := readLong_at (msg := msg) (i := i + 1) (by omega)
      rw [ea, Py.okBind, readU_at (by omega), Py.okBind]
      refine ⟨_, rfl, ?_⟩
      have := onlySats_addCorr s a
      rw [sa] at this
      exact this

/-- the issue number of the correction is stored for the satellite of the (last) number named -/
theorem half_stores (s : St) (msg : BitBuf) (i : Nat) (h : i + 106 ≤ msg.length) (hi : (halfIssue msg i : Int) = s.iodp) (n : Nat)
    (hn : (halfNumbers msg i).getLast? = some n) :
    ∃ s' iodn, lcorrHalf s msg i = .ok (s', i + 106) ∧ Dict.get? s'.iode (slot2sat n) = some iodn ∧
      Dict.get? s'.t0O (slot2sat n) = some s.time := by
  unfold lcorrHalf
  unfold halfIssue at hi
  unfold halfNumbers at hn
  rw [readU_at (show i + 1 ≤ msg.length by omega), Py.okBind]
  by_cases c : bitsAt msg i 1 = 0
  · simp only [if_pos c] at hi hn ⊢
    rw [show i + 1 + 102 = i + 103 by omega, readU_at (show i + 103 + 2 ≤ msg.length by omega), Py.okBind, if_neg (by simpa using hi)]
    obtain ⟨a, ea, sa, _⟩ := readShort_at (msg := msg) (i := i + 1) (by omega)
    obtain ⟨b, eb, sb, _⟩ := readShort_at (msg := msg) (i := i + 1 + 51) (by omega)
    rw [ea, Py.okBind, eb, Py.okBind]
    rw [← sa, ← show b.slot = bitsAt msg (i + 52) 6 from sb] at hn
    by_cases cb : b.slot > 0
    · have : n = b.slot := by
        by_cases ca : a.slot > 0
        · rw [List.filter_cons_of_pos (by simpa using ca), List.filter_cons_of_pos (by simpa using cb)] at hn
          simpa using hn.symm
        · rw [List.filter_cons_of_neg (by simpa using ca), List.filter_cons_of_pos (by simpa using cb)] at hn
          simpa using hn.symm
      subst this
      have ht : (addIf s a).time = s.time := by unfold addIf; split <;> rfl
      refine ⟨_, b.iodn, rfl, ?_, ?_⟩
      · simp only [addIf, if_pos cb, addCorr, Dict.get?_set, if_pos]
      · rw [← ht]
        simp only [addIf, if_pos cb, addCorr, Dict.get?_set, if_pos]
    · have hab : a.slot > 0 ∧ n = a.slot := by
        by_cases ca : a.slot > 0
        · rw [List.filter_cons_of_pos (by simpa using ca), List.filter_cons_of_neg (by simpa using cb)] at hn
          exact ⟨ca, by simpa using hn.symm⟩
        · rw [List.filter_cons_of_neg (by simpa using ca), List.filter_cons_of_neg (by simpa using cb)] at hn
          simp at hn
      obtain ⟨ca, rfl⟩ := hab
      refine ⟨_, a.iodn, rfl, ?_, ?_⟩
      · simp only [addIf, if_neg cb, if_pos ca, addCorr, Dict.get?_set, if_pos]
      · simp only [addIf, if_neg cb, if_pos ca, addCorr, Dict.get?_set, if_pos]
  · simp only [if_neg c] at hi hn ⊢
    rw [show i + 1 + 103 = i + 104 by omega, readU_at (show i + 104 + 2 ≤ msg.length by omega), Py.okBind, if_neg (by simpa using hi)]
    obtain ⟨a, ea, sa, _⟩ := readLong_at (msg := msg) (i := i + 1) (by omega)
    rw [ea, Py.okBind, readU_at (by omega), Py.okBind]
    have : n = a.slot := by rw [sa]; simpa using hn.symm
    subst this
    refine ⟨_, a.iodn, rfl, ?_, ?_⟩
    · simp only [addCorr, Dict.get?_set, if_pos]
    · simp only [addCorr, Dict.get?_set, if_pos]

/-- **When mask numbers and slots coincide**: the satellite corrected is the one the mask number
means exactly when the mask holds that slot's satellite at that place; in particular if the mask
announces all of GPS 1 to n. -/
theorem number_means_slot (s : St) (n : Nat) (h1 : 1 ≤ n) (h2 : n ≤ 32) (hg : s.sat[n - 1]? = some (n : Int)) :
    s.sat[n - 1]? = some (slot2sat n) := by
  rw [hg]
  unfold slot2sat
  rw [if_pos (by omega)]; rfl

/-- **Long-term message** (type 25): when the first half is rejected, the second is read from the
second bit of the first. -/
theorem second_half_misread (s : St) (msg : BitBuf) (hl : 226 ≤ msg.length) (hm : bitsAt msg 8 6 = 25)
    (hi : (halfIssue msg 14 : Int) ≠ s.iodp) :
    decode s false msg = (lcorrHalf s msg 15).map (·.1) := by
  rw [decode_l1 hm (by omega)]
  rw [if_neg (by omega), if_neg (by omega), if_neg (by omega), if_neg (by omega), if_neg (by omega), if_neg (by omega), if_pos rfl]
  unfold longCorr
  rw [(half_spec s msg 14 (by omega)).1 hi, Py.okBind]
  show (do let (s, _) ← lcorrHalf s msg 15; pure s) = _
  cases lcorrHalf s msg 15 <;> rfl

/-- **Mixed message** (type 24): gated as a whole; when accepted the six fast corrections are
assigned as in types 2-5, but the long-term half is read from bit 110 (ten bits early) when the
block is full. -/
theorem mixed_spec (s : St) (msg : BitBuf) (hl : 226 ≤ msg.length) (hm : bitsAt msg 8 6 = 24) (hn : s.sat.Nodup) :
    ((bitsAt msg 110 2 : Int) ≠ s.iodp → decode s false msg = .ok s) ∧
    ((bitsAt msg 110 2 : Int) = s.iodp → s.sat.length ≥ bitsAt msg 112 2 * 13 + 5 →
      ∃ d u t, decode s false msg = (lcorrHalf { s with hclk := d, udrei := u, t0H := t } msg 110).map (·.1) ∧
      (∀ k x, k < 6 → s.sat[bitsAt msg 112 2 * 13 + k]? = some x →
        Dict.get? d x = some (fastVal (intAt msg (14 + 12 * k) 12)) ∧ Dict.get? u x = some (bitsAt msg (86 + 4 * k) 4)) ∧
      (∀ x, (∀ k, k < 6 → s.sat[bitsAt msg 112 2 * 13 + k]? ≠ some x) →
        Dict.get? d x = Dict.get? s.hclk x ∧ Dict.get? u x = Dict.get? s.udrei x)) := by
  have hd : decode s false msg = (do let (s, _) ← mixed s msg 14; pure s) := by
    rw [decode_l1 hm (by omega), if_neg (by omega), if_neg (by omega), if_neg (by omega), if_neg (by omega), if_neg (by omega), if_pos rfl]
  have hmx : mixed s msg 14 = (if (bitsAt msg 110 2 : Int) ≠ s.iodp then pure (s, 222) else do
      let (s, i) ← fastBlk s msg 14 6 (bitsAt msg 112 2)
      lcorrHalf s msg i) := by
    unfold mixed
    rw [readU_at (by omega), Py.okBind, readU_at (by omega), Py.okBind, readU_at (by omega), Py.okBind]
  constructor
  · intro hi
    rw [hd, hmx, if_pos hi]; rfl
  · intro hi hlen
    obtain ⟨d, u, t, e, h1, h2⟩ := fastBlk_spec msg (bitsAt msg 112 2) 6 s 14 (by omega) hn
    have hf : fieldsRead 6 s.sat.length (bitsAt msg 112 2 * 13) = 6 := by unfold fieldsRead; omega
    refine ⟨d, u, t, ?_, ?_, ?_⟩
    · rw [hd, hmx, if_neg (by simpa using hi), e, Py.okBind, hf]
      show (do let (s, _) ← lcorrHalf _ msg 110; pure s) = _
      cases lcorrHalf { s with hclk := d, udrei := u, t0H := t } msg 110 <;> rfl
    · intro k x hk hx
      obtain ⟨a, b, _⟩ := h1 k x hk hx
      rw [hf] at b
      exact ⟨a, b⟩
    · intro x hx
      obtain ⟨a, b, _⟩ := h2 x hx
      exact ⟨a, b⟩

/-! ## The mask in use -/

/-- a stream of messages (`true` for L5) -/
def run (s : St) : List (Bool × BitBuf) → Py St
  | [] => .ok s
  | (l5, m) :: ms => do
    let s ← decode s l5 m
    run s ms

/-- type of a message and start of its data field -/
def typeOf (l5 : Bool) (m : BitBuf) : Nat := bitsAt m (if l5 then 4 else 8) 6
def dataAt (l5 : Bool) : Nat := if l5 then 10 else 14

/-- satellites and issue announced by the last mask message of a stream (`prev` if none) -/
def announced (prev : List Int × Int) : List (Bool × BitBuf) → List Int × Int
  | [] => prev
  | (l5, m) :: ms =>
    announced (if typeOf l5 m = 1 then
      (C27.satsOf (Cssr.positions 1 (seg m (dataAt l5) 210)) C27.used1 C27.slotSat1, (bitsAt m (dataAt l5 + 210) 2 : Int))
      else prev) ms

def Keeps (s : St) (r : St × Nat) : Prop := r.1.sat = s.sat ∧ r.1.iodp = s.iodp ∧ r.1.time = s.time

theorem keeps_fastLoop (msg : BitBuf) (typ : Nat) : ∀ (n : Nat) (s : St) (i k : Nat), Post (fastLoop s msg i typ k n) (Keeps s)
  | 0, s, i, k => Post.ok ⟨rfl, rfl, rfl⟩
  | n + 1, s, i, k => by
    rw [fastLoop]
    refine Post.bind_any fun fc => ?_
    cases s.sat[typ * 13 + k]? with
    | none => exact Post.pure ⟨rfl, rfl, rfl⟩
    | some x => exact keeps_fastLoop msg typ n _ _ _

theorem keeps_udreiLoop (msg : BitBuf) (typ : Nat) : ∀ (n : Nat) (s : St) (i k : Nat), Post (udreiLoop s msg i typ k n) (Keeps s)
  | 0, s, i, k => Post.ok ⟨rfl, rfl, rfl⟩
  | n + 1, s, i, k => by
    rw [udreiLoop]
    refine Post.bind_any fun fc => ?_
    cases s.sat[typ * 13 + k]? with
    | none => exact Post.pure ⟨rfl, rfl, rfl⟩
    | some x => exact keeps_udreiLoop msg typ n _ _ _

theorem Keeps.trans {a : St} {b c : St × Nat} (h1 : Keeps a b) (h2 : Keeps b.1 c) : Keeps a c :=
  ⟨h2.1.trans h1.1, h2.2.1.trans h1.2.1, h2.2.2.trans h1.2.2⟩

theorem keeps_fastBlk (s : St) (msg : BitBuf) (i n typ : Nat) : Post (fastBlk s msg i n typ) (Keeps s) := by
  unfold fastBlk
  refine Post.bind (keeps_fastLoop msg typ n s i 0) ?_
  rintro ⟨s1, i1⟩ h
  exact (keeps_udreiLoop msg typ n s1 i1 0).mono fun r hr => h.trans hr

theorem keeps_half (s : St) (msg : BitBuf) (i : Nat) : Post (lcorrHalf s msg i) (Keeps s) := by
  unfold lcorrHalf
  refine Post.bind_any fun vc => ?_
  refine Post.bind_any fun iodp => ?_
  refine Post.ite (fun _ => Post.pure ⟨rfl, rfl, rfl⟩) fun _ => ?_
  refine Post.ite (fun _ => ?_) fun _ => ?_
  · refine Post.bind_any fun a => ?_
    refine Post.bind_any fun b => ?_
    refine Post.pure ?_
    have key : ∀ t l, (addIf t l).sat = t.sat ∧ (addIf t l).iodp = t.iodp ∧ (addIf t l).time = t.time := by
      intro t l
      unfold addIf
      split <;> exact ⟨rfl, rfl, rfl⟩
    have k1 := key s a
    have k2 := key (addIf s a) b
    exact ⟨k2.1.trans k1.1, k2.2.1.trans k1.2.1, k2.2.2.trans k1.2.2⟩
  · refine Post.bind_any fun a => ?_
    refine Post.bind_any fun b => ?_
    exact Post.pure ⟨rfl, rfl, rfl⟩

/-- **Mask history**: after any stream of messages the decoder works with the satellites and issue
number of the last mask message. -/
theorem mask_in_use (ms : List (Bool × BitBuf)) (s : St) :
    Post (run s ms) (fun s' => (s'.sat, s'.iodp) = announced (s.sat, s.iodp) ms) := by
  induction ms generalizing s with
  | nil => exact Post.ok rfl
  | cons p ms ih =>
    obtain ⟨l5, m⟩ := p
    rw [run]
    refine Post.bind (Q := fun s' => (s'.sat, s'.iodp) = announced (s.sat, s.iodp) [(l5, m)]) ?_ ?_
    · unfold decode
      cases hr : readU m (if l5 then 4 else 8) 6 with
      | error e => exact Post.error
      | ok mt =>
        rw [Py.okBind]
        have hmt : typeOf l5 m = mt := by
          have hle := readU_ok_iff.1 ⟨mt, hr⟩
          rw [readU_at hle] at hr
          exact Except.ok.inj hr
        simp only [announced, hmt]
        by_cases c1 : mt = 1
        · simp only [if_pos c1]
          by_cases hl : dataAt l5 + 212 ≤ m.length
          · obtain ⟨s', e, h1, h2⟩ := C27.mask1_slots s m (dataAt l5) hl
            have e' : mask1 s m (if l5 = true then 10 else 14) = .ok (s', dataAt l5 + 212) := e
            rw [e', Py.okBind]
            refine Post.pure ?_
            rw [h1, h2]
          · have : ∃ x, mask1 s m (if l5 = true then 10 else 14) = .error x := by
              have hd : (if l5 = true then 10 else 14) = dataAt l5 := rfl
              rw [hd]
              cases e : mask1 s m (dataAt l5) with
              | error x => exact ⟨x, rfl⟩
              | ok r =>
                exfalso
                unfold mask1 at e
                cases e4 : readU m (dataAt l5 + 210) 2 with
                | ok v => 
                  have := readU_ok_iff.1 ⟨v, e4⟩
                  exact hl (by omega)
                | error x =>
                  cases e1 : readU m (dataAt l5) 37 with
                  | error x => rw [e1] at e; cases e
                  | ok v1 =>
                    rw [e1, Py.okBind] at e
                    cases e2 : readU m (dataAt l5 + 37) 24 with
                    | error x => rw [e2] at e; cases e
                    | ok v2 =>
                      rw [e2, Py.okBind] at e
                      cases e3 : readU m (dataAt l5 + 119) 39 with
                      | error x => rw [e3] at e; cases e
                      | ok v3 =>
                        rw [e3, Py.okBind, e4] at e
                        cases e
            obtain ⟨x, e⟩ := this
            rw [e]
            exact Post.error
        · simp only [if_neg c1]
          have fin : ∀ r : St × Nat, Keeps s r → Post (Pure.pure r.1 : Py St) fun s' => (s'.sat, s'.iodp) = (s.sat, s.iodp) :=
            fun r hr => Post.pure (Prod.ext hr.1 hr.2.1)
          refine Post.ite (fun _ => Post.bind (Q := Keeps s) ?_ fin) fun _ => ?_
          · unfold fastCorr
            refine Post.bind_any fun _ => Post.bind_any fun _ => ?_
            exact Post.ite (fun _ => Post.pure ⟨rfl, rfl, rfl⟩) fun _ => keeps_fastBlk _ _ _ _ _
          refine Post.ite (fun _ => Post.bind (Q := Keeps s) ?_ fin) fun _ => ?_
          · unfold integrity
            refine Post.bind_any fun _ => Post.bind_any fun _ => ?_
            exact Post.pure ⟨rfl, rfl, rfl⟩
          refine Post.ite (fun _ => Post.bind (Q := Keeps s) ?_ fin) fun _ => ?_
          · unfold degradation
            refine Post.bind_any fun _ => Post.bind_any fun _ => ?_
            exact Post.ite (fun _ => Post.pure ⟨rfl, rfl, rfl⟩) fun _ => Post.bind_any fun _ => Post.pure ⟨rfl, rfl, rfl⟩
          refine Post.ite (fun _ => Post.bind (Q := Keeps s) ?_ fin) fun _ => ?_
          · unfold igpMask
            refine Post.bind_any fun _ => Post.bind_any fun _ => Post.bind_any fun _ => Post.bind_any fun _ => ?_
            exact Post.pure ⟨rfl, rfl, rfl⟩
          refine Post.ite (fun _ => Post.bind (Q := Keeps s) ?_ fin) fun _ => ?_
          · unfold mixed
            refine Post.bind_any fun _ => Post.bind_any fun _ => Post.bind_any fun _ => ?_
            refine Post.ite (fun _ => Post.pure ⟨rfl, rfl, rfl⟩) fun _ => ?_
            refine Post.bind (keeps_fastBlk _ _ _ _ _) ?_
            rintro ⟨s1, i1⟩ h
            exact (keeps_half s1 m i1).mono fun r hr => h.trans hr
          refine Post.ite (fun _ => Post.bind (Q := Keeps s) ?_ fin) fun _ => ?_
          · unfold longCorr
            refine Post.bind (keeps_half _ _ _) ?_
            rintro ⟨s1, i1⟩ h
            exact (keeps_half s1 m i1).mono fun r hr => h.trans hr
          refine Post.ite (fun _ => Post.bind (Q := Keeps s) ?_ fin) fun _ => ?_
          · unfold iono
            refine Post.bind_any fun _ => ?_
            refine Post.ite (fun _ => Post.pure ⟨rfl, rfl, rfl⟩) fun _ => ?_
            refine Post.bind_any fun band => Post.bind_any fun _ => ?_
            cases Dict.get? s.vtec band with
            | none => exact Post.pure ⟨rfl, rfl, rfl⟩
            | some v =>
              cases Dict.get? s.givei band with
              | none => exact Post.error
              | some g => exact Post.bind_any fun _ => Post.pure ⟨rfl, rfl, rfl⟩
          refine Post.ite (fun _ => Post.bind (Q := Keeps s) ?_ fin) fun _ => ?_
          · unfold mask31
            refine Post.bind_any fun _ => Post.bind_any fun _ => Post.bind_any fun _ => Post.bind_any fun _ =>
              Post.bind_any fun _ => Post.bind_any fun _ => Post.bind_any fun iodm => ?_
            refine Post.pure ?_
            by_cases c : (iodm : Int) ≠ s.iodssr
            · simp only [if_pos c]; exact ⟨rfl, rfl, rfl⟩
            · simp only [if_neg c]; exact ⟨rfl, rfl, rfl⟩
          refine Post.ite (fun _ => Post.bind (Q := Keeps s) ?_ fin) fun _ => ?_
          · unfold corr32
            refine Post.bind_any fun _ => Post.bind_any fun _ => ?_
            refine Post.ite (fun _ => Post.pure ⟨rfl, rfl, rfl⟩) fun _ => ?_
            refine Post.bind_any fun _ => Post.bind_any fun _ => Post.bind_any fun _ => Post.bind_any fun _ =>
              Post.bind_any fun _ => Post.bind_any fun _ => Post.bind_any fun _ => Post.bind_any fun _ =>
              Post.bind_any fun _ => Post.bind_any fun _ => Post.bind_any fun _ => ?_
            exact Post.ite (fun _ => Post.pure ⟨rfl, rfl, rfl⟩) fun _ => Post.pure ⟨rfl, rfl, rfl⟩
          refine Post.ite (fun _ => Post.bind (Q := Keeps s) ?_ fin) fun _ => ?_
          · unfold mt34
            refine Post.bind_any fun _ => ?_
            refine Post.ite (fun _ => Post.pure ⟨rfl, rfl, rfl⟩) fun _ => ?_
            refine Post.bind_any fun _ => Post.bind_any fun _ => ?_
            refine Post.ite (fun _ => Post.error) fun _ => ?_
            exact Post.ite (fun _ => Post.error) fun _ => Post.pure ⟨rfl, rfl, rfl⟩
          refine Post.ite (fun _ => Post.bind (Q := Keeps s) ?_ fin) fun _ => ?_
          · unfold mt3536
            refine Post.bind_any fun _ => ?_
            refine Post.ite (fun _ => Post.pure ⟨rfl, rfl, rfl⟩) fun _ => ?_
            exact Post.bind_any fun _ => Post.error
          exact Post.pure rfl
    · intro s1 h1
      refine (ih s1).mono fun s' hs' => ?_
      rw [hs', h1]
      rfl

/-- **Dual-frequency integrity** (types 35, 36): the issue number is looked for ten bits early, and
an accepted message raises. -/
theorem dfmc_integrity_fails (s : St) (msg : BitBuf) (hl : 226 ≤ msg.length) (hm : bitsAt msg 4 6 = 35 ∨ bitsAt msg 4 6 = 36) :
    decode s true msg = if (bitsAt msg 214 2 : Int) ≠ s.iodm then .ok s else .error .attributeError := by
  unfold decode
  rw [if_pos rfl, if_pos rfl, readU_at (by omega), Py.okBind]
  rw [if_neg (by omega), if_neg (by omega), if_neg (by omega), if_neg (by omega), if_neg (by omega), if_neg (by omega), if_neg (by omega),
    if_neg (by omega), if_neg (by omega), if_neg (by omega), if_neg (by omega), if_pos hm]
  unfold mt3536
  rw [readU_at (by omega), Py.okBind]
  by_cases c : (bitsAt msg 214 2 : Int) ≠ s.iodm
  · rw [if_pos c, if_pos c]; rfl
  · rw [if_neg c, if_neg c, readU_at (by omega), Py.okBind]; rfl

/-! ## Concrete cases -/

/-- mask of GPS 2 and 5, issue 1 -/
def exMask : BitBuf := natToBits 8 0x53 ++ natToBits 6 1 ++ natToBits 37 (2 ^ 35 + 2 ^ 32) ++ natToBits 173 0 ++ natToBits 2 1 ++ natToBits 24 0

/-- fast corrections 3/8 m and 1/2 m, indicators 5 and 6 -/
def exFast : BitBuf := natToBits 8 0x9a ++ natToBits 6 2 ++ natToBits 4 1 ++ natToBits 12 3 ++ natToBits 12 4 ++ natToBits 132 0 ++
  natToBits 4 5 ++ natToBits 4 6 ++ natToBits 44 14 ++ natToBits 24 0

/-- the corrections arrive at the right satellites, the indicators do not: 5 and 6 were sent, zeros
are stored -/
theorem short_block_indicators : ((run {} [(false, exMask), (false, exFast)]).map
    (fun s => (s.sat, Dict.get? s.hclk 2 == some (some (-(3 / 8))), Dict.get? s.hclk 5 == some (some (-(1 / 2))), Dict.get? s.udrei 2, Dict.get? s.udrei 5)) |>.toOption) =
    some ([2, 5], true, true, some 0, some 0) ∧
    bitsAt exFast 174 4 = 5 ∧ bitsAt exFast 178 4 = 6 := by decide +kernel

/-- long-term correction of mask number 1 (GPS 2), issue of data 77 -/
def exLong : BitBuf := natToBits 8 0xc6 ++ natToBits 6 25 ++ natToBits 1 0 ++ natToBits 6 1 ++ natToBits 8 77 ++ natToBits 37 0 ++
  natToBits 51 0 ++ natToBits 2 1 ++ natToBits 1 0 ++ natToBits 104 0 ++ natToBits 2 0 ++ natToBits 24 0

/-- **Defect**: the correction of the first satellite of the mask (GPS 2) is stored for GPS 1, which
is not in the mask. -/
theorem long_wrong_satellite : ((run {} [(false, exMask), (false, exLong)]).map
    (fun s => (s.sat, Dict.get? s.iode 1, Dict.get? s.iode 2, s.satN)) |>.toOption) = some ([2, 5], some 77, none, [1]) := by decide +kernel

end Verif.C26
