import Verif.Lemmas.Post
import Verif.Lemmas.Cssr
/-!
# C12 Corrections from another mask issue are never applied

Specification: a message body starts at bit `i` with a 12-bit time, a 4-bit update interval, a
1-bit flag and the 4-bit issue number, so the issue number occupies bits `i+17 … i+20`.
-/

namespace Verif.C12
open Verif.Sat Verif.Sig Verif.Mask Verif.Time Verif.Cssr

/-- the issue number carried by a correction message whose body starts at bit `i` -/
def issueOf (msg : BitBuf) (i : Nat) : Nat := bitsToNat ((msg.drop (i + 17)).take 4)

/-- everything but the running time is unchanged -/
def OnlyTime (s s' : St) : Prop := s' = { s with tow := s'.tow, time := s'.time }

/-- the five gated message types -/
inductive Gated : (St → BitBuf → Nat → Py (St × Int)) → Prop
  | ura (inet : Nat) : Gated (fun s m i => decodeCssrUra s m i inet)
  | stec : Gated decodeCssrStec
  | grid : Gated decodeCssrGrid
  | comb (inet : Nat) : Gated (fun s m i => decodeCssrComb s m i inet)
  | atmos : Gated decodeCssrAtmos

theorem head_ok (s : St) (msg : BitBuf) (i : Nat) (hc : s.cfg.has = false)
    (hl : i + 21 ≤ msg.length) :
    ∃ s1 h, decodeHead s msg i = .ok (s1, h, i + 21) ∧ h.iodssr = issueOf msg i ∧ OnlyTime s s1 := by
  unfold decodeHead decodeHeadClas
  rw [hc]
  obtain ⟨v1, r1⟩ := readU_ok_iff.2 (by omega : i + 12 ≤ msg.length)
  obtain ⟨v2, r2⟩ := readU_ok_iff.2 (by omega : i + 12 + 4 ≤ msg.length)
  obtain ⟨v3, r3⟩ := readU_ok_iff.2 (by omega : i + 12 + 4 + 1 ≤ msg.length)
  have r4 : readU msg (i + 12 + 5) 4 = .ok (issueOf msg i) := by
    unfold readU issueOf
    rw [if_pos (by omega)]
  simp only [Bool.false_eq_true, if_false, bind, Except.bind, pure, Except.pure, r1, r2, r3, r4]
  refine ⟨_, _, rfl, rfl, ?_⟩
  unfold OnlyTime
  split <;> split <;> rfl

theorem head_short (s : St) (msg : BitBuf) (i : Nat) (hc : s.cfg.has = false)
    (hl : msg.length < i + 21) : decodeHead s msg i = .error .bitstruct := by
  have rd : ∀ j n v, readU msg j n = .ok v → j + n ≤ msg.length :=
    fun j n v h => readU_ok_iff.1 ⟨v, h⟩
  have re : ∀ j n e, readU msg j n = .error e → e = .bitstruct := by
    intro j n e h
    unfold readU at h
    split at h <;> cases h
    rfl
  unfold decodeHead decodeHeadClas
  rw [hc]
  simp only [Bool.false_eq_true, if_false, bind, Except.bind, pure, Except.pure]
  cases r1 : readU msg i 12 with
  | error e => rw [re _ _ _ r1]
  | ok v1 =>
    simp only
    cases r2 : readU msg (i + 12) 4 with
    | error e => rw [re _ _ _ r2]
    | ok v2 =>
      simp only
      cases r3 : readU msg (i + 12 + 4) 1 with
      | error e => rw [re _ _ _ r3]
      | ok v3 =>
        simp only
        cases r4 : readU msg (i + 12 + 5) 4 with
        | error e => rw [re _ _ _ r4]
        | ok v4 => exact absurd (rd _ _ _ r4) (by omega)

/-- A URA, STEC, gridded, combined or atmospheric message whose issue number is not the active
one is rejected (−1) and leaves every stored correction, mask list and issue number unchanged.
Only the running time (`tow`, `time`) advances. -/
theorem mismatch_rejected {dec} (hd : Gated dec) (s : St) (msg : BitBuf) (i : Nat)
    (hc : s.cfg.has = false) (hl : i + 21 ≤ msg.length) (hne : s.iodssr ≠ issueOf msg i) :
    ∃ s', dec s msg i = .ok (s', -1) ∧ OnlyTime s s' := by
  obtain ⟨s1, h, hh, hio, ho⟩ := head_ok s msg i hc hl
  have hs1 : s1.iodssr = s.iodssr := by rw [ho]
  have hne' : s1.iodssr ≠ h.iodssr := by rw [hs1, hio]; exact hne
  refine ⟨s1, ?_, ho⟩
  cases hd <;>
    simp only [decodeCssrUra, decodeCssrStec, decodeCssrGrid, decodeCssrComb, decodeCssrAtmos,
      bind, Except.bind, hh, hne', ne_eq, not_false_eq_true, if_true] <;> rfl

/-- A message too short to carry an issue number raises. -/
theorem truncated_raises {dec} (hd : Gated dec) (s : St) (msg : BitBuf) (i : Nat)
    (hc : s.cfg.has = false) (hl : msg.length < i + 21) :
    dec s msg i = .error .bitstruct := by
  have hh := head_short s msg i hc hl
  cases hd <;>
    simp only [decodeCssrUra, decodeCssrStec, decodeCssrGrid, decodeCssrComb, decodeCssrAtmos,
      bind, Except.bind, hh]

/-- Conversely, a gated message that is not rejected carried the active issue number. -/
theorem accepted_matches {dec} (hd : Gated dec) (s : St) (msg : BitBuf) (i : Nat)
    (hc : s.cfg.has = false) {s' : St} {j : Int} (h : dec s msg i = .ok (s', j)) (hj : j ≠ -1) :
    s.iodssr = issueOf msg i := by
  by_contra hne
  rcases Nat.lt_or_ge msg.length (i + 21) with hl | hl
  · rw [truncated_raises hd s msg i hc hl] at h; cases h
  · obtain ⟨s1, h1, _⟩ := mismatch_rejected hd s msg i hc hl hne
    rw [h1] at h; cases h; exact hj rfl

/-! ## The non-mask messages never change the mask -/

/-- mask state: lists, counts, issue numbers, configuration, number of correction slots -/
def maskKey (s : St) := (s.cfg, s.week, s.tow0, s.iodssr, s.iodssrP, s.ngnss, s.nsatN, s.nsigN,
  s.sysN, s.gnssN, s.satN, s.nsigTotal, s.sigN, s.nsigMax, s.nmIdx, s.gnssIdx, s.nsatG, s.sigNP,
  s.grid, s.lc.length)

/-- loop invariant: mask unchanged and cursor not moved back -/
def Inv (s0 : St) (i0 : Nat) (p : St × Nat) : Prop := maskKey p.1 = maskKey s0 ∧ i0 ≤ p.2

/-- result: mask unchanged, rejected or cursor not moved back -/
def Res (s0 : St) (i0 : Nat) (p : St × Int) : Prop :=
  maskKey p.1 = maskKey s0 ∧ (p.2 = -1 ∨ (i0 : Int) ≤ p.2)

theorem post_modLC {s0 s : St} {n : Nat} {f : LC → LC} (h : maskKey s = maskKey s0) :
    Post (modLC s n f) (fun s' => maskKey s' = maskKey s0) := by
  constructor
  intro s' hs'
  unfold modLC at hs'
  split at hs'
  · cases hs'
    rw [← h]
    simp [maskKey]
  · cases hs'

/-- closes `maskKey _ = maskKey s0` goals from the newest such hypothesis -/
macro "hk" : tactic => `(tactic| first
  | assumption
  | (refine Eq.trans ?_ (by assumption); rfl)
  | (split <;> (refine Eq.trans ?_ (by assumption); rfl))
  | (split <;> (try split) <;> (refine Eq.trans ?_ (by assumption); rfl)))

/-- one step of the symbolic execution -/
macro "pstep" a:ident b:ident : tactic => `(tactic| first
  | (refine Post.throw)
  | (refine Post.error)
  | (refine Post.ite (fun _ => ?_) (fun _ => ?_))
  | (apply Post.pure; refine ⟨by hk, ?_⟩;
      first | exact Or.inl rfl | (simp only; omega))
  | (apply Post.pure; (show maskKey _ = maskKey _); hk)
  | (refine post_modLC (by hk))
  | (refine Post.bind (α := St × Nat) (Q := Inv $a $b) ?_ (fun p hp => ?_) <;>
      (try (obtain ⟨s', i'⟩ := p; obtain ⟨hp1, hp2⟩ := hp; simp only at hp1 hp2 ⊢)))
  | (refine Post.bind (α := St) (Q := fun s' => maskKey s' = maskKey $a) ?_ (fun p hp => ?_))
  | (refine Post.bind (α := St × Nat × Nat × _)
      (Q := fun p => maskKey p.1 = maskKey $a ∧ $b ≤ p.2.1) ?_ (fun p hp => ?_) <;>
      (try (obtain ⟨s', i', n', m'⟩ := p; obtain ⟨hp1, hp2⟩ := hp; simp only at hp1 hp2 ⊢)))
  | (refine Post.bind_any (fun _ => ?_))
  | (refine Post.foldlM (I := Inv $a $b) ?_ ⟨by hk, by (try simp only); omega⟩;
      rintro ⟨s', i'⟩ k' - ⟨hp1, hp2⟩; simp only at hp1 hp2 ⊢)
  | (refine Post.foldlM (I := fun s' => maskKey s' = maskKey $a) ?_ (by hk);
      rintro s' k' - hp1))

theorem post_head {s0 s : St} {msg : BitBuf} {i i0 : Nat} (h : maskKey s = maskKey s0)
    (hi : i0 ≤ i) :
    Post (decodeHead s msg i) (fun p => maskKey p.1 = maskKey s0 ∧ i0 ≤ p.2.2) := by
  unfold decodeHead decodeHeadHas decodeHeadClas
  simp only [Bool.false_eq_true, if_false]
  apply Post.ite <;> intro _
  · apply Post.bind (α := Nat × Nat) (Q := fun p => i0 ≤ p.2)
    · apply Post.bind_any; intro u
      apply Post.pure; simp only; omega
    · intro p hp
      apply Post.pure
      exact ⟨by hk, hp⟩
  · repeat pstep s0 i0

theorem post_orbSat {s0 s : St} {msg : BitBuf} {i i0 : Nat} {sat sys inet}
    (h : maskKey s = maskKey s0) (hi : i0 ≤ i) :
    Post (decodeOrbSat s msg i sat sys inet) (Inv s0 i0) := by
  unfold decodeOrbSat
  repeat pstep s0 i0

theorem post_clkSat {s0 s : St} {msg : BitBuf} {i i0 : Nat} {sat inet}
    (h : maskKey s = maskKey s0) (hi : i0 ≤ i) :
    Post (decodeClkSat s msg i sat inet) (Inv s0 i0) := by
  unfold decodeClkSat
  repeat pstep s0 i0

theorem post_cbiasSat {s0 s : St} {msg : BitBuf} {i i0 : Nat} {sat g inet}
    (h : maskKey s = maskKey s0) (hi : i0 ≤ i) :
    Post (decodeCbiasSat s msg i sat g inet) (Inv s0 i0) := by
  unfold decodeCbiasSat
  repeat pstep s0 i0

theorem post_pbiasSat {s0 s : St} {msg : BitBuf} {i i0 : Nat} {sat g inet}
    (h : maskKey s = maskKey s0) (hi : i0 ≤ i) :
    Post (decodePbiasSat s msg i sat g inet) (Inv s0 i0) := by
  unfold decodePbiasSat
  repeat pstep s0 i0

theorem post_dcm {s0 s : St} {msg : BitBuf} {i i0 : Nat}
    (h : maskKey s = maskKey s0) (hi : i0 ≤ i) : Post (readDcm s msg i) (Inv s0 i0) := by
  unfold readDcm
  repeat pstep s0 i0

theorem post_coeff {s : St} {msg : BitBuf} {st i i0 : Nat} (hi : i0 ≤ i) :
    Post (decodeStecCoeff s msg st i) (fun p => i0 ≤ p.2) := by
  unfold decodeStecCoeff
  refine Post.bind_any (fun _ => ?_)
  refine Post.bind (Q := fun p => i0 ≤ p.2) ?_ (fun p hp => ?_)
  · refine Post.ite (fun _ => ?_) (fun _ => ?_)
    · refine Post.bind_any (fun _ => Post.bind_any (fun _ => Post.pure ?_)); simp only; omega
    · refine Post.pure ?_; simp only; omega
  refine Post.bind (Q := fun p => i0 ≤ p.2) ?_ (fun q hq => ?_)
  · refine Post.ite (fun _ => ?_) (fun _ => ?_)
    · refine Post.bind_any (fun _ => Post.pure ?_); simp only; omega
    · refine Post.pure ?_; simp only; omega
  refine Post.bind (Q := fun p => i0 ≤ p.2) ?_ (fun r hr => ?_)
  · refine Post.ite (fun _ => ?_) (fun _ => ?_)
    · refine Post.bind_any (fun _ => Post.bind_any (fun _ => Post.pure ?_)); simp only; omega
    · refine Post.pure ?_; simp only; omega
  exact Post.pure hr

/-- symbolic execution using the lemmas above -/
macro "pcalls" a:ident b:ident : tactic => `(tactic| first
  | (refine Post.bind (post_head (i0 := $b) (s0 := $a) (by hk) (by omega)) (fun p hp => ?_);
      obtain ⟨s', h', i'⟩ := p; obtain ⟨hp1, hp2⟩ := hp; simp only at hp1 hp2 ⊢)
  | (refine post_orbSat (by hk) (by omega))
  | (refine post_clkSat (by hk) (by omega))
  | (refine post_cbiasSat (by hk) (by omega))
  | (refine post_pbiasSat (by hk) (by omega))
  | (refine post_dcm (by hk) (by omega))
  | (refine Post.bind (post_coeff (i0 := $b) (by omega)) (fun p hp => ?_))
  | pstep $a $b)

theorem post_orb (s : St) (msg : BitBuf) (i inet : Nat) :
    Post (decodeCssrOrb s msg i inet) (Res s i) := by
  unfold decodeCssrOrb setStat
  have h : maskKey s = maskKey s := rfl
  repeat pcalls s i

theorem post_clk (s : St) (msg : BitBuf) (i inet : Nat) :
    Post (decodeCssrClk s msg i inet) (Res s i) := by
  unfold decodeCssrClk setStat
  have h : maskKey s = maskKey s := rfl
  repeat pcalls s i

theorem post_cbias (s : St) (msg : BitBuf) (i inet : Nat) :
    Post (decodeCssrCbias s msg i inet) (Res s i) := by
  unfold decodeCssrCbias setStat
  have h : maskKey s = maskKey s := rfl
  repeat pcalls s i

theorem post_pbias (s : St) (msg : BitBuf) (i inet : Nat) :
    Post (decodeCssrPbias s msg i inet) (Res s i) := by
  unfold decodeCssrPbias setStat
  have h : maskKey s = maskKey s := rfl
  repeat pcalls s i

theorem post_bias (s : St) (msg : BitBuf) (i inet : Nat) :
    Post (decodeCssrBias s msg i inet) (Res s i) := by
  unfold decodeCssrBias setStat
  have h : maskKey s = maskKey s := rfl
  repeat pcalls s i

theorem post_ura (s : St) (msg : BitBuf) (i inet : Nat) :
    Post (decodeCssrUra s msg i inet) (Res s i) := by
  unfold decodeCssrUra setStat
  have h : maskKey s = maskKey s := rfl
  repeat pcalls s i

theorem post_stec (s : St) (msg : BitBuf) (i : Nat) :
    Post (decodeCssrStec s msg i) (Res s i) := by
  unfold decodeCssrStec setStat
  have h : maskKey s = maskKey s := rfl
  repeat pcalls s i

theorem post_grid (s : St) (msg : BitBuf) (i : Nat) :
    Post (decodeCssrGrid s msg i) (Res s i) := by
  unfold decodeCssrGrid setStat
  have h : maskKey s = maskKey s := rfl
  repeat pcalls s i

theorem post_comb (s : St) (msg : BitBuf) (i inet : Nat) :
    Post (decodeCssrComb s msg i inet) (Res s i) := by
  unfold decodeCssrComb setStat
  have h : maskKey s = maskKey s := rfl
  repeat pcalls s i

theorem post_atmosTrop {s0 s : St} {msg : BitBuf} {i i0 trop inet ng udi : Nat}
    (h : maskKey s = maskKey s0) (hi : i0 ≤ i) :
    Post (decodeAtmosTrop s msg i trop inet ng udi) (Inv s0 i0) := by
  unfold decodeAtmosTrop
  repeat pcalls s0 i0

theorem post_atmosSat {s0 s : St} {msg : BitBuf} {i i0 stec inet ng : Nat} {sat : Int}
    (h : maskKey s = maskKey s0) (hi : i0 ≤ i) :
    Post (decodeAtmosSat msg stec inet ng (s, i) sat) (Inv s0 i0) := by
  unfold decodeAtmosSat
  simp only
  repeat pcalls s0 i0

theorem post_atmos (s : St) (msg : BitBuf) (i : Nat) :
    Post (decodeCssrAtmos s msg i) (Res s i) := by
  unfold decodeCssrAtmos setStat
  have h : maskKey s = maskKey s := rfl
  repeat first
    | (refine post_atmosTrop (by hk) (by omega))
    | (refine post_atmosSat (by hk) (by omega))
    | pcalls s i

theorem post_sinfo (s : St) (msg : BitBuf) (i : Nat) :
    Post (decodeCssrSinfo s msg i) (Res s i) := by
  unfold decodeCssrSinfo
  have h : maskKey s = maskKey s := rfl
  refine Post.bind_any (fun _ => Post.bind_any (fun _ => Post.bind_any (fun _ => ?_)))
  refine Post.bind (α := St × Nat × Nat) (Q := fun p => maskKey p.1 = maskKey s ∧ i ≤ p.2.1) ?_ ?_
  · refine Post.foldlM (I := fun p : St × Nat × Nat => maskKey p.1 = maskKey s ∧ i ≤ p.2.1) ?_ ⟨rfl, by
      simp only; omega⟩
    rintro ⟨s', i', j'⟩ k - ⟨hp1, hp2⟩
    simp only at hp1 hp2 ⊢
    repeat pcalls s i
  · rintro ⟨s', i', j'⟩ ⟨hp1, hp2⟩
    simp only at hp1 hp2 ⊢
    repeat pcalls s i

/-- the mask decoder does not move the cursor back -/
theorem post_mask (s : St) (msg : BitBuf) (i : Nat) :
    Post (decodeCssrMask s msg i) (fun p => (i : Int) ≤ p.2) := by
  unfold decodeCssrMask
  refine Post.bind (α := St × Head × Nat) (Q := fun p => i ≤ p.2.2) ?_ ?_
  · unfold decodeHead decodeHeadHas decodeHeadClas
    simp only [if_true]
    refine Post.ite (fun _ => ?_) (fun _ => ?_)
    · refine Post.bind (α := Nat × Nat) (Q := fun p => i ≤ p.2) (Post.pure (by simp)) ?_
      intro p hp
      exact Post.pure hp
    · refine Post.bind (α := St × Nat) (Q := fun p => i ≤ p.2) ?_ ?_
      · exact Post.bind_any fun _ => Post.pure (by simp only; omega)
      · intro p hp
        exact Post.bind_any fun _ => Post.bind_any fun _ => Post.bind_any fun _ =>
          Post.pure (by simp only; omega)
  · rintro ⟨s', h', i'⟩ hp
    simp only at hp ⊢
    refine Post.bind_any fun _ => ?_
    refine Post.bind (α := St × Nat) (Q := fun p => i ≤ p.2) ?_ ?_
    · refine Post.foldlM (I := fun p : St × Nat => i ≤ p.2) ?_ (by simp only; omega)
      rintro ⟨t, j⟩ k - hj
      simp only at hj
      unfold maskGnss
      simp only
      refine Post.bind_any fun _ => Post.bind_any fun _ => Post.bind_any fun _ =>
        Post.bind_any fun _ => Post.bind_any fun _ => Post.bind_any fun _ => Post.bind_any fun _ => ?_
      refine Post.ite (fun _ => Post.bind_any fun _ => Post.pure ?_) (fun _ => Post.pure ?_)
      · simp only; split <;> omega
      · simp only; split <;> omega
    · rintro ⟨t, j⟩ hj
      simp only at hj ⊢
      refine Post.bind_any fun _ => Post.bind_any fun _ => Post.pure ?_
      simp only; split <;> omega

theorem post_sub (s : St) (msg : BitBuf) (i sub : Nat) (h1 : sub ≠ 1) :
    Post (decodeSub s msg i sub) (Res s i) := by
  unfold decodeSub
  split
  · exact absurd rfl h1
  · exact post_orb ..
  · exact post_clk ..
  · exact post_cbias ..
  · exact post_pbias ..
  · exact post_bias ..
  · exact post_ura ..
  · exact post_stec ..
  · exact post_grid ..
  · exact post_sinfo ..
  · exact post_comb ..
  · exact post_atmos ..
  · exact Post.ok ⟨rfl, Or.inr (le_refl _)⟩

theorem post_sub_cursor (s : St) (msg : BitBuf) (i sub : Nat) :
    Post (decodeSub s msg i sub) (fun p => p.2 = -1 ∨ (i : Int) ≤ p.2) := by
  by_cases h1 : sub = 1
  · subst h1
    exact (post_mask s msg i).mono fun p hp => Or.inr hp
  · exact (post_sub s msg i sub h1).mono fun p hp => hp.2

/-- Only a mask message can change the mask: every other message leaves the list of satellites,
systems and signals, the issue numbers and the number of correction slots as they were, whether it
is accepted or rejected. -/
theorem mask_only_by_mask (s : St) (msg : BitBuf) (i sub : Nat) (h1 : sub ≠ 1) {s' : St} {j : Int}
    (h : decodeSub s msg i sub = .ok (s', j)) : maskKey s' = maskKey s :=
  ((post_sub s msg i sub h1).out _ h).1

theorem readU_long {msg : BitBuf} {i n : Nat} (h : msg.length < i + n) :
    readU msg i n = .error .bitstruct := by
  unfold readU
  rw [if_neg (by omega)]

theorem loop_fuel (msg : BitBuf) (f : Nat) : ∀ (s : St) (i : Nat), msg.length < i + 12 + 16 * f →
    ∀ g, f ≤ g → decodeCssrLoop (g + 1) s msg i = decodeCssrLoop (f + 1) s msg i := by
  induction f with
  | zero =>
    intro s i hi g _
    unfold decodeCssrLoop
    rw [readU_long (by omega : msg.length < i + 12)]
    rfl
  | succ f ih =>
    intro s i hi g hg
    obtain ⟨g, rfl⟩ : ∃ k, g = k + 1 := ⟨g - 1, by omega⟩
    rw [decodeCssrLoop, decodeCssrLoop]
    refine bind_congr fun mt => bind_congr fun sub => ?_
    split
    · rfl
    · cases hd : decodeSub { s with subtype := sub } msg (i + 16) sub with
      | error e => rfl
      | ok p =>
        obtain ⟨s', j⟩ := p
        simp only [bind, Except.bind]
        split
        · rfl
        · have := (post_sub_cursor _ _ _ _).out _ hd
          simp only at this
          exact ih s' j.toNat (by omega) g (by omega)

/-- The bound on the number of messages in the model of `decode_cssr` is never reached. -/
theorem fuel_enough (s : St) (msg : BitBuf) (i : Nat) (f : Nat) (hf : msg.length + 1 ≤ f) :
    decodeCssrLoop f s msg i = decodeCssr s msg i := by
  obtain ⟨g, rfl⟩ : ∃ k, f = k + 1 := ⟨f - 1, by omega⟩
  exact loop_fuel msg msg.length s i (by omega) g (by omega)

/-- sub-type numbers of the gated messages -/
def gatedSub (sub : Nat) : Prop := sub = 7 ∨ sub = 8 ∨ sub = 9 ∨ sub = 11 ∨ sub = 12

/-- End to end: a buffer that starts with a gated message of another issue is left undecoded
from there on; nothing but the running time and the current sub-type is changed. -/
theorem buffer_rejected (s : St) (msg : BitBuf) (sub : Nat) (hs : gatedSub sub)
    (hc : s.cfg.has = false) (h12 : readU msg 0 12 = .ok 4073) (h4 : readU msg 12 4 = .ok sub)
    (hl : 37 ≤ msg.length) (hne : s.iodssr ≠ issueOf msg 16) :
    ∃ s', decodeCssr s msg = .ok (s', 0) ∧
      s' = { s with tow := s'.tow, time := s'.time, subtype := sub } := by
  have key : ∃ s', decodeSub { s with subtype := sub } msg 16 sub = .ok (s', -1) ∧
      OnlyTime { s with subtype := sub } s' := by
    rcases hs with rfl | rfl | rfl | rfl | rfl
    · exact mismatch_rejected (.ura 0) _ msg 16 hc (by omega) hne
    · exact mismatch_rejected .stec _ msg 16 hc (by omega) hne
    · exact mismatch_rejected .grid _ msg 16 hc (by omega) hne
    · exact mismatch_rejected (.comb 0) _ msg 16 hc (by omega) hne
    · exact mismatch_rejected .atmos _ msg 16 hc (by omega) hne
  obtain ⟨s', hd, ho⟩ := key
  refine ⟨s', ?_, ho⟩
  unfold decodeCssr decodeCssrLoop
  simp only [Nat.zero_add, bind, Except.bind, h12, h4, ne_eq, not_true_eq_false, if_false, hd]
  rw [if_pos (by decide)]
  rfl

/-! ## Examples -/

/-- a decoder holding issue 3 and one GPS satellite -/
def demoSt : St := { cfg := cfgClas, tow0 := 0, iodssr := 3, nsatN := 1, satN := [1], sysN := [.gps] }

/-- a URA message of issue `iod` for one satellite (class 1, value 2) -/
def demoMsg (iod : Nat) : BitBuf := natToBits 12 4073 ++ natToBits 4 7 ++ natToBits 12 30 ++
  natToBits 4 0 ++ natToBits 1 0 ++ natToBits 4 iod ++ natToBits 3 1 ++ natToBits 3 2

/-- what is stored and the return value -/
def seen (r : Py (St × Int)) : Option (Dict Int Val × Int) :=
  match r with
  | .ok (s, j) => some (((s.lc[0]?).map (·.ura)).getD [], j)
  | .error _ => none

-- same issue: stored; other issue: rejected
example : seen (decodeCssrUra demoSt (demoMsg 3) 16) = some ([(1, some (35 / 10000))], 43) := by
  decide +kernel
example : seen (decodeCssrUra demoSt (demoMsg 4) 16) = some ([], -1) := by decide +kernel
example : demoSt.iodssr ≠ issueOf (demoMsg 4) 16 ∧ readU (demoMsg 4) 0 12 = .ok 4073 ∧
    readU (demoMsg 4) 12 4 = .ok 7 ∧ gatedSub 7 ∧ 37 ≤ (demoMsg 4).length ∧
    demoSt.cfg.has = false := by
  refine ⟨by decide +kernel, by decide +kernel, by decide +kernel, Or.inl rfl, by decide, rfl⟩

/-- an orbit message of issue `iod` for one GPS satellite -/
def orbMsg (iod : Nat) : BitBuf := natToBits 12 30 ++ natToBits 4 0 ++ natToBits 1 0 ++
  natToBits 4 iod ++ natToBits 8 77 ++ natToBits 15 1 ++ natToBits 13 1 ++ natToBits 13 1

/-- The gate does not cover orbit messages: one of another issue is stored (its issue is kept
beside the values in `iodssrC`, so that the user can compare). -/
theorem orbit_not_gated : ∃ (s : St) (msg : BitBuf), s.cfg.has = false ∧ s.iodssr ≠ issueOf msg 0 ∧
    (match decodeCssrOrb s msg 0 with
      | .ok (s', j) => (((s'.lc[0]?).map (·.iode)).getD [], s'.iodssrC .orbit, j)
      | .error _ => ([], 0, 0)) = ([(1, 77)], 4, 70) :=
  ⟨demoSt, orbMsg 4, rfl, by decide +kernel, by decide +kernel⟩

end Verif.C12
