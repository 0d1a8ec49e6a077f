import Verif.Props.C12
import Mathlib.Tactic.IntervalCases
/-!
# C15 Readiness check reflects received correction types

Specification: a history is a sequence of message decodings.  A correction type counts as received
for a network when a message carrying it (`carries`) was decoded.  Readiness needs mask, orbit,
clock and code bias in the global slot 0 and STEC, troposphere (and phase bias if required) in the
slot of the chosen network.
-/

namespace Verif.C15
open Verif.Sat Verif.Sig Verif.Mask Verif.Time Verif.Cssr

/-- message sub-types that can carry a correction type (IS-QZSS-L6 table) and the network slots
they may fill -/
def carries (sub : Nat) (net : Nat) (c : CType) : Prop :=
  (sub = 1 ∧ net = 0 ∧ c = .mask) ∨ (sub = 2 ∧ net = 0 ∧ c = .orbit) ∨
  (sub = 3 ∧ net = 0 ∧ c = .clock) ∨ (sub = 4 ∧ net = 0 ∧ c = .cbias) ∨
  (sub = 5 ∧ net = 0 ∧ c = .pbias) ∨ (sub = 6 ∧ net < 32 ∧ (c = .cbias ∨ c = .pbias)) ∨
  (sub = 7 ∧ net = 0 ∧ c = .ura) ∨ (sub = 8 ∧ net < 32 ∧ c = .stec) ∨
  (sub = 9 ∧ net < 32 ∧ c = .trop) ∨ (sub = 11 ∧ net < 32 ∧ (c = .orbit ∨ c = .clock)) ∨
  (sub = 12 ∧ net < 32 ∧ (c = .trop ∨ c = .stec))

/-- the status flag of type `c` in slot `n` -/
def has (lc : List LC) (n : Nat) (c : CType) : Prop := ∃ l, lc[n]? = some l ∧ l.cstat.testBit c.num

/-- a step that keeps the flags already set and sets at most those allowed by `A` -/
def Step (A : Nat → CType → Prop) (lc lc' : List LC) : Prop :=
  lc'.length = lc.length ∧ (∀ n c, has lc n c → has lc' n c) ∧
  ∀ n c, has lc' n c → has lc n c ∨ A n c

theorem Step.refl (A lc) : Step A lc lc := ⟨rfl, fun _ _ h => h, fun _ _ h => Or.inl h⟩

theorem num_inj {c d : CType} (h : c.num = d.num) : c = d := by
  cases c <;> cases d <;> first | rfl | (exact absurd h (by decide))

variable {A : Nat → CType → Prop}

theorem step_set {lc lc' : List LC} {n : Nat} {l : LC} {f : LC → LC} (h : Step A lc lc')
    (hl : lc'[n]? = some l)
    (hmono : ∀ k, l.cstat.testBit k → (f l).cstat.testBit k)
    (hnew : ∀ c : CType, (f l).cstat.testBit c.num → l.cstat.testBit c.num ∨ A n c) :
    Step A lc (lc'.set n (f l)) := by
  obtain ⟨h1, h2, h3⟩ := h
  have hn : n < lc'.length := (List.getElem?_eq_some_iff.1 hl).1
  refine ⟨by simp [h1], fun m c hm => ?_, fun m c hm => ?_⟩
  · obtain ⟨l0, e0, b0⟩ := h2 m c hm
    by_cases hmn : n = m
    · subst hmn
      rw [hl] at e0; cases e0
      exact ⟨f l, by simp [hn], hmono _ b0⟩
    · exact ⟨l0, by rw [List.getElem?_set_ne hmn]; exact e0, b0⟩
  · obtain ⟨l0, e0, b0⟩ := hm
    by_cases hmn : n = m
    · subst hmn
      rw [List.getElem?_set_self hn] at e0
      cases e0
      rcases hnew c b0 with hb | hb
      · exact h3 n c ⟨l, hl, hb⟩
      · exact Or.inr hb
    · rw [List.getElem?_set_ne hmn] at e0
      exact h3 m c ⟨l0, e0, b0⟩

theorem post_same {lc : List LC} {s : St} {n : Nat} {f : LC → LC} (h : Step A lc s.lc)
    (hf : ∀ l, (f l).cstat = l.cstat) : Post (modLC s n f) (fun s' => Step A lc s'.lc) := by
  constructor
  intro s' hs'
  unfold modLC at hs'
  split at hs'
  · cases hs'
    exact step_set h ‹_› (fun k hk => by rw [hf]; exact hk)
      (fun c hc => Or.inl (by rw [hf] at hc; exact hc))
  · cases hs'

theorem post_flag {lc : List LC} {s : St} {n : Nat} {c : CType} (h : Step A lc s.lc)
    (hA : A n c) : Post (setStat s n c) (fun s' => Step A lc s'.lc) := by
  constructor
  intro s' hs'
  unfold setStat modLC at hs'
  split at hs'
  · rename_i l hl
    cases hs'
    refine step_set (f := fun l => { l with cstat := l.cstat ||| 1 <<< c.num }) h hl
      (fun k hk => by simp [hk]) (fun d hd => ?_)
    simp only [Nat.testBit_or, Bool.or_eq_true] at hd
    rcases hd with hd | hd
    · exact Or.inl hd
    · rw [Nat.one_shiftLeft, Nat.testBit_two_pow, decide_eq_true_eq] at hd
      exact Or.inr (num_inj hd ▸ hA)
  · cases hs'

theorem post_u5 {msg : BitBuf} {i : Nat} : Post (readU msg i 5) (· < 32) :=
  ⟨fun _ h => readU_lt h⟩

theorem post_headLc (s : St) (msg : BitBuf) (i : Nat) (m : Bool) :
    Post (decodeHead s msg i m) (fun p => p.1.lc = s.lc) := by
  unfold decodeHead decodeHeadHas decodeHeadClas
  refine Post.ite (fun _ => ?_) (fun _ => ?_)
  · refine Post.bind_any fun _ => Post.pure ?_
    simp only
    split
    · split <;> rfl
    · rfl
  · refine Post.bind (α := St × Nat) (Q := fun p => p.1.lc = s.lc) ?_ ?_
    · refine Post.ite (fun _ => ?_) (fun _ => ?_)
      · exact Post.bind_any fun _ => Post.pure rfl
      · refine Post.bind_any fun _ => Post.pure ?_
        simp only
        split <;> rfl
    · rintro ⟨s', i'⟩ hp
      refine Post.bind_any fun _ => Post.bind_any fun _ => Post.bind_any fun _ => Post.pure ?_
      simp only
      split <;> exact hp

/-- one step of the symbolic execution -/
macro "sstep" c:term:max a:term:max : tactic => `(tactic| first
  | (refine Post.throw)
  | (refine Post.error)
  | (refine Post.ite (fun _ => ?_) (fun _ => ?_))
  | (refine Post.bind (post_headLc _ _ _ _) (fun p hp => ?_);
      obtain ⟨s', h', i'⟩ := p; simp only at hp ⊢;
      have hst : Step $c $a s'.lc := by rw [hp]; exact Step.refl _ _)
  | (apply Post.pure; assumption)
  | (apply Post.pure; refine ⟨?_, ?_⟩ <;> first | assumption | exact (by decide : 0 < 32))
  | (apply Post.pure; simp only; split <;> assumption)
  | (refine post_same (by assumption) (fun _ => rfl))
  | (refine post_flag (by first | assumption | (simp only [setIodC]; split <;> assumption)) (by simp [carries, *]))
  | (refine Post.bind post_u5 (fun n hn => ?_))
  | (refine Post.bind (α := St × Nat) (Q := fun p => Step $c $a p.1.lc) ?_ (fun p hp => ?_) <;>
      (try (obtain ⟨s', i'⟩ := p; simp only at hp ⊢)))
  | (refine Post.bind (α := St) (Q := fun s' => Step $c $a s'.lc) ?_ (fun p hp => ?_))
  | (refine Post.bind (α := St × Nat × Nat × _)
      (Q := fun p => Step $c $a p.1.lc ∧ p.2.2.1 < 32) ?_ (fun p hp => ?_) <;>
      (try (obtain ⟨s', i', n', m'⟩ := p; obtain ⟨hp1, hp2⟩ := hp; simp only at hp1 hp2 ⊢)))
  | (refine Post.bind_any (fun _ => ?_))
  | (refine Post.foldlM (I := fun p : St × Nat => Step $c $a p.1.lc) ?_ (by assumption);
      rintro ⟨s', i'⟩ k' - hp; simp only at hp ⊢)
  | (refine Post.foldlM (I := fun s' : St => Step $c $a s'.lc) ?_ (by assumption);
      rintro s' k' - hp))

theorem step_orb (s : St) (msg : BitBuf) (i : Nat) :
    Post (decodeCssrOrb s msg i) (fun p => Step (carries 2) s.lc p.1.lc) := by
  unfold decodeCssrOrb decodeOrbSat
  repeat sstep (carries 2) (s.lc)

theorem step_clk (s : St) (msg : BitBuf) (i : Nat) :
    Post (decodeCssrClk s msg i) (fun p => Step (carries 3) s.lc p.1.lc) := by
  unfold decodeCssrClk decodeClkSat readDcm
  repeat sstep (carries 3) (s.lc)

theorem step_cbias (s : St) (msg : BitBuf) (i : Nat) :
    Post (decodeCssrCbias s msg i) (fun p => Step (carries 4) s.lc p.1.lc) := by
  unfold decodeCssrCbias decodeCbiasSat
  repeat sstep (carries 4) (s.lc)

theorem step_pbias (s : St) (msg : BitBuf) (i : Nat) :
    Post (decodeCssrPbias s msg i) (fun p => Step (carries 5) s.lc p.1.lc) := by
  unfold decodeCssrPbias decodePbiasSat
  repeat sstep (carries 5) (s.lc)

theorem step_bias (s : St) (msg : BitBuf) (i : Nat) :
    Post (decodeCssrBias s msg i) (fun p => Step (carries 6) s.lc p.1.lc) := by
  unfold decodeCssrBias decodeCbiasSat decodePbiasSat
  repeat sstep (carries 6) (s.lc)

theorem step_ura (s : St) (msg : BitBuf) (i : Nat) :
    Post (decodeCssrUra s msg i) (fun p => Step (carries 7) s.lc p.1.lc) := by
  unfold decodeCssrUra
  repeat sstep (carries 7) (s.lc)

theorem step_stec (s : St) (msg : BitBuf) (i : Nat) :
    Post (decodeCssrStec s msg i) (fun p => Step (carries 8) s.lc p.1.lc) := by
  unfold decodeCssrStec
  repeat sstep (carries 8) (s.lc)

theorem step_grid (s : St) (msg : BitBuf) (i : Nat) :
    Post (decodeCssrGrid s msg i) (fun p => Step (carries 9) s.lc p.1.lc) := by
  unfold decodeCssrGrid
  repeat sstep (carries 9) (s.lc)

theorem step_comb (s : St) (msg : BitBuf) (i : Nat) :
    Post (decodeCssrComb s msg i) (fun p => Step (carries 11) s.lc p.1.lc) := by
  unfold decodeCssrComb decodeClkSat decodeOrbSat
  repeat sstep (carries 11) (s.lc)

theorem step_atmos (s : St) (msg : BitBuf) (i : Nat) :
    Post (decodeCssrAtmos s msg i) (fun p => Step (carries 12) s.lc p.1.lc) := by
  unfold decodeCssrAtmos decodeAtmosSat decodeAtmosTrop
  repeat sstep (carries 12) (s.lc)

theorem post_maskSat {gnss sys prn cma vc nsig sigR} (s : St) (k : Nat) :
    Post (maskSat gnss sys prn cma vc nsig sigR s k) (fun s' => s'.lc = s.lc) := by
  unfold maskSat
  refine Post.bind_any fun _ => ?_
  refine Post.ite (fun _ => ?_) (fun _ => ?_)
  · exact Post.bind_any fun _ => Post.bind_any fun _ => Post.pure rfl
  · exact Post.pure rfl

theorem post_maskGnss (msg : BitBuf) (si : St × Nat) :
    Post (maskGnss msg si) (fun p => p.1.lc = si.1.lc) := by
  unfold maskGnss
  refine Post.bind_any fun _ => Post.bind_any fun _ => Post.bind_any fun _ => Post.bind_any fun _ =>
    Post.bind_any fun _ => Post.bind_any fun _ => ?_
  refine Post.bind (α := St) (Q := fun s' => s'.lc = si.1.lc) ?_ ?_
  · refine Post.foldlM (I := fun s' : St => s'.lc = si.1.lc) ?_ rfl
    intro a b _ ha
    exact (post_maskSat a b).mono fun s' hs' => hs'.trans ha
  · intro s' hs'
    refine Post.ite (fun _ => ?_) (fun _ => ?_)
    · exact Post.bind_any fun _ => Post.pure hs'
    · exact Post.pure hs'

theorem step_mask (s : St) (msg : BitBuf) (i : Nat) :
    Post (decodeCssrMask s msg i) (fun p => Step (carries 1) s.lc p.1.lc) := by
  unfold decodeCssrMask
  refine Post.bind (post_headLc _ _ _ _) (fun p hp => ?_)
  obtain ⟨s', h', i'⟩ := p
  simp only at hp ⊢
  refine Post.bind_any fun _ => ?_
  refine Post.bind (α := St × Nat) (Q := fun p => p.1.lc = s.lc) ?_ ?_
  · refine Post.foldlM (I := fun p : St × Nat => p.1.lc = s.lc) ?_ ?_
    · intro a b _ ha
      exact (post_maskGnss msg a).mono fun p hp => hp.trans ha
    · simp only
      split <;> exact hp
  · rintro ⟨t, j⟩ ht
    simp only at ht ⊢
    refine Post.bind (post_flag (A := carries 1) (lc := s.lc) (c := .mask) ?_ ?_) ?_
    · rw [ht]; exact Step.refl _ _
    · simp [carries]
    · intro u hu
      exact Post.bind (post_same hu fun _ => rfl) fun v hv => Post.pure hv

theorem step_sinfo (s : St) (msg : BitBuf) (i : Nat) :
    Post (decodeCssrSinfo s msg i) (fun p => Step (carries 10) s.lc p.1.lc) := by
  unfold decodeCssrSinfo
  refine Post.bind_any fun _ => Post.bind_any fun _ => Post.bind_any fun _ => ?_
  refine Post.bind (α := St × Nat × Nat) (Q := fun p => Step (carries 10) s.lc p.1.lc) ?_ ?_
  · refine Post.foldlM (I := fun p : St × Nat × Nat => Step (carries 10) s.lc p.1.lc) ?_
      (Step.refl _ _)
    rintro ⟨s', i', j'⟩ k - hp
    exact Post.bind_any fun _ => Post.bind_any fun _ => Post.pure hp
  · rintro ⟨s', i', j'⟩ hp
    exact Post.pure hp

theorem step_sub (s : St) (msg : BitBuf) (i sub : Nat) :
    Post (decodeSub s msg i sub) (fun p => Step (carries sub) s.lc p.1.lc) := by
  unfold decodeSub
  split
  · exact step_mask ..
  · exact step_orb ..
  · exact step_clk ..
  · exact step_cbias ..
  · exact step_pbias ..
  · exact step_bias ..
  · exact step_ura ..
  · exact step_stec ..
  · exact step_grid ..
  · exact step_sinfo ..
  · exact step_comb ..
  · exact step_atmos ..
  · exact Post.ok (Step.refl _ _)

/-! ## Histories -/

/-- `Run s log s'`: from `s` the decoder can reach `s'` by decoding messages of the sub-types in
`log` (most recent first); in between other fields (time, week, position) may be changed freely. -/
inductive Run : St → List Nat → St → Prop
  | nil (s : St) : Run s [] s
  | env {s log s1 s2} (h : Run s log s1) (he : s2.lc = s1.lc) : Run s log s2
  | msg {s log s1 s2 j} (h : Run s log s1) (m : BitBuf) (i sub : Nat)
      (hd : decodeSub s1 m i sub = .ok (s2, j)) : Run s (sub :: log) s2

/-- Flags are never lost. -/
theorem flag_persists {s s' : St} {log : List Nat} (h : Run s log s') {n : Nat} {c : CType}
    (hf : has s.lc n c) : has s'.lc n c := by
  induction h with
  | nil => exact hf
  | env _ he ih => rw [he]; exact ih
  | msg _ m i sub hd ih => exact ((step_sub _ m i sub).out _ hd).2.1 n c ih

/-- A flag is set only when a message carrying that correction type was decoded. -/
theorem flag_received {s s' : St} {log : List Nat} (h : Run s log s') {n : Nat} {c : CType}
    (h0 : ¬ has s.lc n c) (hf : has s'.lc n c) : ∃ sub ∈ log, carries sub n c := by
  induction h with
  | nil => exact absurd hf h0
  | env _ he ih => rw [he] at hf; exact ih hf
  | msg _ m i sub hd ih =>
    rcases ((step_sub _ m i sub).out _ hd).2.2 n c hf with h' | h'
    · obtain ⟨sub', hm, hc⟩ := ih h'
      exact ⟨sub', by simp [hm], hc⟩
    · exact ⟨sub, by simp, h'⟩

theorem slots {s s' : St} {log : List Nat} (h : Run s log s') : s'.lc.length = s.lc.length := by
  induction h with
  | nil => rfl
  | env _ he ih => rw [he]; exact ih
  | msg _ m i sub hd ih => rw [((step_sub _ m i sub).out _ hd).1, ih]

/-! ## The readiness check -/

/-- what readiness requires of the slots: `g` is the global one, `n` the local one -/
def Ready (lc : List LC) (n : Nat) (localPbias : Bool) : Prop :=
  has lc 0 .mask ∧ has lc 0 .orbit ∧ has lc 0 .clock ∧ has lc 0 .cbias ∧
  has lc n .stec ∧ has lc n .trop ∧ (localPbias = true → has lc n .pbias)

theorem and_mask_eq {a m : Nat} : a &&& m = m ↔ ∀ k, m.testBit k → a.testBit k := by
  constructor
  · intro h k hk
    rw [← h] at hk
    simp only [Nat.testBit_and, Bool.and_eq_true] at hk
    exact hk.1
  · intro h
    apply Nat.eq_of_testBit_eq
    intro k
    rw [Nat.testBit_and]
    cases hm : m.testBit k
    · simp
    · simp [h k hm]

theorem bits_of_small {m n : Nat} (hm : m < 2 ^ n) (p : Nat → Prop) :
    (∀ k, m.testBit k → p k) ↔ ∀ k < n, m.testBit k → p k := by
  constructor
  · intro h k _ hk; exact h k hk
  · intro h k hk
    refine h k ?_ hk
    by_contra hkn
    rw [Nat.testBit_lt_two_pow (Nat.lt_of_lt_of_le hm (Nat.pow_le_pow_right (by decide) (by omega)))] at hk
    cases hk

theorem mask0f {a : Nat} : a &&& 0x0f = 0x0f ↔
    a.testBit 0 ∧ a.testBit 1 ∧ a.testBit 2 ∧ a.testBit 3 := by
  rw [and_mask_eq, bits_of_small (n := 4) (by decide)]
  constructor
  · intro h
    exact ⟨h 0 (by decide) (by decide), h 1 (by decide) (by decide), h 2 (by decide) (by decide),
      h 3 (by decide) (by decide)⟩
  · rintro ⟨h0, h1, h2, h3⟩ k hk _
    interval_cases k <;> assumption

theorem mask60 {a : Nat} : a &&& 0x60 = 0x60 ↔ a.testBit 5 ∧ a.testBit 6 := by
  rw [and_mask_eq, bits_of_small (n := 7) (by decide)]
  constructor
  · intro h
    exact ⟨h 5 (by decide) (by decide), h 6 (by decide) (by decide)⟩
  · rintro ⟨h0, h1⟩ k hk hb
    interval_cases k <;> first | assumption | exact absurd hb (by decide)

theorem mask10 {a : Nat} : a &&& 0x10 = 0x10 ↔ a.testBit 4 := by
  rw [and_mask_eq, bits_of_small (n := 5) (by decide)]
  constructor
  · intro h
    exact h 4 (by decide) (by decide)
  · rintro h0 k hk hb
    interval_cases k <;> first | assumption | exact absurd hb (by decide)

theorem has_iff {lc : List LC} {n : Nat} {l : LC} (hl : lc[n]? = some l) (c : CType) :
    has lc n c ↔ l.cstat.testBit c.num := by
  unfold has
  rw [hl]
  simp

theorem chk_iff {lc : List LC} {r : Int} {n : Nat} {g l : LC} (hg : lc[0]? = some g)
    (hl : lc[n]? = some l) (hr : pyGetI lc r = .ok l) (lp : Bool) :
    ∃ b, chkStat lc r lp = .ok b ∧ (b = true ↔ Ready lc n lp) := by
  unfold Ready
  simp only [has_iff hg, has_iff hl, CType.num]
  unfold chkStat
  simp only [bind, Except.bind, pyGet, hg, hr, pure, Except.pure, bne_iff_ne, ne_eq,
    Bool.and_eq_true, mask0f, mask60, mask10]
  by_cases h1 : g.cstat.testBit 0 = true ∧ g.cstat.testBit 1 = true ∧ g.cstat.testBit 2 = true ∧
      g.cstat.testBit 3 = true
  · by_cases h2 : l.cstat.testBit 5 = true ∧ l.cstat.testBit 6 = true
    · by_cases h3 : lp = true ∧ ¬ l.cstat.testBit 4 = true
      · rw [if_neg (not_not.2 h1), if_neg (not_not.2 h2), if_pos h3]
        exact ⟨_, rfl, by simp [h3]⟩
      · rw [if_neg (not_not.2 h1), if_neg (not_not.2 h2), if_neg h3]
        refine ⟨_, rfl, ?_⟩
        simp only [true_iff]
        exact ⟨h1.1, h1.2.1, h1.2.2.1, h1.2.2.2, h2.1, h2.2, fun hp => by
          by_contra hc; exact h3 ⟨hp, hc⟩⟩
    · rw [if_neg (not_not.2 h1), if_pos h2]
      exact ⟨_, rfl, by
        simp only [Bool.false_eq_true, false_iff]
        exact fun h => h2 ⟨h.2.2.2.2.1, h.2.2.2.2.2.1⟩⟩
  · rw [if_pos h1]
    exact ⟨_, rfl, by
      simp only [Bool.false_eq_true, false_iff]
      exact fun h => h1 ⟨h.1, h.2.1, h.2.2.1, h.2.2.2.1⟩⟩

/-- For a chosen network the check never raises and answers "ready" exactly when the required
flags of the global slot and of that network's slot are set. -/
theorem ready_iff (lc : List LC) (n : Nat) (hn : n < lc.length) (lp : Bool) :
    ∃ b, chkStat lc n lp = .ok b ∧ (b = true ↔ Ready lc n lp) := by
  have h0 : 0 < lc.length := by omega
  refine chk_iff (g := lc[0]) (l := lc[n]) (by simp [h0]) (by simp [hn]) ?_ lp
  simp [pyGetI, pyGet, hn]

/-- Readiness of a decoder started from scratch means that every required correction type was
received: the global ones, and the local ones for the chosen network. -/
theorem ready_received {s s' : St} {log : List Nat} (h : Run s log s')
    (h0 : ∀ n c, ¬ has s.lc n c) {n : Nat} (hn : n < s.lc.length) {lp : Bool}
    (hr : chkStat s'.lc n lp = .ok true) :
    (∃ a ∈ log, carries a 0 .mask) ∧ (∃ a ∈ log, carries a 0 .orbit) ∧
    (∃ a ∈ log, carries a 0 .clock) ∧ (∃ a ∈ log, carries a 0 .cbias) ∧
    (∃ a ∈ log, carries a n .stec) ∧ (∃ a ∈ log, carries a n .trop) ∧
    (lp = true → ∃ a ∈ log, carries a n .pbias) := by
  obtain ⟨b, hb, hi⟩ := ready_iff s'.lc n (by rw [slots h]; exact hn) lp
  rw [hr] at hb
  cases hb
  obtain ⟨r1, r2, r3, r4, r5, r6, r7⟩ := hi.1 rfl
  have k := fun n c => flag_received h (h0 n c)
  exact ⟨k _ _ r1, k _ _ r2, k _ _ r3, k _ _ r4, k _ _ r5, k _ _ r6, fun hp => k _ _ (r7 hp)⟩

/-- Before a network has been chosen (`inet_ref = -1`) the check looks at the last slot, which no
message can fill, so a decoder started from scratch is never reported ready. -/
theorem no_network_never_ready {s s' : St} {log : List Nat} (h : Run s log s')
    (h0 : ∀ n c, ¬ has s.lc n c) (hlen : s.lc.length = 33) (lp : Bool) :
    chkStat s'.lc (-1) lp = .ok false := by
  have hl : s'.lc.length = 33 := by rw [slots h, hlen]
  obtain ⟨b, hb, hi⟩ := chk_iff (lc := s'.lc) (r := -1) (n := 32) (g := s'.lc[0]) (l := s'.lc[32])
    (by simp [hl]) (by simp [hl]) (by simp [pyGetI, pyGet, hl]) lp
  cases b with
  | false => exact hb
  | true =>
    exfalso
    obtain ⟨_, _, _, _, r5, _⟩ := hi.1 rfl
    obtain ⟨a, _, hc⟩ := flag_received h (h0 _ _) r5
    simp [carries] at hc

/-! ## Accepted messages set their flag -/

theorem post_sets (s : St) (n : Nat) (c : CType) :
    Post (setStat s n c) (fun s' => has s'.lc n c) := by
  constructor
  intro s' hs'
  unfold setStat modLC at hs'
  split at hs'
  · rename_i l hl
    cases hs'
    have hn : n < s.lc.length := (List.getElem?_eq_some_iff.1 hl).1
    exact ⟨_, List.getElem?_set_self hn, by simp [Nat.one_shiftLeft, Nat.testBit_two_pow]⟩
  · cases hs'

theorem post_keeps {s : St} {m n : Nat} {c : CType} {f : LC → LC} (h : has s.lc n c)
    (hf : ∀ l, (f l).cstat = l.cstat) : Post (modLC s m f) (fun s' => has s'.lc n c) :=
  (post_same (A := fun _ _ => False) (lc := s.lc) (Step.refl _ _) hf).mono fun _ hs => hs.2.1 n c h

/-- the correction type of the single-type global messages -/
def typeOf : Nat → Option CType
  | 1 => some .mask | 2 => some .orbit | 3 => some .clock | 4 => some .cbias | 5 => some .pbias
  | 7 => some .ura | _ => none

/-- the 5-bit network number of a STEC (`off = 2`) or gridded (`off = 3`) message body at `i` -/
def netOf (msg : BitBuf) (i off : Nat) : Nat := bitsToNat ((msg.drop (i + 21 + off)).take 5)

/-- An accepted global message of one correction type sets that type's flag. -/
theorem flag_set (s : St) (msg : BitBuf) (i sub : Nat) {c : CType} (hc : typeOf sub = some c)
    {s' : St} {j : Int} (h : decodeSub s msg i sub = .ok (s', j)) (hj : j ≠ -1) :
    has s'.lc 0 c := by
  have key : Post (decodeSub s msg i sub) (fun p => p.2 ≠ -1 → has p.1.lc 0 c) := by
    unfold typeOf at hc
    split at hc <;> cases hc <;> simp only [decodeSub]
    · unfold decodeCssrMask
      refine Post.bind_any fun _ => Post.bind_any fun _ => Post.bind_any fun _ => ?_
      refine Post.bind (post_sets _ 0 .mask) fun t ht => ?_
      exact Post.bind (post_keeps ht fun _ => rfl) fun u hu => Post.pure fun _ => hu
    · unfold decodeCssrOrb
      refine Post.bind_any fun _ => Post.bind_any fun _ => Post.bind_any fun _ => ?_
      exact Post.bind (post_sets _ 0 .orbit) fun t ht => Post.pure fun _ => ht
    · unfold decodeCssrClk
      refine Post.bind_any fun _ => Post.bind_any fun _ => ?_
      refine Post.ite (fun _ => Post.pure fun h => absurd rfl h) (fun _ => ?_)
      refine Post.bind_any fun _ => Post.bind_any fun _ => Post.bind_any fun _ => ?_
      exact Post.bind (post_sets _ 0 .clock) fun t ht => Post.pure fun _ => ht
    · unfold decodeCssrCbias
      refine Post.bind_any fun _ => Post.bind_any fun _ => Post.bind_any fun _ => ?_
      exact Post.bind (post_sets _ 0 .cbias) fun t ht => Post.pure fun _ => ht
    · unfold decodeCssrPbias
      refine Post.bind_any fun _ => Post.bind_any fun _ => Post.bind_any fun _ => ?_
      exact Post.bind (post_sets _ 0 .pbias) fun t ht => Post.pure fun _ => ht
    · unfold decodeCssrUra
      refine Post.bind_any fun _ => ?_
      refine Post.ite (fun _ => Post.pure fun h => absurd rfl h) (fun _ => ?_)
      refine Post.bind_any fun _ => Post.bind_any fun _ => ?_
      refine Post.bind (post_sets _ 0 .ura) fun t ht => ?_
      exact Post.bind (post_keeps ht fun _ => rfl) fun u hu => Post.pure fun _ => hu
  exact key.out _ h hj

theorem readU_val {msg : BitBuf} {i n v : Nat} (h : readU msg i n = .ok v) :
    v = bitsToNat ((msg.drop i).take n) := by
  unfold readU at h
  split at h
  · cases h; rfl
  · cases h

theorem post_net {msg : BitBuf} {i n : Nat} :
    Post (readU msg i n) (fun v => v = bitsToNat ((msg.drop i).take n)) := ⟨fun _ h => readU_val h⟩

theorem post_cursor (s : St) (msg : BitBuf) (i : Nat) (hc : s.cfg.has = false) :
    Post (decodeHead s msg i) (fun p => p.2.2 = i + 21) := by
  unfold decodeHead decodeHeadClas
  simp only [hc, Bool.false_eq_true, if_false]
  refine Post.bind (α := St × Nat) (Q := fun p => p.2 = i + 12) ?_ ?_
  · exact Post.bind_any fun _ => Post.pure rfl
  · rintro ⟨t, k⟩ hk
    exact Post.bind_any fun _ => Post.bind_any fun _ => Post.bind_any fun _ =>
      Post.pure (by simp only at hk ⊢; omega)

/-- An accepted STEC or gridded message sets the flag of the network number it carries. -/
theorem local_flag_set (s : St) (msg : BitBuf) (i : Nat) (hc : s.cfg.has = false) :
    (∀ s' j, decodeSub s msg i 8 = .ok (s', j) → j ≠ -1 → has s'.lc (netOf msg i 2) .stec) ∧
    (∀ s' j, decodeSub s msg i 9 = .ok (s', j) → j ≠ -1 → has s'.lc (netOf msg i 3) .trop) := by
  have k8 : Post (decodeSub s msg i 8) (fun p => p.2 ≠ -1 → has p.1.lc (netOf msg i 2) .stec) := by
    simp only [decodeSub]
    unfold decodeCssrStec
    refine Post.bind (post_cursor s msg i hc) ?_
    rintro ⟨s1, h1, i1⟩ hi
    simp only at hi ⊢
    refine Post.ite (fun _ => Post.pure fun h => absurd rfl h) (fun _ => ?_)
    refine Post.bind_any fun _ => ?_
    refine Post.bind post_net fun n hn => ?_
    refine Post.bind_any fun _ => Post.bind_any fun _ => Post.bind_any fun _ => Post.bind_any fun _ => ?_
    refine Post.bind (post_sets _ _ .stec) fun t ht => Post.pure fun _ => ?_
    rw [hn, hi] at ht
    exact ht
  have k9 : Post (decodeSub s msg i 9) (fun p => p.2 ≠ -1 → has p.1.lc (netOf msg i 3) .trop) := by
    simp only [decodeSub]
    unfold decodeCssrGrid
    refine Post.bind (post_cursor s msg i hc) ?_
    rintro ⟨s1, h1, i1⟩ hi
    simp only at hi ⊢
    refine Post.ite (fun _ => Post.pure fun h => absurd rfl h) (fun _ => ?_)
    refine Post.bind_any fun _ => Post.bind_any fun _ => ?_
    refine Post.bind post_net fun n hn => ?_
    refine Post.bind_any fun _ => Post.bind_any fun _ => Post.bind_any fun _ => Post.bind_any fun _ =>
      Post.bind_any fun _ => Post.bind_any fun _ => Post.bind_any fun _ => Post.bind_any fun _ =>
      Post.bind_any fun _ => Post.bind_any fun _ => ?_
    refine Post.bind (post_sets _ _ .trop) fun t ht => ?_
    rw [hn, hi] at ht
    refine Post.bind (α := St) (Q := fun s' => has s'.lc (netOf msg i 3) .trop) ?_ ?_
    · refine Post.foldlM (I := fun s' : St => has s'.lc (netOf msg i 3) .trop) ?_ ht
      intro a b _ ha
      exact post_keeps ha fun _ => rfl
    · intro u hu
      exact Post.pure fun _ => hu
  exact ⟨fun s' j h hj => k8.out _ h hj, fun s' j h hj => k9.out _ h hj⟩

/-! ## Examples -/

-- a fresh decoder meets the hypotheses of the history theorems
example : (∀ n c, ¬ has ({ cfg := cfgClas : St }).lc n c) ∧ ({ cfg := cfgClas : St }).lc.length = 33 := by
  refine ⟨fun n c => ?_, by simp⟩
  rintro ⟨l, hl, hb⟩
  have : l = {} := by
    obtain ⟨h1, h2⟩ := List.getElem?_eq_some_iff.1 hl
    rw [← h2]
    exact List.getElem_replicate ..
  subst this
  simp at hb

/-- slots with the given flags: global in slot 0, local in slot 2 -/
def demoLc (g l : Nat) : List LC := [{ cstat := g }, {}, { cstat := l }]

example : chkStat (demoLc 0x0f 0x60) 2 false = .ok true := by decide
example : chkStat (demoLc 0x0f 0x60) 2 true = .ok false := by decide
example : chkStat (demoLc 0x0f 0x70) 2 true = .ok true := by decide
example : chkStat (demoLc 0x1d 0x70) 2 true = .ok false := by decide
example : chkStat (demoLc 0x0f 0x70) 1 true = .ok false := by decide
-- an accepted URA message sets its flag (state and message of C12)
example : (match decodeSub C12.demoSt (C12.demoMsg 3) 16 7 with
    | .ok (s, _) => ((s.lc[0]?).map (·.cstat)) | .error _ => none) = some 128 := by decide +kernel

end Verif.C15
