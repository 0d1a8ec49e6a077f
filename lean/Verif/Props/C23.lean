import Verif.Lemmas.OsnmaRun
import Mathlib.Tactic.IntervalCases
/-! # C23: OSNMA page collection

A sub-frame has fifteen pages, page `k` arriving in second `2k` or `2k+1` of the 30 s.  The
specification reads everything off the history of received pages: `cur q h` are the pages of
satellite `q` received since (and including) its most recent first page. -/

namespace Verif.C23
open Verif.Osnma
variable {PK : Type}

/-- a received page: NMA bits, GPS week, time of week, satellite -/
structure Page where
  nma : BitBuf
  wn : Nat
  tow : Nat
  prn : Nat
  deriving DecidableEq

/-- page number within the sub-frame -/
def Page.idx (g : Page) : Nat := g.tow % 30 / 2
/-- the sub-frame a page belongs to, counted in 30 s units -/
def Page.sub (g : Page) : Nat := (g.wn * 604800 + g.tow) / 30
/-- time of reception in seconds -/
def Page.time (g : Page) : Nat := g.wn * 604800 + g.tow

def Page.op (g : Page) : Op PK := .page g.nma g.wn g.tow g.prn

/-- the pages of satellite `q` in a history -/
def pagesOf (q : Nat) (h : List (Op PK)) : List Page :=
  h.filterMap fun
    | .page nma wn tow prn => if prn = q then some ⟨nma, wn, tow, prn⟩ else none
    | _ => none

/-- the pages since the last first page -/
def since (l : List Page) : List Page := l.foldl (fun c g => if g.idx = 0 then [g] else c ++ [g]) []

def cur (q : Nat) (h : List (Op PK)) : List Page := since (pagesOf q h)

/-- the last page with number `k` -/
def latest (k : Nat) (l : List Page) : Option Page := (l.filter fun g => g.idx = k).getLast?

/-- the call for page `g` in state `s` processes a sub-frame -/
def Processed (s : St PK) (g : Page) (t : St PK) : Prop :=
  storePage s g.nma g.wn g.tow g.prn = .ok t ∧ t.cnt g.prn = 0x7fff

/-! ## helper lemmas -/

theorem since_snoc (l : List Page) (g : Page) :
    since (l ++ [g]) = if g.idx = 0 then [g] else since l ++ [g] := by
  simp [since, List.foldl_append]

theorem latest_snoc (k : Nat) (l : List Page) (g : Page) :
    latest k (l ++ [g]) = if g.idx = k then some g else latest k l := by
  unfold latest
  rw [List.filter_append]
  by_cases h : g.idx = k <;> simp [h]

theorem latest_mem {k : Nat} {l : List Page} {g : Page} (h : latest k l = some g) :
    g ∈ l ∧ g.idx = k := by
  have := List.mem_of_getLast? h
  simpa using this

/-- the buffers of satellite `q` against its pages `c` -/
structure Buf (s : St PK) (q : Nat) (c : List Page) : Prop where
  hkLen : (s.hk q).length = 120
  mackLen : (s.mack q).length = 480
  slot : ∀ k, k < 15 → (s.cnt q).testBit k = true → ∃ g, latest k c = some g ∧
    ((s.hk q).drop (8 * k)).take 8 = g.nma.take 8 ∧
    ((s.mack q).drop (32 * k)).take 32 = (g.nma.drop 8).take 32

theorem idx_lt (g : Page) : g.idx < 15 := by unfold Page.idx; omega

theorem testBit_shift (c ki k : Nat) :
    (c ||| 1 <<< ki).testBit k = (c.testBit k || decide (ki = k)) := by
  rw [Nat.testBit_or, Nat.one_shiftLeft, Nat.testBit_two_pow]

theorem setByte_ok {b v b' : BitBuf} {i : Nat} (h : setByte b i v = .ok b') :
    8 ≤ v.length ∧ 8 * i + 8 ≤ b.length ∧ b' = splice b (8 * i) (v.take 8) := by
  unfold setByte at h
  split at h
  · rename_i hc
    cases h
    exact ⟨hc.1, hc.2, rfl⟩
  · cases h

theorem setSlice_eq (b v : BitBuf) (ki : Nat) (hv : v.length = 32) :
    setSlice b (ki * 4) (ki * 4 + 4) v = splice b (32 * ki) v := by
  unfold setSlice splice
  rw [hv, show 8 * (ki * 4) = 32 * ki by omega, show 8 * (ki * 4 + 4) = 32 * ki + 32 by omega]

theorem slice15 (nma : BitBuf) : slice nma 1 5 = (nma.drop 8).take 32 := rfl

/-- the part of `storePage` after the reset -/
def put (s t : St PK) (nma : BitBuf) (ki prn : Nat) : Prop :=
  ∃ h, setByte (s.hk prn) ki nma = .ok h ∧
    t.hk = (fun k => if k = prn then h else s.hk k) ∧
    t.mack = (fun k => if k = prn then setSlice (s.mack prn) (ki * 4) (ki * 4 + 4) (slice nma 1 5)
      else s.mack k) ∧
    t.cnt = (fun k => if k = prn then s.cnt prn ||| 1 <<< ki else s.cnt k)

/-- what `storePage` does to the page buffers -/
theorem storePage_eff {s t : St PK} {nma : BitBuf} {wn tow prn : Nat}
    (h : storePage s nma wn tow prn = .ok t) :
    (tow % 30 / 2 ≠ 0 ∧ put s t nma (tow % 30 / 2) prn) ∨
    (tow % 30 / 2 = 0 ∧ ∃ s1 m, setByte (s.mack prn) 0 (zeros 1) = .ok m ∧
      s1 = { s with cnt := fun k => if k = prn then 0 else s.cnt k,
                    hk := fun k => if k = prn then zeros 15 else s.hk k,
                    mack := fun k => if k = prn then m else s.mack k } ∧
      put s1 t nma 0 prn) := by
  unfold storePage at h
  split at h
  · rw [Py.throw_ok] at h; exact h.elim
  · obtain ⟨s1, h1, h⟩ := Py.bind_ok.1 h
    obtain ⟨sf, hsf, h⟩ := Py.bind_ok.1 h
    obtain ⟨hb, hhb, h⟩ := Py.bind_ok.1 h
    rw [Py.pure_ok] at h
    split at h1
    · rename_i h0
      obtain ⟨m, hm, h1⟩ := Py.bind_ok.1 h1
      rw [Py.pure_ok] at h1
      refine Or.inr ⟨h0, s1, m, hm, h1.symm, hb, ?_⟩
      rw [h0] at hhb h
      subst h
      exact ⟨hhb, rfl, rfl, rfl⟩
    · rename_i h0
      rw [Py.pure_ok] at h1
      subst h1 h
      exact Or.inl ⟨h0, hb, hhb, rfl, rfl, rfl⟩

theorem put_other {s t : St PK} {nma : BitBuf} {ki prn q : Nat} (h : put s t nma ki prn)
    (hq : q ≠ prn) : t.hk q = s.hk q ∧ t.mack q = s.mack q ∧ t.cnt q = s.cnt q := by
  obtain ⟨hb, _, h1, h2, h3⟩ := h
  rw [h1, h2, h3]; simp [hq]

/-- storing the page in the slot `ki` -/
theorem put_buf {s t : St PK} {g : Page} {c : List Page} (hl : g.nma.length = 40)
    (h : put s t g.nma g.idx g.prn) (hb : Buf s g.prn c) : Buf t g.prn (c ++ [g]) := by
  obtain ⟨b, h0, h1, h2, h3⟩ := h
  obtain ⟨_, hlen, rfl⟩ := setByte_ok h0
  have hi := idx_lt g
  have hs : (slice g.nma 1 5).length = 32 := by rw [slice15]; simp [hl]
  have e1 : t.hk g.prn = splice (s.hk g.prn) (8 * g.idx) (g.nma.take 8) := by rw [h1]; simp
  have e2 : t.mack g.prn = splice (s.mack g.prn) (32 * g.idx) (slice g.nma 1 5) := by
    rw [h2]; simp [setSlice_eq _ _ _ hs]
  have e3 : t.cnt g.prn = s.cnt g.prn ||| 1 <<< g.idx := by rw [h3]; simp
  have ht : (g.nma.take 8).length = 8 := by simp [hl]
  refine ⟨?_, ?_, ?_⟩
  · rw [e1, splice_length _ _ _ (by rw [ht, hb.hkLen]; omega), hb.hkLen]
  · rw [e2, splice_length _ _ _ (by rw [hs, hb.mackLen]; omega), hb.mackLen]
  · intro k hk hbit
    rw [e3, testBit_shift] at hbit
    rw [latest_snoc]
    by_cases hik : g.idx = k
    · subst hik
      refine ⟨g, by simp, ?_, ?_⟩
      · rw [e1]; exact splice_slot _ _ _ _ ht (by rw [hb.hkLen]; omega)
      · rw [e2]
        exact splice_slot _ _ _ _ hs (by rw [hb.mackLen]; omega)
    · simp only [hik, decide_false, Bool.or_false] at hbit
      obtain ⟨g', hg', a1, a2⟩ := hb.slot k hk hbit
      refine ⟨g', by simpa [hik] using hg', ?_, ?_⟩
      · rw [e1, splice_other _ _ _ 8 _ _ ht (by rw [hb.hkLen]; omega) (by omega), a1]
      · rw [e2, splice_other _ _ _ 32 _ _ hs (by rw [hb.mackLen]; omega) (by omega), a2]

theorem storePage_buf {s t : St PK} {g : Page} {l : List Page} (hl : g.nma.length = 40)
    (h : storePage s g.nma g.wn g.tow g.prn = .ok t) (hb : Buf s g.prn (since l)) :
    Buf t g.prn (since (l ++ [g])) := by
  rw [since_snoc]
  rcases storePage_eff h with ⟨h0, hp⟩ | ⟨h0, s1, m, hm, hs1, hp⟩
  · rw [if_neg (by exact h0)]
    exact put_buf hl hp hb
  · rw [if_pos (by exact h0)]
    have hp' : put s1 t g.nma g.idx g.prn := by
      have : g.idx = 0 := h0
      rw [this]; exact hp
    have hb1 : Buf s1 g.prn [] := by
      obtain ⟨_, hml, rfl⟩ := setByte_ok hm
      subst hs1
      refine ⟨by simp [zeros], ?_, by simp⟩
      simp only [if_true]
      rw [splice_length _ _ _ (by simp [zeros, hb.mackLen]), hb.mackLen]
    simpa using put_buf hl hp' hb1

theorem Buf.congr {s t : St PK} {q : Nat} {c : List Page} (hb : Buf s q c) (h1 : t.hk q = s.hk q)
    (h2 : t.mack q = s.mack q) (h3 : t.cnt q = s.cnt q ∨ t.cnt q = 0) : Buf t q c := by
  refine ⟨h1 ▸ hb.hkLen, h2 ▸ hb.mackLen, fun k hk hbit => ?_⟩
  rcases h3 with h3 | h3
  · rw [h3] at hbit
    rw [h1, h2]; exact hb.slot k hk hbit
  · rw [h3] at hbit; simp at hbit

theorem storePage_other {s t : St PK} {nma : BitBuf} {wn tow prn q : Nat}
    (h : storePage s nma wn tow prn = .ok t) (hq : q ≠ prn) :
    t.hk q = s.hk q ∧ t.mack q = s.mack q ∧ t.cnt q = s.cnt q := by
  rcases storePage_eff h with ⟨_, hp⟩ | ⟨_, s1, m, _, hs1, hp⟩
  · exact put_other hp hq
  · obtain ⟨a, b, c⟩ := put_other hp hq
    subst hs1
    simp only [hq, if_false] at a b c
    exact ⟨a, b, c⟩

/-- the page buffers after a `decode` call -/
theorem decode_pages (p : Prim PK) {s u : St PK} {r : Bool} {nma : BitBuf} {wn tow prn : Nat}
    (h : decode p s nma wn tow prn = .ok (u, r)) :
    ∃ t, storePage s nma wn tow prn = .ok t ∧ u.hk = t.hk ∧ u.mack = t.mack ∧
      (u.cnt = t.cnt ∨ t.cnt prn = 0x7fff ∧ u.cnt = fun k => if k = prn then 0 else t.cnt k) := by
  unfold decode at h
  obtain ⟨t, ht, h⟩ := Py.bind_ok.1 h
  refine ⟨t, ht, ?_⟩
  split at h
  · rename_i hc
    obtain ⟨a, b, c⟩ := (subframe_pages p t _ prn).out _ h
    exact ⟨a, b, c.imp id fun x => ⟨hc, x⟩⟩
  · rw [Py.pure_ok] at h; cases h; exact ⟨rfl, rfl, Or.inl rfl⟩

theorem saveGalInav_pages (s : St PK) (w : BitBuf) (prn tow : Nat) :
    Post (saveGalInav s w prn tow) (fun t => t.hk = s.hk ∧ t.mack = s.mack ∧ t.cnt = s.cnt) := by
  unfold saveGalInav
  refine Post.bind_any fun mt => ?_
  refine Post.bind (Q := fun t : St PK => t.hk = s.hk ∧ t.mack = s.mack ∧ t.cnt = s.cnt) ?_
    fun t ht => ?_
  · refine Post.ite (fun _ => ?_) fun _ => Post.pure ?_
    · refine Post.bind_any fun bp => ?_
      refine Post.bind_any fun bn => Post.pure ?_
      dsimp only
      split <;> exact ⟨rfl, rfl, rfl⟩
    · split <;> exact ⟨rfl, rfl, rfl⟩
  · refine Post.ite (fun _ => ?_) fun _ => Post.pure ht
    exact Post.bind_any fun bn => Post.pure ht

/-- calls other than `decode` leave the page buffers alone -/
theorem step_other (p : Prim PK) {s t : St PK} {o : Op PK}
    (ho : ∀ nma wn tow prn, o ≠ .page nma wn tow prn) (h : step p s o = .ok t) :
    t.hk = s.hk ∧ t.mack = s.mack ∧ t.cnt = s.cnt := by
  cases o with
  | page nma wn tow prn => exact (ho _ _ _ _ rfl).elim
  | nav w prn tow => exact (saveGalInav_pages s w prn tow).out t h
  | setPrn a => simp only [step] at h; rw [Py.pure_ok] at h; subst h; exact ⟨rfl, rfl, rfl⟩
  | setSlow b => simp only [step] at h; rw [Py.pure_ok] at h; subst h; exact ⟨rfl, rfl, rfl⟩
  | loadKey pk i => simp only [step] at h; rw [Py.pure_ok] at h; subst h; exact ⟨rfl, rfl, rfl⟩

theorem pagesOf_snoc (q : Nat) (h : List (Op PK)) (o : Op PK) :
    pagesOf q (h ++ [o]) = pagesOf q h ++ pagesOf q [o] := by
  simp [pagesOf, List.filterMap_append]

/-- every page of the history carries 40 NMA bits (as `load_gal_inav` delivers them) -/
def Wellformed (h : List (Op PK)) : Prop := ∀ q g, g ∈ pagesOf q h → g.nma.length = 40

/-- a fresh decoder (no page stored yet) -/
structure Fresh (s : St PK) : Prop where
  hk : ∀ q, (s.hk q).length = 120
  mack : ∀ q, (s.mack q).length = 480
  cnt : ∀ q, s.cnt q = 0

/-- **buffers follow the history** -/
theorem run_buf (p : Prim PK) (s0 : St PK) (h0 : Fresh s0) (q : Nat) :
    ∀ h s, run p s0 h = .ok s → Wellformed h → Buf s q (cur q h) := by
  refine run_induction p s0 (fun h s => Wellformed h → Buf s q (cur q h)) ?_ ?_
  · intro _
    exact ⟨h0.hk q, h0.mack q, fun k _ hb => by rw [h0.cnt q] at hb; simp at hb⟩
  · intro h s o t hr ih hs hw
    have hw1 : Wellformed h := fun q' g hg => hw q' g (by rw [pagesOf_snoc]; simp [hg])
    have hb := ih hw1
    unfold cur
    rw [pagesOf_snoc]
    by_cases ho : ∃ nma wn tow prn, o = .page nma wn tow prn
    · obtain ⟨nma, wn, tow, prn, rfl⟩ := ho
      simp only [step] at hs
      obtain ⟨⟨u, r⟩, hd, hs⟩ := Py.bind_ok.1 hs
      rw [Py.pure_ok] at hs
      subst hs
      obtain ⟨t1, ht1, e1, e2, e3⟩ := decode_pages p hd
      by_cases hq : prn = q
      · subst hq
        have hl : nma.length = 40 := hw prn ⟨nma, wn, tow, prn⟩ (by
          rw [pagesOf_snoc]; simp [pagesOf])
        have h2 := storePage_buf (g := ⟨nma, wn, tow, prn⟩) hl ht1 hb
        have : pagesOf (PK := PK) prn [.page nma wn tow prn] = [⟨nma, wn, tow, prn⟩] := by
          simp [pagesOf]
        rw [this]
        refine h2.congr (by rw [e1]) (by rw [e2]) ?_
        rcases e3 with e3 | ⟨_, e3⟩
        · left; rw [e3]
        · right; rw [e3]; simp
      · have : pagesOf (PK := PK) q [.page nma wn tow prn] = [] := by simp [pagesOf, hq]
        rw [this, List.append_nil]
        obtain ⟨a, b, c⟩ := storePage_other ht1 (fun e => hq e.symm : q ≠ prn)
        refine hb.congr (by rw [e1, a]) (by rw [e2, b]) (Or.inl ?_)
        rcases e3 with e3 | ⟨_, e3⟩
        · rw [e3, c]
        · rw [e3]; simp [show ¬ q = prn from fun e => hq e.symm, c]
    · have : pagesOf (PK := PK) q [o] = [] := by
        cases o with
        | page nma wn tow prn => exact (ho ⟨_, _, _, _, rfl⟩).elim
        | _ => simp [pagesOf]
      rw [this, List.append_nil]
      obtain ⟨a, b, c⟩ := step_other p (fun nma wn tow prn e => ho ⟨_, _, _, _, e⟩) hs
      exact hb.congr (by rw [a]) (by rw [b]) (Or.inl (by rw [c]))

/-! ## the property -/

/-- a call does nothing but store the page unless it processes a sub-frame -/
theorem unprocessed (p : Prim PK) (s t : St PK) (g : Page)
    (h : storePage s g.nma g.wn g.tow g.prn = .ok t) (hn : ¬ Processed s g t) :
    decode p s g.nma g.wn g.tow g.prn = .ok (t, false) ∧
      ∃ sf tow hk mack cnt, t = { s with gstSf := sf, gstTow := tow, hk := hk, mack := mack, cnt := cnt } := by
  constructor
  · unfold decode
    rw [h]
    have : t.cnt g.prn ≠ 0x7fff := fun e => hn ⟨h, e⟩
    simp only [bind, Except.bind, this, if_false]; rfl
  · unfold storePage at h
    split at h
    · rw [Py.throw_ok] at h; exact h.elim
    · obtain ⟨s1, h1, h⟩ := Py.bind_ok.1 h
      obtain ⟨sf, hsf, h⟩ := Py.bind_ok.1 h
      obtain ⟨hb, hhb, h⟩ := Py.bind_ok.1 h
      rw [Py.pure_ok] at h
      split at h1
      · obtain ⟨m, hm, h1⟩ := Py.bind_ok.1 h1
        rw [Py.pure_ok] at h1
        subst h1 h
        exact ⟨_, _, _, _, _, rfl⟩
      · rw [Py.pure_ok] at h1
        subst h1 h
        exact ⟨_, _, _, _, _, rfl⟩

/-- **C23 (1)**: whenever a call processes a sub-frame, every one of the fifteen page numbers was
received since the satellite's last first page, and the two messages handed on are the
concatenations, in page order, of the bits of the last page received with each number. -/
theorem processed_complete (p : Prim PK) (s0 s t : St PK) (h : List (Op PK)) (g : Page)
    (h0 : Fresh s0) (hr : run p s0 h = .ok s) (hw : Wellformed (h ++ [g.op]))
    (hp : Processed s g t) :
    ∃ P : Nat → Page, (∀ k, k < 15 → latest k (cur g.prn (h ++ [g.op (PK := PK)])) = some (P k)) ∧
      t.hk g.prn = (List.range 15).flatMap (fun k => (P k).nma.take 8) ∧
      t.mack g.prn = (List.range 15).flatMap (fun k => ((P k).nma.drop 8).take 32) := by
  have hw1 : Wellformed h := fun q' g' hg => hw q' g' (by rw [pagesOf_snoc]; simp [hg])
  have e1 : pagesOf (PK := PK) g.prn [g.op] = [g] := by simp [pagesOf, Page.op]
  have hl : g.nma.length = 40 := hw g.prn g (by rw [pagesOf_snoc, e1]; simp)
  have hb := storePage_buf hl hp.1 (run_buf p s0 h0 g.prn h s hr hw1)
  rw [← e1, ← pagesOf_snoc] at hb
  have hall : ∀ k, k < 15 → (t.cnt g.prn).testBit k = true := by
    intro k hk; rw [hp.2]; interval_cases k <;> decide
  have hs : ∀ k, ∃ P, k < 15 → latest k (cur g.prn (h ++ [g.op (PK := PK)])) = some P ∧
      ((t.hk g.prn).drop (8 * k)).take 8 = P.nma.take 8 ∧
      ((t.mack g.prn).drop (32 * k)).take 32 = (P.nma.drop 8).take 32 := by
    intro k
    by_cases hk : k < 15
    · obtain ⟨P, hP⟩ := hb.slot k hk (hall k hk)
      exact ⟨P, fun _ => hP⟩
    · exact ⟨g, fun h => (hk h).elim⟩
  choose P hP using hs
  refine ⟨P, fun k hk => (hP k hk).1, ?_, ?_⟩
  · have := slots_concat 8 15 (t.hk g.prn) (by rw [hb.hkLen])
    rw [this]
    simp only [List.flatMap_def]
    congr 1
    exact List.map_congr_left fun k hk => (hP k (List.mem_range.1 hk)).2.1
  · have := slots_concat 32 15 (t.mack g.prn) (by rw [hb.mackLen])
    rw [this]
    simp only [List.flatMap_def]
    congr 1
    exact List.map_congr_left fun k hk => (hP k (List.mem_range.1 hk)).2.2

/-- pages since the last first page, in a time-ordered list -/
theorem since_after (l : List Page) (f : Page) (hf : f ∈ l) (hi : f.idx = 0)
    (hs : l.Pairwise fun a b => a.time ≤ b.time) :
    ∀ g ∈ since l, f.time ≤ g.time := by
  induction l using List.reverseRecOn with
  | nil => simp at hf
  | append_singleton l x ih =>
    rw [List.pairwise_append] at hs
    obtain ⟨hs1, _, hs2⟩ := hs
    rw [since_snoc]
    by_cases hx : x.idx = 0
    · rw [if_pos hx]
      intro g hg
      simp only [List.mem_singleton] at hg
      subst hg
      rcases List.mem_append.1 hf with h | h
      · exact hs2 f h g (by simp)
      · simp at h; subst h; exact Nat.le_refl _
    · rw [if_neg hx]
      have hfl : f ∈ l := by
        rcases List.mem_append.1 hf with h | h
        · exact h
        · simp at h; subst h; exact (hx hi).elim
      intro g hg
      rcases List.mem_append.1 hg with h | h
      · exact ih hfl hs1 g h
      · simp at h; subst h; exact hs2 f hfl g (by simp)

theorem since_subset (l : List Page) : ∀ g ∈ since l, g ∈ l := by
  induction l using List.reverseRecOn with
  | nil => simp [since]
  | append_singleton l x ih =>
    rw [since_snoc]
    intro g hg
    split at hg
    · simp at hg; simp [hg]
    · rcases List.mem_append.1 hg with h | h
      · exact List.mem_append_left _ (ih g h)
      · exact List.mem_append_right _ h

theorem sub_between {x y z : Nat} (h1 : x / 30 = z / 30) (h2 : x ≤ y) (h3 : y ≤ z) :
    y / 30 = z / 30 := by omega

/-- **C23 (2)**: if a satellite's pages arrive in time order and the first page of the sub-frame
being processed was received, every page that went into the processed messages belongs to that
sub-frame: nothing of an earlier one is mixed in. -/
theorem not_mixed (h : List (Op PK)) (g f : Page) (hf : f ∈ pagesOf g.prn (h ++ [g.op (PK := PK)]))
    (hi : f.idx = 0) (hsub : f.sub = g.sub)
    (hs : (pagesOf g.prn (h ++ [g.op (PK := PK)])).Pairwise fun a b => a.time ≤ b.time) :
    ∀ k P, latest k (cur g.prn (h ++ [g.op (PK := PK)])) = some P → P.sub = g.sub := by
  intro k P hP
  obtain ⟨hm, _⟩ := latest_mem hP
  have h1 := since_after _ f hf hi hs P hm
  have hg : P.time ≤ g.time := by
    have e1 : pagesOf (PK := PK) g.prn [g.op] = [g] := by simp [pagesOf, Page.op]
    have hm' := since_subset _ P hm
    rw [pagesOf_snoc, e1] at hm' hs
    rcases List.mem_append.1 hm' with h | h
    · exact (List.pairwise_append.1 hs).2.2 P h g (by simp)
    · simp at h; subst h; exact Nat.le_refl _
  have e : ∀ x : Page, x.sub = x.time / 30 := fun x => rfl
  rw [e, e] at *
  exact sub_between hsub h1 hg

/-- pages 0, 1, ..., each with any number of calls for other satellites in between -/
inductive InOrder (q : Nat) : Nat → List (Op PK) → Prop where
  | start (g : Page) (hq : g.prn = q) (hi : g.idx = 0) : InOrder q 0 [g.op]
  | other (n : Nat) (h : List (Op PK)) (o : Op PK) (ho : pagesOf q [o] = []) :
      InOrder q n h → InOrder q n (h ++ [o])
  | next (n : Nat) (h : List (Op PK)) (g : Page) (hq : g.prn = q) (hi : g.idx = n + 1) :
      InOrder q n h → InOrder q (n + 1) (h ++ [g.op])

theorem order_cnt (p : Prim PK) (q n : Nat) (h : List (Op PK)) (ho : InOrder q n h) :
    n < 14 → ∀ s0 s, run p s0 h = .ok s → s.cnt q = 2 ^ (n + 1) - 1 := by
  have key : ∀ (s s' : St PK) (g : Page) (c : Nat), g.prn = q →
      step p s g.op = .ok s' → (if g.idx = 0 then 0 else s.cnt q) ||| 1 <<< g.idx = c →
      c ≠ 0x7fff → s'.cnt q = c := by
    intro s s' g c hq hs hc hne
    subst hq
    simp only [step, Page.op] at hs
    obtain ⟨⟨u, r⟩, hd, hs⟩ := Py.bind_ok.1 hs
    rw [Py.pure_ok] at hs
    subst hs
    obtain ⟨t1, ht1, e1, e2, e3⟩ := decode_pages p hd
    have : t1.cnt g.prn = c := by
      rcases storePage_eff ht1 with ⟨h0, hp⟩ | ⟨h0, s1, m, _, hs1, hp⟩
      · obtain ⟨_, _, _, _, h3⟩ := hp
        have h0' : ¬ g.idx = 0 := h0
        rw [if_neg h0'] at hc
        rw [h3]; simp only [if_true]; exact hc
      · obtain ⟨_, _, _, _, h3⟩ := hp
        have h0' : g.idx = 0 := h0
        rw [if_pos h0', h0'] at hc
        rw [h3, hs1]; simp only [if_true]; exact hc
    rcases e3 with e3 | ⟨e, _⟩
    · rw [e3, this]
    · exact (hne (this ▸ e)).elim
  induction ho with
  | start g hq hi =>
    intro _ s0 s hr
    have hr' : run p s0 ([] ++ [g.op]) = .ok s := hr
    obtain ⟨m, _, h2⟩ := run_snoc p hr'
    exact key m s g 1 hq h2 (by simp [hi]) (by decide)
  | other n h o ho _ ih =>
    intro hn s0 s hr
    obtain ⟨m, hm, h2⟩ := run_snoc p hr
    rw [← ih hn s0 m hm]
    by_cases hop : ∃ nma wn tow prn, o = .page nma wn tow prn
    · obtain ⟨nma, wn, tow, prn, rfl⟩ := hop
      have hq : q ≠ prn := by
        rintro rfl
        simp [pagesOf] at ho
      simp only [step] at h2
      obtain ⟨⟨u, r⟩, hd, h2⟩ := Py.bind_ok.1 h2
      rw [Py.pure_ok] at h2
      subst h2
      obtain ⟨t1, ht1, e1, e2, e3⟩ := decode_pages p hd
      obtain ⟨_, _, c⟩ := storePage_other ht1 hq
      rcases e3 with e3 | ⟨_, e3⟩
      · rw [e3, c]
      · rw [e3]; simp [hq, c]
    · obtain ⟨_, _, c⟩ := step_other p (fun nma wn tow prn e => hop ⟨_, _, _, _, e⟩) h2
      rw [c]
  | next n h g hq hi _ ih =>
    intro hn s0 s hr
    obtain ⟨m, hm, h2⟩ := run_snoc p hr
    have hc := ih (by omega) s0 m hm
    have hn' : n < 13 := by omega
    refine key m s g _ hq h2 ?_ ?_
    · rw [if_neg (by omega), hi, hc]
      interval_cases n <;> decide
    · interval_cases n <;> decide

/-- **C23 (3)**: a sub-frame received completely and in order is processed with its last page,
whatever was received before and whatever other satellites send in between. -/
theorem complete_is_processed (p : Prim PK) (q : Nat) (h : List (Op PK)) (g : Page) (s0 s t : St PK)
    (ho : InOrder q 13 h) (hq : g.prn = q) (hi : g.idx = 14) (hr : run p s0 h = .ok s)
    (ht : storePage s g.nma g.wn g.tow g.prn = .ok t) : Processed s g t := by
  refine ⟨ht, ?_⟩
  have hc := order_cnt p q 13 h ho (by omega) s0 s hr
  subst hq
  rcases storePage_eff ht with ⟨h0, hp⟩ | ⟨h0, _⟩
  · obtain ⟨_, _, _, _, h3⟩ := hp
    have : g.tow % 30 / 2 = 14 := hi
    rw [h3]
    simp only [if_true]
    rw [hc, this]; decide
  · have : g.tow % 30 / 2 = 14 := hi
    omega

/-- some primitives, for the examples -/
def prim0 : Prim Unit :=
  ⟨fun _ _ => [], fun _ _ _ => .ok [], fun _ _ _ _ => .ok true, fun _ _ => .ok ()⟩

/-- pages 0..13 of a sub-frame -/
def lostHist : List (Op Unit) :=
  (List.range 14).map fun k => Op.page (zeros 5) 2300 (30 + 2 * k) 5

/-- page 14 of the next sub-frame -/
def lostPage : Page := ⟨zeros 5, 2300, 88, 5⟩

/-- **without the first page sub-frames are mixed**: pages 0..13 of one sub-frame and page 14 of
the next are processed as one, when page 14 of the former and pages 0..13 of the latter are lost -/
theorem mixed_when_first_page_lost :
    ∃ (p : Prim Unit) (h : List (Op Unit)) (g : Page) (s t : St Unit),
      (pagesOf g.prn (h ++ [g.op (PK := Unit)])).Pairwise (fun a b => a.time ≤ b.time) ∧
      run p {} h = .ok s ∧ Processed s g t ∧
      ∃ P, latest 3 (cur g.prn (h ++ [g.op (PK := Unit)])) = some P ∧ P.sub ≠ g.sub := by
  have key : (match run prim0 {} lostHist with
      | .ok s => match storePage s lostPage.nma lostPage.wn lostPage.tow lostPage.prn with
        | .ok t => t.cnt lostPage.prn == 0x7fff
        | .error _ => false
      | .error _ => false) = true := by decide +kernel
  split at key
  · rename_i s hs
    split at key
    · rename_i t ht
      refine ⟨prim0, lostHist, lostPage, s, t, by decide +kernel, hs, ⟨ht, by simpa using key⟩,
        ⟨zeros 5, 2300, 36, 5⟩, by decide +kernel, by decide +kernel⟩
    · exact absurd key (by decide)
  · exact absurd key (by decide)

/-- the default state is fresh -/
theorem fresh_default : Fresh ({} : St PK) :=
  ⟨fun _ => List.length_replicate, fun _ => List.length_replicate, fun _ => rfl⟩

/-- a complete sub-frame received by a fresh decoder is processed (the hypotheses are met) -/
example : ∃ s t : St Unit, run prim0 {} ((List.range 14).map fun k =>
      (Op.page (natToBits 40 k) 2300 (30 + 2 * k) 5)) = .ok s ∧
    Processed s ⟨natToBits 40 14, 2300, 58, 5⟩ t ∧ t.hk 5 = zeros 15 := by
  have key : (match run prim0 {} ((List.range 14).map fun k =>
        (Op.page (natToBits 40 k) 2300 (30 + 2 * k) 5)) with
      | .ok s => match storePage s (natToBits 40 14) 2300 58 5 with
        | .ok t => t.cnt 5 == 0x7fff && (t.hk 5 == zeros 15)
        | .error _ => false
      | .error _ => false) = true := by decide +kernel
  split at key
  · rename_i s hs
    split at key
    · rename_i t ht
      rw [Bool.and_eq_true, beq_iff_eq, beq_iff_eq] at key
      exact ⟨s, t, hs, ⟨ht, key.1⟩, key.2⟩
    · exact absurd key (by decide)
  · exact absurd key (by decide)

end Verif.C23
