import Verif.Model.HasPage
import Verif.Lemmas.Post
import Mathlib.Data.List.Nodup
/-!
# C16 HAS messages are decoded from one message's pages only

Specification of a page (HAS SIS ICD): 14 bits, a 24-bit HAS header (2 bits status, 2 reserved,
2 type, 5 message identifier, 5 size minus one, 8 page number) and 53 octets.
-/

namespace Verif.C16
open Verif.HasPage
open Verif.Cssr (readMany)

/-- a received HAS page -/
structure Page where
  mid : Nat
  ms : Nat
  pid : Nat
  data : List Nat
  deriving DecidableEq

def bitsAt (b : BitBuf) (k n : Nat) : Nat := bitsToNat ((b.drop k).take n)

/-- the HAS page in a C/NAV message: none for a dummy page or when the status is not test or
operational -/
def pageOf (b : BitBuf) : Option Page :=
  if bitsAt b 14 24 = 0xaf3bc3 ∨ 2 ≤ bitsAt b 14 2 then none
  else some ⟨bitsAt b 20 5, bitsAt b 25 5 + 1, bitsAt b 30 8,
    (List.range 53).map fun k => bitsAt b (38 + 8 * k) 8⟩

/-- `pl` is a collection of the message `m` of size `n`: it begins with a page announcing `n` -/
def Collection (m n : Nat) (pl : List Page) : Prop := ∃ p0 rest, pl = p0 :: rest ∧ p0.mid = m ∧ p0.ms = n

/-- row `r` was received for message `m` within `pl` -/
def Received (m : Nat) (pl : List Page) (r : Int) : Prop := ∃ p ∈ pl, p.mid = m ∧ (p.pid : Int) - 1 = r

/-! ## One page -/

theorem post_u {b : BitBuf} {i n : Nat} : Post (readU b i n) (fun v => v = bitsAt b i n) := by
  constructor
  intro v h
  unfold readU at h
  split at h
  · cases h; rfl
  · cases h

theorem post_mapM {f : Nat → Py Nat} {g : Nat → Nat} (l : List Nat)
    (h : ∀ k ∈ l, Post (f k) (fun v => v = g k)) : Post (l.mapM f) (fun v => v = l.map g) := by
  induction l with
  | nil => rw [List.mapM_nil]; exact Post.pure rfl
  | cons a l ih =>
    rw [List.mapM_cons]
    refine Post.bind (h a (by simp)) fun v hv => ?_
    refine Post.bind (ih fun k hk => h k (by simp [hk])) fun w hw => ?_
    exact Post.pure (by rw [hv, hw]; rfl)

/-- effect of one HAS page -/
def stepPage (s : St) (p : Page) (mt : Int) : St :=
  let s := { s with msgtype := mt }
  let s := if s.mid = -1 ∧ p.mid ∉ s.midDecoded then { s with mid := p.mid, ms := p.ms } else s
  if (p.mid : Int) = s.mid ∧ (p.pid : Int) - 1 ∉ s.got then
    { s with got := s.got ++ [(p.pid : Int) - 1],
             pages := fun k => if k = row ((p.pid : Int) - 1) then p.data else s.pages k }
  else s

theorem onPage_spec (s : St) (b : BitBuf) : Post (onPage s b) (fun s' =>
    (pageOf b = none ∧ s' = s) ∨ ∃ p mt, pageOf b = some p ∧ s' = stepPage s p mt) := by
  unfold onPage
  refine Post.bind post_u fun d hd => ?_
  refine Post.ite (fun h => Post.pure (Or.inl ⟨?_, rfl⟩)) (fun h => ?_)
  · unfold pageOf; rw [if_pos (Or.inl (hd ▸ h))]
  refine Post.bind post_u fun hs hhs => Post.bind_any fun _ => ?_
  refine Post.ite (fun h => Post.pure (Or.inl ⟨?_, rfl⟩)) (fun h2 => ?_)
  · unfold pageOf; rw [if_pos (Or.inr (hhs ▸ h))]
  refine Post.bind_any fun mt => Post.bind post_u fun mid hm => Post.bind post_u fun ms hms =>
    Post.bind post_u fun pid hp => ?_
  have hpg : pageOf b = some ⟨mid, ms + 1, pid, (List.range 53).map fun k => bitsAt b (38 + 8 * k) 8⟩ := by
    unfold pageOf
    rw [if_neg (by rintro (h' | h') <;> [exact h (hd.trans h'); exact h2 (hhs ▸ h')]), hm, hms, hp]
  refine Post.ite (fun hc => ?_) (fun hc => ?_)
  · refine Post.bind (Q := fun v => v = (List.range 53).map fun k => bitsAt b (38 + 8 * k) 8) ?_ ?_
    · unfold readMany
      rw [if_neg (by decide)]
      exact post_mapM _ fun k _ => post_u
    · intro page hpage
      refine Post.pure (Or.inr ⟨_, mt, hpg, ?_⟩)
      subst hpage
      unfold stepPage
      simp only at hc ⊢
      push_cast
      rw [if_pos hc]
  · refine Post.pure (Or.inr ⟨_, mt, hpg, ?_⟩)
    unfold stepPage
    simp only at hc ⊢
    push_cast
    rw [if_neg hc]

/-! ## Invariant -/

/-- what is known while `log` has been received -/
def Inv (log : List Page) (s : St) : Prop :=
  (s.mid = -1 → s.got = []) ∧
  (s.mid ≠ -1 → ∃ pr pl m n, log = pr ++ pl ∧ Collection m n pl ∧ s.mid = m ∧ s.ms = n ∧
    s.got.Nodup ∧ (∀ r, r ∈ s.got ↔ Received m pl r) ∧
    (∀ r ∈ s.got, ∃ p ∈ pl, p.mid = m ∧ (p.pid : Int) - 1 = r ∧ s.pages (row r) = p.data) ∧
    m ∉ s.midDecoded)

theorem row_inj {a b : Nat} (ha : 1 ≤ a) (hb : 1 ≤ b) (h : row ((a : Int) - 1) = row ((b : Int) - 1)) :
    a = b := by
  unfold row at h
  rw [if_neg (by omega), if_neg (by omega)] at h
  omega

theorem inv_page {log : List Page} {s : St} (h : Inv log s) (p : Page) (mt : Int) (hp : 1 ≤ p.pid)
    (hlog : ∀ q ∈ log, 1 ≤ q.pid) : Inv (log ++ [p]) (stepPage s p mt) := by
  obtain ⟨h1, h2⟩ := h
  unfold stepPage
  by_cases hm : s.mid = -1
  · by_cases hd : p.mid ∈ s.midDecoded
    · -- already decoded: ignored
      have : ¬ (s.mid = -1 ∧ p.mid ∉ s.midDecoded) := fun h => h.2 hd
      simp only [this, if_false]
      rw [if_neg (by rw [hm]; omega)]
      exact ⟨fun _ => h1 hm, fun hne => absurd hm hne⟩
    · simp only [hm, hd, not_false_eq_true, and_self, if_true, h1 hm, List.not_mem_nil,
        List.nil_append]
      refine ⟨fun hc => by simp only at hc; omega, fun _ => ?_⟩
      refine ⟨log, [p], p.mid, p.ms, rfl, ⟨p, [], rfl, rfl, rfl⟩, rfl, rfl, by simp, ?_, ?_, hd⟩
      · intro r
        simp only [Received, List.mem_singleton, exists_eq_left, true_and]
        exact eq_comm
      · intro r hr
        simp only [List.mem_singleton] at hr
        exact ⟨p, by simp, rfl, hr.symm, by rw [hr]; simp⟩
  · obtain ⟨pr, pl, m, n, e1, ⟨p0, rest, e2, e3, e4⟩, e5, e6, e7, e8, e9, e10⟩ := h2 hm
    have : ¬ (s.mid = -1 ∧ p.mid ∉ s.midDecoded) := fun h => hm h.1
    simp only [this, if_false]
    have hcol : Collection m n (pl ++ [p]) := ⟨p0, rest ++ [p], by rw [e2]; rfl, e3, e4⟩
    have hlog' : log ++ [p] = pr ++ (pl ++ [p]) := by rw [e1, List.append_assoc]
    by_cases hmid : (p.mid : Int) = s.mid
    · have hpm : p.mid = m := by rw [e5] at hmid; omega
      by_cases hg : (p.pid : Int) - 1 ∈ s.got
      · rw [if_neg (fun h => h.2 hg)]
        refine ⟨fun hc => absurd hc hm, fun _ => ⟨pr, pl ++ [p], m, n, hlog', hcol, e5, e6, e7, ?_, ?_, e10⟩⟩
        · intro r
          rw [e8 r]
          constructor
          · rintro ⟨q, hq, hq2⟩; exact ⟨q, by simp [hq], hq2⟩
          · rintro ⟨q, hq, hq2, hq3⟩
            rcases List.mem_append.1 hq with hq | hq
            · exact ⟨q, hq, hq2, hq3⟩
            · rw [List.mem_singleton.1 hq] at hq3
              rw [← hq3]; exact (e8 _).1 hg
        · intro r hr
          obtain ⟨q, hq, hq2⟩ := e9 r hr
          exact ⟨q, by simp [hq], hq2⟩
      · rw [if_pos ⟨hmid, hg⟩]
        refine ⟨fun hc => absurd hc hm, fun _ => ⟨pr, pl ++ [p], m, n, hlog', hcol, e5, e6, ?_, ?_, ?_, e10⟩⟩
        · exact List.nodup_append.2 ⟨e7, by simp, fun a ha b hb => by
            rw [List.mem_singleton.1 hb]; rintro rfl; exact hg ha⟩
        · intro r
          simp only [List.mem_append, List.mem_singleton, e8 r]
          constructor
          · rintro (⟨q, hq, hq2⟩ | rfl)
            · exact ⟨q, by simp [hq], hq2⟩
            · exact ⟨p, by simp, hpm, rfl⟩
          · rintro ⟨q, hq, hq2, hq3⟩
            rcases List.mem_append.1 hq with hq | hq
            · exact Or.inl ⟨q, hq, hq2, hq3⟩
            · rw [List.mem_singleton.1 hq] at hq3
              exact Or.inr hq3.symm
        · intro r hr
          rcases List.mem_append.1 hr with hr | hr
          · obtain ⟨q, hq, hq2, hq3, hq4⟩ := e9 r hr
            refine ⟨q, by simp [hq], hq2, hq3, ?_⟩
            have hne : row r ≠ row ((p.pid : Int) - 1) := by
              intro heq
              rw [← hq3] at heq
              have := row_inj (hlog q (by rw [e1]; simp [hq])) hp heq
              rw [← hq3, this] at hr
              exact hg hr
            simp only [hne, if_false]
            exact hq4
          · rw [List.mem_singleton.1 hr]
            exact ⟨p, by simp, hpm, rfl, by simp⟩
    · rw [if_neg (fun h => hmid h.1)]
      have hpm : p.mid ≠ m := by rw [e5] at hmid; exact fun h => hmid (by rw [h])
      refine ⟨fun hc => absurd hc hm, fun _ => ⟨pr, pl ++ [p], m, n, hlog', hcol, e5, e6, e7, ?_, ?_, e10⟩⟩
      · intro r
        rw [e8 r]
        constructor
        · rintro ⟨q, hq, hq2⟩; exact ⟨q, by simp [hq], hq2⟩
        · rintro ⟨q, hq, hq2, hq3⟩
          rcases List.mem_append.1 hq with hq | hq
          · exact ⟨q, hq, hq2, hq3⟩
          · rw [List.mem_singleton.1 hq] at hq2
            exact absurd hq2 hpm
      · intro r hr
        obtain ⟨q, hq, hq2⟩ := e9 r hr
        exact ⟨q, by simp [hq], hq2⟩

/-! ## Histories -/

variable {μ : Type}

/-- Reception history: HAS pages received (in order), identifiers of the messages decoded (in
order), collector state.  An epoch may decode a message or not. -/
inductive Run (dec : List Int → (Nat → List Nat) → Int → Py μ) : List Page → List Nat → St → Prop
  | init : Run dec [] [] {}
  | quiet {log outs s s'} (h : Run dec log outs s) (vi : List BitBuf)
      (hd : decodeCnav dec s vi = .ok (s', none)) : Run dec (log ++ vi.filterMap pageOf) outs s'
  | decoded {log outs s s' msg m} (h : Run dec log outs s) (vi : List BitBuf)
      (hd : decodeCnav dec s vi = .ok (s', some msg)) (hm : s'.midDecoded.getLast? = some m) :
      Run dec (log ++ vi.filterMap pageOf) (outs ++ [m]) s'

theorem fold_inv {log : List Page} {s : St} (h : Inv log s) (vi : List BitBuf)
    (hlog : ∀ q ∈ log ++ vi.filterMap pageOf, 1 ≤ q.pid) :
    Post (vi.foldlM onPage s) (fun s' => Inv (log ++ vi.filterMap pageOf) s' ∧
      s'.midDecoded = s.midDecoded ∧ s'.icnt = s.icnt) := by
  induction vi generalizing log s with
  | nil => rw [List.foldlM_nil]; exact Post.pure ⟨by simpa using h, rfl, rfl⟩
  | cons b vi ih =>
    rw [List.foldlM_cons]
    refine Post.bind (onPage_spec s b) fun s1 hs1 => ?_
    rcases hs1 with ⟨hb, rfl⟩ | ⟨p, mt, hb, rfl⟩
    · have : (b :: vi).filterMap pageOf = vi.filterMap pageOf := by
        rw [List.filterMap_cons, hb]
      rw [this] at hlog ⊢
      exact ih h hlog
    · have : (b :: vi).filterMap pageOf = p :: vi.filterMap pageOf := by
        rw [List.filterMap_cons, hb]
      rw [this] at hlog ⊢
      have e : log ++ p :: vi.filterMap pageOf = (log ++ [p]) ++ vi.filterMap pageOf := by simp
      rw [e] at hlog ⊢
      refine (ih (inv_page h p mt (hlog p (by simp)) fun q hq => hlog q (by simp [hq])) hlog).mono ?_
      rintro s' ⟨a1, a2, a3⟩
      refine ⟨a1, ?_, ?_⟩
      · rw [a2]; unfold stepPage; simp only; split <;> split <;> rfl
      · rw [a3]; unfold stepPage; simp only; split <;> split <;> rfl

/-- the last ten entries -/
def lastTen (l : List Nat) : List Nat := l.drop (l.length - 10)

theorem lastTen_snoc (l : List Nat) (m : Nat) (h : l.length ≤ 10) :
    (if (l ++ [m]).length > 10 then (l ++ [m]).drop 1 else l ++ [m]) = lastTen (l ++ [m]) := by
  unfold lastTen
  split
  · rw [show (l ++ [m]).length - 10 = 1 by simp at *; omega]
  · rw [show (l ++ [m]).length - 10 = 0 by simp at *; omega]; rfl

theorem lastTen_lastTen (l : List Nat) (m : Nat) : lastTen (lastTen l ++ [m]) = lastTen (l ++ [m]) := by
  unfold lastTen
  by_cases h : l.length ≤ 10
  · rw [show l.length - 10 = 0 by omega]; simp
  · have h1 : (List.drop (l.length - 10) l ++ [m]).length - 10 = 1 := by simp; omega
    rw [h1, List.drop_append_of_le_length (by simp; omega), List.drop_drop,
      List.drop_append_of_le_length (by simp)]
    congr 2
    simp; omega

theorem finish_spec (dec : List Int → (Nat → List Nat) → Int → Py μ) {log : List Page} {s : St}
    (h : Inv log s) : Post (finish dec s) (fun q => Inv log q.1 ∧
      ((q.2 = none ∧ q.1.midDecoded = s.midDecoded) ∨
       ∃ msg pr pl m n, q.2 = some msg ∧ log = pr ++ pl ∧ Collection m n pl ∧ s.mid = m ∧
        s.got.Nodup ∧ n ≤ s.got.length ∧ (∀ r, r ∈ s.got ↔ Received m pl r) ∧
        (∀ r ∈ s.got, ∃ p ∈ pl, p.mid = m ∧ (p.pid : Int) - 1 = r ∧ s.pages (row r) = p.data) ∧
        dec s.got s.pages n = .ok msg ∧ m ∉ s.midDecoded ∧
        q.1.midDecoded = (let l := s.midDecoded ++ [m]; if l.length > 10 then l.drop 1 else l))) := by
  obtain ⟨h1, h2⟩ := h
  unfold finish
  refine Post.ite (fun hc => ?_) (fun hc => ?_)
  · have hm : s.mid ≠ -1 := by
      intro hm
      have := h1 hm
      rw [this] at hc
      simp at hc
      omega
    obtain ⟨pr, pl, m, n, e1, e2, e5, e6, e7, e8, e9, e10⟩ := h2 hm
    refine Post.bind (Q := fun msg => dec s.got s.pages s.ms = .ok msg) ⟨fun a ha => ha⟩ fun msg hmsg => ?_
    refine Post.pure ⟨⟨fun _ => rfl, fun hne => absurd rfl hne⟩, Or.inr ?_⟩
    refine ⟨msg, pr, pl, m, n, rfl, e1, e2, e5, e7, by rw [e6] at hc; omega, e8, e9, by rw [← e6]; exact hmsg,
      e10, ?_⟩
    simp only [e5, Int.toNat_natCast]
  · refine Post.ite (fun hc2 => ?_) (fun hc2 => ?_)
    · exact Post.pure ⟨⟨fun _ => rfl, fun hne => absurd rfl hne⟩, Or.inl ⟨rfl, rfl⟩⟩
    · exact Post.pure ⟨⟨h1, h2⟩, Or.inl ⟨rfl, rfl⟩⟩

theorem epoch_spec (dec : List Int → (Nat → List Nat) → Int → Py μ) {log : List Page} {s : St}
    (h : Inv log s) (vi : List BitBuf) (hlog : ∀ q ∈ log ++ vi.filterMap pageOf, 1 ≤ q.pid) :
    Post (decodeCnav dec s vi) (fun q => Inv (log ++ vi.filterMap pageOf) q.1 ∧
      ((q.2 = none ∧ q.1.midDecoded = s.midDecoded) ∨
       ∃ msg pr pl m n got pages, q.2 = some msg ∧ log ++ vi.filterMap pageOf = pr ++ pl ∧
        Collection m n pl ∧ got.Nodup ∧ n ≤ got.length ∧ (∀ r, r ∈ got ↔ Received m pl r) ∧
        (∀ r ∈ got, ∃ p ∈ pl, p.mid = m ∧ (p.pid : Int) - 1 = r ∧ pages (row r) = p.data) ∧
        dec got pages n = .ok msg ∧ m ∉ s.midDecoded ∧
        q.1.midDecoded = (let l := s.midDecoded ++ [m]; if l.length > 10 then l.drop 1 else l))) := by
  unfold decodeCnav
  refine Post.bind (fold_inv h vi hlog) fun s1 hs1 => ?_
  obtain ⟨hi, hmd, _⟩ := hs1
  refine (finish_spec dec hi).mono ?_
  rintro q ⟨hq, ⟨a, b⟩ | ⟨msg, pr, pl, m, n, a1, a2, a3, a4, a5, a6, a7, a8, a9, a10, a11⟩⟩
  · exact ⟨hq, Or.inl ⟨a, b.trans hmd⟩⟩
  · rw [hmd] at a10 a11
    exact ⟨hq, Or.inr ⟨msg, pr, pl, m, n, s1.got, s1.pages, a1, a2, a3, a5, a6, a7, a8, a9, a10, a11⟩⟩

theorem run_inv {dec : List Int → (Nat → List Nat) → Int → Py μ} {log : List Page} {outs : List Nat}
    {s : St} (h : Run dec log outs s) (hlog : ∀ q ∈ log, 1 ≤ q.pid) :
    Inv log s ∧ s.midDecoded = lastTen outs := by
  induction h with
  | init => exact ⟨⟨fun _ => rfl, fun h => absurd rfl h⟩, rfl⟩
  | @quiet log outs s s' h vi hd ih =>
    obtain ⟨i1, i2⟩ := ih fun q hq => hlog q (by simp [hq])
    obtain ⟨a, ⟨_, b⟩ | ⟨msg, pr, pl, m, n, g, pg, b, _⟩⟩ := (epoch_spec dec i1 vi hlog).out _ hd
    · exact ⟨a, b.trans i2⟩
    · cases b
  | @decoded log outs s s' msg m h vi hd hm ih =>
    obtain ⟨i1, i2⟩ := ih fun q hq => hlog q (by simp [hq])
    obtain ⟨a, ⟨b, _⟩ | ⟨msg', pr, pl, m', n, g, pg, b1, b2, b3, b4, b5, b6, b7, b8, b9, b10⟩⟩ :=
      (epoch_spec dec i1 vi hlog).out _ hd
    · cases b
    · refine ⟨a, ?_⟩
      simp only at b10
      rw [i2, lastTen_snoc _ _ (by unfold lastTen; simp; omega), lastTen_lastTen] at b10
      rw [b10] at hm ⊢
      have : m = m' := by
        unfold lastTen at hm
        rw [List.getLast?_drop, if_neg (by simp; omega)] at hm
        simpa using hm.symm
      rw [this]

/-- A message is decoded only from pages of one message identifier: among the pages received since
the collection was started by a page announcing the size `n`, the rows used are exactly the page
numbers received for the identifier `m`; they are distinct, at least `n`, hold the data received
for them, and `m` is not among the last ten messages decoded. -/
theorem decoded_from_one_message {dec : List Int → (Nat → List Nat) → Int → Py μ}
    {log : List Page} {outs : List Nat} {s s' : St} {msg : μ} (h : Run dec log outs s)
    (vi : List BitBuf) (hlog : ∀ q ∈ log ++ vi.filterMap pageOf, 1 ≤ q.pid)
    (hd : decodeCnav dec s vi = .ok (s', some msg)) :
    ∃ pr pl m n got pages, log ++ vi.filterMap pageOf = pr ++ pl ∧ Collection m n pl ∧
      got.Nodup ∧ n ≤ got.length ∧ (∀ r, r ∈ got ↔ Received m pl r) ∧
      (∀ r ∈ got, ∃ p ∈ pl, p.mid = m ∧ (p.pid : Int) - 1 = r ∧ pages (row r) = p.data) ∧
      dec got pages n = .ok msg ∧ m ∉ lastTen outs ∧ s'.midDecoded = lastTen (outs ++ [m]) := by
  obtain ⟨i1, i2⟩ := run_inv h fun q hq => hlog q (by simp [hq])
  obtain ⟨_, ⟨b, _⟩ | ⟨msg', pr, pl, m, n, g, pg, b1, b2, b3, b4, b5, b6, b7, b8, b9, b10⟩⟩ :=
    (epoch_spec dec i1 vi hlog).out _ hd
  · cases b
  · cases b1
    refine ⟨pr, pl, m, n, g, pg, b2, b3, b4, b5, b6, b7, b8, i2 ▸ b9, ?_⟩
    simp only at b10
    rw [b10, i2, lastTen_snoc _ _ (by unfold lastTen; simp; omega), lastTen_lastTen]

/-! ## A stalled collection is dropped -/

theorem fold_icnt (s : St) (vi : List BitBuf) :
    Post (vi.foldlM onPage s) (fun s' => s'.icnt = s.icnt ∧
      (s.mid ≠ -1 → s'.mid = s.mid ∧ s'.ms = s.ms)) := by
  refine Post.foldlM (I := fun s' : St => s'.icnt = s.icnt ∧
      (s.mid ≠ -1 → s'.mid = s.mid ∧ s'.ms = s.ms)) ?_ ⟨rfl, fun _ => ⟨rfl, rfl⟩⟩
  rintro a b - ⟨h1, h2⟩
  refine (onPage_spec a b).mono ?_
  rintro a' (⟨_, rfl⟩ | ⟨p, mt, _, rfl⟩)
  · exact ⟨h1, h2⟩
  · constructor
    · rw [← h1]; unfold stepPage; simp only; split <;> split <;> rfl
    · intro hm
      obtain ⟨k1, k2⟩ := h2 hm
      rw [← k1, ← k2]
      have : ¬ (a.mid = -1 ∧ p.mid ∉ a.midDecoded) := fun h => hm (k1 ▸ h.1)
      unfold stepPage
      simp only [this, if_false]
      split <;> exact ⟨rfl, rfl⟩

/-- `k` epochs, none of which decodes a message, all ending with a collection in progress -/
inductive Stalled (dec : List Int → (Nat → List Nat) → Int → Py μ) : Nat → St → St → Prop
  | nil (s : St) : Stalled dec 0 s s
  | step {k s s1 s2} (h : Stalled dec k s s1) (vi : List BitBuf)
      (hd : decodeCnav dec s1 vi = .ok (s2, none)) (hm : s2.mid ≠ -1) : Stalled dec (k + 1) s s2

/-- A collection of a message of `n` pages that does not complete is dropped after at most `2·n`
epochs, whatever is received. -/
theorem stalled_dropped {dec : List Int → (Nat → List Nat) → Int → Py μ} {k : Nat} {s s' : St}
    (h : Stalled dec k s s') (hk : 0 < k) : (s.icnt + k : Int) ≤ 2 * s'.ms := by
  have key : ∀ {k s s'}, Stalled dec k s s' → s'.icnt = s.icnt + k ∧
      (0 < k → (s'.icnt : Int) ≤ 2 * s'.ms) := by
    intro k s s' h
    induction h with
    | nil => exact ⟨rfl, fun h => absurd h (by decide)⟩
    | @step k s s1 s2 h vi hd hm ih =>
      have hp : Post (decodeCnav dec s1 vi) (fun q => q.2 = none → q.1.mid ≠ -1 →
          q.1.icnt = s1.icnt + 1 ∧ (q.1.icnt : Int) ≤ 2 * q.1.ms) := by
        unfold decodeCnav
        refine Post.bind (fold_icnt s1 vi) fun t ht => ?_
        unfold finish
        refine Post.ite (fun _ => Post.bind_any fun _ => Post.pure fun h => by cases h) (fun _ => ?_)
        refine Post.ite (fun _ => Post.pure fun _ h => absurd rfl h) (fun hc => Post.pure fun _ hmm => ?_)
        simp only at hc hmm ⊢
        refine ⟨by rw [ht.1], ?_⟩
        by_contra hlt
        exact hc ⟨by omega, hmm⟩
      have := hp.out _ hd rfl hm
      exact ⟨by simp only at this; omega, fun _ => this.2⟩
  obtain ⟨k1, k2⟩ := key h
  have := k2 hk
  omega

/-- While a collection is in progress its identifier and size stay the same. -/
theorem collection_fixed {dec : List Int → (Nat → List Nat) → Int → Py μ} {s s' : St}
    (vi : List BitBuf) (hd : decodeCnav dec s vi = .ok (s', none)) (hm : s.mid ≠ -1) :
    s'.mid = -1 ∨ (s'.mid = s.mid ∧ s'.ms = s.ms) := by
  have hp : Post (decodeCnav dec s vi) (fun q => q.1.mid = -1 ∨ (q.1.mid = s.mid ∧ q.1.ms = s.ms)) := by
    unfold decodeCnav
    refine Post.bind (fold_icnt s vi) fun t ht => ?_
    unfold finish
    refine Post.ite (fun _ => Post.bind_any fun _ => Post.pure (Or.inl rfl)) (fun _ => ?_)
    refine Post.ite (fun _ => Post.pure (Or.inl rfl)) (fun _ => Post.pure (Or.inr (ht.2 hm)))
  exact hp.out _ hd

/-- **C16 (counter)**: an epoch without result counts one, or starts the count again at zero with nothing
being collected; the latter happens only when the count exceeds twice the size of the message being collected. -/
theorem epoch_counter {dec : List Int → (Nat → List Nat) → Int → Py μ} {s s' : St}
    (vi : List BitBuf) (hd : decodeCnav dec s vi = .ok (s', none)) :
    (s'.icnt = s.icnt + 1 ∧ (s'.mid = -1 ∨ (s'.icnt : Int) ≤ 2 * s'.ms)) ∨
      (s'.icnt = 0 ∧ s'.mid = -1 ∧ s'.got = [] ∧ (s.icnt + 1 : Int) > 2 * s'.ms) := by
  have hp : Post (decodeCnav dec s vi) (fun q => q.2 = none →
      (q.1.icnt = s.icnt + 1 ∧ (q.1.mid = -1 ∨ (q.1.icnt : Int) ≤ 2 * q.1.ms)) ∨
      (q.1.icnt = 0 ∧ q.1.mid = -1 ∧ q.1.got = [] ∧ (s.icnt + 1 : Int) > 2 * q.1.ms)) := by
    unfold decodeCnav
    refine Post.bind (fold_icnt s vi) fun t ht => ?_
    unfold finish
    refine Post.ite (fun _ => Post.bind_any fun _ => Post.pure (fun h => by cases h)) (fun _ => ?_)
    refine Post.ite (fun h => Post.pure (fun _ => Or.inr ⟨rfl, rfl, rfl, ?_⟩)) (fun h => Post.pure (fun _ => Or.inl ⟨?_, ?_⟩))
    · have := h.1
      simp only at this ⊢
      rw [ht.1] at this
      push_cast at this
      exact this
    · simp only [ht.1]
    · by_cases hm : t.mid = -1
      · exact Or.inl hm
      · right
        simp only at h ⊢
        by_contra hc
        exact h ⟨by omega, hm⟩
  exact hp.out _ hd rfl

/-! ## A complete collection is decoded -/

theorem page_size {b : BitBuf} {p : Page} (h : pageOf b = some p) : 1 ≤ p.ms := by
  unfold pageOf at h
  split at h
  · cases h
  · cases h
    simp

theorem fold_size (s : St) (vi : List BitBuf) (h : s.mid ≠ -1 → 0 < s.ms) :
    Post (vi.foldlM onPage s) (fun s' => s'.mid ≠ -1 → 0 < s'.ms) := by
  refine Post.foldlM (I := fun s' : St => s'.mid ≠ -1 → 0 < s'.ms) ?_ h
  rintro a b - h2
  refine (onPage_spec a b).mono ?_
  rintro a' (⟨_, rfl⟩ | ⟨p, mt, hp, rfl⟩)
  · exact h2
  · have hp := page_size hp
    intro hm
    unfold stepPage at hm ⊢
    simp only at hm ⊢
    by_cases c : a.mid = -1 ∧ p.mid ∉ a.midDecoded
    · simp only [if_pos c] at hm ⊢
      split
      · show (0 : Int) < p.ms
        omega
      · show (0 : Int) < p.ms
        omega
    · simp only [if_neg c] at hm ⊢
      split at hm <;> split <;> exact h2 hm

theorem run_size {dec : List Int → (Nat → List Nat) → Int → Py μ} {log : List Page} {outs : List Nat}
    {s : St} (h : Run dec log outs s) : s.mid ≠ -1 → 0 < s.ms := by
  have key : ∀ (s : St) (vi : List BitBuf), (s.mid ≠ -1 → 0 < s.ms) →
      Post (decodeCnav dec s vi) (fun q => q.1.mid ≠ -1 → 0 < q.1.ms) := by
    intro s vi h
    unfold decodeCnav
    refine Post.bind (fold_size s vi h) fun t ht => ?_
    unfold finish
    refine Post.ite (fun _ => Post.bind_any fun _ => Post.pure (fun h => absurd rfl h)) (fun _ => ?_)
    exact Post.ite (fun h => Post.pure (fun h => absurd rfl h)) (fun h => Post.pure ht)
  induction h with
  | init => exact fun h => absurd rfl h
  | quiet h vi hd ih => exact (key _ vi ih).out _ hd
  | decoded h vi hd hm ih => exact (key _ vi ih).out _ hd

/-- **Complete messages are decoded**: after an epoch that returned nothing, a collection still in progress has
received fewer distinct pages than the size announced for it. -/
theorem incomplete_kept {dec : List Int → (Nat → List Nat) → Int → Py μ}
    {log : List Page} {outs : List Nat} {s s' : St} (h : Run dec log outs s)
    (vi : List BitBuf) (hlog : ∀ q ∈ log ++ vi.filterMap pageOf, 1 ≤ q.pid)
    (hd : decodeCnav dec s vi = .ok (s', none)) (hm : s'.mid ≠ -1) :
    ∃ pr pl m n, log ++ vi.filterMap pageOf = pr ++ pl ∧ Collection m n pl ∧ s'.mid = m ∧ s'.ms = n ∧
      s'.got.Nodup ∧ (∀ r, r ∈ s'.got ↔ Received m pl r) ∧ s'.got.length < n := by
  have hr : Run dec (log ++ vi.filterMap pageOf) outs s' := .quiet h vi hd
  obtain ⟨⟨_, i2⟩, _⟩ := run_inv hr hlog
  obtain ⟨pr, pl, m, n, e1, e2, e3, e4, e5, e6, _, _⟩ := i2 hm
  refine ⟨pr, pl, m, n, e1, e2, e3, e4, e5, e6, ?_⟩
  have hp : Post (decodeCnav dec s vi) (fun q => q.2 = none → q.1.mid ≠ -1 → ¬(q.1.ms > 0 ∧ (q.1.got.length : Int) ≥ q.1.ms)) := by
    unfold decodeCnav
    refine Post.bind_any fun t => ?_
    unfold finish
    refine Post.ite (fun _ => Post.bind_any fun _ => Post.pure (fun h => by cases h)) (fun hc => ?_)
    exact Post.ite (fun h => Post.pure (fun _ h => absurd rfl h)) (fun h => Post.pure (fun _ _ => hc))
  have h1 := hp.out _ hd rfl hm
  have h2 := run_size hr hm
  simp only at h1
  omega

/-! ## What the collector does not check, and examples -/

/-- a C/NAV message carrying a HAS page with constant data -/
def demoPage (mid ms pid d : Nat) : BitBuf := natToBits 14 0 ++ natToBits 2 1 ++ natToBits 2 0 ++
  natToBits 2 1 ++ natToBits 5 mid ++ natToBits 5 (ms - 1) ++ natToBits 8 pid ++
  (List.replicate 53 (natToBits 8 d)).flatten

/-- records the call of the Reed-Solomon decoder -/
def demoDec (rows : List Int) (pages : Nat → List Nat) (n : Int) : Py (List Int × List Nat × Int) :=
  .ok (rows, rows.map (fun r => (pages (row r)).headD 0), n)

/-- epochs in sequence, collecting what is decoded, and the final identifier -/
def recvAll : St → List (List BitBuf) → Py (List (List Int × List Nat × Int) × Int)
  | s, [] => .ok ([], s.mid)
  | s, vi :: rest => do
    let (s, o) ← decodeCnav demoDec s vi
    let (r, m) ← recvAll s rest
    pure (o.toList ++ r, m)

-- a two-page message among pages of another message and a repeated page
example : recvAll {} [[demoPage 3 2 7 70], [demoPage 4 2 1 99, demoPage 3 2 7 71],
    [demoPage 3 2 9 90]] = .ok ([([6, 8], [70, 90], 2)], -1) := by decide +kernel
example : pageOf (demoPage 3 2 7 70) = some ⟨3, 2, 7, List.replicate 53 70⟩ := by decide +kernel

/-- The size announced by later pages is not compared with the one the collection started with:
two pages of identifier 3 announcing sizes 2 and 5 are decoded together as a message of size 2. -/
theorem size_not_checked : recvAll {} [[demoPage 3 2 1 10], [demoPage 3 5 2 20]] =
    .ok ([([0, 1], [10, 20], 2)], -1) := by decide +kernel

/-- The epoch counter also runs while nothing is being collected, so after a few empty epochs a
newly started collection is dropped in its first epoch and its page is lost. -/
theorem dropped_after_idle : recvAll {} [[], [], [], [], [demoPage 3 2 1 10], [demoPage 3 2 2 20]] =
    .ok ([], 3) ∧ recvAll {} [[demoPage 3 2 1 10], [demoPage 3 2 2 20]] =
    .ok ([([0, 1], [10, 20], 2)], -1) := by
  constructor <;> decide +kernel

/-- Page numbers 0 and 255 share a row, so the data of one is used for both. -/
theorem page_zero_aliases : recvAll {} [[demoPage 3 2 0 10], [demoPage 3 2 255 20]] =
    .ok ([([-1, 254], [20, 20], 2)], -1) := by decide +kernel

end Verif.C16
