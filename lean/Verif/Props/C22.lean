import Verif.Props.C23
/-! # C22: assembly of digital signature messages (DSM)

The specification works on the history of HKROOT messages (120 bits each) and the results
reported for them: `blocks did σ` are the blocks of one DSM identifier received since the
assembly of that identifier last started over (a decoded message, or a change of chain). -/

namespace Verif.C22
open Verif.Osnma
variable {PK : Type}

/-- value of the `n` bits at position `i` -/
def bitsAt (b : BitBuf) (i n : Nat) : Nat := bitsToNat ((b.drop i).take n)

/-- a DSM block as transmitted: chain, DSM identifier, block number, 13 bytes of data -/
structure Blk where
  cid : Nat
  did : Nat
  bid : Nat
  data : BitBuf
  deriving DecidableEq

/-- the block carried by an HKROOT message; none if the service is not usable (status other than
test/operational) or the chain status is reserved -/
def parse (hk : BitBuf) : Option Blk :=
  if (bitsAt hk 0 2 = 1 ∨ bitsAt hk 0 2 = 2) ∧ bitsAt hk 4 3 ≠ 0 then
    some ⟨bitsAt hk 2 2, bitsAt hk 8 4, bitsAt hk 12 4, hk.drop 16⟩
  else none

/-- specification state: chain of the last block, blocks per identifier -/
structure Spec where
  cid : Option Nat := none
  blocks : Nat → List Blk := fun _ => []

/-- blocks of the identifier of `b` after the arrival of `b` -/
def Spec.add (σ : Spec) (b : Blk) : List Blk :=
  (if σ.cid = none ∨ σ.cid = some b.cid then σ.blocks b.did else []) ++ [b]

/-- an HKROOT message and the result reported for it -/
def Spec.next (σ : Spec) (hk : BitBuf) (res : Bool) : Spec :=
  match parse hk with
  | none => σ
  | some b => ⟨some b.cid, fun k => if k = b.did then (if res then [] else σ.add b) else σ.blocks k⟩

/-- the last block with number `k` -/
def latest (k : Nat) (l : List Blk) : Option Blk := (l.filter fun x => x.bid = k).getLast?

/-- number of blocks announced by block 0 -/
def announced (z : Blk) : Nat := bitsAt z.data 0 4 + 6

/-- a history of `decode_hk` calls with their results -/
inductive Hist (p : Prim PK) (s0 : St PK) : St PK → Spec → Prop where
  | nil : Hist p s0 s0 {}
  | hk {s t : St PK} {σ : Spec} {m : BitBuf} {r : Bool} (hl : m.length = 120) :
      Hist p s0 s σ → decodeHk p s m = .ok (t, r) → Hist p s0 t (σ.next m r)
  /-- anything else the decoder does leaves the block store alone -/
  | other {s t : St PK} {σ : Spec} : Hist p s0 s σ → SameStore s t → Hist p s0 t σ

/-! ## helper lemmas -/

theorem latest_snoc (k : Nat) (l : List Blk) (b : Blk) :
    latest k (l ++ [b]) = if b.bid = k then some b else latest k l := by
  unfold latest
  rw [List.filter_append]
  by_cases h : b.bid = k <;> simp [h]

theorem latest_some {k : Nat} {l : List Blk} (h : ∃ x ∈ l, x.bid = k) : ∃ x, latest k l = some x := by
  obtain ⟨x, hx, hk⟩ := h
  unfold latest
  cases hl : (l.filter fun x => x.bid = k).getLast? with
  | some y => exact ⟨y, rfl⟩
  | none =>
    rw [List.getLast?_eq_none_iff] at hl
    have : x ∈ l.filter fun x => x.bid = k := by simp [hx, hk]
    rw [hl] at this; simp at this

theorem latest_mem {k : Nat} {l : List Blk} {x : Blk} (h : latest k l = some x) :
    x ∈ l ∧ x.bid = k := by
  have := List.mem_of_getLast? h
  simpa using this

theorem bid_lt {hk : BitBuf} {b : Blk} (h : parse hk = some b) : b.bid < 16 := by
  unfold parse at h
  split at h
  · cases h
    show bitsAt hk 12 4 < 16
    have := bitsToNat_lt ((hk.drop 12).take 4)
    have h2 : ((hk.drop 12).take 4).length ≤ 4 := by simp
    have h3 : 2 ^ ((hk.drop 12).take 4).length ≤ 2 ^ 4 := Nat.pow_le_pow_right (by omega) h2
    unfold bitsAt
    omega
  · cases h

theorem readU_at {b : BitBuf} {i n : Nat} (h : i + n ≤ b.length) : readU b i n = .ok (bitsAt b i n) :=
  if_pos h

theorem byteAt_ok {b : BitBuf} {i : Nat} (h : 8 * i + 8 ≤ b.length) :
    byteAt b i = .ok (bitsAt b (8 * i) 8) := if_pos h

/-- the high nibble of a byte -/
theorem nibble (b : BitBuf) (i : Nat) (h : i + 8 ≤ b.length) : bitsAt b i 8 / 16 = bitsAt b i 4 := by
  unfold bitsAt
  have e : (b.drop i).take 8 = (b.drop i).take 4 ++ ((b.drop i).drop 4).take 4 := by
    rw [← List.take_append_drop 4 ((b.drop i).take 8), List.take_take, List.drop_take]
    simp
  rw [e, bitsToNat_append]
  have hl : (((b.drop i).drop 4).take 4).length = 4 := by simp; omega
  have := bitsToNat_lt (((b.drop i).drop 4).take 4)
  rw [hl] at this ⊢
  omega

/-- lookups after the first two steps -/
theorem prep_eff (s : St PK) (cid did : Nat) :
    (hkChain (hkInit s did) cid did).cid0 = cid ∧
    (∀ k, k ≠ did → (hkChain (hkInit s did) cid did).dsm.get? k = s.dsm.get? k ∧
      (hkChain (hkInit s did) cid did).flgDsm.get? k = s.flgDsm.get? k ∧
      (hkChain (hkInit s did) cid did).nb.get? k = s.nb.get? k) ∧
    ((s.flgDsm.get? did = none ∧ (hkChain (hkInit s did) cid did).flgDsm.get? did = some 0 ∧
        (hkChain (hkInit s did) cid did).dsm.get? did = some (zeros 250) ∧
        (hkChain (hkInit s did) cid did).nb.get? did = some 0) ∨
     ∃ f, s.flgDsm.get? did = some f ∧
        (hkChain (hkInit s did) cid did).flgDsm.get? did =
          some (if s.cid0 < 0 ∨ s.cid0 = cid then f else 0) ∧
        (hkChain (hkInit s did) cid did).dsm.get? did = s.dsm.get? did ∧
        (hkChain (hkInit s did) cid did).nb.get? did = s.nb.get? did) := by
  have hc : ∀ s : St PK, (hkChain s cid did).cid0 = cid ∧ (hkChain s cid did).dsm = s.dsm ∧
      (hkChain s cid did).nb = s.nb ∧ (hkChain s cid did).flgDsm =
        if s.cid0 < 0 ∨ s.cid0 = cid then s.flgDsm else s.flgDsm.set did 0 := by
    intro s
    unfold hkChain
    by_cases h0 : s.cid0 < 0
    · simp [h0]
    · by_cases h1 : s.cid0 = cid
      · have : ¬ (cid : Int) < 0 := by omega
        simp [h1, this]
      · have : ¬ (cid : Int) = s.cid0 := fun e => h1 e.symm
        simp [h0, h1, this]
  obtain ⟨h1, h2, h3, h4⟩ := hc (hkInit s did)
  rw [h1, h2, h3, h4]
  unfold hkInit
  cases hF : s.flgDsm.get? did with
  | none =>
    have hm : s.flgDsm.mem did = false := by simp [Dict.mem, hF]
    simp only [hm, Bool.false_eq_true, if_false]
    refine ⟨trivial, fun k hk => ⟨by simp [Dict.get?_set, hk], ?_, by simp [Dict.get?_set, hk]⟩,
      Or.inl ⟨trivial, ?_, by simp, by simp⟩⟩
    · split <;> simp [Dict.get?_set, hk]
    · split <;> simp
  | some f =>
    have hm : s.flgDsm.mem did = true := by simp [Dict.mem, hF]
    simp only [hm, if_true]
    refine ⟨trivial, fun k hk => ⟨trivial, ?_, trivial⟩, Or.inr ⟨f, rfl, ?_, trivial, trivial⟩⟩
    · split <;> simp [Dict.get?_set, hk]
    · split <;> simp [hF]

theorem put_eff {s t : St PK} {did bid : Nat} {data : BitBuf} {o : Option Nat}
    (hl : data.length = 104) (h : hkPut s did bid data = .ok (t, o)) :
    ∃ d f n, s.dsm.get? did = some d ∧ s.flgDsm.get? did = some f ∧
      n = (if bid = 0 then bitsAt data 0 4 + 6 else n) ∧ (bid ≠ 0 → s.nb.get? did = some n) ∧
      t.dsm = s.dsm.set did (setSlice d (bid * 13) (bid * 13 + 13) data) ∧
      t.flgDsm = s.flgDsm.set did (f ||| 1 <<< bid) ∧
      t.nb = (if bid = 0 then s.nb.set did (bitsAt data 0 4 + 6) else s.nb) ∧
      t.cid0 = s.cid0 ∧
      o = if n > 0 ∧ (f ||| 1 <<< bid) = 1 <<< n - 1 then some did else none := by
  unfold hkPut at h
  obtain ⟨d, hd, h⟩ := Py.bind_ok.1 h
  obtain ⟨f, hf, h⟩ := Py.bind_ok.1 h
  rw [byteAt_ok (by omega)] at h
  simp only [Py.okBind] at h
  have hnib : bitsAt data (8 * 0) 8 / 16 = bitsAt data 0 4 := nibble data 0 (by omega)
  rw [hnib] at h
  rw [Dict.getItem_ok_iff] at hd hf
  by_cases hb : bid = 0
  · subst hb
    simp only [if_true, Dict.getItem, Dict.get?_set_self, Py.okBind] at h
    rw [Py.pure_ok] at h
    cases h
    exact ⟨d, f, _, hd, hf, rfl, fun h => (h rfl).elim, rfl, rfl, rfl, rfl, rfl⟩
  · simp only [hb, if_false] at h
    obtain ⟨n, hn, h⟩ := Py.bind_ok.1 h
    rw [Dict.getItem_ok_iff] at hn
    rw [Py.pure_ok] at h
    cases h
    exact ⟨d, f, n, hd, hf, by simp [hb], fun _ => hn, rfl, rfl, by simp [hb], rfl, rfl⟩

theorem hkStore_eff {s t : St PK} {hk : BitBuf} {o : Option Nat} (hl : hk.length = 120)
    (h : hkStore s hk = .ok (t, o)) :
    (parse hk = none ∧ SameStore s t ∧ o = none) ∨
    ∃ (b : Blk) (s1 : St PK), parse hk = some b ∧ b.data.length = 104 ∧ s1.dsm = s.dsm ∧ s1.flgDsm = s.flgDsm ∧
      s1.nb = s.nb ∧ s1.cid0 = s.cid0 ∧
      hkPut (hkChain (hkInit s1 b.did) b.cid b.did) b.did b.bid b.data = .ok (t, o) := by
  unfold hkStore at h
  rw [byteAt_ok (by omega), readU_at (by omega : 0 + 2 ≤ _), readU_at (by omega : 2 + 2 ≤ _),
    readU_at (by omega : 4 + 3 ≤ _), readU_at (by omega : 8 + 4 ≤ _),
    readU_at (by omega : 12 + 4 ≤ _)] at h
  simp only [Py.okBind] at h
  by_cases h1 : bitsAt hk 0 2 ≠ 1 ∧ bitsAt hk 0 2 ≠ 2
  · rw [if_pos h1, Py.pure_ok] at h
    cases h
    left
    refine ⟨?_, ⟨rfl, rfl, rfl, rfl⟩, rfl⟩
    unfold parse
    rw [if_neg]; rintro ⟨h2 | h2, _⟩
    · exact h1.1 h2
    · exact h1.2 h2
  rw [if_neg h1] at h
  by_cases h2 : bitsAt hk 4 3 = 0
  · rw [if_pos h2, Py.pure_ok] at h
    cases h
    left
    refine ⟨?_, ⟨rfl, rfl, rfl, rfl⟩, rfl⟩
    unfold parse
    rw [if_neg]; rintro ⟨_, h3⟩; exact h3 h2
  rw [if_neg h2] at h
  right
  have hp : parse hk = some ⟨bitsAt hk 2 2, bitsAt hk 8 4, bitsAt hk 12 4, hk.drop 16⟩ := by
    unfold parse
    rw [if_pos]
    refine ⟨?_, h2⟩
    by_contra hc
    push Not at hc
    exact h1 hc
  have hdat : slice hk 2 15 = hk.drop 16 := by
    unfold slice
    apply List.take_of_length_le
    rw [List.length_drop, hl]
  rw [hdat] at h
  exact ⟨_, { s with nmaHeader := bitsAt hk (8 * 0) 8 }, hp, by simp [hl], rfl, rfl, rfl, rfl, h⟩

/-- the block store against the specification -/
structure Inv (s : St PK) (σ : Spec) : Prop where
  cid : (σ.cid = none ∧ s.cid0 < 0) ∨ ∃ c : Nat, σ.cid = some c ∧ s.cid0 = c
  small : ∀ did, ∀ x ∈ σ.blocks did, x.bid < 16 ∧ x.data.length = 104
  fresh : ∀ did, s.flgDsm.get? did = none → σ.blocks did = []
  flag : ∀ did f, s.flgDsm.get? did = some f → ∀ k, f.testBit k = true ↔ ∃ x ∈ σ.blocks did, x.bid = k
  store : ∀ did f, s.flgDsm.get? did = some f → ∃ d n, s.dsm.get? did = some d ∧ d.length = 2000 ∧
    s.nb.get? did = some n ∧ (n = 0 ∨ 6 ≤ n) ∧
    (∀ k x, latest k (σ.blocks did) = some x → (d.drop (104 * k)).take 104 = x.data) ∧
    (∀ z, latest 0 (σ.blocks did) = some z → n = announced z)

theorem testBit_shift (c ki k : Nat) :
    (c ||| 1 <<< ki).testBit k = (c.testBit k || decide (ki = k)) := by
  rw [Nat.testBit_or, Nat.one_shiftLeft, Nat.testBit_two_pow]

theorem setSlice_eq (b v : BitBuf) (ki : Nat) (hv : v.length = 104) :
    setSlice b (ki * 13) (ki * 13 + 13) v = splice b (104 * ki) v := by
  unfold setSlice splice
  rw [hv, show 8 * (ki * 13) = 104 * ki by omega, show 8 * (ki * 13 + 13) = 104 * ki + 104 by omega]

theorem mask_iff (f n : Nat) : f = 1 <<< n - 1 ↔ ∀ k, f.testBit k = true ↔ k < n := by
  constructor
  · rintro rfl k
    rw [Nat.one_shiftLeft, Nat.testBit_two_pow_sub_one]; simp
  · intro h
    apply Nat.eq_of_testBit_eq
    intro k
    rw [Nat.one_shiftLeft, Nat.testBit_two_pow_sub_one]
    rw [Bool.eq_iff_iff]
    simpa using h k

/-- the message of an identifier is complete: block 0 is there, and exactly the announced block
numbers occur -/
def Complete (l : List Blk) : Prop :=
  ∃ z, latest 0 l = some z ∧ ∀ k, (∃ x ∈ l, x.bid = k) ↔ k < announced z

/-- what is known about the entry of one identifier -/
structure Entry (s : St PK) (did : Nat) (l : List Blk) (f : Nat) (d : BitBuf) (n : Nat) : Prop where
  hf : s.flgDsm.get? did = some f
  hd : s.dsm.get? did = some d
  hn : s.nb.get? did = some n
  flag : ∀ k, f.testBit k = true ↔ ∃ x ∈ l, x.bid = k
  len : d.length = 2000
  n6 : n = 0 ∨ 6 ≤ n
  data : ∀ k x, latest k l = some x → (d.drop (104 * k)).take 104 = x.data
  ann : ∀ z, latest 0 l = some z → n = announced z

/-- the blocks kept when a block of chain `cid` arrives -/
def kept (σ : Spec) (cid did : Nat) : List Blk :=
  if σ.cid = none ∨ σ.cid = some cid then σ.blocks did else []

theorem latest_nil (k : Nat) : latest k [] = none := rfl

theorem prep_entry {s : St PK} {σ : Spec} (hi : Inv s σ) (cid did : Nat) :
    ∃ f d n, Entry (hkChain (hkInit s did) cid did) did (kept σ cid did) f d n := by
  obtain ⟨_, _, h⟩ := prep_eff s cid did
  rcases h with ⟨h0, h1, h2, h3⟩ | ⟨f, h0, h1, h2, h3⟩
  · have e : kept σ cid did = [] := by
      unfold kept; rw [hi.fresh did h0]; split <;> rfl
    refine ⟨0, zeros 250, 0, h1, h2, h3, ?_, List.length_replicate, Or.inl rfl, ?_, ?_⟩
    · intro k; rw [e]; simp
    · intro k x hx; rw [e, latest_nil] at hx; cases hx
    · intro z hz; rw [e, latest_nil] at hz; cases hz
  · obtain ⟨d, n, hd, hdl, hn, hn6, hdat, hann⟩ := hi.store did f h0
    by_cases hc : s.cid0 < 0 ∨ s.cid0 = cid
    · have hk : σ.cid = none ∨ σ.cid = some cid := by
        rcases hi.cid with ⟨a, _⟩ | ⟨c, a, b⟩
        · exact Or.inl a
        · right; rw [a]; congr; omega
      have e : kept σ cid did = σ.blocks did := if_pos hk
      rw [e]
      rw [if_pos hc] at h1
      exact ⟨f, d, n, h1, h2.trans hd, h3.trans hn, hi.flag did f h0, hdl, hn6, hdat, hann⟩
    · have hk : ¬ (σ.cid = none ∨ σ.cid = some cid) := by
        rintro (a | a)
        · rcases hi.cid with ⟨_, b⟩ | ⟨c, b, _⟩
          · exact hc (Or.inl b)
          · rw [a] at b; cases b
        · rcases hi.cid with ⟨b, _⟩ | ⟨c, b, b2⟩
          · rw [a] at b; cases b
          · rw [a] at b; cases b; exact hc (Or.inr b2)
      have e : kept σ cid did = [] := if_neg hk
      rw [if_neg hc] at h1
      rw [e]
      refine ⟨0, d, n, h1, h2.trans hd, h3.trans hn, by intro k; simp, hdl, hn6, ?_, ?_⟩
      · intro k x hx; rw [latest_nil] at hx; cases hx
      · intro z hz; rw [latest_nil] at hz; cases hz

/-- storing one block -/
theorem put_entry {s t : St PK} {l : List Blk} {f n : Nat} {d : BitBuf} {b : Blk} {o : Option Nat}
    (he : Entry s b.did l f d n) (hl : b.data.length = 104) (hb : b.bid < 16)
    (h : hkPut s b.did b.bid b.data = .ok (t, o)) :
    (∃ f d n, Entry t b.did (l ++ [b]) f d n) ∧
    (o = some b.did ∧ Complete (l ++ [b]) ∨ o = none ∧ ¬ Complete (l ++ [b])) := by
  obtain ⟨d', f', n', hd, hf, hn, hn2, t1, t2, t3, t4, ho⟩ := put_eff hl h
  rw [he.hd] at hd; cases hd
  rw [he.hf] at hf; cases hf
  have hE : Entry t b.did (l ++ [b]) (f ||| 1 <<< b.bid) (splice d (104 * b.bid) b.data) n' := by
    refine ⟨?_, ?_, ?_, ?_, ?_, ?_, ?_, ?_⟩
    · rw [t2, Dict.get?_set_self]
    · rw [t1, Dict.get?_set_self, setSlice_eq _ _ _ hl]
    · rw [t3]
      split
      · rename_i h0; rw [if_pos h0] at hn; rw [Dict.get?_set_self, hn]
      · rename_i h0; exact hn2 h0
    · intro k
      rw [testBit_shift, Bool.or_eq_true, he.flag k]
      simp only [List.mem_append, List.mem_singleton, decide_eq_true_eq]
      constructor
      · rintro (⟨x, hx, e⟩ | e)
        · exact ⟨x, Or.inl hx, e⟩
        · exact ⟨b, Or.inr rfl, e⟩
      · rintro ⟨x, hx | hx, e⟩
        · exact Or.inl ⟨x, hx, e⟩
        · subst hx; exact Or.inr e
    · rw [splice_length _ _ _ (by rw [hl, he.len]; omega), he.len]
    · by_cases h0 : b.bid = 0
      · rw [if_pos h0] at hn; right; omega
      · have := hn2 h0; rw [he.hn] at this; cases this; exact he.n6
    · intro k x hx
      rw [latest_snoc] at hx
      split at hx
      · rename_i e
        cases hx
        subst e
        exact splice_slot _ _ _ _ hl (by rw [he.len]; omega)
      · rename_i e
        rw [splice_other _ _ _ 104 _ _ hl (by rw [he.len]; omega) (by omega)]
        exact he.data k x hx
    · intro z hz
      rw [latest_snoc] at hz
      split at hz
      · rename_i e
        cases hz
        rw [if_pos e] at hn; exact hn
      · rename_i e
        have := hn2 e; rw [he.hn] at this; cases this
        exact he.ann z hz
  refine ⟨⟨_, _, _, hE⟩, ?_⟩
  have hiff : (n' > 0 ∧ (f ||| 1 <<< b.bid) = 1 <<< n' - 1) ↔ Complete (l ++ [b]) := by
    rw [mask_iff]
    constructor
    · rintro ⟨hp, hm⟩
      have h0 := (hE.flag 0).1 ((hm 0).2 hp)
      obtain ⟨z, hz⟩ := latest_some h0
      refine ⟨z, hz, fun k => ?_⟩
      rw [← hE.flag k, hm k, hE.ann z hz]
    · rintro ⟨z, hz, hm⟩
      have hn := hE.ann z hz
      refine ⟨by rw [hn]; unfold announced; omega, fun k => ?_⟩
      rw [hE.flag k, hm k, hn]
  by_cases hc : Complete (l ++ [b])
  · left; exact ⟨by rw [ho, if_pos (hiff.2 hc)], hc⟩
  · right; exact ⟨by rw [ho, if_neg (fun h => hc (hiff.1 h))], hc⟩

/-- the state after storing a block, and when it is handed on -/
theorem store_inv {s t : St PK} {σ : Spec} {hk : BitBuf} {o : Option Nat} {b : Blk}
    (hi : Inv s σ) (hl : hk.length = 120) (h : hkStore s hk = .ok (t, o)) (hb : parse hk = some b) :
    Inv t ⟨some b.cid, fun k => if k = b.did then σ.add b else σ.blocks k⟩ ∧
    (∃ f d n, Entry t b.did (σ.add b) f d n) ∧
    (o = some b.did ∧ Complete (σ.add b) ∨ o = none ∧ ¬ Complete (σ.add b)) := by
  rcases hkStore_eff hl h with ⟨h0, _⟩ | ⟨b', s1, h0, hdl, e1, e2, e3, e4, hput⟩
  · rw [hb] at h0; cases h0
  · rw [hb] at h0; cases h0
    have hi1 : Inv s1 σ := by
      refine ⟨?_, hi.small, ?_, ?_, ?_⟩
      · rw [e4]; exact hi.cid
      · rw [e2]; exact hi.fresh
      · rw [e2]; exact hi.flag
      · rw [e1, e2, e3]; exact hi.store
    obtain ⟨f, d, n, hE⟩ := prep_entry hi1 b.cid b.did
    obtain ⟨hE2, ho⟩ := put_entry hE hdl (bid_lt hb) hput
    obtain ⟨p1, p2, _⟩ := prep_eff s1 b.cid b.did
    obtain ⟨d', f', n', _, _, _, _, t1, t2, t3, t4, _⟩ := put_eff hdl hput
    refine ⟨?_, hE2, ho⟩
    obtain ⟨f2, d2, n2, hE2⟩ := hE2
    have hother : ∀ k, k ≠ b.did → t.dsm.get? k = s.dsm.get? k ∧ t.flgDsm.get? k = s.flgDsm.get? k ∧
        t.nb.get? k = s.nb.get? k := by
      intro k hk
      obtain ⟨a1, a2, a3⟩ := p2 k hk
      refine ⟨?_, ?_, ?_⟩
      · rw [t1, Dict.get?_set_ne _ _ hk, a1, e1]
      · rw [t2, Dict.get?_set_ne _ _ hk, a2, e2]
      · rw [t3]
        split
        · rw [Dict.get?_set_ne _ _ hk, a3, e3]
        · rw [a3, e3]
    have hadd : σ.add b = kept σ b.cid b.did ++ [b] := rfl
    refine ⟨Or.inr ⟨b.cid, rfl, ?_⟩, ?_, ?_, ?_, ?_⟩
    · rw [t4, p1]
    · intro did x hx
      dsimp only at hx
      split at hx
      · rw [hadd] at hx
        rcases List.mem_append.1 hx with h | h
        · unfold kept at h
          split at h
          · exact hi.small b.did x h
          · simp at h
        · simp at h; subst h; exact ⟨bid_lt hb, hdl⟩
      · exact hi.small did x hx
    · intro did hn
      dsimp only
      by_cases hd : did = b.did
      · subst hd; rw [hE2.hf] at hn; cases hn
      · rw [if_neg hd]
        rw [(hother did hd).2.1] at hn
        exact hi.fresh did hn
    · intro did f hf
      dsimp only
      by_cases hd : did = b.did
      · subst hd; rw [hE2.hf] at hf; cases hf; rw [if_pos rfl]; exact hE2.flag
      · rw [if_neg hd]
        rw [(hother did hd).2.1] at hf
        exact hi.flag did f hf
    · intro did f hf
      dsimp only
      by_cases hd : did = b.did
      · subst hd
        rw [if_pos rfl]
        exact ⟨d2, n2, hE2.hd, hE2.len, hE2.hn, hE2.n6, hE2.data, hE2.ann⟩
      · rw [if_neg hd]
        obtain ⟨a1, a2, a3⟩ := hother did hd
        rw [a2] at hf
        rw [a1, a3]
        exact hi.store did f hf

theorem Inv.same {s t : St PK} {σ : Spec} (hi : Inv s σ) (h : SameStore s t) : Inv t σ := by
  obtain ⟨e1, e2, e3, e4⟩ := h
  refine ⟨?_, hi.small, ?_, ?_, ?_⟩
  · rw [e4]; exact hi.cid
  · rw [e2]; exact hi.fresh
  · rw [e2]; exact hi.flag
  · rw [e1, e2, e3]; exact hi.store

/-- forgetting the blocks of an identifier whose flags are cleared -/
theorem Inv.clear {s t : St PK} {c : Option Nat} {bl : Nat → List Blk} {did : Nat} {l : List Blk}
    (hi : Inv s ⟨c, fun k => if k = did then l else bl k⟩)
    (hE : ∃ f d n, Entry s did l f d n)
    (h1 : t.dsm = s.dsm) (h2 : t.flgDsm = s.flgDsm.set did 0) (h3 : t.nb = s.nb)
    (h4 : t.cid0 = s.cid0) : Inv t ⟨c, fun k => if k = did then [] else bl k⟩ := by
  obtain ⟨f, d, n, hE⟩ := hE
  refine ⟨by rw [h4]; exact hi.cid, ?_, ?_, ?_, ?_⟩
  · intro k x hx
    dsimp only at hx
    split at hx
    · simp at hx
    · rename_i hk
      have := hi.small k x
      simp only [hk, if_false] at this
      exact this hx
  · intro k hk
    dsimp only
    split
    · rfl
    · rename_i hk2
      rw [h2, Dict.get?_set_ne _ _ hk2] at hk
      have := hi.fresh k hk
      simpa [hk2] using this
  · intro k f hf
    dsimp only
    by_cases hk : k = did
    · subst hk
      rw [h2, Dict.get?_set_self] at hf
      cases hf
      simp
    · rw [h2, Dict.get?_set_ne _ _ hk] at hf
      have := hi.flag k f hf
      simpa [hk] using this
  · intro k f hf
    dsimp only
    rw [h1, h3]
    by_cases hk : k = did
    · subst hk
      refine ⟨d, n, hE.hd, hE.len, hE.hn, hE.n6, ?_, ?_⟩
      · intro k x hx; simp [latest_nil] at hx
      · intro z hz; simp [latest_nil] at hz
    · rw [h2, Dict.get?_set_ne _ _ hk] at hf
      have := hi.store k f hf
      simpa [hk] using this

/-- a fresh decoder -/
structure Fresh (s : St PK) : Prop where
  flg : s.flgDsm = []
  cid : s.cid0 < 0

theorem hist_inv (p : Prim PK) {s0 s : St PK} {σ : Spec} (h0 : Fresh s0) (h : Hist p s0 s σ) :
    Inv s σ := by
  induction h with
  | nil =>
    refine ⟨Or.inl ⟨rfl, h0.cid⟩, by simp, fun _ _ => rfl, ?_, ?_⟩
    · intro did f hf; rw [h0.flg] at hf; simp at hf
    · intro did f hf; rw [h0.flg] at hf; simp at hf
  | other _ hs ih => exact ih.same hs
  | @hk s t σ m r hl _ hd ih =>
    unfold decodeHk at hd
    obtain ⟨⟨u, o⟩, hu, hd⟩ := Py.bind_ok.1 hd
    cases hp : parse m with
    | none =>
      rcases hkStore_eff hl hu with ⟨_, hs, ho⟩ | ⟨b, _, hb, _⟩
      · subst ho
        rw [Py.pure_ok] at hd
        cases hd
        have : σ.next m false = σ := by simp [Spec.next, hp]
        rw [this]
        exact ih.same hs
      · rw [hp] at hb; cases hb
    | some b =>
      obtain ⟨hi, hE, ho⟩ := store_inv ih hl hu hp
      have hnx : ∀ r, σ.next m r =
          ⟨some b.cid, fun k => if k = b.did then (if r then [] else σ.add b) else σ.blocks k⟩ := by
        intro r; simp [Spec.next, hp]
      rw [hnx]
      rcases ho with ⟨ho, _⟩ | ⟨ho, _⟩
      · subst ho
        dsimp only at hd
        obtain ⟨⟨v, rr⟩, hv, hd⟩ := Py.bind_ok.1 hd
        have hs : SameStore u v := by
          split at hv
          · exact (decodeDsmKroot_store p u b.did).out _ hv
          · exact (decodeDsmPkr_store p u b.did).out _ hv
        cases rr with
        | true =>
          simp only [if_true] at hd
          rw [Py.pure_ok] at hd
          cases hd
          simp only [if_true]
          exact hi.clear hE hs.1 (by rw [hs.2.1]) hs.2.2.1 hs.2.2.2
        | false =>
          simp only [Bool.false_eq_true, if_false] at hd
          rw [Py.pure_ok] at hd
          cases hd
          simp only [Bool.false_eq_true, if_false]
          exact hi.same hs
      · subst ho
        dsimp only at hd
        rw [Py.pure_ok] at hd
        cases hd
        simp only [Bool.false_eq_true, if_false]
        exact hi

/-! ## the property -/

/-- Storing an HKROOT message never raises. -/
theorem stored (p : Prim PK) (s0 s : St PK) (σ : Spec) (hk : BitBuf) (h0 : Fresh s0) (hh : Hist p s0 s σ)
    (hl : hk.length = 120) : ∃ t o, hkStore s hk = .ok (t, o) := by
  have hi := hist_inv p h0 hh
  unfold hkStore
  rw [byteAt_ok (i := 0) (by omega), Py.okBind]
  dsimp only
  rw [readU_at (i := 0) (n := 2) (by omega), Py.okBind, readU_at (i := 2) (n := 2) (by omega), Py.okBind,
    readU_at (i := 4) (n := 3) (by omega), Py.okBind, readU_at (i := 8) (n := 4) (by omega), Py.okBind,
    readU_at (i := 12) (n := 4) (by omega), Py.okBind]
  split
  · exact ⟨_, _, rfl⟩
  split
  · exact ⟨_, _, rfl⟩
  have hi1 : Inv { s with nmaHeader := bitsAt hk (8 * 0) 8 } σ := hi.same ⟨rfl, rfl, rfl, rfl⟩
  obtain ⟨f, d, n, hE⟩ := prep_entry hi1 (bitsAt hk 2 2) (bitsAt hk 8 4)
  unfold hkPut
  rw [(Dict.getItem_ok_iff _ _ _).2 hE.hd, Py.okBind, (Dict.getItem_ok_iff _ _ _).2 hE.hf, Py.okBind]
  dsimp only
  rw [byteAt_ok (i := 0) (by unfold slice; rw [List.length_take, List.length_drop]; omega), Py.okBind]
  split
  · rw [(Dict.getItem_ok_iff _ _ _).2 (Dict.get?_set_self ..), Py.okBind]
    exact ⟨_, _, rfl⟩
  · rw [(Dict.getItem_ok_iff _ _ _).2 hE.hn, Py.okBind]
    exact ⟨_, _, rfl⟩

/-- **C22 (1)**: an HKROOT message makes the decoder hand on a DSM exactly if it carries a block
with which the message of its identifier becomes complete: all announced blocks, and no others,
have been received since the assembly started over. -/
theorem handed_iff (p : Prim PK) (s0 s t : St PK) (σ : Spec) (hk : BitBuf) (o : Option Nat)
    (h0 : Fresh s0) (hh : Hist p s0 s σ) (hl : hk.length = 120) (h : hkStore s hk = .ok (t, o))
    (did : Nat) :
    o = some did ↔ ∃ b, parse hk = some b ∧ b.did = did ∧ Complete (σ.add b) := by
  have hi := hist_inv p h0 hh
  cases hp : parse hk with
  | none =>
    rcases hkStore_eff hl h with ⟨_, _, ho⟩ | ⟨b, _, hb, _⟩
    · subst ho; simp
    · rw [hp] at hb; cases hb
  | some b =>
    obtain ⟨_, _, ho⟩ := store_inv hi hl h hp
    constructor
    · intro e
      rcases ho with ⟨ho, hc⟩ | ⟨ho, _⟩
      · rw [ho] at e; cases e; exact ⟨b, rfl, rfl, hc⟩
      · rw [ho] at e; cases e
    · rintro ⟨b', hb, rfl, hc⟩
      cases hb
      rcases ho with ⟨ho, _⟩ | ⟨_, hn⟩
      · exact ho
      · exact (hn hc).elim

/-- **C22 (2)**: the message handed on is the concatenation, in block order, of the last block
received with each number, whatever the order and repetition of their arrival. -/
theorem handed_content (p : Prim PK) (s0 s t : St PK) (σ : Spec) (hk : BitBuf) (b : Blk)
    (h0 : Fresh s0) (hh : Hist p s0 s σ) (hl : hk.length = 120) (hb : parse hk = some b)
    (h : hkStore s hk = .ok (t, some b.did)) :
    ∃ (z : Blk) (d : BitBuf) (B : Nat → Blk), latest 0 (σ.add b) = some z ∧ t.dsm.get? b.did = some d ∧
      (∀ k, k < announced z → latest k (σ.add b) = some (B k)) ∧
      d.take (104 * announced z) = (List.range (announced z)).flatMap fun k => (B k).data := by
  have hi := hist_inv p h0 hh
  obtain ⟨hi2, ⟨f, d, n, hE⟩, ho⟩ := store_inv hi hl h hb
  rcases ho with ⟨_, z, hz, hc⟩ | ⟨ho, _⟩
  · have hs : ∀ k, ∃ B, k < announced z → latest k (σ.add b) = some B ∧
        (d.drop (104 * k)).take 104 = B.data := by
      intro k
      by_cases hk : k < announced z
      · obtain ⟨B, hB⟩ := latest_some ((hc k).2 hk)
        exact ⟨B, fun _ => ⟨hB, hE.data k B hB⟩⟩
      · exact ⟨b, fun h => (hk h).elim⟩
    choose B hB using hs
    refine ⟨z, d, B, hz, hE.hd, fun k hk => (hB k hk).1, ?_⟩
    have hz16 : announced z ≤ 16 := by
      by_contra hgt
      obtain ⟨x, hx, hx2⟩ := (hc 16).2 (by omega)
      have := hi2.small b.did x
      simp only [if_true] at this
      have := (this hx).1
      omega
    have hlen : (d.take (104 * announced z)).length = 104 * announced z := by
      rw [List.length_take, hE.len]; omega
    rw [slots_concat 104 (announced z) _ hlen]
    simp only [List.flatMap_def]
    congr 1
    refine List.map_congr_left fun k hk => ?_
    rw [List.mem_range] at hk
    rw [← (hB k hk).2, List.drop_take, List.take_take]
    congr 1
    omega
  · cases ho

/-- a DSM that announces more than sixteen blocks, or of which a block beyond the announced ones
has been received, is never complete until the assembly starts over -/
theorem stray_block_blocks (l : List Blk) (z x : Blk) (hz : latest 0 l = some z) (hx : x ∈ l)
    (h : announced z ≤ x.bid) : ¬ Complete l := by
  rintro ⟨z', hz', hc⟩
  rw [hz] at hz'
  cases hz'
  have := (hc x.bid).1 ⟨x, hx, rfl⟩
  omega

/-! ## the histories above are those of the decoder -/

theorem SameStore.trans {s t u : St PK} (h : SameStore s t) (h2 : SameStore t u) : SameStore s u :=
  ⟨h2.1.trans h.1, h2.2.1.trans h.2.1, h2.2.2.1.trans h.2.2.1, h2.2.2.2.trans h.2.2.2⟩

theorem storePage_store {s t : St PK} {nma : BitBuf} {wn tow prn : Nat}
    (h : storePage s nma wn tow prn = .ok t) : SameStore s t := by
  unfold storePage at h
  split at h
  · rw [Py.throw_ok] at h; exact h.elim
  · obtain ⟨s1, h1, h⟩ := Py.bind_ok.1 h
    obtain ⟨sf, hsf, h⟩ := Py.bind_ok.1 h
    obtain ⟨hb, hhb, h⟩ := Py.bind_ok.1 h
    rw [Py.pure_ok] at h
    split at h1
    · obtain ⟨m, hm, h1⟩ := Py.bind_ok.1 h1
      rw [Py.pure_ok] at h1
      subst h1 h
      exact ⟨rfl, rfl, rfl, rfl⟩
    · rw [Py.pure_ok] at h1
      subst h1 h
      exact ⟨rfl, rfl, rfl, rfl⟩

theorem saveMack_store (s : St PK) (prn : Nat) : SameStore s (saveMack s prn) :=
  ⟨rfl, rfl, rfl, rfl⟩

theorem saveMack_hk (s : St PK) (prn : Nat) : (saveMack s prn).hk = s.hk := rfl

theorem subframe1_fits (p : Prim PK) (s : St PK) (prn : Nat) :
    Post (subframe1 p s prn) (fun u => ∃ m b, SameStore s m ∧
      decodeHk p m (s.hk prn) = .ok (u, b)) := by
  unfold subframe1
  simp only [saveMack_hk]
  have hst := saveMack_store s prn
  generalize saveMack s prn = m at hst ⊢
  constructor
  intro t ht
  obtain ⟨⟨u, b⟩, h1, h2⟩ := Py.bind_ok.1 ht
  rw [Py.pure_ok] at h2
  subst h2
  exact ⟨m, b, hst, h1⟩

theorem subframe_fits (p : Prim PK) (s : St PK) (gw : Int) (prn : Nat) :
    Post (subframe p s gw prn) (fun r => ∃ m u b, SameStore s m ∧
      decodeHk p m (s.hk prn) = .ok (u, b) ∧ SameStore u r.1) := by
  unfold subframe
  refine Post.bind (Q := fun u : St PK => ∃ m b, SameStore s m ∧
      decodeHk p m (s.hk prn) = .ok (u, b)) (subframe1_fits p s prn) fun t1 h1 => ?_
  obtain ⟨m, b, hm, hd⟩ := h1
  · suffices hsuf : Post _ (fun r : St PK × Bool => SameStore t1 r.1) from
      hsuf.mono fun r hr => ⟨m, t1, b, hm, hd, hr⟩
    refine Post.bind (Q := fun t : St PK => SameStore t1 t)
      ((rootStage_cases p t1).mono ?_) fun t2 h2 => ?_
    · rintro t (rfl | ⟨rfl, _⟩) <;> exact ⟨rfl, rfl, rfl, rfl⟩
    · refine Post.ite (fun _ => Post.pure h2) fun _ => ?_
      refine Post.bind (Q := fun t : St PK => SameStore t1 t)
        ((decodeMack_eq t2 prn).mono ?_) fun t3 h3 => ?_
      · rintro t ⟨lt, lk, _, _, rfl⟩; exact h2
      · refine Post.bind (Q := fun t : St PK => SameStore t1 t)
          ((chainStage_cases p t3 gw).mono ?_) fun t4 h4 => ?_
        · rintro t (⟨rfl, _⟩ | rfl | ⟨rfl, _⟩) <;> exact h3
        · refine Post.ite (fun _ => Post.pure h4) fun _ => ?_
          refine (authStage_erase p t4 gw prn).mono ?_
          rintro r ⟨sf, he, _⟩
          have e1 := congrArg St.dsm he
          have e2 := congrArg St.flgDsm he
          have e3 := congrArg St.nb he
          have e4 := congrArg St.cid0 he
          exact SameStore.trans h4 ⟨e1, e2, e3, e4⟩

theorem saveGalInav_store (s : St PK) (w : BitBuf) (prn tow : Nat) :
    Post (saveGalInav s w prn tow) (fun t => SameStore s t) := by
  unfold saveGalInav
  refine Post.bind_any fun mt => ?_
  refine Post.bind (Q := fun t : St PK => SameStore s t) ?_ fun t ht => ?_
  · refine Post.ite (fun _ => ?_) fun _ => Post.pure ?_
    · refine Post.bind_any fun bp => ?_
      refine Post.bind_any fun bn => Post.pure ?_
      unfold SameStore
      dsimp only
      split <;> exact ⟨rfl, rfl, rfl, rfl⟩
    · unfold SameStore
      split <;> exact ⟨rfl, rfl, rfl, rfl⟩
  · refine Post.ite (fun _ => ?_) fun _ => Post.pure ht
    exact Post.bind_any fun bn => Post.pure ht

theorem storePage_hkLen {s t : St PK} {nma : BitBuf} {wn tow prn : Nat}
    (hl : ∀ q, (s.hk q).length = 120) (h : storePage s nma wn tow prn = .ok t) :
    ∀ q, (t.hk q).length = 120 := by
  have key : ∀ s1 : St PK, (∀ q, (s1.hk q).length = 120) → ∀ ki, C23.put s1 t nma ki prn →
      ∀ q, (t.hk q).length = 120 := by
    rintro s1 h1 ki ⟨b, hb, e, _, _⟩ q
    obtain ⟨hv, hlen, rfl⟩ := C23.setByte_ok hb
    rw [e]
    dsimp only
    split
    · rw [splice_length _ _ _ (by rw [List.length_take]; omega), h1]
    · exact h1 q
  rcases C23.storePage_eff h with ⟨_, hp⟩ | ⟨_, s1, m, _, hs1, hp⟩
  · exact key s hl _ hp
  · refine key s1 ?_ _ hp
    subst hs1
    intro q
    dsimp only
    split
    · exact List.length_replicate
    · exact hl q

/-- **every run of the decoder is such a history**: the block store of a decoder reached by any
sequence of calls is related to a specification state by `Hist`, so the theorems above apply to
every sub-frame it processes -/
theorem run_fits (p : Prim PK) (s0 : St PK) (h0 : ∀ q, (s0.hk q).length = 120) :
    ∀ h s, run p s0 h = .ok s → (∀ q, (s.hk q).length = 120) ∧ ∃ σ, Hist p s0 s σ := by
  refine run_induction p s0 (fun _ s => (∀ q, (s.hk q).length = 120) ∧ ∃ σ, Hist p s0 s σ)
    ⟨h0, _, .nil⟩ ?_
  rintro h s o t hr ⟨hl, σ, hH⟩ hs
  cases o with
  | page nma wn tow prn =>
    simp only [step] at hs
    obtain ⟨⟨u, r⟩, hd, hs⟩ := Py.bind_ok.1 hs
    rw [Py.pure_ok] at hs
    subst hs
    obtain ⟨t1, ht1, e1, _, _⟩ := C23.decode_pages p hd
    have hl1 := storePage_hkLen hl ht1
    refine ⟨by rw [e1]; exact hl1, ?_⟩
    have hH1 : Hist p s0 t1 σ := .other hH (storePage_store ht1)
    unfold decode at hd
    rw [ht1] at hd
    simp only [Py.okBind] at hd
    split at hd
    · obtain ⟨m, v, b, a1, a2, a3⟩ := (subframe_fits p t1 _ prn).out _ hd
      exact ⟨_, .other (.hk (hl1 prn) (.other hH1 a1) a2) a3⟩
    · rw [Py.pure_ok] at hd
      cases hd
      exact ⟨σ, hH1⟩
  | nav w prn tow =>
    refine ⟨?_, σ, .other hH ((saveGalInav_store s w prn tow).out t hs)⟩
    rw [((C23.saveGalInav_pages s w prn tow).out t hs).1]; exact hl
  | setPrn a =>
    simp only [step] at hs; rw [Py.pure_ok] at hs; subst hs
    exact ⟨hl, σ, .other hH ⟨rfl, rfl, rfl, rfl⟩⟩
  | setSlow b =>
    simp only [step] at hs; rw [Py.pure_ok] at hs; subst hs
    exact ⟨hl, σ, .other hH ⟨rfl, rfl, rfl, rfl⟩⟩
  | loadKey pk i =>
    simp only [step] at hs; rw [Py.pure_ok] at hs; subst hs
    exact ⟨hl, σ, .other hH ⟨rfl, rfl, rfl, rfl⟩⟩

/-- the default state is fresh -/
theorem fresh_default : Fresh ({} : St PK) := ⟨rfl, by show (-1 : Int) < 0; decide⟩

/-- an HKROOT message: operational, chain 1, nominal; identifier 3, block `k` -/
def demoHk (k : Nat) : BitBuf :=
  natToBits 8 0b10010010 ++ natToBits 4 3 ++ natToBits 4 k ++ natToBits 8 (if k = 0 then 0x12 else k) ++
    natToBits 96 (k * 77)

/-- seven blocks announced and received in mixed order with a repetition: complete with the last -/
def demoList : List Blk := ([5, 2, 0, 6, 2, 1, 3, 4].map demoHk).filterMap parse

example : Complete demoList := by
  refine ⟨⟨1, 3, 0, (demoHk 0).drop 16⟩, by decide +kernel, ?_⟩
  have ha : announced ⟨1, 3, 0, (demoHk 0).drop 16⟩ = 7 := by decide +kernel
  have hb : demoList.map (·.bid) = [5, 2, 0, 6, 2, 1, 3, 4] := by decide +kernel
  intro k
  rw [ha]
  have : (∃ x ∈ demoList, x.bid = k) ↔ k ∈ demoList.map (·.bid) := by simp
  rw [this, hb]
  simp
  omega

end Verif.C22
