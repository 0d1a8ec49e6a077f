import Verif.Lemmas.OsnmaMsg
/-! # C21: OSNMA counts only verified navigation data

The specification is `authMsg`, the message the OSNMA ICD prescribes for a tag, and the equations
between primitives (signature, hash, MAC) and received bits listed in `Genuine`, `KeyStep` and
`SigOk`.  Nothing is assumed about the primitives. -/

namespace Verif.C21
open Verif.Osnma
variable {PK : Type}

/-! ## specification -/

/-- data bits authenticated by a tag: 549 bits of ephemeris/clock/status, 141 bits of UTC -/
def dataBits (adkd : Nat) : Nat := if adkd = 4 then 141 else 549

/-- the message a tag authenticates: satellite(s), sub-frame time, tag counter, service status, data,
one bit of padding.  `prnD = 255` stands for the transmitting satellite itself. -/
def authMsg (a prnD adkd : Nat) (gst : BitBuf) (ctr nmas : Nat) (data : BitBuf) : BitBuf :=
  (if adkd = 0 ∧ a = prnD then natToBits 8 a
    else natToBits 8 (if prnD = 255 then a else prnD) ++ natToBits 8 a) ++
  gst ++ natToBits 8 ctr ++ natToBits 2 nmas ++ data ++ [false]

/-- one more authenticated tag for an entry -/
def bump (d : Dict (Nat × Int) Nat) (k : Nat × Int) : Dict (Nat × Int) Nat :=
  d.set k ((d.get? k).getD 0 + 1)

/-- the words 1..5 of a stored sub-frame (16 bytes each) without type, as authenticated -/
def inavBits (buff : BitBuf) : BitBuf :=
  (buff.drop 6).take 120 ++ (buff.drop 134).take 120 ++ (buff.drop 262).take 122 ++
    (buff.drop 390).take 120 ++ (buff.drop 518).take 67

/-- the MAC of the tag's message under the key of state `b`, cut to whole bytes, is the tag -/
def MacOk (p : Prim PK) (b : St PK) (a : Nat) (t : Tag) (msg : BitBuf) : Prop :=
  ∃ c lt, p.mac b.mf b.key (authMsg a t.prnD t.adkd t.gstSf t.cnt (b.nmaHeader / 64)
      (msg.take (dataBits t.adkd))) = .ok c ∧
    pyGetI tagLenT b.ts = .ok lt ∧ c.take (8 * (lt / 8)) = t.tag

/-- a tag of the sub-frame being processed -/
def Fast (p : Prim PK) (b : St PK) (a : Nat) (t : Tag) : Prop :=
  b.prnA = some a ∧ t.gstSf = b.gstSfP ∧ ∃ msg, t.navmsg = some msg ∧
    (t.adkd = 0 ∧ genInav b t.prnD = .ok (some msg) ∧ t.iodnav = bitsToNat (msg.take 10) ∨
     t.adkd = 4 ∧ genUtc b = .ok (some msg)) ∧ MacOk p b a t msg

/-- a delayed tag as stored -/
def Stored (t : Tag) : Prop :=
  t.adkd = 12 ∧ t.gstSf.length = 32 ∧ ∀ msg, t.navmsg = some msg →
    msg.length = 552 ∧ t.iodnav = bitsToNat (msg.take 10)

/-- a delayed tag verified ten sub-frames (300 s) after it was received -/
def Slow (p : Prim PK) (b : St PK) (a : Nat) (t : Tag) : Prop :=
  t.prnA = a ∧ difftime b.gstSfP t.gstSf = .ok 300 ∧ Stored t ∧ ∃ msg, t.navmsg = some msg ∧
    MacOk p b a t msg

def Genuine (p : Prim PK) (b : St PK) (a : Nat) (t : Tag) : Prop := Fast p b a t ∨ Slow p b a t

/-! ## the message the decoder builds -/

theorem writeU_ok {b b' : BitBuf} {i n v : Nat} (h : writeU b i n v = .ok b') : v < 2 ^ n := by
  unfold writeU at h
  split at h
  · assumption
  · cases h

/-- `gen_msg` builds exactly the prescribed message -/
theorem genMsg_eq (s : St PK) (a adkd prnD ctr n : Nat) (gst msg m : BitBuf) (ha : s.prnA = some a)
    (hg : gst.length = 32) (hm : msg.length = 8 * (n + 1)) (hn : 8 * n + 5 = dataBits adkd)
    (h : genMsg s adkd prnD gst ctr msg = .ok m) :
    m = authMsg a prnD adkd gst ctr (s.nmaHeader / 64) (msg.take (dataBits adkd)) := by
  unfold genMsg at h
  simp only [getPrnA, ha, Py.okBind] at h
  have hrem : dataBits adkd - dataBits adkd / 8 * 8 = 5 := by omega
  obtain ⟨⟨m0, j⟩, h0, h⟩ := Py.bind_ok.1 h
  obtain ⟨g, h1, h⟩ := Py.bind_ok.1 h
  obtain ⟨m1, h2, h⟩ := Py.bind_ok.1 h
  obtain ⟨m2, h3, h⟩ := Py.bind_ok.1 h
  obtain ⟨m3, h4, h⟩ := Py.bind_ok.1 h
  have key : ∀ d : BitBuf, m0 = d ++ List.replicate (dataBits adkd + 43) false → j = d.length →
      m = d ++ gst ++ natToBits 8 ctr ++ natToBits 2 (s.nmaHeader / 64) ++
        msg.take (dataBits adkd) ++ [false] := by
    intro d hd hj
    have e1 : natToBits 32 g = gst := by
      unfold readU at h1
      rw [if_pos (by omega)] at h1
      cases h1
      rw [List.drop_zero, List.take_of_length_le (by omega), ← hg]
      exact natToBits_bitsToNat gst
    rw [hd, fillU d _ _ 32 g hj (by omega) (writeU_ok h2)] at h2
    rw [e1] at h2
    cases h2
    rw [fillU _ _ _ 8 _ (by simp [hj, hg]) (by omega) (writeU_ok h3)] at h3
    cases h3
    rw [fillU _ _ _ 2 _ (by simp [hj, hg]) (by omega) (writeU_ok h4)] at h4
    cases h4
    have hlen : List.length msg / 8 = n + 1 := by omega
    change genLoop msg (dataBits adkd - dataBits adkd / 8 * 8) _ _ _ _ = _ at h
    rw [hrem, hlen, genLoop_eq msg 5 (by omega) (by omega) n 0 (j + 42) _ _ (by omega) (by omega)
      (by simp [hj, hg])] at h
    cases h
    rw [Nat.mul_zero, List.drop_zero, hn,
      show dataBits adkd + 43 - 32 - 8 - 2 - dataBits adkd = 1 by omega]
    rfl
  unfold authMsg
  change (if adkd = 0 ∧ a = prnD then _ else _) = _ at h0
  split at h0
  · rename_i hc
    rw [if_pos hc]
    obtain ⟨w, hw, h0⟩ := Py.bind_ok.1 h0
    rw [Py.pure_ok] at h0
    obtain ⟨rfl, rfl⟩ : w = m0 ∧ 8 = j := by simpa using h0
    refine key _ ?_ (by simp)
    change writeU ([] ++ List.replicate (8 * ((dataBits adkd + 8 + 42 + 7) / 8)) false) 0 8 a = _ at hw
    rw [fillU [] _ 0 8 a rfl (by omega) (writeU_ok hw)] at hw
    cases hw
    rw [List.nil_append]
    congr 2; omega
  · rename_i hc
    rw [if_neg hc]
    obtain ⟨w, hw, h0⟩ := Py.bind_ok.1 h0
    obtain ⟨w2, hw2, h0⟩ := Py.bind_ok.1 h0
    rw [Py.pure_ok] at h0
    obtain ⟨rfl, rfl⟩ : w2 = m0 ∧ 16 = j := by simpa using h0
    refine key _ ?_ (by simp)
    change writeU ([] ++ List.replicate (8 * ((dataBits adkd + 16 + 42 + 7) / 8)) false) 0 8 _ = _ at hw
    rw [fillU [] _ 0 8 _ rfl (by omega) (writeU_ok hw)] at hw
    cases hw
    rw [fillU _ _ 8 8 _ (by simp) (by omega) (writeU_ok hw2)] at hw2
    cases hw2
    rw [List.nil_append]
    congr 2; omega

theorem verify_mac (p : Prim PK) (s : St PK) (a n : Nat) (t : Tag) (msg : BitBuf)
    (ha : s.prnA = some a) (hg : t.gstSf.length = 32) (hm : t.navmsg = some msg)
    (hl : msg.length = 8 * (n + 1)) (hn : 8 * n + 5 = dataBits t.adkd)
    (h : verifyNavmsg p s t = .ok true) : MacOk p s a t msg := by
  unfold verifyNavmsg at h
  rw [hm] at h
  simp only at h
  split at h
  · rw [Py.pure_ok] at h; cases h
  · obtain ⟨m, h1, h⟩ := Py.bind_ok.1 h
    obtain ⟨c, h2, h⟩ := Py.bind_ok.1 h
    obtain ⟨lt, h3, h⟩ := Py.bind_ok.1 h
    rw [Py.pure_ok] at h
    have e := genMsg_eq s a t.adkd t.prnD t.cnt n t.gstSf msg m ha hg hl hn h1
    rw [e] at h2
    unfold processMac at h2
    split at h2
    · exact ⟨c, lt, h2, h3, of_decide_eq_true h⟩
    · cases h2

/-! ## navigation data -/

theorem typesOk_true {buff : BitBuf} : ∀ n k, typesOk buff n k = .ok true →
    ∀ i, k ≤ i → i < k + n → readU buff (i * 128) 6 = .ok (i + 1) := by
  intro n
  induction n with
  | zero => intro k _ i h1 h2; omega
  | succ n ih =>
    intro k h i h1 h2
    unfold typesOk at h
    obtain ⟨mt, hmt, h⟩ := Py.bind_ok.1 h
    split at h
    · rw [Py.pure_ok] at h; cases h
    · rename_i hne
      have e : mt = k + 1 := by omega
      rcases Nat.lt_or_ge k i with hlt | hge
      · exact ih (k + 1) h i (by omega) (by omega)
      · obtain rfl : i = k := by omega
        rw [hmt, e]

theorem iodOk_true {buff : BitBuf} {iod : Nat} : ∀ n k, iodOk buff iod n k = .ok true →
    ∀ i, k ≤ i → i < k + n → readU buff (6 + i * 128) 10 = .ok iod := by
  intro n
  induction n with
  | zero => intro k _ i h1 h2; omega
  | succ n ih =>
    intro k h i h1 h2
    unfold iodOk at h
    obtain ⟨mt, hmt, h⟩ := Py.bind_ok.1 h
    split at h
    · rw [Py.pure_ok] at h; cases h
    · rename_i hne
      have e : mt = iod := by omega
      rcases Nat.lt_or_ge k i with hlt | hge
      · exact ih (k + 1) h i (by omega) (by omega)
      · obtain rfl : i = k := by omega
        rw [hmt, e]

/-- **the ephemeris data of a tag** is exactly the content of words 1..5 of the stored sub-frame of
the satellite, which carry word types 1..5 and (1..4) one issue number -/
theorem genInav_spec (s : St PK) (prn : Nat) (m : BitBuf) (h : genInav s prn = .ok (some m)) :
    ∃ buff iod, s.subfrm.get? (Sat.prn2sat .gal prn) = some buff ∧ m.length = 552 ∧
      m.take 549 = inavBits buff ∧ 1 ≤ prn ∧ prn ≤ 36 ∧
      (∀ i, i < 5 → readU buff (i * 128) 6 = .ok (i + 1)) ∧
      (∀ i, i < 4 → readU buff (6 + i * 128) 10 = .ok iod) ∧ bitsToNat (m.take 10) = iod := by
  unfold genInav at h
  split at h
  · rw [Py.pure_ok] at h; cases h
  · rename_i hp
    split at h
    · rw [Py.pure_ok] at h; cases h
    · rename_i buff hb
      obtain ⟨t, ht, h⟩ := Py.bind_ok.1 h
      split at h
      · rw [Py.pure_ok] at h; cases h
      · rename_i htt
        obtain ⟨iod, hi, h⟩ := Py.bind_ok.1 h
        obtain ⟨i, hio, h⟩ := Py.bind_ok.1 h
        split at h
        · rw [Py.pure_ok] at h; cases h
        · rename_i hii
          obtain ⟨m', hm, h⟩ := Py.bind_ok.1 h
          rw [Py.pure_ok] at h
          cases h
          have htt' : t = true := by simpa using htt
          have hii' : i = true := by simpa using hii
          subst htt' hii'
          have hT := typesOk_true 5 0 ht
          have hI := iodOk_true 3 1 hio
          have hI' : ∀ i, i < 4 → readU buff (6 + i * 128) 10 = .ok iod := by
            intro i hi4
            rcases Nat.eq_zero_or_pos i with rfl | hpos
            · exact hi
            · exact hI i (by omega) (by omega)
          -- the copying loop
          simp only [navLoop] at hm
          obtain ⟨m1, h1, hm⟩ := Py.bind_ok.1 hm
          obtain ⟨m2, h2, hm⟩ := Py.bind_ok.1 hm
          obtain ⟨m3, h3, hm⟩ := Py.bind_ok.1 hm
          obtain ⟨m4, h4, hm⟩ := Py.bind_ok.1 hm
          obtain ⟨m5, h5, hm⟩ := Py.bind_ok.1 hm
          rw [Py.pure_ok] at hm
          subst hm
          have hlen : 585 ≤ buff.length := by
            by_contra hc
            have := C08.copyBuff_raises buff m4 (6 + (0 + 1 + 1 + 1 + 1) * 128)
              (0 + 120 + 120 + 122 + 120) 67 (by omega) (by omega)
            rw [this] at h5
            cases h5
          have l1 : ((buff.drop 6).take 120).length = 120 := by simp; omega
          have l2 : ((buff.drop 134).take 120).length = 120 := by simp; omega
          have l3 : ((buff.drop 262).take 122).length = 122 := by simp; omega
          have l4 : ((buff.drop 390).take 120).length = 120 := by simp; omega
          have l5 : ((buff.drop 518).take 67).length = 67 := by simp; omega
          have e1 := h1.symm.trans (fillCopy buff [] 552 6 0 120 rfl (by omega) (by omega))
          cases e1
          have e2 := h2.symm.trans (fillCopy buff ([] ++ (buff.drop 6).take 120) 432 134 120 120
            (by rw [List.nil_append, l1]) (by omega) (by omega))
          cases e2
          have e3 := h3.symm.trans (fillCopy buff _ 312 262 240 122
            (by rw [List.length_append, List.nil_append, l1, l2]) (by omega) (by omega))
          cases e3
          have e4 := h4.symm.trans (fillCopy buff _ 190 390 362 120
            (by rw [List.length_append, List.length_append, List.nil_append, l1, l2, l3])
            (by omega) (by omega))
          cases e4
          have e5 := h5.symm.trans (fillCopy buff _ 70 518 482 67
            (by rw [List.length_append, List.length_append, List.length_append, List.nil_append,
                  l1, l2, l3, l4]) (by omega) (by omega))
          cases e5
          refine ⟨buff, iod, hb, by simp; omega, ?_, by omega, by omega,
            fun i hi5 => hT i (by omega) (by omega), hI', ?_⟩
          · rw [List.take_left' (by simp; omega)]
            rfl
          · rw [List.take_append_of_le_length (by simp; omega), List.take_append_of_le_length (by simp; omega),
              List.take_append_of_le_length (by simp; omega), List.take_append_of_le_length (by simp; omega),
              List.take_append_of_le_length (by simp; omega), List.nil_append, List.take_take]
            unfold readU at hi
            rw [if_pos (by omega)] at hi
            cases hi
            rfl

theorem genUtc_len (s : St PK) (m : BitBuf) (h : genUtc s = .ok (some m)) : m.length = 144 := by
  unfold genUtc at h
  obtain ⟨a, ha, h⟩ := Py.bind_ok.1 h
  split at h
  · rw [Py.pure_ok] at h; cases h
  · rename_i buff hb
    obtain ⟨t1, h1, h⟩ := Py.bind_ok.1 h
    obtain ⟨t2, h2, h⟩ := Py.bind_ok.1 h
    split at h
    · rw [Py.pure_ok] at h; cases h
    · obtain ⟨m1, h3, h⟩ := Py.bind_ok.1 h
      obtain ⟨m2, h4, h⟩ := Py.bind_ok.1 h
      rw [Py.pure_ok] at h
      cases h
      have l1 : m1.length = 144 := by
        by_cases hc : 6 + 99 ≤ (slice buff 80 96).length
        · obtain ⟨out, e, hl, _⟩ := C08.copyBuff_bits (slice buff 80 96) (zeros 18) 6 0 99 hc
            (by unfold zeros; rw [List.length_replicate]; omega)
          have e2 := h3.symm.trans e
          cases e2
          rw [hl]; unfold zeros; rw [List.length_replicate]
        · have e := C08.copyBuff_raises (slice buff 80 96) (zeros 18) 6 0 99 (by omega) (by omega)
          have e2 := h3.symm.trans e
          cases e2
      by_cases hc : 86 + 42 ≤ (slice buff 144 160).length
      · obtain ⟨out, e, hl, _⟩ := C08.copyBuff_bits (slice buff 144 160) m1 86 99 42 hc (by omega)
        have e2 := h4.symm.trans e
        cases e2
        omega
      · have e := C08.copyBuff_raises (slice buff 144 160) m1 86 99 42 (by omega) (by omega)
        have e2 := h4.symm.trans e
        cases e2

/-! ## the tag stage -/

/-- the part of the state the tag stage works on -/
abbrev upd (b : St PK) (vs : Dict (Nat × Int) Nat) (tl : List Tag) (w : Bool) (a : Option Nat) : St PK :=
  { b with vstatus := vs, tagList := tl, utcVerified := w, prnA := a }

theorem saveAuthNav_upd (b : St PK) (vs : Dict (Nat × Int) Nat) (tl : List Tag) (w : Bool)
    (a : Option Nat) (r : Bool) (t : Tag) :
    (saveAuthNav (upd b vs tl w a) r t).1 = upd b (if r then bump vs (tagKey t) else vs) tl w a := by
  unfold saveAuthNav bump
  cases r with
  | false => rfl
  | true =>
    simp only [if_true]
    cases vs.get? (tagKey t) <;> rfl

theorem mkTag_eq {gst : BitBuf} {prnD prnA adkd cnt : Nat} {tag : BitBuf} {nav : Option BitBuf}
    {t : Tag} (h : mkTag gst prnD prnA adkd tag cnt nav = .ok t) :
    t.gstSf = gst ∧ t.prnD = prnD ∧ t.prnA = prnA ∧ t.adkd = adkd ∧ t.navmsg = nav ∧
      ∀ m, nav = some m → (adkd = 0 ∨ adkd = 12) → 10 ≤ m.length → t.iodnav = bitsToNat (m.take 10) := by
  unfold mkTag at h
  obtain ⟨iod, hi, h⟩ := Py.bind_ok.1 h
  rw [Py.pure_ok] at h
  subst h
  refine ⟨rfl, rfl, rfl, rfl, rfl, ?_⟩
  rintro m rfl ha hl
  simp only at hi
  rw [if_pos ha] at hi
  obtain ⟨i, h1, h2⟩ := Py.bind_ok.1 hi
  rw [Py.pure_ok] at h2
  subst h2
  unfold readU at h1
  rw [if_pos (by omega)] at h1
  cases h1
  rfl

/-- a delayed tag put on the list while processing state `b` -/
def New (b : St PK) (t : Tag) : Prop := Stored t ∧ genInav b t.prnD = .ok t.navmsg ∧ t.gstSf = b.gstSfP

theorem slowAppend_upd (b : St PK) (vs : Dict (Nat × Int) Nat) (tl : List Tag) (w : Bool)
    (a : Option Nat) (k : Nat) (tag : BitBuf) (prnD adkd : Nat) (hg : b.gstSfP.length = 32) :
    Post (slowAppend (upd b vs tl w a) k tag prnD adkd) (fun r => ∃ tl', r = upd b vs tl' w a ∧
      ∀ t ∈ tl', t ∈ tl ∨ New b t) := by
  unfold slowAppend
  refine Post.ite (fun hc => ?_) fun _ => Post.pure ⟨tl, rfl, fun t h => Or.inl h⟩
  refine Post.bind (Q := fun nav => genInav b prnD = .ok nav) ⟨fun _ h => h⟩ fun nav hnav => ?_
  refine Post.bind_any fun a' => ?_
  refine Post.bind (Q := fun t => mkTag b.gstSfP prnD a' adkd tag (k + 1) nav = .ok t)
    ⟨fun _ h => h⟩ fun t ht => ?_
  refine Post.pure ⟨tl ++ [t], rfl, fun x hx => ?_⟩
  rcases List.mem_append.1 hx with hx | hx
  · exact Or.inl hx
  · rw [List.mem_singleton] at hx
    subst hx
    obtain ⟨e1, e2, e3, e4, e5, e6⟩ := mkTag_eq ht
    refine Or.inr ⟨⟨e4.trans hc.2.1, by rw [e1, hg], ?_⟩, by rw [e2, e5]; exact hnav, e1⟩
    intro m hm
    rw [e5] at hm
    subst hm
    obtain ⟨_, _, _, hl, _⟩ := genInav_spec b prnD m hnav
    exact ⟨hl, e6 m rfl (Or.inr hc.2.1) (by omega)⟩

/-- what one step of the tag loop does to the counts and the list of delayed tags -/
theorem tagStep_upd (p : Prim PK) (b : St PK) (vs : Dict (Nat × Int) Nat) (tl : List Tag) (w : Bool)
    (st : Bool) (k : Nat) (hg : b.gstSfP.length = 32) :
    Post (tagStep p (upd b vs tl w b.prnA, st) k) (fun r => ∃ vs' tl' w',
      r.1 = upd b vs' tl' w' b.prnA ∧ (∀ t ∈ tl', t ∈ tl ∨ New b t) ∧
      (vs' = vs ∨ ∃ a t, vs' = bump vs (tagKey t) ∧ Fast p b a t)) := by
  unfold tagStep
  refine Post.bind_any fun x => ?_
  obtain ⟨tag, prnD, adkd⟩ := x
  refine Post.bind (slowAppend_upd b vs tl w b.prnA k tag prnD adkd hg) fun s1 h1 => ?_
  obtain ⟨tl', rfl, htl⟩ := h1
  refine Post.bind (Q := fun nav => tagNav b prnD adkd = .ok nav) ⟨fun _ h => h⟩ fun nav hnav => ?_
  cases nav with
  | none => exact Post.pure ⟨vs, tl', w, rfl, htl, Or.inl rfl⟩
  | some m =>
    refine Post.bind (Q := fun a => getPrnA b = .ok a) ⟨fun _ h => h⟩ fun a ha => ?_
    refine Post.bind (Q := fun t => mkTag b.gstSfP prnD a adkd tag (k + 1) (some m) = .ok t)
      ⟨fun _ h => h⟩ fun t ht => ?_
    refine Post.bind (Q := fun res => verifyNavmsg p b t = .ok res) ⟨fun _ h => h⟩ fun res hres => ?_
    have h2 := saveAuthNav_upd b vs tl' w b.prnA res t
    generalize saveAuthNav (upd b vs tl' w b.prnA) res t = x at h2 ⊢
    obtain ⟨s2, st2⟩ := x
    simp only at h2
    subst h2
    refine Post.pure ?_
    have hgoal : (if res = true then bump vs (tagKey t) else vs) = vs ∨
        ∃ a t', (if res = true then bump vs (tagKey t) else vs) = bump vs (tagKey t') ∧
          Fast p b a t' := by
      cases res with
      | false => exact Or.inl rfl
      | true =>
        refine Or.inr ⟨a, t, rfl, ?_⟩
        have hpa : b.prnA = some a := by
          unfold getPrnA at ha
          split at ha
          · rename_i e; cases ha; exact e
          · cases ha
        obtain ⟨e1, e2, e3, e4, e5, e6⟩ := mkTag_eq ht
        unfold tagNav at hnav
        split at hnav
        · rw [Py.pure_ok] at hnav; cases hnav
        · split at hnav
          · rename_i h0
            obtain ⟨buff, _, _, hl, _⟩ := genInav_spec b prnD m hnav
            refine ⟨hpa, e1, m, e5, Or.inl ⟨e4.trans h0, by rw [e2]; exact hnav,
              e6 m rfl (Or.inl h0) (by omega)⟩, ?_⟩
            exact verify_mac p b a 68 t m hpa (by rw [e1, hg]) e5 (by omega)
              (by rw [e4, h0]; rfl) hres
          · split at hnav
            · rename_i h4
              have hl := genUtc_len b m hnav
              refine ⟨hpa, e1, m, e5, Or.inr ⟨e4.trans h4, hnav⟩, ?_⟩
              exact verify_mac p b a 17 t m hpa (by rw [e1, hg]) e5 (by omega)
                (by rw [e4, h4]; rfl) hres
            · rw [Py.pure_ok] at hnav; cases hnav
    simp only
    split
    · exact ⟨_, tl', true, rfl, htl, hgoal⟩
    · exact ⟨_, tl', w, rfl, htl, hgoal⟩

/-- counts after accepting a list of tags -/
def count (vs : Dict (Nat × Int) Nat) (l : List (Nat × Tag)) : Dict (Nat × Int) Nat :=
  l.foldl (fun d e => bump d (tagKey e.2)) vs

theorem count_append (vs : Dict (Nat × Int) Nat) (l l2 : List (Nat × Tag)) :
    count vs (l ++ l2) = count (count vs l) l2 := List.foldl_append ..

theorem slowLoop_upd (p : Prim PK) (b : St PK) : ∀ (n : Nat) (l : List Tag)
    (vs : Dict (Nat × Int) Nat) (tl : List Tag) (w : Bool) (a : Option Nat) (st : Bool),
    l.length ≤ n → (∀ t ∈ l, Stored t) →
    Post (slowLoop p l (upd b vs tl w a) st) (fun r => ∃ ac a', r.1 = upd b (count vs ac) tl w a' ∧
      (∀ t ∈ r.2.2, t ∈ l) ∧ ∀ e ∈ ac, Slow p b e.1 e.2) := by
  intro n
  induction n with
  | zero =>
    intro l vs tl w a st hl _
    rw [List.length_eq_zero_iff.1 (by omega : l.length = 0)]
    exact Post.pure ⟨[], a, rfl, by simp, by simp⟩
  | succ n ih =>
    intro l vs tl w a st hl hst
    match l with
    | [] => exact Post.pure ⟨[], a, rfl, by simp, by simp⟩
    | t :: rest =>
      have hst' : ∀ x ∈ rest, Stored x := fun x hx => hst x (List.mem_cons_of_mem _ hx)
      unfold slowLoop
      refine Post.bind (Q := fun dt => difftime b.gstSfP t.gstSf = .ok dt) ⟨fun _ h => h⟩ fun dt hdt => ?_
      refine Post.ite (fun h300 => ?_) fun _ => ?_
      · refine Post.bind (Q := fun res => verifyNavmsg p (upd b vs tl w (some t.prnA)) t = .ok res)
          ⟨fun _ h => h⟩ fun res hres => ?_
        have h2 := saveAuthNav_upd b vs tl w (some t.prnA) res t
        change Post (do
          let (s, st, l) ← slowLoop p rest (saveAuthNav (upd b vs tl w (some t.prnA)) res t).1
            (saveAuthNav (upd b vs tl w (some t.prnA)) res t).2
          pure (s, st, t :: l)) _
        rw [h2]
        refine Post.bind (ih rest _ tl w _ _ (by simpa using hl) hst') fun r hr => ?_
        obtain ⟨s3, st3, l3⟩ := r
        obtain ⟨ac, a', e, hm, hac⟩ := hr
        simp only at e hm
        subst e
        refine Post.pure ?_
        cases res with
        | false =>
          exact ⟨ac, a', rfl, fun x hx => by
            rcases List.mem_cons.1 hx with rfl | hx
            · simp
            · exact List.mem_cons_of_mem _ (hm x hx), hac⟩
        | true =>
          refine ⟨(t.prnA, t) :: ac, a', rfl, fun x hx => by
            rcases List.mem_cons.1 hx with rfl | hx
            · simp
            · exact List.mem_cons_of_mem _ (hm x hx), ?_⟩
          intro e he
          rcases List.mem_cons.1 he with rfl | he
          · have hs := hst t (by simp)
            refine ⟨rfl, by rw [hdt, h300], hs, ?_⟩
            cases hmsg : t.navmsg with
            | none =>
              unfold verifyNavmsg at hres
              rw [hmsg] at hres
              simp only at hres
              rw [Py.pure_ok] at hres; cases hres
            | some m =>
              have hl' := (hs.2.2 m hmsg).1
              refine ⟨m, rfl, ?_⟩
              have := verify_mac p (upd b vs tl w (some t.prnA)) t.prnA 68 t m rfl hs.2.1 hmsg
                (by omega) (by rw [hs.1]; rfl) hres
              exact this
          · exact hac e he
      · refine Post.ite (fun _ => ?_) fun _ => ?_
        · match rest with
          | [] => exact Post.pure ⟨[], a, rfl, by simp, by simp⟩
          | y :: rest' =>
            refine Post.bind (ih rest' vs tl w a st (by simp at hl ⊢; omega)
              fun x hx => hst' x (List.mem_cons_of_mem _ hx)) fun r hr => ?_
            obtain ⟨s3, st3, l3⟩ := r
            obtain ⟨ac, a', e, hm, hac⟩ := hr
            exact Post.pure ⟨ac, a', e, fun x hx => by
              rcases List.mem_cons.1 hx with rfl | hx
              · simp
              · exact List.mem_cons_of_mem _ (List.mem_cons_of_mem _ (hm x hx)), hac⟩
        · refine Post.bind (ih rest vs tl w a st (by simpa using hl) hst') fun r hr => ?_
          obtain ⟨s3, st3, l3⟩ := r
          obtain ⟨ac, a', e, hm, hac⟩ := hr
          exact Post.pure ⟨ac, a', e, fun x hx => by
            rcases List.mem_cons.1 hx with rfl | hx
            · simp
            · exact List.mem_cons_of_mem _ (hm x hx), hac⟩

theorem tagStage_counts (p : Prim PK) (b : St PK) (prn : Nat) (hg : b.gstSfP.length = 32)
    (hst : ∀ t ∈ b.tagList, Stored t) :
    Post (tagStage p b prn) (fun r => ∃ ac, r.1.vstatus = count b.vstatus ac ∧
      (∀ t ∈ r.1.tagList, t ∈ b.tagList ∨ New b t) ∧ ∀ e ∈ ac, Genuine p b e.1 e.2) := by
  unfold tagStage
  refine Post.bind (Q := fun r : St PK × Bool => ∃ ac tl w, r.1 = upd b (count b.vstatus ac) tl w b.prnA ∧
      (∀ t ∈ tl, t ∈ b.tagList ∨ New b t) ∧ ∀ e ∈ ac, Genuine p b e.1 e.2) ?_ fun r hr => ?_
  · refine Post.foldlM (I := fun r : St PK × Bool => ∃ ac tl w,
      r.1 = upd b (count b.vstatus ac) tl w b.prnA ∧
      (∀ t ∈ tl, t ∈ b.tagList ∨ New b t) ∧ ∀ e ∈ ac, Genuine p b e.1 e.2) ?_
      ⟨[], b.tagList, b.utcVerified, rfl, fun t h => Or.inl h, by simp⟩
    rintro ⟨s, st⟩ k _ ⟨ac, tl, w, e, htl, hac⟩
    simp only at e
    subst e
    refine (tagStep_upd p b (count b.vstatus ac) tl w st k hg).mono ?_
    rintro r ⟨vs', tl', w', e, htl', hv⟩
    have htl2 : ∀ t ∈ tl', t ∈ b.tagList ∨ New b t := by
      intro t ht
      rcases htl' t ht with h | h
      · exact htl t h
      · exact Or.inr h
    rcases hv with rfl | ⟨a, t, rfl, hf⟩
    · exact ⟨ac, tl', w', e, htl2, hac⟩
    · refine ⟨ac ++ [(a, t)], tl', w', by rw [e, count_append]; rfl, htl2, ?_⟩
      intro x hx
      rcases List.mem_append.1 hx with hx | hx
      · exact hac x hx
      · rw [List.mem_singleton] at hx
        subst hx
        exact Or.inl hf
  · obtain ⟨s1, st⟩ := r
    obtain ⟨ac, tl, w, e, htl, hac⟩ := hr
    simp only at e
    subst e
    refine Post.bind (Q := fun r : St PK × Bool => ∃ ac, r.1.vstatus = count b.vstatus ac ∧
      (∀ t ∈ r.1.tagList, t ∈ b.tagList ∨ New b t) ∧ ∀ e ∈ ac, Genuine p b e.1 e.2) ?_ fun r hr => ?_
    · refine Post.ite (fun _ => ?_) fun _ => Post.pure ⟨ac, rfl, htl, hac⟩
      refine Post.bind (slowLoop_upd p b tl.length tl (count b.vstatus ac) tl w b.prnA st
        (Nat.le_refl _) ?_) fun r3 hr3 => ?_
      · intro t ht
        rcases htl t ht with h | h
        · exact hst t h
        · exact h.1
      · obtain ⟨s3, st3, l3⟩ := r3
        obtain ⟨ac2, a', e, hm, hac2⟩ := hr3
        simp only at e hm
        subst e
        refine Post.pure ⟨ac ++ ac2, by rw [count_append], fun t ht => htl t (hm t ht), ?_⟩
        intro x hx
        rcases List.mem_append.1 hx with hx | hx
        · exact hac x hx
        · exact Or.inr (hac2 x hx)
    · obtain ⟨s2, st2⟩ := r
      exact Post.pure hr

/-! ## one call of `decode` -/

/-- the stages of a processed sub-frame up to the key chain check -/
structure Stages (p : Prim PK) (s : St PK) (nma : BitBuf) (wn tow prn : Nat) (t1 t2 t3 : St PK) :
    Prop where
  page : ∃ t0, storePage s nma wn tow prn = .ok t0 ∧ t0.cnt prn = 0x7fff ∧ subframe1 p t0 prn = .ok t1
  root : rootStage p t1 = .ok t2
  mack : decodeMack t2 prn = .ok t3

/-- all checks before the tags have passed; `b` is the state the tags are verified in -/
structure Ready (p : Prim PK) (s : St PK) (nma : BitBuf) (wn tow prn : Nat) (b : St PK) : Prop where
  stages : ∃ t1 t2 t3 t4, Stages p s nma wn tow prn t1 t2 t3 ∧
    chainStage p t3 (gstOf wn tow).1 = .ok t4 ∧
    ∃ sf, setGstSf (gstOf wn tow).1 (t4.gstTow - 30) = .ok sf ∧ b = { t4 with gstSfP := sf }
  chain : b.chainVerified = true
  maclt : verifyMaclt b = .ok true
  macseq : verifyMacseq p b = .ok true

theorem setGstSf_length {w t : Int} {sf : BitBuf} (h : setGstSf w t = .ok sf) : sf.length = 32 := by
  unfold setGstSf packGst at h
  split at h
  · cases h; simp
  · cases h

/-- the tag length is not zero: the table of tag sequences has no entry with that many tags -/
theorem tag_not_empty {b : St PK} (h : verifyMaclt b = .ok true)
    (hn : ∃ lt lk, pyGetI tagLenT b.ts = .ok lt ∧ pyGetI klenT b.ks = .ok lk ∧
      b.nt = (480 - lk) / (lt + 16)) : ∃ lt, pyGetI tagLenT b.ts = .ok lt ∧ 20 ≤ lt := by
  obtain ⟨lt, lk, h1, h2, h3⟩ := hn
  refine ⟨lt, h1, ?_⟩
  by_contra hc
  have hlt : lt = 0 := by
    have : ∀ x ∈ tagLenT, ¬ 20 ≤ x → x = 0 := by decide
    exact this lt (pyGetI_mem h1) hc
  have hlk : lk ≤ 256 := by
    have : ∀ x ∈ klenT, x ≤ 256 := by decide
    exact this lk (pyGetI_mem h2)
  subst hlt
  unfold verifyMaclt at h
  split at h
  · rw [Py.pure_ok] at h; cases h
  · rename_i mode hm
    obtain ⟨l, hl, h⟩ := Py.bind_ok.1 h
    have hall : ∀ e ∈ adkdT, e.2.length ≤ 20 := by decide
    have hle : l.length ≤ 20 := by
      rw [Dict.getItem_ok_iff] at hl
      exact hall _ (dict_mem hl)
    rw [if_pos] at h
    · rw [Py.pure_ok] at h; cases h
    · rw [h3]
      omega

theorem subframe_inv (p : Prim PK) {s : St PK} {gw : Int} {prn : Nat} {r : St PK × Bool}
    (h : subframe p s gw prn = .ok r) : ∃ t1 t2, subframe1 p s prn = .ok t1 ∧ rootStage p t1 = .ok t2 ∧
      (r = (t2, false) ∨ ∃ t3 t4, decodeMack t2 prn = .ok t3 ∧ chainStage p t3 gw = .ok t4 ∧
        (r = (t4, false) ∨ t4.chainVerified = true ∧ authStage p t4 gw prn = .ok r)) := by
  unfold subframe at h
  obtain ⟨t1, h1, h⟩ := Py.bind_ok.1 h
  obtain ⟨t2, h2, h⟩ := Py.bind_ok.1 h
  refine ⟨t1, t2, h1, h2, ?_⟩
  split at h
  · rw [Py.pure_ok] at h; exact Or.inl h.symm
  · obtain ⟨t3, h3, h⟩ := Py.bind_ok.1 h
    obtain ⟨t4, h4, h⟩ := Py.bind_ok.1 h
    refine Or.inr ⟨t3, t4, h3, h4, ?_⟩
    split at h
    · rw [Py.pure_ok] at h; exact Or.inl h.symm
    · rename_i hc
      exact Or.inr ⟨by simpa using hc, h⟩

theorem decode_inv (p : Prim PK) {s u : St PK} {nma : BitBuf} {wn tow prn : Nat} {r : Bool}
    (h : decode p s nma wn tow prn = .ok (u, r)) : ∃ t0, storePage s nma wn tow prn = .ok t0 ∧
      (u = t0 ∨ t0.cnt prn = 0x7fff ∧ subframe p t0 (gstOf wn tow).1 prn = .ok (u, r)) := by
  unfold decode at h
  obtain ⟨t0, h0, h⟩ := Py.bind_ok.1 h
  refine ⟨t0, h0, ?_⟩
  split at h
  · rename_i hc; exact Or.inr ⟨hc, h⟩
  · rw [Py.pure_ok] at h; cases h; exact Or.inl rfl

/-- fields untouched by the storing of a page -/
def erasePage (s : St PK) : St PK :=
  { s with gstTow := 0, gstSf := [], hk := fun _ => [], mack := fun _ => [], cnt := fun _ => 0 }

theorem storePage_erase {s t : St PK} {nma : BitBuf} {wn tow prn : Nat}
    (h : storePage s nma wn tow prn = .ok t) : erasePage t = erasePage s := by
  unfold storePage at h
  split at h
  · rw [Py.throw_ok] at h; exact h.elim
  · obtain ⟨s1, h1, h⟩ := Py.bind_ok.1 h
    obtain ⟨sf, hsf, h⟩ := Py.bind_ok.1 h
    obtain ⟨hb, hhb, h⟩ := Py.bind_ok.1 h
    rw [Py.pure_ok] at h
    split at h1
    · obtain ⟨m, hm, h1⟩ := Py.bind_ok.1 h1
      rw [Py.pure_ok] at h1
      subst h1 h
      rfl
    · rw [Py.pure_ok] at h1
      subst h1 h
      rfl

theorem subframe1_erase (p : Prim PK) {s t : St PK} {prn : Nat} (h : subframe1 p s prn = .ok t) :
    eraseHk t = eraseHk (saveMack s prn) := by
  unfold subframe1 at h
  obtain ⟨⟨u, b⟩, h1, h⟩ := Py.bind_ok.1 h
  rw [Py.pure_ok] at h
  subst h
  exact (decodeHk_erase p (saveMack s prn) _).out _ h1

/-- what is kept by every stage before the tags -/
structure Kept (s t : St PK) : Prop where
  vs : t.vstatus = s.vstatus
  tl : t.tagList = s.tagList
  sub : t.subfrm = s.subfrm
  prnA : t.prnA = s.prnA
  mt : t.rootMt = s.rootMt
  vm : t.vcntMin = s.vcntMin

theorem Kept.rfl' (s : St PK) : Kept s s := ⟨rfl, rfl, rfl, rfl, rfl, rfl⟩

theorem Kept.trans {s t u : St PK} (h : Kept s t) (h2 : Kept t u) : Kept s u :=
  ⟨h2.1.trans h.1, h2.2.trans h.2, h2.3.trans h.3, h2.4.trans h.4, h2.5.trans h.5, h2.6.trans h.6⟩

theorem page_kept {s t : St PK} {nma : BitBuf} {wn tow prn : Nat}
    (h : storePage s nma wn tow prn = .ok t) : Kept s t := by
  have e := storePage_erase h
  have e1 := congrArg St.vstatus e
  have e2 := congrArg St.tagList e
  have e3 := congrArg St.subfrm e
  have e4 := congrArg St.prnA e
  have e5 := congrArg St.rootMt e
  have e6 := congrArg St.vcntMin e
  exact ⟨e1, e2, e3, e4, e5, e6⟩

theorem hk_kept (p : Prim PK) {s t : St PK} {prn : Nat} (h : subframe1 p s prn = .ok t) : Kept s t := by
  have e := subframe1_erase p h
  have e1 := congrArg St.vstatus e
  have e2 := congrArg St.tagList e
  have e3 := congrArg St.subfrm e
  have e4 := congrArg St.prnA e
  have e5 := congrArg St.rootMt e
  have e6 := congrArg St.vcntMin e
  exact ⟨e1, e2, e3, e4, e5, e6⟩

theorem root_kept (p : Prim PK) {s t : St PK} (h : rootStage p s = .ok t) : Kept s t := by
  rcases (rootStage_cases p s).out t h with rfl | ⟨rfl, _⟩
  · exact Kept.rfl' t
  · exact ⟨rfl, rfl, rfl, rfl, rfl, rfl⟩

theorem mack_kept {s t : St PK} {prn : Nat} (h : decodeMack s prn = .ok t) : Kept s t := by
  obtain ⟨lt, lk, _, _, rfl⟩ := (decodeMack_eq s prn).out t h
  exact ⟨rfl, rfl, rfl, rfl, rfl, rfl⟩

theorem chain_kept (p : Prim PK) {s t : St PK} {gw : Int} (h : chainStage p s gw = .ok t) : Kept s t := by
  rcases (chainStage_cases p s gw).out t h with ⟨rfl, _⟩ | rfl | ⟨rfl, _⟩
  · exact Kept.rfl' t
  · exact ⟨rfl, rfl, rfl, rfl, rfl, rfl⟩
  · exact ⟨rfl, rfl, rfl, rfl, rfl, rfl⟩

theorem New.congr {b s : St PK} (hs : b.subfrm = s.subfrm) {t : Tag} (h : New b t) :
    genInav s t.prnD = .ok t.navmsg := by
  rw [← h.2.1]
  unfold genInav
  rw [hs]

/-- **one call**: the counts change only by one for each of a list of tags, and if there is one,
the fifteen pages were complete, the key chain, the tag sequence and the MACSEQ checks have passed
in this call, and every counted tag is genuine: it equals the MAC of the prescribed message over the
stored navigation data under the current key, and it is at least two bytes long -/
theorem decode_counts (p : Prim PK) (s u : St PK) (nma : BitBuf) (wn tow prn : Nat) (r : Bool)
    (hst : ∀ t ∈ s.tagList, Stored t) (h : decode p s nma wn tow prn = .ok (u, r)) :
    (∃ ac : List (Nat × Tag), u.vstatus = count s.vstatus ac ∧
      (ac ≠ [] → ∃ b, Ready p s nma wn tow prn b ∧ Kept s b ∧ eraseTag u = eraseTag b ∧
        (∃ lt, pyGetI tagLenT b.ts = .ok lt ∧ 20 ≤ lt) ∧
        ∀ e ∈ ac, Genuine p b e.1 e.2)) ∧
    (∀ t ∈ u.tagList, t ∈ s.tagList ∨ Stored t ∧ genInav s t.prnD = .ok t.navmsg) ∧
    u.vcntMin = s.vcntMin := by
  obtain ⟨t0, h0, hu | ⟨hc, h⟩⟩ := decode_inv p h
  · subst hu
    have k0 := page_kept h0
    exact ⟨⟨[], k0.vs, fun h => (h rfl).elim⟩, fun t ht => Or.inl (k0.tl ▸ ht), k0.vm⟩
  · have k0 := page_kept h0
    obtain ⟨t1, t2, h1, h2, hr | ⟨t3, t4, h3, h4, hr | ⟨hcv, ha⟩⟩⟩ := subframe_inv p h
    · have k := (k0.trans (hk_kept p h1)).trans (root_kept p h2)
      cases hr
      exact ⟨⟨[], k.vs, fun h => (h rfl).elim⟩, fun t ht => Or.inl (k.tl ▸ ht), k.vm⟩
    · have k := (((k0.trans (hk_kept p h1)).trans (root_kept p h2)).trans (mack_kept h3)).trans
        (chain_kept p h4)
      cases hr
      exact ⟨⟨[], k.vs, fun h => (h rfl).elim⟩, fun t ht => Or.inl (k.tl ▸ ht), k.vm⟩
    · have k := (((k0.trans (hk_kept p h1)).trans (root_kept p h2)).trans (mack_kept h3)).trans
        (chain_kept p h4)
      unfold authStage at ha
      obtain ⟨sf, hsf, ha⟩ := Py.bind_ok.1 ha
      have kb : Kept s { t4 with gstSfP := sf } := k.trans ⟨rfl, rfl, rfl, rfl, rfl, rfl⟩
      obtain ⟨r1, hr1, ha⟩ := Py.bind_ok.1 ha
      split at ha
      · rw [Py.pure_ok] at ha
        cases ha
        exact ⟨⟨[], k.vs, fun h => (h rfl).elim⟩, fun t ht => Or.inl (k.tl ▸ ht), k.vm⟩
      · rename_i hc1
        obtain ⟨r2, hr2, ha⟩ := Py.bind_ok.1 ha
        split at ha
        · rw [Py.pure_ok] at ha
          cases ha
          exact ⟨⟨[], k.vs, fun h => (h rfl).elim⟩, fun t ht => Or.inl (k.tl ▸ ht), k.vm⟩
        · rename_i hc2
          have e1 : r1 = true := by simpa using hc1
          have e2 : r2 = true := by simpa using hc2
          subst e1 e2
          obtain ⟨ac, hv, htl, hac⟩ := (tagStage_counts p { t4 with gstSfP := sf } prn
            (setGstSf_length hsf) (by rw [kb.tl]; exact hst)).out _ ha
          have he := ((tagStage_erase p { t4 with gstSfP := sf } prn).out _ ha).1
          have hvm := congrArg St.vcntMin he
          refine ⟨⟨ac, by rw [hv, kb.vs], fun _ => ⟨_, ⟨⟨t1, t2, t3, t4,
            ⟨⟨t0, h0, hc, h1⟩, h2, h3⟩, h4, sf, hsf, rfl⟩, hcv, hr1, hr2⟩, kb, he, ?_, hac⟩⟩, ?_,
            Eq.trans hvm kb.vm⟩
          · refine tag_not_empty hr1 ?_
            obtain ⟨lt, lk, g1, g2, e3⟩ := (decodeMack_eq t2 prn).out t3 h3
            have hts : t4.ts = t2.ts ∧ t4.ks = t2.ks ∧ t4.nt = (480 - lk) / (lt + 16) := by
              rcases (chainStage_cases p t3 _).out t4 h4 with ⟨rfl, _⟩ | rfl | ⟨rfl, _⟩ <;>
                rw [e3] <;> exact ⟨rfl, rfl, rfl⟩
            exact ⟨lt, lk, by rw [hts.1]; exact g1, by rw [hts.2.1]; exact g2, hts.2.2⟩
          · intro t ht
            rcases htl t ht with hh | hh
            · exact Or.inl (kb.tl ▸ hh)
            · exact Or.inr ⟨hh.1, New.congr kb.sub hh⟩

/-! ## evidence collected over a history -/

/-- climbing the Merkle tree -/
def climb (hash : BitBuf → BitBuf) : List BitBuf → Nat → BitBuf → BitBuf
  | [], _, x => x
  | n :: ns, mid, x => climb hash ns (mid / 2) (hash (if mid % 2 = 0 then x ++ n else n ++ x))

/-- a received public key whose leaf leads to the root of the Merkle tree -/
def MerkleOk (p : Prim PK) (root : Option BitBuf) (pk : PK) : Prop :=
  ∃ (hf : Int) (nodes : List BitBuf) (mid typ hd : Nat) (npk : BitBuf), nodes.length = 4 ∧
    root = some (climb (p.hash hf) nodes mid (p.hash hf (natToBits 8 hd ++ npk))) ∧
    p.point typ npk = .ok pk

/-- the signature of the root key message verifies with a public key held -/
def SigOk (p : Prim PK) (t : St PK) : Prop :=
  ∃ lk d pk, pyGetI klenT t.ks = .ok lk ∧ t.dsm.get? t.did0 = some d ∧
    t.pkList.get? t.pkid = some (some pk) ∧
    p.sig pk t.ds (natToBits 8 t.nmaHeader ++ (d.drop 8).take (8 * (12 + lk / 8))) t.hf = .ok true

/-- the key of the sub-frame is linked by the hash to the root key held, or, once a chain has been
established, to the key the same satellite sent in the sub-frame before -/
def KeyStep (p : Prim PK) (t : St PK) (gw : Int) (key : BitBuf) : Prop :=
  t.rootVerified = true ∧ key = t.keyC ∧
  (updateKeyChain p t key gw t.gstTow (stepsToRoot t gw) = .ok t.kroot ∨
   t.chainVerified = true ∧ updateKeyChain p t key gw t.gstTow 1 = .ok t.keyP)

/-- some call of the history satisfied `P` in the state it was made in -/
def Once (p : Prim PK) (s0 : St PK) (h : List (Op PK))
    (P : St PK → BitBuf → Nat → Nat → Nat → Prop) : Prop :=
  ∃ h1 h2 s1 nma wn tow prn, h = h1 ++ (.page nma wn tow prn :: h2) ∧ run p s0 h1 = .ok s1 ∧
    P s1 nma wn tow prn

theorem Once.mono {p : Prim PK} {s0 : St PK} {h : List (Op PK)}
    {P : St PK → BitBuf → Nat → Nat → Nat → Prop} (o : Op PK) (hh : Once p s0 h P) :
    Once p s0 (h ++ [o]) P := by
  obtain ⟨h1, h2, s1, nma, wn, tow, prn, rfl, hr, hP⟩ := hh
  exact ⟨h1, h2 ++ [o], s1, nma, wn, tow, prn, by simp, hr, hP⟩

def SigCall (p : Prim PK) (s : St PK) (nma : BitBuf) (wn tow prn : Nat) : Prop :=
  ∃ t0 t1, storePage s nma wn tow prn = .ok t0 ∧ subframe1 p t0 prn = .ok t1 ∧ SigOk p t1

def KeyCall (p : Prim PK) (key : BitBuf) (s : St PK) (nma : BitBuf) (wn tow prn : Nat) : Prop :=
  ∃ t1 t2 t3, Stages p s nma wn tow prn t1 t2 t3 ∧ KeyStep p t3 (gstOf wn tow).1 key

structure Inv (p : Prim PK) (s0 : St PK) (h : List (Op PK)) (s : St PK) : Prop where
  tags : ∀ t ∈ s.tagList, Stored t ∧ ∃ h1 h2 s1, h = h1 ++ h2 ∧ run p s0 h1 = .ok s1 ∧
    genInav s1 t.prnD = .ok t.navmsg
  root : s.rootVerified = true → Once p s0 h (SigCall p)
  chain : s.chainVerified = true → s.rootVerified = true ∧ Once p s0 h (KeyCall p s.key)
  keys : ∀ id pk, s.pkList.get? id = some (some pk) → s0.pkList.get? id = some (some pk) ∨
    (∃ i, Op.loadKey pk i ∈ h) ∨ MerkleOk p s0.rootMt pk
  mt : s.rootMt = s0.rootMt

/-- a decoder as constructed: nothing verified, no delayed tags -/
structure Fresh (s : St PK) : Prop where
  root : s.rootVerified = false
  chain : s.chainVerified = false
  tags : s.tagList = []

/-! ### public keys -/

theorem processHash_ok {p : Prim PK} {s : St PK} {m h : BitBuf} (e : processHash p s m = .ok h) :
    h = p.hash s.hf m := by
  unfold processHash at e
  split at e
  · cases e; rfl
  · cases e

theorem merkle_climb (p : Prim PK) (s : St PK) (itn : BitBuf) : ∀ (n k mid : Nat) (x y : BitBuf),
    merkle p s itn n k mid x = .ok y →
    y = climb (p.hash s.hf) ((List.range' k n).map fun k => slice itn (k * 32) ((k + 1) * 32)) mid x := by
  intro n
  induction n with
  | zero =>
    intro k mid x y h
    unfold merkle at h
    rw [Py.pure_ok] at h
    exact h.symm
  | succ n ih =>
    intro k mid x y h
    unfold merkle at h
    obtain ⟨z, hz, h⟩ := Py.bind_ok.1 h
    have e := processHash_ok hz
    subst e
    exact ih _ _ _ _ h

theorem decodeDsmPkr_keys (p : Prim PK) (s : St PK) (did : Nat) :
    Post (decodeDsmPkr p s did) (fun r => ∀ id pk, r.1.pkList.get? id = some (some pk) →
      s.pkList.get? id = some (some pk) ∨ MerkleOk p s.rootMt pk) := by
  unfold decodeDsmPkr
  refine Post.bind_any fun d => ?_
  refine Post.bind_any fun nb => ?_
  refine Post.bind_any fun mid => ?_
  refine Post.ite (fun _ => Post.pure fun _ _ h => Or.inl h) fun _ => ?_
  refine Post.bind_any fun npkt => ?_
  refine Post.bind_any fun npkid => ?_
  refine Post.ite (fun _ => Post.pure fun _ _ h => Or.inl h) fun _ => ?_
  refine Post.bind_any fun lnpk => ?_
  refine Post.ite (fun _ => Post.pure fun _ _ h => Or.inl h) fun _ => ?_
  refine Post.bind_any fun m0 => ?_
  refine Post.bind_any fun ok => ?_
  refine Post.ite (fun _ => Post.pure fun _ _ h => Or.inl h) fun _ => ?_
  refine Post.bind (Q := fun x => x = p.hash s.hf (natToBits 8 m0 ++ slice d 130 (130 + lnpk / 8)))
    ⟨fun _ h => processHash_ok h⟩ fun x hx => ?_
  refine Post.bind (Q := fun y => y = climb (p.hash s.hf)
      ((List.range' 0 4).map fun k => slice (slice d 1 129) (k * 32) ((k + 1) * 32)) mid x)
    ⟨fun _ h => merkle_climb p s _ _ _ _ _ _ h⟩ fun y hy => ?_
  refine Post.ite (fun _ => Post.pure fun _ _ h => Or.inl h) fun hroot => ?_
  refine Post.bind (Q := fun k : Option PK => ∀ pk, k = some pk →
    p.point npkt (slice d 130 (130 + lnpk / 8)) = .ok pk) ?_ fun k hk => ?_
  · refine Post.ite (fun _ => ?_) fun _ => Post.pure fun pk h => by cases h
    refine Post.bind (Q := fun k => p.point npkt (slice d 130 (130 + lnpk / 8)) = .ok k)
      ⟨fun _ h => h⟩ fun k hk => Post.pure fun pk h => ?_
    cases h; exact hk
  · refine Post.pure fun id pk h => ?_
    simp only at h
    rw [Dict.get?_set] at h
    split at h
    · cases h
      refine Or.inr ⟨s.hf, (List.range' 0 4).map fun k => slice (slice d 1 129) (k * 32) ((k + 1) * 32),
        mid, npkt, m0, slice d 130 (130 + lnpk / 8), ?_, ?_, hk pk rfl⟩
      · simp
      · rw [← hx, ← hy]
        exact (not_not.1 hroot).symm
    · exact Or.inl h

theorem decodeDsmKroot_keys (p : Prim PK) (s : St PK) (did : Nat) :
    Post (decodeDsmKroot p s did) (fun r => r.1.pkList = s.pkList) := by
  unfold decodeDsmKroot
  refine Post.bind_any fun d => ?_
  refine Post.bind_any fun nb => ?_
  refine Post.bind_any fun pkid => ?_
  refine Post.bind_any fun hf => ?_
  refine Post.bind_any fun mf => ?_
  refine Post.bind_any fun ks => ?_
  refine Post.bind_any fun ts => ?_
  refine Post.bind_any fun maclt => ?_
  refine Post.bind_any fun wn => ?_
  refine Post.bind_any fun towh => ?_
  refine Post.bind_any fun lk => ?_
  refine Post.ite (fun _ => Post.pure rfl) fun _ => ?_
  refine Post.bind_any fun r => ?_
  exact Post.ite (fun _ => Post.pure rfl) fun _ => Post.pure rfl

theorem hkStore_keys (s : St PK) (hk : BitBuf) :
    Post (hkStore s hk) (fun r => r.1.pkList = s.pkList ∧ r.1.rootMt = s.rootMt) := by
  unfold hkStore
  refine Post.bind_any fun h0 => ?_
  refine Post.bind_any fun nmas => ?_
  refine Post.bind_any fun cid => ?_
  refine Post.bind_any fun cpks => ?_
  refine Post.bind_any fun did => ?_
  refine Post.bind_any fun bid => ?_
  refine Post.ite (fun _ => Post.pure ⟨rfl, rfl⟩) fun _ => ?_
  refine Post.ite (fun _ => Post.pure ⟨rfl, rfl⟩) fun _ => ?_
  have e : (hkChain (hkInit { s with nmaHeader := h0 } did) cid did).pkList = s.pkList ∧
      (hkChain (hkInit { s with nmaHeader := h0 } did) cid did).rootMt = s.rootMt := by
    have : ∀ s : St PK, (hkInit s did).pkList = s.pkList ∧ (hkInit s did).rootMt = s.rootMt := by
      intro s; unfold hkInit; split <;> exact ⟨rfl, rfl⟩
    have h2 : ∀ s : St PK, (hkChain s cid did).pkList = s.pkList ∧ (hkChain s cid did).rootMt = s.rootMt := by
      intro s; unfold hkChain; dsimp only
      split
      · split <;> exact ⟨rfl, rfl⟩
      · split <;> exact ⟨rfl, rfl⟩
    exact ⟨(h2 _).1.trans (this _).1, (h2 _).2.trans (this _).2⟩
  generalize hkChain (hkInit { s with nmaHeader := h0 } did) cid did = t at e ⊢
  refine Post.mono (P := fun r => r.1.pkList = t.pkList ∧ r.1.rootMt = t.rootMt) ?_
    fun r hr => ⟨hr.1.trans e.1, hr.2.trans e.2⟩
  unfold hkPut
  refine Post.bind_any fun d => ?_
  refine Post.bind_any fun f => ?_
  refine Post.bind_any fun h2 => ?_
  refine Post.bind_any fun nb => ?_
  refine Post.pure ?_
  dsimp only
  split <;> exact ⟨rfl, rfl⟩

theorem decodeHk_keys (p : Prim PK) (s : St PK) (hk : BitBuf) :
    Post (decodeHk p s hk) (fun r => ∀ id pk, r.1.pkList.get? id = some (some pk) →
      s.pkList.get? id = some (some pk) ∨ MerkleOk p s.rootMt pk) := by
  unfold decodeHk
  refine Post.bind (hkStore_keys s hk) fun r hr => ?_
  obtain ⟨t, o⟩ := r
  obtain ⟨e1, e2⟩ := hr
  simp only at e1 e2
  cases o with
  | none => exact Post.pure fun id pk h => Or.inl (e1 ▸ h)
  | some did =>
    refine Post.bind (Q := fun r : St PK × Bool => ∀ id pk, r.1.pkList.get? id = some (some pk) →
      s.pkList.get? id = some (some pk) ∨ MerkleOk p s.rootMt pk) ?_ fun r hr => ?_
    · refine Post.ite (fun _ => (decodeDsmKroot_keys p t did).mono fun r hr id pk h => ?_)
        fun _ => (decodeDsmPkr_keys p t did).mono fun r hr id pk h => ?_
      · rw [hr, e1] at h; exact Or.inl h
      · rw [e1, e2] at hr; exact hr id pk h
    · obtain ⟨u, b⟩ := r
      exact Post.ite (fun _ => Post.pure hr) fun _ => Post.pure hr

theorem subframe1_keys (p : Prim PK) {s t : St PK} {prn : Nat} (h : subframe1 p s prn = .ok t) :
    ∀ id pk, t.pkList.get? id = some (some pk) →
      s.pkList.get? id = some (some pk) ∨ MerkleOk p s.rootMt pk := by
  unfold subframe1 at h
  obtain ⟨⟨u, b⟩, h1, h⟩ := Py.bind_ok.1 h
  rw [Py.pure_ok] at h
  subst h
  exact (decodeHk_keys p (saveMack s prn) _).out _ h1

/-! ### one call -/

theorem sig_of_cases {p : Prim PK} {s : St PK} (h : s.rootLoaded = true ∧
    ∃ lk d pk, pyGetI klenT s.ks = .ok lk ∧ s.dsm.get? s.did0 = some d ∧
      s.pkList.get? s.pkid = some (some pk) ∧
      p.sig pk s.ds (rootMsg s (lk / 8) d) s.hf = .ok true) : SigOk p s := by
  obtain ⟨_, lk, d, pk, h1, h2, h3, h4⟩ := h
  refine ⟨lk, d, pk, h1, h2, h3, ?_⟩
  unfold rootMsg slice at h4
  rw [show 8 * (13 + lk / 8 - 1) = 8 * (12 + lk / 8) by omega] at h4
  exact h4

/-- what one call of `decode` does to the verification status, the key and the public keys -/
theorem decode_status (p : Prim PK) (s u : St PK) (nma : BitBuf) (wn tow prn : Nat) (r : Bool)
    (hc : s.chainVerified = true → s.rootVerified = true)
    (h : decode p s nma wn tow prn = .ok (u, r)) :
    (u.rootVerified = true → s.rootVerified = true ∨ SigCall p s nma wn tow prn) ∧
    (u.chainVerified = true → u.rootVerified = true ∧
      (s.chainVerified = true ∧ u.key = s.key ∨ KeyCall p u.key s nma wn tow prn)) ∧
    (∀ id pk, u.pkList.get? id = some (some pk) → s.pkList.get? id = some (some pk) ∨
      MerkleOk p s.rootMt pk) ∧ u.rootMt = s.rootMt ∧ (s.rootVerified = true → u.rootVerified = true) := by
  obtain ⟨t0, h0, hu⟩ := decode_inv p h
  have e0 := storePage_erase h0
  have r0' := congrArg St.rootVerified e0
  have r0 : t0.rootVerified = s.rootVerified := r0'
  have c0' := congrArg St.chainVerified e0
  have c0 : t0.chainVerified = s.chainVerified := c0'
  have k0' := congrArg St.key e0
  have k0 : t0.key = s.key := k0'
  have p0' := congrArg St.pkList e0
  have p0 : t0.pkList = s.pkList := p0'
  have m0' := congrArg St.rootMt e0
  have m0 : t0.rootMt = s.rootMt := m0'
  rcases hu with hu | ⟨hcnt, h⟩
  · subst hu
    refine ⟨fun h => Or.inl (r0 ▸ h), fun h => ⟨?_, Or.inl ⟨c0 ▸ h, k0⟩⟩, fun id pk h => Or.inl (p0 ▸ h),
      m0, fun h => r0.trans h⟩
    rw [r0]; exact hc (c0 ▸ h)
  · obtain ⟨t1, t2, h1, h2, hr⟩ := subframe_inv p h
    have e1 := subframe1_erase p h1
    have r1' := congrArg St.rootVerified e1
    have r1 : t1.rootVerified = t0.rootVerified := r1'
    have c1' := congrArg St.chainVerified e1
    have c1 : t1.chainVerified = t0.chainVerified := c1'
    have k1' := congrArg St.key e1
    have k1 : t1.key = t0.key := k1'
    have m1' := congrArg St.rootMt e1
    have m1 : t1.rootMt = t0.rootMt := m1'
    have p1 := subframe1_keys p h1
    rw [m0, p0] at p1
    -- after the root key stage
    have s2 : (t2.rootVerified = true → s.rootVerified = true ∨ SigCall p s nma wn tow prn) ∧
        t2.chainVerified = s.chainVerified ∧ t2.key = s.key ∧ t2.pkList = t1.pkList ∧
        t2.rootMt = s.rootMt ∧ (s.rootVerified = true → t2.rootVerified = true) := by
      rcases (rootStage_cases p t1).out t2 h2 with rfl | ⟨rfl, hs⟩
      · exact ⟨fun h => Or.inl (by rw [← r0, ← r1]; exact h), c1.trans c0, k1.trans k0, rfl, m1.trans m0,
          fun h => (r1.trans r0).trans h⟩
      · exact ⟨fun _ => Or.inr ⟨t0, t1, h0, h1, sig_of_cases hs⟩, c1.trans c0, k1.trans k0, rfl,
          m1.trans m0, fun _ => rfl⟩
    obtain ⟨a1, a2, a3, a4, a5, a6⟩ := s2
    have hc2 : t2.chainVerified = true → t2.rootVerified = true :=
      fun h => a6 (hc (a2 ▸ h))
    rcases hr with hr | ⟨t3, t4, h3, h4, hr⟩
    · cases hr
      exact ⟨a1, fun h => ⟨hc2 h, Or.inl ⟨a2 ▸ h, a3⟩⟩, fun id pk h => p1 id pk (a4 ▸ h), a5, a6⟩
    · obtain ⟨lt, lk, _, _, e3⟩ := (decodeMack_eq t2 prn).out t3 h3
      have r3 : t3.rootVerified = t2.rootVerified := by rw [e3]
      have c3 : t3.chainVerified = t2.chainVerified := by rw [e3]
      have k3 : t3.key = t2.key := by rw [e3]
      have p3 : t3.pkList = t2.pkList := by rw [e3]
      have m3 : t3.rootMt = t2.rootMt := by rw [e3]
      have s4 : t4.rootVerified = t2.rootVerified ∧ t4.pkList = t2.pkList ∧ t4.rootMt = t2.rootMt ∧
          (t4.chainVerified = true → t4.rootVerified = true ∧
            (s.chainVerified = true ∧ t4.key = s.key ∨ KeyCall p t4.key s nma wn tow prn)) := by
        rcases (chainStage_cases p t3 _).out t4 h4 with ⟨rfl, _⟩ | rfl | ⟨rfl, hrv, hk⟩
        · refine ⟨r3, p3, m3, fun h => ⟨?_, Or.inl ⟨?_, k3.trans a3⟩⟩⟩
          · rw [r3]; exact hc2 (c3 ▸ h)
          · rw [← a2, ← c3]; exact h
        · exact ⟨r3, p3, m3, fun h => by cases h⟩
        · refine ⟨r3, p3, m3, fun _ => ⟨hrv, Or.inr ⟨t1, t2, t3, ⟨⟨t0, h0, hcnt, h1⟩, h2, h3⟩, hrv, rfl, ?_⟩⟩⟩
          rcases hk with ⟨hv, hk⟩ | ⟨hv, hk⟩
          · exact Or.inr ⟨hv, hk⟩
          · exact Or.inl hk
      obtain ⟨b1, b2, b3, b4⟩ := s4
      have fin : ∀ v : St PK, v.rootVerified = t4.rootVerified → v.chainVerified = t4.chainVerified →
          v.key = t4.key → v.pkList = t4.pkList → v.rootMt = t4.rootMt →
          (v.rootVerified = true → s.rootVerified = true ∨ SigCall p s nma wn tow prn) ∧
          (v.chainVerified = true → v.rootVerified = true ∧
            (s.chainVerified = true ∧ v.key = s.key ∨ KeyCall p v.key s nma wn tow prn)) ∧
          (∀ id pk, v.pkList.get? id = some (some pk) → s.pkList.get? id = some (some pk) ∨
            MerkleOk p s.rootMt pk) ∧ v.rootMt = s.rootMt ∧
          (s.rootVerified = true → v.rootVerified = true) := by
        intro v q1 q2 q3 q4 q5
        rw [q1, q2, q3, q4, q5, b2, b3, a4]
        refine ⟨fun h => a1 (b1 ▸ h), b4, p1, a5, fun h => ?_⟩
        rw [b1]; exact a6 h
      rcases hr with hr | ⟨_, ha⟩
      · cases hr
        exact fin _ rfl rfl rfl rfl rfl
      · obtain ⟨sf, he, _⟩ := (authStage_erase p t4 _ prn).out _ ha
        have q1 := congrArg St.rootVerified he
        have q2 := congrArg St.chainVerified he
        have q3 := congrArg St.key he
        have q4 := congrArg St.pkList he
        have q5 := congrArg St.rootMt he
        exact fin u q1 q2 q3 q4 q5

theorem saveGalInav_frame (s : St PK) (w : BitBuf) (prn tow : Nat) :
    Post (saveGalInav s w prn tow) (fun t => ∃ a b c, t = { s with subfrm := a, subfrmN := b, subfrmP := c }) := by
  unfold saveGalInav
  refine Post.bind_any fun mt => ?_
  refine Post.bind (Q := fun t : St PK => ∃ a b c, t = { s with subfrm := a, subfrmN := b, subfrmP := c })
    ?_ fun t ht => ?_
  · refine Post.ite (fun _ => ?_) fun _ => Post.pure ?_
    · refine Post.bind_any fun bp => ?_
      refine Post.bind_any fun bn => Post.pure ?_
      split <;> exact ⟨_, _, _, rfl⟩
    · split <;> exact ⟨_, _, _, rfl⟩
  · obtain ⟨a, b, c, rfl⟩ := ht
    refine Post.ite (fun _ => ?_) fun _ => Post.pure ⟨_, _, _, rfl⟩
    exact Post.bind_any fun bn => Post.pure ⟨_, _, _, rfl⟩

/-- **evidence over every history**: when the root key counts as verified, some earlier call
verified its signature; when the key chain counts as verified, some earlier call linked the current
key by the hash; public keys are the initial ones, loaded by the user or proved by the Merkle tree;
delayed tags carry the data stored when they were received -/
theorem run_inv (p : Prim PK) (s0 : St PK) (h0 : Fresh s0) :
    ∀ h s, run p s0 h = .ok s → Inv p s0 h s := by
  refine run_induction p s0 (Inv p s0) ?_ ?_
  · refine ⟨?_, fun h => ?_, fun h => ?_, fun _ _ h => Or.inl h, rfl⟩
    · rw [h0.tags]; simp
    · rw [h0.root] at h; cases h
    · rw [h0.chain] at h; cases h
  · intro h s o t hr hi hs
    have other : ∀ (hv : t.tagList = s.tagList) (e1 : t.rootVerified = s.rootVerified)
        (e2 : t.chainVerified = s.chainVerified) (e3 : t.key = s.key) (e4 : t.rootMt = s.rootMt)
        (e5 : ∀ id pk, t.pkList.get? id = some (some pk) → s.pkList.get? id = some (some pk) ∨
          ∃ i, o = .loadKey pk i), Inv p s0 (h ++ [o]) t := by
      intro hv e1 e2 e3 e4 e5
      refine ⟨?_, fun hh => ?_, fun hh => ?_, fun id pk hh => ?_, e4.trans hi.mt⟩
      · rw [hv]
        intro x hx
        obtain ⟨g1, h1, h2, s1, rfl, g2, g3⟩ := hi.tags x hx
        exact ⟨g1, h1, h2 ++ [o], s1, by simp, g2, g3⟩
      · exact (hi.root (e1 ▸ hh)).mono o
      · have := hi.chain (e2 ▸ hh)
        rw [e1, e3]
        exact ⟨this.1, this.2.mono o⟩
      · rcases e5 id pk hh with h' | ⟨i, rfl⟩
        · rcases hi.keys id pk h' with g | ⟨i, g⟩ | g
          · exact Or.inl g
          · exact Or.inr (Or.inl ⟨i, by simp [g]⟩)
          · exact Or.inr (Or.inr g)
        · exact Or.inr (Or.inl ⟨i, by simp⟩)
    cases o with
    | page nma wn tow prn =>
      simp only [step] at hs
      obtain ⟨⟨u, r⟩, hd, hs⟩ := Py.bind_ok.1 hs
      rw [Py.pure_ok] at hs
      subst hs
      obtain ⟨a1, a2, a3, a4, _⟩ := decode_status p s u nma wn tow prn r (fun hc => (hi.chain hc).1) hd
      obtain ⟨_, a5, _⟩ := decode_counts p s u nma wn tow prn r (fun t ht => (hi.tags t ht).1) hd
      refine ⟨?_, fun hh => ?_, fun hh => ?_, fun id pk hh => ?_, a4.trans hi.mt⟩
      · intro x hx
        rcases a5 x hx with g | ⟨g1, g2⟩
        · obtain ⟨g1, h1, h2, s1, rfl, g2, g3⟩ := hi.tags x g
          exact ⟨g1, h1, h2 ++ [.page nma wn tow prn], s1, by simp, g2, g3⟩
        · exact ⟨g1, h, [.page nma wn tow prn], s, rfl, hr, g2⟩
      · rcases a1 hh with g | g
        · exact (hi.root g).mono _
        · exact ⟨h, [], s, nma, wn, tow, prn, rfl, hr, g⟩
      · obtain ⟨g1, g2 | g2⟩ := a2 hh
        · refine ⟨g1, ?_⟩
          rw [g2.2]
          exact (hi.chain g2.1).2.mono _
        · exact ⟨g1, h, [], s, nma, wn, tow, prn, rfl, hr, g2⟩
      · rcases a3 id pk hh with g | g
        · rcases hi.keys id pk g with g | ⟨i, g⟩ | g
          · exact Or.inl g
          · exact Or.inr (Or.inl ⟨i, by simp [g]⟩)
          · exact Or.inr (Or.inr g)
        · rw [hi.mt] at g
          exact Or.inr (Or.inr g)
    | nav w prn tow =>
      obtain ⟨a, b, c, rfl⟩ := (saveGalInav_frame s w prn tow).out t hs
      exact other rfl rfl rfl rfl rfl fun _ _ h => Or.inl h
    | setPrn a =>
      simp only [step] at hs; rw [Py.pure_ok] at hs; subst hs
      exact other rfl rfl rfl rfl rfl fun _ _ h => Or.inl h
    | setSlow b =>
      simp only [step] at hs; rw [Py.pure_ok] at hs; subst hs
      exact other rfl rfl rfl rfl rfl fun _ _ h => Or.inl h
    | loadKey pk i =>
      simp only [step] at hs; rw [Py.pure_ok] at hs; subst hs
      refine other rfl rfl rfl rfl rfl fun id pk' hh => ?_
      unfold loadPubkey at hh
      simp only at hh
      rw [Dict.get?_set] at hh
      split at hh
      · cases hh; exact Or.inr ⟨i, rfl⟩
      · exact Or.inl hh

/-! ## what is reported -/

theorem get_bump (d : Dict (Nat × Int) Nat) (k k' : Nat × Int) :
    ((bump d k).get? k').getD 0 = (d.get? k').getD 0 + if k' = k then 1 else 0 := by
  unfold bump
  rw [Dict.get?_set]
  split
  · rename_i e; subst e; simp
  · simp

theorem get_count (ac : List (Nat × Tag)) : ∀ (vs : Dict (Nat × Int) Nat) (k : Nat × Int),
    ((count vs ac).get? k).getD 0 = (vs.get? k).getD 0 + (ac.filter fun e => tagKey e.2 = k).length := by
  induction ac with
  | nil => intro vs k; rfl
  | cons e ac ih =>
    intro vs k
    change ((count (bump vs (tagKey e.2)) ac).get? k).getD 0 = _
    rw [ih, get_bump, List.filter_cons]
    by_cases h : k = tagKey e.2
    · simp [h]; omega
    · have h' : ¬ tagKey e.2 = k := fun e => h e.symm
      simp [h, h']

/-- a call that authenticated data filed under entry `k`, with everything it relied on -/
def AuthCall (p : Prim PK) (s0 : St PK) (k : Nat × Int) (h1 : List (Op PK)) (s1 : St PK)
    (nma : BitBuf) (wn tow prn : Nat) : Prop :=
  ∃ b a t, Ready p s1 nma wn tow prn b ∧ Genuine p b a t ∧ tagKey t = k ∧
    (∃ lt, pyGetI tagLenT b.ts = .ok lt ∧ 20 ≤ lt) ∧
    Once p s0 (h1 ++ [.page nma wn tow prn]) (KeyCall p b.key) ∧
    Once p s0 (h1 ++ [.page nma wn tow prn]) (SigCall p)

/-- **only verified data is counted**: over every history, if the count of an entry is not zero,
some earlier call verified a genuine tag for exactly that entry, under a key linked by the hash in
an earlier (or the same) call, after the signature of a root key had been verified -/
theorem counted_authentic (p : Prim PK) (s0 : St PK) (h0 : Fresh s0) (hv : s0.vstatus = []) :
    ∀ h s, run p s0 h = .ok s → s.vcntMin = s0.vcntMin ∧ ∀ k, 0 < (s.vstatus.get? k).getD 0 →
      ∃ h1 h2 s1 nma wn tow prn, h = h1 ++ (.page nma wn tow prn :: h2) ∧ run p s0 h1 = .ok s1 ∧
        AuthCall p s0 k h1 s1 nma wn tow prn := by
  refine run_induction p s0 _ ⟨rfl, fun k hk => ?_⟩ ?_
  · rw [hv] at hk; simp at hk
  · intro h s o t hr hi hs
    have other : t.vstatus = s.vstatus → t.vcntMin = s.vcntMin → t.vcntMin = s0.vcntMin ∧
        ∀ k, 0 < (t.vstatus.get? k).getD 0 →
        ∃ h1 h2 s1 nma wn tow prn, h ++ [o] = h1 ++ (.page nma wn tow prn :: h2) ∧
          run p s0 h1 = .ok s1 ∧ AuthCall p s0 k h1 s1 nma wn tow prn := by
      intro e1 e2
      refine ⟨e2.trans hi.1, fun k hk => ?_⟩
      rw [e1] at hk
      obtain ⟨h1, h2, s1, nma, wn, tow, prn, rfl, g⟩ := hi.2 k hk
      exact ⟨h1, h2 ++ [o], s1, nma, wn, tow, prn, by simp, g⟩
    cases o with
    | page nma wn tow prn =>
      have hI := run_inv p s0 h0 h s hr
      have hrun : run p s0 (h ++ [.page nma wn tow prn]) = .ok t := by
        rw [run_append, hr]
        simp only [Py.okBind, run, List.foldlM_cons, List.foldlM_nil]
        rw [hs]; rfl
      have hI2 := run_inv p s0 h0 _ t hrun
      simp only [step] at hs
      obtain ⟨⟨u, r⟩, hd, hs⟩ := Py.bind_ok.1 hs
      rw [Py.pure_ok] at hs
      subst hs
      obtain ⟨⟨ac, hc, hac⟩, _, hvm⟩ := decode_counts p s u nma wn tow prn r
        (fun t ht => (hI.tags t ht).1) hd
      refine ⟨hvm.trans hi.1, fun k hk => ?_⟩
      by_cases hold : 0 < (s.vstatus.get? k).getD 0
      · obtain ⟨h1, h2, s1, nma', wn', tow', prn', rfl, g⟩ := hi.2 k hold
        exact ⟨h1, h2 ++ [.page nma wn tow prn], s1, nma', wn', tow', prn', by simp, g⟩
      · rw [hc, get_count] at hk
        have hf : 0 < (ac.filter fun e => tagKey e.2 = k).length := by omega
        obtain ⟨e, he⟩ := List.exists_mem_of_length_pos hf
        rw [List.mem_filter] at he
        obtain ⟨he1, he2⟩ := he
        obtain ⟨b, hb, _, her, hlen, hgen⟩ := hac (List.ne_nil_of_mem he1)
        have hkey' := congrArg St.key her
        have hkey : u.key = b.key := hkey'
        have hcv : u.chainVerified = true := by
          have := congrArg St.chainVerified her
          exact Eq.trans this hb.chain
        obtain ⟨g1, g2⟩ := hI2.chain hcv
        exact ⟨h, [], s, nma, wn, tow, prn, rfl, hr, b, e.1, e.2, hb, hgen e he1,
          by simpa using he2, hlen, hkey ▸ g2, hI2.root g1⟩
    | nav w prn tow =>
      obtain ⟨a, b, c, rfl⟩ := (saveGalInav_frame s w prn tow).out t hs
      exact other rfl rfl
    | setPrn a =>
      simp only [step] at hs; rw [Py.pure_ok] at hs; subst hs
      exact other rfl rfl
    | setSlow b =>
      simp only [step] at hs; rw [Py.pure_ok] at hs; subst hs
      exact other rfl rfl
    | loadKey pk i =>
      simp only [step] at hs; rw [Py.pure_ok] at hs; subst hs
      exact other rfl rfl

/-- **`chk_nav` answers true only for authenticated data** -/
theorem reported_authentic (p : Prim PK) (s0 s : St PK) (h : List (Op PK)) (h0 : Fresh s0)
    (hv : s0.vstatus = []) (hm : 0 < s0.vcntMin) (hr : run p s0 h = .ok s) (prn : Nat) (iod : Int)
    (hc : chkNav s prn iod = true) :
    ∃ h1 h2 s1 nma wn tow q, h = h1 ++ (.page nma wn tow q :: h2) ∧ run p s0 h1 = .ok s1 ∧
      AuthCall p s0 (prn, iod) h1 s1 nma wn tow q := by
  obtain ⟨e, hh⟩ := counted_authentic p s0 h0 hv h s hr
  refine hh (prn, iod) ?_
  unfold chkNav at hc
  split at hc
  · cases hc
  · rename_i c hcc
    rw [hcc]
    have := of_decide_eq_true hc
    simp only [Option.getD_some]
    omega

/-- counts never decrease, and without an accepted tag nothing changes -/
theorem never_decreases (p : Prim PK) (s0 s t : St PK) (h : List (Op PK)) (o : Op PK) (h0 : Fresh s0)
    (hr : run p s0 h = .ok s) (hs : step p s o = .ok t) (k : Nat × Int) :
    (s.vstatus.get? k).getD 0 ≤ (t.vstatus.get? k).getD 0 := by
  cases o with
  | page nma wn tow prn =>
    simp only [step] at hs
    obtain ⟨⟨u, r⟩, hd, hs⟩ := Py.bind_ok.1 hs
    rw [Py.pure_ok] at hs
    subst hs
    obtain ⟨⟨ac, hc, _⟩, _⟩ := decode_counts p s u nma wn tow prn r
      (fun t ht => ((run_inv p s0 h0 h s hr).tags t ht).1) hd
    rw [hc, get_count]; omega
  | nav w prn tow =>
    obtain ⟨a, b, c, rfl⟩ := (saveGalInav_frame s w prn tow).out t hs
    exact Nat.le_refl _
  | setPrn a => simp only [step] at hs; rw [Py.pure_ok] at hs; subst hs; exact Nat.le_refl _
  | setSlow b => simp only [step] at hs; rw [Py.pure_ok] at hs; subst hs; exact Nat.le_refl _
  | loadKey pk i => simp only [step] at hs; rw [Py.pure_ok] at hs; subst hs; exact Nat.le_refl _

theorem fresh_default : Fresh ({} : St PK) := ⟨rfl, rfl, rfl⟩

/-! ## what is not guaranteed -/

theorem chainStage_linked (p : Prim PK) (s : St PK) (gw : Int)
    (h1 : s.rootVerified = true) (h2 : s.chainVerified = true) (h3 : s.gstSf ≠ s.gstSfC)
    (h : updateKeyChain p s s.keyC gw s.gstTow 1 = .ok s.keyP) :
    chainStage p s gw = .ok { s with chainVerified := true, gstSfC := s.gstSf, key := s.keyC } := by
  unfold chainStage
  rw [if_pos ⟨h1, h3⟩]
  unfold verifyKeyChain
  rw [if_neg (by simp [h1]), if_pos h2, h]
  simp only [Py.okBind, decide_true]
  rfl

/-- once a chain is established the root key plays no part: the check is the same whatever root key
is held, it only links a key to the key the same satellite sent before, verified or not -/
theorem chain_check_ignores_root (p : Prim PK) (s : St PK) (gw : Int) (k : BitBuf)
    (h1 : s.rootVerified = true) (h2 : s.chainVerified = true) (h3 : s.gstSf ≠ s.gstSfC)
    (h : updateKeyChain p s s.keyC gw s.gstTow 1 = .ok s.keyP) :
    ∃ t, chainStage p { s with kroot := k } gw = .ok t ∧ t.chainVerified = true ∧ t.key = s.keyC := by
  have e : ∀ n j x w, chainLoop p { s with kroot := k } n s.gstTow j 0 x w =
      chainLoop p s n s.gstTow j 0 x w := by
    have : ∀ n j i x w, chainLoop p { s with kroot := k } n s.gstTow j i x w =
        chainLoop p s n s.gstTow j i x w := by
      intro n j
      induction j with
      | zero => intro i x w; rfl
      | succ j ih =>
        intro i x w
        unfold chainLoop
        simp only [ih]
        rfl
    intro n j x w
    exact this n j 0 x w
  refine ⟨_, chainStage_linked p { s with kroot := k } gw h1 h2 h3 ?_, rfl, rfl⟩
  unfold updateKeyChain at h ⊢
  simp only [e]
  exact h

/-- a root key message: seven blocks, root key of ones -/
def forged : BitBuf := natToBits 4 1 ++ List.replicate 100 false ++ List.replicate 1896 true

/-- a verified root key is replaced by the one of any later complete message, even if the check of
that message fails, and is not verified again -/
theorem root_key_replaced : ∃ (p : Prim Unit) (s t : St Unit),
    decodeDsmKroot p s 0 = .ok (t, false) ∧ s.rootVerified = true ∧ t.rootVerified = true ∧
      t.kroot ≠ s.kroot ∧ rootStage p t = .ok t := by
  have key : (match decodeDsmKroot (⟨fun _ _ => [], fun _ _ _ => .error .typeError,
        fun _ _ _ _ => .ok false, fun _ _ => .ok ()⟩ : Prim Unit)
        { rootVerified := true, rootLoaded := true, dsm := [(0, forged)] } 0 with
      | .ok (t, r) => !r && t.rootVerified && decide (t.kroot ≠ zeros 16)
      | .error _ => false) = true := by decide +kernel
  split at key
  · rename_i t r ht
    simp only [Bool.and_eq_true, Bool.not_eq_true', decide_eq_true_eq] at key
    obtain ⟨⟨rfl, h2⟩, h3⟩ := key
    refine ⟨_, _, t, ht, rfl, h2, h3, ?_⟩
    unfold rootStage
    rw [if_neg (by simp [h2])]
    rfl
  · cases key

/-! ## a history in which data is authenticated

Six of the seven blocks of the root key message, one MACK section and the words 1..5 are already
there; the fifteen pages of one sub-frame complete the message. -/

def demoPrim : Prim Unit :=
  ⟨fun _ _ => zeros 32, fun _ _ _ => .ok (zeros 32), fun _ _ _ _ => .ok true, fun _ _ => .ok ()⟩

/-- header, DSM 0 block 0: seven blocks, public key 0, 96-bit keys, 40-bit tags, look-up table 33,
week 1, hour 0 -/
def demoHk : BitBuf :=
  natToBits 8 0x42 ++ natToBits 8 0 ++ natToBits 4 1 ++ natToBits 12 0 ++ natToBits 4 0 ++ natToBits 4 9 ++
    natToBits 8 33 ++ natToBits 4 0 ++ natToBits 12 1 ++ natToBits 8 0 ++ natToBits 48 0

/-- six tags of zeros with satellite and data type -/
def demoMack : BitBuf :=
  ([(0, 0), (2, 0), (1, 4), (2, 0), (1, 12), (2, 0)] : List (Nat × Nat)).flatMap
    (fun e => natToBits 40 0 ++ natToBits 8 e.1 ++ natToBits 8 (16 * e.2)) ++ natToBits 144 0

def demoSt : St Unit :=
  { dsm := [(0, zeros 250)], flgDsm := [(0, 126)], nb := [(0, 0)], prnA := some 1,
    pkList := [(0, some ())],
    subfrm := [(Sat.prn2sat .gal 1, (List.range 10).flatMap fun k => natToBits 6 (k + 1) ++ natToBits 122 0)],
    mackC := fun _ => demoMack }

def demoHist : List (Op Unit) :=
  (List.range 15).map fun k => .page ((demoHk.drop (8 * k)).take 8 ++ zeros 4) 1025 (30 + 2 * k) 1

example : Fresh demoSt ∧ demoSt.vstatus = [] ∧ 0 < demoSt.vcntMin ∧
    ∃ s, run demoPrim demoSt demoHist = .ok s ∧ chkNav s 1 0 = true := by
  refine ⟨⟨rfl, rfl, rfl⟩, rfl, by decide, ?_⟩
  have key : (match run demoPrim demoSt demoHist with
      | .ok s => chkNav s 1 0
      | .error _ => false) = true := by decide +kernel
  split at key
  · rename_i s hs
    exact ⟨s, hs, key⟩
  · cases key

end Verif.C21
