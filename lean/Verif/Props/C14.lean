import Verif.Model.L6
import Verif.Lemmas.Post
import Verif.Props.C08
import Mathlib.Logic.Basic
import Mathlib.Order.Basic
/-!
# C14 An L6 frame is never assembled from mixed sources

Specification of a received sub-frame (IS-QZSS-L6 table 4.1.2): at bit `8·ofst` a 32-bit preamble,
8-bit PRN, 3-bit vendor, 2-bit facility, 2-bit pattern, the start indicator, the alert flag and
1695 bits of data.
-/

namespace Verif.C14
open Verif.L6 Verif.CopyBuff Verif.C08

/-- a reception: message and byte offset of the sub-frame in it -/
abbrev Sub := BitBuf × Nat

def bitsAt (m : Sub) (k n : Nat) : Nat := bitsToNat ((m.1.drop (m.2 * 8 + k)).take n)
/-- the sub-frame carries the preamble -/
def valid (m : Sub) : Prop := bitsAt m 0 32 = 0x1acffc1d
def start (m : Sub) : Prop := bitsAt m 47 1 = 1
/-- transmitting facility; CLAS (vendor 5) permutes the field depending on the pattern -/
def facilityOf (m : Sub) : Nat :=
  let f := bitsAt m 43 2
  if bitsAt m 40 3 = 5 then
    if bitsAt m 45 2 = 0 then (if f = 1 then 2 else if f = 2 then 1 else f)
    else (if f = 0 then 2 else if f = 1 then 0 else if f = 2 then 3 else 1)
  else f
/-- the 1695 data bits -/
def dataOf (m : Sub) : List Bool := (m.1.drop (m.2 * 8 + 49)).take 1695

instance (m : Sub) : Decidable (valid m) := by unfold valid; infer_instance
instance (m : Sub) : Decidable (start m) := by unfold start; infer_instance

/-- the sub-frames `fr` (in transmission order) form a beginning of a frame of facility `f` -/
def FrameOf (f : Nat) (fr : List Sub) : Prop :=
  (∃ h t, fr = h :: t ∧ start h ∧ ∀ m ∈ t, ¬ start m) ∧
  ∀ m ∈ fr, valid m ∧ facilityOf m = f ∧ (dataOf m).length = 1695

/-! ## Step characterisation -/

theorem readU_eq {m : BitBuf} {i n : Nat} :
    Post (readU m i n) (fun v => v = bitsToNat ((m.drop i).take n) ∧ i + n ≤ m.length) := by
  constructor
  intro v h
  unfold readU at h
  split at h
  · cases h; exact ⟨rfl, by assumption⟩
  · cases h

theorem bits_lt (m : Sub) (k n : Nat) : bitsAt m k n < 2 ^ n := by
  unfold bitsAt
  refine Nat.lt_of_lt_of_le (bitsToNat_lt _) (Nat.pow_le_pow_right (by decide : 0 < 2) ?_)
  rw [List.length_take]; omega

theorem facility_eq (m : Sub) :
    facilityNo (bitsAt m 40 3) (bitsAt m 45 2) (bitsAt m 43 2) =
      if bitsAt m 40 3 = 5 ∧ 2 ≤ bitsAt m 45 2 then .error .indexError else .ok (facilityOf m) := by
  have hb3 := bits_lt m 43 2
  have hb4 := bits_lt m 45 2
  unfold facilityNo facilityOf
  generalize bitsAt m 43 2 = a at *
  generalize bitsAt m 45 2 = b at *
  by_cases h : bitsAt m 40 3 = 5
  · simp only [h, if_true, true_and]
    have ha : a = 0 ∨ a = 1 ∨ a = 2 ∨ a = 3 := by omega
    have hb : b = 0 ∨ b = 1 ∨ b = 2 ∨ b = 3 := by omega
    rcases hb with rfl | rfl | rfl | rfl <;> rcases ha with rfl | rfl | rfl | rfl <;> rfl
  · simp only [h, if_false, false_and]
    rfl

/-- state after a valid sub-frame has been looked at, before copying -/
def pre (s : St) (m : Sub) : St :=
  let s1 := if start m then
      { s with fcnt := 0, buffP := some s.buff, buff := List.replicate 20000 false } else s
  { s1 with fcnt := if 0 ≤ s.facility ∧ s.facility ≠ facilityOf m then -1 else s1.fcnt,
            facility := facilityOf m, pattern := bitsAt m 45 2, sid := bitsAt m 47 1 }

theorem pre_eq (s : St) (m : Sub) :
    l6State s (bitsAt m 47 1) (facilityOf m) (bitsAt m 45 2) = pre s m := by
  have hst : (bitsAt m 47 1 = 1) ↔ start m := Iff.rfl
  unfold l6State pre
  simp only [hst]
  by_cases h1 : start m <;> simp only [h1, if_true, if_false] <;>
    by_cases h2 : 0 ≤ s.facility ∧ s.facility ≠ ↑(facilityOf m)
  · rw [if_pos h2, if_pos ⟨h2.1, Ne.symm h2.2⟩]
  · rw [if_neg h2, if_neg fun h => h2 ⟨h.1, Ne.symm h.2⟩]
  · rw [if_pos h2, if_pos ⟨h2.1, Ne.symm h2.2⟩]
  · rw [if_neg h2, if_neg fun h => h2 ⟨h.1, Ne.symm h.2⟩]

theorem copy_ok {src dst out : BitBuf} {os od n : Nat} (hn : 0 < n)
    (h : copyBuff src dst os od n = .ok out) :
    os + n ≤ src.length ∧ od + n ≤ dst.length ∧ out = splice dst od (field src os n) := by
  by_cases hb : os + n ≤ src.length ∧ od + n ≤ dst.length
  · refine ⟨hb.1, hb.2, ?_⟩
    obtain ⟨o, ho, hl, h1, h2⟩ := copyBuff_bits src dst os od n hb.1 hb.2
    rw [h] at ho; cases ho
    apply List.ext_getElem?
    intro k
    have hfl := field_length src os n hb.1
    rw [splice_getElem? _ _ _ (by rw [hfl]; exact hb.2), hfl]
    by_cases hk : k < od
    · rw [h2 k (Or.inl hk), if_neg (by omega)]
    · by_cases hk2 : k < od + n
      · rw [if_pos (by omega)]
        have := h1 (k - od) (by omega)
        rw [show od + (k - od) = k by omega] at this
        rw [this]
        simp only [field, List.getElem?_take, List.getElem?_drop]
        rw [if_pos (by omega)]
      · rw [if_neg (by omega), h2 k (Or.inr (by omega))]
  · rw [copyBuff_raises src dst os od n hn hb] at h
    cases h

/-- complete description of one normal return -/
theorem step_spec (s : St) (m : Sub) :
    Post (decodeL6 s m.1 m.2) (fun p =>
      (¬ valid m ∧ p = (s, false)) ∨
      (valid m ∧ (pre s m).fcnt < 0 ∧ p = (pre s m, false)) ∨
      (valid m ∧ 0 ≤ (pre s m).fcnt ∧ (dataOf m).length = 1695 ∧
        1695 * (pre s m).fcnt.toNat + 1695 ≤ (pre s m).buff.length ∧
        p = ({ pre s m with
                buff := splice (pre s m).buff (1695 * (pre s m).fcnt.toNat) (dataOf m),
                fcnt := (pre s m).fcnt + 1 }, true))) := by
  obtain ⟨msg, ofst⟩ := m
  unfold decodeL6
  simp only
  refine Post.bind readU_eq fun v0 h0 => Post.bind readU_eq fun v1 h1 => Post.bind readU_eq
    fun v2 h2 => Post.bind readU_eq fun v3 h3 => Post.bind readU_eq fun v4 h4 => Post.bind readU_eq
    fun v5 h5 => Post.bind readU_eq fun v6 h6 => ?_
  have b0 : v0 = bitsAt (msg, ofst) 0 32 := h0.1
  have b2 : v2 = bitsAt (msg, ofst) 40 3 := h2.1
  have b3 : v3 = bitsAt (msg, ofst) 43 2 := h3.1
  have b4 : v4 = bitsAt (msg, ofst) 45 2 := h4.1
  have b5 : v5 = bitsAt (msg, ofst) 47 1 := h5.1
  refine Post.ite (fun hv => Post.pure (Or.inl ⟨?_, rfl⟩)) (fun hv => ?_)
  · unfold valid; rw [← b0]; exact hv
  have hval : valid (msg, ofst) := by unfold valid; rw [← b0]; exact not_not.1 hv
  refine Post.bind (Q := fun f => f = facilityOf (msg, ofst)) ?_ fun f hf => ?_
  · rw [b2, b3, b4, facility_eq]
    split
    · exact Post.error
    · exact Post.ok rfl
  · subst hf
    rw [b4, b5, pre_eq]
    refine Post.ite (fun h => Post.pure (Or.inr (Or.inl ⟨hval, h, rfl⟩))) (fun h => ?_)
    refine Post.bind ⟨fun b hb => copy_ok (by decide) hb⟩ fun b hb => Post.pure (Or.inr (Or.inr ?_))
    obtain ⟨c1, c2, c3⟩ := hb
    refine ⟨hval, by omega, ?_, c2, ?_⟩
    · simp only [dataOf, List.length_take, List.length_drop]; omega
    · rw [c3]; rfl

/-! ## Receptions -/

/-- reception history, most recent first; only normal returns continue it -/
inductive Run : List Sub → St → Prop
  | init : Run [] {}
  | step {log s m p} (h : Run log s) (hd : decodeL6 s m.1 m.2 = .ok p) : Run (m :: log) p.1

/-- the valid sub-frames of a history, in transmission order -/
def received (log : List Sub) : List Sub := (log.filter (fun m => decide (valid m))).reverse

theorem pre_buff (s : St) (m : Sub) (h : s.buff.length = 20000) : (pre s m).buff.length = 20000 := by
  unfold pre
  simp only
  split
  · exact List.length_replicate
  · exact h

theorem pre_fcnt (s : St) (m : Sub) (h : -1 ≤ s.fcnt) : -1 ≤ (pre s m).fcnt := by
  unfold pre
  simp only
  split
  · exact Int.le_refl _
  · split
    · exact (by decide : (-1 : Int) ≤ 0)
    · exact h

/-- invariant -/
def Inv (log : List Sub) (s : St) : Prop :=
  s.buff.length = 20000 ∧ -1 ≤ s.fcnt ∧ s.fcnt ≠ 0 ∧
  (0 < s.fcnt → ∃ pr fr, received log = pr ++ fr ∧ (fr.length : Int) = s.fcnt ∧ 0 ≤ s.facility ∧
    FrameOf s.facility.toNat fr ∧ s.buff.take (1695 * fr.length) = (fr.map dataOf).flatten)

theorem received_cons_valid {m log} (h : valid m) : received (m :: log) = received log ++ [m] := by
  unfold received
  rw [List.filter_cons_of_pos (by simpa using h), List.reverse_cons]

theorem received_cons_invalid {m log} (h : ¬ valid m) : received (m :: log) = received log := by
  unfold received
  rw [List.filter_cons_of_neg (by simpa using h)]

theorem take_splice (b : BitBuf) (i : Nat) (f : List Bool) (h : i + f.length ≤ b.length) :
    (splice b i f).take (i + f.length) = b.take i ++ f := by
  apply List.ext_getElem?
  intro k
  rw [List.getElem?_take, splice_getElem? _ _ _ h, List.getElem?_append, List.getElem?_take]
  simp only [List.length_take]
  rw [Nat.min_eq_left (by omega : i ≤ b.length)]
  by_cases hk : k < i
  · rw [if_pos (by omega), if_neg (by omega), if_pos hk, if_pos hk]
  · rw [if_neg hk]
    by_cases hk2 : k < i + f.length
    · rw [if_pos hk2, if_pos (by omega)]
    · rw [if_neg hk2]
      simp; omega

theorem inv_run {log : List Sub} {s : St} (h : Run log s) : Inv log s := by
  induction h with
  | init => exact ⟨List.length_replicate, by decide, by decide, fun h => absurd h (by decide)⟩
  | @step log s m p hr hd ih =>
    obtain ⟨i1, i2, i3, i4⟩ := ih
    rcases (step_spec s m).out _ hd with ⟨hv, rfl⟩ | ⟨hv, hf, rfl⟩ | ⟨hv, hf, hl, hb, rfl⟩
    · refine ⟨i1, i2, i3, ?_⟩
      rw [received_cons_invalid hv]
      exact i4
    · exact ⟨pre_buff s m i1, pre_fcnt s m i2, by simp only; omega,
        fun h => absurd h (by simp only; omega)⟩
    · have hbl : (pre s m).buff.length = 20000 := pre_buff s m i1
      have hsame : ¬ (0 ≤ s.facility ∧ s.facility ≠ facilityOf m) := by
        intro hc
        have : (pre s m).fcnt = -1 := by unfold pre; simp only [if_pos hc]
        omega
      have hfac : (pre s m).facility = facilityOf m := rfl
      refine ⟨?_, ?_, ?_, fun _ => ?_⟩
      · simp only
        rw [splice_length _ _ _ (by rw [hl]; exact hb), hbl]
      · simp only; omega
      · simp only; omega
      · rw [received_cons_valid hv]
        by_cases hs : start m
        · have hc : (pre s m).fcnt = 0 := by
            unfold pre; simp only [if_neg hsame, if_pos hs]
          refine ⟨received log, [m], rfl, by simp [hc], by simp [hfac], ?_, ?_⟩
          · refine ⟨⟨m, [], rfl, hs, by simp⟩, ?_⟩
            intro m' hm'
            rw [List.mem_singleton.1 hm']
            exact ⟨hv, by simp [hfac], hl⟩
          · simp only [List.length_singleton, List.map_cons, List.map_nil, List.flatten_cons,
              List.flatten_nil, List.append_nil, hc]
            have := take_splice (pre s m).buff 0 (dataOf m) (by rw [hl]; omega)
            rw [hl] at this
            simpa using this
        · have hc : (pre s m).fcnt = s.fcnt := by
            unfold pre; simp only [if_neg hsame, if_neg hs]
          have hbuf : (pre s m).buff = s.buff := by
            unfold pre; simp only [if_neg hs]
          have hpos : 0 < s.fcnt := by clear i4; omega
          obtain ⟨pr, fr, e1, e2, e3, ⟨⟨h0, t0, e4, e5, e6⟩, e7⟩, e8⟩ := i4 hpos
          clear i4
          have hfs : s.facility = facilityOf m := by
            by_contra hne; exact hsame ⟨e3, hne⟩
          refine ⟨pr, fr ++ [m], by rw [e1, List.append_assoc], by simp [hc, e2], by simp [hfac],
            ?_, ?_⟩
          · refine ⟨⟨h0, t0 ++ [m], by rw [e4]; rfl, e5, ?_⟩, ?_⟩
            · intro m' hm'
              rcases List.mem_append.1 hm' with hm' | hm'
              · exact e6 m' hm'
              · rw [List.mem_singleton.1 hm']; exact hs
            · intro m' hm'
              simp only [hfac]
              rcases List.mem_append.1 hm' with hm' | hm'
              · have := e7 m' hm'
                rw [hfs] at this
                exact this
              · rw [List.mem_singleton.1 hm']
                exact ⟨hv, by simp, hl⟩
          · have hn : (pre s m).fcnt.toNat = fr.length := by omega
            have := take_splice s.buff (1695 * fr.length) (dataOf m) (by
              rw [hl, ← hbuf, ← hn]; exact hb)
            rw [hl] at this
            simp only [List.length_append, List.length_singleton, hn, hbuf]
            rw [Nat.mul_add, Nat.mul_one, this, e8]
            simp

/-- A frame reported complete (five sub-frames collected) consists, bit by bit and in transmission
order, of the data of the last five valid sub-frames received; they all come from one facility, the
first carries the start indicator and the others do not. -/
theorem completed_frame {log : List Sub} {s : St} (h : Run log s) (hf : s.fcnt = 5) :
    ∃ pr m1 m2 m3 m4 m5 f, received log = pr ++ [m1, m2, m3, m4, m5] ∧
      FrameOf f [m1, m2, m3, m4, m5] ∧
      s.buff.take (5 * 1695) = dataOf m1 ++ dataOf m2 ++ dataOf m3 ++ dataOf m4 ++ dataOf m5 := by
  obtain ⟨_, _, _, i4⟩ := inv_run h
  obtain ⟨pr, fr, e1, e2, e3, e4, e5⟩ := i4 (by omega)
  have hlen : fr.length = 5 := by omega
  match fr, hlen with
  | [m1, m2, m3, m4, m5], _ =>
    exact ⟨pr, m1, m2, m3, m4, m5, _, e1, e4, by simpa using e5⟩

/-- A frame in progress never mixes facilities: all sub-frames counted so far come from the
facility last heard. -/
theorem partial_frame {log : List Sub} {s : St} (h : Run log s) (hf : 0 < s.fcnt) :
    ∃ pr fr, received log = pr ++ fr ∧ (fr.length : Int) = s.fcnt ∧ 0 ≤ s.facility ∧
      FrameOf s.facility.toNat fr ∧ s.buff.take (1695 * fr.length) = (fr.map dataOf).flatten :=
  (inv_run h).2.2.2 hf

/-- A facility change is never accepted, and no frame is in progress afterwards. -/
theorem facility_change (s : St) (m : Sub) (hv : valid m) (h0 : 0 ≤ s.facility)
    (hc : s.facility ≠ facilityOf m) {p : St × Bool} (h : decodeL6 s m.1 m.2 = .ok p) :
    p.2 = false ∧ p.1.fcnt = -1 := by
  have hp : (pre s m).fcnt = -1 := by unfold pre; simp only [if_pos (And.intro h0 hc)]
  rcases (step_spec s m).out _ h with ⟨hv', _⟩ | ⟨_, _, rfl⟩ | ⟨_, hf, _⟩
  · exact absurd hv hv'
  · exact ⟨rfl, hp⟩
  · omega

/-- Without a start-indicated sub-frame nothing is collected. -/
theorem no_start (s : St) (m : Sub) (hs : ¬ start m) (hc : s.fcnt < 0) {p : St × Bool}
    (h : decodeL6 s m.1 m.2 = .ok p) : p.2 = false ∧ p.1.fcnt < 0 := by
  have hp : (pre s m).fcnt < 0 := by
    unfold pre
    simp only [if_neg hs]
    split
    · decide
    · exact hc
  rcases (step_spec s m).out _ h with ⟨_, rfl⟩ | ⟨_, _, rfl⟩ | ⟨_, hf, _⟩
  · exact ⟨rfl, hc⟩
  · exact ⟨rfl, hp⟩
  · omega

/-! ## Completeness -/

theorem good_step (s : St) (m : Sub) (hb : s.buff.length = 20000) (hv : valid m)
    (hl : (dataOf m).length = 1695) (hp : bitsAt m 45 2 < 2 ∨ bitsAt m 40 3 ≠ 5)
    (hf : s.facility < 0 ∨ s.facility = facilityOf m)
    (hs : start m ∨ (0 ≤ s.fcnt ∧ s.fcnt < 11)) :
    ∃ p, decodeL6 s m.1 m.2 = .ok (p, true) := by
  obtain ⟨msg, ofst⟩ := m
  have hlen : ofst * 8 + 49 + 1695 ≤ msg.length := by
    simp only [dataOf, List.length_take, List.length_drop] at hl; omega
  have rd : ∀ k n, k + n ≤ 49 → readU msg (ofst * 8 + k) n = .ok (bitsAt (msg, ofst) k n) := by
    intro k n hk
    unfold readU bitsAt
    rw [if_pos (by omega)]
  have hpre : (pre s (msg, ofst)).fcnt = if start (msg, ofst) then 0 else s.fcnt := by
    unfold pre
    simp only
    rw [if_neg (by rintro ⟨h1, h2⟩; rcases hf with h | h <;> [omega; exact h2 h])]
    split <;> rfl
  have hge : 0 ≤ (pre s (msg, ofst)).fcnt ∧ (pre s (msg, ofst)).fcnt < 11 := by
    rw [hpre]
    split
    · decide
    · rcases hs with h | h
      · exact absurd h ‹_›
      · exact h
  cases hd : decodeL6 s msg ofst with
  | ok p =>
    obtain ⟨s', b⟩ := p
    rcases (step_spec s (msg, ofst)).out _ hd with ⟨hv', _⟩ | ⟨_, h, _⟩ | ⟨_, _, _, _, h⟩
    · exact absurd hv hv'
    · omega
    · rw [h]; exact ⟨_, rfl⟩
  | error e =>
    exfalso
    unfold decodeL6 at hd
    have r0 := rd 0 32 (by decide)
    rw [Nat.add_zero] at r0
    simp only [bind, Except.bind, r0, rd 32 8 (by decide), rd 40 3 (by decide), rd 43 2 (by decide),
      rd 45 2 (by decide), rd 47 1 (by decide), rd 48 1 (by decide)] at hd
    have hv' : bitsAt (msg, ofst) 0 32 = 0x1acffc1d := hv
    rw [if_neg (by rw [hv']; simp)] at hd
    rw [facility_eq, if_neg (by rintro ⟨h1, h2⟩; rcases hp with h | h <;> [omega; exact h h1])] at hd
    simp only [pre_eq] at hd
    rw [if_neg (by omega)] at hd
    obtain ⟨o, ho, _⟩ := copyBuff_bits msg (pre s (msg, ofst)).buff (ofst * 8 + 49)
      (1695 * (pre s (msg, ofst)).fcnt.toNat) 1695 hlen (by rw [pre_buff s _ hb]; omega)
    rw [ho] at hd
    cases hd

/-- reception of a list of sub-frames, all of which return normally -/
def recvAll (s : St) : List Sub → Py St
  | [] => .ok s
  | m :: ms => do
    let (s, _) ← decodeL6 s m.1 m.2
    recvAll s ms

/-- Five well-formed sub-frames of one facility, the first with the start indicator, always make a
completed frame if the receiver was not locked to another facility. -/
theorem frame_completes (s : St) (hb : s.buff.length = 20000) (f : Nat) (m1 m2 m3 m4 m5 : Sub)
    (hf : s.facility < 0 ∨ s.facility = f) (hfr : FrameOf f [m1, m2, m3, m4, m5])
    (hp : ∀ m ∈ [m1, m2, m3, m4, m5], bitsAt m 45 2 < 2 ∨ bitsAt m 40 3 ≠ 5) :
    ∃ s', recvAll s [m1, m2, m3, m4, m5] = .ok s' ∧ s'.fcnt = 5 ∧ s'.facility = f := by
  obtain ⟨⟨h, t, he, hs, hn⟩, hall⟩ := hfr
  injection he with he1 he2
  subst he1 he2
  have one : ∀ (s : St) (m : Sub), m ∈ [m1, m2, m3, m4, m5] → s.buff.length = 20000 →
      (s.facility < 0 ∨ s.facility = f) → (start m ∨ (0 ≤ s.fcnt ∧ s.fcnt < 11)) →
      ∃ s', decodeL6 s m.1 m.2 = .ok (s', true) ∧ s'.buff.length = 20000 ∧ s'.facility = f ∧
        s'.fcnt = (if start m then 0 else s.fcnt) + 1 := by
    intro s m hm hb hf hst
    obtain ⟨v, vf, vl⟩ := hall m hm
    obtain ⟨s', hd⟩ := good_step s m hb v vl (hp m hm) (by rw [vf]; exact hf) hst
    refine ⟨s', hd, ?_⟩
    rcases (step_spec s m).out _ hd with ⟨hv', _⟩ | ⟨_, _, h2⟩ | ⟨_, h1, h2, h3, h4⟩
    · exact absurd v hv'
    · cases h2
    · cases h4
      refine ⟨?_, ?_, ?_⟩
      · simp only
        rw [splice_length _ _ _ (by rw [h2]; exact h3)]
        exact pre_buff s m hb
      · show ((facilityOf m : Nat) : Int) = f
        rw [vf]
      · show (pre s m).fcnt + 1 = _
        unfold pre
        simp only
        rw [if_neg (by rintro ⟨h1, h2⟩; rw [vf] at h2; rcases hf with h | h <;> [omega; exact h2 h])]
        split <;> rfl
  obtain ⟨a1, d1, b1, f1, c1⟩ := one s m1 (by simp) hb hf (Or.inl hs)
  rw [if_pos hs] at c1
  obtain ⟨a2, d2, b2, f2, c2⟩ := one a1 m2 (by simp) b1 (Or.inr f1) (Or.inr (by omega))
  rw [if_neg (hn m2 (by simp))] at c2
  obtain ⟨a3, d3, b3, f3, c3⟩ := one a2 m3 (by simp) b2 (Or.inr f2) (Or.inr (by omega))
  rw [if_neg (hn m3 (by simp))] at c3
  obtain ⟨a4, d4, b4, f4, c4⟩ := one a3 m4 (by simp) b3 (Or.inr f3) (Or.inr (by omega))
  rw [if_neg (hn m4 (by simp))] at c4
  obtain ⟨a5, d5, b5, f5, c5⟩ := one a4 m5 (by simp) b4 (Or.inr f4) (Or.inr (by omega))
  rw [if_neg (hn m5 (by simp))] at c5
  refine ⟨a5, ?_, by omega, f5⟩
  simp only [recvAll, d1, d2, d3, d4, d5, bind, Except.bind]

/-! ## Examples -/

/-- a sub-frame with constant data -/
def demoSub (fac st : Nat) (d : Bool) : Sub := (natToBits 32 0x1acffc1d ++ natToBits 8 199 ++
  natToBits 3 5 ++ natToBits 2 fac ++ natToBits 2 0 ++ natToBits 1 st ++ natToBits 1 0 ++
  List.replicate 1695 d, 0)

theorem demo_facts (st : Nat) (h : st < 2) : valid (demoSub 1 st true) ∧ facilityOf (demoSub 1 st true) = 2 ∧
    bitsAt (demoSub 1 st true) 45 2 < 2 ∧ (start (demoSub 1 st true) ↔ st = 1) ∧
    (dataOf (demoSub 1 st true)).length = 1695 := by
  have : st = 0 ∨ st = 1 := by omega
  rcases this with rfl | rfl <;> decide +kernel

-- five sub-frames satisfying the hypotheses of `frame_completes`
example : ∃ s', recvAll {} [demoSub 1 1 true, demoSub 1 0 true, demoSub 1 0 true, demoSub 1 0 true, demoSub 1 0 true]
    = .ok s' ∧ s'.fcnt = 5 ∧ s'.facility = (2 : Nat) := by
  obtain ⟨a1, a2, a3, a4, a5⟩ := demo_facts 1 (by decide)
  obtain ⟨b1, b2, b3, b4, b5⟩ := demo_facts 0 (by decide)
  refine frame_completes {} List.length_replicate 2 _ _ _ _ _ (.inl (by decide))
    ⟨⟨_, _, rfl, a4.2 rfl, ?_⟩, ?_⟩ ?_
  · intro m hm
    simp only [List.mem_cons, List.not_mem_nil, or_false, or_self] at hm
    subst hm
    exact fun h => absurd (b4.1 h) (by decide)
  · intro m hm
    simp only [List.mem_cons, List.not_mem_nil, or_false, or_self] at hm
    rcases hm with rfl | rfl
    · exact ⟨a1, a2, a5⟩
    · exact ⟨b1, b2, b5⟩
  · intro m hm
    simp only [List.mem_cons, List.not_mem_nil, or_false, or_self] at hm
    rcases hm with rfl | rfl
    · exact .inl a3
    · exact .inl b3

-- a sub-frame of another facility, as in `facility_change`
example : valid (demoSub 2 0 true) ∧ ((2 : Nat) : Int) ≠ facilityOf (demoSub 2 0 true) ∧
    ((decodeL6 { facility := 2, fcnt := 1, buff := [] } (demoSub 2 0 true).1 0).toOption.map
      fun p => (p.1.fcnt, p.2)) = some (-1, false) := by decide +kernel

end Verif.C14
