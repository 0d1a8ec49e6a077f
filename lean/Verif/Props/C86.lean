import Verif.Lemmas.RtcmBiasEnc
import Verif.Props.C85
/-!
# C86 RTCM code and phase bias messages: encoder and decoder

Specification: a list of (satellite, signal, value) goes in; under the name of the signal the same value comes out, up to
the resolution of the message.
-/

namespace Verif.C86
open Verif.Sat Verif.Sig Verif.Time Verif.Sval Verif.RtcmTypes Verif.RtcmSsr Verif.RtcmBias
open Verif.C67 (satW satAt timeW hdrW HeadAt EpochIs nsatAt num lastVal Short setHead)
open Verif.C68 (Lay nameOf sigs look2 Stored Listed layCode layPhase codeAt Aligned Yawed)
open Verif.RtcmLoc (tq pyTrunc)
open Verif.C85 (Cut cut_spec)
open Verif.C33 (Quant quant_Quant)

/-! ## Specification -/

/-- the code and phase bias messages both sides know, without GLONASS -/
def codeNo : List (Nat × Sys) := [(1059, .gps), (68, .gal), (69, .bds), (70, .qzs)]
def phaseNo : List (Nat × Sys) := [(85, .gps), (87, .gal), (88, .bds), (89, .qzs)]

/-- the satellites of the constellation with their biases, in the order of the encoder -/
def mine (sys : Sys) (l : List (Int × List (Sig × Val))) : List (Int × List (Sig × Val)) :=
  l.filter fun r => (sat2prn r.1).1 = sys

/-- satellite, signal, value -/
def flat (l : List (Int × List (Sig × Val))) : List (Int × Sig × Val) :=
  l.flatMap fun r => r.2.map fun x => (r.1, x)

/-- number of signals of a constellation in the tables: a record with more is not read -/
def most : Sys → Nat
  | .gps => 16 | .gal => 19 | .bds => 16 | .qzs => 15 | _ => 0

/-- a record both sides understand: signals of the constellation, not too many of them -/
def Fair (sys : Sys) (r : Int × List (Sig × Val)) : Prop := r.2.length ≤ most sys ∧ ∀ x ∈ r.2, x.1.sys = sys

/-- what the header carries -/
structure HeadRec (e : BEnc) (c : SC) (d d' : Dec) : Prop where
  tow : (d'.tow : Int) = e.h.tow
  time : timediff d'.time ⟨0, 0⟩ = 315964800 + 604800 * d.week + e.h.tow
  udi : (d'.udi c : Int) = e.h.udi c
  mi : d'.mi = e.h.mi
  iodssr : d'.iodssr = e.h.iodssr
  iodssrC : d'.iodssrC c = e.h.iodssr
  pid : (d'.pid : Int) = e.h.pid
  sid : (d'.sid : Int) = e.h.sid
  t0s : d'.t0s c = d'.time

/-- entries of the decoder, one for each value of the encoder -/
def Entries {α : Type} (t : Typ) (sys : Sys) (R : Int → Sig → Val → α → Prop) (l : List (Int × Sig × Val))
    (ents : List ((Int × List Char) × α)) : Prop :=
  List.Forall₂ (fun x y => y.1 = (x.1, str ⟨sys, t, x.2.1.sig⟩) ∧ R x.1 x.2.1 x.2.2 y.2) l ents

/-- the value comes back cut off towards zero to a multiple of `unit` -/
def CutV (n : Nat) (unit : ℚ) (v z : Val) : Prop := ∃ y, v = some y ∧ Cut n unit y z

/-- integer indicator of a signal in the encoder; `False` for a satellite without -/
def Ind (e : BEnc) (s : Int) (g : Sig) (z : Bool) : Prop :=
  (∀ r, Dict.get? e.si s = some r → Dict.get? r g = some z) ∧ (Dict.get? e.si s = none → z = false)

/-- discontinuity counter of a signal in the encoder -/
def Cnt (e : BEnc) (s : Int) (g : Sig) (z : Nat) : Prop :=
  ∃ r, Dict.get? e.di s = some r ∧ Dict.get? r g = some (z : Int)

/-- yaw angle and rate of a satellite in the encoder, cut off to the resolution of the message -/
def YawIs (e : BEnc) (s : Int) (y : ℚ) (z : Val) : Prop :=
  (∃ v, Dict.get? e.yaw s = some (some v) ∧ |y - v| < 1 / 256 ∧ |y| ≤ |v|) ∧
  ∃ v, Dict.get? e.dyaw s = some (some v) ∧ Cut 8 (1 / 8192) v z

/-! ## Satellites -/

theorem sat_at {e : BEnc} {sys : Sys} {s : Int} (h76 : e.h.msgtype ≠ 4076)
    (hs : sys = .gps ∨ sys = .gal ∨ sys = .bds ∨ sys = .qzs) (hsys : (sat2prn s).1 = sys) (f : SatFit e.h s)
    {b : BitBuf} {p : Nat} {m : List Bool} (h : At b p (satBits e.h s ++ m)) :
    satAt e.h.msgtype sys b p = s ∧ (satBits e.h s).length = satW e.h.msgtype sys := by
  have hk := prn2sat_sat2prn' (sat_known hsys (by rcases hs with h | h | h | h <;> rw [h] <;> decide))
  have hg : ¬ Short e.h.msgtype sys := by
    unfold Short
    rcases hs with h | h | h | h <;> rw [h] <;> simp
  unfold SatFit at f
  unfold satBits at h ⊢
  rw [if_neg h76] at f h ⊢
  rw [hsys] at f h ⊢
  rw [hsys] at hk
  by_cases c : sys = .qzs
  · rw [if_pos c] at f h ⊢
    have e1 : satW e.h.msgtype sys = 4 := by unfold satW; rw [if_neg hg, if_pos ⟨c, h76⟩]
    refine ⟨?_, by rw [ub_length, e1]⟩
    unfold satAt
    rw [e1, uAt h f, Int.toNat_of_nonneg f.1, c]
    rw [c] at hk
    simp only
    rw [Int.sub_add_cancel, hk]
  · rw [if_neg c] at f h ⊢
    have e1 : satW e.h.msgtype sys = 6 := by unfold satW; rw [if_neg hg, if_neg fun x => c x.1]
    refine ⟨?_, by rw [ub_length, e1]⟩
    unfold satAt
    rw [e1, uAt h f, Int.toNat_of_nonneg f.1]
    rcases hs with h | h | h | h
    · rw [h] at hk ⊢; simpa using hk
    · rw [h] at hk ⊢; simpa using hk
    · rw [h] at hk ⊢; simpa using hk
    · exact absurd h c

theorem most_eq {sys : Sys} (hs : sys = .gps ∨ sys = .gal ∨ sys = .bds ∨ sys = .qzs) :
    most sys = (sigs sys).length ∧ sigs sys ≠ [] := by
  rcases hs with h | h | h | h <;> rw [h] <;> decide

theorem ub_take {c : Nat} (h : c < 32) (m : List Bool) : bitsToNat ((ub 5 c ++ m).take 5) = c := by
  have e : (ub 5 (c : Int)).length = 5 := ub_length ..
  rw [List.take_left' e, bits_ub ⟨by omega, by norm_num; omega⟩, Int.toNat_natCast]

/-! ## Header -/

theorem head_fields {e : BEnc} {phase : Bool} {n : Nat} (f : RtcmBias.HeadFit e phase n) {b : BitBuf} {i : Nat} {m : List Bool}
    (h : At b i (RtcmBias.headBits e phase n ++ m)) :
    bitsAt b i 20 = e.h.tow.toNat ∧ bitsAt b (i + 20) 4 = (e.h.udi (if phase then .pbias else .cbias)).toNat ∧
    bitsAt b (i + 24) 1 = e.h.mi.toNat ∧ bitsAt b (i + 25) 4 = e.h.iodssr.toNat ∧
    bitsAt b (i + 29) 16 = e.h.pid.toNat ∧ bitsAt b (i + 45) 4 = e.h.sid.toNat ∧
    (phase = true → bitsAt b (i + 49) 1 = e.iyaw.toNat ∧ bitsAt b (i + 50) 4 = e.iexpb.toNat) ∧
    bitsAt b (i + 49 + (if phase then 5 else 0)) 6 = n ∧ At b (i + (RtcmBias.headBits e phase n).length) m ∧
    (RtcmBias.headBits e phase n).length = 55 + if phase then 5 else 0 := by
  have bit : ∀ x : Bool, FitU 1 (x.toNat : Int) := by intro x; unfold FitU; cases x <;> simp
  have hl : (RtcmBias.headBits e phase n).length = 55 + if phase then 5 else 0 := by
    unfold RtcmBias.headBits
    cases phase <;> simp [List.length_append, ub_length]
  have ht := h.tail
  suffices x : bitsAt b i 20 = e.h.tow.toNat ∧ bitsAt b (i + 20) 4 = (e.h.udi (if phase then .pbias else .cbias)).toNat ∧
      bitsAt b (i + 24) 1 = e.h.mi.toNat ∧ bitsAt b (i + 25) 4 = e.h.iodssr.toNat ∧
      bitsAt b (i + 29) 16 = e.h.pid.toNat ∧ bitsAt b (i + 45) 4 = e.h.sid.toNat ∧
      (phase = true → bitsAt b (i + 49) 1 = e.iyaw.toNat ∧ bitsAt b (i + 50) 4 = e.iexpb.toNat) ∧
      bitsAt b (i + 49 + (if phase then 5 else 0)) 6 = n by
    obtain ⟨x1, x2, x3, x4, x5, x6, x7, x8⟩ := x
    exact ⟨x1, x2, x3, x4, x5, x6, x7, x8, ht, hl⟩
  unfold RtcmBias.headBits at h
  simp only [List.append_assoc] at h
  have a1 := uAt h f.tow
  have h := h.tail
  rw [ub_length] at h
  have a2 := uAt h f.udi
  have h := h.tail
  rw [ub_length] at h
  have a3 := uAt h (bit _)
  have h := h.tail
  rw [ub_length] at h
  have a4 := uAt h f.iodssr
  have h := h.tail
  rw [ub_length] at h
  have a5 := uAt h f.pid
  have h := h.tail
  rw [ub_length] at h
  have a6 := uAt h f.sid
  have h := h.tail
  rw [ub_length] at h
  simp only [Nat.add_assoc, Nat.reduceAdd] at a2 a3 a4 a5 a6 h
  rw [Int.toNat_natCast] at a3
  cases phase with
  | false =>
    simp only [Bool.false_eq_true, if_false, List.nil_append] at h ⊢
    have a7 := uAt h f.n
    rw [Int.toNat_natCast] at a7
    exact ⟨a1, a2, a3, a4, a5, a6, (fun h => by cases h), a7⟩
  | true =>
    simp only [if_true, List.append_assoc] at h ⊢
    have a7 := uAt h (bit _)
    have h := h.tail
    rw [ub_length] at h
    have a8 := uAt h (f.iexpb rfl)
    have h := h.tail
    rw [ub_length] at h
    have a9 := uAt h f.n
    rw [Int.toNat_natCast] at a7 a9
    simp only [Nat.add_assoc, Nat.reduceAdd] at a8 a9 ⊢
    exact ⟨a1, a2, a3, a4, a5, a6, fun _ => ⟨a7, a8⟩, a9⟩

theorem head_rec {e : BEnc} {phase : Bool} {n : Nat} (f : RtcmBias.HeadFit e phase n) {b : BitBuf} {i : Nat} {m : List Bool}
    (h : At b i (RtcmBias.headBits e phase n ++ m)) {d d' : Dec} {sys : Sys} (hg : sys ≠ .glo)
    (hh : HeadAt d sys 0 [if phase then .pbias else .cbias] [if phase then .pbias else .cbias] b i d') :
    HeadRec e (if phase then .pbias else .cbias) d d' := by
  obtain ⟨a1, a2, a3, a4, a5, a6, _⟩ := head_fields f h
  have hs : ¬ Short d.msgtype sys := fun x => hg x.1
  have tw : timeW d.msgtype sys = 20 := by unfold timeW; rw [if_neg hs]
  constructor
  · rw [hh.tow, if_neg hs, a1, Int.toNat_of_nonneg f.tow.1]
  · rw [hh.epoch.1 hs, a1]
    have : ((e.h.tow.toNat : Nat) : ℚ) = (e.h.tow : ℚ) := by
      have := Int.toNat_of_nonneg f.tow.1
      exact_mod_cast this
    rw [this]
  · rw [hh.udi, if_pos (by simp), tw, a2, Int.toNat_of_nonneg f.udi.1]
  · rw [hh.mi, tw]
    have : i + 20 + 4 = i + 24 := by omega
    rw [this, a3]
    cases e.h.mi <;> rfl
  · rw [hh.iodssr, tw]
    have : i + 20 + 0 + 5 = i + 25 := by omega
    rw [this, a4, Int.toNat_of_nonneg f.iodssr.1]
  · rw [hh.iodssrC, if_pos (by simp), tw]
    have : i + 20 + 0 + 5 = i + 25 := by omega
    rw [this, a4, Int.toNat_of_nonneg f.iodssr.1]
  · rw [hh.pid, tw]
    have : i + 20 + 0 + 9 = i + 29 := by omega
    rw [this, a5, Int.toNat_of_nonneg f.pid.1]
  · rw [hh.sid, tw]
    have : i + 20 + 0 + 25 = i + 45 := by omega
    rw [this, a6, Int.toNat_of_nonneg f.sid.1]
  · rw [hh.t0s, if_pos (by simp)]

/-! ## Code biases -/

/-- value of a code bias record -/
def codeW (g : List Bool) : Val := num (toSigned 14 (bitsToNat ((g.drop 5).take 14))) 14 (1 / 100)

theorem codeAt_W {b : BitBuf} {p : Nat} {g m : List Bool} (hg : g.length = 19) (h : At b p (g ++ m)) :
    codeAt b p = codeW g := by
  rw [← List.take_append_drop 5 g, List.append_assoc] at h
  have h := h.tail
  rw [List.length_take, hg] at h
  have h : At b (p + 5) (g.drop 5 ++ m) := h
  unfold codeAt codeW intAt
  rw [bitsAt_of h (by rw [List.length_drop, hg]), List.take_of_length_le (by rw [List.length_drop, hg])]

theorem codeW_bits {x : Sig × Val} (f : CodeFit x) : CutV 14 (1 / 100) x.2 (codeW (codeBits x)) := by
  obtain ⟨y, hy⟩ := f.val
  have e5 : (ub 5 ((codeOf x.1 : Nat) : Int)).length = 5 := ub_length ..
  have e14 : (sb 14 (tq x.2 (1 / 100))).length = 14 := sb_length ..
  have : codeW (codeBits x) = num (tq x.2 (1 / 100)) 14 (1 / 100) := by
    unfold codeW codeBits
    rw [List.drop_left' e5, List.take_of_length_le (by rw [e14]), bits_sb f.fit]
  rw [this, hy]
  exact ⟨y, rfl, cut_spec (by norm_num)⟩

theorem entries_of {α : Type} {t : Typ} {tc : Char} {sys : Sys} (htc : (t = .C ∧ tc = 'C') ∨ (t = .L ∧ tc = 'L'))
    {R : Int → Sig → Val → α → Prop} (w : List Bool → α) (bits : Int → Sig × Val → List Bool) :
    ∀ l : List (Int × List (Sig × Val)), (∀ r ∈ l, ∀ x ∈ r.2, x.1.sys = sys ∧ sig2code x.1 = .ok (codeOf x.1) ∧
      (∃ m, bits r.1 x = ub 5 (codeOf x.1) ++ m) ∧ R r.1 x.1 x.2 (w (bits r.1 x))) →
    Entries t sys R (flat l) (l.flatMap fun r => (r.2.map (bits r.1)).map fun g =>
      ((r.1, nameOf tc sys (bitsToNat (g.take 5))), w g))
  | [], _ => List.Forall₂.nil
  | r :: l, h => by
    unfold Entries flat
    rw [List.flatMap_cons, List.flatMap_cons]
    refine List.rel_append ?_ (entries_of htc w bits l fun r hr => h r (by simp [hr]))
    have hr := h r (by simp)
    rw [List.map_map, List.forall₂_map_left_iff, List.forall₂_map_right_iff, List.forall₂_same]
    intro x hx
    obtain ⟨h1, h2, ⟨m, h3⟩, h4⟩ := hr x hx
    obtain ⟨k1, k2, k3, _⟩ := sig2code_spec h2
    refine ⟨?_, h4⟩
    simp only [Function.comp_apply]
    rw [h3, ub_take k1]
    rw [h1] at k2 k3
    rcases htc with ⟨a, b⟩ | ⟨a, b⟩
    · rw [a, b, k2]
    · rw [a, b, k3]

theorem code_numbers {m : Nat} {sys : Sys} (h : (m, sys) ∈ codeNo) :
    encKind m = some .cbias ∧ decKind m = some .cbias ∧ (∀ r, getSsrSys r m = .ok sys) ∧ m ≠ 4076 ∧ m < 4096 ∧
      (sys = .gps ∨ sys = .gal ∨ sys = .bds ∨ sys = .qzs) ∧ sys ≠ .glo := by
  unfold codeNo at h
  simp only [List.mem_cons, Prod.mk.injEq, List.not_mem_nil, or_false] at h
  rcases h with ⟨rfl, rfl⟩ | ⟨rfl, rfl⟩ | ⟨rfl, rfl⟩ | ⟨rfl, rfl⟩ <;>
    exact ⟨by decide, by decide, fun r => by cases r <;> rfl, by decide, by decide, by decide, by decide⟩

theorem phase_numbers {m : Nat} {sys : Sys} (h : (m, sys) ∈ phaseNo) :
    encKind m = some .pbias ∧ decKind m = some .pbias ∧ (∀ r, getSsrSys r m = .ok sys) ∧ m ≠ 4076 ∧ m < 90 ∧
      (sys = .gps ∨ sys = .gal ∨ sys = .bds ∨ sys = .qzs) ∧ sys ≠ .glo := by
  unfold phaseNo at h
  simp only [List.mem_cons, Prod.mk.injEq, List.not_mem_nil, or_false] at h
  rcases h with ⟨rfl, rfl⟩ | ⟨rfl, rfl⟩ | ⟨rfl, rfl⟩ | ⟨rfl, rfl⟩ <;>
    exact ⟨by decide, by decide, fun r => by cases r <;> rfl, by decide, by decide, by decide, by decide⟩

/-- **Round trip of code biases.** -/
theorem code_round_trip {e : BEnc} {b : BitBuf} {p : Pos} (h : encodeBias e b = .ok p) {sys : Sys}
    (hm : (e.h.msgtype, sys) ∈ codeNo)
    (hcount : (e.h.satN.filter fun s => (sat2prn s).1 = sys).length = (mine sys e.cbias).length)
    (hfair : ∀ r ∈ mine sys e.cbias, Fair sys r) (skip : Bool) (d : Dec) (q : Bias)
    (hr : q.satB.isSome ∨ ∀ t, timediff t ⟨0, 0⟩ = 315964800 + 604800 * d.week + e.h.tow →
      timediff t (d.t0s .cbias) > 0) :
    ∃ d' q' ents, RtcmBias.decode skip d q p.1 = .ok (some (d', q', p.2)) ∧ HeadRec e .cbias d d' ∧
      Entries .C sys (fun _ _ v z => CutV 14 (1 / 100) v z) (flat (mine sys e.cbias)) ents ∧
      (let new := timediff d'.time (d.t0s .cbias) > 0
       Stored (if new then [] else q.cbias) q'.cbias ents ((mine sys e.cbias).map (·.1)) ∧
       ∃ l, q'.satB = some l ∧ Listed (if new then [] else q.satB.getD []) l ((mine sys e.cbias).map (·.1))) ∧
      q' = { q with cbias := q'.cbias, satB := q'.satB } := by
  obtain ⟨n1, n2, n3, n4, n5, n6, n7⟩ := code_numbers hm
  unfold encodeBias at h
  obtain ⟨p1, h1, h⟩ := Py.bind_ok.1 h
  have s1 := putU_spec h1
  rw [n1] at h
  simp only at h
  unfold encodeCbias encSys at h
  rw [if_neg n4, n3 .none, Py.okBind] at h
  obtain ⟨p2, h2, h⟩ := Py.bind_ok.1 h
  obtain ⟨f2, w2⟩ := biasHeadE_spec n7 h2
  obtain ⟨f3, w3⟩ := fold_wr (fun r p p' _ hx => putCodeSat_spec (e := e) r p p' hx) _ _ _ w2.le h
  have w := s1.2.trans (w2.trans w3)
  have hat := w.at_
  have hpos := w.pos
  have r1 := (stepU s1.1 hat).1
  rw [Int.toNat_natCast] at r1
  have hat := hat.tail
  rw [ub_length] at hat
  have hat : At p.1 36 _ := hat
  obtain ⟨_, _, _, _, _, _, _, a8, a9, a10⟩ := head_fields f2 hat
  simp only [Bool.false_eq_true, if_false] at a8 a10
  rw [a10] at a9
  have hmine : ownB sys e.cbias = mine sys e.cbias := rfl
  rw [hmine] at f3 w3 a9 hpos w hat
  have hown : (own sys e.h.satN).length = (mine sys e.cbias).length := hcount
  rw [hown] at a8 hat f2 hpos a10
  have hbits : (mine sys e.cbias).flatMap (fun r => (codeRec e r).bits) =
      ((mine sys e.cbias).map (codeRec e)).flatMap Rec.bits := by rw [List.flatMap_map]
  have hmem : ∀ r ∈ mine sys e.cbias, (sat2prn r.1).1 = sys := by
    intro r hr'
    have := (List.mem_filter.1 hr').2
    simpa using this
  -- the records
  have hok : ∀ x ∈ (mine sys e.cbias).map (codeRec e), x.Ok (layCode e.h.msgtype sys) := by
    intro x hx
    obtain ⟨r, hr', rfl⟩ := List.mem_map.1 hx
    have hf := f3 r hr'
    have hf2 := hfair r hr'
    refine ⟨?_, rfl, ?_, ?_, ?_⟩
    · exact (sat_at n4 n6 (hmem r hr') hf.sat (b := satBits e.h r.1) (p := 0) (m := [])
        ⟨by omega, [], by simp⟩).2
    · intro g hg
      obtain ⟨y, _, rfl⟩ := List.mem_map.1 hg
      show (codeBits y).length = 19
      unfold codeBits
      rw [List.length_append, ub_length, sb_length]
    · show (r.2.map codeBits).length ≤ (sigs sys).length
      rw [List.length_map, ← (most_eq n6).1]
      exact hf2.1
    · show (r.2.map codeBits).length < 32
      rw [List.length_map]
      exact hf.n
  rw [hbits] at a9 hpos
  obtain ⟨l1, l2, l3⟩ := lay_spec _ _ hok a9
  rw [List.length_map] at l1 l2 l3
  have hsat : ∀ p' (x : Rec) m, x ∈ (mine sys e.cbias).map (codeRec e) → At p.1 p' (x.bits ++ m) →
      satAt e.h.msgtype sys p.1 p' = x.sat := by
    intro p' x m hx hx'
    obtain ⟨r, hr', rfl⟩ := List.mem_map.1 hx
    unfold Rec.bits at hx'
    rw [List.append_assoc] at hx'
    exact (sat_at n4 n6 (hmem r hr') (f3 r hr').sat hx').1
  have l4 := l2 (satAt e.h.msgtype sys p.1) Rec.sat hsat
  have l5 := l3 e.h.msgtype sys 'C' (by show 5 ≤ 19; omega) hsat (codeAt p.1) codeW
    (fun p g m hg hx => codeAt_W hg hx)
  -- the decoder
  have tw : timeW e.h.msgtype sys = 20 := by unfold timeW; rw [if_neg fun x => n7 x.1]
  generalize hd1 : ({ d with msgtype := e.h.msgtype } : Dec) = d1
  have hmt : d1.msgtype = e.h.msgtype := by rw [← hd1]
  have hready : C67.Ready d1 sys p.1 36 .cbias q.satB.isSome := by
    rcases hr with hr | hr
    · exact Or.inl hr
    · refine Or.inr fun t ht => ?_
      have := ht.1 (fun x => n7 x.1)
      rw [(head_fields f2 hat).1] at this
      have e0 : d1.t0s .cbias = d.t0s .cbias := by rw [← hd1]
      rw [e0]
      refine hr t (this.trans ?_)
      have e1 : ((e.h.tow.toNat : Nat) : ℚ) = (e.h.tow : ℚ) := by
        have := Int.toNat_of_nonneg f2.tow.1
        exact_mod_cast this
      have e2 : d1.week = d.week := by rw [← hd1]
      rw [e1, e2]
  have key := C68.code_bias (d := d1) (q := q) (sys := sys) (b := p.1) (i := 36) (by rw [hmt]; exact n3 _)
    (most_eq n6).2 hready
  have en : nsatAt d1.msgtype sys 0 0 p.1 36 = (mine sys e.cbias).length := by
    unfold nsatAt
    rw [hmt, tw]
    exact a8
  have eh : 36 + hdrW d1.msgtype sys 0 = 36 + 55 := by
    unfold hdrW
    rw [hmt, tw]
  simp only [en, eh] at key
  rw [hmt, l1, l4, l5] at key
  have hend : 36 + 55 + (((mine sys e.cbias).map (codeRec e)).flatMap Rec.bits).length = p.2 := by
    rw [hpos, List.length_append, List.length_append, ub_length, a10]
    omega
  rw [hend] at key
  obtain ⟨⟨d', q', i'⟩, k1, k2, k3, _, k5, k6⟩ := key.ok w.le
  simp only at k2 k3 k5 k6
  rw [List.map_map] at k5
  have e0 : d1.t0s .cbias = d.t0s .cbias := by rw [← hd1]
  rw [e0] at k5
  refine ⟨d', q', _, ?_, ?_, ?_, k5, k6⟩
  · unfold RtcmBias.decode
    rw [r1, Py.okBind]
    simp only
    rw [n2, hd1]
    simp only
    unfold ssrKind
    simp only
    rw [k1, k2]
    rfl
  · have := head_rec (phase := false) f2 hat n7 k3
    simp only [Bool.false_eq_true, if_false] at this
    refine ⟨this.tow, ?_, this.udi, this.mi, this.iodssr, this.iodssrC, this.pid, this.sid, this.t0s⟩
    have := this.time
    rwa [← hd1] at this
  · rw [List.flatMap_map]
    refine entries_of (Or.inl ⟨rfl, rfl⟩) codeW (fun _ x => codeBits x) _ fun r hr' x hx => ?_
    have hf := (f3 r hr').sigs x hx
    exact ⟨(hfair r hr').2 x hx, hf.code, ⟨_, rfl⟩, codeW_bits hf⟩

/-! ## Phase biases -/

theorem g_split {b : BitBuf} {p : Nat} {g m : List Bool} (n k : Nat) (hg : n + k ≤ g.length) (h : At b p (g ++ m)) :
    bitsAt b (p + n) k = bitsToNat ((g.drop n).take k) := by
  rw [← List.take_append_drop n g, List.append_assoc] at h
  have h := h.tail
  rw [List.length_take, Nat.min_eq_left (by omega)] at h
  have hd : (g.drop n).length = g.length - n := List.length_drop
  rw [← List.take_append_drop k (g.drop n), List.append_assoc] at h
  exact bitsAt_of h (by rw [List.length_take, hd]; omega)

/-- value, indicator and counter of a phase bias record -/
def phW (g : List Bool) : Val := num (toSigned 20 (bitsToNat ((g.drop 10).take 20))) 20 (1 / 10000)
def siW (g : List Bool) : Bool := bitsToNat ((g.drop 5).take 1) == 1
def diW (g : List Bool) : Nat := bitsToNat ((g.drop 6).take 4)

theorem mid {a c r : List Bool} {n k : Nat} (h1 : a.length = n) (h2 : c.length = k) :
    ((a ++ (c ++ r)).drop n).take k = c := by
  rw [List.drop_left' h1, List.take_left' h2]

theorem phaseBits_W {e : BEnc} {s : Int} {x : Sig × Val} (f : PhaseFit e s x) :
    Quant 20 (1 / 10000) x.2 (phW (phaseBits e s x)) ∧ Ind e s x.1 (siW (phaseBits e s x)) ∧
      Cnt e s x.1 (diW (phaseBits e s x)) := by
  have l5 : (ub 5 ((codeOf x.1 : Nat) : Int)).length = 5 := ub_length ..
  have l1 : (ub 1 ((siOf e s x.1).toNat : Int)).length = 1 := ub_length ..
  have l4 : (ub 4 (diOf e s x.1)).length = 4 := ub_length ..
  have l20 : (sb 20 (ival x.2 20 (1 / 10000))).length = 20 := sb_length ..
  refine ⟨?_, ?_, ?_⟩
  · have : phW (phaseBits e s x) = quant 20 (1 / 10000) x.2 := by
      unfold phW phaseBits
      rw [← List.append_assoc, ← List.append_assoc,
        List.drop_left' (by rw [List.length_append, List.length_append, l5, l1, l4]),
        List.take_of_length_le (by rw [l20]), bits_sb f.fit]
      rfl
    rw [this]
    exact quant_Quant (by norm_num) f.fit
  · have : siW (phaseBits e s x) = siOf e s x.1 := by
      unfold siW phaseBits
      rw [mid l5 l1, bits_ub (by unfold FitU; cases siOf e s x.1 <;> simp), Int.toNat_natCast]
      cases siOf e s x.1 <;> rfl
    rw [this]
    unfold Ind siOf
    refine ⟨fun r hr => ?_, fun hn => by rw [hn]; rfl⟩
    obtain ⟨r', v, h1, h2⟩ := f.si (by rw [hr]; rfl)
    rw [hr] at h1
    obtain rfl := Option.some.inj h1
    rw [hr, Option.bind_some, h2]
    rfl
  · have : diW (phaseBits e s x) = (diOf e s x.1).toNat := by
      unfold diW phaseBits
      rw [← List.append_assoc, mid (by rw [List.length_append, l5, l1]) l4, bits_ub f.fd]
    rw [this]
    unfold Cnt
    obtain ⟨r, v, h1, h2⟩ := f.di
    have hd : diOf e s x.1 = v := by unfold diOf; rw [h1, Option.bind_some, h2]; rfl
    have h0 := f.fd.1
    rw [hd] at h0
    refine ⟨r, h1, ?_⟩
    rw [hd, Int.toNat_of_nonneg h0]
    exact h2

theorem yaw_at {e : BEnc} {s : Int} (f : YawFit e s) (hm : Dict.mem e.yaw s = true) {b : BitBuf} {p : Nat}
    {m : List Bool} (h : At b p (yawBits e s ++ m)) :
    YawIs e s ((bitsAt b p 9 : ℚ) / 256) (num (intAt b (p + 9) 8) 8 (1 / 8192)) := by
  unfold yawBits at h
  rw [if_pos hm, List.append_assoc] at h
  have a1 := uAt h f.f1
  have h := h.tail
  rw [ub_length] at h
  have a2 := sAt h f.f2
  obtain ⟨y, hy⟩ := f.yaw
  obtain ⟨z, hz⟩ := f.dyaw
  have e1 : yawOf e s = some y := by unfold yawOf; rw [hy]; rfl
  have e2 : dyawOf e s = some z := by unfold dyawOf; rw [hz]; rfl
  have f1 := f.f1
  rw [e1] at a1 f1
  rw [e2] at a2
  refine ⟨⟨y, hy, ?_⟩, z, hz, ?_⟩
  · have e3 : ((bitsAt b p 9 : Nat) : ℚ) = ((tq (some y) (1 / 256) : Int) : ℚ) := by
      rw [a1]
      have := Int.toNat_of_nonneg f1.1
      exact_mod_cast this
    have hu : (0 : ℚ) < 1 / 256 := by norm_num
    have h1 := C84.pyTrunc_close (y / (1 / 256))
    have h2 := C85.trunc_abs (y / (1 / 256))
    rw [abs_div, abs_of_pos hu, le_div_iff₀ hu] at h2
    have e4 : tq (some y) (1 / 256) = pyTrunc (y / (1 / 256)) := rfl
    rw [e3, e4, div_eq_mul_one_div]
    constructor
    · have e : (pyTrunc (y / (1 / 256)) : ℚ) * (1 / 256) - y =
          ((pyTrunc (y / (1 / 256)) : ℚ) - y / (1 / 256)) * (1 / 256) := by field_simp
      rw [e, abs_mul, abs_of_pos hu]
      nlinarith
    · rw [abs_mul, abs_of_pos hu]
      exact h2
  · rw [a2]
    exact cut_spec (by norm_num)

theorem flat_map₂ {α β γ : Type} {R : β → γ → Prop} (f : α → β) (g : α → γ) (l : List α) (h : ∀ a ∈ l, R (f a) (g a)) :
    List.Forall₂ R (l.map f) (l.map g) := by
  rw [List.forall₂_map_left_iff, List.forall₂_map_right_iff, List.forall₂_same]
  exact h

/-- **Round trip of phase biases.** -/
theorem phase_round_trip {e : BEnc} {b : BitBuf} {p : Pos} (h : encodeBias e b = .ok p) {sys : Sys}
    (hm : (e.h.msgtype, sys) ∈ phaseNo)
    (hfair : ∀ r ∈ mine sys e.pbias, Fair sys r)
    (hyaw : ∀ r ∈ mine sys e.pbias, (Dict.get? e.yaw r.1).isSome = e.iyaw) (d : Dec) (q : Bias) (ha : Aligned q)
    (hr : q.satB.isSome ∨ ∀ t, timediff t ⟨0, 0⟩ = 315964800 + 604800 * d.week + e.h.tow →
      timediff t (d.t0s .pbias) > 0) :
    ∃ d' q' pe se de ye ze, RtcmBias.decode false d q p.1 = .ok (some (d', q', p.2)) ∧ HeadRec e .pbias d d' ∧
      q'.iyaw = e.iyaw ∧ (q'.iexpb : Int) = e.iexpb ∧ q'.cbias = q.cbias ∧ Aligned q' ∧
      Entries .L sys (fun _ _ v z => Quant 20 (1 / 10000) v z) (flat (mine sys e.pbias)) pe ∧
      Entries .L sys (fun s g _ z => Ind e s g z) (flat (mine sys e.pbias)) se ∧
      Entries .L sys (fun s g _ z => Cnt e s g z) (flat (mine sys e.pbias)) de ∧
      List.Forall₂ (fun (y : Int × ℚ) (z : Int × Val) => y.1 = z.1 ∧ YawIs e y.1 y.2 z.2) ye ze ∧
      ye.map (·.1) = (if e.iyaw then (mine sys e.pbias).map (·.1) else []) ∧
      Yawed q.yaw q'.yaw ye ∧ Yawed q.dyaw q'.dyaw ze ∧
      (let new := timediff d'.time (d.t0s .pbias) > 0
       Stored (if new then [] else q.pbias) q'.pbias pe ((mine sys e.pbias).map (·.1)) ∧
       Stored (if new then [] else q.si) q'.si se ((mine sys e.pbias).map (·.1)) ∧
       Stored (if new then [] else q.di) q'.di de ((mine sys e.pbias).map (·.1)) ∧
       ∃ l, q'.satB = some l ∧ Listed (if new then [] else q.satB.getD []) l ((mine sys e.pbias).map (·.1))) := by
  obtain ⟨n1, n2, n3, n4, n5, n6, n7⟩ := phase_numbers hm
  unfold encodeBias at h
  obtain ⟨p1, h1, h⟩ := Py.bind_ok.1 h
  have s1 := putU_spec h1
  rw [n1] at h
  simp only at h
  unfold encodePbias encSys at h
  rw [if_neg n4, n3 .none, Py.okBind] at h
  obtain ⟨p2, h2, h⟩ := Py.bind_ok.1 h
  obtain ⟨f2, w2⟩ := biasHeadE_spec n7 h2
  obtain ⟨f3, w3⟩ := fold_wr (fun r p p' _ hx => putPhaseSat_spec (e := e) r p p' hx) _ _ _ w2.le h
  have w := s1.2.trans (w2.trans w3)
  have hat := w.at_
  have hpos := w.pos
  have r1 := (stepU s1.1 hat).1
  rw [Int.toNat_natCast] at r1
  have hat := hat.tail
  rw [ub_length] at hat
  have hat : At p.1 36 _ := hat
  obtain ⟨a1, _, _, _, _, _, a7, a8, a9, a10⟩ := head_fields f2 hat
  obtain ⟨a71, a72⟩ := a7 rfl
  simp only [if_true] at a8 a10
  rw [a10] at a9
  have hmine : ownB sys e.pbias = mine sys e.pbias := rfl
  rw [hmine] at f3 w3 a9 hpos w hat
  rw [hmine] at a8 f2 a10
  have hbits : (mine sys e.pbias).flatMap (fun r => (phaseRec e r).bits) =
      ((mine sys e.pbias).map (phaseRec e)).flatMap Rec.bits := by rw [List.flatMap_map]
  have hmem : ∀ r ∈ mine sys e.pbias, (sat2prn r.1).1 = sys := by
    intro r hr'
    have := (List.mem_filter.1 hr').2
    simpa using this
  have hy : ∀ r ∈ mine sys e.pbias, Dict.mem e.yaw r.1 = e.iyaw := hyaw
  have hsw : ∀ r ∈ mine sys e.pbias, (satBits e.h r.1).length = satW e.h.msgtype sys := fun r hr' =>
    (sat_at n4 n6 (hmem r hr') (f3 r hr').sat (b := satBits e.h r.1) (p := 0) (m := []) ⟨by omega, [], by simp⟩).2
  -- the records
  have hok : ∀ x ∈ (mine sys e.pbias).map (phaseRec e), x.Ok (layPhase .phase2 e.iyaw e.h.msgtype sys) := by
    intro x hx
    obtain ⟨r, hr', rfl⟩ := List.mem_map.1 hx
    have hf := f3 r hr'
    have hf2 := hfair r hr'
    refine ⟨hsw r hr', ?_, ?_, ?_, ?_⟩
    · show (yawBits e r.1).length = if e.iyaw = true then 17 else 0
      unfold yawBits
      rw [hy r hr']
      split_ifs
      · rw [List.length_append, ub_length, sb_length]
      · rfl
    · intro g hg
      obtain ⟨y, _, rfl⟩ := List.mem_map.1 hg
      show (phaseBits e r.1 y).length = 30
      unfold phaseBits
      rw [List.length_append, List.length_append, List.length_append, ub_length, ub_length, ub_length, sb_length]
    · show (r.2.map (phaseBits e r.1)).length ≤ (sigs sys).length
      rw [List.length_map, ← (most_eq n6).1]
      exact hf2.1
    · show (r.2.map (phaseBits e r.1)).length < 32
      rw [List.length_map]
      exact hf.n
  rw [hbits] at a9 hpos
  obtain ⟨l1, l2, l3⟩ := lay_spec _ _ hok a9
  rw [List.length_map] at l1 l2 l3
  have hsat : ∀ p' (x : Rec) m, x ∈ (mine sys e.pbias).map (phaseRec e) → At p.1 p' (x.bits ++ m) →
      satAt e.h.msgtype sys p.1 p' = x.sat := by
    intro p' x m hx hx'
    obtain ⟨r, hr', rfl⟩ := List.mem_map.1 hx
    unfold Rec.bits at hx'
    rw [List.append_assoc] at hx'
    exact (sat_at n4 n6 (hmem r hr') (f3 r hr').sat hx').1
  have l4 := l2 (satAt e.h.msgtype sys p.1) Rec.sat hsat
  have l30 : 5 ≤ (layPhase .phase2 e.iyaw e.h.msgtype sys).s := by show 5 ≤ 30; omega
  have e30 : (layPhase .phase2 e.iyaw e.h.msgtype sys).s = 30 := rfl
  have lp := l3 e.h.msgtype sys 'L' l30 hsat (C68.phaseAt .phase2 p.1) phW (by
    intro p' g m hg hx
    rw [e30] at hg
    show num (toSigned 20 (bitsAt p.1 (p' + 10) 20)) 20 (1 / 10000) = phW g
    unfold phW
    rw [g_split 10 20 (by omega) hx])
  have ls := l3 e.h.msgtype sys 'L' l30 hsat (C68.siAt p.1) siW (by
    intro p' g m hg hx
    rw [e30] at hg
    show (bitsAt p.1 (p' + 5) 1 == 1) = siW g
    unfold siW
    rw [g_split 5 1 (by omega) hx])
  have ld := l3 e.h.msgtype sys 'L' l30 hsat (C68.diAt .phase2 p.1) diW (by
    intro p' g m hg hx
    rw [e30] at hg
    show bitsAt p.1 (p' + 6) 4 = diW g
    unfold diW
    rw [g_split 6 4 (by omega) hx])
  -- the yaw angles
  have yawpos : ∀ p' r m, r ∈ mine sys e.pbias → At p.1 p' ((phaseRec e r).bits ++ m) → e.iyaw = true →
      YawIs e r.1 ((bitsAt p.1 (p' + satW e.h.msgtype sys + 5) 9 : ℚ) / 256)
        (num (intAt p.1 (p' + satW e.h.msgtype sys + 14) 8) 8 (1 / 8192)) := by
    intro p' r m hr' hx hi
    have hmem' : Dict.mem e.yaw r.1 = true := by rw [hy r hr', hi]
    have hyf := (f3 r hr').yaw hmem'
    unfold Rec.bits phaseRec at hx
    simp only [List.append_assoc] at hx
    have hx := hx.tail.tail
    rw [ub_length, hsw r hr'] at hx
    have := yaw_at hyf hmem' hx
    have e9 : p' + satW e.h.msgtype sys + 5 + 9 = p' + satW e.h.msgtype sys + 14 := by omega
    rwa [e9] at this
  -- the decoder
  have tw : timeW e.h.msgtype sys = 20 := by unfold timeW; rw [if_neg fun x => n7 x.1]
  generalize hd1 : ({ d with msgtype := e.h.msgtype } : Dec) = d1
  have hmt : d1.msgtype = e.h.msgtype := by rw [← hd1]
  have e0 : d1.t0s .pbias = d.t0s .pbias := by rw [← hd1]
  have hready : C67.Ready d1 sys p.1 36 .pbias q.satB.isSome := by
    rcases hr with hr | hr
    · exact Or.inl hr
    · refine Or.inr fun t ht => ?_
      have := ht.1 (fun x => n7 x.1)
      rw [a1] at this
      rw [e0]
      refine hr t (this.trans ?_)
      have e1 : ((e.h.tow.toNat : Nat) : ℚ) = (e.h.tow : ℚ) := by
        have := Int.toNat_of_nonneg f2.tow.1
        exact_mod_cast this
      have e2 : d1.week = d.week := by rw [← hd1]
      rw [e1, e2]
  have key := C68.phase_bias (d := d1) (q := q) (sys := sys) (b := p.1) (i := 36) (f := .phase2) (by decide)
    (by rw [hmt]; exact n3 _) (most_eq n6).2 hready ha
  have en : nsatAt d1.msgtype sys 0 (C68.phaseHdr .phase2) p.1 36 = (mine sys e.pbias).length := by
    unfold nsatAt C68.phaseHdr
    rw [hmt, tw]
    exact a8
  have eh : 36 + hdrW d1.msgtype sys (C68.phaseHdr .phase2) = 36 + (55 + 5) := by
    unfold hdrW C68.phaseHdr
    rw [hmt, tw]
    rfl
  have ew : C68.yawFlag .phase2 d1.msgtype sys p.1 36 = e.iyaw := by
    unfold C68.yawFlag
    rw [if_pos rfl, hmt, tw]; erw [a71]
    cases e.iyaw <;> rfl
  have ex : C68.expFlag .phase2 d1.msgtype sys p.1 36 = e.iexpb.toNat := by
    unfold C68.expFlag
    rw [if_pos rfl, hmt, tw]; exact a72
  simp only [en, eh, ew, ex] at key
  rw [hmt, l1] at key
  have hend : 36 + (55 + 5) + (((mine sys e.pbias).map (phaseRec e)).flatMap Rec.bits).length = p.2 := by
    rw [hpos, List.length_append, List.length_append, ub_length, a10]
    omega
  rw [hend] at key
  obtain ⟨⟨d', q', i'⟩, k1, k2, k3, _, k5, k6, k7, k8, l, k9, k10⟩ := key.ok w.le
  simp only at k2 k3 k5 k6 k7 k8 k9 k10
  rw [e0] at k10
  have kp := k10.tabs.pb
  have ks := k10.tabs.si
  have kd := k10.tabs.di
  have kl := k10.sats
  have ky := k10.yaw
  have kz := k10.dyaw
  rw [lp, l4, List.map_map] at kp
  rw [ls, l4, List.map_map] at ks
  rw [ld, l4, List.map_map] at kd
  rw [l4, List.map_map] at kl
  have fitx := f2.iexpb rfl
  -- the yaw angles of the records
  have hyz : List.Forall₂ (fun (y : Int × ℚ) (z : Int × Val) => y.1 = z.1 ∧ YawIs e y.1 y.2 z.2)
      (C68.yawEnts e.iyaw e.h.msgtype sys p.1 ((layPhase .phase2 e.iyaw e.h.msgtype sys).recs p.1
        (mine sys e.pbias).length (36 + (55 + 5))))
      (C68.dyawEnts e.iyaw e.h.msgtype sys p.1 ((layPhase .phase2 e.iyaw e.h.msgtype sys).recs p.1
        (mine sys e.pbias).length (36 + (55 + 5)))) := by
    unfold C68.yawEnts C68.dyawEnts
    cases hi : e.iyaw with
    | false => exact List.Forall₂.nil
    | true =>
      rw [if_pos rfl, if_pos rfl]
      rw [hi] at l2
      refine flat_map₂ _ _ _ fun x hx => ⟨rfl, ?_⟩
      have hv := l2 (fun p' => YawIs e (satAt e.h.msgtype sys p.1 p')
        ((bitsAt p.1 (p' + satW e.h.msgtype sys + 5) 9 : ℚ) / 256)
        (num (intAt p.1 (p' + satW e.h.msgtype sys + 14) 8) 8 (1 / 8192))) (fun _ => True) (by
          intro p' x m hx hx'
          have hs := hsat p' x m hx hx'
          obtain ⟨r, hr', rfl⟩ := List.mem_map.1 hx
          have := yawpos p' r m hr' hx' hi
          rw [hs]
          exact eq_true this)
      have h1 := List.mem_map_of_mem (f := fun p' => YawIs e (satAt e.h.msgtype sys p.1 p')
        ((bitsAt p.1 (p' + satW e.h.msgtype sys + 5) 9 : ℚ) / 256)
        (num (intAt p.1 (p' + satW e.h.msgtype sys + 14) 8) 8 (1 / 8192))) hx
      rw [hv] at h1
      obtain ⟨_, _, h2⟩ := List.mem_map.1 h1
      exact of_eq_true h2.symm
  have he1 := entries_of (R := fun _ _ v z => Quant 20 (1 / 10000) v z) (Or.inr ⟨rfl, rfl⟩) phW
    (fun s x => phaseBits e s x) (mine sys e.pbias) fun r hr' x hx => ⟨(hfair r hr').2 x hx,
      ((f3 r hr').sigs x hx).code, ⟨_, rfl⟩, (phaseBits_W ((f3 r hr').sigs x hx)).1⟩
  have he2 := entries_of (R := fun s g _ z => Ind e s g z) (Or.inr ⟨rfl, rfl⟩) siW
    (fun s x => phaseBits e s x) (mine sys e.pbias) fun r hr' x hx => ⟨(hfair r hr').2 x hx,
      ((f3 r hr').sigs x hx).code, ⟨_, rfl⟩, (phaseBits_W ((f3 r hr').sigs x hx)).2.1⟩
  have he3 := entries_of (R := fun s g _ z => Cnt e s g z) (Or.inr ⟨rfl, rfl⟩) diW
    (fun s x => phaseBits e s x) (mine sys e.pbias) fun r hr' x hx => ⟨(hfair r hr').2 x hx,
      ((f3 r hr').sigs x hx).code, ⟨_, rfl⟩, (phaseBits_W ((f3 r hr').sigs x hx)).2.2⟩
  refine ⟨d', q', _, _, _, _, _, ?_, ?_, k6, ?_, k8, k5, he1, he2, he3, hyz, ?_, ?_, ?_, ?_, ?_, ?_, l, k9, ?_⟩
  · unfold RtcmBias.decode
    rw [r1, Py.okBind]
    simp only
    rw [n2, hd1]
    simp only [Bool.false_eq_true, if_false]
    rw [if_pos n5]
    unfold ssrKind
    simp only
    rw [k1, k2]
    rfl
  · have := head_rec (phase := true) f2 hat n7 k3
    simp only [if_true] at this
    refine ⟨this.tow, ?_, this.udi, this.mi, this.iodssr, this.iodssrC, this.pid, this.sid, this.t0s⟩
    have := this.time
    rwa [← hd1] at this
  · rw [k7, Int.toNat_of_nonneg fitx.1]
  · unfold C68.yawEnts
    cases hi : e.iyaw with
    | false => rfl
    | true =>
      rw [hi] at l4
      rw [if_pos rfl, if_pos rfl, List.map_map]
      have : (fun x : Int × ℚ => x.1) ∘ (fun p' => (satAt e.h.msgtype sys p.1 p',
          (bitsAt p.1 (p' + satW e.h.msgtype sys + 5) 9 : ℚ) / 256)) = satAt e.h.msgtype sys p.1 := rfl
      rw [this, l4, List.map_map]
      rfl
  · have : (C68.base (decide (timediff d'.time (d.t0s .pbias) > 0)) q).yaw = q.yaw := by
      unfold C68.base C68.fresh
      split_ifs <;> rfl
    rwa [this] at ky
  · have : (C68.base (decide (timediff d'.time (d.t0s .pbias) > 0)) q).dyaw = q.dyaw := by
      unfold C68.base C68.fresh
      split_ifs <;> rfl
    rwa [this] at kz
  · have : (C68.base (decide (timediff d'.time (d.t0s .pbias) > 0)) q).pbias =
        if timediff d'.time (d.t0s .pbias) > 0 then [] else q.pbias := by
      unfold C68.base C68.fresh
      by_cases c : timediff d'.time (d.t0s .pbias) > 0 <;> simp [c]
    rw [this, List.flatMap_map] at kp
    exact kp
  · have : (C68.base (decide (timediff d'.time (d.t0s .pbias) > 0)) q).si =
        if timediff d'.time (d.t0s .pbias) > 0 then [] else q.si := by
      unfold C68.base C68.fresh
      by_cases c : timediff d'.time (d.t0s .pbias) > 0 <;> simp [c]
    rw [this, List.flatMap_map] at ks
    exact ks
  · have : (C68.base (decide (timediff d'.time (d.t0s .pbias) > 0)) q).di =
        if timediff d'.time (d.t0s .pbias) > 0 then [] else q.di := by
      unfold C68.base C68.fresh
      by_cases c : timediff d'.time (d.t0s .pbias) > 0 <;> simp [c]
    rw [this, List.flatMap_map] at kd
    exact kd
  · have : (C68.base (decide (timediff d'.time (d.t0s .pbias) > 0)) q).satB.getD [] =
        if timediff d'.time (d.t0s .pbias) > 0 then [] else q.satB.getD [] := by
      unfold C68.base C68.fresh
      by_cases c : timediff d'.time (d.t0s .pbias) > 0 <;> simp [c]
    rw [this] at kl
    exact kl

/-! ## Each value -/

theorem lastVal_mem {κ α : Type} [DecidableEq κ] : ∀ {l : List (κ × α)}, (l.map (·.1)).Nodup → ∀ {x : κ × α}, x ∈ l →
    lastVal l x.1 = some x.2
  | [], _, _, h => by simp at h
  | y :: l, hn, x, h => by
    rw [List.map_cons, List.nodup_cons] at hn
    have e : y :: l = [y] ++ l := rfl
    rw [e, C67.lastVal_append]
    rcases List.mem_cons.1 h with rfl | h
    · have : lastVal l x.1 = none := by
        unfold lastVal
        rw [Option.map_eq_none_iff, List.find?_eq_none]
        intro z hz
        have hz := List.mem_reverse.1 hz
        intro hc
        exact hn.1 (List.mem_map.2 ⟨z, hz, by simpa using hc⟩)
      rw [this, Option.none_or, show [x] = [(x.1, x.2)] from rfl, C67.lastVal_one, if_pos rfl]
    · rw [lastVal_mem hn.2 h, Option.some_or]

theorem lastVal_none {κ α : Type} [DecidableEq κ] {l : List (κ × α)} {k : κ} (h : k ∉ l.map (·.1)) :
    lastVal l k = none := by
  unfold lastVal
  rw [Option.map_eq_none_iff, List.find?_eq_none]
  intro z hz hc
  exact h (List.mem_map.2 ⟨z, List.mem_reverse.1 hz, by simpa using hc⟩)

theorem forall₂_mem {α β : Type} {R : α → β → Prop} : ∀ {l : List α} {m : List β}, List.Forall₂ R l m → ∀ {x : α}, x ∈ l →
    ∃ y ∈ m, R x y
  | _, _, .nil, _, h => by simp at h
  | _, _, .cons h1 h2, x, h => by
    rcases List.mem_cons.1 h with rfl | h
    · exact ⟨_, by simp, h1⟩
    · obtain ⟨y, hy, hR⟩ := forall₂_mem h2 h
      exact ⟨y, by simp [hy], hR⟩

theorem entries_keys {α : Type} {t : Typ} {sys : Sys} {R : Int → Sig → Val → α → Prop} {l : List (Int × Sig × Val)}
    {ents : List ((Int × List Char) × α)} (h : Entries t sys R l ents) :
    ents.map (·.1) = l.map fun x => (x.1, str ⟨sys, t, x.2.1.sig⟩) := by
  unfold Entries at h
  induction h with
  | nil => rfl
  | cons h1 _ ih => rw [List.map_cons, List.map_cons, ih, h1.1]

/-- **Lookup.** When no two values have the same satellite and signal name, each is found under its own; what the message
does not name stays. -/
theorem each_value {α : Type} {t : Typ} {sys : Sys} {R : Int → Sig → Val → α → Prop} {l : List (Int × Sig × Val)}
    {ents : List ((Int × List Char) × α)} (h : Entries t sys R l ents)
    (hn : (l.map fun x => (x.1, str ⟨sys, t, x.2.1.sig⟩)).Nodup) {old new : Dict Int (Row α)} {named : List Int}
    (hs : Stored old new ents named) :
    (∀ x ∈ l, ∃ z, look2 new (x.1, str ⟨sys, t, x.2.1.sig⟩) = some z ∧ R x.1 x.2.1 x.2.2 z) ∧
    ∀ k, k ∉ (l.map fun x => (x.1, str ⟨sys, t, x.2.1.sig⟩)) → look2 new k = look2 old k := by
  have hk := entries_keys h
  constructor
  · intro x hx
    obtain ⟨y, hy, e, hR⟩ := forall₂_mem h hx
    refine ⟨y.2, ?_, hR⟩
    rw [hs.val, ← e, lastVal_mem (by rw [hk]; exact hn) hy, Option.some_or]
  · intro k hk'
    rw [hs.val, lastVal_none (by rw [hk]; exact hk'), Option.none_or]

/-- the names of the signals of a constellation are distinct -/
theorem names (sys : Sys) (t : Typ) (ht : t = .C ∨ t = .L) : ∀ x ∈ (ssigT sys).getD [], ∀ y ∈ (ssigT sys).getD [],
    str ⟨sys, t, x.2⟩ = str ⟨sys, t, y.2⟩ → x.2 = y.2 := by
  rcases ht with rfl | rfl <;> cases sys <;> decide +kernel

/-- distinct satellites with distinct signals have distinct names -/
theorem keys_nodup {sys : Sys} {t : Typ} (ht : t = .C ∨ t = .L) : ∀ {l : List (Int × List (Sig × Val))},
    (l.map (·.1)).Nodup → (∀ r ∈ l, (r.2.map (·.1.sig)).Nodup ∧ ∀ x ∈ r.2, x.1.sys = sys ∧ ∃ c, sig2code x.1 = .ok c) →
    ((flat l).map fun x => (x.1, str ⟨sys, t, x.2.1.sig⟩)).Nodup
  | [], _, _ => List.nodup_nil
  | r :: l, hn, h => by
    rw [List.map_cons, List.nodup_cons] at hn
    unfold flat
    rw [List.flatMap_cons, List.map_append, List.nodup_append]
    obtain ⟨h1, h2⟩ := h r (by simp)
    refine ⟨?_, keys_nodup ht hn.2 fun r hr => h r (by simp [hr]), ?_⟩
    · rw [List.map_map]
      have hm : ∀ x ∈ r.2, ∃ c, (c, x.1.sig) ∈ (ssigT sys).getD [] := by
        intro x hx
        obtain ⟨e1, c, hc⟩ := h2 x hx
        have := (sig2code_spec hc).2.2.2
        rw [e1] at this
        exact ⟨c, this⟩
      rw [List.nodup_iff_pairwise_ne, List.pairwise_map] at h1 ⊢
      refine h1.imp_of_mem fun {a b} ha hb hab hc => hab ?_
      obtain ⟨c1, m1⟩ := hm a ha
      obtain ⟨c2, m2⟩ := hm b hb
      exact names sys t ht _ m1 _ m2 (Prod.mk.inj hc).2
    · intro a ha b hb hab
      subst hab
      rw [List.map_map] at ha
      obtain ⟨x, _, rfl⟩ := List.mem_map.1 ha
      obtain ⟨y, hy, e⟩ := List.mem_map.1 hb
      obtain ⟨r', hr', hy⟩ := List.mem_flatMap.1 hy
      obtain ⟨z, _, rfl⟩ := List.mem_map.1 hy
      exact hn.1 (List.mem_map.2 ⟨r', hr', (Prod.mk.inj e).1⟩)

/-! ## Cases -/

/-- what a fresh decoder reads from the message of an encoder: end of writing, end of reading, satellites, code biases,
phase biases, yaw angles -/
def through (e : BEnc) : Option (Nat × Nat × Option (List Int) × Dict Int (Row Val) × Dict Int (Row Val) × Dict Int ℚ) :=
  match encodeBias e (List.replicate 240 false) with
  | .error _ => none
  | .ok p =>
    match RtcmBias.decode false { msgtype := 0, week := 2300 } {} p.1 with
    | .ok (some (_, q, i)) => some (p.2, i, q.satB, q.cbias, q.pbias, q.yaw)
    | _ => none

def isOk {α : Type} (p : α → Bool) : Option α → Bool
  | some x => p x
  | none => false

/-- two GPS satellites, and a Galileo satellite that the GPS message leaves out -/
def exC : BEnc :=
  { h := { msgtype := 1059, tow := 345600, satN := [1, 70, 7], iodssr := 3, pid := 5 }
    cbias := [(1, [(⟨.gps, .C, 103⟩, some (123 / 1000)), (⟨.gps, .C, 223⟩, some (-129 / 1000))]),
      (70, [(⟨.gal, .C, 103⟩, some 1)]), (7, [(⟨.gps, .C, 103⟩, some (5 / 2))])] }

def exP : BEnc :=
  { h := { msgtype := 85, tow := 345600, iodssr := 3, pid := 5 }
    pbias := [(1, [(⟨.gps, .L, 103⟩, some (123 / 1000))]), (7, [(⟨.gps, .L, 103⟩, none)])]
    si := [(7, [(⟨.gps, .L, 103⟩, true)])]
    di := [(1, [(⟨.gps, .L, 103⟩, 4)]), (7, [(⟨.gps, .L, 103⟩, 6)])]
    yaw := [(1, some (1 / 2)), (7, some (3 / 2))]
    dyaw := [(1, some (-1 / 100)), (7, some 0)]
    iyaw := true, iexpb := 2 }

/-- hypotheses of `code_round_trip` -/
example : (exC.h.msgtype, Sys.gps) ∈ codeNo ∧
    (exC.h.satN.filter fun s => (sat2prn s).1 = .gps).length = (mine .gps exC.cbias).length ∧
    (∀ r ∈ mine .gps exC.cbias, r.2.length ≤ most .gps ∧ ∀ x ∈ r.2, x.1.sys = .gps) ∧ (mine .gps exC.cbias).length = 2 := by
  decide +kernel

example : isOk (fun x => x.1 = 170 && x.2.1 = 170 && x.2.2.1 = some [1, 7] &&
    look2 x.2.2.2.1 (1, ['C', '1', 'C']) = some (some (12 / 100)) &&
    look2 x.2.2.2.1 (1, ['C', '2', 'W']) = some (some (-12 / 100)) &&
    look2 x.2.2.2.1 (7, ['C', '1', 'C']) = some (some (5 / 2))) (through exC) = true := by
  decide +kernel

/-- hypotheses of `phase_round_trip` -/
example : (exP.h.msgtype, Sys.gps) ∈ phaseNo ∧ (∀ r ∈ mine .gps exP.pbias, r.2.length ≤ most .gps ∧ ∀ x ∈ r.2, x.1.sys = .gps) ∧
    (∀ r ∈ mine .gps exP.pbias, (Dict.get? exP.yaw r.1).isSome = exP.iyaw) ∧ Aligned {} :=
  ⟨by decide, by decide +kernel, by decide +kernel, fun _ => ⟨rfl, rfl, rfl⟩⟩

example : isOk (fun x => x.1 = 212 && x.2.1 = 212 && x.2.2.1 = some [1, 7] &&
    look2 x.2.2.2.2.1 (1, ['L', '1', 'C']) = some (some (123 / 1000)) &&
    look2 x.2.2.2.2.1 (7, ['L', '1', 'C']) = some none && Dict.get? x.2.2.2.2.2 7 = some (3 / 2)) (through exP) = true := by
  decide +kernel

/-- distinct names, as `each_value` asks -/
example : ((flat (mine .gps exC.cbias)).map fun x => (x.1, str ⟨.gps, .C, x.2.1.sig⟩)).Nodup := by decide +kernel

/-- **The count of the header.** With a satellite in the satellite list that has no code biases, the reader goes past the end
and adds a satellite of number 0. -/
theorem count_differs : isOk (fun x => x.1 < x.2.1 && x.2.2.1 = some [1, 0])
    (through { exC with cbias := exC.cbias.take 1 }) = true := by decide +kernel

/-- with a satellite with code biases that is not in the list, its biases are not read -/
theorem count_short : isOk (fun x => x.2.1 < x.1 && x.2.2.1 = some [1]) (through { exC with h := { exC.h with satN := [1] } }) = true := by
  decide +kernel

/-- **The yaw flag of the header** does not depend on which satellites have a yaw angle: with the flag and no angle of a
satellite its phase bias is read as an angle, without the flag and with angles the angle is read as a bias. -/
theorem yaw_missing : isOk (fun x => look2 x.2.2.2.2.1 (7, ['L', '1', 'C']) = some (some 0) &&
    Dict.get? x.2.2.2.2.2 7 = some (11 / 256)) (through { exP with yaw := [(1, some (1 / 2))] }) = true := by
  decide +kernel

theorem yaw_unflagged : isOk (fun x => x.2.1 < x.1 && x.2.2.1 = some [1, 0] &&
    look2 x.2.2.2.2.1 (1, ['L', '1', 'C']) = none) (through { exP with iyaw := false }) = true := by
  decide +kernel

/-- **A code bias that is not available** stops the encoder; a phase bias that is not available is written as such. -/
theorem code_nan {g : Sig} {p : Pos} : putCode (g, none) p = .error .valueError := rfl

end Verif.C86
