import Verif.Model.Bds
import Verif.Lemmas.Read
import Verif.Props.C05
import Mathlib.Tactic.NormNum
import Mathlib.Tactic.Ring
/-!
# C59 PPP-B2b code biases, accuracy indices, epochs and availability flags

Specification: fields are read off the bit layout of the PPP-B2b messages (6 bits type, 17 bits time of day,
4 bits reserved, 2 bits issue, then the body); signals are named by their RINEX codes.
-/

namespace Verif.C59
open Verif.Bds Verif.Sval Verif.Sat Verif.Sig Verif.Time
open Verif.Cssr (CType qualityIdx)

/-! ## Specification -/

/-- RINEX code (band and attribute) of a signal number, per constellation -/
def rinex : Sys → Nat → Option String
  | .bds, 0 => some "2I" | .bds, 1 => some "1D" | .bds, 2 => some "1P" | .bds, 4 => some "5D"
  | .bds, 5 => some "5P" | .bds, 7 => some "7D" | .bds, 8 => some "7P" | .bds, 12 => some "6I"
  | .gps, 0 => some "1C" | .gps, 1 => some "1P" | .gps, 4 => some "1L" | .gps, 5 => some "1X"
  | .gps, 7 => some "2L" | .gps, 8 => some "2X" | .gps, 11 => some "5I" | .gps, 12 => some "5Q"
  | .gps, 13 => some "5X"
  | .glo, 0 => some "1C" | .glo, 1 => some "1P" | .glo, 2 => some "2C"
  | .gal, 1 => some "1B" | .gal, 2 => some "1C" | .gal, 4 => some "5Q" | .gal, 5 => some "5I"
  | .gal, 7 => some "7I" | .gal, 8 => some "7Q" | .gal, 11 => some "6C"
  | _, _ => none

/-- the pseudorange signal of that name -/
def signal (sys : Sys) (n : Nat) : Option Sig :=
  match rinex sys n with
  | none => none
  | some t => match ofSysStr sys ('C' :: t.toList) with
    | .ok g => some g
    | .error _ => none

/-- 12-bit bias, 0.017 m; the two most negative values mean "not available" -/
def biasVal (u : Int) : Val := if u = -2048 ∨ u = -2047 then none else some (u * (17 / 1000))

/-- the last of the first `n` 16-bit entries (4 bits signal, 12 bits bias) from bit `p` on that is for signal `g` -/
def biasOf (b : BitBuf) (sys : Sys) (p : Nat) (g : Sig) : Nat → Option Val
  | 0 => none
  | j + 1 => if signal sys (bitsAt b (p + 16 * j) 4) = some g then some (biasVal (intAt b (p + 16 * j + 4) 12))
      else biasOf b sys p g j

/-- first bit of the `k`-th satellite record of a bias message: 9 bits slot, 4 bits number of entries, the entries -/
def recPos (b : BitBuf) : Nat → Nat
  | 0 => 34
  | k + 1 => recPos b k + 13 + 16 * bitsAt b (recPos b k + 9) 4

def recSlot (b : BitBuf) (k : Nat) : Nat := bitsAt b (recPos b k) 9
def recNum (b : BitBuf) (k : Nat) : Nat := bitsAt b (recPos b k + 9) 4
def numRecs (b : BitBuf) : Nat := bitsAt b 29 5

/-- the last of the first `n` items that names the satellite -/
def lastOf (f : Nat → Option Int) (sat : Int) : Nat → Option Nat
  | 0 => none
  | k + 1 => if f k = some sat then some k else lastOf f sat k

/-- accuracy in metres of a 3-bit class and a 3-bit value -/
def uraVal (c v : Nat) : Val :=
  if c = 7 ∧ v = 7 then some (54665 / 10000) else if c = 0 ∧ v = 0 then none
  else some ((3 ^ c * (4 + v) - 4) / 4000)

/-- epoch recorded for a satellite and a kind of correction -/
def look (t : Dict Int (Dict CType GTime)) (sat : Int) (c : CType) : Option GTime :=
  (Dict.get? t sat).bind (fun d => Dict.get? d c)

/-! ## Reading -/

theorem post_u {b : BitBuf} {i n : Nat} : Post (readU b i n) (fun v => v = bitsAt b i n) := by
  constructor
  intro v h
  unfold readU at h
  split at h
  · cases h; rfl
  · cases h

theorem post_s {b : BitBuf} {i n : Nat} : Post (readS b i n) (fun v => v = intAt b i n) := by
  constructor
  intro v h
  unfold readS at h
  cases hu : readU b i n with
  | error e => rw [hu] at h; cases h
  | ok u =>
    rw [hu] at h
    have := post_u.out _ hu
    subst this
    cases h; rfl

theorem bitsAt_lt (b : BitBuf) (k n : Nat) : bitsAt b k n < 2 ^ n := by
  unfold bitsAt
  refine lt_of_lt_of_le (bitsToNat_lt _) (Nat.pow_le_pow_right (by norm_num) ?_)
  simp

/-! ## Signals -/

/-- A signal number is mapped to the pseudorange signal of its RINEX name; unknown numbers raise. -/
theorem signal_table (sys : Sys) (n : Nat) : ssig2rsig sys .C n =
    (match signal sys n with | some g => .ok g | none => .error .keyError) := by
  rcases n with _ | _ | _ | _ | _ | _ | _ | _ | _ | _ | _ | _ | _ | _ | n <;> cases sys <;>
    first
    | (with_unfolding_all rfl)
    | (simp [ssig2rsig, sigTbl, signal, rinex, Dict.get?])

/-- the names are those of the signals: reading them back -/
theorem signal_name (sys : Sys) (n : Nat) (t : String) (h : rinex sys n = some t) :
    ∃ g, signal sys n = some g ∧ g.sys = sys ∧ g.typ = .C ∧ Sig.str g = 'C' :: t.toList := by
  rcases n with _ | _ | _ | _ | _ | _ | _ | _ | _ | _ | _ | _ | _ | _ | n <;> cases sys <;>
    first
    | (cases h; exact ⟨_, by with_unfolding_all rfl, rfl, rfl, by with_unfolding_all rfl⟩)
    | (cases h)

example : (signal .gal 11).map Sig.str = some "C6C".toList ∧ signal .gal 0 = none := by decide +kernel

/-! ## Helpers -/

theorem look_set (s : St) (sat sat' : Int) (c c' : CType) :
    look (setT0 s sat c).t0 sat' c' = if sat' = sat ∧ c' = c then some s.time else look s.t0 sat' c' := by
  unfold look setT0
  simp only
  rw [Dict.get?_set]
  by_cases h : sat' = sat
  · subst h
    rw [if_pos rfl]
    simp only [Option.bind_some, true_and]
    rw [Dict.get?_set]
    split
    · rfl
    · cases Dict.get? s.t0 sat' <;> rfl
  · rw [if_neg h, if_neg (fun x => h x.1)]

theorem biasVal_eq (u : Int) : svalBds u 12 (17 / 1000) = biasVal u := by
  unfold svalBds biasVal
  norm_num

theorem uraVal_eq (c v : Nat) : qualityIdx c v = uraVal c v := by
  unfold qualityIdx uraVal
  split
  · rfl
  · split
    · rfl
    · congr 1
      ring

/-- everything but the time of the last message -/
def untimed (s : St) : St := { s with tod := 0, tow := 0, time := ⟨0, 0⟩ }
/-- everything but biases, accuracies and their epochs -/
def unval (s : St) : St := { s with cbias := [], ura := [], t0 := [] }
/-- everything but biases, accuracies, epochs, flags, accepted issues and the time of the last message -/
def rest (s : St) : St := { untimed (unval s) with cstat := 0, iodssrC := fun _ => 0 }

/-- epoch of a message with time of day `d`: BeiDou time is 14 s behind GPS time -/
def Stamp (s t : St) (d : Nat) : Prop :=
  (0 ≤ s.tow0 ∧ s.tow0 ≤ 604800 ∧ 0 ≤ s.week →
    timediff t.time ⟨0, 0⟩ = 1136073600 + 604800 * s.week + s.tow0 + d + 14) ∧
  (s.tow0 < 0 ∨ s.week < 0 → t.time = s.time)

theorem head_spec (s : St) (b : BitBuf) : Post (decodeHead s b 6) (fun r =>
    untimed r.1 = untimed s ∧ Stamp s r.1 (bitsAt b 6 17) ∧ r.2.1 = bitsAt b 27 2 ∧ r.2.2 = 29) := by
  unfold decodeHead
  refine Post.bind post_u fun d hd => Post.bind_any fun _ => Post.bind post_u fun iod hi => ?_
  refine Post.pure ⟨?_, ?_, hi, rfl⟩
  · unfold untimed
    simp only [Bool.false_eq_true, if_false]
    split
    · split <;> rfl
    · rfl
  · have hb : d < 2 ^ 17 := by rw [hd]; exact bitsAt_lt b 6 17
    unfold Stamp
    simp only [Bool.false_eq_true, if_false]
    refine ⟨?_, ?_⟩
    · rintro ⟨h0, h1, h2⟩
      rw [if_pos h0]
      simp only [if_pos h2]
      unfold bdt2gpst
      rw [timediff_tot, tot_timeadd]
      have hr := (C05.week_tow_instant s.week ((s.tow0 + d : Int) : ℚ) ?_).2.2
      · rw [timediff_tot] at hr
        rw [← hd]
        push_cast at hr ⊢
        linarith
      · have e0 : (0 : ℚ) ≤ (s.tow0 : ℚ) := by exact_mod_cast h0
        have e1 : (s.tow0 : ℚ) ≤ 604800 := by exact_mod_cast h1
        have e2 : (d : ℚ) < 131072 := by exact_mod_cast (by simpa using hb)
        have e3 : (0 : ℚ) ≤ (d : ℚ) := by positivity
        push_cast
        constructor <;> linarith
    · rintro (h | h)
      · rw [if_neg (by omega)]
      · split
        · rw [if_neg (by omega)]
        · rfl

/-! ## Code biases -/

/-- inner loop: one satellite's entries -/
theorem entries (b : BitBuf) (sys : Sys) (p n : Nat) :
    Post ((List.range n).foldlM (fun ((d, i) : Dict Sig Val × Nat) _ => do
      let sig ← readU b i 4
      let cb ← readS b (i + 4) 12
      let g ← ssig2rsig sys .C sig
      pure (Dict.set d g (svalBds cb 12 (17 / 1000)), i + 16)) ([], p)) (fun r =>
      r.2 = p + 16 * n ∧ (∀ g, Dict.get? r.1 g = biasOf b sys p g n) ∧
      ∀ j < n, signal sys (bitsAt b (p + 16 * j) 4) ≠ none) := by
  refine Post.foldlM_range (I := fun n (r : Dict Sig Val × Nat) => r.2 = p + 16 * n ∧
    (∀ g, Dict.get? r.1 g = biasOf b sys p g n) ∧
      ∀ j < n, signal sys (bitsAt b (p + 16 * j) 4) ≠ none) ?_ ⟨rfl, fun _ => rfl, fun _ h => by omega⟩
  rintro k ⟨d, i⟩ _ ⟨h1, h2, h3⟩
  simp only at h1 h2
  subst h1
  refine Post.bind post_u fun sig hsig => Post.bind post_s fun cb hcb => ?_
  rw [signal_table, hsig]
  cases hg : signal sys (bitsAt b (p + 16 * k) 4) with
  | none => exact ⟨fun a h => by cases h⟩
  | some g =>
    refine Post.bind (Post.ok rfl) ?_
    rintro _ rfl
    refine Post.pure ⟨by ring, ?_, ?_⟩
    · intro g'
      simp only
      rw [Dict.get?_set, h2, hcb, biasVal_eq, biasOf, hg]
      by_cases e : g' = g
      · rw [if_pos e, if_pos (by rw [e])]
      · rw [if_neg e, if_neg (fun x => e (Option.some.inj x).symm)]
    · intro j hj
      by_cases e : j = k
      · rw [e, hg]; exact fun h => by cases h
      · exact h3 j (by omega)

/-- the satellite named by the `k`-th record of a bias message, if it is in the mask -/
def recSat (sats : List Int) (b : BitBuf) (k : Nat) : Option Int :=
  if slotSat (recSlot b k) ∈ sats then some (slotSat (recSlot b k)) else none

theorem recSat_some {sats : List Int} {b : BitBuf} {k : Nat} {sat : Int} (h : recSat sats b k = some sat) :
    sat ∈ sats ∧ slotSat (recSlot b k) = sat := by
  unfold recSat at h
  split at h
  · cases h; exact ⟨‹_›, rfl⟩
  · cases h

/-- what is known after `n` records; `s0` is the state before the first -/
structure Biases (b : BitBuf) (s0 s : St) (n : Nat) : Prop where
  frame : unval s = unval s0
  ura : s.ura = s0.ura
  given : ∀ sat k, lastOf (recSat s0.satN b) sat n = some k → ∃ d, Dict.get? s.cbias sat = some d ∧
    ∀ g, Dict.get? d g = biasOf b (slot2prn (recSlot b k)).1 (recPos b k + 13) g (recNum b k)
  kept : ∀ sat, lastOf (recSat s0.satN b) sat n = none → Dict.get? s.cbias sat = Dict.get? s0.cbias sat
  epoch : ∀ sat c, look s.t0 sat c = if c = .cbias ∧ (lastOf (recSat s0.satN b) sat n).isSome then some s0.time
    else look s0.t0 sat c
  known : ∀ k < n, recSat s0.satN b k ≠ none → ∀ j < recNum b k,
    signal (slot2prn (recSlot b k)).1 (bitsAt b (recPos b k + 13 + 16 * j) 4) ≠ none

theorem sat_spec (b : BitBuf) (s0 s : St) (k : Nat) (h : Biases b s0 s k)
    (hm : slotSat (recSlot b k) ∈ s0.satN ∨ recNum b k = 0) :
    Post (cbiasSat s b (recPos b k)) (fun r => Biases b s0 r.1 (k + 1) ∧ r.2 = recPos b (k + 1)) := by
  have hN : s.satN = s0.satN := by have := congrArg St.satN h.frame; exact this
  unfold cbiasSat
  refine Post.bind post_u fun slot hslot => Post.bind post_u fun ns hns => ?_
  have hslot : slot = recSlot b k := hslot
  have hns : ns = recNum b k := hns
  subst hslot hns
  simp only
  rw [hN]
  change Post (if slotSat (recSlot b k) ∉ s0.satN then _ else _) _
  refine Post.ite (fun hc => ?_) (fun hc => ?_)
  · -- outside the mask
    have h0 : recNum b k = 0 := hm.resolve_left hc
    have hr : recSat s0.satN b k = none := by unfold recSat; rw [if_neg hc]
    have hl : ∀ sat, lastOf (recSat s0.satN b) sat (k + 1) = lastOf (recSat s0.satN b) sat k := by
      intro sat; rw [lastOf, hr, if_neg (by simp)]
    refine Post.pure ⟨⟨h.frame, h.ura, ?_, ?_, ?_, ?_⟩, ?_⟩
    · intro sat j hj; rw [hl] at hj; exact h.given sat j hj
    · intro sat hj; rw [hl] at hj; exact h.kept sat hj
    · intro sat c; rw [hl]; exact h.epoch sat c
    · intro j hj hne
      by_cases e : j = k
      · subst e; exact absurd hr hne
      · exact h.known j (by omega) hne
    · show recPos b k + 13 = recPos b k + 13 + 16 * recNum b k
      rw [h0]
  · have hc := not_not.1 hc
    have hr : recSat s0.satN b k = some (slotSat (recSlot b k)) := by unfold recSat; rw [if_pos hc]
    refine Post.bind (entries b (slot2prn (recSlot b k)).1 (recPos b k + 13) (recNum b k)) ?_
    rintro ⟨d, i⟩ ⟨hi, hd, hk⟩
    simp only at hi hd
    refine Post.pure ⟨⟨h.frame, h.ura, ?_, ?_, ?_, ?_⟩, hi⟩
    · intro sat j hj
      rw [lastOf, hr] at hj
      change ∃ d', Dict.get? (Dict.set s.cbias (slotSat (recSlot b k)) d) sat = some d' ∧ _
      rw [Dict.get?_set]
      by_cases e : slotSat (recSlot b k) = sat
      · rw [if_pos (by rw [e])] at hj
        cases hj
        rw [if_pos e.symm]
        exact ⟨d, rfl, hd⟩
      · rw [if_neg (fun x => e (Option.some.inj x))] at hj
        rw [if_neg (fun x => e x.symm)]
        exact h.given sat j hj
    · intro sat hj
      rw [lastOf, hr] at hj
      change Dict.get? (Dict.set s.cbias (slotSat (recSlot b k)) d) sat = _
      rw [Dict.get?_set]
      by_cases e : slotSat (recSlot b k) = sat
      · rw [if_pos (by rw [e])] at hj
        cases hj
      · rw [if_neg (fun x => e (Option.some.inj x))] at hj
        rw [if_neg (fun x => e x.symm)]
        exact h.kept sat hj
    · intro sat c
      show look (setT0 s (slotSat (recSlot b k)) .cbias).t0 sat c = _
      have ht : s.time = s0.time := by have := congrArg St.time h.frame; exact this
      rw [look_set, h.epoch, lastOf, hr, ht]
      by_cases e : slotSat (recSlot b k) = sat
      · rw [if_pos (show (some (slotSat (recSlot b k)) : Option Int) = some sat by rw [e])]
        by_cases e2 : c = .cbias
        · rw [if_pos ⟨e.symm, e2⟩, if_pos ⟨e2, rfl⟩]
        · rw [if_neg (fun x => e2 x.2), if_neg (fun x => e2 x.1), if_neg (fun x => e2 x.1)]
      · rw [if_neg (fun x => e x.1.symm), if_neg (fun x => e (Option.some.inj x))]
    · intro j hj hne i' hi'
      by_cases e : j = k
      · subst e; exact hk i' hi'
      · exact h.known j (by omega) hne i' hi'

theorem testBit_or_shift (n c j : Nat) : (n ||| 1 <<< c).testBit j = (n.testBit j || decide (j = c)) := by
  rw [Nat.testBit_or, Nat.testBit_shiftLeft]
  by_cases h : j = c
  · subst h; simp
  · simp only [h, decide_false, Bool.or_false]
    by_cases h2 : j ≥ c
    · rw [Nat.testBit_one_eq_true_iff_self_eq_zero.not.2 (by omega) |> Bool.eq_false_iff.2]
      simp
    · simp [h2]

/-- **Code biases**: a bias message of the issue in force, whose satellites outside the mask carry no entries,
gives every satellite of the mask it names exactly the biases of its last record, signal by signal; the others keep
theirs. -/
theorem bias_content (s s' : St) (b : BitBuf) (ht : bitsAt b 0 6 = 3)
    (hiod : (bitsAt b 27 2 : Int) = s.iodssr)
    (hm : ∀ k < numRecs b, slotSat (recSlot b k) ∈ s.satN ∨ recNum b k = 0)
    (h : decodeCssr s b = .ok s') :
    (∀ sat k, lastOf (recSat s.satN b) sat (numRecs b) = some k → ∃ d, Dict.get? s'.cbias sat = some d ∧
      ∀ g, Dict.get? d g = biasOf b (slot2prn (recSlot b k)).1 (recPos b k + 13) g (recNum b k)) ∧
    (∀ sat, lastOf (recSat s.satN b) sat (numRecs b) = none → Dict.get? s'.cbias sat = Dict.get? s.cbias sat) ∧
    (∀ sat c, look s'.t0 sat c = if c = .cbias ∧ (lastOf (recSat s.satN b) sat (numRecs b)).isSome
      then some s'.time else look s.t0 sat c) ∧
    Stamp s s' (bitsAt b 6 17) ∧
    (∀ j, s'.cstat.testBit j = (s.cstat.testBit j || decide (j = 3))) ∧
    (∀ c, s'.iodssrC c = if c = .cbias then s.iodssr else s.iodssrC c) ∧
    (∀ k < numRecs b, recSat s.satN b k ≠ none → ∀ j < recNum b k,
      signal (slot2prn (recSlot b k)).1 (bitsAt b (recPos b k + 13 + 16 * j) 4) ≠ none) ∧
    s'.ura = s.ura ∧ rest s' = rest s := by
  revert s'
  refine Post.out ?_
  unfold decodeCssr
  refine Post.bind post_u fun mt hmt => ?_
  rw [ht] at hmt
  subst hmt
  simp only
  unfold decodeMsgCbias
  refine Post.bind (Q := fun r => _) ?_ (fun r hr => Post.pure hr)
  refine Post.bind (head_spec s b) ?_
  rintro ⟨s1, iod, i⟩ ⟨hT, hS, h1, h2⟩
  simp only at hT hS h1 h2
  subst h1 h2
  have e1 : s1.iodssr = s.iodssr := by have := congrArg St.iodssr hT; exact this
  simp only [e1]
  rw [if_neg (by rw [hiod]; exact fun h => h rfl)]
  refine Post.bind post_u fun n hn => ?_
  have hn : n = numRecs b := hn
  subst hn
  have eN : s1.satN = s.satN := by have := congrArg St.satN hT; exact this
  refine Post.bind (Post.foldlM_range (I := fun k (r : St × Nat) => Biases b s1 r.1 k ∧ r.2 = recPos b k)
    ?_ ?_) ?_
  · rintro k ⟨t, i⟩ hk ⟨hB, hi⟩
    simp only at hB hi
    subst hi
    exact sat_spec b s1 t k hB (by rw [eN]; exact hm k hk)
  · refine ⟨⟨rfl, rfl, fun sat k h => ?_, fun sat _ => rfl, fun sat c => ?_, fun k h => ?_⟩, rfl⟩
    · cases h
    · simp [lastOf]
    · omega
  · rintro ⟨t, i⟩ ⟨hB, -⟩
    simp only at hB
    have hF := hB.frame
    have et : t.time = s1.time := by have := congrArg St.time hF; exact this
    refine Post.pure ⟨?_, ?_, ?_, ?_, ?_, ?_, ?_, ?_, ?_⟩
    · rw [← eN]; exact hB.given
    · intro sat hs
      rw [← eN] at hs
      have e2 : s1.cbias = s.cbias := by have := congrArg St.cbias hT; exact this
      rw [← e2]; exact hB.kept sat hs
    · intro sat c
      have := hB.epoch sat c
      have e2 : s1.t0 = s.t0 := by have := congrArg St.t0 hT; exact this
      rw [eN, e2] at this
      show look t.t0 sat c = _
      rw [this]
      show _ = if _ then some t.time else _
      rw [et]
    · obtain ⟨a1, a2⟩ := hS
      exact ⟨fun h => by show timediff t.time _ = _; rw [et]; exact a1 h, fun h => by show t.time = _; rw [et]; exact a2 h⟩
    · intro j
      show (t.cstat ||| 1 <<< 3).testBit j = _
      rw [testBit_or_shift, show t.cstat = s.cstat by
        have a := congrArg St.cstat hF; have b := congrArg St.cstat hT; exact a.trans b]
    · intro c
      show (if c = .cbias then (bitsAt b 27 2 : Int) else t.iodssrC c) = _
      rw [hiod, show t.iodssrC = s.iodssrC by
        have a := congrArg St.iodssrC hF; have b := congrArg St.iodssrC hT; exact a.trans b]
    · rw [← eN]; exact hB.known
    · have a := congrArg St.ura hT; exact hB.ura.trans a
    · have e1 : rest t = rest s1 := congrArg (fun x => ({ untimed x with cstat := 0, iodssrC := fun _ => 0 } : St)) hF
      have e2 : rest s1 = rest s := congrArg (fun x => ({ unval x with cstat := 0, iodssrC := fun _ => 0 } : St)) hT
      exact e1.trans e2

/-! ## Accuracy indices -/

/-- satellite whose accuracy is the `k`-th of a message of type 5 (4 bits mask number, 3 bits block of 70) -/
def uraSat (sats : List Int) (b : BitBuf) (k : Nat) : Option Int := sats[bitsAt b 33 3 * 70 + k]?

theorem sat_at {sats : List Int} {n i : Nat} (hn : n = sats.length) (hi : i < n) :
    ∃ sat, sats[i]? = some sat ∧ pyGet sats i = .ok sat := by
  subst hn
  refine ⟨sats[i], List.getElem?_eq_getElem hi, ?_⟩
  unfold pyGet
  simp [hi]

/-- everything but the accuracies -/
def unura (s : St) : St := { s with ura := [] }

theorem lastOf_none {f : Nat → Option Int} {k : Nat} (h : f k = none) (sat : Int) :
    lastOf f sat (k + 1) = lastOf f sat k := by
  rw [lastOf, h]; exact if_neg (by simp)

/-- **Accuracy indices**: a message of type 5 gives the satellites numbered from its block on, in the order of the
mask, the accuracies it carries; the others keep theirs. -/
theorem ura_content (s s' : St) (b : BitBuf) (ht : bitsAt b 0 6 = 5)
    (hiod : (bitsAt b 27 2 : Int) = s.iodssr) (hn : s.nsatN = s.satN.length)
    (h : decodeCssr s b = .ok s') :
    (∀ sat, Dict.get? s'.ura sat = match lastOf (uraSat s.satN b) sat 70 with
      | some k => some (uraVal (bitsAt b (36 + 6 * k) 3) (bitsAt b (39 + 6 * k) 3))
      | none => Dict.get? s.ura sat) ∧
    Stamp s s' (bitsAt b 6 17) ∧
    (∀ j, s'.cstat.testBit j = (s.cstat.testBit j || decide (j = 7))) ∧
    s'.iodssrC = s.iodssrC ∧ s'.cbias = s.cbias ∧ s'.t0 = s.t0 ∧ rest s' = rest s := by
  revert s'
  refine Post.out ?_
  unfold decodeCssr
  refine Post.bind post_u fun mt hmt => ?_
  rw [ht] at hmt
  subst hmt
  simp only
  unfold decodeMsgUra
  refine Post.bind (Q := fun r => _) ?_ (fun r hr => Post.pure hr)
  refine Post.bind (head_spec s b) ?_
  rintro ⟨s1, iod, i⟩ ⟨hT, hS, h1, h2⟩
  simp only at hT hS h1 h2
  subst h1 h2
  have e1 : s1.iodssr = s.iodssr := by have := congrArg St.iodssr hT; exact this
  have eN : s1.satN = s.satN := by have := congrArg St.satN hT; exact this
  have en : s1.nsatN = s.nsatN := by have := congrArg St.nsatN hT; exact this
  simp only [e1]
  rw [if_neg (by rw [hiod]; exact fun h => h rfl)]
  refine Post.bind_any fun _ => Post.bind post_u fun st2 hst => ?_
  refine Post.bind (Post.foldlM_range (I := fun k (r : St × Nat) => unura r.1 = unura s1 ∧
    (∀ sat, Dict.get? r.1.ura sat = match lastOf (uraSat s.satN b) sat k with
      | some k => some (uraVal (bitsAt b (36 + 6 * k) 3) (bitsAt b (39 + 6 * k) 3))
      | none => Dict.get? s.ura sat) ∧ r.2 = 36 + 6 * k) ?_ ?_) ?_
  · rintro k ⟨t, i⟩ hk ⟨hF, hU, hi⟩
    simp only at hF hU hi
    subst hi
    have tN : t.satN = s.satN := by have := congrArg St.satN hF; exact this.trans eN
    have tn : t.nsatN = s.nsatN := by have := congrArg St.nsatN hF; exact this.trans en
    refine Post.bind post_u fun c hc => Post.bind post_u fun v hv => ?_
    simp only
    refine Post.ite (fun hi => ?_) (fun hi => ?_)
    · obtain ⟨sat, e2, e3⟩ := sat_at (sats := t.satN) (tn.trans (hn.trans (by rw [tN]))) hi
      rw [e3]
      refine Post.bind (Post.ok rfl) ?_
      rintro _ rfl
      refine Post.pure ⟨hF, ?_, by ring⟩
      intro sat'
      show Dict.get? (Dict.set t.ura sat _) sat' = _
      have hs : uraSat s.satN b k = some sat := by unfold uraSat; rw [← e2, hst, tN]
      rw [Dict.get?_set, lastOf, hs]
      by_cases e : sat' = sat
      · rw [if_pos e, if_pos (by rw [e]), uraVal_eq, hc, hv]
        rw [show 36 + 6 * k + 3 = 39 + 6 * k by ring]
      · rw [if_neg e, if_neg (fun x => e (Option.some.inj x).symm)]
        exact hU sat'
    · refine Post.pure ⟨hF, ?_, by ring⟩
      intro sat'
      have hs : uraSat s.satN b k = none := by
        unfold uraSat; rw [← hst]; exact List.getElem?_eq_none (by omega)
      rw [lastOf_none hs]
      exact hU sat'
  · refine ⟨rfl, ?_, rfl⟩
    intro sat
    have := congrArg St.ura hT
    exact congrArg (fun d => Dict.get? d sat) this
  · rintro ⟨t, i⟩ ⟨hF, hU, -⟩
    simp only at hF hU
    have et : t.time = s1.time := by have := congrArg St.time hF; exact this
    refine Post.pure ⟨hU, ?_, ?_, ?_, ?_, ?_, ?_⟩
    · obtain ⟨a1, a2⟩ := hS
      exact ⟨fun h => by show timediff t.time _ = _; rw [et]; exact a1 h, fun h => by show t.time = _; rw [et]; exact a2 h⟩
    · intro j
      show (t.cstat ||| 1 <<< 7).testBit j = _
      rw [testBit_or_shift, show t.cstat = s.cstat by
        have a := congrArg St.cstat hF; have b := congrArg St.cstat hT; exact a.trans b]
    · have a := congrArg St.iodssrC hF; have b := congrArg St.iodssrC hT; exact a.trans b
    · have a := congrArg St.cbias hF; have b := congrArg St.cbias hT; exact a.trans b
    · have a := congrArg St.t0 hF; have b := congrArg St.t0 hT; exact a.trans b
    · have a0 := congrArg rest hF
      have a : rest t = rest s1 := a0
      have b : rest s1 = rest s := congrArg (fun x => ({ unval x with cstat := 0, iodssrC := fun _ => 0 } : St)) hT
      exact a.trans b

/-! ## Orbit and clock messages: accuracies, epochs, flags -/

/-- satellite of the `k`-th 69-bit record of an orbit message, if the slot is assigned and it is in the mask -/
def orbSatOf (sats : List Int) (b : BitBuf) (k : Nat) : Option Int :=
  let slot := bitsAt b (29 + 69 * k) 9
  if slot ≤ 174 ∧ slotSat slot ∈ sats then some (slotSat slot) else none

theorem slot_none (slot : Nat) : (slot2prn slot).1 = .none ↔ 174 < slot := by
  unfold slot2prn
  split
  · simp; omega
  · split
    · simp; omega
    · split
      · simp; omega
      · split
        · simp; omega
        · simp; omega

/-- everything an orbit record does not touch -/
def unorb (s : St) : St := { s with iode := [], iodc := [], dorb := [], ura := [], t0 := [] }

/-- **Orbit messages**: the accuracy of each satellite is the one of its last record, and the epoch of its orbit
correction is the time of the message. -/
theorem orbit_epochs (s s' : St) (b : BitBuf) (ht : bitsAt b 0 6 = 2)
    (hiod : (bitsAt b 27 2 : Int) = s.iodssr) (h : decodeCssr s b = .ok s') :
    (∀ sat, Dict.get? s'.ura sat = match lastOf (orbSatOf s.satN b) sat 6 with
      | some k => some (uraVal (bitsAt b (92 + 69 * k) 3) (bitsAt b (95 + 69 * k) 3))
      | none => Dict.get? s.ura sat) ∧
    (∀ sat c, look s'.t0 sat c = if c = .orbit ∧ (lastOf (orbSatOf s.satN b) sat 6).isSome
      then some s'.time else look s.t0 sat c) ∧
    Stamp s s' (bitsAt b 6 17) ∧
    (∀ j, s'.cstat.testBit j = (s.cstat.testBit j || decide (j = 1))) ∧
    (∀ c, s'.iodssrC c = if c = .orbit then s.iodssr else s.iodssrC c) ∧
    s'.cbias = s.cbias ∧ rest (unorb s') = rest (unorb s) := by
  revert s'
  refine Post.out ?_
  unfold decodeCssr
  refine Post.bind post_u fun mt hmt => ?_
  rw [ht] at hmt
  subst hmt
  simp only
  unfold decodeMsgOrb
  refine Post.bind (Q := fun r => _) ?_ (fun r hr => Post.pure hr)
  refine Post.bind (head_spec s b) ?_
  rintro ⟨s1, iod, i⟩ ⟨hT, hS, h1, h2⟩
  simp only at hT hS h1 h2
  subst h1 h2
  have e1 : s1.iodssr = s.iodssr := by have := congrArg St.iodssr hT; exact this
  have eN : s1.satN = s.satN := by have := congrArg St.satN hT; exact this
  simp only [e1]
  rw [if_neg (by rw [hiod]; exact fun h => h rfl), eN]
  refine Post.bind (Post.foldlM_range (I := fun k (r : St × Nat) => unorb r.1 = unorb s1 ∧
    (∀ sat, Dict.get? r.1.ura sat = match lastOf (orbSatOf s.satN b) sat k with
      | some k => some (uraVal (bitsAt b (92 + 69 * k) 3) (bitsAt b (95 + 69 * k) 3))
      | none => Dict.get? s.ura sat) ∧
    (∀ sat c, look r.1.t0 sat c = if c = .orbit ∧ (lastOf (orbSatOf s.satN b) sat k).isSome
      then some s1.time else look s.t0 sat c) ∧ r.2 = 29 + 69 * k) ?_ ?_) ?_
  · rintro k ⟨t, i⟩ hk ⟨hF, hU, hL, hi⟩
    simp only at hF hU hL hi
    subst hi
    have tt : t.time = s1.time := by have := congrArg St.time hF; exact this
    unfold orbSat
    refine Post.bind post_u fun slot hslot => Post.bind_any fun iodn => Post.bind_any fun iodc =>
      Post.bind_any fun dx => Post.bind_any fun dy => Post.bind_any fun dz =>
      Post.bind post_u fun uc huc => Post.bind post_u fun uv huv => ?_
    simp only
    have skip : orbSatOf s.satN b k = none → Post (pure (t, 29 + 69 * k + 69) : Py (St × Nat)) (fun r => unorb r.1 = unorb s1 ∧
        (∀ sat, Dict.get? r.1.ura sat = match lastOf (orbSatOf s.satN b) sat (k + 1) with
          | some k => some (uraVal (bitsAt b (92 + 69 * k) 3) (bitsAt b (95 + 69 * k) 3))
          | none => Dict.get? s.ura sat) ∧
        (∀ sat c, look r.1.t0 sat c = if c = .orbit ∧ (lastOf (orbSatOf s.satN b) sat (k + 1)).isSome
          then some s1.time else look s.t0 sat c) ∧ r.2 = 29 + 69 * (k + 1)) := by
      intro hs
      refine Post.pure ⟨hF, ?_, ?_, by ring⟩
      · intro sat; rw [lastOf_none hs]; exact hU sat
      · intro sat c; rw [lastOf_none hs]; exact hL sat c
    refine Post.ite (fun hz => skip ?_) (fun hz => Post.ite (fun hc => skip ?_) (fun hc => ?_))
    · rw [slot_none, hslot] at hz
      simp only at hz
      unfold orbSatOf
      simp only
      rw [if_neg (fun x => by omega)]
    · rw [hslot] at hc
      unfold orbSatOf
      simp only
      rw [if_neg (fun x => hc x.2)]
    · have hc := not_not.1 hc
      rw [slot_none] at hz
      change slotSat slot ∈ s.satN at hc
      have hs : orbSatOf s.satN b k = some (slotSat slot) := by
        unfold orbSatOf
        simp only
        rw [← hslot, if_pos ⟨by omega, hc⟩]
      refine Post.pure ⟨hF, ?_, ?_, by ring⟩
      · intro sat'
        show Dict.get? (Dict.set t.ura (slotSat slot) _) sat' = _
        rw [Dict.get?_set, lastOf, hs]
        by_cases e : sat' = slotSat slot
        · rw [if_pos e, if_pos (by rw [e]), uraVal_eq, huc, huv]
          rw [show 29 + 69 * k + 63 = 92 + 69 * k by ring, show 29 + 69 * k + 66 = 95 + 69 * k by ring]
        · rw [if_neg e, if_neg (fun x => e (Option.some.inj x).symm)]
          exact hU sat'
      · intro sat' c
        simp only
        change look (setT0 { t with
          iode := _, iodc := _, dorb := _, ura := _ } (slotSat slot) .orbit).t0 sat' c = _
        rw [look_set, lastOf, hs]
        show (if _ then some t.time else look t.t0 sat' c) = _
        rw [tt, hL]
        by_cases e : sat' = slotSat slot
        · rw [if_pos (show (some (slotSat slot) : Option Int) = some sat' by rw [e])]
          by_cases e2 : c = .orbit
          · rw [if_pos ⟨e, e2⟩, if_pos ⟨e2, rfl⟩]
          · rw [if_neg (fun x => e2 x.2), if_neg (fun x => e2 x.1), if_neg (fun x => e2 x.1)]
        · rw [if_neg (fun x => e x.1), if_neg (fun x => e (Option.some.inj x).symm)]
  · refine ⟨rfl, ?_, ?_, rfl⟩
    · intro sat
      have := congrArg St.ura hT
      exact congrArg (fun d => Dict.get? d sat) this
    · intro sat c
      have := congrArg St.t0 hT
      simp only [lastOf, Option.isSome_none, Bool.false_eq_true, and_false, if_false]
      exact congrArg (fun d => look d sat c) this
  · rintro ⟨t, i⟩ ⟨hF, hU, hL, -⟩
    simp only at hF hU hL
    have et : t.time = s1.time := by have := congrArg St.time hF; exact this
    refine Post.pure ⟨hU, ?_, ?_, ?_, ?_, ?_, ?_⟩
    · rw [← et] at hL; exact hL
    · obtain ⟨a1, a2⟩ := hS
      exact ⟨fun h => by show timediff t.time _ = _; rw [et]; exact a1 h, fun h => by show t.time = _; rw [et]; exact a2 h⟩
    · intro j
      show (t.cstat ||| 1 <<< 1).testBit j = _
      rw [testBit_or_shift, show t.cstat = s.cstat by
        have a := congrArg St.cstat hF; have b := congrArg St.cstat hT; exact a.trans b]
    · intro c
      show (if c = .orbit then (bitsAt b 27 2 : Int) else t.iodssrC c) = _
      rw [hiod, show t.iodssrC = s.iodssrC by
        have a := congrArg St.iodssrC hF; have b := congrArg St.iodssrC hT; exact a.trans b]
    · have a := congrArg St.cbias hF; have b := congrArg St.cbias hT; exact a.trans b
    · have a : rest (unorb t) = rest (unorb s1) := congrArg rest hF
      have b : rest (unorb s1) = rest (unorb s) := congrArg (fun x => ({ unorb (unval x) with cstat := 0, iodssrC := fun _ => 0 } : St)) hT
      exact a.trans b

/-- satellite of the `k`-th record of a clock message (4 bits mask number, 5 bits block of 23) -/
def clkSatOf (sats : List Int) (b : BitBuf) (k : Nat) : Option Int := sats[bitsAt b 33 5 * 23 + k]?

/-- everything a clock record does not touch -/
def unclk (s : St) : St := { s with iodcC := [], dclk := [], iodcCP := [], dclkP := [], t0 := [] }

theorem clkSat_frame (s : St) (b : BitBuf) (i : Nat) (sat : Int) :
    Post (clkSat s b i sat) (fun r => unclk r.1 = unclk s ∧ r.1.t0 = s.t0 ∧ r.2 = i + 18) := by
  unfold clkSat
  refine Post.bind_any fun ic => Post.bind_any fun dc => ?_
  refine Post.bind (Q := fun t : St => unclk t = unclk s ∧ t.t0 = s.t0) ?_ ?_
  · split
    · refine Post.ite (fun _ => Post.bind_any fun d => Post.pure ⟨rfl, rfl⟩) (fun _ => Post.pure ⟨rfl, rfl⟩)
    · exact Post.pure ⟨rfl, rfl⟩
  · rintro t ⟨h1, h2⟩
    exact Post.pure ⟨h1, h2, rfl⟩

/-- **Clock messages**: the epoch of a clock correction is the time of its message. -/
theorem clock_epochs (s s' : St) (b : BitBuf) (ht : bitsAt b 0 6 = 4)
    (hiod : (bitsAt b 27 2 : Int) = s.iodssr) (hp : (bitsAt b 29 4 : Int) = s.iodp)
    (hn : s.nsatN = s.satN.length) (h : decodeCssr s b = .ok s') :
    (∀ sat c, look s'.t0 sat c = if c = .clock ∧ (lastOf (clkSatOf s.satN b) sat 23).isSome
      then some s'.time else look s.t0 sat c) ∧
    Stamp s s' (bitsAt b 6 17) ∧
    (∀ j, s'.cstat.testBit j = (s.cstat.testBit j || decide (j = 2))) ∧
    (∀ c, s'.iodssrC c = if c = .clock then s.iodssr else s.iodssrC c) ∧
    s'.cbias = s.cbias ∧ s'.ura = s.ura ∧ rest (unclk s') = rest (unclk s) := by
  revert s'
  refine Post.out ?_
  unfold decodeCssr
  refine Post.bind post_u fun mt hmt => ?_
  rw [ht] at hmt
  subst hmt
  simp only
  unfold decodeMsgClk
  refine Post.bind (Q := fun r => _) ?_ (fun r hr => Post.pure hr)
  refine Post.bind (head_spec s b) ?_
  rintro ⟨s1, iod, i⟩ ⟨hT, hS, h1, h2⟩
  simp only at hT hS h1 h2
  subst h1 h2
  have e1 : s1.iodssr = s.iodssr := by have := congrArg St.iodssr hT; exact this
  have e2 : s1.iodp = s.iodp := by have := congrArg St.iodp hT; exact this
  have eN : s1.satN = s.satN := by have := congrArg St.satN hT; exact this
  have en : s1.nsatN = s.nsatN := by have := congrArg St.nsatN hT; exact this
  simp only [e1]
  rw [if_neg (by rw [hiod]; exact fun h => h rfl)]
  refine Post.bind post_u fun ip hip => Post.bind post_u fun st1 hst => ?_
  rw [if_neg (by rw [hip, e2, hp]; exact fun h => h rfl)]
  refine Post.bind (Post.foldlM_range (I := fun k (r : St × Nat) => unclk r.1 = unclk s1 ∧
    (∀ sat c, look r.1.t0 sat c = if c = .clock ∧ (lastOf (clkSatOf s.satN b) sat k).isSome
      then some s1.time else look s.t0 sat c)) ?_ ?_) ?_
  · rintro k ⟨t, i⟩ hk ⟨hF, hL⟩
    simp only at hF hL
    have tt : t.time = s1.time := by have := congrArg St.time hF; exact this
    have tN : t.satN = s.satN := by have := congrArg St.satN hF; exact this.trans eN
    have tn : t.nsatN = s.nsatN := by have := congrArg St.nsatN hF; exact this.trans en
    simp only
    refine Post.ite (fun hi => ?_) (fun hi => ?_)
    · obtain ⟨sat, e2, e3⟩ := sat_at (sats := t.satN) (tn.trans (hn.trans (by rw [tN]))) hi
      rw [e3]
      refine Post.bind (Post.ok rfl) ?_
      rintro _ rfl
      refine Post.bind (clkSat_frame t b i sat) ?_
      rintro ⟨t', i'⟩ ⟨f1, f2, -⟩
      simp only at f1 f2
      have tt' : t'.time = s1.time := by have := congrArg St.time f1; exact this.trans tt
      have hs : clkSatOf s.satN b k = some sat := by unfold clkSatOf; rw [← e2, hst, tN]
      refine Post.pure ⟨f1.trans hF, ?_⟩
      intro sat' c
      show look (setT0 t' sat .clock).t0 sat' c = _
      rw [look_set, lastOf, hs, tt', f2, hL]
      by_cases e : sat' = sat
      · rw [if_pos (show (some sat : Option Int) = some sat' by rw [e])]
        by_cases e2 : c = .clock
        · rw [if_pos ⟨e, e2⟩, if_pos ⟨e2, rfl⟩]
        · rw [if_neg (fun x => e2 x.2), if_neg (fun x => e2 x.1), if_neg (fun x => e2 x.1)]
      · rw [if_neg (fun x => e x.1), if_neg (fun x => e (Option.some.inj x).symm)]
    · have hs : clkSatOf s.satN b k = none := by
        unfold clkSatOf
        have : s.satN.length ≤ bitsAt b 33 5 * 23 + k := by
          rw [← hn, ← tn, ← hst]; exact Nat.le_of_not_lt hi
        exact List.getElem?_eq_none this
      refine Post.pure ⟨hF, ?_⟩
      intro sat' c
      rw [lastOf_none hs]
      exact hL sat' c
  · refine ⟨rfl, ?_⟩
    intro sat c
    have := congrArg St.t0 hT
    simp only [lastOf, Option.isSome_none, Bool.false_eq_true, and_false, if_false]
    exact congrArg (fun d => look d sat c) this
  · rintro ⟨t, i⟩ ⟨hF, hL⟩
    simp only at hF hL
    have et : t.time = s1.time := by have := congrArg St.time hF; exact this
    refine Post.pure ⟨?_, ?_, ?_, ?_, ?_, ?_, ?_⟩
    · rw [← et] at hL; exact hL
    · obtain ⟨a1, a2⟩ := hS
      exact ⟨fun h => by show timediff t.time _ = _; rw [et]; exact a1 h, fun h => by show t.time = _; rw [et]; exact a2 h⟩
    · intro j
      show (t.cstat ||| 1 <<< 2).testBit j = _
      rw [testBit_or_shift, show t.cstat = s.cstat by
        have a := congrArg St.cstat hF; have b := congrArg St.cstat hT; exact a.trans b]
    · intro c
      show (if c = .clock then (bitsAt b 27 2 : Int) else t.iodssrC c) = _
      rw [hiod, show t.iodssrC = s.iodssrC by
        have a := congrArg St.iodssrC hF; have b := congrArg St.iodssrC hT; exact a.trans b]
    · have a := congrArg St.cbias hF; have b := congrArg St.cbias hT; exact a.trans b
    · have a := congrArg St.ura hF; have b := congrArg St.ura hT; exact a.trans b
    · have a : rest (unclk t) = rest (unclk s1) := congrArg rest hF
      have b : rest (unclk s1) = rest (unclk s) := congrArg (fun x => ({ unclk (unval x) with cstat := 0, iodssrC := fun _ => 0 } : St)) hT
      exact a.trans b

/-! ## Messages that are not used -/

/-- A message of type 2, 3, 4 or 5 of another issue than the one of the mask in force changes nothing but the time of the
last message; so does a clock message for another mask. -/
theorem other_issue (s s' : St) (b : BitBuf) (ht : bitsAt b 0 6 = 2 ∨ bitsAt b 0 6 = 3 ∨ bitsAt b 0 6 = 4 ∨ bitsAt b 0 6 = 5)
    (hiod : (bitsAt b 27 2 : Int) ≠ s.iodssr ∨ bitsAt b 0 6 = 4 ∧ (bitsAt b 29 4 : Int) ≠ s.iodp)
    (h : decodeCssr s b = .ok s') : untimed s' = untimed s ∧ Stamp s s' (bitsAt b 6 17) := by
  revert s'
  refine Post.out ?_
  unfold decodeCssr
  refine Post.bind post_u fun mt hmt => ?_
  subst hmt
  refine Post.bind (Q := fun r => untimed r.1 = untimed s ∧ Stamp s r.1 (bitsAt b 6 17)) ?_ (fun r hr => Post.pure hr)
  have hd : ∀ s1 : St, untimed s1 = untimed s → s1.iodssr = s.iodssr ∧ s1.iodp = s.iodp := by
    intro s1 hT
    have a := congrArg St.iodssr hT; have b := congrArg St.iodp hT
    exact ⟨a, b⟩
  rcases ht with e | e | e | e <;> rw [e] at hiod ⊢ <;> simp only
  · unfold decodeMsgOrb
    refine Post.bind (head_spec s b) ?_
    rintro ⟨s1, iod, i⟩ ⟨hT, hS, h1, h2⟩
    simp only at hT hS h1 h2
    refine Post.ite (fun _ => Post.pure ⟨hT, hS⟩) (fun hc => ?_)
    rw [h1, (hd s1 hT).1] at hc
    rcases hiod with h | h
    · exact absurd (not_not.1 hc).symm h
    · omega
  · unfold decodeMsgCbias
    refine Post.bind (head_spec s b) ?_
    rintro ⟨s1, iod, i⟩ ⟨hT, hS, h1, h2⟩
    simp only at hT hS h1 h2
    refine Post.ite (fun _ => Post.pure ⟨hT, hS⟩) (fun hc => ?_)
    rw [h1, (hd s1 hT).1] at hc
    rcases hiod with h | h
    · exact absurd (not_not.1 hc).symm h
    · omega
  · unfold decodeMsgClk
    refine Post.bind (head_spec s b) ?_
    rintro ⟨s1, iod, i⟩ ⟨hT, hS, h1, h2⟩
    simp only at hT hS h1 h2
    refine Post.ite (fun _ => Post.pure ⟨hT, hS⟩) (fun hc => ?_)
    rw [h1, (hd s1 hT).1] at hc
    rcases hiod with h | h
    · exact absurd (not_not.1 hc).symm h
    · refine Post.bind post_u fun ip hip => Post.bind_any fun _ => ?_
      rw [h2] at hip
      refine Post.ite (fun _ => Post.pure ⟨hT, hS⟩) (fun hc2 => ?_)
      rw [hip, (hd s1 hT).2] at hc2
      exact absurd (not_not.1 hc2) h.2
  · unfold decodeMsgUra
    refine Post.bind (head_spec s b) ?_
    rintro ⟨s1, iod, i⟩ ⟨hT, hS, h1, h2⟩
    simp only at hT hS h1 h2
    refine Post.ite (fun _ => Post.pure ⟨hT, hS⟩) (fun hc => ?_)
    rw [h1, (hd s1 hT).1] at hc
    rcases hiod with h | h
    · exact absurd (not_not.1 hc).symm h
    · omega

theorem newMask_keeps (s : St) (mb mg me mr : Nat) : (newMask s mb mg me mr).cstat = s.cstat ∧
    (newMask s mb mg me mr).t0 = s.t0 ∧ (newMask s mb mg me mr).iodp = s.iodp ∧
    (newMask s mb mg me mr).cbias = [] ∧ (newMask s mb mg me mr).ura = [] := by
  simp only [newMask, addGnss, and_self]

/-- A mask message sets its flag and discards biases and accuracies when the mask number is new. -/
theorem mask_message (s s' : St) (b : BitBuf) (ht : bitsAt b 0 6 = 1) (h : decodeCssr s b = .ok s') :
    (∀ j, s'.cstat.testBit j = (s.cstat.testBit j || decide (j = 0))) ∧ s'.t0 = s.t0 ∧
    s'.iodssr = bitsAt b 27 2 ∧ s'.iodp = bitsAt b 29 4 ∧
    (s'.cbias, s'.ura) = if (bitsAt b 29 4 : Int) = s.iodpP then (s.cbias, s.ura) else ([], []) := by
  revert s'
  refine Post.out ?_
  unfold decodeCssr
  refine Post.bind post_u fun mt hmt => ?_
  rw [ht] at hmt
  subst hmt
  simp only
  unfold decodeMsgMask
  refine Post.bind (Q := fun r => _) ?_ (fun r hr => Post.pure hr)
  refine Post.bind (Q := fun r : St × Nat × Nat => r.1.cstat = s.cstat ∧ r.1.t0 = s.t0 ∧ r.1.cbias = s.cbias ∧ r.1.ura = s.ura ∧
    r.1.iodpP = s.iodpP ∧ r.2.1 = bitsAt b 27 2 ∧ r.2.2 = 29) ?_ ?_
  · unfold decodeHead
    refine Post.bind post_u fun d hd => Post.bind_any fun _ => Post.bind post_u fun iod hi => ?_
    refine Post.pure ⟨?_, ?_, ?_, ?_, ?_, hi, rfl⟩ <;>
      (simp only [if_true]; split <;> first | rfl | (split <;> rfl))
  · rintro ⟨s1, iod, i⟩ ⟨f1, f2, f3, f4, f5, f6, f7⟩
    simp only at f1 f2 f3 f4 f5 f6 f7
    subst f6 f7
    refine Post.bind post_u fun ip hip => Post.bind_any fun mb => Post.bind_any fun mg => Post.bind_any fun me =>
      Post.bind_any fun mr => Post.pure ?_
    simp only
    by_cases hc : (ip : Int) = s.iodpP
    · rw [if_neg (fun h => h (hc.trans f5.symm)), if_pos (by rw [← hip]; exact hc)]
      refine ⟨?_, f2, rfl, by rw [← hip]; rfl, by rw [← f3, ← f4]; rfl⟩
      intro j
      show (s1.cstat ||| 1 <<< 0).testBit j = _
      rw [testBit_or_shift, f1]
    · obtain ⟨k1, k2, k3, k4, k5⟩ := newMask_keeps { s1 with iodp := ip } mb mg me mr
      rw [if_pos (fun h => hc (h.trans f5)), if_neg (by rw [← hip]; exact hc)]
      generalize newMask { s1 with iodp := ip } mb mg me mr = t at *
      refine ⟨?_, k2.trans f2, rfl, by rw [← hip]; exact k3, ?_⟩
      · intro j
        show (t.cstat ||| 1 <<< 0).testBit j = _
        rw [testBit_or_shift, k1, f1]
      · rw [← k4, ← k5]; rfl

/-! ## Examples and what the decoder does not do -/

/-- mask 2, issue 1: BeiDou 1 and GPS 1 -/
def exMask : BitBuf := natToBits 6 1 ++ natToBits 21 100 ++ natToBits 2 1 ++ natToBits 4 2 ++
  natToBits 63 (2 ^ 62) ++ natToBits 37 (2 ^ 36) ++ natToBits 37 0 ++ natToBits 37 0

/-- biases: GPS 1 with C1C and C5Q, BeiDou 1 with C2I -/
def exBias : BitBuf := natToBits 6 3 ++ natToBits 17 100 ++ natToBits 4 0 ++ natToBits 2 1 ++ natToBits 5 2 ++
  (natToBits 9 64 ++ natToBits 4 2 ++ natToBits 4 0 ++ natToBits 12 100 ++ natToBits 4 12 ++ natToBits 12 4095) ++
  (natToBits 9 1 ++ natToBits 4 1 ++ natToBits 4 0 ++ natToBits 12 2048)

/-- the same preceded by GPS 2, which is not in the mask, with C1C -/
def exBiasOut : BitBuf := natToBits 6 3 ++ natToBits 17 100 ++ natToBits 4 0 ++ natToBits 2 1 ++ natToBits 5 2 ++
  (natToBits 9 65 ++ natToBits 4 1 ++ natToBits 4 0 ++ natToBits 12 32) ++
  (natToBits 9 64 ++ natToBits 4 1 ++ natToBits 4 0 ++ natToBits 12 100 ++ natToBits 4 12 ++ natToBits 12 4095)

def biasesAfter (ms : List BitBuf) : Py (Dict Int (Dict Sig Val)) := do
  let s ← ms.foldlM (fun s m => decodeCssr s m) ({ week := 900, tow0 := 0 } : St)
  pure s.cbias

example : biasesAfter [exMask, exBias] = .ok [(86, [(⟨.bds, .C, 209⟩, none)]),
    (1, [(⟨.gps, .C, 517⟩, some (-17 / 1000)), (⟨.gps, .C, 103⟩, some (17 / 10))])] := by decide +kernel

example : numRecs exBias = 2 ∧ recPos exBias 1 = 34 + 13 + 32 ∧
    (∀ k < 2, slotSat (recSlot exBias k) ∈ [(86 : Int), 1]) := by decide +kernel

/-- A satellite outside the mask is skipped without its entries: everything after it is read at the wrong place.  Here the
bias broadcast for GPS 1 is lost. -/
theorem outside_mask_misread : recSlot exBiasOut 0 = 65 ∧ recSlot exBiasOut 1 = 64 ∧ recNum exBiasOut 1 = 1 ∧
    biasesAfter [exMask, exBiasOut] = .ok [] := by decide +kernel

/-- accuracies under mask number 3 -/
def exUra : BitBuf := natToBits 6 5 ++ natToBits 21 0 ++ natToBits 2 1 ++ natToBits 4 3 ++ natToBits 3 0 ++
  (natToBits 6 9 ++ natToBits 6 63 ++ natToBits 408 0)

/-- The mask number of an accuracy message is not compared: a message made for mask 3 is applied to mask 2. -/
theorem ura_other_mask : (do
    let s ← [exMask, exUra].foldlM (fun s m => decodeCssr s m) ({} : St)
    pure s.ura) = (.ok [(1, uraVal 7 7), (86, uraVal 1 1)] : Py (Dict Int Val)) ∧ bitsAt exMask 29 4 ≠ bitsAt exUra 29 4 := by
  decide +kernel

end Verif.C59
