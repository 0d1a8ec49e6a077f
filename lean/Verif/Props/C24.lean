import Verif.Model.Osnma
import Mathlib.Tactic.Ring
import Mathlib.Tactic.Linarith
/-! # C24: system times used while hashing a disclosed key back

Specification: the key of the sub-frame starting at system time `T` (seconds since the Galileo
epoch) is turned into the key of the sub-frame before it by hashing it together with the 32-bit
time field of `T - 30` and the random pattern, and truncating.  `back` iterates this. -/

namespace Verif.C24
open Verif.Osnma
variable {PK : Type}

/-- the 32-bit system time field of a time in seconds: 12-bit week, 20-bit second of week -/
def gstField (T : Nat) : BitBuf := natToBits 12 (T / 604800) ++ natToBits 20 (T % 604800)

/-- successive hashing of a key with a list of time fields -/
def back (hash : BitBuf → BitBuf) (alp : BitBuf) (klen : Nat) (key : BitBuf) (ts : List BitBuf) :
    BitBuf := ts.foldl (fun k t => (hash (k ++ t ++ alp)).take klen) key

/-- the times of the `n` steps back from the sub-frame at `T`: `T - 30`, `T - 60`, ... -/
def trueTimes (T n : Nat) : List BitBuf := (List.range n).map fun k => gstField (T - 30 * (k + 1))

/-- the decoder holds usable parameters: a supported hash, key length `8 * klen` bits -/
structure Params (s : St PK) (klen : Nat) : Prop where
  hash : s.hf = 0 ∨ s.hf = 2
  klen : pyGetI klenT s.ks = .ok (8 * klen)

/-- time of step `k` as the code computes it from week `wn` and time of week `30 * a` -/
def codeTime (wn a k : Nat) : BitBuf :=
  if k < a then natToBits 12 wn ++ natToBits 20 (30 * a - 30 * (k + 1))
  else natToBits 12 (wn - (k + 1 - a)) ++ natToBits 20 (30 * a + 604800 - 30 * (k + 1))

theorem packGst_ok {wn tow : Int} (h1 : 0 ≤ wn) (h2 : wn < 4096) (h3 : 0 ≤ tow) (h4 : tow < 1048576) :
    packGst wn tow = .ok (natToBits 12 wn.toNat ++ natToBits 20 tow.toNat) := if_pos ⟨h1, h2, h3, h4⟩

theorem back_cons (hash : BitBuf → BitBuf) (alp : BitBuf) (klen : Nat) (key t : BitBuf)
    (ts : List BitBuf) :
    back hash alp klen key (t :: ts) = back hash alp klen ((hash (key ++ t ++ alp)).take klen) ts := rfl

/-- the loop started at step `k` with the week reached there -/
theorem loop_eq (p : Prim PK) (s : St PK) (klen wn a : Nat) (hp : s.hf = 0 ∨ s.hf = 2)
    (hw : wn < 4096) (ha : 30 * a < 604800) : ∀ (n k : Nat) (key : BitBuf),
    n + k ≤ a + wn → 30 * (n + k) ≤ 30 * a + 604800 →
    chainLoop p s klen (30 * a : Nat) n k key ((wn : Int) - (k - a : Nat)) =
      .ok (back (p.hash s.hf) s.alp (8 * klen) key ((List.range' k n).map (codeTime wn a))) := by
  intro n
  induction n with
  | zero => intro k key _ _; rfl
  | succ n ih =>
    intro k key h1 h2
    unfold chainLoop
    rw [List.range'_succ, List.map_cons, back_cons]
    have hih := ih (k + 1) ((p.hash s.hf (key ++ codeTime wn a k ++ s.alp)).take (8 * klen))
      (by omega) (by omega)
    by_cases hk : k < a
    · have e1 : ¬ (((30 * a : Nat) : Int) - 30 * ((k : Int) + 1) < 0) := by omega
      simp only [e1, if_false]
      rw [packGst_ok (by omega) (by omega) (by omega) (by omega)]
      simp only [processHash, hp, if_true, bind, Except.bind]
      have e2 : ((wn : Int) - (k - a : Nat)).toNat = wn := by omega
      have e3 : (((30 * a : Nat) : Int) - 30 * ((k : Int) + 1)).toNat = 30 * a - 30 * (k + 1) := by omega
      rw [e2, e3]
      have e4 : natToBits 12 wn ++ natToBits 20 (30 * a - 30 * (k + 1)) = codeTime wn a k := by
        simp [codeTime, hk]
      have e5 : ((wn : Int) - (k - a : Nat)) = (wn : Int) - (k + 1 - a : Nat) := by omega
      rw [e4, e5]; exact hih
    · have e1 : (((30 * a : Nat) : Int) - 30 * ((k : Int) + 1) < 0) := by omega
      simp only [e1, if_true]
      rw [packGst_ok (by omega) (by omega) (by omega) (by omega)]
      simp only [processHash, hp, if_true, bind, Except.bind]
      have e2 : ((wn : Int) - (k - a : Nat) - 1).toNat = wn - (k + 1 - a) := by omega
      have e3 : (((30 * a : Nat) : Int) - 30 * ((k : Int) + 1) + 604800).toNat
          = 30 * a + 604800 - 30 * (k + 1) := by omega
      rw [e2, e3]
      have e4 : natToBits 12 (wn - (k + 1 - a)) ++ natToBits 20 (30 * a + 604800 - 30 * (k + 1))
          = codeTime wn a k := by simp [codeTime, hk]
      have e5 : ((wn : Int) - (k - a : Nat)) - 1 = (wn : Int) - (k + 1 - a : Nat) := by omega
      rw [e4, e5]; exact hih

/-- **the hashing as performed**, for every distance that does not raise -/
theorem chain_code (p : Prim PK) (s : St PK) (klen wn a n : Nat) (key : BitBuf) (hp : Params s klen)
    (hw : wn < 4096) (ha : 30 * a < 604800) (h1 : n ≤ a + wn) (h2 : 30 * n ≤ 30 * a + 604800) :
    updateKeyChain p s key wn (30 * a : Nat) n =
      .ok (back (p.hash s.hf) s.alp (8 * klen) key ((List.range n).map (codeTime wn a))) := by
  unfold updateKeyChain
  rw [hp.klen]
  have := loop_eq p s klen wn a hp.hash hw ha n 0 key (by omega) (by omega)
  simp only [Nat.zero_sub, Nat.cast_zero, sub_zero, ← List.range_eq_range'] at this
  simp only [bind, Except.bind, Int.toNat_natCast]
  rw [show 8 * klen / 8 = klen by omega]
  exact this

/-- step `k` uses the right system time as long as at most one step lies before the week start -/
theorem codeTime_true (wn a k : Nat) (ha : 30 * a < 604800) (hk : k ≤ a)
    (hT : 30 * (k + 1) ≤ wn * 604800 + 30 * a) :
    codeTime wn a k = gstField (wn * 604800 + 30 * a - 30 * (k + 1)) := by
  unfold codeTime gstField
  by_cases h : k < a
  · have e1 : (wn * 604800 + 30 * a - 30 * (k + 1)) / 604800 = wn := by omega
    have e2 : (wn * 604800 + 30 * a - 30 * (k + 1)) % 604800 = 30 * a - 30 * (k + 1) := by omega
    rw [if_pos h, e1, e2]
  · obtain rfl : k = a := by omega
    have e1 : (wn * 604800 + 30 * k - 30 * (k + 1)) / 604800 = wn - (k + 1 - k) := by omega
    have e2 : (wn * 604800 + 30 * k - 30 * (k + 1)) % 604800 = 30 * k + 604800 - 30 * (k + 1) := by
      omega
    rw [if_neg h, e1, e2]

/-- every further step uses a wrong system time -/
theorem codeTime_wrong (wn a k : Nat) (hw : wn < 4096) (hk : a < k) (h1 : k + 1 ≤ a + wn)
    (h2 : 30 * (k + 1) ≤ 30 * a + 604800) :
    codeTime wn a k ≠ gstField (wn * 604800 + 30 * a - 30 * (k + 1)) := by
  intro h
  unfold codeTime gstField at h
  rw [if_neg (by omega)] at h
  have h3 := (List.append_inj h (by simp)).1
  have h4 := natToBits_injOn (n := 12) (by omega) (by omega) h3
  omega

/-- **C24, correct range.** Whatever the hash, every step uses the system time of that step when
the distance reaches at most one sub-frame into the preceding week. -/
theorem chain_times (p : Prim PK) (s : St PK) (klen wn a n : Nat) (key : BitBuf) (hp : Params s klen)
    (hw : wn < 4096) (ha : 30 * a < 604800) (hn : n ≤ a + 1)
    (hT : 30 * n ≤ wn * 604800 + 30 * a) :
    updateKeyChain p s key wn (30 * a : Nat) n =
      .ok (back (p.hash s.hf) s.alp (8 * klen) key (trueTimes (wn * 604800 + 30 * a) n)) := by
  rw [chain_code p s klen wn a n key hp hw ha (by omega) (by omega)]
  congr 2
  refine List.map_congr_left fun k hk => ?_
  rw [List.mem_range] at hk
  exact codeTime_true wn a k ha (by omega) (by omega)

/-- **C24, the exact range.** The list of times used is the list of true times iff the distance
reaches at most one sub-frame into the preceding week. -/
theorem chain_times_iff (p : Prim PK) (s : St PK) (klen wn a n : Nat) (key : BitBuf)
    (hp : Params s klen) (hw : wn < 4096) (ha : 30 * a < 604800) (h1 : n ≤ a + wn)
    (h2 : 30 * n ≤ 30 * a + 604800) :
    ∃ ts : List BitBuf, updateKeyChain p s key wn (30 * a : Nat) n =
        .ok (back (p.hash s.hf) s.alp (8 * klen) key ts) ∧ ts.length = n ∧
      (∀ k, k < n → (ts[k]? = (trueTimes (wn * 604800 + 30 * a) n)[k]? ↔ k ≤ a)) := by
  refine ⟨_, chain_code p s klen wn a n key hp hw ha h1 h2, by simp, fun k hk => ?_⟩
  simp only [trueTimes, List.getElem?_map, List.getElem?_range hk, Option.map_some, Option.some.injEq]
  constructor
  · intro h
    by_contra hc
    exact codeTime_wrong wn a k hw (by omega) (by omega) (by omega) h
  · intro h; exact codeTime_true wn a k ha h (by omega)

/-- beyond a full week the computation raises -/
theorem chain_raises (p : Prim PK) (s : St PK) (klen wn a n : Nat) (key : BitBuf)
    (hp : Params s klen) (hw : wn < 4096) (ha : 30 * a < 604800)
    (h : a + wn < n ∨ 30 * a + 604800 < 30 * n) :
    updateKeyChain p s key wn (30 * a : Nat) n = .error .bitstruct := by
  have hl : ∀ (n k : Nat) (key : BitBuf), k ≤ a + wn → 30 * k ≤ 30 * a + 604800 →
      (a + wn < n + k ∨ 30 * a + 604800 < 30 * (n + k)) →
      chainLoop p s klen (30 * a : Nat) n k key ((wn : Int) - (k - a : Nat)) = .error .bitstruct := by
    intro n
    induction n with
    | zero => intro k key h1 h2 h3; omega
    | succ n ih =>
      intro k key h1 h2 h3
      unfold chainLoop
      by_cases hk : k < a
      · have e1 : ¬ (((30 * a : Nat) : Int) - 30 * ((k : Int) + 1) < 0) := by omega
        simp only [e1, if_false]
        rw [packGst_ok (by omega) (by omega) (by omega) (by omega)]
        simp only [processHash, hp.hash, if_true, bind, Except.bind]
        have e5 : ((wn : Int) - (k - a : Nat)) = (wn : Int) - (k + 1 - a : Nat) := by omega
        rw [e5]
        exact ih (k + 1) _ (by omega) (by omega) (by omega)
      · have e1 : (((30 * a : Nat) : Int) - 30 * ((k : Int) + 1) < 0) := by omega
        simp only [e1, if_true]
        by_cases hc : k + 1 ≤ a + wn ∧ 30 * (k + 1) ≤ 30 * a + 604800
        · rw [packGst_ok (by omega) (by omega) (by omega) (by omega)]
          simp only [processHash, hp.hash, if_true, bind, Except.bind]
          have e5 : ((wn : Int) - (k - a : Nat)) - 1 = (wn : Int) - (k + 1 - a : Nat) := by omega
          rw [e5]
          exact ih (k + 1) _ hc.1 hc.2 (by omega)
        · have : packGst ((wn : Int) - (k - a : Nat) - 1)
              (((30 * a : Nat) : Int) - 30 * ((k : Int) + 1) + 604800) = .error .bitstruct := by
            unfold packGst
            rw [if_neg]
            rintro ⟨q1, q2, q3, q4⟩
            omega
          rw [this]; rfl
  unfold updateKeyChain
  rw [hp.klen]
  have := hl n 0 key (by omega) (by omega) (by omega)
  simp only [Nat.zero_sub, Nat.cast_zero, sub_zero] at this
  simp only [bind, Except.bind, Int.toNat_natCast]
  rw [show 8 * klen / 8 = klen by omega]
  exact this

/-- **number of steps**: from a sub-frame at `T` to the root key's reference time `R`, the last
of the hashing steps is made with time `R - 30`, i.e. the root key belongs to the sub-frame that
ends at `R`. -/
theorem steps_to_root (s : St PK) (gw : Int) (a : Int) (hT : s.gstTow = 30 * a) :
    (gw * 604800 + s.gstTow) - 30 * stepsToRoot s gw = s.wn * 604800 + s.towh * 3600 - 30 := by
  unfold stepsToRoot
  rw [hT]
  omega

/-- **the decoder's own use**: in the first key-chain check the key is accepted exactly if
hashing it back with those times reproduces the root key -/
theorem first_check (p : Prim PK) (s : St PK) (klen wn a n : Nat) (key : BitBuf)
    (hp : Params s klen) (hr : s.rootVerified = true) (hc : s.chainVerified = false)
    (hw : wn < 4096) (ha : 30 * a < 604800) (hs : stepsToRoot s wn = n) (hn : n ≤ a + 1)
    (hT : 30 * n ≤ wn * 604800 + 30 * a) :
    verifyKeyChain p s key wn (30 * a : Nat) =
      .ok ({ s with chainVerified := decide (back (p.hash s.hf) s.alp (8 * klen) key
              (trueTimes (wn * 604800 + 30 * a) n) = s.kroot) },
           decide (back (p.hash s.hf) s.alp (8 * klen) key
              (trueTimes (wn * 604800 + 30 * a) n) = s.kroot)) := by
  unfold verifyKeyChain
  rw [hs, chain_times p s klen wn a n key hp hw ha hn hT]
  simp [hr, hc, bind, Except.bind, pure, Except.pure]

/-- **the first sub-frame of a week raises**: once a key chain is verified, the time of the
sub-frame before it is packed as second of week -30 -/
theorem week_start_raises (p : Prim PK) (s : St PK) (gw : Int) (prn : Nat) (h : s.gstTow = 0) :
    authStage p s gw prn = .error .bitstruct := by
  unfold authStage setGstSf
  rw [h]
  have : packGst gw ((0 - 30 : Int) / 30 * 30) = .error .bitstruct := by
    unfold packGst; rw [if_neg]; omega
  rw [this]; rfl

/-- the week and second of week used are those of the time conversions of `gnss.py` -/
theorem gst_conversion (wn tow : Nat) (h : tow ≤ 1000000000) :
    Time.time2gst (Time.gpst2time wn (tow : ℚ)) =
      ((gstOf wn tow).1, (((gstOf wn tow).2 : Int) : ℚ)) := by
  have h0 : ¬ ((tow : ℚ) < -1000000000 ∨ (tow : ℚ) > 1000000000) := by
    push Not
    constructor
    · have : (0 : ℚ) ≤ tow := Nat.cast_nonneg tow
      linarith
    · exact_mod_cast h
  have ht : Time.truncQ (tow : ℚ) = tow := by
    unfold Time.truncQ
    have : (0 : ℚ) ≤ tow := Nat.cast_nonneg tow
    simp [this]
  have hg : (Time.epoch2time Time.gpst0).time = 315964800 := by decide +kernel
  have hh : (Time.epoch2time Time.gst0).time = 935280000 := by decide +kernel
  simp only [Time.time2gst, Time.time2wk, Time.gpst2time, Time.wk2time, h0, if_false, ht, hg, hh, gstOf]
  have e : (315964800 + (86400 * 7 * (wn : Int) + tow) - 935280000)
      = ((wn : Int) - 1024) * 604800 + tow := by ring
  rw [e]
  simp
  ring

theorem gst_week (wn tow : Nat) (h : 1024 ≤ wn) (ht : tow < 604800) :
    gstOf wn tow = ((wn : Int) - 1024, (tow : Int)) := by
  have : (((wn : Int) - 1024) * 604800 + tow).tdiv 604800 = (wn : Int) - 1024 := by
    rw [Int.tdiv_eq_ediv_of_nonneg (by omega)]; omega
  simp only [gstOf, this, Prod.mk.injEq, true_and]
  omega

/-- concrete, satisfiable parameters: SHA-256, 128-bit keys -/
def demo : St Unit := { hf := 0, ks := 4 }
example : Params demo 16 := ⟨Or.inl rfl, by decide⟩
/-- a distance of 3 steps across the week start goes wrong from the second step before it on -/
example : codeTime 1200 1 1 = gstField (1200 * 604800 + 30 - 60) ∧
    codeTime 1200 1 2 ≠ gstField (1200 * 604800 + 30 - 90) := by decide +kernel
example (p : Prim Unit) (key : BitBuf) : updateKeyChain p demo key 1200 (30 * 100 : Nat) (50 : Nat) =
    .ok (back (p.hash 0) (zeros 6) 128 key (trueTimes (1200 * 604800 + 3000) 50)) :=
  chain_times p demo 16 1200 100 50 key ⟨Or.inl rfl, by decide⟩ (by omega) (by omega) (by omega)
    (by omega)

end Verif.C24
