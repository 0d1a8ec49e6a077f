import Verif.Props.C67
/-!
# C68 Contents of RTCM and IGS SSR code and phase bias messages

Specification: after the header follow the records of the satellites; a record consists of the satellite number, the
number of signals, for some messages the yaw angle, and the signals.
-/

namespace Verif.C68
open Verif.Sat Verif.Sig Verif.Time Verif.RtcmTypes Verif.RtcmSsr Verif.RtcmBias
open Verif.C67 (satW satAt timeW hdrW HeadAt EpochIs nsatAt num setHead lastVal lastVal_append lastVal_one lastVal_nil
  headDec sat_spec sval_num Ready)

/-! ## Specification -/

/-- signal numbers: band and attribute of the RINEX name -/
def sigs : Sys → List (Nat × Char × Char)
  | .gps => [(0, '1', 'C'), (1, '1', 'P'), (2, '1', 'W'), (5, '2', 'C'), (6, '2', 'D'), (7, '2', 'S'), (8, '2', 'L'),
      (9, '2', 'X'), (10, '2', 'P'), (11, '2', 'W'), (14, '5', 'I'), (15, '5', 'Q'), (16, '5', 'X'), (17, '1', 'S'),
      (18, '1', 'L'), (19, '1', 'X')]
  | .glo => [(0, '1', 'C'), (1, '1', 'P'), (2, '2', 'C'), (3, '2', 'P'), (4, '4', 'A'), (5, '4', 'B'), (6, '6', 'A'),
      (7, '6', 'B'), (10, '3', 'I'), (11, '3', 'Q')]
  | .gal => [(0, '1', 'A'), (1, '1', 'B'), (2, '1', 'C'), (3, '1', 'X'), (4, '1', 'Z'), (5, '5', 'I'), (6, '5', 'Q'),
      (7, '5', 'X'), (8, '7', 'I'), (9, '7', 'Q'), (10, '7', 'X'), (11, '8', 'I'), (12, '8', 'Q'), (13, '8', 'X'),
      (14, '6', 'A'), (15, '6', 'B'), (16, '6', 'C'), (17, '6', 'X'), (18, '6', 'Z')]
  | .bds => [(0, '2', 'I'), (1, '2', 'Q'), (2, '2', 'X'), (3, '6', 'I'), (4, '6', 'Q'), (5, '6', 'X'), (6, '7', 'I'),
      (7, '7', 'Q'), (8, '7', 'X'), (9, '1', 'D'), (10, '1', 'P'), (11, '1', 'X'), (12, '5', 'D'), (13, '5', 'P'),
      (14, '5', 'X'), (15, '1', 'A')]
  | .qzs => [(0, '1', 'C'), (1, '1', 'S'), (2, '1', 'C'), (3, '2', 'S'), (4, '2', 'L'), (5, '2', 'X'), (6, '5', 'I'),
      (7, '5', 'Q'), (8, '5', 'X'), (9, '6', 'S'), (10, '6', 'L'), (11, '6', 'X'), (12, '1', 'X'), (17, '6', 'E'),
      (19, '1', 'E')]
  | .sbs => [(0, '1', 'C'), (1, '5', 'I'), (2, '5', 'Q'), (3, '5', 'X')]
  | _ => []

/-- name of a signal; numbers without a meaning share one -/
def nameOf (t : Char) (sys : Sys) (n : Nat) : List Char :=
  match (sigs sys).find? (fun x => x.1 = n) with
  | some x => [t, x.2.1, x.2.2]
  | none => ['?', '?', '?']

/-- layout of the records of a message: bits of the satellite number, of the yaw angle and of a signal; most signals -/
structure Lay where
  w : Nat
  y : Nat
  s : Nat
  c : Nat

/-- number of signals of the record at bit `p` -/
def Lay.nsig (L : Lay) (b : BitBuf) (p : Nat) : Nat := bitsAt b (p + L.w) 5
/-- first bit of signal `j` -/
def Lay.sig (L : Lay) (p j : Nat) : Nat := p + L.w + 5 + L.y + L.s * j

/-- first bits of the records that are read: a record announcing too many signals ends the message -/
def Lay.recs (L : Lay) (b : BitBuf) : Nat → Nat → List Nat
  | 0, _ => []
  | n + 1, p => p :: if L.nsig b p > L.c then [] else L.recs b n (L.sig p (L.nsig b p))

/-- first bit not read -/
def Lay.fin (L : Lay) (b : BitBuf) : Nat → Nat → Nat
  | 0, p => p
  | n + 1, p => if L.nsig b p > L.c then L.sig p 0 else L.fin b n (L.sig p (L.nsig b p))

/-- entries of the records: satellite, signal and a value read at the first bit of the signal -/
def Lay.ents {α : Type} (L : Lay) (mt : Nat) (sys : Sys) (t : Char) (b : BitBuf) (ps : List Nat) (v : Nat → α) :
    List ((Int × List Char) × α) :=
  (ps.filter fun p => L.nsig b p ≤ L.c).flatMap fun p => (List.range (L.nsig b p)).map fun j =>
    ((satAt mt sys b p, nameOf t sys (bitsAt b (L.sig p j) 5)), v (L.sig p j))

/-- value of a signal of a satellite -/
def look2 {α : Type} (d : Dict Int (Row α)) (k : Int × List Char) : Option α :=
  (Dict.get? d k.1).bind fun r => Dict.get? r k.2

/-- table after entries have been stored over an old one; `named` are the satellites that have an entry -/
structure Stored {α : Type} (old new : Dict Int (Row α)) (l : List ((Int × List Char) × α)) (named : List Int) : Prop where
  val : ∀ k, look2 new k = (lastVal l k).or (look2 old k)
  keys : ∀ s, (Dict.get? new s).isSome ↔ (Dict.get? old s).isSome ∨ s ∈ named

/-- list of satellites after some have been named -/
structure Listed (old new named : List Int) : Prop where
  mem : ∀ s, s ∈ new ↔ s ∈ old ∨ s ∈ named
  pre : old <+: new
  nodup : old.Nodup → new.Nodup

def layCode (mt : Nat) (sys : Sys) : Lay := ⟨satW mt sys, 0, 19, (sigs sys).length⟩

/-! ## Helpers -/

theorem names_ok : ∀ sys ∈ [Sys.gps, .glo, .gal, .qzs, .bds, .sbs], ∀ n < 32,
    ssigStr sys .C n = .ok (nameOf 'C' sys n) ∧ ssigStr sys .L n = .ok (nameOf 'L' sys n) ∧
    ssigCount sys = .ok (sigs sys).length := by decide +kernel

theorem mem_of_sigs {sys : Sys} (h : sigs sys ≠ []) : sys ∈ [Sys.gps, .glo, .gal, .qzs, .bds, .sbs] := by
  cases sys <;> first | decide | exact absurd rfl h

theorem bitsAt_lt (b : BitBuf) (k n : Nat) : bitsAt b k n < 2 ^ n := by
  unfold bitsAt
  refine lt_of_lt_of_le (bitsToNat_lt _) (Nat.pow_le_pow_right (by norm_num) ?_)
  simp

theorem stored_refl {α : Type} (d : Dict Int (Row α)) : Stored d d [] [] :=
  ⟨fun _ => rfl, fun _ => by simp⟩

theorem stored_trans {α : Type} {d e f : Dict Int (Row α)} {l m : List ((Int × List Char) × α)} {n o : List Int}
    (h1 : Stored d e l n) (h2 : Stored e f m o) : Stored d f (l ++ m) (n ++ o) := by
  refine ⟨fun k => ?_, fun s => ?_⟩
  · rw [h2.val, h1.val, lastVal_append]
    cases lastVal m k <;> rfl
  · rw [h2.keys, h1.keys, List.mem_append, or_assoc]

theorem stored_set {α : Type} {d e : Dict Int (Row α)} {l : List ((Int × List Char) × α)} {n : List Int} {s : Int}
    {r : Row α} {g : List Char} {v : α} (h : Stored d e l n) (hr : Dict.get? e s = some r) :
    Stored d (Dict.set e s (Dict.set r g v)) (l ++ [((s, g), v)]) n := by
  refine ⟨fun k => ?_, fun x => ?_⟩
  · rw [lastVal_append, lastVal_one]
    unfold look2
    rw [Dict.get?_set]
    by_cases e1 : k.1 = s
    · rw [if_pos e1]
      simp only [Option.bind_some]
      rw [Dict.get?_set]
      by_cases e2 : k.2 = g
      · rw [if_pos e2, if_pos (Prod.ext e1 e2)]; rfl
      · rw [if_neg e2, if_neg (fun q => e2 (by rw [q]))]
        have := h.val k
        unfold look2 at this
        rw [e1, hr] at this
        simp only [Option.bind_some] at this
        rw [this, e1]; rfl
    · rw [if_neg e1, if_neg (fun q => e1 (by rw [q]))]
      exact h.val k
  · rw [Dict.get?_set]
    by_cases e1 : x = s
    · rw [if_pos e1, ← h.keys, e1, hr]; simp
    · rw [if_neg e1]; exact h.keys x

/-- an empty entry for a satellite that has none -/
theorem stored_new {α : Type} (d : Dict Int (Row α)) (s : Int) :
    Stored d (if Dict.mem d s then d else Dict.set d s []) [] [s] ∧
      (Dict.get? (if Dict.mem d s then d else Dict.set d s []) s).isSome := by
  by_cases h : Dict.mem d s = true
  · rw [if_pos h]
    refine ⟨⟨fun _ => rfl, fun x => ?_⟩, h⟩
    constructor
    · exact Or.inl
    · rintro (g | g)
      · exact g
      · rw [List.mem_singleton.1 g]; exact h
  · rw [if_neg h]
    have hn : Dict.get? d s = none := by
      unfold Dict.mem at h
      cases e : Dict.get? d s with
      | none => rfl
      | some r => rw [e] at h; exact absurd rfl h
    refine ⟨⟨fun k => ?_, fun x => ?_⟩, by simp⟩
    · unfold look2
      rw [Dict.get?_set]
      by_cases e : k.1 = s
      · rw [if_pos e, e, hn]; rfl
      · rw [if_neg e]; rfl
    · rw [Dict.get?_set]
      by_cases e : x = s
      · rw [if_pos e]; simp [e]
      · rw [if_neg e]; simp [e]

theorem stored_pos {α : Type} {P : Prop} [Decidable P] {old m : Dict Int (Row α)} {l : List ((Int × List Char) × α)}
    {n : List Int} (h : P) (s : Stored [] m l n) : Stored (if P then [] else old) m l n := by
  rw [if_pos h]; exact s

theorem stored_neg {α : Type} {P : Prop} [Decidable P] {old m : Dict Int (Row α)} {l : List ((Int × List Char) × α)}
    {n : List Int} (h : ¬ P) (s : Stored old m l n) : Stored (if P then [] else old) m l n := by
  rw [if_neg h]; exact s

theorem listed_pos {P : Prop} [Decidable P] {old l n : List Int} (h : P) (s : Listed [] l n) :
    Listed (if P then [] else old) l n := by
  rw [if_pos h]; exact s

theorem listed_neg {P : Prop} [Decidable P] {old l n : List Int} (h : ¬ P) (s : Listed old l n) :
    Listed (if P then [] else old) l n := by
  rw [if_neg h]; exact s

theorem listed_refl (l : List Int) : Listed l l [] := ⟨fun _ => by simp, List.prefix_rfl, id⟩

theorem listed_trans {l m k n o : List Int} (h1 : Listed l m n) (h2 : Listed m k o) : Listed l k (n ++ o) :=
  ⟨fun s => by rw [h2.mem, h1.mem, List.mem_append, or_assoc], h1.pre.trans h2.pre, fun h => h2.nodup (h1.nodup h)⟩

theorem addSatB_spec {q : Bias} {l : List Int} (h : q.satB = some l) (s : Int) :
    ∃ l', addSatB q s = .ok { q with satB := some l' } ∧ Listed l l' [s] := by
  unfold addSatB
  rw [h]
  simp only
  by_cases hs : s ∈ l
  · rw [if_pos hs]
    refine ⟨l, by rw [← h], fun x => ?_, List.prefix_rfl, id⟩
    constructor
    · exact Or.inl
    · rintro (g | g)
      · exact g
      · rw [List.mem_singleton.1 g]; exact hs
  · rw [if_neg hs]
    refine ⟨l ++ [s], rfl, fun x => by simp, List.prefix_append _ _, fun hn => ?_⟩
    rw [List.nodup_append]
    exact ⟨hn, by simp, fun a ha c hc e => hs (by rw [List.mem_singleton] at hc; rw [← hc, ← e]; exact ha)⟩

theorem ents_cons {α : Type} (L : Lay) (mt : Nat) (sys : Sys) (t : Char) (b : BitBuf) (p : Nat) (ps : List Nat) (v : Nat → α) :
    L.ents mt sys t b (p :: ps) v = L.ents mt sys t b [p] v ++ L.ents mt sys t b ps v := by
  unfold Lay.ents
  by_cases h : L.nsig b p ≤ L.c <;> simp [h]

theorem ents_one {α : Type} (L : Lay) (mt : Nat) (sys : Sys) (t : Char) (b : BitBuf) (p : Nat) (v : Nat → α)
    (h : L.nsig b p ≤ L.c) :
    L.ents mt sys t b [p] v = (List.range (L.nsig b p)).map fun j =>
      ((satAt mt sys b p, nameOf t sys (bitsAt b (L.sig p j) 5)), v (L.sig p j)) := by
  unfold Lay.ents
  simp [h]

theorem ents_bad {α : Type} (L : Lay) (mt : Nat) (sys : Sys) (t : Char) (b : BitBuf) (p : Nat) (v : Nat → α)
    (h : ¬ L.nsig b p ≤ L.c) : L.ents mt sys t b [p] v = [] := by
  unfold Lay.ents
  simp [h]

theorem fin_le (L : Lay) (b : BitBuf) : ∀ n p, p ≤ L.fin b n p
  | 0, p => Nat.le_refl _
  | n + 1, p => by
    rw [Lay.fin]
    by_cases h : L.nsig b p > L.c
    · rw [if_pos h]; unfold Lay.sig; omega
    · rw [if_neg h]
      refine Nat.le_trans ?_ (fin_le L b n _)
      unfold Lay.sig
      have := Nat.zero_le (L.s * L.nsig b p)
      omega

theorem bias_head_spec (d : Dec) (q : Bias) (f : Form) (sys : Sys) (b : BitBuf) (i : Nat) :
    let w := i + timeW d.msgtype sys
    let y := match f with | .code => 0 | .phase => 2 | .phase2 => 5
    Exact b.length (i + hdrW d.msgtype sys y) (biasHead d q f sys b i) (fun r => ∃ t, EpochIs d sys b i t ∧
      r = (headDec d sys 0 b i t,
        (match f with
          | .code => q | .phase => { q with iexpb := 0 } | .phase2 => { q with iexpb := bitsAt b (w + 30) 4 }),
        ⟨bitsAt b w 4, bitsAt b (w + 4) 1 == 1, bitsAt b (w + 5) 4,
          (match f with | .phase2 => some (bitsAt b (w + 29) 1 == 1) | _ => none), nsatAt d.msgtype sys 0 y b i⟩,
        i + hdrW d.msgtype sys y)) := by
  intro w y
  unfold biasHead
  refine Exact.bind (C67.time_spec d sys b i) (by unfold hdrW; omega) ?_
  rintro _ ⟨t, ht, rfl⟩ -
  have hw : i + timeW d.msgtype sys = w := rfl
  simp only [hw]
  have hL : i + hdrW d.msgtype sys y = w + y + 35 := by unfold hdrW; omega
  have hN : nsatAt d.msgtype sys 0 y b i = bitsAt b (w + y + 29) 6 := by
    unfold nsatAt; rw [hw]; rfl
  rw [hL, hN]
  refine Exact.bind Exact.u (by omega) fun u hu _ => Exact.bind Exact.u (by omega) fun mi hm _ => ?_
  refine Exact.bind Exact.u (by omega) fun u2 hu2 _ => Exact.bind Exact.u (by omega) fun u3 hu3 _ => ?_
  refine Exact.bind (Exact.u (i := w + 5 + 20) (n := 4)) (by omega) fun u4 hu4 _ => ?_
  subst hu hm hu2 hu3 hu4
  cases f
  · refine Exact.step rfl ?_
    refine Exact.bind (Exact.u (i := w + 5 + 24) (n := 6)) (Nat.le_refl _) fun u hu hl => ?_
    subst hu
    exact Exact.ret hl ⟨t, ht, rfl⟩
  · refine Exact.bind (Q := fun r : Bias × Option Bool × Nat => r = ({ q with iexpb := 0 }, none, w + 5 + 24 + 2))
      (p := w + 31) (p' := w + 2 + 35) ?_ (by omega) ?_
    · exact Exact.bind Exact.u (by omega) fun _ _ _ => Exact.bind (Exact.u (i := w + 5 + 24 + 1) (n := 1)) (by omega)
        fun _ _ hl => Exact.ret hl rfl
    · rintro _ rfl -
      refine Exact.bind (Exact.u (i := w + 5 + 24 + 2) (n := 6)) (by omega) fun u hu hl => ?_
      subst hu
      exact Exact.ret hl ⟨t, ht, rfl⟩
  · refine Exact.bind (Q := fun r : Bias × Option Bool × Nat => r =
      ({ q with iexpb := bitsAt b (w + 30) 4 }, some (bitsAt b (w + 29) 1 == 1), w + 5 + 24 + 5))
      (p := w + 34) (p' := w + 5 + 35) ?_ (by omega) ?_
    · exact Exact.bind Exact.u (by omega) fun _ h1 _ => Exact.bind (Exact.u (i := w + 5 + 24 + 1) (n := 4)) (by omega)
        fun _ h2 hl => Exact.ret hl (by rw [h1, h2])
    · rintro _ rfl -
      refine Exact.bind (Exact.u (i := w + 5 + 24 + 5) (n := 6)) (by omega) fun u hu hl => ?_
      subst hu
      exact Exact.ret hl ⟨t, ht, rfl⟩

/-! ## Code biases -/

/-- code bias in metres -/
def codeAt (b : BitBuf) (s : Nat) : Val := num (intAt b (s + 5) 14) 14 (1 / 100)

theorem cbiasSig_spec {sys : Sys} (hs : sigs sys ≠ []) (b : BitBuf) (sat : Int) (q : Bias) (p : Nat) {r : Row Val}
    (hr : Dict.get? q.cbias sat = some r) :
    Exact b.length (p + 19) (cbiasSig sys b sat (q, p)) (fun x => x =
      ({ q with cbias := Dict.set q.cbias sat (Dict.set r (nameOf 'C' sys (bitsAt b p 5)) (codeAt b p)) }, p + 19)) := by
  unfold cbiasSig
  simp only
  refine Exact.bind Exact.u (by omega) fun u hu _ => Exact.bind (Exact.s (i := p + 5) (n := 14)) (by omega) fun v hv hl => ?_
  subst hu hv
  refine Exact.step (names_ok sys (mem_of_sigs hs) _ (bitsAt_lt b p 5)).1 ?_
  refine Exact.step (a := Dict.set q.cbias sat (Dict.set r (nameOf 'C' sys (bitsAt b p 5)) (codeAt b p))) ?_ ?_
  · unfold setRow
    rw [(Dict.getItem_ok_iff _ _ _).2 hr]; rfl
  · exact Exact.ret (by omega) rfl

theorem cbias_row {sys : Sys} (hs : sigs sys ≠ []) (mt : Nat) (b : BitBuf) (p : Nat) (q : Bias)
    (h0 : (Dict.get? q.cbias (satAt mt sys b p)).isSome) (hn : (layCode mt sys).nsig b p ≤ (layCode mt sys).c)
    (hp : (layCode mt sys).sig p 0 ≤ b.length) :
    Exact b.length ((layCode mt sys).sig p ((layCode mt sys).nsig b p))
      ((List.range ((layCode mt sys).nsig b p)).foldlM (fun s _ => cbiasSig sys b (satAt mt sys b p) s)
        (q, (layCode mt sys).sig p 0)) (fun x => ∃ m, x = ({ q with cbias := m },
          (layCode mt sys).sig p ((layCode mt sys).nsig b p)) ∧
          Stored q.cbias m ((layCode mt sys).ents mt sys 'C' b [p] (codeAt b)) []) := by
  rw [ents_one _ _ _ _ _ _ _ hn]
  refine Exact.range (pos := (layCode mt sys).sig p) (I := fun k x => ∃ m, x = ({ q with cbias := m },
      (layCode mt sys).sig p k) ∧ Stored q.cbias m ((List.range k).map fun j =>
      ((satAt mt sys b p, nameOf 'C' sys (bitsAt b ((layCode mt sys).sig p j) 5)), codeAt b ((layCode mt sys).sig p j))) [])
    (fun k => by unfold Lay.sig; rw [Nat.mul_succ]; omega) hp ⟨q.cbias, rfl, stored_refl _⟩ ?_
  rintro k _ _ ⟨m, rfl, hm⟩ hl
  obtain ⟨r, hr⟩ : ∃ r, Dict.get? m (satAt mt sys b p) = some r :=
    Option.isSome_iff_exists.1 ((hm.keys _).2 (Or.inl h0))
  refine ((cbiasSig_spec hs b _ { q with cbias := m } _ hr).cast ?_).mono ?_
  · unfold Lay.sig layCode; simp only; omega
  · rintro _ rfl
    refine ⟨_, Prod.ext rfl ?_, ?_⟩
    · unfold Lay.sig layCode; simp only; omega
    · rw [List.range_succ, List.map_append]
      exact stored_set hm hr

theorem cbias_loop {sys : Sys} (hs : sigs sys ≠ []) (mt : Nat) (b : BitBuf) : ∀ (n : Nat) (q : Bias) (p : Nat) (l : List Int),
    q.satB = some l → p ≤ b.length →
    Exact b.length ((layCode mt sys).fin b n p) (cbiasLoop mt sys b n (q, p)) (fun x => ∃ m l',
      x = ({ q with cbias := m, satB := some l' }, (layCode mt sys).fin b n p) ∧
      Stored q.cbias m ((layCode mt sys).ents mt sys 'C' b ((layCode mt sys).recs b n p) (codeAt b))
        (((layCode mt sys).recs b n p).map (satAt mt sys b)) ∧
      Listed l l' (((layCode mt sys).recs b n p).map (satAt mt sys b)))
  | 0, q, p, l, hq, hp => Exact.ret hp ⟨q.cbias, l, by rw [← hq]; rfl, stored_refl _, listed_refl _⟩
  | n + 1, q, p, l, hq, hp => by
    rw [cbiasLoop]
    have hfin := fin_le (layCode mt sys) b (n + 1) p
    have hfin2 : (layCode mt sys).sig p 0 ≤ (layCode mt sys).fin b (n + 1) p := by
      rw [Lay.fin]
      split_ifs
      · exact Nat.le_refl _
      · refine Nat.le_trans ?_ (fin_le _ b n _)
        unfold Lay.sig; simp
    have hsig0 : (layCode mt sys).sig p 0 = p + satW mt sys + 5 := rfl
    refine Exact.bind (sat_spec mt sys b p) (by omega) ?_
    rintro _ rfl -
    simp only
    refine Exact.bind Exact.u (by omega) fun u hu hl => ?_
    have hu : u = (layCode mt sys).nsig b p := hu
    obtain ⟨l1, e1, hl1⟩ := addSatB_spec hq (satAt mt sys b p)
    refine Exact.step e1 ?_
    obtain ⟨st, hk⟩ := stored_new q.cbias (satAt mt sys b p)
    have eq1 : (if Dict.mem q.cbias (satAt mt sys b p) = true then { q with satB := some l1 }
        else { q with satB := some l1, cbias := Dict.set q.cbias (satAt mt sys b p) [] }) =
        { q with satB := some l1, cbias := (if Dict.mem q.cbias (satAt mt sys b p) = true then q.cbias else
          Dict.set q.cbias (satAt mt sys b p) []) } := by
      split_ifs <;> rfl
    simp only [eq1]
    generalize (if Dict.mem q.cbias (satAt mt sys b p) = true then q.cbias else
      Dict.set q.cbias (satAt mt sys b p) []) = m0 at st hk
    refine Exact.step (names_ok sys (mem_of_sigs hs) 0 (by decide)).2.2 ?_
    rw [hu, Lay.fin, Lay.recs]
    by_cases hc : (layCode mt sys).nsig b p > (layCode mt sys).c
    · have hc' : (layCode mt sys).nsig b p > (sigs sys).length := hc
      simp only [if_pos hc, if_pos hc']
      refine Exact.ret hl ⟨m0, l1, rfl, ?_, hl1⟩
      rw [ents_bad _ _ _ _ _ _ _ (by omega)]
      exact st
    · have hc' : ¬ (layCode mt sys).nsig b p > (sigs sys).length := hc
      simp only [if_neg hc, if_neg hc']
      refine Exact.bind (cbias_row hs mt b p { q with satB := some l1, cbias := m0 } hk (by omega) hl)
        (fin_le _ b n _) ?_
      rintro _ ⟨m1, rfl, s1⟩ hl2
      refine (cbias_loop hs mt b n { q with satB := some l1, cbias := m1 } _ l1 rfl hl2).mono ?_
      rintro _ ⟨m2, l2, rfl, s2, hl3⟩
      refine ⟨m2, l2, rfl, ?_, listed_trans hl1 hl3⟩
      rw [ents_cons]
      have := stored_trans (stored_trans st s1) s2
      simpa using this

/-- **Code bias message.** -/
theorem code_bias {d : Dec} {q : Bias} {sys : Sys} {b : BitBuf} {i : Nat} (hs : getSsrSys d.sysref d.msgtype = .ok sys)
    (hk : sigs sys ≠ []) (hr : Ready d sys b i .cbias q.satB.isSome) :
    let n := nsatAt d.msgtype sys 0 0 b i
    let p := i + hdrW d.msgtype sys 0
    let L := layCode d.msgtype sys
    let ps := L.recs b n p
    let named := ps.map (satAt d.msgtype sys b)
    Exact b.length (L.fin b n p) (decodeCbias d q b i) (fun r =>
      r.2.2 = L.fin b n p ∧ HeadAt d sys 0 [.cbias] [.cbias] b i r.1 ∧ r.1 = setHead d r.1 ∧
      (let new := timediff r.1.time (d.t0s .cbias) > 0
       Stored (if new then [] else q.cbias) r.2.1.cbias (L.ents d.msgtype sys 'C' b ps (codeAt b)) named ∧
       ∃ l, r.2.1.satB = some l ∧ Listed (if new then [] else q.satB.getD []) l named) ∧
      r.2.1 = { q with cbias := r.2.1.cbias, satB := r.2.1.satB }) := by
  intro n p L ps named
  unfold decodeCbias
  refine Exact.step hs (Exact.bind (bias_head_spec d q .code sys b i) (fin_le L b n p) ?_)
  rintro _ ⟨t, ht, rfl⟩ hl
  simp only
  by_cases hc : timediff t (d.t0s .cbias) > 0
  · have hc' : timediff (headDec d sys 0 b i t).time ((headDec d sys 0 b i t).t0s .cbias) > 0 := hc
    simp only [if_pos hc']
    refine Exact.bind (cbias_loop hk d.msgtype b n _ _ [] rfl hl) (Nat.le_refl _) ?_
    rintro _ ⟨m, l, rfl, s1, s2⟩ hl
    refine Exact.ret hl ⟨rfl, ?_, rfl, ?_, rfl⟩
    · exact ⟨ht, rfl, rfl, fun c => by simp [headDec], rfl, rfl, rfl, fun c => by simp [headDec], rfl, rfl,
        fun c => by simp [headDec]⟩
    · refine ⟨stored_pos ?_ s1, l, rfl, listed_pos ?_ s2⟩
      · exact hc
      · exact hc
  · have hc' : ¬ timediff (headDec d sys 0 b i t).time ((headDec d sys 0 b i t).t0s .cbias) > 0 := hc
    simp only [if_neg hc']
    rcases hr with a | hr
    · obtain ⟨l0, e0⟩ := Option.isSome_iff_exists.1 a
      refine Exact.bind (cbias_loop hk d.msgtype b n _ _ l0 e0 hl) (Nat.le_refl _) ?_
      rintro _ ⟨m, l, rfl, s1, s2⟩ hl
      refine Exact.ret hl ⟨rfl, ?_, rfl, ?_, rfl⟩
      · exact ⟨ht, rfl, rfl, fun c => by simp [headDec], rfl, rfl, rfl, fun c => by simp [headDec], rfl, rfl,
          fun c => by simp [headDec]⟩
      · refine ⟨stored_neg ?_ s1, l, rfl, listed_neg ?_ ?_⟩
        · exact hc
        · exact hc
        · rw [e0]; exact s2
    · exact absurd (hr t ht) hc

/-! ## Phase biases -/

/-- bits of the wide-lane indicator -/
def wlW (f : Form) : Nat := if f = .phase2 then 0 else 2

def layPhase (f : Form) (yaw : Bool) (mt : Nat) (sys : Sys) : Lay :=
  ⟨satW mt sys, if yaw then 17 else 0, 30 + wlW f, (sigs sys).length⟩

/-- phase bias in metres, integer indicator, wide-lane indicator, discontinuity counter -/
def phaseAt (f : Form) (b : BitBuf) (s : Nat) : Val := num (intAt b (s + 10 + wlW f) 20) 20 (1 / 10000)
def siAt (b : BitBuf) (s : Nat) : Bool := bitsAt b (s + 5) 1 == 1
def wlAt (b : BitBuf) (s : Nat) : Nat := bitsAt b (s + 6) 2
def diAt (f : Form) (b : BitBuf) (s : Nat) : Nat := bitsAt b (s + 6 + wlW f) 4

/-- the four tables of phase biases have entries of the same satellites -/
def Aligned (q : Bias) : Prop := ∀ s, (Dict.get? q.si s).isSome = (Dict.get? q.pbias s).isSome ∧
  (Dict.get? q.di s).isSome = (Dict.get? q.pbias s).isSome ∧ (Dict.get? q.wl s).isSome = (Dict.get? q.pbias s).isSome

/-- yaw angles after a message -/
def Yawed {α : Type} (old new : Dict Int α) (l : List (Int × α)) : Prop :=
  ∀ s, Dict.get? new s = (lastVal l s).or (Dict.get? old s)

theorem setRow_ok {α : Type} {d : Dict Int (Row α)} {s : Int} {r : Row α} (h : Dict.get? d s = some r) (g : List Char) (v : α) :
    setRow d s g v = .ok (Dict.set d s (Dict.set r g v)) := by
  unfold setRow
  rw [(Dict.getItem_ok_iff _ _ _).2 h]; rfl

theorem pbiasSig_spec {sys : Sys} (hs : sigs sys ≠ []) (f : Form) (b : BitBuf) (sat : Int) (q : Bias) (p : Nat)
    {r1 : Row Val} {r2 : Row Bool} {r3 r4 : Row Nat} (h1 : Dict.get? q.pbias sat = some r1)
    (h2 : Dict.get? q.si sat = some r2) (h3 : Dict.get? q.di sat = some r3) (h4 : Dict.get? q.wl sat = some r4) :
    Exact b.length (p + (30 + wlW f)) (pbiasSig f sys b sat (q, p)) (fun x => x =
      ({ q with pbias := Dict.set q.pbias sat (Dict.set r1 (nameOf 'L' sys (bitsAt b p 5)) (phaseAt f b p))
                si := Dict.set q.si sat (Dict.set r2 (nameOf 'L' sys (bitsAt b p 5)) (siAt b p))
                di := Dict.set q.di sat (Dict.set r3 (nameOf 'L' sys (bitsAt b p 5)) (diAt f b p))
                wl := if f = .phase2 then q.wl else Dict.set q.wl sat (Dict.set r4 (nameOf 'L' sys (bitsAt b p 5)) (wlAt b p)) },
        p + (30 + wlW f))) := by
  unfold pbiasSig
  simp only
  refine Exact.bind Exact.u (by omega) fun u hu _ => Exact.bind (Exact.u (i := p + 5) (n := 1)) (by omega) fun v hv _ => ?_
  subst hu hv
  refine Exact.step (names_ok sys (mem_of_sigs hs) _ (bitsAt_lt b p 5)).2.1 ?_
  by_cases hf : f = .phase2
  · subst hf
    simp only [ne_eq, not_true, if_false, if_true]
    refine Exact.step rfl ?_
    have : wlW .phase2 = 0 := rfl
    rw [this]
    refine Exact.bind Exact.u (by omega) fun w hw _ => Exact.bind (Exact.s (i := p + 6 + 4) (n := 20)) (by omega) fun x hx hl => ?_
    subst hw hx
    refine Exact.step (setRow_ok h1 _ _) (Exact.step (setRow_ok h2 _ _) (Exact.step (setRow_ok h3 _ _) ?_))
    exact Exact.ret (by omega) rfl
  · have e : wlW f = 2 := by unfold wlW; rw [if_neg hf]
    simp only [ne_eq, hf, not_false_eq_true, if_true, if_false]
    rw [e]
    refine Exact.bind (p := p + 8) (Q := fun x : Bias × Nat => x =
      ({ q with wl := Dict.set q.wl sat (Dict.set r4 (nameOf 'L' sys (bitsAt b p 5)) (wlAt b p)) }, p + 8))
      (p' := p + (30 + 2)) ?_ (by omega) ?_
    · refine Exact.bind (Exact.u (i := p + 6) (n := 2)) (by omega) fun w hw hl => ?_
      subst hw
      exact Exact.step (setRow_ok h4 _ _) (Exact.ret hl rfl)
    · rintro _ rfl -
      simp only
      refine Exact.bind Exact.u (by omega) fun w hw _ => Exact.bind (Exact.s (i := p + 8 + 4) (n := 20)) (by omega) fun x hx hl => ?_
      subst hw hx
      refine Exact.step (setRow_ok h1 _ _) (Exact.step (setRow_ok h2 _ _) (Exact.step (setRow_ok h3 _ _) ?_))
      refine Exact.ret (by omega) ?_
      unfold phaseAt diAt siAt
      rw [e]
      rfl

/-- entries of the wide-lane table: the second layout has none -/
def wlEnts (f : Form) (L : Lay) (mt : Nat) (sys : Sys) (b : BitBuf) (ps : List Nat) : List ((Int × List Char) × Nat) :=
  if f = .phase2 then [] else L.ents mt sys 'L' b ps (wlAt b)

/-- the four tables of phase biases after records -/
structure Phases (f : Form) (L : Lay) (mt : Nat) (sys : Sys) (b : BitBuf) (ps : List Nat) (named : List Int)
    (q q' : Bias) : Prop where
  pb : Stored q.pbias q'.pbias (L.ents mt sys 'L' b ps (phaseAt f b)) named
  si : Stored q.si q'.si (L.ents mt sys 'L' b ps (siAt b)) named
  di : Stored q.di q'.di (L.ents mt sys 'L' b ps (diAt f b)) named
  wl : Stored q.wl q'.wl (wlEnts f L mt sys b ps) named

theorem stored_isSome {α : Type} {d e : Dict Int (Row α)} {l : List ((Int × List Char) × α)} {s : Int}
    (h : Stored d e l []) (hs : (Dict.get? d s).isSome) : ∃ r, Dict.get? e s = some r :=
  Option.isSome_iff_exists.1 ((h.keys s).2 (Or.inl hs))

theorem pbias_row {sys : Sys} (hs : sigs sys ≠ []) (f : Form) (yaw : Bool) (mt : Nat) (b : BitBuf) (p : Nat) (q : Bias)
    (h1 : (Dict.get? q.pbias (satAt mt sys b p)).isSome) (h2 : (Dict.get? q.si (satAt mt sys b p)).isSome)
    (h3 : (Dict.get? q.di (satAt mt sys b p)).isSome) (h4 : (Dict.get? q.wl (satAt mt sys b p)).isSome)
    {L : Lay} (hL : L = layPhase f yaw mt sys) (hn : L.nsig b p ≤ L.c) (hp : L.sig p 0 ≤ b.length) :
    Exact b.length (L.sig p (L.nsig b p))
      ((List.range (L.nsig b p)).foldlM (fun s _ => pbiasSig f sys b (satAt mt sys b p) s) (q, L.sig p 0))
      (fun x => ∃ m1 m2 m3 m4, x = ({ q with pbias := m1, si := m2, di := m3, wl := m4 }, L.sig p (L.nsig b p)) ∧
        Phases f L mt sys b [p] [] q { q with pbias := m1, si := m2, di := m3, wl := m4 }) := by
  have key : Exact b.length (L.sig p (L.nsig b p))
      ((List.range (L.nsig b p)).foldlM (fun s _ => pbiasSig f sys b (satAt mt sys b p) s) (q, L.sig p 0))
      (fun x => ∃ m1 m2 m3 m4, x = ({ q with pbias := m1, si := m2, di := m3, wl := m4 }, L.sig p (L.nsig b p)) ∧
        (let en := fun {α : Type} (v : Nat → α) => (List.range (L.nsig b p)).map fun j =>
          ((satAt mt sys b p, nameOf 'L' sys (bitsAt b (L.sig p j) 5)), v (L.sig p j))
         Stored q.pbias m1 (en (phaseAt f b)) [] ∧ Stored q.si m2 (en (siAt b)) [] ∧ Stored q.di m3 (en (diAt f b)) [] ∧
         Stored q.wl m4 (if f = .phase2 then [] else en (wlAt b)) [])) := by
    refine Exact.range (pos := L.sig p) (I := fun k x => ∃ m1 m2 m3 m4,
        x = ({ q with pbias := m1, si := m2, di := m3, wl := m4 }, L.sig p k) ∧
        (let en := fun {α : Type} (v : Nat → α) => (List.range k).map fun j =>
          ((satAt mt sys b p, nameOf 'L' sys (bitsAt b (L.sig p j) 5)), v (L.sig p j))
         Stored q.pbias m1 (en (phaseAt f b)) [] ∧ Stored q.si m2 (en (siAt b)) [] ∧ Stored q.di m3 (en (diAt f b)) [] ∧
         Stored q.wl m4 (if f = .phase2 then [] else en (wlAt b)) []))
      (fun k => by unfold Lay.sig; rw [Nat.mul_succ]; omega) hp
      ⟨q.pbias, q.si, q.di, q.wl, rfl, stored_refl _, stored_refl _, stored_refl _, by
        split_ifs <;> exact stored_refl _⟩ ?_
    rintro k _ _ ⟨m1, m2, m3, m4, rfl, s1, s2, s3, s4⟩ hl
    obtain ⟨r1, e1⟩ := stored_isSome s1 h1
    obtain ⟨r2, e2⟩ := stored_isSome s2 h2
    obtain ⟨r3, e3⟩ := stored_isSome s3 h3
    obtain ⟨r4, e4⟩ := stored_isSome s4 h4
    have hnext : L.sig p (k + 1) = L.sig p k + (30 + wlW f) := by
      subst hL
      unfold Lay.sig layPhase
      simp only
      ring
    refine ((pbiasSig_spec hs f b _ { q with pbias := m1, si := m2, di := m3, wl := m4 } _ e1 e2 e3 e4).cast hnext).mono ?_
    rintro _ rfl
    refine ⟨_, _, _, _, Prod.ext rfl hnext.symm, ?_⟩
    simp only [List.range_succ, List.map_append, List.map_cons, List.map_nil]
    refine ⟨stored_set s1 e1, stored_set s2 e2, stored_set s3 e3, ?_⟩
    by_cases hf : f = .phase2
    · simp only [if_pos hf] at s4 ⊢
      exact s4
    · simp only [if_neg hf] at s4 ⊢
      exact stored_set s4 e4
  refine key.mono ?_
  rintro _ ⟨m1, m2, m3, m4, rfl, s1, s2, s3, s4⟩
  refine ⟨m1, m2, m3, m4, rfl, ?_, ?_, ?_, ?_⟩
  · rw [ents_one _ _ _ _ _ _ _ hn]; exact s1
  · rw [ents_one _ _ _ _ _ _ _ hn]; exact s2
  · rw [ents_one _ _ _ _ _ _ _ hn]; exact s3
  · unfold wlEnts
    rw [ents_one _ _ _ _ _ _ _ hn]; exact s4

theorem wlEnts_cons (f : Form) (L : Lay) (mt : Nat) (sys : Sys) (b : BitBuf) (p : Nat) (ps : List Nat) :
    wlEnts f L mt sys b (p :: ps) = wlEnts f L mt sys b [p] ++ wlEnts f L mt sys b ps := by
  unfold wlEnts
  split_ifs
  · rfl
  · exact ents_cons ..

theorem wlEnts_bad (f : Form) (L : Lay) (mt : Nat) (sys : Sys) (b : BitBuf) (p : Nat)
    (h : ¬ L.nsig b p ≤ L.c) : wlEnts f L mt sys b [p] = [] := by
  unfold wlEnts
  split_ifs
  · rfl
  · exact ents_bad _ _ _ _ _ _ _ h

/-- yaw angle in half circles and its rate, of the records that are read -/
def yawEnts (yaw : Bool) (mt : Nat) (sys : Sys) (b : BitBuf) (ps : List Nat) : List (Int × ℚ) :=
  if yaw then ps.map fun p => (satAt mt sys b p, (bitsAt b (p + satW mt sys + 5) 9 : ℚ) / 256) else []
def dyawEnts (yaw : Bool) (mt : Nat) (sys : Sys) (b : BitBuf) (ps : List Nat) : List (Int × Val) :=
  if yaw then ps.map fun p => (satAt mt sys b p, num (intAt b (p + satW mt sys + 14) 8) 8 (1 / 8192)) else []

theorem yawed_refl {α : Type} (d : Dict Int α) : Yawed d d [] := fun _ => rfl

theorem yawed_set {α : Type} (d : Dict Int α) (s : Int) (v : α) : Yawed d (Dict.set d s v) [(s, v)] := by
  intro x
  rw [Dict.get?_set, lastVal_one]
  split_ifs <;> rfl

theorem yawed_trans {α : Type} {d e f : Dict Int α} {l m : List (Int × α)} (h1 : Yawed d e l) (h2 : Yawed e f m) :
    Yawed d f (l ++ m) := by
  intro x
  rw [h2, h1, lastVal_append]
  cases lastVal m x <;> rfl

theorem phases_trans {f : Form} {L : Lay} {mt : Nat} {sys : Sys} {b : BitBuf} {p : Nat} {ps : List Nat} {n o : List Int}
    {q q1 q2 : Bias} (h1 : Phases f L mt sys b [p] n q q1) (h2 : Phases f L mt sys b ps o q1 q2) :
    Phases f L mt sys b (p :: ps) (n ++ o) q q2 := by
  refine ⟨?_, ?_, ?_, ?_⟩
  · rw [ents_cons]; exact stored_trans h1.pb h2.pb
  · rw [ents_cons]; exact stored_trans h1.si h2.si
  · rw [ents_cons]; exact stored_trans h1.di h2.di
  · rw [wlEnts_cons]; exact stored_trans h1.wl h2.wl

theorem mem_eq {α β : Type} {d : Dict Int α} {e : Dict Int β} {s : Int}
    (h : (Dict.get? e s).isSome = (Dict.get? d s).isSome) : Dict.mem e s = Dict.mem d s := h

theorem dyawEnts_cons (yaw : Bool) (mt : Nat) (sys : Sys) (b : BitBuf) (p : Nat) (ps : List Nat) :
    dyawEnts yaw mt sys b (p :: ps) = dyawEnts yaw mt sys b [p] ++ dyawEnts yaw mt sys b ps := by
  unfold dyawEnts
  split_ifs <;> rfl

theorem yawEnts_cons (yaw : Bool) (mt : Nat) (sys : Sys) (b : BitBuf) (p : Nat) (ps : List Nat) :
    yawEnts yaw mt sys b (p :: ps) = yawEnts yaw mt sys b [p] ++ yawEnts yaw mt sys b ps := by
  unfold yawEnts
  split_ifs <;> rfl

theorem aligned_of {f : Form} {L : Lay} {mt : Nat} {sys : Sys} {b : BitBuf} {ps : List Nat} {n : List Int} {q q' : Bias}
    (h : Phases f L mt sys b ps n q q') (a : Aligned q) : Aligned q' := by
  intro s
  obtain ⟨a1, a2, a3⟩ := a s
  refine ⟨?_, ?_, ?_⟩ <;> rw [Bool.eq_iff_iff]
  · rw [h.si.keys, h.pb.keys, a1]
  · rw [h.di.keys, h.pb.keys, a2]
  · rw [h.wl.keys, h.pb.keys, a3]

theorem phases_new {f : Form} {L : Lay} {mt : Nat} {sys : Sys} {b : BitBuf} {p : Nat} (q : Bias) (a : Aligned q) (s : Int) :
    let q' : Bias := if Dict.mem q.pbias s then q else
      { q with pbias := Dict.set q.pbias s [], si := Dict.set q.si s [], di := Dict.set q.di s [], wl := Dict.set q.wl s [] }
    (∃ m1 m2 m3 m4, q' = { q with pbias := m1, si := m2, di := m3, wl := m4 }) ∧ Phases f L mt sys b [] [s] q q' ∧
    (¬ L.nsig b p ≤ L.c → Phases f L mt sys b [p] [s] q q') ∧ (Dict.get? q'.pbias s).isSome := by
  intro q'
  obtain ⟨a1, a2, a3⟩ := a s
  obtain ⟨s1, k1⟩ := stored_new q.pbias s
  obtain ⟨s2, -⟩ := stored_new q.si s
  obtain ⟨s3, -⟩ := stored_new q.di s
  obtain ⟨s4, -⟩ := stored_new q.wl s
  rw [mem_eq a1] at s2
  rw [mem_eq a2] at s3
  rw [mem_eq a3] at s4
  have hS : Stored q.pbias q'.pbias [] [s] ∧ Stored q.si q'.si [] [s] ∧ Stored q.di q'.di [] [s] ∧ Stored q.wl q'.wl [] [s] ∧
      (Dict.get? q'.pbias s).isSome := by
    by_cases h : Dict.mem q.pbias s = true
    · simp only [if_pos h] at s1 s2 s3 s4 k1
      have : q' = q := if_pos h
      rw [this]
      exact ⟨s1, s2, s3, s4, k1⟩
    · simp only [if_neg h] at s1 s2 s3 s4 k1
      have : q' = _ := if_neg h
      rw [this]
      exact ⟨s1, s2, s3, s4, k1⟩
  obtain ⟨t1, t2, t3, t4, k⟩ := hS
  refine ⟨?_, ⟨t1, t2, t3, ?_⟩, ?_, k⟩
  · by_cases h : Dict.mem q.pbias s = true
    · exact ⟨q.pbias, q.si, q.di, q.wl, if_pos h⟩
    · exact ⟨_, _, _, _, if_neg h⟩
  · unfold wlEnts; split_ifs <;> exact t4
  · intro hb
    refine ⟨?_, ?_, ?_, ?_⟩
    · rw [ents_bad _ _ _ _ _ _ _ hb]; exact t1
    · rw [ents_bad _ _ _ _ _ _ _ hb]; exact t2
    · rw [ents_bad _ _ _ _ _ _ _ hb]; exact t3
    · rw [wlEnts_bad _ _ _ _ _ _ hb]; exact t4

theorem phases_one {f : Form} {L : Lay} {mt : Nat} {sys : Sys} {b : BitBuf} {p : Nat} {n o : List Int}
    {q q1 q2 : Bias} (h1 : Phases f L mt sys b [] n q q1) (h2 : Phases f L mt sys b [p] o q1 q2) :
    Phases f L mt sys b [p] (n ++ o) q q2 := by
  have hw : wlEnts f L mt sys b [] = [] := by unfold wlEnts; split_ifs <;> rfl
  refine ⟨stored_trans (l := []) h1.pb h2.pb, stored_trans (l := []) h1.si h2.si, stored_trans (l := []) h1.di h2.di, ?_⟩
  have := stored_trans h1.wl h2.wl
  rwa [hw] at this

/-- what the satellite loop does with the tables -/
structure PhaseMsg (f : Form) (hy : Bool) (L : Lay) (mt : Nat) (sys : Sys) (b : BitBuf) (ps : List Nat)
    (l l' : List Int) (q q' : Bias) : Prop where
  tabs : Phases f L mt sys b ps (ps.map (satAt mt sys b)) q q'
  yaw : Yawed q.yaw q'.yaw (yawEnts hy mt sys b ps)
  dyaw : Yawed q.dyaw q'.dyaw (dyawEnts hy mt sys b ps)
  sats : Listed l l' (ps.map (satAt mt sys b))

/-- yaw angles are in every message of the form 1265-1270 and of IGS, and by a flag of the header in the form 85-89 -/
def hasYaw (f : Form) (v : Option Bool) : Bool := decide (f ≠ .phase2 ∨ v = some true)

set_option maxHeartbeats 1000000 in
theorem pbias_loop {sys : Sys} (hs : sigs sys ≠ []) (mt : Nat) (f : Form) (v : Option Bool) (b : BitBuf) {L : Lay}
    (hL : L = layPhase f (hasYaw f v) mt sys) : ∀ (n : Nat) (q : Bias) (p : Nat) (l : List Int),
    q.satB = some l → p ≤ b.length → Aligned q →
    Exact b.length (L.fin b n p) (pbiasLoop mt f v sys b n (q, p)) (fun x => ∃ m1 m2 m3 m4 y1 y2 l',
      x = ({ q with pbias := m1, si := m2, di := m3, wl := m4, yaw := y1, dyaw := y2, satB := some l' }, L.fin b n p) ∧
      PhaseMsg f (hasYaw f v) L mt sys b (L.recs b n p) l l' q x.1)
  | 0, q, p, l, hq, hp, _ => Exact.ret hp ⟨q.pbias, q.si, q.di, q.wl, q.yaw, q.dyaw, l, by rw [← hq]; rfl,
      ⟨stored_refl _, stored_refl _, stored_refl _, by
        show Stored _ _ (wlEnts f L mt sys b []) _
        unfold wlEnts; split_ifs <;> exact stored_refl _⟩,
      by show Yawed _ _ (yawEnts _ mt sys b []); unfold yawEnts; split_ifs <;> exact yawed_refl _,
      by show Yawed _ _ (dyawEnts _ mt sys b []); unfold dyawEnts; split_ifs <;> exact yawed_refl _, listed_refl _⟩
  | n + 1, q, p, l, hq, hp, ha => by
    rw [pbiasLoop]
    have hfin := fin_le L b (n + 1) p
    have hfin2 : L.sig p 0 ≤ L.fin b (n + 1) p := by
      rw [Lay.fin]
      split_ifs
      · exact Nat.le_refl _
      · refine Nat.le_trans ?_ (fin_le _ b n _)
        unfold Lay.sig; simp
    have hsig0 : L.sig p 0 = p + satW mt sys + 5 + (if hasYaw f v then 17 else 0) := by subst hL; rfl
    have hcc : L.c = (sigs sys).length := by subst hL; rfl
    refine Exact.bind (sat_spec mt sys b p) (by omega) ?_
    rintro _ rfl -
    simp only
    refine Exact.bind Exact.u (by omega) fun u hu hl => ?_
    have hu : u = L.nsig b p := by subst hL; exact hu
    refine Exact.bind (p := L.sig p 0) (Q := fun x : Bias × Nat => ∃ y1 y2, x = ({ q with yaw := y1, dyaw := y2 }, L.sig p 0) ∧
        Yawed q.yaw y1 (yawEnts (hasYaw f v) mt sys b [p]) ∧ Yawed q.dyaw y2 (dyawEnts (hasYaw f v) mt sys b [p]))
      ?_ hfin2 ?_
    · by_cases hy : f ≠ .phase2 ∨ v = some true
      · have e : hasYaw f v = true := by unfold hasYaw; exact decide_eq_true hy
        rw [e, if_pos rfl] at hsig0
        rw [if_pos hy, e]
        refine Exact.bind Exact.u (by omega) fun y hy _ =>
          Exact.bind (Exact.s (i := p + satW mt sys + 5 + 9) (n := 8)) (by omega) fun z hz hl => ?_
        subst hy hz
        refine Exact.ret (by omega) ⟨_, _, Prod.ext rfl hsig0.symm, ?_, ?_⟩
        · have := yawed_set q.yaw (satAt mt sys b p) ((bitsAt b (p + satW mt sys + 5) 9 : ℚ) * (1 / 256))
          unfold yawEnts
          simpa [div_eq_mul_inv] using this
        · exact yawed_set q.dyaw (satAt mt sys b p) _
      · have e : hasYaw f v = false := by unfold hasYaw; exact decide_eq_false hy
        rw [e] at hsig0
        rw [if_neg hy, e]
        exact Exact.ret (by simp at hsig0; omega) ⟨q.yaw, q.dyaw, Prod.ext rfl hsig0.symm, yawed_refl _, yawed_refl _⟩
    · rintro _ ⟨y1, y2, rfl, hy1, hy2⟩ hl1
      simp only
      obtain ⟨l1, e1, hl2⟩ := addSatB_spec (q := { q with yaw := y1, dyaw := y2 }) hq (satAt mt sys b p)
      refine Exact.step e1 ?_
      obtain ⟨⟨m1, m2, m3, m4, e2⟩, hp1, hp2, hk⟩ := phases_new (f := f) (L := L) (mt := mt) (sys := sys) (b := b) (p := p)
        { q with yaw := y1, dyaw := y2, satB := some l1 } ha (satAt mt sys b p)
      simp only [e2] at hp1 hp2 hk ⊢
      refine Exact.step (names_ok sys (mem_of_sigs hs) 0 (by decide)).2.2 ?_
      rw [hu, Lay.fin, Lay.recs]
      by_cases hc : L.nsig b p > L.c
      · have hc' : L.nsig b p > (sigs sys).length := by omega
        simp only [if_pos hc, if_pos hc']
        refine Exact.ret hl1 ⟨m1, m2, m3, m4, y1, y2, l1, rfl, ?_, hy1, hy2, hl2⟩
        have := hp2 (by omega)
        exact ⟨this.pb, this.si, this.di, this.wl⟩
      · have hc' : ¬ L.nsig b p > (sigs sys).length := by omega
        simp only [if_neg hc, if_neg hc']
        have ha1 := aligned_of hp1 ha
        obtain ⟨b1, b2, b3⟩ := ha1 (satAt mt sys b p)
        refine Exact.bind (pbias_row hs f (hasYaw f v) mt b p _ hk (b1.trans hk) (b2.trans hk) (b3.trans hk) hL
          (by omega) hl1) (fin_le _ b n _) ?_
        rintro _ ⟨n1, n2, n3, n4, rfl, s1⟩ hl3
        have st := phases_one hp1 s1
        refine (pbias_loop hs mt f v b hL n _ _ l1 rfl hl3 (aligned_of st ha)).mono ?_
        rintro _ ⟨o1, o2, o3, o4, z1, z2, l2, rfl, s2⟩
        refine ⟨o1, o2, o3, o4, z1, z2, l2, rfl, ?_, ?_, ?_, ?_⟩
        · have := phases_trans st s2.tabs
          exact ⟨this.pb, this.si, this.di, this.wl⟩
        · rw [yawEnts_cons]; exact yawed_trans hy1 s2.yaw
        · rw [dyawEnts_cons]; exact yawed_trans hy2 s2.dyaw
        · exact listed_trans hl2 s2.sats

/-- header bits of a phase bias message after the common ones -/
def phaseHdr : Form → Nat
  | .phase2 => 5
  | _ => 2

/-- the yaw flag and the additional exponent of the header -/
def yawFlag (f : Form) (mt : Nat) (sys : Sys) (b : BitBuf) (i : Nat) : Bool :=
  if f = .phase2 then bitsAt b (i + timeW mt sys + 29) 1 == 1 else true
def expFlag (f : Form) (mt : Nat) (sys : Sys) (b : BitBuf) (i : Nat) : Nat :=
  if f = .phase2 then bitsAt b (i + timeW mt sys + 30) 4 else 0

/-- the biases with those of phase dropped -/
def fresh (q : Bias) : Bias := { q with satB := some [], pbias := [], si := [], di := [], wl := [] }

/-- the state that the new message is added to -/
def base (new : Bool) (q : Bias) : Bias := if new then fresh q else q

theorem aligned_fresh (q : Bias) : Aligned (fresh q) := fun _ => ⟨rfl, rfl, rfl⟩

theorem phase_head_spec {f : Form} (hf : f ≠ .code) (d : Dec) (q : Bias) (sys : Sys) (b : BitBuf) (i : Nat) :
    ∃ v : Option Bool, v.getD true = yawFlag f d.msgtype sys b i ∧ hasYaw f v = yawFlag f d.msgtype sys b i ∧
    (let w := i + timeW d.msgtype sys
     Exact b.length (i + hdrW d.msgtype sys (phaseHdr f)) (biasHead d q f sys b i) (fun r => ∃ t, EpochIs d sys b i t ∧
      r = (headDec d sys 0 b i t, { q with iexpb := expFlag f d.msgtype sys b i },
        ⟨bitsAt b w 4, bitsAt b (w + 4) 1 == 1, bitsAt b (w + 5) 4, v, nsatAt d.msgtype sys 0 (phaseHdr f) b i⟩,
        i + hdrW d.msgtype sys (phaseHdr f)))) := by
  cases f with
  | code => exact absurd rfl hf
  | phase => exact ⟨none, rfl, rfl, bias_head_spec d q .phase sys b i⟩
  | phase2 =>
    refine ⟨some (bitsAt b (i + timeW d.msgtype sys + 29) 1 == 1), rfl, ?_, bias_head_spec d q .phase2 sys b i⟩
    unfold hasYaw yawFlag
    simp only [if_true]
    cases bitsAt b (i + timeW d.msgtype sys + 29) 1 == 1 <;> rfl

set_option maxHeartbeats 1000000 in
/-- **Phase bias message.** -/
theorem phase_bias {d : Dec} {q : Bias} {sys : Sys} {b : BitBuf} {i : Nat} {f : Form} (hf : f ≠ .code)
    (hs : getSsrSys d.sysref d.msgtype = .ok sys)
    (hk : sigs sys ≠ []) (hr : Ready d sys b i .pbias q.satB.isSome) (ha : Aligned q) :
    let y := phaseHdr f
    let n := nsatAt d.msgtype sys 0 y b i
    let p := i + hdrW d.msgtype sys y
    let w := yawFlag f d.msgtype sys b i
    let L := layPhase f w d.msgtype sys
    let ps := L.recs b n p
    Exact b.length (L.fin b n p) (decodePbias f d q b i) (fun r =>
      r.2.2 = L.fin b n p ∧ HeadAt d sys 0 [.pbias] [.pbias] b i r.1 ∧ r.1 = setHead d r.1 ∧ Aligned r.2.1 ∧
      r.2.1.iyaw = w ∧ r.2.1.iexpb = expFlag f d.msgtype sys b i ∧ r.2.1.cbias = q.cbias ∧
      (let q0 := base (decide (timediff r.1.time (d.t0s .pbias) > 0)) q
       ∃ l, r.2.1.satB = some l ∧ PhaseMsg f w L d.msgtype sys b ps (q0.satB.getD []) l q0 r.2.1)) := by
  intro y n p w L ps
  unfold decodePbias
  obtain ⟨v, w1, w2, hh⟩ := phase_head_spec hf d q sys b i
  refine Exact.step hs (Exact.bind hh (fin_le L b n p) ?_)
  rintro _ ⟨t, ht, rfl⟩ hl
  have hL : L = layPhase f (hasYaw f v) d.msgtype sys := by rw [w2]
  simp only [w1]
  by_cases hc : timediff t (d.t0s .pbias) > 0
  · have hc' : timediff (headDec d sys 0 b i t).time ((headDec d sys 0 b i t).t0s .pbias) > 0 := hc
    simp only [if_pos hc']
    refine Exact.bind (pbias_loop hk d.msgtype f v b hL n _ _ [] rfl hl (fun _ => ⟨rfl, rfl, rfl⟩)) (Nat.le_refl _) ?_
    rintro _ ⟨m1, m2, m3, m4, y1, y2, l, rfl, s⟩ hl
    rw [w2] at s
    refine Exact.ret hl ⟨rfl, ?_, rfl, aligned_of s.tabs (fun _ => ⟨rfl, rfl, rfl⟩), rfl, rfl, rfl, ?_⟩
    · exact ⟨ht, rfl, rfl, fun c => by simp [headDec], rfl, rfl, rfl, fun c => by simp [headDec], rfl, rfl,
        fun c => by simp [headDec]⟩
    · have e : decide (timediff t (d.t0s .pbias) > 0) = true := decide_eq_true hc
      refine ⟨l, rfl, ?_⟩
      show PhaseMsg f w L d.msgtype sys b ps ((base (decide (timediff t (d.t0s .pbias) > 0)) q).satB.getD []) l
        (base (decide (timediff t (d.t0s .pbias) > 0)) q) _
      rw [e]
      exact ⟨⟨s.tabs.pb, s.tabs.si, s.tabs.di, s.tabs.wl⟩, s.yaw, s.dyaw, s.sats⟩
  · have hc' : ¬ timediff (headDec d sys 0 b i t).time ((headDec d sys 0 b i t).t0s .pbias) > 0 := hc
    simp only [if_neg hc']
    rcases hr with a | hr
    · obtain ⟨l0, e0⟩ := Option.isSome_iff_exists.1 a
      refine Exact.bind (pbias_loop hk d.msgtype f v b hL n _ _ l0 e0 hl ha) (Nat.le_refl _) ?_
      rintro _ ⟨m1, m2, m3, m4, y1, y2, l, rfl, s⟩ hl
      rw [w2] at s
      refine Exact.ret hl ⟨rfl, ?_, rfl, aligned_of s.tabs ha, rfl, rfl, rfl, ?_⟩
      · exact ⟨ht, rfl, rfl, fun c => by simp [headDec], rfl, rfl, rfl, fun c => by simp [headDec], rfl, rfl,
          fun c => by simp [headDec]⟩
      · have e : decide (timediff t (d.t0s .pbias) > 0) = false := decide_eq_false hc
        refine ⟨l, rfl, ?_⟩
        show PhaseMsg f w L d.msgtype sys b ps ((base (decide (timediff t (d.t0s .pbias) > 0)) q).satB.getD []) l
          (base (decide (timediff t (d.t0s .pbias) > 0)) q) _
        rw [e]
        have e2 : (base false q).satB.getD [] = l0 := by
          show q.satB.getD [] = l0
          rw [e0]; rfl
        rw [e2]
        exact ⟨⟨s.tabs.pb, s.tabs.si, s.tabs.di, s.tabs.wl⟩, s.yaw, s.dyaw, s.sats⟩
    · exact absurd (hr t ht) hc

/-- Both methods stop in the middle of a message that announces too many signals for a satellite; that satellite is named
without values, the following ones are not. -/
theorem cut_short (L : Lay) (b : BitBuf) (n p : Nat) (h : L.nsig b p > L.c) :
    L.recs b (n + 1) p = [p] ∧ L.fin b (n + 1) p = L.sig p 0 ∧
    ∀ (α : Type) (mt : Nat) (sys : Sys) (t : Char) (v : Nat → α), L.ents mt sys t b [p] v = [] := by
  refine ⟨?_, ?_, fun α mt sys t v => ents_bad _ _ _ _ _ _ _ (by omega)⟩
  · rw [Lay.recs, if_pos h]
  · rw [Lay.fin, if_pos h]

/-- A message without such a record is read to its end: one record for every satellite announced. -/
theorem complete (L : Lay) (b : BitBuf) : ∀ n p, (∀ x ∈ L.recs b n p, L.nsig b x ≤ L.c) → (L.recs b n p).length = n
  | 0, _, _ => rfl
  | n + 1, p, h => by
    have h0 : ¬ L.nsig b p > L.c := by
      have := h p (by rw [Lay.recs]; simp)
      omega
    rw [Lay.recs, if_neg h0] at h ⊢
    rw [List.length_cons, complete L b n _ fun x hx => h x (List.mem_cons_of_mem _ hx)]

/-! ## Messages: IGS SSR code biases of GPS satellites 5 and 7; phase bias of Galileo satellite 11 (number 1267)  -/

def sample : BitBuf := List.replicate 24 false ++ natToBits 12 4076 ++ natToBits 3 1 ++ natToBits 8 25 ++ natToBits 20 345600 ++
  natToBits 4 2 ++ natToBits 1 0 ++ natToBits 4 3 ++ natToBits 16 7 ++ natToBits 4 1 ++ natToBits 6 2 ++
  (natToBits 6 5 ++ natToBits 5 2 ++ (natToBits 5 0 ++ natToBits 14 123) ++ (natToBits 5 11 ++ natToBits 14 (2 ^ 14 - 45))) ++
  (natToBits 6 7 ++ natToBits 5 1 ++ (natToBits 5 16 ++ natToBits 14 6))

def sample2 : BitBuf := List.replicate 24 false ++ natToBits 12 1267 ++ natToBits 20 345600 ++
  natToBits 4 2 ++ natToBits 1 0 ++ natToBits 4 3 ++ natToBits 16 7 ++ natToBits 4 1 ++ natToBits 2 2 ++ natToBits 6 1 ++
  (natToBits 6 11 ++ natToBits 5 1 ++ natToBits 9 128 ++ natToBits 8 (2 ^ 8 - 3) ++
    (natToBits 5 2 ++ natToBits 1 1 ++ natToBits 2 3 ++ natToBits 4 9 ++ natToBits 20 (2 ^ 20 - 77)))

example : getSsrSys .gps 4076 = .ok .gps ∧ sigs .gps ≠ [] ∧ nsatAt 4076 .gps 0 0 sample 47 = 2 ∧ hdrW 4076 .gps 0 = 55 ∧
    (layCode 4076 .gps).recs sample 2 102 = [102, 151] ∧ (layCode 4076 .gps).fin sample 2 102 = 181 ∧ sample.length = 181 ∧
    ((layCode 4076 .gps).ents 4076 .gps 'C' sample [102, 151] fun s => intAt sample (s + 5) 14) =
      [((5, ['C', '1', 'C']), 123), ((5, ['C', '2', 'W']), -45), ((7, ['C', '5', 'X']), 6)] := by
  decide +kernel

/-- a new decoder with the week set is ready for the message -/
example : Ready { msgtype := 4076, sysref := .gps, week := 2300 } .gps sample 47 .cbias (({} : Bias).satB.isSome) := by
  right
  intro t ht
  have := ht.1 (by decide)
  have hb : bitsAt sample 47 20 = 345600 := by decide +kernel
  rw [hb] at this
  change timediff t ⟨0, 0⟩ > 0
  rw [this]
  norm_num

example : Aligned {} := fun _ => ⟨rfl, rfl, rfl⟩

example : getSsrSys .none 1267 = .ok .gal ∧ nsatAt 1267 .gal 0 (phaseHdr .phase) sample2 36 = 1 ∧ hdrW 1267 .gal 2 = 57 ∧
    (layPhase .phase true 1267 .gal).recs sample2 1 93 = [93] ∧ (layPhase .phase true 1267 .gal).fin sample2 1 93 = sample2.length ∧
    satAt 1267 .gal sample2 93 = 43 ∧ bitsAt sample2 104 9 = 128 ∧ intAt sample2 113 8 = -3 ∧
    nameOf 'L' .gal (bitsAt sample2 121 5) = ['L', '1', 'C'] ∧ siAt sample2 121 = true ∧ wlAt sample2 121 = 3 ∧
    diAt .phase sample2 121 = 9 ∧ intAt sample2 (121 + 10 + 2) 20 = -77 := by
  decide +kernel

end Verif.C68
