import Verif.Model.Bds
import Verif.Lemmas.Post
import Verif.Lemmas.Mask
/-!
# C18 PPP-B2b clock and orbit corrections are combined only under the same issue number

Specification: the records a message carries are read straight off the bit layout of the PPP-B2b
ICD; the history is the list of all records of all messages received, newest first, with a marker
where a mask with a new number discards what was received before.
-/

namespace Verif.C18
open Verif.Bds Verif.Sval

def bitsAt (b : BitBuf) (k n : Nat) : Nat := bitsToNat ((b.drop k).take n)
def intAt (b : BitBuf) (k n : Nat) : Int := toSigned n (bitsAt b k n)

/-- what a message adds to the history -/
inductive Event where
  | reset
  | clk (sat : Int) (issue : Nat) (val : Val)
  | orb (sat : Int) (issue iode : Nat) (dorb : Val × Val × Val)

/-- 15-bit clock field, 0.0016 m; the two most negative values mean "not available" -/
def clkVal (u : Int) : Val := if u = -16384 ∨ u = -16383 then none else some (-(u * (16 / 10000 : ℚ)))

/-- the 18-bit clock record at bit `p`: 3 bits issue, 15 bits correction -/
def clkAt (b : BitBuf) (p : Nat) (sat : Int) : Event := .clk sat (bitsAt b p 3) (clkVal (intAt b (p + 3) 15))

/-- the 69-bit orbit record at bit `p`; none for a reserved slot or a satellite outside the mask -/
def orbAt (b : BitBuf) (sats : List Int) (p : Nat) : Option Event :=
  let slot := bitsAt b p 9
  if slot ≤ 174 ∧ slotSat slot ∈ sats then
    some (.orb (slotSat slot) (bitsAt b (p + 19) 3)
      (if slot ≤ 100 then bitsAt b (p + 9) 10 % 256 else bitsAt b (p + 9) 10)
      (svalBds (intAt b (p + 22) 15) 15 (16 / 10000), svalBds (intAt b (p + 37) 13) 13 (64 / 10000),
        svalBds (intAt b (p + 50) 13) 13 (64 / 10000)))
  else none

/-- The records a message contributes, newest first.  `sats`, `iod`, `iodp` are the satellite list,
issue and mask number of the mask in force (`cs.sat_n`, `cs.iodssr`, `cs.iodp`). -/
def carried (sats : List Int) (iod iodp : Int) (b : BitBuf) : List Event :=
  match bitsAt b 0 6 with
  | 1 => if (bitsAt b 29 4 : Int) ≠ iodp then [.reset] else []
  | 2 => if (bitsAt b 27 2 : Int) = iod then
      ((List.range 6).filterMap fun k => orbAt b sats (29 + 69 * k)).reverse else []
  | 4 => if (bitsAt b 27 2 : Int) = iod ∧ (bitsAt b 29 4 : Int) = iodp then
      ((List.range 23).filterMap fun k =>
        (sats[23 * bitsAt b 33 5 + k]?).map (clkAt b (38 + 18 * k))).reverse else []
  | 6 =>
    let numc := bitsAt b 6 5
    let numo := bitsAt b 11 3
    let p := if numc = 0 then 6 else 42 + 18 * numc
    ((List.range numo).filterMap fun k => orbAt b sats (p + 23 + 69 * k)).reverse ++
    ((List.range numc).filterMap fun k => (sats[bitsAt b 33 9 + k]?).map (clkAt b (42 + 18 * k))).reverse
  | 7 => ((List.range (bitsAt b 11 3)).filterMap fun k => orbAt b sats (29 + 69 * k)).reverse
  | _ => []

/-- receiving a sequence of messages, with the history as a second component -/
def recvAll (s : St) (ms : List BitBuf) : Py (St × List Event) :=
  ms.foldlM (fun (s, h) m => do
    let s' ← decodeCssr s m
    pure (s', carried s.satN s.iodssr s.iodp m ++ h)) (s, [])

def Event.isReset : Event → Bool
  | .reset => true | _ => false

/-- the part of the history since the last change of mask -/
def live (h : List Event) : List Event := h.takeWhile (fun e => !e.isReset)

/-- clock records of a satellite since the last change of mask, newest first -/
def clks (h : List Event) (sat : Int) : List (Nat × Val) :=
  (live h).filterMap fun
    | .clk s i v => if s = sat then some (i, v) else none
    | _ => none

/-- orbit records of a satellite since the last change of mask, newest first -/
def orbs (h : List Event) (sat : Int) : List (Nat × Nat × (Val × Val × Val)) :=
  (live h).filterMap fun
    | .orb s i e d => if s = sat then some (i, e, d) else none
    | _ => none

/-- the newest clock record, and the newest one with a different issue number -/
def current (h : List Event) (sat : Int) : Option (Nat × Val) := (clks h sat).head?
def previous (h : List Event) (sat : Int) : Option (Nat × Val) :=
  match clks h sat with
  | [] => none
  | r :: t => t.find? (fun q => q.1 ≠ r.1)

/-! ## The decoder object represents the history -/

structure Inv (s : St) (h : List Event) : Prop where
  nsat : s.nsatN = s.satN.length
  iodp : s.iodpP = s.iodp
  cI : ∀ sat, Dict.get? s.iodcC sat = (current h sat).map (·.1)
  cV : ∀ sat, Dict.get? s.dclk sat = (current h sat).map (·.2)
  pI : ∀ sat, Dict.get? s.iodcCP sat = (previous h sat).map (·.1)
  pV : ∀ sat, Dict.get? s.dclkP sat = (previous h sat).map (·.2)
  oI : ∀ sat, Dict.get? s.iodc sat = (orbs h sat).head?.map (·.1)
  oE : ∀ sat, Dict.get? s.iode sat = (orbs h sat).head?.map (·.2.1)
  oD : ∀ sat, Dict.get? s.dorb sat = (orbs h sat).head?.map (·.2.2)

/-- parts of the object no satellite record changes -/
def Same (s t : St) : Prop :=
  s.satN = t.satN ∧ s.nsatN = t.nsatN ∧ s.iodssr = t.iodssr ∧ s.iodp = t.iodp ∧ s.iodpP = t.iodpP

theorem Same.rfl' {s : St} : Same s s := ⟨rfl, rfl, rfl, rfl, rfl⟩

theorem init : Inv {} [] :=
  ⟨rfl, rfl, fun _ => rfl, fun _ => rfl, fun _ => rfl, fun _ => rfl, fun _ => rfl, fun _ => rfl,
    fun _ => rfl⟩

theorem post_u {b : BitBuf} {i n : Nat} : Post (readU b i n) (fun v => v = bitsAt b i n) := by
  constructor
  intro v h
  unfold readU at h
  split at h
  · cases h; rfl
  · cases h

theorem post_s {b : BitBuf} {i n : Nat} : Post (readS b i n) (fun v => v = intAt b i n) := by
  constructor
  intro v h
  unfold readS at h
  cases hu : readU b i n with
  | error e => rw [hu] at h; cases h
  | ok u =>
    rw [hu] at h
    have := post_u.out _ hu
    subst this
    cases h; rfl

theorem clks_clk (h : List Event) (sat sat' : Int) (i : Nat) (v : Val) :
    clks (.clk sat i v :: h) sat' = if sat' = sat then (i, v) :: clks h sat' else clks h sat' := by
  unfold clks live
  rw [List.takeWhile_cons_of_pos (by rfl), List.filterMap_cons]
  by_cases e : sat' = sat
  · simp only [if_pos e, if_pos e.symm]
  · simp only [if_neg e, if_neg (fun x : sat = sat' => e x.symm)]

theorem clks_orb (h : List Event) (sat sat' : Int) (i e : Nat) (d : Val × Val × Val) :
    clks (.orb sat i e d :: h) sat' = clks h sat' := by
  unfold clks live
  rw [List.takeWhile_cons_of_pos (by rfl), List.filterMap_cons]

theorem orbs_clk (h : List Event) (sat sat' : Int) (i : Nat) (v : Val) :
    orbs (.clk sat i v :: h) sat' = orbs h sat' := by
  unfold orbs live
  rw [List.takeWhile_cons_of_pos (by rfl), List.filterMap_cons]

theorem orbs_orb (h : List Event) (sat sat' : Int) (i k : Nat) (d : Val × Val × Val) :
    orbs (.orb sat i k d :: h) sat' = if sat' = sat then (i, k, d) :: orbs h sat' else orbs h sat' := by
  unfold orbs live
  rw [List.takeWhile_cons_of_pos (by rfl), List.filterMap_cons]
  by_cases e : sat' = sat
  · simp only [if_pos e, if_pos e.symm]
  · simp only [if_neg e, if_neg (fun x : sat = sat' => e x.symm)]

theorem current_clk (h : List Event) (sat sat' : Int) (i : Nat) (v : Val) :
    current (.clk sat i v :: h) sat' = if sat' = sat then some (i, v) else current h sat' := by
  unfold current; rw [clks_clk]; split <;> rfl

theorem previous_clk (h : List Event) (sat sat' : Int) (i : Nat) (v : Val) :
    previous (.clk sat i v :: h) sat' =
      if sat' = sat then
        match current h sat' with
        | none => none
        | some (c, w) => if i ≠ c then some (c, w) else previous h sat'
      else previous h sat' := by
  unfold previous current
  rw [clks_clk]
  by_cases e : sat' = sat
  · rw [if_pos e, if_pos e]
    cases hc : clks h sat' with
    | nil => rfl
    | cons r t =>
      obtain ⟨c, w⟩ := r
      simp only [List.head?_cons]
      by_cases hi : i ≠ c
      · rw [if_pos hi, List.find?_cons_of_pos (by simpa using fun x : c = i => hi x.symm)]
      · rw [if_neg hi]
        have : i = c := not_not.1 hi
        subst this
        rw [List.find?_cons_of_neg (by simp)]
  · rw [if_neg e, if_neg e]

/-- one clock record -/
theorem clkSat_inv {s : St} {h : List Event} (hI : Inv s h) (msg : BitBuf) (i : Nat) (sat : Int) :
    Post (clkSat s msg i sat) (fun r => r.2 = i + 18 ∧ Same r.1 s ∧ Inv r.1 (clkAt msg i sat :: h)) := by
  unfold clkSat
  refine Post.bind post_u fun ic hic => Post.bind post_s fun dc hdc => ?_
  have hv : (svalBds dc 15 (16 / 10000)).map (fun q => -q) = clkVal (intAt msg (i + 3) 15) := by
    rw [← hdc]
    unfold svalBds clkVal
    norm_num
    split <;> simp
  have hce : ∀ sat', Dict.get? (Dict.set s.iodcC sat ic) sat' =
      (current (clkAt msg i sat :: h) sat').map (·.1) := by
    intro sat'
    rw [Dict.get?_set]; unfold clkAt; rw [current_clk]
    split
    · rw [hic]; rfl
    · exact hI.cI sat'
  have hcv : ∀ sat', Dict.get? (Dict.set s.dclk sat ((svalBds dc 15 (16 / 10000)).map (fun q => -q))) sat' =
      (current (clkAt msg i sat :: h) sat').map (·.2) := by
    intro sat'
    rw [Dict.get?_set]; unfold clkAt; rw [current_clk]
    split
    · rw [hv]; rfl
    · exact hI.cV sat'
  have hoi : ∀ sat', orbs (clkAt msg i sat :: h) sat' = orbs h sat' := fun _ => orbs_clk _ _ _ _ _
  have hcs := hI.cI sat
  cases hg : Dict.get? s.iodcC sat with
  | none =>
    simp only [hg, pure_bind]
    refine Post.pure ⟨rfl, Same.rfl', ⟨hI.nsat, hI.iodp, hce, hcv, ?_, ?_, ?_, ?_, ?_⟩⟩
    all_goals intro sat'
    · show Dict.get? s.iodcCP sat' = _
      unfold clkAt; rw [previous_clk, hI.pI]
      split
      · rename_i e; subst e
        rw [hg] at hcs
        have hn : current h sat' = none := by
          cases hcu : current h sat' with
          | none => rfl
          | some r => rw [hcu] at hcs; cases hcs
        rw [hn]
        unfold previous current at *
        cases hcl : clks h sat' with
        | nil => rfl
        | cons r t => rw [hcl] at hn; cases hn
      · rfl
    · show Dict.get? s.dclkP sat' = _
      unfold clkAt; rw [previous_clk, hI.pV]
      split
      · rename_i e; subst e
        rw [hg] at hcs
        have hn : current h sat' = none := by
          cases hcu : current h sat' with
          | none => rfl
          | some r => rw [hcu] at hcs; cases hcs
        rw [hn]
        unfold previous current at *
        cases hcl : clks h sat' with
        | nil => rfl
        | cons r t => rw [hcl] at hn; cases hn
      · rfl
    · rw [hoi]; exact hI.oI sat'
    · rw [hoi]; exact hI.oE sat'
    · rw [hoi]; exact hI.oD sat'
  | some c =>
    rw [hg] at hcs
    obtain ⟨c', w, hcu⟩ : ∃ c' w, current h sat = some (c', w) := by
      cases hcu : current h sat with
      | none => rw [hcu] at hcs; cases hcs
      | some r => exact ⟨r.1, r.2, rfl⟩
    have hcc : c = c' := by rw [hcu] at hcs; exact Option.some.inj hcs
    subst hcc
    simp only [hg]
    by_cases hne : ic ≠ c
    · rw [if_pos hne]
      have hd : Dict.getItem s.dclk sat = .ok w := by
        rw [Dict.getItem_ok_iff, hI.cV, hcu]; rfl
      simp only [hd, pure_bind]
      refine Post.pure ⟨rfl, Same.rfl', ⟨hI.nsat, hI.iodp, hce, hcv, ?_, ?_, ?_, ?_, ?_⟩⟩
      all_goals intro sat'
      · show Dict.get? (Dict.set s.iodcCP sat c) sat' = _
        rw [Dict.get?_set]; unfold clkAt; rw [previous_clk, hI.pI]
        split
        · rename_i e; subst e
          rw [hcu]; simp only; rw [if_pos (hic ▸ hne)]; rfl
        · rfl
      · show Dict.get? (Dict.set s.dclkP sat w) sat' = _
        rw [Dict.get?_set]; unfold clkAt; rw [previous_clk, hI.pV]
        split
        · rename_i e; subst e
          rw [hcu]; simp only; rw [if_pos (hic ▸ hne)]; rfl
        · rfl
      · rw [hoi]; exact hI.oI sat'
      · rw [hoi]; exact hI.oE sat'
      · rw [hoi]; exact hI.oD sat'
    · rw [if_neg hne]
      simp only [pure_bind]
      refine Post.pure ⟨rfl, Same.rfl', ⟨hI.nsat, hI.iodp, hce, hcv, ?_, ?_, ?_, ?_, ?_⟩⟩
      all_goals intro sat'
      · show Dict.get? s.iodcCP sat' = _
        unfold clkAt; rw [previous_clk, hI.pI]
        split
        · rename_i e; subst e
          rw [hcu]; simp only; rw [if_neg (hic ▸ hne)]
        · rfl
      · show Dict.get? s.dclkP sat' = _
        unfold clkAt; rw [previous_clk, hI.pV]
        split
        · rename_i e; subst e
          rw [hcu]; simp only; rw [if_neg (hic ▸ hne)]
        · rfl
      · rw [hoi]; exact hI.oI sat'
      · rw [hoi]; exact hI.oE sat'
      · rw [hoi]; exact hI.oD sat'

theorem slot_none (slot : Nat) : (slot2prn slot).1 = .none ↔ 174 < slot := by
  unfold slot2prn
  split
  · simp; omega
  · split
    · simp; omega
    · split
      · simp; omega
      · split
        · simp; omega
        · simp; omega

theorem slot_gps_bds (slot : Nat) :
    ((slot2prn slot).1 = .gps ∨ (slot2prn slot).1 = .bds) ↔ slot ≤ 100 := by
  unfold slot2prn
  split
  · simp; omega
  · split
    · simp; omega
    · split
      · simp; omega
      · split
        · simp; omega
        · simp; omega

/-- one orbit record -/
theorem orbSat_inv {s : St} {h : List Event} (hI : Inv s h) (msg : BitBuf) (i : Nat) (sats : List Int) :
    Post (orbSat s msg i sats) (fun r => r.2 = i + 69 ∧ Same r.1 s ∧
      Inv r.1 ((orbAt msg sats i).toList ++ h)) := by
  unfold orbSat
  refine Post.bind post_u fun slot h1 => Post.bind post_u fun iodn h2 => Post.bind post_u fun ic h3 =>
    Post.bind post_s fun dx h4 => Post.bind post_s fun dy h5 => Post.bind post_s fun dz h6 =>
    Post.bind_any fun uc => Post.bind_any fun uv => ?_
  simp only
  refine Post.ite (fun hn => Post.pure ⟨rfl, Same.rfl', ?_⟩) (fun hn => ?_)
  · rw [slot_none] at hn
    unfold orbAt
    simp only
    rw [← h1, if_neg (by omega)]
    exact hI
  refine Post.ite (fun hm => Post.pure ⟨rfl, Same.rfl', ?_⟩) (fun hm => ?_)
  · unfold orbAt
    simp only
    rw [← h1, if_neg (fun x => hm x.2)]
    exact hI
  have hle : slot ≤ 174 := by
    rcases Nat.lt_or_ge 174 slot with h | h
    · exact absurd ((slot_none slot).2 h) hn
    · exact h
  have he : orbAt msg sats i = some (.orb (slotSat slot) ic
      (if slot ≤ 100 then iodn % 256 else iodn)
      (svalBds dx 15 (16 / 10000), svalBds dy 13 (64 / 10000), svalBds dz 13 (64 / 10000))) := by
    unfold orbAt
    simp only
    rw [← h1, if_pos ⟨hle, not_not.1 hm⟩, h2, h3, h4, h5, h6]
  rw [he]
  have hio : (if (slot2prn slot).1 = .gps ∨ (slot2prn slot).1 = .bds then iodn &&& 0xff else iodn) =
      if slot ≤ 100 then iodn % 256 else iodn := by
    have : iodn &&& 0xff = iodn % 256 := by
      have := Nat.and_two_pow_sub_one_eq_mod iodn 8
      simpa using this
    by_cases c : slot ≤ 100
    · rw [if_pos ((slot_gps_bds slot).2 c), if_pos c, this]
    · rw [if_neg (fun x => c ((slot_gps_bds slot).1 x)), if_neg c]
  rw [hio]
  refine Post.pure ⟨rfl, ⟨rfl, rfl, rfl, rfl, rfl⟩, ⟨hI.nsat, hI.iodp, ?_, ?_, ?_, ?_, ?_, ?_, ?_⟩⟩
  all_goals intro sat'
  · show Dict.get? s.iodcC sat' = _
    simp only [current, Option.toList, List.cons_append, List.nil_append, clks_orb]; exact hI.cI sat'
  · show Dict.get? s.dclk sat' = _
    simp only [current, Option.toList, List.cons_append, List.nil_append, clks_orb]; exact hI.cV sat'
  · show Dict.get? s.iodcCP sat' = _
    simp only [previous, Option.toList, List.cons_append, List.nil_append, clks_orb]; exact hI.pI sat'
  · show Dict.get? s.dclkP sat' = _
    simp only [previous, Option.toList, List.cons_append, List.nil_append, clks_orb]; exact hI.pV sat'
  · show Dict.get? (Dict.set s.iodc (slotSat slot) ic) sat' = _
    simp only [Option.toList, List.cons_append, List.nil_append, orbs_orb, Dict.get?_set]
    split
    · rfl
    · exact hI.oI sat'
  · show Dict.get? (Dict.set s.iode (slotSat slot) _) sat' = _
    simp only [Option.toList, List.cons_append, List.nil_append, orbs_orb, Dict.get?_set]
    split
    · rfl
    · exact hI.oE sat'
  · show Dict.get? (Dict.set s.dorb (slotSat slot) _) sat' = _
    simp only [Option.toList, List.cons_append, List.nil_append, orbs_orb, Dict.get?_set]
    split
    · rfl
    · exact hI.oD sat'

theorem rev_filterMap_succ {α} (f : Nat → Option α) (k : Nat) (h : List α) :
    ((List.range (k + 1)).filterMap f).reverse ++ h =
      (f k).toList ++ (((List.range k).filterMap f).reverse ++ h) := by
  rw [List.range_succ, List.filterMap_append, List.reverse_append]
  cases hf : f k <;> simp [List.filterMap_cons, hf]

/-- a run of orbit records -/
theorem orbLoop {s : St} {h : List Event} (hI : Inv s h) (msg : BitBuf) (i n : Nat) (sats : List Int) :
    Post ((List.range n).foldlM (fun (p : St × Nat) (_ : Nat) => orbSat p.1 msg p.2 sats) (s, i))
      (fun r => r.2 = i + 69 * n ∧ Same r.1 s ∧
        Inv r.1 (((List.range n).filterMap fun k => orbAt msg sats (i + 69 * k)).reverse ++ h)) := by
  refine Post.foldlM_range (I := fun k (r : St × Nat) => r.2 = i + 69 * k ∧ Same r.1 s ∧
        Inv r.1 (((List.range k).filterMap fun k => orbAt msg sats (i + 69 * k)).reverse ++ h))
    ?_ ⟨rfl, Same.rfl', hI⟩
  rintro k ⟨t, j⟩ hk ⟨rfl, hs, hi⟩
  refine (orbSat_inv hi msg _ sats).mono ?_
  rintro ⟨t', j'⟩ ⟨e, hs', hi'⟩
  refine ⟨by simp only at e ⊢; omega, ?_, ?_⟩
  · exact ⟨hs'.1.trans hs.1, hs'.2.1.trans hs.2.1, hs'.2.2.1.trans hs.2.2.1,
      hs'.2.2.2.1.trans hs.2.2.2.1, hs'.2.2.2.2.trans hs.2.2.2.2⟩
  · rw [rev_filterMap_succ]; exact hi'

theorem Same.trans {a b c : St} (h1 : Same a b) (h2 : Same b c) : Same a c :=
  ⟨h1.1.trans h2.1, h1.2.1.trans h2.2.1, h1.2.2.1.trans h2.2.2.1,
      h1.2.2.2.1.trans h2.2.2.2.1, h1.2.2.2.2.trans h2.2.2.2.2⟩

/-- frame: an object with the same corrections -/
theorem Inv.frame {s t : St} {h : List Event} (hI : Inv s h) (h1 : t.nsatN = s.nsatN)
    (h2 : t.satN = s.satN) (h3 : t.iodp = s.iodp) (h4 : t.iodpP = s.iodpP) (h5 : t.iodcC = s.iodcC)
    (h6 : t.dclk = s.dclk) (h7 : t.iodcCP = s.iodcCP) (h8 : t.dclkP = s.dclkP)
    (h9 : t.iodc = s.iodc) (h10 : t.iode = s.iode) (h11 : t.dorb = s.dorb) : Inv t h := by
  constructor
  · rw [h1, h2]; exact hI.nsat
  · rw [h3, h4]; exact hI.iodp
  · rw [h5]; exact hI.cI
  · rw [h6]; exact hI.cV
  · rw [h7]; exact hI.pI
  · rw [h8]; exact hI.pV
  · rw [h9]; exact hI.oI
  · rw [h10]; exact hI.oE
  · rw [h11]; exact hI.oD

/-- the header changes no correction -/
theorem head_inv {s : St} {h : List Event} (hI : Inv s h) (msg : BitBuf) (i : Nat) :
    Post (decodeHead s msg i) (fun r => r.2.1 = bitsAt msg (i + 21) 2 ∧ r.2.2 = i + 23 ∧
      Same r.1 s ∧ Inv r.1 h) := by
  unfold decodeHead
  refine Post.bind_any fun tod => Post.bind_any fun _ => Post.bind post_u fun iod hiod => ?_
  simp only
  refine Post.pure ⟨hiod, rfl, ?_, ?_⟩
  · simp only [Bool.false_eq_true, if_false]
    by_cases h1 : s.tow0 ≥ 0
    · rw [if_pos h1]
      by_cases h2 : s.week ≥ 0
      · rw [if_pos h2]; exact ⟨rfl, rfl, rfl, rfl, rfl⟩
      · rw [if_neg h2]; exact ⟨rfl, rfl, rfl, rfl, rfl⟩
    · rw [if_neg h1]; exact ⟨rfl, rfl, rfl, rfl, rfl⟩
  · simp only [Bool.false_eq_true, if_false]
    by_cases h1 : s.tow0 ≥ 0
    · rw [if_pos h1]
      by_cases h2 : s.week ≥ 0
      · rw [if_pos h2]; exact hI.frame rfl rfl rfl rfl rfl rfl rfl rfl rfl rfl rfl
      · rw [if_neg h2]; exact hI.frame rfl rfl rfl rfl rfl rfl rfl rfl rfl rfl rfl
    · rw [if_neg h1]; exact hI.frame rfl rfl rfl rfl rfl rfl rfl rfl rfl rfl rfl

theorem modify_inv {s : St} {h : List Event} (hI : Inv s h) (sat : Int) (c : Cssr.CType) :
    Inv (setT0 s sat c) h := hI.frame rfl rfl rfl rfl rfl rfl rfl rfl rfl rfl rfl

/-- message type 2 -/
theorem orb_inv {s : St} {h : List Event} (hI : Inv s h) (msg : BitBuf) :
    Post (decodeMsgOrb s msg 6) (fun r => Inv r.1
      ((if (bitsAt msg 27 2 : Int) = s.iodssr then
        ((List.range 6).filterMap fun k => orbAt msg s.satN (29 + 69 * k)).reverse else []) ++ h)) := by
  unfold decodeMsgOrb
  refine Post.bind (head_inv hI msg 6) ?_
  rintro ⟨s1, iod, i⟩ ⟨h1, h2, hs, hi⟩
  simp only at h1 h2 hs hi ⊢
  refine Post.ite (fun hc => Post.pure ?_) (fun hc => ?_)
  · rw [hs.2.2.1, h1] at hc
    rw [if_neg (fun e => hc e.symm)]; exact hi
  · rw [hs.2.2.1, h1, not_not] at hc
    rw [if_pos hc.symm]
    subst h2
    refine Post.bind (orbLoop hi msg 29 6 s1.satN) ?_
    rintro ⟨t, j⟩ ⟨_, _, hi1⟩
    rw [hs.1] at hi1
    exact Post.pure (hi1.frame rfl rfl rfl rfl rfl rfl rfl rfl rfl rfl rfl)

/-- message type 4 -/
theorem clk_inv {s : St} {h : List Event} (hI : Inv s h) (msg : BitBuf) :
    Post (decodeMsgClk s msg 6) (fun r => Inv r.1
      ((if (bitsAt msg 27 2 : Int) = s.iodssr ∧ (bitsAt msg 29 4 : Int) = s.iodp then
      ((List.range 23).filterMap fun k =>
        (s.satN[23 * bitsAt msg 33 5 + k]?).map (clkAt msg (38 + 18 * k))).reverse else []) ++ h)) := by
  unfold decodeMsgClk
  refine Post.bind (head_inv hI msg 6) ?_
  rintro ⟨s1, iod, i⟩ ⟨h1, h2, hs, hi⟩
  simp only at h1 h2 hs hi ⊢
  refine Post.ite (fun hc => Post.pure ?_) (fun hc => ?_)
  · rw [hs.2.2.1, h1] at hc
    rw [if_neg (fun e => hc e.1.symm)]; exact hi
  rw [hs.2.2.1, h1, not_not] at hc
  subst h2
  refine Post.bind post_u fun iodp hip => Post.bind post_u fun st1 hst => ?_
  refine Post.ite (fun hp => Post.pure ?_) (fun hp => ?_)
  · rw [hs.2.2.2.1, hip] at hp
    rw [if_neg (fun e => hp e.2)]; exact hi
  rw [hs.2.2.2.1, hip, not_not] at hp
  rw [if_pos ⟨hc.symm, hp⟩]
  rw [← hst]
  refine Post.bind (Q := fun r : St × Nat => Inv r.1 (((List.range 23).filterMap fun k =>
        (s.satN[23 * st1 + k]?).map (clkAt msg (38 + 18 * k))).reverse ++ h)) ?_ ?_
  · refine (Post.foldlM_range (I := fun k (r : St × Nat) =>
      r.2 = 38 + 18 * min k (s.satN.length - 23 * st1) ∧ Same r.1 s ∧
        Inv r.1 (((List.range k).filterMap fun k =>
        (s.satN[23 * st1 + k]?).map (clkAt msg (38 + 18 * k))).reverse ++ h))
        ?_ ⟨by simp, hs, hi⟩).mono (fun r hr => hr.2.2)
    rintro k ⟨t, j⟩ hk ⟨hj, hs1, hi1⟩
    simp only at hj hs1 hi1 ⊢
    rw [rev_filterMap_succ, hs1.2.1, hI.nsat, hs1.1]
    refine Post.ite (fun hlt => ?_) (fun hlt => Post.pure ⟨?_, hs1, ?_⟩)
    · refine Post.bind (Q := fun sat => s.satN[23 * st1 + k]? = some sat) ?_ fun sat hsat => ?_
      · constructor
        intro a ha
        unfold pyGet at ha
        have e : st1 * 23 + k = 23 * st1 + k := by omega
        rw [e] at ha
        split at ha
        · cases ha; assumption
        · cases ha
      · refine Post.bind (clkSat_inv hi1 msg j sat) ?_
        rintro ⟨t', j'⟩ ⟨hj', hs', hi'⟩
        refine Post.pure ⟨?_, hs'.trans hs1, ?_⟩
        · simp only at hj' ⊢; omega
        · rw [hsat]
          have ej : j = 38 + 18 * k := by omega
          rw [← ej]
          exact modify_inv hi' sat .clock
    · simp only; omega
    · have e : s.satN[23 * st1 + k]? = none := by rw [List.getElem?_eq_none_iff]; omega
      rw [e]; exact hi1
  · rintro ⟨t, j⟩ hi1
    exact Post.pure (hi1.frame rfl rfl rfl rfl rfl rfl rfl rfl rfl rfl rfl)

/-- message type 3 -/
theorem cbias_inv {s : St} {h : List Event} (hI : Inv s h) (msg : BitBuf) :
    Post (decodeMsgCbias s msg 6) (fun r => Inv r.1 h) := by
  unfold decodeMsgCbias
  refine Post.bind (head_inv hI msg 6) ?_
  rintro ⟨s1, iod, i⟩ ⟨h1, h2, hs, hi⟩
  simp only at h1 h2 hs hi ⊢
  refine Post.ite (fun hc => Post.pure hi) (fun hc => ?_)
  refine Post.bind_any fun nsat => ?_
  refine Post.bind (Q := fun r : St × Nat => Inv r.1 h) ?_ ?_
  · refine Post.foldlM (I := fun r : St × Nat => Inv r.1 h) ?_ hi
    rintro ⟨t, j⟩ _ _ ht
    simp only
    unfold cbiasSat
    refine Post.bind_any fun slot => Post.bind_any fun nsig => ?_
    simp only
    refine Post.ite (fun hm => Post.pure ht) (fun hm => ?_)
    refine Post.bind_any fun d => ?_
    exact Post.pure (Inv.frame ht rfl rfl rfl rfl rfl rfl rfl rfl rfl rfl rfl)
  · rintro ⟨t, j⟩ hi1
    exact Post.pure (Inv.frame hi1 rfl rfl rfl rfl rfl rfl rfl rfl rfl rfl rfl)

/-- message type 5 -/
theorem ura_inv {s : St} {h : List Event} (hI : Inv s h) (msg : BitBuf) :
    Post (decodeMsgUra s msg 6) (fun r => Inv r.1 h) := by
  unfold decodeMsgUra
  refine Post.bind (head_inv hI msg 6) ?_
  rintro ⟨s1, iod, i⟩ ⟨h1, h2, hs, hi⟩
  simp only at h1 h2 hs hi ⊢
  refine Post.ite (fun hc => Post.pure hi) (fun hc => ?_)
  refine Post.bind_any fun _ => Post.bind_any fun st2 => ?_
  refine Post.bind (Q := fun r : St × Nat => Inv r.1 h) ?_ ?_
  · refine Post.foldlM (I := fun r : St × Nat => Inv r.1 h) ?_ hi
    rintro ⟨t, j⟩ k _ ht
    refine Post.bind_any fun c => Post.bind_any fun v => ?_
    refine Post.ite (fun hm => ?_) (fun hm => Post.pure ht)
    refine Post.bind_any fun sat => ?_
    exact Post.pure (Inv.frame ht rfl rfl rfl rfl rfl rfl rfl rfl rfl rfl rfl)
  · rintro ⟨t, j⟩ hi1
    exact Post.pure (Inv.frame hi1 rfl rfl rfl rfl rfl rfl rfl rfl rfl rfl rfl)

/-- message type 6 -/
theorem comb1_inv {s : St} {h : List Event} (hI : Inv s h) (msg : BitBuf) :
    Post (decodeMsgComb1 s msg 6) (fun r => Inv r.1
      ((let numc := bitsAt msg 6 5
        let numo := bitsAt msg 11 3
        let p := if numc = 0 then 6 else 42 + 18 * numc
        ((List.range numo).filterMap fun k => orbAt msg s.satN (p + 23 + 69 * k)).reverse ++
        ((List.range numc).filterMap fun k =>
          (s.satN[bitsAt msg 33 9 + k]?).map (clkAt msg (42 + 18 * k))).reverse) ++ h)) := by
  unfold decodeMsgComb1
  refine Post.bind post_u fun numc hc => Post.bind post_u fun numo ho => ?_
  simp only
  rw [← hc, ← ho]
  refine Post.bind (Q := fun r : St × Nat => r.2 = (if numc = 0 then 6 else 42 + 18 * numc) ∧
      Inv r.1 (((List.range numc).filterMap fun k =>
          (s.satN[bitsAt msg 33 9 + k]?).map (clkAt msg (42 + 18 * k))).reverse ++ h)) ?_ ?_
  · refine Post.ite (fun hn => ?_) (fun hn => ?_)
    · refine Post.bind post_u fun sl hsl => ?_
      rw [if_neg (by omega), ← hsl]
      refine (Post.foldlM_range (I := fun k (r : St × Nat) => r.2 = 42 + 18 * k ∧ Same r.1 s ∧
        Inv r.1 (((List.range k).filterMap fun k =>
          (s.satN[sl + k]?).map (clkAt msg (42 + 18 * k))).reverse ++ h)) ?_ ⟨rfl, Same.rfl', hI⟩).mono
        (fun r hr => ⟨hr.1, hr.2.2⟩)
      rintro k ⟨t, j⟩ hk ⟨hj, hs1, hi1⟩
      simp only at hj hs1 hi1 ⊢
      rw [rev_filterMap_succ, hs1.1]
      refine Post.bind (Q := fun sat => s.satN[sl + k]? = some sat) ?_ fun sat hsat => ?_
      · constructor
        intro a ha
        unfold pyGet at ha
        split at ha
        · cases ha; assumption
        · cases ha
      · refine (clkSat_inv hi1 msg j sat).mono ?_
        rintro ⟨t', j'⟩ ⟨hj', hs', hi'⟩
        refine ⟨by simp only at hj' ⊢; omega, hs'.trans hs1, ?_⟩
        rw [hsat, ← hj]; exact hi'
    · have : numc = 0 := by omega
      rw [this]
      exact Post.pure ⟨rfl, hI⟩
  · rintro ⟨t, j⟩ ⟨hj, hi1⟩
    simp only at hj hi1 ⊢
    rw [List.append_assoc]
    refine Post.bind (Q := fun r : St × Nat => Inv r.1 _) ?_ (fun r hr => Post.pure hr)
    refine Post.ite (fun hn => ?_) (fun hn => ?_)
    · refine Post.bind_any fun _ => ?_
      refine (orbLoop hi1 msg (j + 23) numo s.satN).mono ?_
      intro r hr
      rw [hj] at hr
      exact hr.2.2
    · have : numo = 0 := by omega
      rw [this]
      exact Post.pure hi1

/-- message type 7 -/
theorem comb2_inv {s : St} {h : List Event} (hI : Inv s h) (msg : BitBuf) :
    Post (decodeMsgComb2 s msg 6) (fun r => Inv r.1
      (((List.range (bitsAt msg 11 3)).filterMap fun k => orbAt msg s.satN (29 + 69 * k)).reverse ++ h)) := by
  unfold decodeMsgComb2
  refine Post.bind_any fun numc => Post.bind post_u fun numo ho => ?_
  simp only
  rw [← ho]
  refine Post.ite (fun hn => ?_) (fun hn => ?_)
  · exact Post.bind_any fun _ => Post.bind_any fun _ => Post.error
  · refine Post.bind (Q := fun r : St × Nat => Inv r.1 _) ?_ (fun r hr => Post.pure hr)
    refine Post.ite (fun hn => ?_) (fun hn => ?_)
    · refine Post.bind_any fun _ => ?_
      exact (orbLoop hI msg 29 numo s.satN).mono fun r hr => hr.2.2
    · have : numo = 0 := by omega
      rw [this]
      exact Post.pure hI

theorem addGnss_nsat (s : St) (m n g : Nat) (h : s.nsatN = s.satN.length) :
    (addGnss s m n g).nsatN = (addGnss s m n g).satN.length := by
  unfold addGnss
  simp only [List.length_append, List.length_map, Mask.decodeMask_length, h]

/-- a new mask discards every correction -/
theorem newMask_inv {s : St} (h : List Event) (mb mg me mr : Nat) :
    Inv (newMask s mb mg me mr) (Event.reset :: h) := by
  have e : ∀ sat, clks (Event.reset :: h) sat = [] := fun sat => by
    unfold clks live; rw [List.takeWhile_cons_of_neg (by simp [Event.isReset])]; rfl
  have e' : ∀ sat, orbs (Event.reset :: h) sat = [] := fun sat => by
    unfold orbs live; rw [List.takeWhile_cons_of_neg (by simp [Event.isReset])]; rfl
  refine ⟨?_, rfl, ?_, ?_, ?_, ?_, ?_, ?_, ?_⟩
  · unfold newMask
    simp only
    refine addGnss_nsat _ _ _ _ (addGnss_nsat _ _ _ _ (addGnss_nsat _ _ _ _
      (addGnss_nsat _ _ _ _ ?_)))
    rfl
  all_goals intro sat
  · simp only [current, e]; rfl
  · simp only [current, e]; rfl
  · simp only [previous, e]; rfl
  · simp only [previous, e]; rfl
  · simp only [e']; rfl
  · simp only [e']; rfl
  · simp only [e']; rfl

/-- message type 1 -/
theorem mask_inv {s : St} {h : List Event} (hI : Inv s h) (msg : BitBuf) :
    Post (decodeMsgMask s msg 6) (fun r => Inv r.1
      ((if (bitsAt msg 29 4 : Int) ≠ s.iodp then [Event.reset] else []) ++ h)) := by
  unfold decodeMsgMask
  refine Post.bind (Q := fun r : St × Nat × Nat => r.2.2 = 29 ∧ r.1.iodp = s.iodp ∧ Inv r.1 h) ?_ ?_
  · unfold decodeHead
    refine Post.bind_any fun tod => Post.bind_any fun _ => Post.bind_any fun iod => ?_
    simp only
    refine Post.pure ⟨rfl, ?_, ?_⟩
    · simp only [if_true]
      by_cases h1 : s.tow0 ≥ 0
      · rw [if_pos h1]
        by_cases h2 : s.week ≥ 0
        · rw [if_pos h2]
        · rw [if_neg h2]
      · rw [if_neg h1]
    · simp only [if_true]
      by_cases h1 : s.tow0 ≥ 0
      · rw [if_pos h1]
        by_cases h2 : s.week ≥ 0
        · rw [if_pos h2]; exact hI.frame rfl rfl rfl rfl rfl rfl rfl rfl rfl rfl rfl
        · rw [if_neg h2]; exact hI.frame rfl rfl rfl rfl rfl rfl rfl rfl rfl rfl rfl
      · rw [if_neg h1]; exact hI.frame rfl rfl rfl rfl rfl rfl rfl rfl rfl rfl rfl
  · rintro ⟨s1, iod, i⟩ ⟨h2, hp, hi⟩
    simp only at h2 hp hi ⊢
    subst h2
    refine Post.bind post_u fun iodp hip => Post.bind_any fun mb => Post.bind_any fun mg =>
      Post.bind_any fun me => Post.bind_any fun mr => Post.pure ?_
    simp only
    rw [← hip]
    have hd : ((iodp : Int) ≠ s1.iodpP) ↔ (iodp : Int) ≠ s.iodp := by rw [hi.iodp, hp]
    by_cases hc : (iodp : Int) ≠ s.iodp
    · rw [if_pos (hd.2 hc), if_pos hc]
      exact (newMask_inv (s := { s1 with iodp := iodp }) h mb mg me mr).frame
        rfl rfl rfl rfl rfl rfl rfl rfl rfl rfl rfl
    · rw [if_neg (fun x => hc (hd.1 x)), if_neg hc]
      have hc' := not_not.1 hc
      exact Inv.frame hi rfl rfl (hc'.trans hp.symm) rfl rfl rfl rfl rfl rfl rfl rfl

/-- One message. -/
theorem step_inv {s : St} {h : List Event} (hI : Inv s h) (msg : BitBuf) :
    Post (decodeCssr s msg) (fun s' => Inv s' (carried s.satN s.iodssr s.iodp msg ++ h)) := by
  unfold decodeCssr
  refine Post.bind post_u fun mt hmt => ?_
  refine Post.bind (Q := fun r : St × Int => Inv r.1 (carried s.satN s.iodssr s.iodp msg ++ h)) ?_
    (fun r hr => Post.pure hr)
  unfold carried
  rw [← hmt]
  match mt with
  | 0 => exact Post.pure hI
  | 1 => exact mask_inv hI msg
  | 2 => exact orb_inv hI msg
  | 3 => exact cbias_inv hI msg
  | 4 => exact clk_inv hI msg
  | 5 => exact ura_inv hI msg
  | 6 => exact comb1_inv hI msg
  | 7 => exact comb2_inv hI msg
  | n + 8 => exact Post.pure hI

/-- Any sequence of messages. -/
theorem run_inv (ms : List BitBuf) : Post (recvAll {} ms) (fun r => Inv r.1 r.2) := by
  unfold recvAll
  refine Post.foldlM (I := fun r : St × List Event => Inv r.1 r.2) ?_ init
  rintro ⟨s, h⟩ m _ hI
  exact Post.bind (step_inv hI m) fun s' hs' => Post.pure hs'

/-! ## What is applied -/

/-- corrections with a field that is "not available" are not applied -/
def finish (e : Nat) (d : Val × Val × Val) (v : Val) : Option (Nat × (Val × Val × Val) × Val) :=
  if v = none ∨ d.1 = none ∨ d.2.1 = none ∨ d.2.2 = none then none else some (e, d, v)

/-- the rule: the newest orbit record is used with the newest clock record if their issue numbers
agree, else with the newest clock record of the other issue number if that one agrees, else the
satellite is not corrected; without the clock record needed for the comparison the lookup raises -/
def rule (h : List Event) (sat : Int) : Py (Option (Nat × (Val × Val × Val) × Val)) :=
  match (orbs h sat).head? with
  | none => .ok none
  | some (o, e, d) =>
    match current h sat with
    | none => .error .keyError
    | some (c, v) =>
      if o = c then .ok (finish e d v)
      else match previous h sat with
        | none => .error .keyError
        | some (p, w) => if o = p then .ok (finish e d w) else .ok none

/-- the satellite is in the mask the last orbit message belongs to -/
def InMask (s : St) (sat : Int) : Prop :=
  (0 ≤ s.iodssr ∧ s.iodssrC .orbit = s.iodssr ∧ sat ∈ s.satN) ∨
  (¬ (0 ≤ s.iodssr ∧ s.iodssrC .orbit = s.iodssr) ∧
    0 ≤ s.iodssrP ∧ s.iodssrC .orbit = s.iodssrP ∧ sat ∈ s.satNP)

theorem select_inv {s : St} {h : List Event} (hI : Inv s h) (sat : Int) (hm : InMask s sat) :
    select s sat = rule h sat := by
  unfold select
  have hok : (if s.iodssr ≥ 0 ∧ s.iodssrC .orbit = s.iodssr then (pure (decide (sat ∈ s.satN)) : Py Bool)
    else if s.iodssrP ≥ 0 ∧ s.iodssrC .orbit = s.iodssrP then pure (decide (sat ∈ s.satNP))
    else pure false) = pure true := by
    rcases hm with ⟨h1, h2, h3⟩ | ⟨h0, h1, h2, h3⟩
    · rw [if_pos ⟨h1, h2⟩, decide_eq_true h3]
    · rw [if_neg h0, if_pos ⟨h1, h2⟩, decide_eq_true h3]
  rw [hok, pure_bind, if_neg (by decide)]
  have hE := hI.oE sat
  have hO := hI.oI sat
  have hD := hI.oD sat
  have hcI := hI.cI sat
  have hcV := hI.cV sat
  have hpI := hI.pI sat
  have hpV := hI.pV sat
  unfold rule
  cases horb : (orbs h sat).head? with
  | none =>
    rw [horb] at hE
    simp only [hE, Option.map_none]; rfl
  | some r =>
    obtain ⟨o, e, d⟩ := r
    rw [horb] at hE hO hD
    simp only [hE, Option.map_some]
    rw [(Dict.getItem_ok_iff _ _ d).2 hD, (Dict.getItem_ok_iff _ _ o).2 hO]
    simp only [Py.okBind]
    cases hcu : current h sat with
    | none =>
      rw [hcu] at hcI
      have : Dict.getItem s.iodcC sat = .error .keyError := by unfold Dict.getItem; rw [hcI]; rfl
      rw [this]; rfl
    | some r =>
      obtain ⟨c, v⟩ := r
      rw [hcu] at hcI hcV
      rw [(Dict.getItem_ok_iff _ _ c).2 hcI]
      simp only [Py.okBind]
      by_cases hoc : o = c
      · rw [if_pos hoc, if_pos hoc, (Dict.getItem_ok_iff _ _ v).2 hcV]
        unfold finish
        simp only [Py.okBind, pure_bind]
        split <;> rfl
      · rw [if_neg hoc, if_neg hoc]
        cases hpr : previous h sat with
        | none =>
          rw [hpr] at hpI
          have : Dict.getItem s.iodcCP sat = .error .keyError := by unfold Dict.getItem; rw [hpI]; rfl
          rw [this]; rfl
        | some r =>
          obtain ⟨p, w⟩ := r
          rw [hpr] at hpI hpV
          rw [(Dict.getItem_ok_iff _ _ p).2 hpI]
          simp only [Py.okBind]
          by_cases hop : o = p
          · rw [if_pos hop, if_pos hop, (Dict.getItem_ok_iff _ _ w).2 hpV]
            unfold finish
            simp only [Py.okBind, pure_bind]
            split <;> rfl
          · rw [if_neg hop, if_neg hop]; rfl

/-- After any sequence of messages, for a satellite of the mask, the corrections applied are the
ones the rule selects from the history. -/
theorem select_rule (ms : List BitBuf) (s : St) (h : List Event) (sat : Int)
    (hr : recvAll {} ms = .ok (s, h)) (hm : InMask s sat) : select s sat = rule h sat :=
  select_inv ((run_inv ms).out _ hr) sat hm

/-- A satellite outside the mask is not corrected. -/
theorem outside_mask (s : St) (sat : Int) (hm : ¬ InMask s sat) : select s sat = .ok none := by
  unfold select
  have hok : (if s.iodssr ≥ 0 ∧ s.iodssrC .orbit = s.iodssr then (pure (decide (sat ∈ s.satN)) : Py Bool)
    else if s.iodssrP ≥ 0 ∧ s.iodssrC .orbit = s.iodssrP then pure (decide (sat ∈ s.satNP))
    else pure false) = pure false := by
    by_cases h1 : s.iodssr ≥ 0 ∧ s.iodssrC .orbit = s.iodssr
    · rw [if_pos h1, decide_eq_false fun x => hm (Or.inl ⟨h1.1, h1.2, x⟩)]
    · rw [if_neg h1]
      by_cases h2 : s.iodssrP ≥ 0 ∧ s.iodssrC .orbit = s.iodssrP
      · rw [if_pos h2, decide_eq_false fun x => hm (Or.inr ⟨h1, h2.1, h2.2, x⟩)]
      · rw [if_neg h2]
  rw [hok]; rfl

theorem find_other (t : List (Nat × Val)) (c p : Nat) (w : Val)
    (h : t.find? (fun q => q.1 ≠ c) = some (p, w)) : p ≠ c ∧ t.find? (fun q => q.1 = p) = some (p, w) := by
  have hp : p ≠ c := by simpa using List.find?_some h
  refine ⟨hp, ?_⟩
  induction t with
  | nil => cases h
  | cons q t ih =>
    by_cases hq : q.1 = c
    · rw [List.find?_cons_of_neg (by simpa using hq)] at h
      rw [List.find?_cons_of_neg (by simp only [decide_eq_true_eq]; exact fun e => hp (e.symm.trans hq))]
      exact ih h
    · rw [List.find?_cons_of_pos (by simpa using hq)] at h
      cases h
      rw [List.find?_cons_of_pos (by simp)]

/-- An orbit correction is only ever combined with a clock correction of the same satellite that
carries the same issue number: the one received last under that number. -/
theorem combined_same_issue (ms : List BitBuf) (s : St) (h : List Event) (sat : Int)
    (hr : recvAll {} ms = .ok (s, h)) (e : Nat) (d : Val × Val × Val) (v : Val)
    (hs : select s sat = .ok (some (e, d, v))) :
    ∃ o, (orbs h sat).head? = some (o, e, d) ∧ (clks h sat).find? (fun q => q.1 = o) = some (o, v) := by
  by_cases hm : InMask s sat
  · rw [select_rule ms s h sat hr hm] at hs
    unfold rule at hs
    have fin : ∀ e' d' v', finish e' d' v' = some (e, d, v) → e' = e ∧ d' = d ∧ v' = v := by
      intro e' d' v' hf
      unfold finish at hf
      split at hf
      · cases hf
      · cases hf; exact ⟨rfl, rfl, rfl⟩
    split at hs
    · cases hs
    · rename_i o e' d' horb
      split at hs
      · cases hs
      · rename_i c v' hcu
        obtain ⟨t, ht⟩ : ∃ t, clks h sat = (c, v') :: t := by
          unfold current at hcu
          cases hcl : clks h sat with
          | nil => rw [hcl] at hcu; cases hcu
          | cons r t => rw [hcl] at hcu; cases hcu; exact ⟨t, rfl⟩
        split at hs
        · rename_i hoc
          have hf := fin _ _ _ (Except.ok.inj hs)
          refine ⟨o, by rw [horb, hf.1, hf.2.1], ?_⟩
          rw [ht, List.find?_cons_of_pos (by simpa using hoc.symm), hoc, hf.2.2]
        · rename_i hoc
          split at hs
          · cases hs
          · rename_i p w hpr
            split at hs
            · rename_i hop
              have hf := fin _ _ _ (Except.ok.inj hs)
              unfold previous at hpr
              rw [ht] at hpr
              have := find_other t c p w hpr
              refine ⟨o, by rw [horb, hf.1, hf.2.1], ?_⟩
              rw [ht, List.find?_cons_of_neg (by simpa using fun x : c = o => hoc x.symm), hop, this.2, hf.2.2]
            · cases hs
  · rw [outside_mask s sat hm] at hs; cases hs

/-- When a clock record with a new issue number arrives, the value it replaces is what an orbit
correction still carrying the old number is combined with. -/
theorem previous_retrievable (ms : List BitBuf) (s : St) (h h0 : List Event) (sat : Int)
    (hr : recvAll {} ms = .ok (s, h)) (hm : InMask s sat) (o c e : Nat) (d : Val × Val × Val)
    (v w : Val) (hh : h = .clk sat c v :: h0) (hold : current h0 sat = some (o, w)) (hne : c ≠ o)
    (horb : (orbs h sat).head? = some (o, e, d)) : select s sat = .ok (finish e d w) := by
  rw [select_rule ms s h sat hr hm]
  unfold rule
  rw [horb, hh]
  simp only [current_clk, previous_clk, hold, if_true]
  rw [if_neg (fun x => hne x.symm), if_pos hne]
  simp only [if_true]

/-! ## Concrete sequences -/

instance : DecidableEq Val := inferInstance
instance : DecidableEq (Val × Val × Val) := instDecidableEqProd
instance : DecidableEq (Nat × (Val × Val × Val) × Val) := instDecidableEqProd

/-- mask with the single satellite C01, issue 1, mask number 2 -/
def exMask : BitBuf := natToBits 6 1 ++ natToBits 21 0 ++ natToBits 2 1 ++ natToBits 4 2 ++
  natToBits 63 (2 ^ 62) ++ natToBits 111 0
/-- orbit message for C01 with issue `o` -/
def exOrb (o : Nat) : BitBuf := natToBits 6 2 ++ natToBits 21 0 ++ natToBits 2 1 ++
  (natToBits 9 1 ++ natToBits 10 7 ++ natToBits 3 o ++ natToBits 15 10 ++ natToBits 13 20 ++
    natToBits 13 30 ++ natToBits 6 9) ++ natToBits (69 * 5 + 19) 0
/-- clock message for C01 with issue `c` and value `u` -/
def exClk (c u : Nat) : BitBuf := natToBits 6 4 ++ natToBits 21 0 ++ natToBits 2 1 ++ natToBits 4 2 ++
  natToBits 5 0 ++ natToBits 3 c ++ natToBits 15 u ++ natToBits 400 0

/-- what is applied to C01 after the messages -/
def applied (ms : List BitBuf) : Py (Option (Nat × (Val × Val × Val) × Val)) := do
  let r ← recvAll {} ms
  select r.1 86

/-- the hypotheses of the theorems above are met: orbit issue 3, clock issue 3 then 4 -/
example : applied [exMask, exOrb 3, exClk 3 100, exClk 4 200] =
    .ok (some (7, (some (16 / 1000), some (128 / 1000), some (192 / 1000)), some (-16 / 100))) := by
  decide +kernel

example : applied [exMask, exOrb 4, exClk 3 100, exClk 4 200] =
    .ok (some (7, (some (16 / 1000), some (128 / 1000), some (192 / 1000)), some (-32 / 100))) := by
  decide +kernel

/-- neither clock record matches: not corrected -/
example : applied [exMask, exOrb 5, exClk 3 100, exClk 4 200] = .ok none := by decide +kernel

/-- Before any clock record of a satellite has been received, or when only one issue number has been
received and it differs from the orbit's, the computation of the satellite position raises KeyError
instead of skipping the satellite. -/
theorem incomplete_set_raises :
    applied [exMask, exOrb 3] = .error .keyError ∧
    applied [exMask, exOrb 3, exClk 4 100] = .error .keyError := by decide +kernel

/-- a combined message (type 6) for C01 laid out as in the ICD: 8 bits counts, then 17+4+2 bits
header, 4 bits mask number, 9 bits first slot, one clock record of issue 3 and value 100 -/
def exComb1 : BitBuf := natToBits 6 6 ++ natToBits 5 1 ++ natToBits 3 0 ++ natToBits 21 0 ++
  natToBits 2 1 ++ natToBits 4 2 ++ natToBits 9 0 ++ natToBits 3 3 ++ natToBits 15 100 ++
  natToBits 400 0

/-- The combined message is read eight bits too early: a valid one is not decoded (here the first
slot comes out as 288, which is outside the satellite list). -/
theorem comb1_misread : (recvAll {} [exMask, exComb1]).map (fun _ => ()) = .error .indexError := by
  decide +kernel

/-- A combined message of type 7 with a clock part always raises. -/
theorem comb2_raises (s : St) (msg : BitBuf) (numc : Nat) (h1 : readU msg 6 5 = .ok numc)
    (h0 : 0 < numc) : ∃ e, decodeMsgComb2 s msg 6 = .error e := by
  unfold decodeMsgComb2
  rw [h1]
  simp only [Py.okBind]
  cases readU msg 11 3 with
  | error e => exact ⟨e, rfl⟩
  | ok numo =>
    simp only [Py.okBind]
    rw [if_pos h0]
    cases readU msg 6 23 with
    | error e => exact ⟨e, rfl⟩
    | ok _ =>
      simp only [Py.okBind]
      cases readU msg (6 + 23) 9 with
      | error e => exact ⟨e, rfl⟩
      | ok _ => exact ⟨_, rfl⟩

/-- The issue number of a combined message is not compared with the mask's: this message of type 6
carries no clock part and an orbit record for C01 under issue 2 while the mask has issue 1. -/
def exComb1Orb : BitBuf := natToBits 6 6 ++ natToBits 5 0 ++ natToBits 3 1 ++ natToBits 13 0 ++
  natToBits 2 2 ++ natToBits 9 1 ++ natToBits 10 7 ++ natToBits 3 5 ++ natToBits 400 0

theorem comb1_not_gated : (do
    let r ← recvAll {} [exMask, exComb1Orb]
    pure (r.1.iodssr, Dict.get? r.1.iodc 86) : Py (Int × Option Nat)) = .ok (1, some 5) := by
  decide +kernel

end Verif.C18
