import Verif.Model.Mdc
import Verif.Lemmas.Post
import Verif.Lemmas.Read
/-!
# C20 Every region/area pair of the wide-area ionosphere has its own slot
-/

namespace Verif.C20
open Verif.Mdc

/-- number of areas of a MADOCA-PPP region (1-5) -/
def areas : Int → Int
  | 1 => 8 | 2 => 16 | 3 => 5 | 4 => 1 | 5 => 8 | _ => 0

/-- the pairs the service defines: regions 1-5, areas counted from 1 -/
def Valid (reg area : Int) : Prop := 1 ≤ reg ∧ reg ≤ 5 ∧ 1 ≤ area ∧ area ≤ areas reg

theorem getInet_eq (reg area : Int) (h1 : 0 ≤ reg) (h2 : 0 ≤ area) :
    getInet reg area = area + (if reg ≤ 1 then 0 else if reg = 2 then 8 else if reg = 3 then 24
      else if reg = 4 then 29 else if reg = 5 then 30 else 38) := by
  unfold getInet
  rw [if_neg (by omega)]
  unfold nareaT
  simp only [offset]
  split_ifs <;> omega

theorem areas_eq (reg : Int) (h : 1 ≤ reg ∧ reg ≤ 5) : areas reg =
    if reg = 1 then 8 else if reg = 2 then 16 else if reg = 3 then 5 else if reg = 4 then 1 else 8 := by
  obtain ⟨h1, h2⟩ := h
  have : reg = 1 ∨ reg = 2 ∨ reg = 3 ∨ reg = 4 ∨ reg = 5 := by omega
  rcases this with rfl | rfl | rfl | rfl | rfl <;> rfl

/-- A defined pair gets a slot between 1 and 38, all of which are allocated. -/
theorem slot_range (reg area : Int) (h : Valid reg area) :
    1 ≤ getInet reg area ∧ getInet reg area ≤ 38 ∧ (getInet reg area).toNat < nslot := by
  obtain ⟨h1, h2, h3, h4⟩ := h
  rw [areas_eq reg ⟨h1, h2⟩] at h4
  rw [getInet_eq reg area (by omega) (by omega)]
  have hn : nslot = 72 := rfl
  rw [hn]
  split_ifs at * <;> omega

/-- Two defined pairs never share a slot. -/
theorem slot_injective (reg area reg' area' : Int) (h : Valid reg area) (h' : Valid reg' area')
    (he : getInet reg area = getInet reg' area') : reg = reg' ∧ area = area' := by
  obtain ⟨h1, h2, h3, h4⟩ := h
  obtain ⟨g1, g2, g3, g4⟩ := h'
  rw [areas_eq reg ⟨h1, h2⟩] at h4
  rw [areas_eq reg' ⟨g1, g2⟩] at g4
  rw [getInet_eq reg area (by omega) (by omega), getInet_eq reg' area' (by omega) (by omega)] at he
  split_ifs at * <;> omega

/-- Every slot 1-38 belongs to a defined pair. -/
theorem slot_surjective (k : Int) (h : 1 ≤ k ∧ k ≤ 38) : ∃ reg area, Valid reg area ∧ getInet reg area = k := by
  by_cases h1 : k ≤ 8
  · refine ⟨1, k, ⟨by omega, by omega, by omega, by simpa [areas] using h1⟩, ?_⟩
    rw [getInet_eq _ _ (by omega) (by omega)]; simp
  by_cases h2 : k ≤ 24
  · refine ⟨2, k - 8, ⟨by omega, by omega, by omega, by show k - 8 ≤ 16; omega⟩, ?_⟩
    rw [getInet_eq _ _ (by omega) (by omega)]; norm_num
  by_cases h3 : k ≤ 29
  · refine ⟨3, k - 24, ⟨by omega, by omega, by omega, by show k - 24 ≤ 5; omega⟩, ?_⟩
    rw [getInet_eq _ _ (by omega) (by omega)]; norm_num
  by_cases h4 : k ≤ 30
  · refine ⟨4, k - 29, ⟨by omega, by omega, by omega, by show k - 29 ≤ 1; omega⟩, ?_⟩
    rw [getInet_eq _ _ (by omega) (by omega)]; norm_num
  · refine ⟨5, k - 30, ⟨by omega, by omega, by omega, by show k - 30 ≤ 8; omega⟩, ?_⟩
    rw [getInet_eq _ _ (by omega) (by omega)]; norm_num

/-- Whatever an 8-bit region and a 5-bit area field contain, the slot is allocated: no message
indexes past the end. -/
theorem slot_allocated (reg area : Nat) (ha : area < 32) :
    0 ≤ getInet reg area ∧ (getInet reg area).toNat < nslot := by
  rw [getInet_eq _ _ (by omega) (by omega)]
  have hn : nslot = 72 := rfl
  rw [hn]
  split_ifs <;> omega

/-- Field values the service does not define can hit the slot of a defined pair: area 0 is the last
area of the region before, an area number that is too large lands in a later region, and region 0
is region 1. -/
theorem undefined_collide :
    getInet 2 0 = getInet 1 8 ∧ getInet 1 9 = getInet 2 1 ∧ getInet 0 3 = getInet 1 3 ∧
    Valid 1 8 ∧ Valid 2 1 ∧ Valid 1 3 := by
  refine ⟨by decide, by decide, by decide, ?_, ?_, ?_⟩ <;> exact ⟨by decide, by decide, by decide, by decide⟩

/-! ## The slot is what the correction message writes -/

theorem post_u {b : BitBuf} {i n : Nat} : Post (readU b i n) (fun v => v = bitsAt b i n) := by
  constructor
  intro v h
  unfold readU at h
  split at h
  · cases h; rfl
  · cases h

theorem readU_bits_lt {b : BitBuf} {i n v : Nat} (h : readU b i n = .ok v) : v < 2 ^ n := readU_lt h

/-- A correction message changes exactly the slot of the region and area it names. -/
theorem other_slots_kept (s : St) (buff : BitBuf) (i : Nat) :
    Post (decodeStecCorr s buff i) (fun r => r.1.lc.length = s.lc.length ∧
      r.1.reg = bitsAt buff (i + 21) 8 ∧ r.1.area = bitsAt buff (i + 29) 5 ∧
      (∀ k : Nat, (k : Int) ≠ getInet r.1.reg r.1.area → r.1.lc[k]? = s.lc[k]?) ∧
      ∃ sl, r.1.lc[(getInet r.1.reg r.1.area).toNat]? = some sl ∧ sl.stec = true ∧
        sl.inetRef = bitsAt buff (i + 17) 4) := by
  unfold decodeStecCorr
  refine Post.bind_any fun dtow => Post.bind_any fun _ => Post.bind_any fun _ =>
    Post.bind post_u fun iod hiod => Post.bind post_u fun reg hreg => Post.bind post_u fun area harea =>
    Post.bind_any fun stype => Post.bind_any fun nsat => Post.bind_any fun p => ?_
  simp only
  constructor
  intro r hr
  obtain ⟨lc, h1, h2⟩ := Py.bind_ok.1 hr
  cases h2
  unfold pySet at h1
  split at h1
  · rename_i hlt
    cases h1
    refine ⟨by simp, ?_, ?_, ?_, _, List.getElem?_set_self hlt, rfl, ?_⟩
    · exact congrArg _ hreg
    · exact congrArg _ harea
    · intro k hk
      simp only at hk ⊢
      rw [List.getElem?_set_ne]
      intro e
      apply hk
      rw [← e, Int.toNat_of_nonneg]
      unfold getInet
      rw [if_neg (by omega)]
      have : ∀ (t : List (Int × Int)) (x : Int), (∀ p ∈ t, 0 ≤ p.2) → 0 ≤ x → 0 ≤ offset reg t x := by
        intro t
        induction t with
        | nil => intro x _ hx; exact hx
        | cons p t ih =>
          intro x hp hx
          unfold offset
          split
          · exact hx
          · exact ih _ (fun q hq => hp q (by simp [hq])) (by have := hp p (by simp); omega)
      have := this nareaT 0 (by decide) (by omega)
      omega
    · exact congrArg _ hiod
  · cases h1

/-- So corrections of a defined pair survive the corrections of every other defined pair. -/
theorem pairs_independent (s s' : St) (buff : BitBuf) (i j : Nat) (reg area : Int)
    (h : decodeStecCorr s buff i = .ok (s', j)) (hv : Valid reg area)
    (hm : Valid (bitsAt buff (i + 21) 8) (bitsAt buff (i + 29) 5))
    (hne : ¬ (reg = bitsAt buff (i + 21) 8 ∧ area = bitsAt buff (i + 29) 5)) :
    s'.lc[(getInet reg area).toNat]? = s.lc[(getInet reg area).toNat]? := by
  obtain ⟨_, hr, ha, hk, _⟩ := (other_slots_kept s buff i).out _ h
  simp only at hr ha hk
  apply hk
  intro e
  apply hne
  rw [Int.toNat_of_nonneg (by have := (slot_range reg area hv).1; omega), hr, ha] at e
  exact slot_injective _ _ _ _ hv hm e

/-! ## Content of a correction message -/

open Verif.Sat Verif.Time

/-- bits of one satellite record for message subtype `t` -/
def recLen (t : Nat) : Nat :=
  match t with
  | 0 => 26
  | 1 => 50
  | 2 => 60
  | _ => 76

/-- what the interface document puts in one satellite record: satellite, quality, and the coefficients in
TECU (constant 0.05; 0.02 per degree, 0.02 for the product term, 0.005 for the squares) -/
structure Rec where
  sat : Int
  qi : Nat
  ci : List ℚ

def recAt (b : BitBuf) (t : Nat) (o : Nat) (sys : Sys) : Rec :=
  { sat := prn2sat sys (if sys = .qzs then bitsAt b o 6 + 192 else bitsAt b o 6)
    qi := bitsAt b (o + 6) 6
    ci := [(intAt b (o + 12) 14 : ℚ) / 20,
      if t = 0 then 0 else (intAt b (o + 26) 12 : ℚ) / 50, if t = 0 then 0 else (intAt b (o + 38) 12 : ℚ) / 50,
      if t ≤ 1 then 0 else (intAt b (o + 50) 10 : ℚ) / 50,
      if t ≤ 2 then 0 else (intAt b (o + 60) 8 : ℚ) / 200, if t ≤ 2 then 0 else (intAt b (o + 68) 8 : ℚ) / 200] }

/-- the constellation of every record, from the five counts -/
def systems (n : Nat → Nat) : List Sys :=
  List.replicate (n 0) .gps ++ List.replicate (n 1) .glo ++ List.replicate (n 2) .gal ++ List.replicate (n 3) .bds ++
    List.replicate (n 4) .qzs

/-- the records, back to back -/
def recs (b : BitBuf) (t : Nat) : Nat → List Sys → List Rec
  | _, [] => []
  | o, sys :: l => recAt b t o sys :: recs b t (o + recLen t) l

theorem recs_length (b : BitBuf) (t o : Nat) (l : List Sys) : (recs b t o l).length = l.length := by
  induction l generalizing o with
  | nil => rfl
  | cons a l ih => simp [recs, ih]

/-- the slot after one more record -/
def addRec (t : Nat) (s : Slot) (r : Rec) : Slot :=
  { s with
    qi := Dict.set s.qi r.sat r.qi
    stype := Dict.set s.stype r.sat t
    satN := s.satN ++ [r.sat]
    ci := Dict.set s.ci r.sat r.ci }

theorem stecSat_eq (b : BitBuf) (sys : Sys) (t o : Nat) (s : Slot) (ht : t < 4) (h : o + recLen t ≤ b.length) :
    stecSat b sys t (s, o) = .ok (addRec t s (recAt b t o sys), o + recLen t) := by
  have h4 : t = 0 ∨ t = 1 ∨ t = 2 ∨ t = 3 := by omega
  have hq : ∀ x : Nat, ((if sys = .qzs then x + 192 else x : Nat) : Int) = if sys = .qzs then (x : Int) + 192 else x := by
    intro x; split <;> simp
  rcases h4 with rfl | rfl | rfl | rfl
  · have h : o + 26 ≤ b.length := h
    unfold stecSat
    simp only
    rw [readU_at (by omega), readU_at (by omega), readS_at (by omega)]
    simp [addRec, recAt, bind, Except.bind, pure, Except.pure, recLen]
    ring_nf
  · have h : o + 50 ≤ b.length := h
    unfold stecSat
    simp only
    rw [readU_at (by omega), readU_at (by omega), readS_at (by omega), readS_at (by omega), readS_at (by omega)]
    simp [addRec, recAt, bind, Except.bind, pure, Except.pure, recLen, add_assoc]
    ring_nf
  · have h : o + 60 ≤ b.length := h
    unfold stecSat
    simp only
    rw [readU_at (by omega), readU_at (by omega), readS_at (by omega), readS_at (by omega), readS_at (by omega)]
    simp [addRec, recAt, bind, Except.bind, pure, Except.pure, recLen, add_assoc]
    rw [readS_at (by omega)]
    simp
    ring_nf
  · have h : o + 76 ≤ b.length := h
    unfold stecSat
    simp only
    rw [readU_at (by omega), readU_at (by omega), readS_at (by omega), readS_at (by omega), readS_at (by omega)]
    simp [addRec, recAt, bind, Except.bind, pure, Except.pure, recLen, add_assoc]
    rw [readS_at (by omega)]
    simp only
    rw [readS_at (by omega), readS_at (by omega)]
    simp
    ring_nf

theorem fold_recs (b : BitBuf) (t : Nat) (ht : t < 4) : ∀ (l : List Sys) (s : Slot) (o : Nat),
    o + l.length * recLen t ≤ b.length →
    l.foldlM (fun p sys => stecSat b sys t p) (s, o) =
      .ok ((recs b t o l).foldl (addRec t) s, o + l.length * recLen t)
  | [], s, o, _ => by simp [recs, pure, Except.pure]
  | sys :: l, s, o, h => by
    rw [List.length_cons, Nat.add_mul, one_mul] at h
    rw [List.foldlM_cons, stecSat_eq b sys t o s ht (by omega)]
    show (l.foldlM _ _ : Py _) = _
    rw [fold_recs b t ht l _ _ (by omega)]
    simp only [recs, List.foldl_cons, List.length_cons, Except.ok.injEq, Prod.mk.injEq, true_and]
    ring

theorem fold_replicate {σ : Type} (f : σ → Sys → Py σ) (sys : Sys) (n : Nat) (p : σ) :
    (List.range n).foldlM (fun p _ => f p sys) p = (List.replicate n sys).foldlM f p := by
  have key : ∀ (l : List Nat) (p : σ), l.foldlM (fun p _ => f p sys) p = (List.replicate l.length sys).foldlM f p := by
    intro l
    induction l with
    | nil => intro p; rfl
    | cons a l ih =>
      intro p
      rw [List.foldlM_cons, List.length_cons, List.replicate_succ, List.foldlM_cons]
      congr 1
      funext q
      exact ih q
  rw [key, List.length_range]

theorem nested {σ : Type} (f : σ → Sys → Py σ) (n : Nat → Nat) (p : σ) :
    (List.range 5).foldlM (fun p g => do
      let sys ← pyGet sysT g
      let m ← pyGet ((List.range 5).map n) g
      (List.range m).foldlM (fun p _ => f p sys) p) p = (systems n).foldlM f p := by
  unfold systems
  simp only [List.foldlM_append, ← fold_replicate]
  simp only [show List.range 5 = [0, 1, 2, 3, 4] from rfl, List.foldlM_cons, List.foldlM_nil, List.map_cons, List.map_nil]
  simp only [pyGet, sysT, List.getElem?_cons_zero, List.getElem?_cons_succ, Py.okBind, bind_assoc, bind_pure]

theorem bitsAt_lt (b : BitBuf) (k n : Nat) : bitsAt b k n < 2 ^ n := by
  unfold bitsAt
  refine lt_of_lt_of_le (bitsToNat_lt _) (Nat.pow_le_pow_right (by norm_num) ?_)
  simp

/-- five-bit counts -/
theorem counts_at (b : BitBuf) (i : Nat) (h : i + 25 ≤ b.length) :
    Cssr.readMany b i 5 5 = .ok ((List.range 5).map fun k => bitsAt b (i + 5 * k) 5) := by
  unfold Cssr.readMany
  rw [if_neg (by decide)]
  simp only [show List.range 5 = [0, 1, 2, 3, 4] from rfl, List.mapM_cons, List.mapM_nil, List.map_cons, List.map_nil]
  rw [readU_at (by omega), readU_at (by omega), readU_at (by omega), readU_at (by omega), readU_at (by omega)]
  rfl

theorem addRec_fold (t : Nat) (l : List Rec) (s : Slot) :
    (l.foldl (addRec t) s).satN = s.satN ++ l.map (·.sat) ∧
    (∀ sat, (l.foldl (addRec t) s).ci.get? sat =
      ((l.reverse.find? (·.sat = sat)).map (·.ci)).or (s.ci.get? sat)) ∧
    (∀ sat, (l.foldl (addRec t) s).qi.get? sat =
      ((l.reverse.find? (·.sat = sat)).map (·.qi)).or (s.qi.get? sat)) ∧
    (∀ sat, (l.foldl (addRec t) s).stype.get? sat =
      ((l.reverse.find? (·.sat = sat)).map (fun _ => t)).or (s.stype.get? sat)) := by
  induction l generalizing s with
  | nil => simp
  | cons r l ih =>
    obtain ⟨h1, h2, h3, h4⟩ := ih (addRec t s r)
    refine ⟨?_, ?_, ?_, ?_⟩
    · rw [List.foldl_cons, h1]
      simp [addRec]
    · intro sat
      rw [List.foldl_cons, h2, List.reverse_cons, List.find?_append]
      cases hf : l.reverse.find? (·.sat = sat) with
      | some x => simp
      | none =>
        simp only [addRec, Dict.get?_set, Option.map_none, Option.none_or, List.find?_cons, List.find?_nil]
        by_cases hs : r.sat = sat
        · simp [hs]
        · simp [hs, Ne.symm hs]
    · intro sat
      rw [List.foldl_cons, h3, List.reverse_cons, List.find?_append]
      cases hf : l.reverse.find? (·.sat = sat) with
      | some x => simp
      | none =>
        simp only [addRec, Dict.get?_set, Option.map_none, Option.none_or, List.find?_cons, List.find?_nil]
        by_cases hs : r.sat = sat
        · simp [hs]
        · simp [hs, Ne.symm hs]
    · intro sat
      rw [List.foldl_cons, h4, List.reverse_cons, List.find?_append]
      cases hf : l.reverse.find? (·.sat = sat) with
      | some x => simp
      | none =>
        simp only [addRec, Dict.get?_set, Option.map_none, Option.none_or, List.find?_cons, List.find?_nil]
        by_cases hs : r.sat = sat
        · simp [hs]
        · simp [hs, Ne.symm hs]

/-- **Content**: from a message long enough for the records it announces, the slot it names gets exactly the
satellites of the records in order, and for each satellite the coefficients and quality of its (last)
record, the reference time, and the issue; nothing of the earlier content of the slot is kept. -/
theorem content (s : St) (b : BitBuf) (i : Nat) (hl : s.lc.length = nslot) :
    let t := bitsAt b (i + 34) 2
    let ss := systems fun k => bitsAt b (i + 36 + 5 * k) 5
    let rs := recs b t (i + 61) ss
    i + 61 + ss.length * recLen t ≤ b.length →
    ∃ s' sl, decodeStecCorr s b i = .ok (s', i + 61 + ss.length * recLen t) ∧
      s'.lc[(getInet (bitsAt b (i + 21) 8) (bitsAt b (i + 29) 5)).toNat]? = some sl ∧
      sl.satN = rs.map (·.sat) ∧ sl.nsatN = rs.length ∧
      (∀ sat, sl.ci.get? sat = (rs.reverse.find? (·.sat = sat)).map (·.ci)) ∧
      (∀ sat, sl.qi.get? sat = (rs.reverse.find? (·.sat = sat)).map (·.qi)) ∧
      (∀ sat, sl.stype.get? sat = (rs.reverse.find? (·.sat = sat)).map (fun _ => t)) ∧
      sl.t0 = some (gpst2time s.week (s.tow0 + bitsAt b i 12)) ∧ sl.inetRef = bitsAt b (i + 17) 4 ∧
      s'.week = s.week ∧ s'.tow0 = s.tow0 := by
  intro t ss rs h
  have ht : t < 4 := bitsAt_lt b (i + 34) 2
  have ha : bitsAt b (i + 29) 5 < 32 := bitsAt_lt b (i + 29) 5
  have hall := slot_allocated (bitsAt b (i + 21) 8) _ ha
  rw [← hl] at hall
  obtain ⟨f1, f2, f3, f4⟩ := addRec_fold t rs {}
  have hlen : rs.length = ss.length := recs_length _ _ _ _
  have hsum : ((List.range 5).map fun k => bitsAt b (i + 36 + 5 * k) 5).sum = ss.length := by
    show _ = (systems _).length
    simp only [systems, List.length_append, List.length_replicate, show List.range 5 = [0, 1, 2, 3, 4] from rfl,
      List.map_cons, List.map_nil, List.sum_cons, List.sum_nil]
    omega
  unfold decodeStecCorr
  rw [readU_at (by omega), readU_at (by omega), readU_at (by omega), readU_at (by omega)]
  simp only [Py.okBind]
  rw [readU_at (by omega), readU_at (by omega), readU_at (by omega)]
  simp only [Py.okBind]
  rw [counts_at _ _ (by omega)]
  simp only [Py.okBind]
  rw [show i + 21 + 13 = i + 34 by omega, show i + 21 + 15 = i + 36 by omega, show i + 36 + 25 = i + 61 by omega,
    show i + 21 + 8 = i + 29 by omega]
  rw [nested (fun p sys => stecSat b sys (bitsAt b (i + 34) 2) p) (fun k => bitsAt b (i + 36 + 5 * k) 5),
    fold_recs b _ ht _ _ _ h]
  simp only [Py.okBind]
  unfold pySet
  rw [if_pos hall.2]
  simp only [Py.okBind]
  refine ⟨_, _, rfl, List.getElem?_set_self hall.2, ?_⟩
  refine ⟨by simpa using f1, hsum.trans hlen.symm, ?_, ?_, ?_, rfl, rfl, rfl, rfl⟩
  · intro sat
    have := f2 sat
    simpa using this
  · intro sat
    have := f3 sat
    simpa using this
  · intro sat
    have := f4 sat
    simpa using this

/-! ## The area lookup -/

theorem findArea_some {α} (inside : α → Bool) (l : List (Int × α)) (a : Int)
    (h : findArea inside l = some a) : ∃ p, (a, p) ∈ l ∧ inside p = true := by
  induction l with
  | nil => cases h
  | cons e l ih =>
    obtain ⟨a', p⟩ := e
    unfold findArea at h
    split at h
    · cases h; exact ⟨p, by simp, by assumption⟩
    · obtain ⟨q, hq, hi⟩ := ih h; exact ⟨q, by simp [hq], hi⟩

theorem findArea_none {α} (inside : α → Bool) (l : List (Int × α)) (h : findArea inside l = none) :
    ∀ e ∈ l, inside e.2 = false := by
  induction l with
  | nil => simp
  | cons e l ih =>
    obtain ⟨a', p⟩ := e
    unfold findArea at h
    split at h
    · cases h
    · rename_i hp
      intro e he
      rcases List.mem_cons.1 he with rfl | he
      · simpa using hp
      · exact ih h e he

theorem lookup_fold {α} (inside : α → Bool) (pnt : List (Int × List (Int × α))) (ra : Int × Int) :
    (∃ as p, ((findRegion inside pnt ra).1, as) ∈ pnt ∧ ((findRegion inside pnt ra).2, p) ∈ as ∧
      inside p = true) ∨
    (findRegion inside pnt ra = ra ∧ ∀ e ∈ pnt, ∀ q ∈ e.2, inside q.2 = false) := by
  induction pnt generalizing ra with
  | nil => exact Or.inr ⟨rfl, by simp⟩
  | cons e pnt ih =>
    have hstep : ∀ ra, findRegion inside (e :: pnt) ra = findRegion inside pnt
        (match findArea inside e.2 with | some a => (e.1, a) | none => ra) := fun _ => rfl
    rw [hstep]
    cases hf : findArea inside e.2 with
    | some a =>
      simp only
      rcases ih (e.1, a) with ⟨as, p, h1, h2, h3⟩ | ⟨h1, h2⟩
      · exact Or.inl ⟨as, p, by simp [h1], h2, h3⟩
      · rw [h1]
        obtain ⟨p, hp, hi⟩ := findArea_some inside e.2 a hf
        exact Or.inl ⟨e.2, p, by simp, hp, hi⟩
    | none =>
      simp only
      rcases ih ra with ⟨as, p, h1, h2, h3⟩ | ⟨h1, h2⟩
      · exact Or.inl ⟨as, p, by simp [h1], h2, h3⟩
      · refine Or.inr ⟨h1, ?_⟩
        intro e' he q hq
        rcases List.mem_cons.1 he with rfl | he
        · exact findArea_none inside _ hf q hq
        · exact h2 e' he q hq

/-- The lookup returns the slot of an area that contains the position; it returns -1 exactly when no
area does (region and area numbers in the table are never negative). -/
theorem lookup_sound {α} (inside : α → Bool) (pnt : List (Int × List (Int × α)))
    (hn : ∀ e ∈ pnt, 0 ≤ e.1 ∧ ∀ q ∈ e.2, 0 ≤ q.1) :
    ((findGridIndex inside pnt).2.2 = -1 ↔ ∀ e ∈ pnt, ∀ q ∈ e.2, inside q.2 = false) ∧
    ((findGridIndex inside pnt).2.2 ≠ -1 → ∃ reg as area p, (reg, as) ∈ pnt ∧ (area, p) ∈ as ∧
      inside p = true ∧ (findGridIndex inside pnt).2.2 = getInet reg area) := by
  have key := lookup_fold inside pnt (-1, -1)
  have e : (findGridIndex inside pnt).2.2 = getInet (findRegion inside pnt (-1, -1)).1
    (findRegion inside pnt (-1, -1)).2 := rfl
  rw [e]
  generalize findRegion inside pnt (-1, -1) = ra at *
  obtain ⟨reg, area⟩ := ra
  rcases key with ⟨as, p, h1, h2, h3⟩ | ⟨h1, h2⟩
  · have hne : getInet reg area ≠ -1 := by
      have hr := (hn _ h1).1
      have ha := (hn _ h1).2 _ h2
      simp only at hr ha
      rw [getInet_eq _ _ hr ha]
      split_ifs <;> omega
    refine ⟨⟨fun h => absurd h hne, fun h => ?_⟩, fun _ => ⟨_, as, _, p, h1, h2, h3, rfl⟩⟩
    have := h _ h1 _ h2
    rw [h3] at this; cases this
  · cases h1
    refine ⟨⟨fun _ => h2, fun _ => by decide⟩, fun h => absurd (by decide) h⟩

/-- when regions overlap the last region wins, not the first -/
example : findGridIndex (fun b => b) [(1, [(1, false), (2, true)]), (3, [(4, true)])] = (3, 4, 28) := by
  decide

/-- a correction message for region 2, area 3 without satellites -/
example : (decodeStecCorr {} (natToBits 21 5 ++ natToBits 8 2 ++ natToBits 5 3 ++ natToBits 27 0)).map
    (fun r => (r.1.lc.map (·.stec)).findIdx (· = true)) = .ok 11 := by decide +kernel

/-- region 2, area 3, subtype 1, one GPS satellite (5) with quality 9: constant 2, gradients 3 and -1 -/
def exMsg : BitBuf := natToBits 21 5 ++ natToBits 8 2 ++ natToBits 5 3 ++ natToBits 2 1 ++ natToBits 5 1 ++ natToBits 20 0 ++
  natToBits 6 5 ++ natToBits 6 9 ++ natToBits 14 2 ++ natToBits 12 3 ++ natToBits 12 4095

example : 0 + 61 + (systems fun k => bitsAt exMsg (0 + 36 + 5 * k) 5).length * recLen (bitsAt exMsg (0 + 34) 2) ≤ exMsg.length ∧
    (decodeStecCorr {} exMsg).map (fun r => ((r.1.lc[11]?.map (·.satN)), (r.1.lc[11]?.map (·.ci.get? 5)))) =
      .ok (some [5], some (some [(1 / 10 : ℚ), 3 / 50, -1 / 50, 0, 0, 0])) := by
  constructor <;> decide +kernel

end Verif.C20
