import Verif.Model.Yuma
import Verif.Lemmas.Post
import Mathlib.Algebra.Order.Ring.Rat
import Mathlib.Tactic.Ring
import Mathlib.Tactic.NormNum
import Mathlib.Tactic.Linarith
/-!
# C102 Almanac files
-/

namespace Verif.C102
open Verif.Yuma Verif.Sat Verif.Time

/-! ## Weeks -/

/-- the week found is the last one up to the week of the clock with the right remainder -- of 1023 -/
theorem full_week (wref v : Int) (h0 : 0 ≤ v) (h1 : v < 1024) :
    (fullWeek wref v - v) % 1023 = 0 ∧ fullWeek wref v ≤ wref ∧ wref - 1023 < fullWeek wref v := by
  unfold fullWeek
  dsimp only
  split <;> refine ⟨?_, ?_, ?_⟩ <;> omega

/-- **the week of an almanac**: a file has the last ten bits of the week; after `k` of its overflows the week read is `k` weeks
early (unless the almanac is nearly 20 years old) -/
theorem week_early (wref w : Int) (h0 : 0 ≤ w) (h1 : w ≤ wref) (h2 : wref < w - w / 1024 + 1023) :
    fullWeek wref (w % 1024) = w - w / 1024 := by
  unfold fullWeek
  dsimp only
  split <;> omega

/-- so it is right up to week 1023 -/
theorem week_right (wref w : Int) (h0 : 0 ≤ w) (h1 : w ≤ wref) (h2 : wref < w - w / 1024 + 1023) :
    fullWeek wref (w % 1024) = w ↔ w < 1024 := by
  rw [week_early wref w h0 h1 h2]; omega

/-- **weeks of the XML files**: the remainder of 4 is that of the almanac; the week is right if and only if it is in the same
group of four as the date of issue, otherwise it is wrong by the distance of the groups -/
theorem xml_week (issue : GTime) (w : Int) :
    xmlWeek issue (w % 4) = w + 4 * ((time2gst issue).1 / 4 - w / 4) ∧
    (xmlWeek issue (w % 4) = w ↔ (time2gst issue).1 / 4 = w / 4) := by
  unfold xmlWeek; omega

theorem xml_health : ∀ a < 4, ∀ b < 4, ∀ c < 4, xmlHealth a b c / 16 = a ∧ xmlHealth a b c / 4 % 4 = b ∧ xmlHealth a b c % 4 = c := by
  decide

/-! ## Specification of files -/

/-- the last value of a key in a list of lines -/
def lastF (k : Key) (d : ℚ) (ls : List Ln) : ℚ := ls.foldl (fun d l => if l.key = k then l.f else d) d
def lastN (k : Key) (d : Int) (ls : List Ln) : Int := ls.foldl (fun d l => if l.key = k then l.n else d) d

/-- a satellite of a file: number, lines before the week, week, lines after it -/
structure Blk where
  prn : Int
  pre : List Ln
  week : Int
  post : List Ln

/-- lines with an element, comments, and others: not `ID`, not `week` -/
def Plain (l : Ln) : Prop := l.key ≠ .id ∧ l.key ≠ .week

def lines (b : Blk) : List Ln := { key := .id, n := b.prn } :: (b.pre ++ { key := .week, n := b.week } :: b.post)

/-- the elements of a satellite given by the lines `ls` -/
structure Elem (sys : Sys) (prn : Int) (ls : List Ln) (a : Alm) : Prop where
  sat : a.sat = prn2sat sys prn
  health : a.svh = lastN .health 0 ls
  e : a.e = lastF .ecc 0 ls
  toas : a.toas = lastF .toas 0 ls
  i0 : a.i0 = lastF .incl 0 ls
  rate : a.OMGd = lastF .rate 0 ls
  axis : a.A = lastF .sqrtA 0 ls ^ 2
  node : a.OMG0 = lastF .node 0 ls
  omg : a.omg = lastF .perigee 0 ls
  M0 : a.M0 = lastF .mean 0 ls
  af0 : a.af0 = lastF .af0 0 ls
  af1 : a.af1 = lastF .af1 0 ls

/-- the almanac of a satellite; its time has the seconds as far as they are known at the line of the week -/
structure Is (sys : Sys) (wref : Int) (b : Blk) (a : Alm) : Prop where
  elem : Elem sys b.prn (b.pre ++ b.post) a
  week : a.week = fullWeek wref b.week
  toa : a.toa = toaOf sys (fullWeek wref b.week) (lastF .toas 0 b.pre)

/-! ## Proofs -/

theorem lastF_append (k : Key) (d : ℚ) (ls : List Ln) (l : Ln) : lastF k d (ls ++ [l]) = if l.key = k then l.f else lastF k d ls := by
  simp [lastF]

theorem lastN_append (k : Key) (d : Int) (ls : List Ln) (l : Ln) : lastN k d (ls ++ [l]) = if l.key = k then l.n else lastN k d ls := by
  simp [lastN]

/-- one more line -/
theorem elem_step {sys : Sys} {wref prn : Int} {ls : List Ln} {a : Alm} {l : Ln} (h : Elem sys prn ls a) :
    Elem sys prn (ls ++ [l]) (upd sys wref l a) := by
  obtain ⟨h1, h2, h3, h4, h5, h6, h7, h8, h9, h10, h11, h12⟩ := h
  obtain ⟨k, f, n⟩ := l
  cases k <;> exact ⟨by simp only [upd]; exact h1, by rw [lastN_append]; first | rfl | exact h2,
    by rw [lastF_append]; first | rfl | exact h3, by rw [lastF_append]; first | rfl | exact h4,
    by rw [lastF_append]; first | rfl | exact h5, by rw [lastF_append]; first | rfl | exact h6,
    by rw [lastF_append]; first | rfl | exact h7, by rw [lastF_append]; first | rfl | exact h8,
    by rw [lastF_append]; first | rfl | exact h9, by rw [lastF_append]; first | rfl | exact h10,
    by rw [lastF_append]; first | rfl | exact h11, by rw [lastF_append]; first | rfl | exact h12⟩

theorem upd_week {sys : Sys} {wref : Int} {a : Alm} {l : Ln} (h : l.key ≠ .week) :
    (upd sys wref l a).week = a.week ∧ (upd sys wref l a).toa = a.toa := by
  obtain ⟨k, f, n⟩ := l
  cases k <;> first | exact ⟨rfl, rfl⟩ | exact absurd rfl h

/-- a line that is neither `ID` nor `week` -/
theorem step_plain {sys : Sys} {wref : Int} {d : List Alm} {a : Alm} {f : Bool} {l : Ln} (h : Plain l) :
    step sys wref ⟨d, some a, f⟩ l = .ok ⟨d, some (upd sys wref l a), f⟩ := by
  obtain ⟨k, x, n⟩ := l
  obtain ⟨h1, h2⟩ := h
  cases k <;> first | exact absurd rfl h1 | exact absurd rfl h2 | (simp [step]; rfl) | simp [step, upd]

theorem fold_plain {sys : Sys} {wref prn : Int} {d : List Alm} {f : Bool} : ∀ (ls : List Ln), (∀ l ∈ ls, Plain l) →
    ∀ (done : List Ln) (a : Alm), Elem sys prn done a →
    ∃ a', ls.foldlM (step sys wref) ⟨d, some a, f⟩ = .ok ⟨d, some a', f⟩ ∧ Elem sys prn (done ++ ls) a' ∧ a'.week = a.week ∧ a'.toa = a.toa
  | [], _, done, a, h => ⟨a, rfl, by simpa using h, rfl, rfl⟩
  | l :: ls, hp, done, a, h => by
    obtain ⟨a', h1, h2, h3, h4⟩ := fold_plain ls (fun l h => hp l (.tail _ h)) (done ++ [l]) (upd sys wref l a) (elem_step h)
    obtain ⟨h5, h6⟩ := upd_week (sys := sys) (wref := wref) (a := a) (hp l (.head _)).2
    refine ⟨a', ?_, by simpa using h2, h3.trans h5, h4.trans h6⟩
    rw [List.foldlM_cons, step_plain (hp l (.head _)), Py.okBind]
    exact h1

/-- a satellite of the file adds its almanac -/
theorem blk_ok {sys : Sys} {wref : Int} (b : Blk) (hb : (∀ l ∈ b.pre, Plain l) ∧ ∀ l ∈ b.post, Plain l) (s : St) :
    ∃ a, (lines b).foldlM (step sys wref) s = .ok ⟨s.list, some a, true⟩ ∧ Is sys wref b a := by
  have h0 : Elem sys b.prn [] { sat := prn2sat sys b.prn } := ⟨rfl, rfl, rfl, rfl, rfl, rfl, by simp [lastF], rfl, rfl, rfl, rfl, rfl⟩
  obtain ⟨a, h1, h2, h3, h4⟩ := fold_plain (wref := wref) (d := s.list) (f := false) b.pre hb.1 [] _ h0
  have hw := elem_step (wref := wref) (l := { key := .week, n := b.week }) h2
  -- the line of the week has no element
  have h2' : Elem sys b.prn ([] ++ b.pre) (upd sys wref { key := .week, n := b.week } a) := by
    obtain ⟨g1, g2, g3, g4, g5, g6, g7, g8, g9, g10, g11, g12⟩ := h2
    exact ⟨g1, g2, g3, g4, g5, g6, g7, g8, g9, g10, g11, g12⟩
  obtain ⟨a', h5, h6, h7, h8⟩ := fold_plain (wref := wref) (d := s.list) (f := true) b.post hb.2 _ _ h2'
  refine ⟨a', ?_, ⟨by simpa using h6, h7, ?_⟩⟩
  · rw [lines, List.foldlM_cons]
    change (b.pre ++ { key := .week, n := b.week } :: b.post).foldlM (step sys wref) ⟨s.list, some { sat := prn2sat sys b.prn }, false⟩ = _
    rw [List.foldlM_append, h1, Py.okBind, List.foldlM_cons]
    exact h5
  · rw [h8]
    change toaOf sys (fullWeek wref b.week) a.toas = _
    rw [h2.toas]
    rfl

theorem blks_ok {sys : Sys} {wref : Int} : ∀ (bs : List Blk), (∀ b ∈ bs, (∀ l ∈ b.pre, Plain l) ∧ ∀ l ∈ b.post, Plain l) → ∀ s : St,
    ∃ s' l, (bs.flatMap lines).foldlM (step sys wref) s = .ok s' ∧ s'.list = s.list ++ l ∧ List.Forall₂ (Is sys wref) bs l
  | [], _, s => ⟨s, [], rfl, by simp, .nil⟩
  | b :: bs, h, s => by
    obtain ⟨a, h1, h2⟩ := blk_ok (sys := sys) (wref := wref) b (h b (.head _)) s
    obtain ⟨s', l, h3, h4, h5⟩ := blks_ok (sys := sys) (wref := wref) bs (fun b hb => h b (.tail _ hb)) ⟨s.list, some a, true⟩
    refine ⟨s', a :: l, ?_, ?_, .cons h2 h5⟩
    · rw [List.flatMap_cons, List.foldlM_append, h1, Py.okBind]
      exact h3
    · rw [h4]; simp [St.list]

/-- **a Yuma file**: one almanac for each satellite, in order, with the last value of each element, and the week of `week_early` -/
theorem yuma_file {sys : Sys} {now : GTime} {wref : Int} (hw : weekRef sys now = some wref) (bs : List Blk)
    (h : ∀ b ∈ bs, (∀ l ∈ b.pre, Plain l) ∧ ∀ l ∈ b.post, Plain l) :
    ∃ l, loadyuma sys now (bs.flatMap lines) = .ok l ∧ List.Forall₂ (Is sys wref) bs l := by
  obtain ⟨s', l, h1, h2, h3⟩ := blks_ok (sys := sys) (wref := wref) bs h {}
  refine ⟨l, ?_, h3⟩
  unfold loadyuma
  rw [hw]
  simp only [h1, Py.okBind]
  change (Except.ok s'.list : Py (List Alm)) = _
  rw [h2]
  rfl

/-- **the time of a GPS almanac** of week `w` is `w / 1024` weeks early -/
theorem time_early {now : GTime} {w : Int} {sow : ℚ} (h0 : 0 ≤ w) (h1 : w ≤ (time2gpst now).1)
    (h2 : (time2gpst now).1 < w - w / 1024 + 1023) :
    timediff (gpst2time w sow) (toaOf .gps (fullWeek (time2gpst now).1 (w % 1024)) sow) = 604800 * ((w / 1024 : Int) : ℚ) := by
  rw [week_early _ w h0 h1 h2]
  simp only [toaOf, gpst2time, wk2time, timediff, true_or, if_true]
  push_cast
  ring

/-- the time of the almanac counts the weeks from 6 January 1980 (GPS, QZSS), 22 August 1999 (Galileo) and
1 January 2006 (BeiDou), that is 315964800, 935280000 and 1136073600 seconds after the origin of the clock -/
theorem time_origin (w : Int) {sow : ℚ} (h0 : 0 ≤ sow) (h1 : sow ≤ 604800) {sys : Sys}
    (h : sys = .gps ∨ sys = .qzs ∨ sys = .gal ∨ sys = .bds) :
    timediff (toaOf sys w sow) ⟨0, 0⟩ = 604800 * w + sow +
      (if sys = .gal then 935280000 else if sys = .bds then 1136073600 else 315964800) := by
  have hn : ¬ (sow < -1000000000 ∨ sow > 1000000000) := by
    rintro (h | h) <;> linarith
  have g : (epoch2time gpst0).time = 315964800 := by decide +kernel
  have a : (epoch2time gst0).time = 935280000 := by decide +kernel
  have b : (epoch2time bdt0).time = 1136073600 := by decide +kernel
  rcases h with rfl | rfl | rfl | rfl <;>
    simp only [toaOf, gpst2time, gst2time, bdt2time, wk2time, timediff, hn, g, a, b, if_false, reduceCtorEq, or_false, or_true,
      true_or, if_true] <;> push_cast <;> ring

/-- a satellite without a line of the week is not in the result -/
theorem no_week {sys : Sys} {now : GTime} {wref : Int} (hw : weekRef sys now = some wref) (bs : List Blk)
    (prn : Int) (ls : List Ln) (hl : ∀ l ∈ ls, Plain l) :
    loadyuma sys now ({ key := .id, n := prn } :: (ls ++ bs.flatMap lines)) = loadyuma sys now (bs.flatMap lines) := by
  unfold loadyuma
  rw [hw]
  have h0 : Elem sys prn [] { sat := prn2sat sys prn } := ⟨rfl, rfl, rfl, rfl, rfl, rfl, by simp [lastF], rfl, rfl, rfl, rfl, rfl⟩
  obtain ⟨a, h1, -⟩ := fold_plain (wref := wref) (d := []) (f := false) ls hl [] _ h0
  have e : ({ key := .id, n := prn } :: (ls ++ bs.flatMap lines)).foldlM (step sys wref) {} =
      (bs.flatMap lines).foldlM (step sys wref) ⟨[], some a, false⟩ := by
    rw [List.foldlM_cons]
    change (ls ++ bs.flatMap lines).foldlM (step sys wref) ⟨[], some { sat := prn2sat sys prn }, false⟩ = _
    rw [List.foldlM_append, h1, Py.okBind]
  simp only [e]
  cases bs with
  | nil => rfl
  | cons b bs =>
    rw [List.flatMap_cons, lines, List.cons_append, List.foldlM_cons, List.foldlM_cons]
    rfl

/-- an element before the first `ID` raises -/
theorem no_id {sys : Sys} {now : GTime} {wref : Int} (hw : weekRef sys now = some wref) (l : Ln) (ls : List Ln)
    (h : l.key ≠ .id ∧ l.key ≠ .comment ∧ l.key ≠ .other) : loadyuma sys now (l :: ls) = .error .unboundLocal := by
  obtain ⟨k, f, n⟩ := l
  obtain ⟨h1, h2, h3⟩ := h
  unfold loadyuma
  rw [hw]
  cases k <;> first | exact absurd rfl h1 | exact absurd rfl h2 | exact absurd rfl h3 | rfl

/-- no almanacs of other constellations -/
theorem other_constellations (now : GTime) (ls : List Ln) : ∀ s ∈ ([.glo, .sbs, .irn, .none] : List Sys), loadyuma s now ls = .ok [] := by
  intro s hs
  simp only [List.mem_cons, List.not_mem_nil, or_false] at hs
  rcases hs with rfl | rfl | rfl | rfl <;> rfl

/-! ## Examples -/

/-- a file of two satellites read in November 2026 (week 2445): the week 397 of the file is 2445, the result is 2443 -/
def exFile : List Blk :=
  [⟨1, [{ key := .health, n := 0 }, { key := .ecc, f := 1 / 100 }, { key := .toas, f := 405504 }, { key := .sqrtA, f := 5153 }], 397, []⟩,
   ⟨3, [{ key := .toas, f := 405504 }, { key := .comment }], 397, [{ key := .af0, f := 1 / 1000 }]⟩]

example : (loadyuma .gps (gpst2time 2445 86400) (exFile.flatMap lines)).toOption.map (·.map fun a => (a.sat, a.week, a.A, a.af0)) =
    some [(1, 2443, 5153 ^ 2, 0), (3, 2443, 0, 1 / 1000)] := by decide +kernel

example : ∀ b ∈ exFile, (∀ l ∈ b.pre, Plain l) ∧ ∀ l ∈ b.post, Plain l := by
  simp [exFile, Plain]

example : (0 : Int) ≤ 2445 ∧ (2445 : Int) ≤ (time2gpst (gpst2time 2445 86400)).1 ∧
    (time2gpst (gpst2time 2445 86400)).1 < 2445 - 2445 / 1024 + 1023 := by decide +kernel

example : (["ID", "SQRT(A)  (m 1/2)", "Right Ascen at TOA(rad)", "******** Week 397 almanac", "\n"].map keyOf) =
    [.id, .sqrtA, .node, .comment, .other] := by decide +kernel

end Verif.C102
