import Verif.Model.Rnxnav
import Verif.Props.C03
import Verif.Props.C05
import Verif.Lemmas.Time
/-!
C58: what comes back when broadcast ephemerides are written to a navigation file and read again.
-/

namespace Verif.C58
open Verif.Rnxnav Verif.Time Verif.Sat

/-! ### Specification -/

/-- what is kept for every message: satellite, clock and orbit parameters, reference time of the clock
(whole seconds) -/
def base (e : Eph) : Eph := { sat := e.sat, mode := e.mode, toc := ⟨e.toc.time, 0⟩, clk := e.clk, orb := e.orb }

/-- times in GPS week `w`, `tow` the time of transmission in its own week -/
def gpsTimes (w : Int) (tow : ℚ) (b : Eph) : Eph :=
  { b with week := w, toe := gpst2time w b.toes, tot := gpst2time w tow }

/-- times in BeiDou week `w` -/
def bdsTimes (w : Int) (tow : ℚ) (b : Eph) : Eph :=
  { b with week := w, toe := bdt2gpst (bdt2time w b.toes), tot := bdt2gpst (bdt2time w tow) }

/-- bit `k` of a number -/
def bitI (a : Int) (k : Nat) : Bool := a / 2 ^ k % 2 = 1

/-- the ephemeris read from the record of `e` -/
def back (sys : Sys) (e : Eph) : Eph :=
  let b := base e
  match sys with
  | .gps =>
    if e.mode = 0 then gpsTimes e.week (time2gpst e.tot).2 { b with
      iode := e.iode, iodc := e.iodc, toes := e.toes, code := e.code, sva := (truncQ e.sva : Int), svh := e.svh,
      tgd := e.tgd, fit := e.fit }
    else gpsTimes (time2gpst b.toc).1 (truncQ (time2gpst e.tot).2 : Int) { b with
      toes := (time2gpst b.toc).2, tops := e.tops, Adot := e.Adot, delnd := e.delnd, ura0 := e.ura0, ura1 := e.ura1,
      ura2 := e.ura2, ura3 := e.ura3, sva := e.ura3, svh := e.svh, tgd := e.tgd, isc0 := e.isc0, isc1 := e.isc1,
      isc2 := e.isc2, isc3 := e.isc3, isc4 := if e.mode = 2 then e.isc4 else 0, isc5 := if e.mode = 2 then e.isc5 else 0,
      wnop := e.wnop, integ := e.integ }
  | .qzs =>
    if e.mode = 0 then gpsTimes e.week (time2gpst e.tot).2 { b with
      iode := e.iode, iodc := e.iodc, toes := e.toes, code := andI e.svh 17, sva := (truncQ e.sva : Int),
      svh := andI e.svh 238, tgd := e.tgd, fit := e.fit }
    else gpsTimes (time2gpst b.toc).1 (truncQ (time2gpst e.tot).2 : Int) { b with
      toes := (time2gpst b.toc).2, tops := e.tops, Adot := e.Adot, delnd := e.delnd, ura0 := e.ura0, ura1 := e.ura1,
      ura2 := e.ura2, ura3 := e.ura3, sva := e.ura3, code := andI e.svh 17, svh := andI e.svh 238, tgd := e.tgd,
      isc0 := e.isc0, isc1 := e.isc1, isc2 := e.isc2, isc3 := e.isc3, isc4 := if e.mode = 2 then e.isc4 else 0,
      isc5 := if e.mode = 2 then e.isc5 else 0, wnop := e.wnop, integ := e.integ }
  | .gal => gpsTimes e.week (time2gpst e.tot).2 { b with
      iode := e.iode, iodc := e.iode, toes := e.toes, code := e.code, sva := (truncQ e.sva : Int), svh := e.svh,
      tgd := if bitI e.code 9 then e.tgdb else e.tgd, tgdb := if bitI e.code 9 then e.tgd else e.tgdb }
  | .bds =>
    if e.mode = 0 then bdsTimes e.week (time2bdt e.tot).2 { b with
      iode := e.iode, iodc := e.iodc, toes := e.toes, sva := (truncQ e.sva : Int), svh := e.svh, tgd := e.tgd,
      tgdb := e.tgdb }
    else bdsTimes (time2bdt ⟨e.toc.time - 14, 0⟩).1 (time2bdt e.tot).2 { b with
      toes := e.toes, Adot := e.Adot, delnd := e.delnd, sattype := e.sattype, tops := (truncQ e.tops : Int),
      sis0 := e.sis0, sis1 := e.sis1, sis2 := e.sis2, sis3 := e.sis3, sismai := e.sismai, svh := e.svh, integ := e.integ,
      isc0 := if e.mode = 1 then e.isc0 else 0, isc1 := if e.mode = 2 then e.isc1 else 0,
      tgd := if e.mode = 3 then 0 else e.tgd, tgdb := if e.mode = 3 then e.tgd else e.tgdb,
      iodc := if e.mode = 3 then 0 else e.iodc, iode := if e.mode = 3 then 0 else e.iode }
  | .irn =>
    if e.mode = 0 then gpsTimes e.week (time2gpst e.tot).2 { b with
      iode := e.iode, iodc := e.iode, toes := e.toes, sva := e.sva, svh := e.svh, tgd := (truncQ e.tgd : Int) }
    else gpsTimes 0 (time2gpst e.tot).2 { b with
      Adot := e.Adot, delnd := e.delnd, integ := e.integ, uraS := e.uraS, svh := e.svh, tgd := (truncQ e.tgd : Int),
      isc5 := e.isc5, isc4 := e.isc4 }
  | _ => b

/-- the messages of each constellation -/
def ModeOk (sys : Sys) (e : Eph) : Prop :=
  match sys with
  | .gps | .qzs => e.mode ≤ 2
  | .gal => e.mode ≤ 1
  | .bds => e.mode ≤ 3
  | .irn => e.mode = 0 ∨ (e.mode = 2 ∧ (e.integ = 0 ∨ e.integ = 1))
  | _ => False

/-- an ephemeris the writer has a message for, with a clock reference time before 2100 -/
structure Writable (e : Eph) : Prop where
  sat1 : 1 ≤ e.sat
  sat2 : e.sat ≤ 233
  modes : ModeOk (sat2prn e.sat).1 e
  t0 : 14 ≤ e.toc.time
  t1 : e.toc.time < C03.dayNumber 2100 1 1 * 86400
  s0 : 0 ≤ e.toc.sec
  s1 : e.toc.sec < 1

/-! ### Proof -/

theorem truncQ_int (i : Int) : truncQ (i : ℚ) = i := by
  unfold truncQ
  simp

theorem truncQ_zero : truncQ 0 = 0 := by simpa using truncQ_int 0

theorem truncQ_one : truncQ 1 = 1 := by simpa using truncQ_int 1

theorem fi_none : fi none = 0 := by
  unfold fi flt
  exact truncQ_zero

theorem fi_some (q : ℚ) : fi (some q) = truncQ q := rfl

theorem andI_one (a : Int) : (andI a 1 = 1) ↔ a % 2 = 1 := by
  unfold andI
  rw [Nat.and_one_is_mod]
  have : Int.emod a (2 ^ 64) = a % 18446744073709551616 := rfl
  rw [this]
  omega

theorem bit9 (c : Int) : (andI (c / 512) 1 = 1) ↔ bitI c 9 = true := by
  rw [andI_one]
  unfold bitI
  simp

/-- the text of a satellite -/
def idOk (sat : Int) : Bool :=
  match sat2id sat with
  | some (c :: d) => (decide (char2sys c = (sat2prn sat).1)) && (match pyInt (d.take 2) with
    | .ok n => decide ((sat2prn sat).1 = .sbs ∨
        prn2sat (sat2prn sat).1 (if (sat2prn sat).1 = .qzs then n + 192 else n) = sat)
    | .error _ => false)
  | _ => false

theorem idOk_all : ∀ k ∈ List.range 233, idOk (k + 1 : Nat) = true := by decide +kernel

theorem id_facts {sat : Int} (h1 : 1 ≤ sat) (h2 : sat ≤ 233) (hs : (sat2prn sat).1 ≠ .sbs) :
    ∃ c d n, sat2id sat = some (c :: d) ∧ char2sys c = (sat2prn sat).1 ∧ pyInt (d.take 2) = .ok n ∧
      prn2sat (sat2prn sat).1 (if (sat2prn sat).1 = .qzs then n + 192 else n) = sat := by
  have h := idOk_all (sat - 1).toNat (by rw [List.mem_range]; omega)
  rw [show (((sat - 1).toNat + 1 : Nat) : Int) = sat by omega] at h
  unfold idOk at h
  cases e : sat2id sat with
  | none => rw [e] at h; simp at h
  | some l =>
    rw [e] at h
    cases l with
    | nil => simp at h
    | cons c d =>
      simp only [Bool.and_eq_true, decide_eq_true_eq] at h
      obtain ⟨hc, h⟩ := h
      cases e' : pyInt (d.take 2) with
      | error _ => rw [e'] at h; simp at h
      | ok n =>
        rw [e'] at h
        simp only [decide_eq_true_eq] at h
        exact ⟨c, d, n, rfl, hc, e', h.resolve_left hs⟩

/-- the written date read again -/
theorem date_back {t : GTime} (h0 : 0 ≤ t.time) (h1 : t.time < C03.dayNumber 2100 1 1 * 86400) (hs0 : 0 ≤ t.sec)
    (hs1 : t.sec < 1) :
    epoch2time { time2epoch t with sec := (truncQ (time2epoch t).sec : Int) } = ⟨t.time, 0⟩ := by
  have e : ({ time2epoch t with sec := (truncQ (time2epoch t).sec : Int) } : Epoch) = time2epoch ⟨t.time, 0⟩ := by
    have hsec : truncQ (time2epoch t).sec = (t.time - t.time.tdiv 86400 * 86400).fmod 60 := by
      show truncQ ((((t.time - t.time.tdiv 86400 * 86400).fmod 60 : Int) : ℚ) + t.sec) = _
      have hp : (0 : Int) ≤ (t.time - t.time.tdiv 86400 * 86400).fmod 60 := Int.fmod_nonneg_of_pos _ (by norm_num)
      have hp' : (0 : ℚ) ≤ (((t.time - t.time.tdiv 86400 * 86400).fmod 60 : Int) : ℚ) := by exact_mod_cast hp
      unfold truncQ
      rw [if_pos (by linarith), Int.floor_eq_iff]
      constructor <;> linarith
    rw [hsec]
    unfold time2epoch
    simp
  rw [e]
  exact (C03.epoch2time_time2epoch ⟨t.time, 0⟩ h0 h1 (le_refl _) (by norm_num)).2

theorem bdt_shift {t : GTime} (h0 : 0 ≤ t.sec) (h1 : t.sec < 1) : gpst2bdt t = ⟨t.time - 14, t.sec⟩ := by
  refine ext_tot (norm_timeadd _ _) ⟨h0, h1⟩ ?_
  unfold gpst2bdt
  rw [tot_timeadd]
  unfold GTime.tot
  push_cast
  ring

theorem bdt_back (k : Int) : bdt2gpst ⟨k - 14, 0⟩ = ⟨k, 0⟩ := by
  refine ext_tot (norm_timeadd _ _) ⟨le_refl _, by norm_num⟩ ?_
  unfold bdt2gpst
  rw [tot_timeadd]
  unfold GTime.tot
  push_cast
  ring

theorem fi_int (i : Int) : fi (some (i : ℚ)) = i := by
  rw [fi_some, truncQ_int]

/-- reading the lines after the epoch line -/
theorem body {sys : Sys} {prn : Int} {e : Eph} {id : List Char} {n : Int} {ep : Epoch}
    (hn : pyInt (id.tail.take 2) = .ok n) (hs : prn2sat sys (if sys = .qzs then n + 192 else n) = e.sat)
    (ht : epoch2time ep = ⟨if sys = .bds then e.toc.time - 14 else e.toc.time, 0⟩)
    (hm : ModeOk sys e) (rest : List Line) :
    ∃ lbl v1 v2, label sys prn e = some (lbl, v1, v2) ∧ modeOf lbl = e.mode ∧
      readEph sys e.mode id ep e.clk.af0 e.clk.af1 e.clk.af2
        ((common e id lbl ep v1 v2).drop 2 ++
          tail sys e (if sys = .bds then (time2bdt e.tot).2 else (time2gpst e.tot).2) ++ rest) =
        .ok (back sys e, rest) := by
  cases sys with
  | gps =>
    simp only [ModeOk, reduceCtorEq, if_false] at hm hs ht ⊢
    have : e.mode = 0 ∨ e.mode = 1 ∨ e.mode = 2 := by omega
    rcases this with hm | hm | hm
    · refine ⟨.lnav, _, _, by rw [label, if_pos hm], by rw [hm]; rfl, ?_⟩
      unfold readEph
      rw [hn, ht]
      simp [common, tail, readOrbit, readHealth, readTail, readl, finish, flt, fi_some, fi_none, truncQ_int, truncQ_zero, truncQ_one, back, base, gpsTimes, hm, bind, Except.bind, hs]
    · refine ⟨.cnav, _, _, by rw [label, if_neg (by omega), if_pos hm], by rw [hm]; rfl, ?_⟩
      unfold readEph
      rw [hn, ht]
      simp [common, tail, readOrbit, readHealth, readTail, readl, finish, flt, fi_some, fi_none, truncQ_int, truncQ_zero, truncQ_one, back, base, gpsTimes, hm, bind, Except.bind, hs]
    · refine ⟨.cnv2, _, _, by rw [label, if_neg (by omega), if_neg (by omega)], by rw [hm]; rfl, ?_⟩
      unfold readEph
      rw [hn, ht]
      simp [common, tail, readOrbit, readHealth, readTail, readl, finish, flt, fi_some, fi_none, truncQ_int, truncQ_zero, truncQ_one, back, base, gpsTimes, hm, bind, Except.bind, hs]
  | qzs =>
    simp only [ModeOk, reduceCtorEq, if_false, if_true] at hm hs ht ⊢
    have : e.mode = 0 ∨ e.mode = 1 ∨ e.mode = 2 := by omega
    rcases this with hm | hm | hm
    · refine ⟨.lnav, _, _, by rw [label, if_pos hm], by rw [hm]; rfl, ?_⟩
      unfold readEph
      rw [hn, ht]
      simp [common, tail, readOrbit, readHealth, readTail, readl, finish, flt, fi_some, fi_none, truncQ_int, truncQ_zero, truncQ_one, back, base, gpsTimes, hm, bind, Except.bind, hs]
    · refine ⟨.cnav, _, _, by rw [label, if_neg (by omega), if_pos hm], by rw [hm]; rfl, ?_⟩
      unfold readEph
      rw [hn, ht]
      simp [common, tail, readOrbit, readHealth, readTail, readl, finish, flt, fi_some, fi_none, truncQ_int, truncQ_zero, truncQ_one, back, base, gpsTimes, hm, bind, Except.bind, hs]
    · refine ⟨.cnv2, _, _, by rw [label, if_neg (by omega), if_neg (by omega)], by rw [hm]; rfl, ?_⟩
      unfold readEph
      rw [hn, ht]
      simp [common, tail, readOrbit, readHealth, readTail, readl, finish, flt, fi_some, fi_none, truncQ_int, truncQ_zero, truncQ_one, back, base, gpsTimes, hm, bind, Except.bind, hs]
  | gal =>
    simp only [ModeOk, reduceCtorEq, if_false] at hm hs ht ⊢
    have : e.mode = 0 ∨ e.mode = 1 := by omega
    rcases this with hm | hm
    · refine ⟨.inav, _, _, by rw [label, if_pos hm], by rw [hm]; rfl, ?_⟩
      unfold readEph
      rw [hn, ht]
      by_cases h9 : bitI e.code 9 = true
      · have h9' := (bit9 e.code).2 h9
        simp [common, tail, readOrbit, readHealth, readTail, readl, finish, flt, fi_some, fi_none, truncQ_int, truncQ_zero, truncQ_one, back, base, gpsTimes, hm, bind, Except.bind, hs, h9, h9']
      · have h9' : ¬(andI (e.code / 512) 1 = 1) := fun h => h9 ((bit9 e.code).1 h)
        simp [common, tail, readOrbit, readHealth, readTail, readl, finish, flt, fi_some, fi_none, truncQ_int, truncQ_zero, truncQ_one, back, base, gpsTimes, hm, bind, Except.bind, hs, h9, h9']
    · refine ⟨.fnav, _, _, by rw [label, if_neg (by omega)], by rw [hm]; rfl, ?_⟩
      unfold readEph
      rw [hn, ht]
      by_cases h9 : bitI e.code 9 = true
      · have h9' := (bit9 e.code).2 h9
        simp [common, tail, readOrbit, readHealth, readTail, readl, finish, flt, fi_some, fi_none, truncQ_int, truncQ_zero, truncQ_one, back, base, gpsTimes, hm, bind, Except.bind, hs, h9, h9']
      · have h9' : ¬(andI (e.code / 512) 1 = 1) := fun h => h9 ((bit9 e.code).1 h)
        simp [common, tail, readOrbit, readHealth, readTail, readl, finish, flt, fi_some, fi_none, truncQ_int, truncQ_zero, truncQ_one, back, base, gpsTimes, hm, bind, Except.bind, hs, h9, h9']
  | bds =>
    simp only [ModeOk, reduceCtorEq, if_false, if_true] at hm hs ht ⊢
    have : e.mode = 0 ∨ e.mode = 1 ∨ e.mode = 2 ∨ e.mode = 3 := by omega
    rcases this with hm | hm | hm | hm
    · refine ⟨_, _, _, by rw [label, if_pos hm], by rw [hm]; split <;> rfl, ?_⟩
      unfold readEph
      rw [hn, ht]
      simp [common, tail, readOrbit, readHealth, readTail, readl, finish, flt, fi_some, fi_none, truncQ_int, truncQ_zero, truncQ_one, back, base, bdsTimes, hm, bind, Except.bind, hs, bdt_back]
    · refine ⟨.cnv1, _, _, by rw [label, if_neg (by omega), if_pos hm], by rw [hm]; rfl, ?_⟩
      unfold readEph
      rw [hn, ht]
      simp [common, tail, readOrbit, readHealth, readTail, readl, finish, flt, fi_some, fi_none, truncQ_int, truncQ_zero, truncQ_one, back, base, bdsTimes, hm, bind, Except.bind, hs, bdt_back]
    · refine ⟨.cnv2, _, _, by rw [label, if_neg (by omega), if_neg (by omega), if_pos hm], by rw [hm]; rfl, ?_⟩
      unfold readEph
      rw [hn, ht]
      simp [common, tail, readOrbit, readHealth, readTail, readl, finish, flt, fi_some, fi_none, truncQ_int, truncQ_zero, truncQ_one, back, base, bdsTimes, hm, bind, Except.bind, hs, bdt_back]
    · refine ⟨.cnv3, _, _, by rw [label, if_neg (by omega), if_neg (by omega), if_neg (by omega), if_pos hm], by rw [hm]; rfl, ?_⟩
      unfold readEph
      rw [hn, ht]
      simp [common, tail, readOrbit, readHealth, readTail, readl, finish, flt, fi_some, fi_none, truncQ_int, truncQ_zero, truncQ_one, back, base, bdsTimes, hm, bind, Except.bind, hs, bdt_back]
  | irn =>
    simp only [ModeOk, reduceCtorEq, if_false] at hm hs ht ⊢
    rcases hm with hm | ⟨hm, hi | hi⟩
    · refine ⟨.lnav, _, _, by rw [label, if_pos hm], by rw [hm]; rfl, ?_⟩
      unfold readEph
      rw [hn, ht]
      simp [common, tail, readOrbit, readHealth, readTail, readl, finish, flt, fi_some, fi_none, truncQ_int, truncQ_zero, truncQ_one, back, base, gpsTimes, hm, bind, Except.bind, hs]
    · refine ⟨.l1nv, _, _, by rw [label, if_neg (by omega)], by rw [hm]; rfl, ?_⟩
      unfold readEph
      rw [hn, ht]
      simp [common, tail, readOrbit, readHealth, readTail, readl, finish, flt, fi_some, fi_none, truncQ_int, truncQ_zero, truncQ_one, back, base, gpsTimes, hm, hi, bind, Except.bind, hs]
    · refine ⟨.l1nv, _, _, by rw [label, if_neg (by omega)], by rw [hm]; rfl, ?_⟩
      unfold readEph
      rw [hn, ht]
      simp [common, tail, readOrbit, readHealth, readTail, readl, finish, flt, fi_some, fi_none, truncQ_int, truncQ_zero, truncQ_one, back, base, gpsTimes, hm, hi, bind, Except.bind, hs]
  | _ => exact hm.elim

/-- one record: label, epoch line, and the ephemeris read from the rest -/
theorem record {e : Eph} (hw : Writable e) (rest : List Line) :
    ∃ lbl id ep r, write e ++ rest = .eph lbl :: .epoch id ep e.clk.af0 e.clk.af1 e.clk.af2 :: r ∧
      char2sys (id.headD ' ') = (sat2prn e.sat).1 ∧ modeOf lbl = e.mode ∧
      readEph (sat2prn e.sat).1 e.mode id ep e.clk.af0 e.clk.af1 e.clk.af2 r = .ok (back (sat2prn e.sat).1 e, rest) := by
  have hns : (sat2prn e.sat).1 ≠ .sbs := by
    intro h
    have := hw.modes
    rw [h] at this
    exact this
  obtain ⟨c, d, n, hid, hc, hp, hsat⟩ := id_facts hw.sat1 hw.sat2 hns
  have hw0 := hw.t0
  have hw1 := hw.t1
  obtain ⟨sys, prn, hsp⟩ : ∃ sys prn, sat2prn e.sat = (sys, prn) := ⟨_, _, rfl⟩
  have hm := hw.modes
  rw [hsp] at hm hsat hc hns ⊢
  simp only at hm hsat hc hns ⊢
  have ht : epoch2time { (if sys = .bds then time2epoch (gpst2bdt e.toc) else time2epoch e.toc) with
      sec := (truncQ (if sys = .bds then time2epoch (gpst2bdt e.toc) else time2epoch e.toc).sec : Int) } =
      ⟨if sys = .bds then e.toc.time - 14 else e.toc.time, 0⟩ := by
    by_cases hb : sys = .bds
    · simp only [if_pos hb]
      rw [bdt_shift hw.s0 hw.s1]
      exact date_back (t := ⟨e.toc.time - 14, e.toc.sec⟩) (by simp only; omega) (by simp only; omega) hw.s0 hw.s1
    · simp only [if_neg hb]
      exact date_back (by omega) hw1 hw.s0 hw.s1
  obtain ⟨lbl, v1, v2, hl, hmo, hr⟩ := body (prn := prn) (e := e) (id := c :: d) hp hsat ht hm rest
  refine ⟨lbl, c :: d, _, _, ?_, hc, hmo, hr⟩
  unfold write
  simp only [hid, hsp, hl]
  simp [common]

theorem loop_record {e : Eph} (hw : Writable e) (rest : List Line) (fuel m : Nat) (acc : List Eph) :
    readLoop (fuel + 1) (write e ++ rest) m acc = readLoop fuel rest e.mode (acc ++ [back (sat2prn e.sat).1 e]) := by
  obtain ⟨lbl, id, ep, r, h1, h2, h3, h4⟩ := record hw rest
  rw [h1]
  conv_lhs => unfold readLoop
  simp only
  rw [h2, h3, h4, if_pos]
  have hm := hw.modes
  cases h : (sat2prn e.sat).1 <;> rw [h] at hm <;> simp [ModeOk] at hm ⊢

theorem loop_all (es : List Eph) (h : ∀ e ∈ es, Writable e) : ∀ fuel m acc, es.length ≤ fuel →
    readLoop fuel (es.flatMap write) m acc = .ok (acc ++ es.map (fun e => back (sat2prn e.sat).1 e)) := by
  induction es with
  | nil =>
    intro fuel m acc _
    cases fuel <;> simp [readLoop]
  | cons e es ih =>
    intro fuel m acc hf
    obtain ⟨f, rfl⟩ : ∃ f, fuel = f + 1 := ⟨fuel - 1, by simp at hf; omega⟩
    rw [List.flatMap_cons, loop_record (h e (by simp)), ih (fun x hx => h x (by simp [hx])) _ _ _ (by simpa using hf)]
    simp

theorem write_length (es : List Eph) (h : ∀ e ∈ es, Writable e) : es.length ≤ (es.flatMap write).length := by
  induction es with
  | nil => simp
  | cons e es ih =>
    obtain ⟨lbl, id, ep, r, h1, _⟩ := record (h e (by simp)) []
    have := ih (fun x hx => h x (by simp [hx]))
    rw [List.append_nil] at h1
    rw [List.flatMap_cons, h1]
    simp only [List.length_cons, List.length_append]
    omega

/-! ### Theorems -/

/-- **C58.1** A file written from any list of ephemerides is read without error, one ephemeris comes back
for each, in the same order, and each is the one `back` describes. -/
theorem file_back (es : List Eph) (h : ∀ e ∈ es, Writable e) :
    readNav (es.flatMap write) = .ok (es.map fun e => back (sat2prn e.sat).1 e) := by
  unfold readNav
  rw [loop_all es h _ _ _ (write_length es h)]
  simp

/-- a record without its first line (the one naming the message) is read with the type in force -/
theorem loop_bare {e : Eph} (hw : Writable e) (rest : List Line) (fuel : Nat) (acc : List Eph) :
    readLoop (fuel + 1) ((write e).tail ++ rest) e.mode acc = readLoop fuel rest e.mode (acc ++ [back (sat2prn e.sat).1 e]) := by
  obtain ⟨lbl, id, ep, r, h1, h2, h3, h4⟩ := record hw rest
  have h1' : (write e).tail ++ rest = (write e ++ rest).tail := by
    cases hc : write e with
    | nil =>
      obtain ⟨_, _, _, _, h1', _⟩ := record hw []
      rw [hc] at h1'
      cases h1'
    | cons a l => rfl
  rw [h1', h1, List.tail_cons]
  conv_lhs => unfold readLoop
  simp only
  rw [h2, h4, if_pos]
  have hm := hw.modes
  cases h : (sat2prn e.sat).1 <;> rw [h] at hm <;> simp [ModeOk] at hm ⊢

/-- **Records without type**: a leading record without the line naming its message is read as the
legacy message of its constellation. -/
theorem unnamed_first (e : Eph) (he : Writable e) (hm : e.mode = 0) (es : List Eph) (h : ∀ e ∈ es, Writable e) :
    readNav ((write e).tail ++ es.flatMap write) = .ok ((e :: es).map fun e => back (sat2prn e.sat).1 e) := by
  unfold readNav
  have hl := write_length es h
  have h2 : 2 ≤ (write e).length := by
    obtain ⟨lbl, id, ep, r, h1, _⟩ := record he []
    rw [List.append_nil] at h1
    rw [h1]
    simp
  obtain ⟨f, hf⟩ : ∃ f, ((write e).tail ++ es.flatMap write).length = f + 1 :=
    ⟨((write e).tail ++ es.flatMap write).length - 1, by simp only [List.length_append, List.length_tail]; omega⟩
  rw [hf]
  have := loop_bare he (es.flatMap write) f []
  rw [hm] at this
  rw [this, loop_all es h _ _ _ (by simp only [List.length_append, List.length_tail] at hf; omega)]
  simp

/-- what an ephemeris has in common with the one read back, whatever the constellation and message -/
def SameOrbit (a b : Eph) : Prop :=
  a.sat = b.sat ∧ a.mode = b.mode ∧ a.toc.time = b.toc.time ∧ a.clk = b.clk ∧ a.orb = b.orb

/-- **C58.2** Satellite, message type, clock, orbit and clock reference time survive. -/
theorem orbit_kept (es : List Eph) (h : ∀ e ∈ es, Writable e) :
    ∃ r, readNav (es.flatMap write) = .ok r ∧ List.Forall₂ SameOrbit es r := by
  refine ⟨_, file_back es h, ?_⟩
  rw [List.forall₂_map_right_iff]
  clear h
  induction es with
  | nil => exact .nil
  | cons e es ih =>
    refine .cons ?_ ih
    unfold SameOrbit back
    cases (sat2prn e.sat).1 <;> simp only <;> (try split_ifs) <;> refine ⟨rfl, rfl, rfl, rfl, rfl⟩

theorem wk_shift (t0 : Epoch) (w k : Int) (tow : ℚ) :
    wk2time t0 (w + k) tow = ⟨(wk2time t0 w tow).time + 604800 * k, (wk2time t0 w tow).sec⟩ := by
  unfold wk2time
  simp only [GTime.mk.injEq, and_true]
  omega

/-- the second of the week of `t` in week `w` -/
theorem gps_week (t : GTime) (h0 : 0 ≤ t.sec) (h1 : t.sec < 1) (h : 315964800 ≤ t.time) (w : Int) :
    gpst2time w (time2gpst t).2 = ⟨t.time + 604800 * (w - (time2gpst t).1), t.sec⟩ := by
  have e := (C05.time_roundtrip_eq t h0 h1).1 h
  have := wk_shift gpst0 (time2gpst t).1 (w - (time2gpst t).1) (time2gpst t).2
  rw [show (time2gpst t).1 + (w - (time2gpst t).1) = w by ring] at this
  unfold gpst2time at e ⊢
  rw [this, e]

theorem bds_week (t : GTime) (h0 : 0 ≤ t.sec) (h1 : t.sec < 1) (h : 1136073600 ≤ t.time) (w : Int) :
    bdt2time w (time2bdt t).2 = ⟨t.time + 604800 * (w - (time2bdt t).1), t.sec⟩ := by
  have e := (C05.time_roundtrip_eq t h0 h1).2.2 h
  have := wk_shift bdt0 (time2bdt t).1 (w - (time2bdt t).1) (time2bdt t).2
  rw [show (time2bdt t).1 + (w - (time2bdt t).1) = w by ring] at this
  unfold bdt2time at e ⊢
  rw [this, e]

/-- **C58.3** GPS and Galileo legacy messages (and NavIC on L5): issue of data, week, reference times, and
health are kept; the time of ephemeris too when it is the one of its week and second. -/
theorem legacy_kept {sys : Sys} {e : Eph} (hs : sys = .gps ∨ sys = .gal ∨ sys = .irn) (hm : e.mode = 0) :
    (back sys e).iode = e.iode ∧ (back sys e).week = e.week ∧ (back sys e).toes = e.toes ∧ (back sys e).svh = e.svh ∧
      (sys = .gps → (back sys e).iodc = e.iodc ∧ (back sys e).fit = e.fit ∧ (back sys e).tgd = e.tgd) ∧
      (sys ≠ .irn → (back sys e).code = e.code) ∧
      (e.toe = gpst2time e.week e.toes → (back sys e).toe = e.toe) := by
  rcases hs with rfl | rfl | rfl <;>
    refine ⟨by simp [back, hm, gpsTimes], by simp [back, hm, gpsTimes], by simp [back, hm, gpsTimes], by simp [back, hm, gpsTimes],
      by simp [back, hm, gpsTimes], by simp [back, hm, gpsTimes], fun h => ?_⟩ <;> rw [h] <;> simp [back, hm, gpsTimes]

/-- **C58.4** For these messages the time of transmission is kept exactly when it falls in the week of the
ephemeris; otherwise it is off by whole weeks. -/
theorem tot_kept_iff {sys : Sys} {e : Eph} (hs : sys = .gps ∨ sys = .gal ∨ sys = .irn) (hm : e.mode = 0)
    (h0 : 0 ≤ e.tot.sec) (h1 : e.tot.sec < 1) (h : 315964800 ≤ e.tot.time) :
    (back sys e).tot = ⟨e.tot.time + 604800 * (e.week - (time2gpst e.tot).1), e.tot.sec⟩ ∧
      ((back sys e).tot = e.tot ↔ (time2gpst e.tot).1 = e.week) := by
  have key : (back sys e).tot = ⟨e.tot.time + 604800 * (e.week - (time2gpst e.tot).1), e.tot.sec⟩ := by
    rcases hs with rfl | rfl | rfl <;> simp only [back, hm, if_true, gpsTimes] <;> exact gps_week _ h0 h1 h _
  refine ⟨key, ?_⟩
  rw [key]
  constructor
  · intro e'
    have := congrArg GTime.time e'
    simp only at this
    omega
  · intro e'
    have : e.week - (time2gpst e.tot).1 = 0 := by omega
    rw [this]
    simp

/-- **C58.5** For BeiDou the time of transmission comes back 14 seconds late, plus whole weeks when it is
not in the week of the ephemeris. -/
theorem bds_tot_late {e : Eph} (hm : e.mode = 0) (h0 : 0 ≤ e.tot.sec) (h1 : e.tot.sec < 1)
    (h : 1136073600 ≤ e.tot.time) :
    (back .bds e).tot = ⟨e.tot.time + 604800 * (e.week - (time2bdt e.tot).1) + 14, e.tot.sec⟩ ∧
      (back .bds e).tot ≠ e.tot := by
  have key : (back .bds e).tot = ⟨e.tot.time + 604800 * (e.week - (time2bdt e.tot).1) + 14, e.tot.sec⟩ := by
    simp only [back, hm, if_true, bdsTimes]
    rw [bds_week _ h0 h1 h]
    refine ext_tot (norm_timeadd _ _) ⟨h0, h1⟩ ?_
    unfold bdt2gpst
    rw [tot_timeadd]
    unfold GTime.tot
    push_cast
    ring
  refine ⟨key, ?_⟩
  rw [key]
  intro e'
  have := congrArg GTime.time e'
  simp only at this
  omega

/-- **C58.6** The two Galileo group delays come back exchanged when bit 9 of the data source is set, and
as they were otherwise. -/
theorem galileo_bgd (e : Eph) :
    (bitI e.code 9 = true → (back .gal e).tgd = e.tgdb ∧ (back .gal e).tgdb = e.tgd) ∧
      (bitI e.code 9 = false → (back .gal e).tgd = e.tgd ∧ (back .gal e).tgdb = e.tgdb) := by
  constructor <;> intro h <;> simp [back, gpsTimes, h]

/-- **C58.7** The BeiDou B2b message: the only group delay comes back in the other field, and the issue
of data is lost. -/
theorem cnv3_lost {e : Eph} (hm : e.mode = 3) :
    (back .bds e).tgd = 0 ∧ (back .bds e).tgdb = e.tgd ∧ (back .bds e).iode = 0 ∧ (back .bds e).iodc = 0 := by
  simp [back, bdsTimes, hm, base]

/-- **C58.8** The NavIC group delay comes back 0 whenever it is below a second. -/
theorem navic_tgd {e : Eph} (h0 : -1 < e.tgd) (h1 : e.tgd < 1) : (back .irn e).tgd = 0 := by
  have ht : truncQ e.tgd = 0 := by
    unfold truncQ
    split_ifs with h
    · exact Int.floor_eq_zero_iff.2 ⟨h, h1⟩
    · rw [Int.ceil_eq_iff]
      push_cast
      constructor <;> linarith
  unfold back
  simp only
  split_ifs <;> simp [gpsTimes, ht]

/-- **C58.9** The NavIC L1 message: week, seconds of the ephemeris and issue of data come back 0, so that the
ephemeris is placed at the origin of GPS time. -/
theorem navic_l1_lost {e : Eph} (hm : e.mode = 2) :
    (back .irn e).week = 0 ∧ (back .irn e).toes = 0 ∧ (back .irn e).iode = 0 ∧
      (back .irn e).toe = ⟨315964800, 0⟩ := by
  have : gpst2time 0 0 = ⟨315964800, 0⟩ := by
    unfold gpst2time wk2time
    rw [C05.origin_gpst]
    simp [truncQ]
  simp [back, gpsTimes, hm, base, this]

/-- **C58.10** QZSS health words below 256: bits 0 and 4 come back as the code (whatever the code was), the others as
the health, and nothing else is lost. -/
theorem qzs_health {e : Eph} (h0 : 0 ≤ e.svh) (h1 : e.svh < 256) :
    (back .qzs e).code + (back .qzs e).svh = e.svh ∧
      ((back .qzs e).svh = 0 ↔ e.svh = 0 ∨ e.svh = 1 ∨ e.svh = 16 ∨ e.svh = 17) := by
  have key : ∀ k ∈ List.range 256, andI (k : Nat) 17 + andI (k : Nat) 238 = (k : Nat) ∧
      (andI (k : Nat) 238 = 0 ↔ ((k : Nat) : Int) = 0 ∨ ((k : Nat) : Int) = 1 ∨ ((k : Nat) : Int) = 16 ∨ ((k : Nat) : Int) = 17) := by
    decide +kernel
  have := key e.svh.toNat (by rw [List.mem_range]; omega)
  rw [Int.toNat_of_nonneg h0] at this
  unfold back
  simp only
  split_ifs <;> exact this

/-- **C58.11** GPS and QZSS civil messages: the ephemeris reference time comes back as the (whole second of
the) clock reference time, whatever it was. -/
theorem cnav_toe {sys : Sys} {e : Eph} (hs : sys = .gps ∨ sys = .qzs) (hm : e.mode = 1 ∨ e.mode = 2)
    (h : 315964800 ≤ e.toc.time) :
    (back sys e).toe = ⟨e.toc.time, 0⟩ ∧ (back sys e).Adot = e.Adot ∧ (back sys e).delnd = e.delnd ∧
      (back sys e).tops = e.tops ∧ (back sys e).tgd = e.tgd ∧ (back sys e).iode = 0 ∧ (back sys e).iodc = 0 := by
  have hk := (C05.time_roundtrip_eq ⟨e.toc.time, 0⟩ (le_refl _) (by norm_num)).1 h
  rcases hs with rfl | rfl <;> rcases hm with hm | hm <;> simp [back, gpsTimes, hm, base, hk]

/-- **C58.12** For every message the user range accuracy of legacy GPS, QZSS, Galileo and BeiDou messages
is cut to a whole number and the L2 P flag is lost. -/
theorem cut_fields {sys : Sys} {e : Eph} (hm : e.mode = 0) (hs : ModeOk sys e) :
    (sys ≠ .irn → (back sys e).sva = (truncQ e.sva : Int)) ∧ (sys = .irn → (back sys e).sva = e.sva) ∧
      (back sys e).l2p = 0 := by
  cases sys <;> simp [ModeOk] at hs <;> simp [back, gpsTimes, bdsTimes, hm, base]

/-! ### Examples -/

/-- a GPS, a Galileo, a BeiDou and a NavIC ephemeris -/
def exGps : Eph :=
  { sat := 5, toc := ⟨1700000000, 0⟩, week := 2288, toes := 424800, svh := 3, iode := 77, iodc := 77
    clk := ⟨1/1000, 1/1000000, 0⟩, orb := { sqA := 5153, e := 1/100 }, sva := 2, tgd := 1/100000000, l2p := 1 }
def exGal : Eph :=
  { sat := 40, mode := 1, toc := ⟨1700000000, 1/2⟩, week := 2288, toes := 424800, code := 514
    tgd := 1/100, tgdb := 1/50 }
def exBds : Eph := { sat := 140, mode := 3, toc := ⟨1700000000, 0⟩, toes := 424800, tgd := 1/100, iode := 9 }

example : (sat2prn 5).1 = .gps ∧ (sat2prn 40).1 = .gal ∧ (sat2prn 140).1 = .bds := by decide +kernel

example : ∀ e ∈ [exGps, exGal, exBds], Writable e := by
  intro e he
  simp only [List.mem_cons, List.not_mem_nil, or_false] at he
  have d : C03.dayNumber 2100 1 1 * 86400 = 4102444800 := by decide +kernel
  have s1 : (sat2prn 5).1 = .gps := by decide +kernel
  have s2 : (sat2prn 40).1 = .gal := by decide +kernel
  have s3 : (sat2prn 140).1 = .bds := by decide +kernel
  rcases he with rfl | rfl | rfl
  · exact ⟨by decide, by decide, by show ModeOk (sat2prn 5).1 _; rw [s1]; show exGps.mode ≤ 2; decide, by decide, by rw [d]; decide, by norm_num [exGps], by norm_num [exGps]⟩
  · exact ⟨by decide, by decide, by show ModeOk (sat2prn 40).1 _; rw [s2]; show exGal.mode ≤ 1; decide, by decide, by rw [d]; decide, by norm_num [exGal], by norm_num [exGal]⟩
  · exact ⟨by decide, by decide, by show ModeOk (sat2prn 140).1 _; rw [s3]; show exBds.mode ≤ 3; decide, by decide, by rw [d]; decide, by norm_num [exBds], by norm_num [exBds]⟩

/-- the file of these three has 28 lines, and reading it changes the group delays -/
example : ([exGps, exGal, exBds].flatMap write).length = 28 ∧
    (readNav ([exGps, exGal, exBds].flatMap write)).toOption.map (fun l => l.map fun e => (e.sat, e.tgd, e.tgdb, e.l2p)) =
      some [(5, 1/100000000, 0, 0), (40, 1/50, 1/100, 0), (140, 0, 1/100, 0)] := by decide +kernel

end Verif.C58
