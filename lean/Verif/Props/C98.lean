import Verif.Lemmas.Fld
import Verif.Lemmas.Wr
import Verif.Props.C01
import Verif.Props.C10
import Mathlib.Tactic.IntervalCases
/-!
C98: RTCM integrity messages.

A message is given by its content (numbers and bit masks); its bits are the fields in the order of the draft standard, each most significant
bit first.  The theorems say that a decoder reads exactly that content, wherever the message lies in the buffer, and ends behind it.
-/

namespace Verif.C98
open Verif.RtcmInteg Verif.Sat Verif.Sval Verif.Mask
open Verif.RtcmSsr (Pos putU svid2sat Wr)
open Verif.Cssr (positions)

/-! ### specification: common parts -/

/-- the constellations in the order of the bits of the mask -/
def order : List Sys := [.gps, .glo, .gal, .bds, .qzs, .irn]

/-- the satellite of bit `k` of a satellite mask -/
def number (sys : Sys) (k : Nat) : Int := prn2sat sys (if sys = .qzs then k + 192 else k)

/-- validity period of a code, in seconds -/
def period : Nat → Int
  | 0 => 1 | 1 => 2 | 2 => 5 | 3 => 10 | 4 => 15 | 5 => 30 | 6 => 60 | 7 => 120 | 8 => 240 | 9 => 300 | 10 => 600 | 11 => 900
  | 12 => 1800 | 13 => 3600 | 14 => 7200 | _ => 10800

structure HeadC where
  tow : Nat
  pid : Nat
  vp : Nat
  udi : Nat
  aid : Nat

def HeadC.Fit (c : HeadC) : Prop := c.tow < 2 ^ 30 ∧ c.pid < 2 ^ 12 ∧ c.vp < 2 ^ 4 ∧ c.udi < 2 ^ 16 ∧ c.aid < 2 ^ 10

def HeadC.bits (mt : Nat) (c : HeadC) : List Bool :=
  fb [.u 30 c.tow, .u 12 c.pid, .u 4 c.vp, .u 16 c.udi] ++ if mt = 2000 then [] else fb [.u 10 c.aid]

/-- time in milliseconds, update interval in tenths of a second -/
def HeadC.val (mt : Nat) (c : HeadC) : Head :=
  ⟨(c.tow : ℚ) / 1000, c.pid, period c.vp, (c.udi : ℚ) / 10, if mt = 2000 then none else some (c.aid : Int)⟩

/-- the bits of a list of contents one after the other -/
def cat {C : Type} (bits : C → List Bool) (l : List C) : List Bool := l.flatMap bits

/-- the satellites of the list are those of the mask, in order -/
def SatsOf {C : Type} (m : List Bool) (l : List (Nat × C)) (fit : C → Prop) : Prop :=
  l.map Prod.fst = positions 1 m ∧ ∀ x ∈ l, fit x.2

/-- the constellations of the list are those of the mask, in order -/
def ConsOf {C : Type} (m : List Bool) (l : List (Sys × C)) (fit : C → Prop) : Prop :=
  (positions 0 m).map (order[·]?) = l.map (fun x => some x.1) ∧ ∀ x ∈ l, fit x.2

/-! ### proofs: common parts -/

theorem sysTbl_iff (k : Nat) (s : Sys) : sysTbl k = .ok s ↔ order[k]? = some s := by
  match k with
  | 0 => simp [sysTbl, order]
  | 1 => simp [sysTbl, order]
  | 2 => simp [sysTbl, order]
  | 3 => simp [sysTbl, order]
  | 4 => simp [sysTbl, order]
  | 5 => simp [sysTbl, order]
  | k + 6 => simp [sysTbl, order]

theorem period_eq {k : Nat} (h : k < 2 ^ 4) : pyGet vpTbl k = .ok (period k) := by
  revert k; decide +kernel

theorem head_at {mt : Nat} {c : HeadC} {b : BitBuf} {i : Nat} {m : List Bool} (hc : c.Fit) (h : At b i (c.bits mt ++ m)) :
    decodeHead mt b i = .ok (c.val mt, i + (c.bits mt).length) ∧ At b (i + (c.bits mt).length) m := by
  refine ⟨?_, h.tail⟩
  obtain ⟨h1, h2, h3, h4, h5⟩ := hc
  have hl : (c.bits mt).length = 62 + if mt = 2000 then 0 else 10 := by
    unfold HeadC.bits; split_ifs <;> simp [fb, F.bits]
  unfold HeadC.bits at h
  rw [List.append_assoc] at h
  obtain ⟨e1, r1⟩ := flds_at [.u 30 c.tow, .u 12 c.pid, .u 4 c.vp, .u 16 c.udi] (by simp [F.Fit]; omega) h
  simp only [List.map_cons, List.map_nil, F.fmt, F.val] at e1
  rw [hl]
  by_cases h2000 : mt = 2000
  · simp only [decodeHead, us, List.map_cons, List.map_nil, e1, Py.okBind, el, List.getD_cons_zero, List.getD_cons_succ, Int.toNat_natCast,
      period_eq h3, h2000, ne_eq, not_true_eq_false, if_false, HeadC.val, if_true]
    simp [div_eq_mul_inv]
    rfl
  · rw [if_neg h2000] at r1
    obtain ⟨e2, -⟩ := flds_at [.u 10 c.aid] (by simp [F.Fit]; omega) r1
    simp only [List.map_cons, List.map_nil, F.fmt, F.val, List.sum_cons, List.sum_nil] at e2
    simp only [decodeHead, us, List.map_cons, List.map_nil, e1, Py.okBind, el, List.getD_cons_zero, List.getD_cons_succ, Int.toNat_natCast,
      period_eq h3, ne_eq, h2000, not_false_eq_true, if_true, HeadC.val, if_false]
    have e2' : flds b (i + 62) [(10, false)] = .ok [(c.aid : Int)] := e2
    simp [e2', div_eq_mul_inv]

theorem sats_rd {C R : Type} {b : BitBuf} {sys : Sys} (hs : sys ≠ .sbs) {f : Nat → Py (R × Nat)} {bits : C → List Bool} {val : C → R}
    {fit : C → Prop} (hf : ∀ c, fit c → Rd b f (bits c) (val c)) {m : List Bool} {l : List (Nat × C)} (h : SatsOf m l fit) :
    Rd b (sats sys f (positions 1 m)) (cat (fun x => bits x.2) l) (l.map fun x => (number sys x.1, val x.2)) := by
  intro i hat
  have := each_rd (b := b) (f := fun _ i => f i) (bits := bits) (val := fun x : Nat × C => val x.2) (l := l)
    (fun x hx => hf x.2 (h.2 x hx)) i hat
  rw [h.1] at this
  simp only [sats, this, Py.okBind, List.map_map]
  have : ((fun x : Nat × R => (svid2sat sys (x.1 : Int), x.2)) ∘ fun x : Nat × C => (x.1, val x.2)) =
      fun x => (number sys x.1, val x.2) := by
    funext x; simp [svid2sat, number, hs]
  rw [this]; rfl

theorem order_ne {k : Nat} {s : Sys} (h : order[k]? = some s) : s ≠ .sbs := by
  rintro rfl
  have := List.mem_of_getElem? h
  simp [order] at this

theorem consts_each {C R : Type} {b : BitBuf} {f : Sys → Nat → Py (R × Nat)} {bits : C → List Bool} {val : Sys → C → R} {fit : C → Prop}
    (hf : ∀ s c, s ≠ .sbs → fit c → Rd b (f s) (bits c) (val s c)) :
    ∀ (ks : List Nat) (l : List (Sys × C)), ks.map (order[·]?) = l.map (fun x => some x.1) → (∀ x ∈ l, fit x.2) →
      ∀ i, At b i (cat (fun x => bits x.2) l) → ∃ L, each (oneConst f) ks i = .ok (L, i + (cat (fun x => bits x.2) l).length) ∧
        L.map (·.2) = l.map fun x => (x.1, val x.1 x.2)
  | [], [], _, _, i, _ => ⟨[], rfl, rfl⟩
  | [], _ :: _, h, _, _, _ => by simp at h
  | _ :: _, [], h, _, _, _ => by simp at h
  | k :: ks, x :: l, h, hfit, i, hat => by
    simp only [List.map_cons, List.cons.injEq] at h
    simp only [cat, List.flatMap_cons] at hat
    have hr := hf x.1 x.2 (order_ne h.1) (hfit x (by simp)) i hat.head
    obtain ⟨L, e, hL⟩ := consts_each hf ks l h.2 (fun y hy => hfit y (by simp [hy])) _ hat.tail
    refine ⟨(k, x.1, val x.1 x.2) :: L, ?_, by simp [hL]⟩
    have ho : oneConst f k i = .ok ((x.1, val x.1 x.2), i + (bits x.2).length) := by
      simp only [oneConst, (sysTbl_iff k x.1).2 h.1, Py.okBind, hr]; rfl
    simp only [each, ho, Py.okBind, e, cat, List.flatMap_cons, List.length_append, Nat.add_assoc]
    rfl

theorem consts_at {C R : Type} {b : BitBuf} {f : Sys → Nat → Py (R × Nat)} {bits : C → List Bool} {val : Sys → C → R} {fit : C → Prop}
    (hf : ∀ s c, s ≠ .sbs → fit c → Rd b (f s) (bits c) (val s c)) {m : List Bool} {l : List (Sys × C)} (hm : m.length = 16)
    (h : ConsOf m l fit) :
    Rd b (consts f (bitsToNat m)) (cat (fun x => bits x.2) l) (l.map fun x => (x.1, val x.1 x.2)) := by
  intro i hat
  obtain ⟨L, e, hL⟩ := consts_each hf (positions 0 m) l h.1 h.2 i hat
  simp only [consts, maskOf_bits hm, e, Py.okBind, hL]
  rfl

/-- a constellation beyond the six is an error -/
theorem consts_unknown {R : Type} {f : Sys → Nat → Py (R × Nat)} {m : List Bool} (hm : m.length = 16) {k : Nat} (hk : k ∈ positions 0 m)
    (h6 : 6 ≤ k) (i : Nat) (r : List (Sys × R) × Nat) : consts f (bitsToNat m) i ≠ .ok r := by
  have key : ∀ (ks : List Nat) (i : Nat) (q : List (Nat × Sys × R) × Nat), k ∈ ks → each (oneConst f) ks i ≠ .ok q := by
    intro ks
    induction ks with
    | nil => intro i q h; simp at h
    | cons a ks ih =>
      intro i q h he
      simp only [each] at he
      cases ho : oneConst f a i with
      | error _ => rw [ho] at he; cases he
      | ok p =>
        rw [ho] at he
        simp only [Py.okBind] at he
        rcases List.mem_cons.1 h with rfl | h
        · have : sysTbl k = .error .keyError := by
            match k, h6 with
            | n + 6, _ => rfl
          unfold oneConst at ho
          rw [this] at ho; cases ho
        · cases hq : each (oneConst f) ks p.2 with
          | error _ => rw [hq] at he; cases he
          | ok q' => exact absurd hq (ih _ _ h)
  intro he
  unfold consts at he
  rw [maskOf_bits hm] at he
  cases hq : each (oneConst f) (positions 0 m) i with
  | error _ => rw [hq] at he; cases he
  | ok q => exact key _ _ _ hk hq

local macro "norm" " at " h:ident : tactic =>
  `(tactic| simp only [List.map_cons, List.map_nil, F.fmt, F.val, List.sum_cons, List.sum_nil, Nat.add_zero, Nat.add_assoc, Nat.reduceAdd] at $h:ident)

/-! ### minimum integrity (MT 3, 2000) -/

structure MinSatC where
  freq : List Bool
  iod : Nat
  ists : Nat
  msts : Nat

def MinSatC.Fit (c : MinSatC) : Prop := c.freq.length = 8 ∧ c.iod < 2 ^ 2 ∧ c.ists < 2 ^ 8 ∧ c.msts < 2 ^ 8

def MinSatC.bits (c : MinSatC) : List Bool := fb [.m 8 c.freq, .u 2 c.iod, .u 8 c.ists, .u 8 c.msts]

def MinSatC.val (c : MinSatC) : MinSat := ⟨positions 0 c.freq, c.iod, c.ists, c.msts⟩

structure MinSysC where
  mask : List Bool
  iod : Nat
  sts : Nat
  mst : List Bool
  src : Nat
  sats : List (Nat × MinSatC)

def MinSysC.Fit (c : MinSysC) : Prop :=
  c.mask.length = 64 ∧ c.iod < 2 ^ 2 ∧ c.sts < 2 ^ 64 ∧ c.mst.length = 64 ∧ c.src < 2 ^ 3 ∧ SatsOf c.mask c.sats MinSatC.Fit

def MinSysC.bits (c : MinSysC) : List Bool :=
  fb [.m 64 c.mask, .u 2 c.iod, .u 64 c.sts, .m 64 c.mst, .u 3 c.src] ++ cat (fun x => MinSatC.bits x.2) c.sats

/-- monitored satellites are given by their PRN -/
def MinSysC.val (sys : Sys) (c : MinSysC) : MinSys :=
  ⟨c.iod, c.sts, positions (if sys = .qzs then 193 else 1) c.mst, c.src, c.sats.map fun x => (number sys x.1, x.2.val)⟩

/-- `integ` and `status` are the two words for the constellations, which are not stored -/
structure MinC where
  mask : List Bool
  integ : Nat
  status : Nat
  sys : List (Sys × MinSysC)

def MinC.Fit (c : MinC) : Prop := c.mask.length = 16 ∧ c.integ < 2 ^ 16 ∧ c.status < 2 ^ 16 ∧ ConsOf c.mask c.sys MinSysC.Fit

def MinC.bits (c : MinC) : List Bool := fb [.m 16 c.mask, .u 16 c.integ, .u 16 c.status] ++ cat (fun x => MinSysC.bits x.2) c.sys

theorem minSat_rd {b : BitBuf} (c : MinSatC) (h : c.Fit) : Rd b (minSat b) c.bits c.val := by
  intro i hat
  obtain ⟨f1, f2, f3, f4⟩ := h
  have hl : c.bits.length = 26 := by simp [MinSatC.bits, fb, F.bits, f1]
  obtain ⟨e1, r1⟩ := flds_at [.m 8 c.freq] (m := fb [.u 2 c.iod, .u 8 c.ists, .u 8 c.msts]) (by simpa [F.Fit] using f1)
    (by simpa [fb, MinSatC.bits] using hat)
  norm at e1; norm at r1
  obtain ⟨e2, r2⟩ := flds_at [.u 2 c.iod] (m := fb [.u 8 c.ists, .u 8 c.msts]) (by simpa [F.Fit] using f2) (by simpa [fb] using r1)
  norm at e2; norm at r2
  obtain ⟨e3, r3⟩ := flds_at [.u 8 c.ists] (m := fb [.u 8 c.msts]) (by simpa [F.Fit] using f3) (by simpa [fb] using r2)
  norm at e3; norm at r3
  obtain ⟨e4, -⟩ := flds_at [.u 8 c.msts] (m := []) (by simpa [F.Fit] using f4) (by simpa [fb] using r3)
  norm at e4
  simp only [minSat, us, List.map_cons, List.map_nil, e1, e2, e3, e4, Py.okBind, el, List.getD_cons_zero, maskOf_bits f1, hl]
  rfl

theorem minSys_rd {b : BitBuf} (s : Sys) (c : MinSysC) (hs : s ≠ .sbs) (h : c.Fit) : Rd b (minSys b s) c.bits (c.val s) := by
  intro i hat
  obtain ⟨f1, f2, f3, f4, f5, f6⟩ := h
  have hl : c.bits.length = 197 + (cat (fun x => MinSatC.bits x.2) c.sats).length := by
    simp [MinSysC.bits, fb, F.bits, f1, f4]; omega
  obtain ⟨e1, r1⟩ := flds_at [.m 64 c.mask, .u 2 c.iod]
    (m := fb [.u 64 c.sts, .m 64 c.mst, .u 3 c.src] ++ cat (fun x => MinSatC.bits x.2) c.sats) (by simp [F.Fit]; exact ⟨f1, f2⟩)
    (by simpa [fb, MinSysC.bits] using hat)
  norm at e1; norm at r1
  obtain ⟨e2, r2⟩ := flds_at [.u 64 c.sts, .m 64 c.mst, .u 3 c.src] (by simp [F.Fit]; exact ⟨f3, f4, f5⟩) r1
  norm at e2; norm at r2
  have e3 := sats_rd hs (fun c => minSat_rd (b := b) c) f6 _ r2
  simp only [minSys, us, List.map_cons, List.map_nil, e1, e2, Py.okBind, el, List.getD_cons_zero, List.getD_cons_succ, maskOf_bits f1,
    maskOf_bits f4, hl, e3, Nat.add_assoc]
  rfl

/-- the minimum integrity message is read as sent; without any constellation the old tables stay -/
theorem minimum {mt : Nat} {h : HeadC} {c : MinC} (hh : h.Fit) (hc : c.Fit) (old : List (Sys × MinSys)) {b : BitBuf} {i : Nat}
    (hat : At b i (h.bits mt ++ c.bits)) :
    decodeMin mt old b i = .ok (h.val mt, if c.sys = [] then old else c.sys.map fun x => (x.1, x.2.val x.1),
      i + (h.bits mt ++ c.bits).length) := by
  obtain ⟨f1, f2, f3, f4⟩ := hc
  obtain ⟨e0, r0⟩ := head_at hh hat
  have hl : c.bits.length = 48 + (cat (fun x => MinSysC.bits x.2) c.sys).length := by
    simp [MinC.bits, fb, F.bits, f1]; omega
  obtain ⟨e1, r1⟩ := flds_at [.m 16 c.mask, .u 16 c.integ, .u 16 c.status] (by simp [F.Fit]; exact ⟨f1, f2, f3⟩) r0
  norm at e1; norm at r1
  have e2 := consts_at (fun s c => minSys_rd (b := b) s c) f1 f4 _ r1
  simp only [decodeMin, e0, us, List.map_cons, List.map_nil, e1, Py.okBind, el, List.getD_cons_zero, Nat.add_assoc, e2, List.length_append, hl]
  cases hs : c.sys <;> rfl

/-! ### extended integrity (MT 4, 2005) -/

structure ExtSatC where
  paSc : Nat
  sigObC : Nat
  paSp : Nat
  bObC : Nat
  sigObP : Nat
  bObP : Nat

def ExtSatC.Fit (c : ExtSatC) : Prop :=
  c.paSc < 2 ^ 4 ∧ c.sigObC < 2 ^ 5 ∧ c.paSp < 2 ^ 4 ∧ c.bObC < 2 ^ 4 ∧ c.sigObP < 2 ^ 5 ∧ c.bObP < 2 ^ 4

def ExtSatC.bits (c : ExtSatC) : List Bool :=
  fb [.u 4 c.paSc, .u 5 c.sigObC, .u 4 c.paSp, .u 4 c.bObC, .u 5 c.sigObP, .u 4 c.bObP]

def ExtSatC.val (c : ExtSatC) : ExtSat := ⟨c.paSc, c.sigObC, c.paSp, c.bObC, c.sigObP, c.bObP⟩

structure ExtSysC where
  mfdS : Nat
  mfdC : Nat
  tauC : Nat
  sigC : Nat
  tauP : Nat
  sigP : Nat
  paCc : Nat
  paCp : Nat
  mask : List Bool
  sats : List (Nat × ExtSatC)

def ExtSysC.Fit (c : ExtSysC) : Prop :=
  c.mfdS < 2 ^ 4 ∧ c.mfdC < 2 ^ 4 ∧ c.tauC < 2 ^ 4 ∧ c.sigC < 2 ^ 5 ∧ c.tauP < 2 ^ 4 ∧ c.sigP < 2 ^ 5 ∧ c.paCc < 2 ^ 4 ∧ c.paCp < 2 ^ 4 ∧
    c.mask.length = 64 ∧ SatsOf c.mask c.sats ExtSatC.Fit

def ExtSysC.bits (c : ExtSysC) : List Bool :=
  fb [.u 4 c.mfdS, .u 4 c.mfdC, .u 4 c.tauC, .u 5 c.sigC, .u 4 c.tauP, .u 5 c.sigP, .u 4 c.paCc, .u 4 c.paCp, .m 64 c.mask] ++
    cat (fun x => ExtSatC.bits x.2) c.sats

def ExtSysC.val (sys : Sys) (c : ExtSysC) : ExtSys :=
  ⟨c.mfdS, c.mfdC, c.tauC, c.sigC, c.tauP, c.sigP, c.paCc, c.paCp, c.sats.map fun x => (number sys x.1, x.2.val)⟩

/-- `gap`: bits behind the solution type -/
structure ExtC where
  ilvl : Nat
  ttt : Nat
  stype : Nat
  gap : List Bool
  mask : List Bool
  paug : Option Nat
  fc : Nat
  iodP : Nat
  sys : List (Sys × ExtSysC)

def ExtC.Fit (c : ExtC) : Prop :=
  c.ilvl < 2 ^ 8 ∧ c.ttt < 2 ^ 7 ∧ c.stype < 2 ^ 15 ∧ c.mask.length = 16 ∧ (∀ p ∈ c.paug, p < 2 ^ 4) ∧ c.fc < 2 ^ 1 ∧ c.iodP < 2 ^ 6 ∧
    ConsOf c.mask c.sys ExtSysC.Fit

/-- the optional probability behind its flag -/
def paugBits : Option Nat → List Bool
  | none => fb [.u 1 0]
  | some p => fb [.u 1 1, .u 4 p]

def ExtC.bits (c : ExtC) : List Bool :=
  fb [.u 8 c.ilvl, .u 7 c.ttt, .u 15 c.stype] ++ (c.gap ++ (fb [.m 16 c.mask] ++ (paugBits c.paug ++ (fb [.u 1 c.fc, .u 6 c.iodP] ++
    cat (fun x => ExtSysC.bits x.2) c.sys))))

/-- the time to transmit is in tenths of a second from 0.1 on -/
def ExtC.val (c : ExtC) : Ext :=
  ⟨c.ilvl, ((c.ttt : ℚ) + 1) / 10, c.stype, c.paug.map Int.ofNat, c.fc, c.iodP, c.sys.map fun x => (x.1, x.2.val x.1)⟩

theorem extSat_rd {b : BitBuf} (c : ExtSatC) (h : c.Fit) : Rd b (extSat b) c.bits c.val := by
  intro i hat
  obtain ⟨f1, f2, f3, f4, f5, f6⟩ := h
  have hl : c.bits.length = 26 := by simp [ExtSatC.bits, fb, F.bits]
  obtain ⟨e1, -⟩ := flds_at [.u 4 c.paSc, .u 5 c.sigObC, .u 4 c.paSp, .u 4 c.bObC, .u 5 c.sigObP, .u 4 c.bObP] (m := [])
    (by simp [F.Fit]; exact ⟨f1, f2, f3, f4, f5, f6⟩) (by simpa [ExtSatC.bits] using hat)
  norm at e1
  simp only [extSat, us, List.map_cons, List.map_nil, e1, Py.okBind, el, List.getD_cons_zero, List.getD_cons_succ, hl]
  rfl

theorem extSys_rd {b : BitBuf} (s : Sys) (c : ExtSysC) (hs : s ≠ .sbs) (h : c.Fit) : Rd b (extSys b s) c.bits (c.val s) := by
  intro i hat
  obtain ⟨f1, f2, f3, f4, f5, f6, f7, f8, f9, f10⟩ := h
  have hl : c.bits.length = 98 + (cat (fun x => ExtSatC.bits x.2) c.sats).length := by
    simp [ExtSysC.bits, fb, F.bits, f9]; omega
  obtain ⟨e1, r1⟩ := flds_at [.u 4 c.mfdS, .u 4 c.mfdC]
    (m := fb [.u 4 c.tauC, .u 5 c.sigC, .u 4 c.tauP, .u 5 c.sigP, .u 4 c.paCc, .u 4 c.paCp] ++ (fb [.m 64 c.mask] ++
      cat (fun x => ExtSatC.bits x.2) c.sats)) (by simp [F.Fit]; exact ⟨f1, f2⟩) (by simpa [fb, ExtSysC.bits] using hat)
  norm at e1; norm at r1
  obtain ⟨e2, r2⟩ := flds_at [.u 4 c.tauC, .u 5 c.sigC, .u 4 c.tauP, .u 5 c.sigP, .u 4 c.paCc, .u 4 c.paCp]
    (by simp [F.Fit]; exact ⟨f3, f4, f5, f6, f7, f8⟩) r1
  norm at e2; norm at r2
  obtain ⟨e3, r3⟩ := flds_at [.m 64 c.mask] (by simp [F.Fit]; exact f9) r2
  norm at e3; norm at r3
  have e4 := sats_rd hs (fun c => extSat_rd (b := b) c) f10 _ r3
  simp only [extSys, us, List.map_cons, List.map_nil, e1, e2, e3, Py.okBind, el, List.getD_cons_zero, List.getD_cons_succ, maskOf_bits f9,
    hl, e4, Nat.add_assoc]
  rfl

theorem extPaug_rd {b : BitBuf} (p : Option Nat) (h : ∀ x ∈ p, x < 2 ^ 4) : Rd b (extPaug b) (paugBits p) (p.map Int.ofNat) := by
  intro i hat
  cases p with
  | none =>
    obtain ⟨e1, -⟩ := flds_at [.u 1 0] (m := []) (by simp [F.Fit]) (by simpa [paugBits] using hat)
    norm at e1
    simp only [extPaug, us, List.map_cons, List.map_nil, e1, Py.okBind, el, List.getD_cons_zero]
    simp [paugBits, fb, F.bits]
    rfl
  | some p =>
    obtain ⟨e1, r1⟩ := flds_at [.u 1 1] (m := fb [.u 4 p]) (by simp [F.Fit]) (by simpa [paugBits, fb] using hat)
    norm at e1; norm at r1
    obtain ⟨e2, -⟩ := flds_at [.u 4 p] (m := []) (by simpa [F.Fit] using h p) (by simpa using r1)
    norm at e2
    simp only [extPaug, us, List.map_cons, List.map_nil, e1, Py.okBind, el, List.getD_cons_zero]
    simp [e2, paugBits, fb, F.bits]

/-- the extended integrity message is read as sent if 52 bits of padding follow the solution type -/
theorem extended {mt : Nat} {h : HeadC} {c : ExtC} (hh : h.Fit) (hc : c.Fit) (hg : c.gap.length = 52) {b : BitBuf} {i : Nat}
    (hat : At b i (h.bits mt ++ c.bits)) :
    decodeExt mt b i = .ok (h.val mt, c.val, i + (h.bits mt ++ c.bits).length) := by
  obtain ⟨f1, f2, f3, f4, f5, f6, f7, f8⟩ := hc
  obtain ⟨e0, r0⟩ := head_at hh hat
  have hl : c.bits.length = 82 + 16 + ((paugBits c.paug).length + (7 + (cat (fun x => ExtSysC.bits x.2) c.sys).length)) := by
    simp [ExtC.bits, fb, F.bits, f4, hg]; omega
  obtain ⟨e1, r1⟩ := flds_at [.u 8 c.ilvl, .u 7 c.ttt, .u 15 c.stype] (by simp [F.Fit]; exact ⟨f1, f2, f3⟩) r0
  norm at e1; norm at r1
  have r2 := r1.tail' hg
  norm at r2
  obtain ⟨e3, r3⟩ := flds_at [.m 16 c.mask] (by simp [F.Fit]; exact f4) r2
  norm at e3; norm at r3
  have e4 := extPaug_rd c.paug f5 _ r3.head
  norm at e4
  have r4 := r3.tail
  norm at r4
  obtain ⟨e5, r5⟩ := flds_at [.u 1 c.fc, .u 6 c.iodP] (by simp [F.Fit]; exact ⟨by simpa using f6, f7⟩) r4
  norm at e5; norm at r5
  have e6 := consts_at (fun s c => extSys_rd (b := b) s c) f4 f8 _ r5
  simp only [decodeExt, e0, us, List.map_cons, List.map_nil, e1, Py.okBind, el, List.getD_cons_zero, List.getD_cons_succ, Nat.add_assoc,
    Nat.reduceAdd, e3, e4, e5, e6, List.length_append, hl, ExtC.val]
  simp [div_eq_mul_inv]
  rfl

/-! ### signal in space and local errors (MT 5, 2006) -/

/-- no such message is ever decoded; with a complete header it is a type error -/
theorem sis_local {mt : Nat} (b : BitBuf) (i : Nat) : (∀ r, decodeSisLocal mt b i ≠ .ok r) ∧
    ∀ (h : HeadC) (m : List Bool), h.Fit → 23 ≤ m.length → At b i (h.bits mt ++ m) → decodeSisLocal mt b i = .error .typeError := by
  constructor
  · intro r hr
    unfold decodeSisLocal at hr
    cases h1 : decodeHead mt b i with
    | error _ => rw [h1] at hr; cases hr
    | ok p =>
      rw [h1] at hr
      simp only [Py.okBind] at hr
      cases h2 : flds b p.2 (us [6, 16, 1]) with
      | error _ => rw [h2] at hr; cases hr
      | ok q => rw [h2] at hr; cases hr
  · intro h m hh hm hat
    obtain ⟨e0, r0⟩ := head_at hh hat
    have hsplit : m = fb [.m 6 (m.take 6), .m 16 ((m.drop 6).take 16), .m 1 ((m.drop 22).take 1)] ++ m.drop 23 := by
      simp only [fb, F.bits, List.flatMap_cons, List.flatMap_nil, List.append_nil]
      conv_lhs => rw [← List.take_append_drop 6 m, ← List.take_append_drop 16 (m.drop 6), ← List.take_append_drop 1 ((m.drop 6).drop 16)]
      simp [List.drop_drop]
    rw [hsplit] at r0
    obtain ⟨e1, -⟩ := flds_at [.m 6 (m.take 6), .m 16 ((m.drop 6).take 16), .m 1 ((m.drop 22).take 1)]
      (by simp [F.Fit]; omega) r0
    norm at e1
    simp only [decodeSisLocal, e0, us, List.map_cons, List.map_nil, e1, Py.okBind]

/-! ### service areas (MT 6, 2007, 2008) -/

/-- degrees of a coordinate; the most negative number means not available -/
def degrees (n : Nat) (v : Int) : Val := if v = -(2 ^ (n - 1)) then none else some ((v : ℚ) * (11 / 1000000000))

/-- the shape of an area: a circle, points, nothing (types 2 and 3) -/
inductive Shape where
  | circle (lat lon : Int) (r : Nat)
  | points (l : List (Int × Int))
  | other (t : Nat)

def Coord (x : Int × Int) : Prop := -(2 ^ 33) ≤ x.1 ∧ x.1 < 2 ^ 33 ∧ -(2 ^ 34) ≤ x.2 ∧ x.2 < 2 ^ 34

def Shape.Fit : Shape → Prop
  | .circle lat lon r => Coord (lat, lon) ∧ r < 2 ^ 20
  | .points l => l.length < 2 ^ 8 ∧ ∀ x ∈ l, Coord x
  | .other t => t = 2 ∨ t = 3

def Shape.code : Shape → Nat
  | .circle .. => 0
  | .points _ => 1
  | .other t => t

def coordBits (x : Int × Int) : List Bool := fb [.s 34 x.1, .s 35 x.2]

def Shape.bits : Shape → List Bool
  | .circle lat lon r => fb [.s 34 lat, .s 35 lon, .u 20 r]
  | .points l => fb [.u 8 l.length] ++ cat coordBits l
  | .other _ => []

def Shape.val : Shape → Option (List (Val × Val × Val))
  | .circle lat lon r => some [(degrees 34 lat, degrees 35 lon, some (r : ℚ))]
  | .points l => some (l.map fun x => (degrees 34 x.1, degrees 35 x.2, some 0))
  | .other _ => none

/-- `ext`: degradation factors of integrity risk, time to detect and space, of the extended message -/
structure AreaC where
  iod : Nat
  cf : Nat
  fT : Nat
  seq : Nat
  ext : Option (Nat × Nat × Nat)
  shape : Shape

def AreaC.Fit (c : AreaC) : Prop :=
  c.iod < 2 ^ 6 ∧ c.cf < 2 ^ 1 ∧ c.fT < 2 ^ 3 ∧ c.seq < 2 ^ 5 ∧ (∀ x ∈ c.ext, x.1 < 2 ^ 2 ∧ x.2.1 < 2 ^ 2 ∧ x.2.2 < 2 ^ 3) ∧ c.shape.Fit

def AreaC.factors (c : AreaC) : List Bool :=
  match c.ext with
  | none => fb [.u 3 c.fT, .u 5 c.seq]
  | some x => fb [.u 5 c.seq, .u 2 x.1, .u 2 x.2.1, .u 3 c.fT, .u 3 x.2.2]

def AreaC.bits (c : AreaC) : List Bool :=
  fb [.u 2 c.shape.code, .u 6 c.iod, .u 1 c.cf] ++ (c.factors ++ c.shape.bits)

def AreaC.val (c : AreaC) : Area :=
  ⟨c.shape.code, c.iod, c.cf, c.fT, c.seq, c.ext.map fun x => ((x.1 : Int), (x.2.1 : Int), (x.2.2 : Int)), c.shape.val⟩

theorem deg_eq (n : Nat) (v : Int) : deg v n = degrees n v := by
  have : (11 / 10 ^ 9 : ℚ) = 11 / 1000000000 := by norm_num
  unfold deg degrees sval
  rw [this]

theorem areaPoint_rd {b : BitBuf} (x : Int × Int) (h : Coord x) :
    Rd b (areaPoint b) (coordBits x) (degrees 34 x.1, degrees 35 x.2, some 0) := by
  intro i hat
  obtain ⟨f1, f2, f3, f4⟩ := h
  obtain ⟨e1, -⟩ := flds_at [.s 34 x.1, .s 35 x.2] (m := []) (by simp [F.Fit]; exact ⟨⟨f1, f2⟩, f3, f4⟩) (by simpa [coordBits] using hat)
  norm at e1
  have hl : (coordBits x).length = 69 := by simp [coordBits, fb, F.bits]
  simp only [areaPoint, e1, Py.okBind, el, List.getD_cons_zero, List.getD_cons_succ, hl, deg_eq]
  rfl

theorem areaPos_rd {b : BitBuf} (s : Shape) (h : s.Fit) : Rd b (areaPos s.code b) s.bits s.val := by
  intro i hat
  cases s with
  | circle lat lon r =>
    obtain ⟨⟨f1, f2, f3, f4⟩, f5⟩ := h
    obtain ⟨e1, -⟩ := flds_at [.s 34 lat, .s 35 lon, .u 20 r] (m := []) (by simp [F.Fit]; exact ⟨⟨f1, f2⟩, ⟨f3, f4⟩, f5⟩)
      (by simpa [Shape.bits] using hat)
    norm at e1
    have hl : (Shape.circle lat lon r).bits.length = 89 := by simp [Shape.bits, fb, F.bits]
    rw [hl]
    simp [areaPos, Shape.code, e1, el, deg_eq, Shape.val]
  | points l =>
    obtain ⟨f1, f2⟩ := h
    obtain ⟨e1, r1⟩ := flds_at [.u 8 l.length] (by simp [F.Fit]; exact f1) hat
    norm at e1; norm at r1
    have e2 := rows_rd (fun x hx => areaPoint_rd (b := b) x (f2 x hx)) _ r1
    have hl : (Shape.points l).bits.length = 8 + (cat coordBits l).length := by simp [Shape.bits, fb, F.bits]
    rw [hl]
    simp only [areaPos, Shape.code, us, List.map_cons, List.map_nil, e1, Py.okBind, el, List.getD_cons_zero, Int.toNat_natCast, e2,
      Nat.add_assoc]
    rfl
  | other t =>
    rcases h with rfl | rfl <;> rfl

theorem areaHead_rd {b : BitBuf} (c : AreaC) (h : c.Fit) : Rd b (areaHead c.ext.isSome b) c.factors
    ((c.fT : Int), (c.seq : Int), c.ext.map fun x => ((x.1 : Int), (x.2.1 : Int), (x.2.2 : Int))) := by
  intro i hat
  obtain ⟨-, -, f3, f4, f5, -⟩ := h
  unfold AreaC.factors at hat ⊢
  cases hx : c.ext with
  | none =>
    rw [hx] at hat
    simp only at hat ⊢
    obtain ⟨e1, r1⟩ := flds_at [.u 3 c.fT] (m := fb [.u 5 c.seq]) (by simp [F.Fit]; exact f3) (by simpa [fb] using hat)
    norm at e1; norm at r1
    obtain ⟨e2, -⟩ := flds_at [.u 5 c.seq] (m := []) (by simp [F.Fit]; exact f4) (by simpa using r1)
    norm at e2
    simp [areaHead, us, e1, e2, Py.okBind, el, fb, F.bits]
  | some x =>
    rw [hx] at hat
    simp only at hat ⊢
    obtain ⟨g1, g2, g3⟩ := f5 x hx
    obtain ⟨e1, r1⟩ := flds_at [.u 5 c.seq] (m := fb [.u 2 x.1, .u 2 x.2.1, .u 3 c.fT, .u 3 x.2.2]) (by simp [F.Fit]; exact f4)
      (by simpa [fb] using hat)
    norm at e1; norm at r1
    obtain ⟨e2, -⟩ := flds_at [.u 2 x.1, .u 2 x.2.1, .u 3 c.fT, .u 3 x.2.2] (m := []) (by simp [F.Fit]; exact ⟨g1, g2, f3, g3⟩)
      (by simpa using r1)
    norm at e2
    simp [areaHead, us, e1, e2, Py.okBind, el, fb, F.bits]

/-- a service area is read as sent; only types 0 and 1 have a position -/
theorem service_area {mt : Nat} {h : HeadC} {c : AreaC} (hh : h.Fit) (hc : c.Fit) {b : BitBuf} {i : Nat} (hat : At b i (h.bits mt ++ c.bits)) :
    decodeArea mt c.ext.isSome b i = .ok (h.val mt, c.val, i + (h.bits mt ++ c.bits).length) := by
  have hc' := hc
  obtain ⟨f1, f2, f3, f4, f5, f6⟩ := hc
  obtain ⟨e0, r0⟩ := head_at hh hat
  have hcode : c.shape.code < 2 ^ 2 := by
    cases hs : c.shape with
    | circle => simp [Shape.code]
    | points => simp [Shape.code]
    | other t => rw [hs] at f6; simp only [Shape.Fit] at f6; simp only [Shape.code]; omega
  have hl : c.bits.length = 9 + (c.factors.length + c.shape.bits.length) := by simp [AreaC.bits, fb, F.bits]; omega
  obtain ⟨e1, r1⟩ := flds_at [.u 2 c.shape.code, .u 6 c.iod, .u 1 c.cf] (by simp [F.Fit]; exact ⟨hcode, f1, by simpa using f2⟩) r0
  norm at e1; norm at r1
  have e2 := areaHead_rd c hc' _ r1.head
  have e3 := areaPos_rd c.shape f6 _ r1.tail
  simp only [Nat.add_assoc] at e2 e3
  simp only [decodeArea, e0, us, List.map_cons, List.map_nil, e1, Py.okBind, el, List.getD_cons_zero, List.getD_cons_succ, Nat.add_assoc,
    e2, e3, List.length_append, hl]
  rfl

/-! ### quality indicators (MT 7, 2051) -/

structure QualityC where
  nid : Nat
  mask : List Bool
  qi : List Nat

def QualityC.Fit (c : QualityC) : Prop :=
  c.nid < 2 ^ 8 ∧ c.mask.length = 8 ∧ c.qi.length = c.mask.count true ∧ ∀ q ∈ c.qi, q < 2 ^ 8

def QualityC.bits (c : QualityC) : List Bool := fb [.u 8 c.nid, .m 8 c.mask] ++ cat (fun q => fb [.u 8 q]) c.qi

theorem positions_length (l : List Bool) : ∀ o, (positions o l).length = l.count true := by
  induction l with
  | nil => intro o; rfl
  | cons b l ih => intro o; cases b <;> simp [positions, ih]

theorem quality_rd {b : BitBuf} (q : Nat) (h : q < 2 ^ 8) : Rd b (quality b) (fb [.u 8 q]) ((q : ℚ) / 10) := by
  intro i hat
  obtain ⟨e1, -⟩ := flds_at [.u 8 q] (m := []) (by simp [F.Fit]; exact h) (by simpa using hat)
  norm at e1
  simp [quality, us, e1, el, fb, F.bits, div_eq_mul_inv]

/-- the indicators of the set bits are read in tenths -/
theorem quality_indicators {mt : Nat} {h : HeadC} {c : QualityC} (hh : h.Fit) (hc : c.Fit) {b : BitBuf} {i : Nat}
    (hat : At b i (h.bits mt ++ c.bits)) :
    decodeQuality mt b i = .ok (h.val mt, ((c.nid : Int), c.qi.map fun q : Nat => (q : ℚ) / 10), i + (h.bits mt ++ c.bits).length) := by
  obtain ⟨f1, f2, f3, f4⟩ := hc
  obtain ⟨e0, r0⟩ := head_at hh hat
  have hl : c.bits.length = 16 + (cat (fun q => fb [.u 8 q]) c.qi).length := by simp [QualityC.bits, fb, F.bits, f2]; omega
  obtain ⟨e1, r1⟩ := flds_at [.u 8 c.nid, .m 8 c.mask] (by simp [F.Fit]; exact ⟨f1, f2⟩) r0
  norm at e1; norm at r1
  have e2 := rows_rd (fun q hq => quality_rd (b := b) q (f4 q hq)) _ r1
  simp only [decodeQuality, e0, us, List.map_cons, List.map_nil, e1, Py.okBind, el, List.getD_cons_zero, List.getD_cons_succ, Nat.add_assoc,
    List.length_append, hl, maskOf_bits f2, positions_length, ← f3, e2]
  rfl

/-! ### carrier to noise ratio and gain control (MT 8, 2091) -/

/-- ratio, kind of gain, gain -/
structure CnrC where
  cnr : Nat
  kind : Nat
  agc : Nat

def CnrC.Fit (c : CnrC) : Prop := c.cnr < 2 ^ 8 ∧ c.kind < 2 ^ 1 ∧ c.agc < 2 ^ 8

def CnrC.bits (c : CnrC) : List Bool := fb [.u 8 c.cnr, .u 1 c.kind, .u 8 c.agc]

structure CnrSatC where
  mask : List Bool
  iod : Nat
  sigs : List (Nat × CnrC)

def CnrSatC.Fit (c : CnrSatC) : Prop :=
  c.mask.length = 8 ∧ c.iod < 2 ^ 2 ∧ c.sigs.map Prod.fst = positions 0 c.mask ∧ ∀ x ∈ c.sigs, x.2.Fit

def CnrSatC.bits (c : CnrSatC) : List Bool := fb [.m 8 c.mask, .u 2 c.iod] ++ cat (fun x => CnrC.bits x.2) c.sigs

def CnrSatC.val (c : CnrSatC) : List (Nat × Int × Int × Int) :=
  c.sigs.map fun x => (x.1, (x.2.cnr : Int), (x.2.kind : Int), (x.2.agc : Int))

structure CnrSysC where
  mask : List Bool
  iod : Nat
  sats : List (Nat × CnrSatC)

def CnrSysC.Fit (c : CnrSysC) : Prop := c.mask.length = 64 ∧ c.iod < 2 ^ 2 ∧ SatsOf c.mask c.sats CnrSatC.Fit

def CnrSysC.bits (c : CnrSysC) : List Bool := fb [.m 64 c.mask, .u 2 c.iod] ++ cat (fun x => CnrSatC.bits x.2) c.sats

def CnrSysC.val (sys : Sys) (c : CnrSysC) : List (Int × List (Nat × Int × Int × Int)) := c.sats.map fun x => (number sys x.1, x.2.val)

structure CnrMsgC where
  mask : List Bool
  sys : List (Sys × CnrSysC)

def CnrMsgC.Fit (c : CnrMsgC) : Prop := c.mask.length = 16 ∧ ConsOf c.mask c.sys CnrSysC.Fit

def CnrMsgC.bits (c : CnrMsgC) : List Bool := fb [.m 16 c.mask] ++ cat (fun x => CnrSysC.bits x.2) c.sys

theorem cnrSig_rd {b : BitBuf} (k : Nat) (c : CnrC) (h : c.Fit) :
    Rd b (cnrSig b k) c.bits ((c.cnr : Int), (c.kind : Int), (c.agc : Int)) := by
  intro i hat
  obtain ⟨f1, f2, f3⟩ := h
  obtain ⟨e1, -⟩ := flds_at [.u 8 c.cnr, .u 1 c.kind, .u 8 c.agc] (m := []) (by simp [F.Fit]; exact ⟨f1, by simpa using f2, f3⟩)
    (by simpa [CnrC.bits] using hat)
  norm at e1
  simp [cnrSig, us, e1, el, CnrC.bits, fb, F.bits]

theorem cnrSat_rd {b : BitBuf} (c : CnrSatC) (h : c.Fit) : Rd b (cnrSat b) c.bits c.val := by
  intro i hat
  obtain ⟨f1, f2, f3, f4⟩ := h
  have hl : c.bits.length = 10 + (cat (fun x => CnrC.bits x.2) c.sigs).length := by simp [CnrSatC.bits, fb, F.bits, f1]; omega
  obtain ⟨e1, r1⟩ := flds_at [.m 8 c.mask, .u 2 c.iod] (by simp [F.Fit]; exact ⟨f1, f2⟩) hat
  norm at e1; norm at r1
  have e2 := each_rd (b := b) (f := cnrSig b) (bits := CnrC.bits) (l := c.sigs)
    (val := fun x => ((x.2.cnr : Int), (x.2.kind : Int), (x.2.agc : Int))) (fun x hx => cnrSig_rd x.1 x.2 (f4 x hx)) _ r1
  simp only [cnrSat, us, List.map_cons, List.map_nil, e1, Py.okBind, el, List.getD_cons_zero, maskOf_bits f1, ← f3, e2, hl, Nat.add_assoc]
  rfl

theorem cnrSys_rd {b : BitBuf} (s : Sys) (c : CnrSysC) (hs : s ≠ .sbs) (h : c.Fit) : Rd b (cnrSys b s) c.bits (c.val s) := by
  intro i hat
  obtain ⟨f1, f2, f3⟩ := h
  have hl : c.bits.length = 66 + (cat (fun x => CnrSatC.bits x.2) c.sats).length := by simp [CnrSysC.bits, fb, F.bits, f1]; omega
  obtain ⟨e1, r1⟩ := flds_at [.m 64 c.mask, .u 2 c.iod] (by simp [F.Fit]; exact ⟨f1, f2⟩) hat
  norm at e1; norm at r1
  have e2 := sats_rd hs (fun c => cnrSat_rd (b := b) c) f3 _ r1
  simp only [cnrSys, us, List.map_cons, List.map_nil, e1, Py.okBind, el, List.getD_cons_zero, maskOf_bits f1, e2, hl, Nat.add_assoc]
  rfl

/-- ratios and gains are read as sent, by constellation, satellite and signal -/
theorem carrier_to_noise {mt : Nat} {h : HeadC} {c : CnrMsgC} (hh : h.Fit) (hc : c.Fit) {b : BitBuf} {i : Nat}
    (hat : At b i (h.bits mt ++ c.bits)) :
    decodeCnr mt b i = .ok (h.val mt, c.sys.map (fun x => (x.1, x.2.val x.1)), i + (h.bits mt ++ c.bits).length) := by
  obtain ⟨f1, f2⟩ := hc
  obtain ⟨e0, r0⟩ := head_at hh hat
  have hl : c.bits.length = 16 + (cat (fun x => CnrSysC.bits x.2) c.sys).length := by simp [CnrMsgC.bits, fb, F.bits, f1]
  obtain ⟨e1, r1⟩ := flds_at [.m 16 c.mask] (by simp [F.Fit]; exact f1) r0
  norm at e1; norm at r1
  have e2 := consts_at (fun s c => cnrSys_rd (b := b) s c) f1 f2 _ r1
  simp only [decodeCnr, e0, us, List.map_cons, List.map_nil, e1, Py.okBind, el, List.getD_cons_zero, Nat.add_assoc, e2, List.length_append, hl]
  rfl

/-- the ratio of an index in dB-Hz: whole numbers from 0 to 18, steps of 0.2 from 19 to 63.8, whole numbers from 64 to 74.
The index 0, not available, is shown as 15. -/
theorem cnr_level (k : Nat) (hk : k < 256) :
    (k = 0 → cnrLvl k = 15) ∧ (1 ≤ k → k ≤ 19 → cnrLvl k = k - 1) ∧ (20 ≤ k → k ≤ 244 → cnrLvl k = 19 + ((k : ℚ) - 20) / 5) ∧
      (245 ≤ k → cnrLvl k = k - 181) ∧ (∀ j : Nat, 1 ≤ j → j < k → cnrLvl j < cnrLvl k) := by
  have v : ∀ n : Nat, cnrLvl n = if 0 < n ∧ n < 20 then (n : ℚ) - 1 else if n < 245 then 19 + ((n : ℚ) - 20) / 5 else (n : ℚ) - 181 := by
    intro n
    unfold cnrLvl
    have c1 : ((n : Int) > 0 ∧ (n : Int) < 20) ↔ (0 < n ∧ n < 20) := by omega
    have c2 : ((n : Int) < 245) ↔ n < 245 := by omega
    simp only [c1, c2]
    split_ifs
    · push_cast; ring
    · push_cast; ring
    · push_cast; ring
  refine ⟨?_, ?_, ?_, ?_, ?_⟩
  · rintro rfl; rw [v]; norm_num
  · intro h1 h2; rw [v, if_pos (by omega)]
  · intro h1 h2; rw [v, if_neg (by omega), if_pos (by omega)]
  · intro h1; rw [v, if_neg (by omega), if_neg (by omega)]
  · intro j h1 h2
    have q : (j : ℚ) + 1 ≤ k := by exact_mod_cast h2
    rw [v, v]
    by_cases a : k < 20
    · rw [if_pos (by omega), if_pos (by omega)]; linarith
    · have qa : (20 : ℚ) ≤ k := by exact_mod_cast not_lt.1 a
      rw [if_neg (show ¬ (0 < k ∧ k < 20) by omega)]
      by_cases c : j < 20
      · rw [if_pos (show 0 < j ∧ j < 20 by omega)]
        have qc : (j : ℚ) ≤ 19 := by exact_mod_cast Nat.lt_succ_iff.1 c
        split_ifs with d
        · linarith
        · have qd : (245 : ℚ) ≤ k := by exact_mod_cast not_lt.1 d
          linarith
      · rw [if_neg (show ¬ (0 < j ∧ j < 20) by omega)]
        by_cases d : k < 245
        · rw [if_pos d, if_pos (by omega)]; linarith
        · have qd : (245 : ℚ) ≤ k := by exact_mod_cast not_lt.1 d
          rw [if_neg d]
          split_ifs with e
          · have qe : (j : ℚ) ≤ 244 := by exact_mod_cast Nat.lt_succ_iff.1 e
            linarith
          · linarith

/-! ### visibility map (MT 9, 2071) -/

/-- position, and slices of azimuth increment and elevation mask -/
structure VAreaC where
  lat : Int
  lon : Int
  alt : Int
  slices : List (Nat × Nat)

def VAreaC.Fit (c : VAreaC) : Prop :=
  Coord (c.lat, c.lon) ∧ -(2 ^ 13) ≤ c.alt ∧ c.alt < 2 ^ 13 ∧ c.slices.length < 2 ^ 6 ∧ ∀ x ∈ c.slices, x.1 < 2 ^ 9 ∧ x.2 < 2 ^ 7

def sliceBits (x : Nat × Nat) : List Bool := fb [.u 9 x.1, .u 7 x.2]

def VAreaC.bits (c : VAreaC) : List Bool := fb [.s 34 c.lat, .s 35 c.lon, .s 14 c.alt, .u 6 c.slices.length] ++ cat sliceBits c.slices

/-- latitude, longitude, height -/
def place (lat lon alt : Int) : ℚ × ℚ × ℚ := ((lat : ℚ) * (11 / 1000000000), (lon : ℚ) * (11 / 1000000000), (alt : ℚ))

/-- the azimuth of a slice is the sum of the increments up to it -/
def VAreaC.val (c : VAreaC) : (ℚ × ℚ × ℚ) × List (Int × Int) :=
  (place c.lat c.lon c.alt, c.slices.mapIdx fun k x => ((((c.slices.take (k + 1)).map Prod.fst).sum : Nat), (x.2 : Int)))

structure VmapC where
  cf : Nat
  seq : Nat
  areas : List VAreaC

def VmapC.Fit (c : VmapC) : Prop := c.cf < 2 ^ 1 ∧ c.seq < 2 ^ 5 ∧ c.areas.length < 2 ^ 8 ∧ ∀ x ∈ c.areas, x.Fit

def VmapC.bits (c : VmapC) : List Bool := fb [.u 8 c.areas.length, .u 1 c.cf, .u 5 c.seq] ++ cat VAreaC.bits c.areas

theorem slices_at {b : BitBuf} : ∀ (l : List (Nat × Nat)) (az : Nat), (∀ x ∈ l, x.1 < 2 ^ 9 ∧ x.2 < 2 ^ 7) →
    Rd b (fun i => RtcmInteg.slices b l.length az i) (cat sliceBits l)
      (l.mapIdx fun k x => (((az + ((l.take (k + 1)).map Prod.fst).sum : Nat) : Int), (x.2 : Int)))
  | [], az, _, i, _ => rfl
  | x :: l, az, h, i, hat => by
    have hx := h x (by simp)
    simp only [cat, List.flatMap_cons] at hat
    obtain ⟨e1, r1⟩ := flds_at [.u 9 x.1, .u 7 x.2] (by simp [F.Fit]; exact hx) hat
    norm at e1; norm at r1
    have e2 := slices_at l (az + x.1) (fun y hy => h y (by simp [hy])) _ r1
    have hc : ((az : Int) + (x.1 : Int)) = ((az + x.1 : Nat) : Int) := by push_cast; rfl
    have hl : (sliceBits x).length = 16 := by simp [sliceBits, fb, F.bits]
    simp only [List.length_cons, RtcmInteg.slices, us, List.map_cons, List.map_nil, e1, Py.okBind, el, List.getD_cons_zero,
      List.getD_cons_succ, hc, e2, cat, List.flatMap_cons, List.length_append, hl, Nat.add_assoc, List.mapIdx_cons]
    simp [List.take_succ_cons]
    rfl

theorem place_eq (lat lon alt : Int) :
    ((lat : ℚ) * (11 / 10 ^ 9), (lon : ℚ) * (11 / 10 ^ 9), (alt : ℚ)) = place lat lon alt := by
  unfold place; norm_num

theorem vmapArea_rd {b : BitBuf} (c : VAreaC) (h : c.Fit) : Rd b (vmapArea b) c.bits c.val := by
  intro i hat
  obtain ⟨⟨f1, f2, f3, f4⟩, f5, f6, f7, f8⟩ := h
  have hl : c.bits.length = 89 + (cat sliceBits c.slices).length := by simp [VAreaC.bits, fb, F.bits]; omega
  obtain ⟨e1, r1⟩ := flds_at [.s 34 c.lat, .s 35 c.lon, .s 14 c.alt, .u 6 c.slices.length]
    (by simp [F.Fit]; exact ⟨⟨f1, f2⟩, ⟨f3, f4⟩, ⟨f5, f6⟩, f7⟩) hat
  norm at e1; norm at r1
  have e2 := slices_at c.slices 0 f8 _ r1
  simp only [Nat.cast_zero] at e2
  simp only [vmapArea, e1, Py.okBind, el, List.getD_cons_zero, List.getD_cons_succ, Int.toNat_natCast, e2, hl, Nat.add_assoc, place_eq,
    VAreaC.val, Nat.zero_add]
  rfl

/-- a visibility map is read as sent -/
theorem visibility {mt : Nat} {h : HeadC} {c : VmapC} (hh : h.Fit) (hc : c.Fit) {b : BitBuf} {i : Nat} (hat : At b i (h.bits mt ++ c.bits)) :
    decodeVmap mt b i = .ok (h.val mt, ((c.cf : Int), (c.seq : Int), c.areas.map VAreaC.val), i + (h.bits mt ++ c.bits).length) := by
  obtain ⟨f1, f2, f3, f4⟩ := hc
  obtain ⟨e0, r0⟩ := head_at hh hat
  have hl : c.bits.length = 14 + (cat VAreaC.bits c.areas).length := by simp [VmapC.bits, fb, F.bits]; omega
  obtain ⟨e1, r1⟩ := flds_at [.u 8 c.areas.length, .u 1 c.cf, .u 5 c.seq] (by simp [F.Fit]; exact ⟨f3, by simpa using f1, f2⟩) r0
  norm at e1; norm at r1
  have e2 := rows_rd (fun x hx => vmapArea_rd (b := b) x (f4 x hx)) _ r1
  simp only [decodeVmap, e0, us, List.map_cons, List.map_nil, e1, Py.okBind, el, List.getD_cons_zero, List.getD_cons_succ,
    Int.toNat_natCast, Nat.add_assoc, e2, List.length_append, hl]
  rfl

/-! ### multipath map (MT 10, 2072) -/

/-- mean of a code in metres, -1 for more -/
def mean : Nat → ℚ
  | 0 => 0 | 1 => 0.04 | 2 => 0.07 | 3 => 0.1 | 4 => 0.2 | 5 => 0.3 | 6 => 0.5 | 7 => 1 | 8 => 2 | 9 => 5 | 10 => 10 | 11 => 20 | 12 => 50
  | 13 => 80 | 14 => 100 | _ => -1

/-- standard deviation of a code in metres, -1 for more -/
def dev : Nat → ℚ
  | 0 => 0 | 1 => 0.04 | 2 => 0.07 | 3 => 0.1 | 4 => 0.2 | 5 => 0.25 | 6 => 0.3 | 7 => 0.4 | 8 => 0.5 | 9 => 0.7 | 10 => 1 | 11 => 2 | 12 => 5
  | 13 => 7 | 14 => 10 | _ => -1

/-- an area: position, signals of the message with the parameters of model 1 and 2, components of model 0 -/
structure MAreaC where
  lat : Int
  lon : Int
  alt : Int
  /-- probability, mean, deviation -/
  gm : List (Nat × Nat × Nat)
  mask : List Bool
  /-- signal with the parameters a, b, c, d -/
  sg : List (Nat × Nat × Int × Int × Nat)

def GmFit (x : Nat × Nat × Nat) : Prop := x.1 < 2 ^ 4 ∧ x.2.1 < 2 ^ 4 ∧ x.2.2 < 2 ^ 4

def SgFit (x : Nat × Int × Int × Nat) : Prop :=
  x.1 < 2 ^ 4 ∧ (-(2 ^ 4) ≤ x.2.1 ∧ x.2.1 < 2 ^ 4) ∧ (-(2 ^ 4) ≤ x.2.2.1 ∧ x.2.2.1 < 2 ^ 4) ∧ x.2.2.2 < 2 ^ 8

def MAreaC.Fit (c : MAreaC) : Prop :=
  Coord (c.lat, c.lon) ∧ -(2 ^ 13) ≤ c.alt ∧ c.alt < 2 ^ 13 ∧ c.gm.length < 2 ^ 2 ∧ (∀ x ∈ c.gm, GmFit x) ∧ c.mask.length = 8 ∧
    c.sg.map Prod.fst = positions 0 c.mask ∧ ∀ x ∈ c.sg, SgFit x.2

def gmBits (x : Nat × Nat × Nat) : List Bool := fb [.u 4 x.1, .u 4 x.2.1, .u 4 x.2.2]

/-- only the third model has the parameter d -/
def sgBits (id : Nat) (x : Nat × Int × Int × Nat) : List Bool :=
  fb [.u 4 x.1, .s 5 x.2.1, .s 5 x.2.2.1] ++ if id = 2 then fb [.u 8 x.2.2.2] else []

def MAreaC.bits (id : Nat) (c : MAreaC) : List Bool :=
  (if id = 1 ∨ id = 2 then fb [.m 8 c.mask] else []) ++ (fb [.s 34 c.lat, .s 35 c.lon, .s 14 c.alt] ++
    if id = 0 then fb [.u 2 c.gm.length] ++ cat gmBits c.gm else if id = 1 ∨ id = 2 then cat (fun x => sgBits id x.2) c.sg else [])

/-- probability in sixteenths; b in quarters, c in sixteenths, d in 45/128 -/
def MAreaC.val (id : Nat) (c : MAreaC) : (ℚ × ℚ × ℚ) × Option (List (List ℚ)) :=
  (place c.lat c.lon c.alt,
    if id = 0 then some (c.gm.map fun x => [(x.1 : ℚ) / 16, mean x.2.1, dev x.2.2])
    else if id = 1 ∨ id = 2 then some (c.sg.map fun x => [(x.1 : ℚ), dev x.2.1, (x.2.2.1 : ℚ) / 4, (x.2.2.2.1 : ℚ) / 16] ++
      if id = 2 then [(x.2.2.2.2 : ℚ) * 45 / 128] else [])
    else none)

structure MmapC where
  id : Nat
  cf : Nat
  seq : Nat
  areas : List MAreaC

def MmapC.Fit (c : MmapC) : Prop := c.id < 2 ^ 3 ∧ c.cf < 2 ^ 1 ∧ c.seq < 2 ^ 5 ∧ c.areas.length < 2 ^ 8 ∧ ∀ x ∈ c.areas, x.Fit

def MmapC.bits (c : MmapC) : List Bool := fb [.u 8 c.areas.length, .u 3 c.id, .u 1 c.cf, .u 5 c.seq] ++ cat (MAreaC.bits c.id) c.areas

theorem mean_eq {k : Nat} (h : k < 2 ^ 4) : pyGet muK k = .ok (mean k) := by
  interval_cases k <;> simp [pyGet, muK, mean] <;> norm_num

theorem dev_eq {k : Nat} (h : k < 2 ^ 4) : pyGet sigK k = .ok (dev k) := by
  interval_cases k <;> simp [pyGet, sigK, dev] <;> norm_num

theorem gmm_rd {b : BitBuf} (x : Nat × Nat × Nat) (h : GmFit x) :
    Rd b (gmm b) (gmBits x) [(x.1 : ℚ) / 16, mean x.2.1, dev x.2.2] := by
  intro i hat
  obtain ⟨f1, f2, f3⟩ := h
  obtain ⟨e1, -⟩ := flds_at [.u 4 x.1, .u 4 x.2.1, .u 4 x.2.2] (m := []) (by simp [F.Fit]; exact ⟨f1, f2, f3⟩) (by simpa [gmBits] using hat)
  norm at e1
  have hl : (gmBits x).length = 12 := by simp [gmBits, fb, F.bits]
  have hq : (((x.1 : Int)) : ℚ) * (625 / 10000) = (x.1 : ℚ) / 16 := by push_cast; ring
  simp only [gmm, us, List.map_cons, List.map_nil, e1, Py.okBind, el, List.getD_cons_zero, List.getD_cons_succ, Int.toNat_natCast, mean_eq f2,
    dev_eq f3, hl, hq]
  rfl

theorem mbm_rd {b : BitBuf} (id : Nat) (x : Nat × Nat × Int × Int × Nat) (h : SgFit x.2) :
    Rd b (mbm (decide ((id : Int) = 2)) b x.1) (sgBits id x.2) ([(x.1 : ℚ), dev x.2.1, (x.2.2.1 : ℚ) / 4, (x.2.2.2.1 : ℚ) / 16] ++
      if id = 2 then [(x.2.2.2.2 : ℚ) * 45 / 128] else []) := by
  intro i hat
  obtain ⟨f1, f2, f3, f4⟩ := h
  obtain ⟨e1, r1⟩ := flds_at [.u 4 x.2.1, .s 5 x.2.2.1, .s 5 x.2.2.2.1] (by simp [F.Fit]; exact ⟨f1, f2, f3⟩) hat
  norm at e1; norm at r1
  have q1 : ((x.2.2.1 : ℚ)) * (25 / 100) = (x.2.2.1 : ℚ) / 4 := by ring
  have q2 : ((x.2.2.2.1 : ℚ)) * (625 / 10000) = (x.2.2.2.1 : ℚ) / 16 := by ring
  have q3 : (((x.2.2.2.2 : Int)) : ℚ) * (3515625 / 10 ^ 7) = (x.2.2.2.2 : ℚ) * 45 / 128 := by push_cast; ring
  by_cases hid : id = 2
  · subst hid
    rw [if_pos rfl] at r1
    obtain ⟨e2, -⟩ := flds_at [.u 8 x.2.2.2.2] (m := []) (by simp [F.Fit]; exact f4) (by simpa using r1)
    norm at e2
    have hl : (sgBits 2 x.2).length = 22 := by simp [sgBits, fb, F.bits]
    simp only [mbm, e1, Py.okBind, el, List.getD_cons_zero, List.getD_cons_succ, Int.toNat_natCast, dev_eq f1, us, List.map_cons,
      List.map_nil, e2, hl, q1, q2, q3]
    rfl
  · have hid' : decide ((id : Int) = 2) = false := by simp; omega
    have hl : (sgBits id x.2).length = 14 := by simp [sgBits, fb, F.bits, hid]
    simp only [mbm, e1, Py.okBind, el, List.getD_cons_zero, List.getD_cons_succ, Int.toNat_natCast, dev_eq f1, hl, q1, q2, hid', if_neg hid]
    rfl

theorem mmapArea_rd {b : BitBuf} (id : Nat) (c : MAreaC) (h : c.Fit) : Rd b (mmapArea id b) (c.bits id) (c.val id) := by
  intro i hat
  obtain ⟨⟨f1, f2, f3, f4⟩, f5, f6, f7, f8, f9, f10, f11⟩ := h
  have hc : ((id : Int) = 1 ∨ (id : Int) = 2) ↔ (id = 1 ∨ id = 2) := by omega
  have hpos : ∀ {j : Nat} {m : List Bool}, At b j (fb [.s 34 c.lat, .s 35 c.lon, .s 14 c.alt] ++ m) →
      flds b j [(34, true), (35, true), (14, true)] = .ok [c.lat, c.lon, c.alt] ∧ At b (j + 83) m := by
    intro j m hj
    obtain ⟨e1, r1⟩ := flds_at [.s 34 c.lat, .s 35 c.lon, .s 14 c.alt] (by simp [F.Fit]; exact ⟨⟨f1, f2⟩, ⟨f3, f4⟩, ⟨f5, f6⟩⟩) hj
    norm at e1; norm at r1
    exact ⟨e1, r1⟩
  by_cases hm : id = 1 ∨ id = 2
  · have h0 : id ≠ 0 := by omega
    have h0' : ¬ ((id : Int) = 0) := by omega
    have hl : (c.bits id).length = 91 + (cat (fun x => sgBits id x.2) c.sg).length := by
      simp [MAreaC.bits, hm, h0, fb, F.bits, f9]; omega
    unfold MAreaC.bits at hat
    rw [if_pos hm, if_neg h0, if_pos hm] at hat
    obtain ⟨e1, r1⟩ := flds_at [.m 8 c.mask] (by simp [F.Fit]; exact f9) hat
    norm at e1; norm at r1
    obtain ⟨e2, r2⟩ := hpos r1
    norm at r2
    have e3 := each_rd (b := b) (f := mbm (decide ((id : Int) = 2)) b) (bits := sgBits id) (l := c.sg)
      (fun x hx => mbm_rd id x (f11 x hx)) _ r2
    rw [f10] at e3
    simp only [mmapArea, hc, if_pos hm, us, List.map_cons, List.map_nil, e1, Py.okBind, e2, if_neg h0', el, List.getD_cons_zero,
      List.getD_cons_succ, maskOf_bits f9, Nat.add_assoc, Nat.reduceAdd, e3, hl, MAreaC.val, place_eq, if_neg h0, if_pos hm]
    simp only [List.map_map]
    rfl
  · unfold MAreaC.bits at hat
    rw [if_neg hm, List.nil_append] at hat
    obtain ⟨e2, r2⟩ := hpos hat
    by_cases h0 : id = 0
    · have h0' : (id : Int) = 0 := by omega
      rw [if_pos h0] at r2
      have hl : (c.bits id).length = 85 + (cat gmBits c.gm).length := by simp [MAreaC.bits, fb, F.bits, h0]; omega
      obtain ⟨e3, r3⟩ := flds_at [.u 2 c.gm.length] (by simp [F.Fit]; exact f7) r2
      norm at e3; norm at r3
      have e4 := rows_rd (fun x hx => gmm_rd (b := b) x (f8 x hx)) _ r3
      simp only [mmapArea, hc, if_neg hm, Py.okBind, e2, us, List.map_cons, List.map_nil, e3, el, List.getD_cons_zero,
        List.getD_cons_succ, Int.toNat_natCast, Nat.add_assoc, Nat.reduceAdd, e4, hl, MAreaC.val, place_eq, if_pos h0, if_pos h0']
      rfl
    · have h0' : ¬ ((id : Int) = 0) := by omega
      have hl : (c.bits id).length = 83 := by simp [MAreaC.bits, fb, F.bits, hm, h0]
      simp only [mmapArea, hc, if_neg hm, Py.okBind, e2, el, List.getD_cons_zero, List.getD_cons_succ, hl, MAreaC.val, place_eq, if_neg h0,
        if_neg h0']
      rfl

/-- a multipath map is read as sent; models 3 to 7 have positions only -/
theorem multipath {mt : Nat} {h : HeadC} {c : MmapC} (hh : h.Fit) (hc : c.Fit) {b : BitBuf} {i : Nat} (hat : At b i (h.bits mt ++ c.bits)) :
    decodeMmap mt b i = .ok (h.val mt, ((c.id : Int), (c.cf : Int), (c.seq : Int), c.areas.map (MAreaC.val c.id)),
      i + (h.bits mt ++ c.bits).length) := by
  obtain ⟨f1, f2, f3, f4, f5⟩ := hc
  obtain ⟨e0, r0⟩ := head_at hh hat
  have hl : c.bits.length = 17 + (cat (MAreaC.bits c.id) c.areas).length := by simp [MmapC.bits, fb, F.bits]; omega
  obtain ⟨e1, r1⟩ := flds_at [.u 8 c.areas.length, .u 3 c.id, .u 1 c.cf, .u 5 c.seq]
    (by simp [F.Fit]; exact ⟨f4, f1, by simpa using f2, f3⟩) r0
  norm at e1; norm at r1
  have e2 := rows_rd (fun x hx => mmapArea_rd (b := b) c.id x (f5 x hx)) _ r1
  simp only [decodeMmap, e0, us, List.map_cons, List.map_nil, e1, Py.okBind, el, List.getD_cons_zero, List.getD_cons_succ,
    Int.toNat_natCast, Nat.add_assoc, e2, List.length_append, hl]
  rfl

/-! ### integrity of SSR (MT 11, 12, 13, 2011) -/

structure SsrSysC where
  mask : List Bool
  iod : Nat
  flags : List (Nat × Nat)

def SsrSysC.Fit (c : SsrSysC) : Prop := c.mask.length = 64 ∧ c.iod < 2 ^ 2 ∧ SatsOf c.mask c.flags (· < 2 ^ 2)

def SsrSysC.bits (c : SsrSysC) : List Bool := fb [.m 64 c.mask, .u 2 c.iod] ++ cat (fun x => fb [.u 2 x.2]) c.flags

def SsrSysC.val (sys : Sys) (c : SsrSysC) : Int × List (Int × Int) := ((c.iod : Int), c.flags.map fun x => (number sys x.1, (x.2 : Int)))

structure SsrC where
  pidssr : Nat
  sidssr : Nat
  iodssr : Nat
  mask : List Bool
  sys : List (Sys × SsrSysC)

def SsrC.Fit (c : SsrC) : Prop :=
  c.pidssr < 2 ^ 16 ∧ c.sidssr < 2 ^ 4 ∧ c.iodssr < 2 ^ 4 ∧ c.mask.length = 16 ∧ ConsOf c.mask c.sys SsrSysC.Fit

def SsrC.bits (c : SsrC) : List Bool :=
  fb [.u 16 c.pidssr, .u 4 c.sidssr, .u 4 c.iodssr, .m 16 c.mask] ++ cat (fun x => SsrSysC.bits x.2) c.sys

/-- the excluded satellites are those with flag 1 -/
def SsrC.val (c : SsrC) : Ssr :=
  ⟨c.pidssr, c.sidssr, c.iodssr, c.sys.map fun x => (x.1, x.2.val x.1),
    c.sys.flatMap fun x => (x.2.flags.filter fun y => y.2 = 1).map fun y => number x.1 y.1⟩

theorem ssrSat_rd {b : BitBuf} (v : Nat) (h : v < 2 ^ 2) : Rd b (ssrSat b) (fb [.u 2 v]) (v : Int) := by
  intro i hat
  obtain ⟨e1, -⟩ := flds_at [.u 2 v] (m := []) (by simp [F.Fit]; exact h) (by simpa using hat)
  norm at e1
  simp [ssrSat, us, e1, el, fb, F.bits]

theorem ssrSys_rd {b : BitBuf} (s : Sys) (c : SsrSysC) (hs : s ≠ .sbs) (h : c.Fit) : Rd b (ssrSys b s) c.bits (c.val s) := by
  intro i hat
  obtain ⟨f1, f2, f3⟩ := h
  have hl : c.bits.length = 66 + (cat (fun x => fb [.u 2 x.2]) c.flags).length := by simp [SsrSysC.bits, fb, F.bits, f1]; omega
  obtain ⟨e1, r1⟩ := flds_at [.m 64 c.mask, .u 2 c.iod] (by simp [F.Fit]; exact ⟨f1, f2⟩) hat
  norm at e1; norm at r1
  have e2 := sats_rd hs (fun v => ssrSat_rd (b := b) v) f3 _ r1
  simp only [ssrSys, us, List.map_cons, List.map_nil, e1, Py.okBind, el, List.getD_cons_zero, List.getD_cons_succ, maskOf_bits f1, e2, hl,
    Nat.add_assoc]
  rfl

/-- the integrity of an SSR service is read as sent, with the satellites to exclude -/
theorem ssr_integrity {mt : Nat} {h : HeadC} {c : SsrC} (hh : h.Fit) (hc : c.Fit) {b : BitBuf} {i : Nat} (hat : At b i (h.bits mt ++ c.bits)) :
    decodeSsr mt b i = .ok (h.val mt, c.val, i + (h.bits mt ++ c.bits).length) := by
  obtain ⟨f1, f2, f3, f4, f5⟩ := hc
  obtain ⟨e0, r0⟩ := head_at hh hat
  have hl : c.bits.length = 40 + (cat (fun x => SsrSysC.bits x.2) c.sys).length := by simp [SsrC.bits, fb, F.bits, f4]; omega
  obtain ⟨e1, r1⟩ := flds_at [.u 16 c.pidssr, .u 4 c.sidssr, .u 4 c.iodssr] (m := fb [.m 16 c.mask] ++ cat (fun x => SsrSysC.bits x.2) c.sys)
    (by simp [F.Fit]; exact ⟨f1, f2, f3⟩) (by simpa [SsrC.bits, fb] using r0)
  norm at e1; norm at r1
  obtain ⟨e2, r2⟩ := flds_at [.m 16 c.mask] (by simp [F.Fit]; exact f4) r1
  norm at e2; norm at r2
  have e3 := consts_at (fun s c => ssrSys_rd (b := b) s c) f4 f5 _ r2
  simp only [decodeSsr, e0, us, List.map_cons, List.map_nil, e1, e2, Py.okBind, el, List.getD_cons_zero, List.getD_cons_succ, Nat.add_assoc,
    e3, List.length_append, hl]
  have : ((c.sys.map fun x => (x.1, x.2.val x.1)).flatMap fun x => (x.2.2.filter fun y => y.2 = 1).map (·.1)) =
      c.sys.flatMap fun x => (x.2.flags.filter fun y => y.2 = 1).map fun y => number x.1 y.1 := by
    rw [List.flatMap_map]
    refine List.flatMap_congr fun x _ => ?_
    simp only [SsrSysC.val, List.filter_map, List.map_map]
    congr 1
    refine List.filter_congr fun y _ => ?_
    simp
  rw [this]
  rfl

theorem flds_head {b : BitBuf} {i n : Nat} {mask m : List Bool} {L : List (Nat × Bool)} {v : List Int} (hm : mask.length = n)
    (hat : At b i (mask ++ m)) (h : flds b i ((n, false) :: L) = .ok v) : el v 0 = bitsToNat mask := by
  simp only [flds, (hat.stepBits hm).1] at h
  cases hr : flds b (i + n) L with
  | error _ => rw [hr] at h; cases h
  | ok r => rw [hr] at h; cases h; rfl

/-- a constellation beyond the six makes a message of any of the four kinds with a constellation mask fail -/
theorem unknown_constellation {mt : Nat} {h : HeadC} (hh : h.Fit) {mask : List Bool} (hm : mask.length = 16) {k : Nat}
    (hk : k ∈ positions 0 mask) (h6 : 6 ≤ k) {b : BitBuf} {i : Nat} :
    (∀ m, At b i (h.bits mt ++ (mask ++ m)) → ∀ r, decodeCnr mt b i ≠ .ok r) ∧
    (∀ m old, At b i (h.bits mt ++ (mask ++ m)) → ∀ r, decodeMin mt old b i ≠ .ok r) ∧
    (∀ g m, g.length = 24 → At b i (h.bits mt ++ (g ++ (mask ++ m))) → ∀ r, decodeSsr mt b i ≠ .ok r) ∧
    (∀ g m, g.length = 82 → At b i (h.bits mt ++ (g ++ (mask ++ m))) → ∀ r, decodeExt mt b i ≠ .ok r) := by
  refine ⟨?_, ?_, ?_, ?_⟩
  · intro m hat r hr
    obtain ⟨e0, r0⟩ := head_at hh hat
    simp only [decodeCnr, e0, us, List.map_cons, List.map_nil, Py.okBind] at hr
    cases hv : flds b (i + (HeadC.bits mt h).length) [(16, false)] with
    | error _ => rw [hv] at hr; cases hr
    | ok v =>
      rw [hv] at hr
      simp only [Py.okBind, flds_head hm r0 hv] at hr
      cases hq : consts (cnrSys b) (bitsToNat mask : Int) (i + (HeadC.bits mt h).length + 16) with
      | error _ => rw [hq] at hr; cases hr
      | ok q => exact consts_unknown hm hk h6 _ _ hq
  · intro m old hat r hr
    obtain ⟨e0, r0⟩ := head_at hh hat
    simp only [decodeMin, e0, us, List.map_cons, List.map_nil, Py.okBind] at hr
    cases hv : flds b (i + (HeadC.bits mt h).length) [(16, false), (16, false), (16, false)] with
    | error _ => rw [hv] at hr; cases hr
    | ok v =>
      rw [hv] at hr
      simp only [Py.okBind, flds_head hm r0 hv] at hr
      cases hq : consts (minSys b) (bitsToNat mask : Int) (i + (HeadC.bits mt h).length + 48) with
      | error _ => rw [hq] at hr; cases hr
      | ok q => exact consts_unknown hm hk h6 _ _ hq
  · intro g m hg hat r hr
    obtain ⟨e0, r0⟩ := head_at hh hat
    have r1 := r0.tail' hg
    simp only [decodeSsr, e0, us, List.map_cons, List.map_nil, Py.okBind] at hr
    cases hp : flds b (i + (HeadC.bits mt h).length) [(16, false), (4, false), (4, false)] with
    | error _ => rw [hp] at hr; cases hr
    | ok p =>
      rw [hp] at hr
      simp only [Py.okBind] at hr
      cases hv : flds b (i + (HeadC.bits mt h).length + 24) [(16, false)] with
      | error _ => rw [hv] at hr; cases hr
      | ok v =>
        rw [hv] at hr
        simp only [Py.okBind, flds_head hm r1 hv] at hr
        cases hq : consts (ssrSys b) (bitsToNat mask : Int) (i + (HeadC.bits mt h).length + 40) with
        | error _ => rw [hq] at hr; cases hr
        | ok q => exact consts_unknown hm hk h6 _ _ hq
  · intro g m hg hat r hr
    obtain ⟨e0, r0⟩ := head_at hh hat
    have r1 := r0.tail' hg
    simp only [decodeExt, e0, us, List.map_cons, List.map_nil, Py.okBind] at hr
    cases hp : flds b (i + (HeadC.bits mt h).length) [(8, false), (7, false), (15, false)] with
    | error _ => rw [hp] at hr; cases hr
    | ok p =>
      rw [hp] at hr
      simp only [Py.okBind] at hr
      cases hv : flds b (i + (HeadC.bits mt h).length + 82) [(16, false)] with
      | error _ => rw [hv] at hr; cases hr
      | ok v =>
        rw [hv] at hr
        simp only [Py.okBind, flds_head hm r1 hv] at hr
        cases ha : extPaug b (i + (HeadC.bits mt h).length + 82 + 16) with
        | error _ => rw [ha] at hr; cases hr
        | ok a =>
          rw [ha] at hr
          simp only [Py.okBind] at hr
          cases hw : flds b a.2 [(1, false), (6, false)] with
          | error _ => rw [hw] at hr; cases hr
          | ok w =>
            rw [hw] at hr
            simp only [Py.okBind] at hr
            cases hq : consts (extSys b) (bitsToNat mask : Int) (a.2 + 7) with
            | error _ => rw [hq] at hr; cases hr
            | ok q => exact consts_unknown hm hk h6 _ _ hq

/-! ### the encoder of SSR integrity -/

theorem flags_wr : ∀ (l : List (Int × Int)) (p p' : Pos), p.2 ≤ p.1.length → l.foldlM (fun p y => putU p 2 y.2) p = .ok p' →
    (∀ y ∈ l, 0 ≤ y.2 ∧ y.2 < 2 ^ 2) ∧ Wr p p' (l.flatMap fun y => natToBits 2 y.2.toNat)
  | [], p, p', hp, h => by
    rw [List.foldlM_nil] at h
    cases h
    exact ⟨by simp, Wr.nil hp⟩
  | y :: l, p, p', hp, h => by
    rw [List.foldlM_cons] at h
    obtain ⟨q, h1, h2⟩ := Py.bind_ok.1 h
    obtain ⟨a, b, w⟩ := RtcmSsr.putU_wr h1
    obtain ⟨c, d⟩ := flags_wr l q p' w.le h2
    refine ⟨fun x hx => ?_, by rw [List.flatMap_cons]; exact w.trans d⟩
    rcases List.mem_cons.1 hx with e | e
    · rw [e]; exact ⟨a, b⟩
    · exact c x e

/-- the slot of bit `k` of a satellite mask exists -/
def Slot (s : Sys) (k : Nat) : Prop := 1 ≤ k ∧ k ≤ 64 ∧ C01.inSlot s (if s = .qzs then k + 192 else k)

theorem svidOf_number {s : Sys} {k : Nat} (h : Slot s k) : svidOf (number s k) = k := by
  have := (C01.sat2prn_prn2sat s _ h.2.2).2.2
  unfold svidOf number
  rw [this]
  by_cases hs : s = .qzs
  · simp [hs]
  · simp [hs]

/-- the part of a constellation that was encoded is decoded as follows: the flags, in the order of the dictionary, go to the satellites in
ascending order -/
theorem constellation {s : Sys} (hs : s ≠ .sbs) {iod : Int} {fl : List (Nat × Nat)} (hfl : ∀ x ∈ fl, Slot s x.1) {ks : List Nat}
    (hp : ks.Perm (fl.map Prod.fst)) (ha : ks.Pairwise (· < ·)) {p p' : Pos}
    (h : encSys p (s, iod, fl.map fun x => (number s x.1, (x.2 : Int))) = .ok p') :
    ssrSys p'.1 s p.2 = .ok ((iod, (ks.zip (fl.map Prod.snd)).map fun x => (number s x.1, (x.2 : Int))), p'.2) := by
  unfold encSys at h
  simp only [List.map_map] at h
  have e0 : fl.map ((fun y : Int × Int => svidOf y.1) ∘ fun x : Nat × Nat => (number s x.1, (x.2 : Int))) =
      (fl.map Prod.fst).map (fun k : Nat => (k : Int)) := by
    rw [List.map_map]
    exact List.map_congr_left fun x hx => svidOf_number (hfl x hx)
  rw [e0] at h
  obtain ⟨d, hd, hlt, hsort, hmem⟩ := C10.decode_encode (fl.map Prod.fst) 64 1 (by
    intro k hk
    obtain ⟨x, hx, rfl⟩ := List.mem_map.1 hk
    have := hfl x hx
    exact ⟨this.1, by have := this.2.1; omega⟩)
  have hd' : encodeMask ((fl.map Prod.fst).map fun k : Nat => (k : Int)) 64 1 = .ok d := by simpa using hd
  rw [hd', Py.okBind] at h
  obtain ⟨p1, h1, h⟩ := Py.bind_ok.1 h
  obtain ⟨p2, h2, h3⟩ := Py.bind_ok.1 h
  obtain ⟨-, -, w1⟩ := RtcmSsr.putU_wr h1
  obtain ⟨i0, i1, w2⟩ := RtcmSsr.putU_wr h2
  obtain ⟨fr, w3⟩ := flags_wr _ _ _ w2.le h3
  simp only [Int.toNat_natCast] at w1
  have w := (w1.trans w2).trans w3
  have hks : (decodeMask d 64 1).1 = ks := by
    refine List.Perm.eq_of_pairwise (le := (· < ·)) (fun a b _ _ x y => absurd x (by omega)) hsort ha ?_
    refine (List.perm_ext_iff_of_nodup (hsort.imp fun h => ne_of_lt h) (ha.imp fun h => ne_of_lt h)).2 fun k => ?_
    rw [hmem, hp.mem_iff]
  have hpos : positions 1 (natToBits 64 d) = ks := by
    rw [← maskOf_bits (natToBits_length 64 d) 1, ← hks, bitsToNat_natToBits, Nat.mod_eq_of_lt hlt]
    unfold maskOf
    rw [Int.toNat_natCast]
  have hM : (natToBits 64 d).length = 64 := natToBits_length _ _
  generalize natToBits 64 d = M at hpos w hM
  have hlen : ks.length = (fl.map Prod.snd).length := by rw [hp.length_eq]; simp
  have hc : SsrSysC.Fit ⟨M, iod.toNat, ks.zip (fl.map Prod.snd)⟩ := by
    refine ⟨hM, ?_, ?_, ?_⟩
    · simp only; omega
    · simp only
      rw [List.map_fst_zip (by omega), hpos]
    · intro x hx
      have := (List.of_mem_zip hx).2
      obtain ⟨y, hy, e⟩ := List.mem_map.1 this
      have := fr (number s y.1, (y.2 : Int)) (List.mem_map.2 ⟨y, hy, rfl⟩)
      simp only at this
      omega
  have hbits : SsrSysC.bits ⟨M, iod.toNat, ks.zip (fl.map Prod.snd)⟩ = M ++ natToBits 2 iod.toNat ++
      (fl.map fun x => (number s x.1, (x.2 : Int))).flatMap fun y => natToBits 2 y.2.toNat := by
    have e1 : (ks.zip (fl.map Prod.snd)).flatMap (fun x => fb [.u 2 x.2]) = (fl.map Prod.snd).flatMap fun v => natToBits 2 v := by
      conv_rhs => rw [← List.map_snd_zip (l₁ := ks) (l₂ := fl.map Prod.snd) (by omega), List.flatMap_map]
      simp only [fb, F.bits, List.flatMap_cons, List.flatMap_nil, List.append_nil]
    simp only [SsrSysC.bits, cat, e1]
    simp only [fb, F.bits, List.flatMap_cons, List.flatMap_nil, List.append_nil, List.flatMap_map, Int.toNat_natCast]
  have hr := ssrSys_rd (b := p'.1) s _ hs hc p.2 (by rw [hbits]; exact w.at_)
  rw [hr, hbits, ← w.pos]
  simp only [SsrSysC.val, Int.toNat_of_nonneg i0]

theorem encSys_wr {p p' : Pos} {x : Sys × Int × List (Int × Int)} (h : encSys p x = .ok p') : ∃ l, Wr p p' l := by
  unfold encSys at h
  obtain ⟨m, -, h⟩ := Py.bind_ok.1 h
  obtain ⟨p1, h1, h⟩ := Py.bind_ok.1 h
  obtain ⟨p2, h2, h3⟩ := Py.bind_ok.1 h
  have w1 := (RtcmSsr.putU_wr h1).2.2
  have w2 := (RtcmSsr.putU_wr h2).2.2
  exact ⟨_, (w1.trans w2).trans (flags_wr _ _ _ w2.le h3).2⟩

theorem encSys_loop : ∀ (l : List (Sys × Int × List (Int × Int))) (p p' : Pos), p.2 ≤ p.1.length → l.foldlM encSys p = .ok p' →
    ∃ m, Wr p p' m
  | [], p, p', hp, h => by
    rw [List.foldlM_nil] at h
    cases h
    exact ⟨_, Wr.nil hp⟩
  | x :: l, p, p', hp, h => by
    rw [List.foldlM_cons] at h
    obtain ⟨q, h1, h2⟩ := Py.bind_ok.1 h
    obtain ⟨m, w⟩ := encSys_wr h1
    obtain ⟨m', w'⟩ := encSys_loop l q p' w.le h2
    exact ⟨_, w.trans w'⟩

theorem vpR_spec {vp : ℚ} {v : Int} (h : vpR vp = .ok v) : ∃ k : Nat, v = k ∧ k < 2 ^ 4 ∧ period k = pyTrunc vp := by
  unfold vpR at h
  cases hf : vpTbl.findIdx? (· = pyTrunc vp) with
  | none => rw [hf] at h; cases h
  | some k =>
    rw [hf] at h
    cases h
    obtain ⟨hk, hv, -⟩ := List.findIdx?_eq_some_iff_getElem.1 hf
    have hk' : k < 2 ^ 4 := hk
    refine ⟨k, rfl, hk', ?_⟩
    have hg : pyGet vpTbl k = .ok (vpTbl[k]'hk) := by
      simp only [pyGet, List.getElem?_eq_getElem hk]
    rw [period_eq hk'] at hg
    simp only [Except.ok.injEq] at hg
    rw [hg]
    exact of_decide_eq_true hv

/-- the encoder writes: provider, provider, solution and issue of the SSR, time in milliseconds, constellations, validity, interval -/
theorem ssr_written {e : Enc} {p p' : Pos} (h : encodeSsr e p = .ok p') :
    ∃ (mask vp : Nat) (rest : List Bool), period vp = pyTrunc e.vp ∧ vp < 2 ^ 4 ∧
      (0 ≤ e.ipid ∧ e.ipid < 2 ^ 12) ∧ (0 ≤ e.pid ∧ e.pid < 2 ^ 16) ∧ (0 ≤ e.sid ∧ e.sid < 2 ^ 4) ∧ (0 ≤ e.iodssr ∧ e.iodssr < 2 ^ 4) ∧
      (0 ≤ pyTrunc (e.tow * 1000) ∧ pyTrunc (e.tow * 1000) < 2 ^ 30) ∧ mask < 2 ^ 16 ∧
      (0 ≤ pyTrunc (e.udi * 10) ∧ pyTrunc (e.udi * 10) < 2 ^ 16) ∧
      Wr p p' (fb [.u 12 e.ipid.toNat, .u 16 e.pid.toNat, .u 4 e.sid.toNat, .u 4 e.iodssr.toNat, .u 30 (pyTrunc (e.tow * 1000)).toNat,
        .u 16 mask, .u 4 vp, .u 16 (pyTrunc (e.udi * 10)).toNat] ++ rest) := by
  unfold encodeSsr at h
  obtain ⟨g, -, h⟩ := Py.bind_ok.1 h
  obtain ⟨mask, -, h⟩ := Py.bind_ok.1 h
  obtain ⟨p1, h1, h⟩ := Py.bind_ok.1 h
  obtain ⟨p2, h2, h⟩ := Py.bind_ok.1 h
  obtain ⟨p3, h3, h⟩ := Py.bind_ok.1 h
  obtain ⟨p4, h4, h⟩ := Py.bind_ok.1 h
  obtain ⟨p5, h5, h⟩ := Py.bind_ok.1 h
  obtain ⟨p6, h6, h⟩ := Py.bind_ok.1 h
  obtain ⟨vp, hv, h⟩ := Py.bind_ok.1 h
  obtain ⟨p7, h7, h⟩ := Py.bind_ok.1 h
  obtain ⟨p8, h8, hz⟩ := Py.bind_ok.1 h
  obtain ⟨k, rfl, hk, hper⟩ := vpR_spec hv
  obtain ⟨a1, b1, w1⟩ := RtcmSsr.putU_wr h1
  obtain ⟨a2, b2, w2⟩ := RtcmSsr.putU_wr h2
  obtain ⟨a3, b3, w3⟩ := RtcmSsr.putU_wr h3
  obtain ⟨a4, b4, w4⟩ := RtcmSsr.putU_wr h4
  obtain ⟨a5, b5, w5⟩ := RtcmSsr.putU_wr h5
  obtain ⟨-, b6, w6⟩ := RtcmSsr.putU_wr h6
  obtain ⟨-, -, w7⟩ := RtcmSsr.putU_wr h7
  obtain ⟨a8, b8, w8⟩ := RtcmSsr.putU_wr h8
  obtain ⟨m, w9⟩ := encSys_loop _ _ _ w8.le hz
  refine ⟨mask, k, m, hper, hk, ⟨a1, b1⟩, ⟨a2, b2⟩, ⟨a3, b3⟩, ⟨a4, b4⟩, ⟨a5, b5⟩, by exact_mod_cast b6, ⟨a8, b8⟩, ?_⟩
  have w := (((((((w1.trans w2).trans w3).trans w4).trans w5).trans w6).trans w7).trans w8).trans w9
  simp only [Int.toNat_natCast] at w
  simpa only [fb, F.bits, List.flatMap_cons, List.flatMap_nil, List.append_nil, List.append_assoc] using w

theorem natToBits_4 (v : Nat) : natToBits 4 v = natToBits 2 (v / 4) ++ natToBits 2 v := by
  simp [natToBits, Nat.div_div_eq_div_mul]

/-- what the encoder puts at the beginning is not the header of the decoder: the time that is read back is made of the provider, the SSR
provider and the solution -/
theorem ssr_misread {e : Enc} {p p' : Pos} (h : encodeSsr e p = .ok p') {mt : Nat} {hd : Head} {j : Nat}
    (hd' : decodeHead mt p'.1 p.2 = .ok (hd, j)) :
    hd.tow = (((e.ipid * 2 ^ 16 + e.pid) * 4 + e.sid / 4 : Int) : ℚ) / 1000 := by
  obtain ⟨mask, vp, rest, -, -, ⟨a1, b1⟩, ⟨a2, b2⟩, ⟨a3, b3⟩, -, -, -, -, w⟩ := ssr_written h
  have hat := w.at_
  simp only [fb, F.bits, List.flatMap_cons, List.flatMap_nil, List.append_nil, List.append_assoc] at hat
  rw [natToBits_4 e.sid.toNat] at hat
  rw [List.append_assoc (natToBits 2 (e.sid.toNat / 4)), ← List.append_assoc, ← List.append_assoc] at hat
  have hlen : (natToBits 12 e.ipid.toNat ++ natToBits 16 e.pid.toNat ++ natToBits 2 (e.sid.toNat / 4)).length = 30 := by
    simp only [List.length_append, natToBits_length]
  have hval : bitsToNat (natToBits 12 e.ipid.toNat ++ natToBits 16 e.pid.toNat ++ natToBits 2 (e.sid.toNat / 4)) =
      (e.ipid.toNat * 2 ^ 16 + e.pid.toNat) * 4 + e.sid.toNat / 4 := by
    simp only [bitsToNat_append, bitsToNat_natToBits, natToBits_length]
    rw [Nat.mod_eq_of_lt (by omega), Nat.mod_eq_of_lt (by omega), Nat.mod_eq_of_lt (by omega)]
  generalize natToBits 12 e.ipid.toNat ++ natToBits 16 e.pid.toNat ++ natToBits 2 (e.sid.toNat / 4) = L at hat hlen hval
  unfold decodeHead at hd'
  obtain ⟨v, hv, hd'⟩ := Py.bind_ok.1 hd'
  have h0 := flds_head hlen hat hv
  obtain ⟨q, -, hd'⟩ := Py.bind_ok.1 hd'
  rw [h0, hval] at hd'
  have key : hd.tow = ((((e.ipid.toNat * 2 ^ 16 + e.pid.toNat) * 4 + e.sid.toNat / 4 : Nat) : Int) : ℚ) * (1 / 1000) := by
    split_ifs at hd'
    · obtain ⟨a, -, hd'⟩ := Py.bind_ok.1 hd'
      cases hd'
      rfl
    · cases hd'
      rfl
  rw [key]
  have ec : (((e.ipid.toNat * 2 ^ 16 + e.pid.toNat) * 4 + e.sid.toNat / 4 : Nat) : Int) = (e.ipid * 2 ^ 16 + e.pid) * 4 + e.sid / 4 := by
    push_cast
    rw [Int.toNat_of_nonneg a1, Int.toNat_of_nonneg a2, Int.toNat_of_nonneg a3]
  rw [ec]
  ring

/-! ### metadata of an SSR service (MT 60) -/

/-- an entry: kind of the model, applied or not, identifier and parameter bits of a model that is not the default one, issue, reference -/
structure EntryC where
  kind : Nat
  ap : Nat
  model : Option (Nat × Option (List Bool))
  iod : Option Nat
  gnss : Nat
  be : Nat

def EntryC.Fit (c : EntryC) : Prop :=
  c.kind < 2 ^ 5 ∧ c.ap < 2 ^ 1 ∧ (∀ x ∈ c.model, x.1 < 2 ^ 3 ∧ ∀ l ∈ x.2, l.length < 2 ^ 8) ∧ (∀ x ∈ c.iod, x < 2 ^ 6) ∧ c.gnss < 2 ^ 4 ∧
    c.be < 2 ^ 4

def paramBits : Option (List Bool) → List Bool
  | none => fb [.u 1 0]
  | some l => fb [.u 1 1, .u 8 l.length] ++ l

def iodBits : Option Nat → List Bool
  | none => fb [.u 1 0]
  | some v => fb [.u 1 1, .u 6 v]

def EntryC.tail (c : EntryC) : List Bool := if c.kind = 7 then fb [.u 4 c.gnss, .u 4 c.be] else []

def EntryC.bits (c : EntryC) : List Bool :=
  match c.model with
  | none => fb [.u 5 c.kind, .u 1 c.ap, .u 1 0] ++ (iodBits c.iod ++ c.tail)
  | some (id, par) => fb [.u 5 c.kind, .u 1 c.ap, .u 1 1, .u 3 id] ++ (iodBits c.iod ++ (paramBits par ++ c.tail))

theorem entry_rd {b : BitBuf} {i : Nat} (c : EntryC) (h : c.Fit) (hat : At b i c.bits) : metaEntry b i = .ok (i + c.bits.length) := by
  obtain ⟨f1, f2, f3, f4, f5, f6⟩ := h
  have htail : ∀ j, At b j c.tail → (if (c.kind : Int) = 7 then (do
      let _ ← flds b j (us [4, 4])
      return j + 8) else return j : Py Nat) = .ok (j + c.tail.length) := by
    intro j hj
    by_cases h7 : c.kind = 7
    · have h7' : (c.kind : Int) = 7 := by omega
      unfold EntryC.tail at hj ⊢
      rw [if_pos h7] at hj
      obtain ⟨e1, -⟩ := flds_at [.u 4 c.gnss, .u 4 c.be] (m := []) (by simp [F.Fit]; exact ⟨f5, f6⟩) (by simpa using hj)
      norm at e1
      simp only [if_pos h7', us, List.map_cons, List.map_nil, e1, Py.okBind, if_pos h7]
      rfl
    · have h7' : ¬ (c.kind : Int) = 7 := by omega
      unfold EntryC.tail
      simp only [if_neg h7', if_neg h7]
      rfl
  have hiod : ∀ j, At b j (iodBits c.iod) → ∃ v, flds b j [(1, false)] = .ok [v] ∧
      (if v ≠ 0 then j + 7 else j + 1) = j + (iodBits c.iod).length := by
    intro j hj
    cases hx : c.iod with
    | none =>
      rw [hx] at hj
      obtain ⟨e1, -⟩ := flds_at [.u 1 0] (m := []) (by simp [F.Fit]) (by simpa [iodBits] using hj)
      norm at e1
      exact ⟨_, e1, rfl⟩
    | some v =>
      rw [hx] at hj
      obtain ⟨e1, -⟩ := flds_at [.u 1 1] (m := fb [.u 6 v]) (by simp [F.Fit]) (by simpa [iodBits, fb] using hj)
      norm at e1
      exact ⟨_, e1, rfl⟩
  unfold EntryC.bits at hat ⊢
  cases hm : c.model with
  | none =>
    rw [hm] at hat
    simp only at hat ⊢
    obtain ⟨e1, r1⟩ := flds_at [.u 5 c.kind, .u 1 c.ap, .u 1 0] (by simp [F.Fit]; exact ⟨f1, by simpa using f2⟩) hat
    norm at e1; norm at r1
    obtain ⟨v, e2, hv⟩ := hiod _ r1.head
    have e3 := htail _ r1.tail
    simp only [us, List.map_cons, List.map_nil] at e3
    simp only [metaEntry, us, List.map_cons, List.map_nil, e1, Py.okBind, el, List.getD_cons_zero, List.getD_cons_succ, Nat.cast_zero,
      ne_eq, not_true_eq_false, if_false, e2] at hv ⊢
    rw [hv, e3]
    simp only [fb, F.bits, List.flatMap_cons, List.flatMap_nil, List.append_nil, List.length_append, natToBits_length, Except.ok.injEq]
    omega
  | some x =>
    obtain ⟨id, par⟩ := x
    obtain ⟨g1, g2⟩ := f3 _ hm
    rw [hm] at hat
    simp only at hat ⊢
    obtain ⟨e1, r1⟩ := flds_at [.u 5 c.kind, .u 1 c.ap, .u 1 1] (m := fb [.u 3 id] ++ (iodBits c.iod ++ (paramBits par ++ c.tail)))
      (by simp [F.Fit]; exact ⟨f1, by simpa using f2⟩) (by simpa [fb] using hat)
    norm at e1; norm at r1
    have r2 := r1.tail' (n := 3) (by simp [fb, F.bits])
    norm at r2
    obtain ⟨v, e2, hv⟩ := hiod _ r2.head
    have r3 := r2.tail
    have h10 : ((1 : Nat) : Int) = 0 ↔ False := by simp
    simp only [metaEntry, us, List.map_cons, List.map_nil, e1, Py.okBind, el, List.getD_cons_zero, List.getD_cons_succ,
      ne_eq, h10, not_false_eq_true, if_true, e2] at hv ⊢
    rw [hv]
    generalize hj : i + 10 + (iodBits c.iod).length = j at *
    cases par with
    | none =>
      obtain ⟨e4, r4⟩ := flds_at [.u 1 0] (m := c.tail) (by simp [F.Fit]) (by simpa [paramBits] using r3)
      norm at e4; norm at r4
      have e5 := htail _ r4
      simp only [us, List.map_cons, List.map_nil] at e5
      simp only [e4, Py.okBind, List.getD_cons_zero, Nat.cast_zero, not_true_eq_false, if_false]
      rw [e5]
      simp only [paramBits, fb, F.bits, List.flatMap_cons, List.flatMap_nil, List.append_nil, List.length_append, natToBits_length,
        Except.ok.injEq]
      omega
    | some l =>
      obtain ⟨e4, r4⟩ := flds_at [.u 1 1] (m := fb [.u 8 l.length] ++ (l ++ c.tail)) (by simp [F.Fit]) (by simpa [paramBits, fb] using r3)
      norm at e4; norm at r4
      obtain ⟨e5, r5⟩ := flds_at [.u 8 l.length] (m := l ++ c.tail) (by simpa [F.Fit] using g2 l) r4
      norm at e5; norm at r5
      have e6 := htail _ r5.tail
      simp only [us, List.map_cons, List.map_nil] at e6
      simp only [e4, Py.okBind, List.getD_cons_zero, h10, not_false_eq_true, if_true, e5, Int.toNat_natCast, Nat.add_assoc, Nat.reduceAdd]
      simp only [Nat.add_assoc] at e6
      rw [e6]
      simp only [paramBits, fb, F.bits, List.flatMap_cons, List.flatMap_nil, List.append_nil, List.length_append, natToBits_length,
        Except.ok.injEq]
      omega

/-- the metadata message: its header is read as sent; if there are entries, exactly one is read, whatever their number says -/
theorem metadata {iod pid sid nm : Nat} (h1 : iod < 2 ^ 4) (h2 : pid < 2 ^ 16) (h3 : sid < 2 ^ 4) (h4 : nm < 2 ^ 5) {b : BitBuf} {i : Nat} :
    (nm = 0 → At b i (fb [.u 4 iod, .u 16 pid, .u 4 sid, .u 5 nm]) →
      decodeMeta b i = .ok (((iod : Int), (pid : Int), (sid : Int), 0), i + 36)) ∧
    (nm ≠ 0 → ∀ (c : EntryC) (m : List Bool), c.Fit → At b i (fb [.u 4 iod, .u 16 pid, .u 4 sid, .u 5 nm] ++ (c.bits ++ m)) →
      decodeMeta b i = .ok (((iod : Int), (pid : Int), (sid : Int), (nm : Int)), i + 29 + c.bits.length)) := by
  constructor
  · rintro rfl hat
    obtain ⟨e1, -⟩ := flds_at [.u 4 iod, .u 16 pid, .u 4 sid, .u 5 0] (m := []) (by simp [F.Fit]; exact ⟨h1, h2, h3⟩) (by simpa using hat)
    norm at e1
    simp only [decodeMeta, us, List.map_cons, List.map_nil, e1, Py.okBind, el, List.getD_cons_zero, List.getD_cons_succ]
    rfl
  · intro hn c m hc hat
    obtain ⟨e1, r1⟩ := flds_at [.u 4 iod, .u 16 pid, .u 4 sid, .u 5 nm] (by simp [F.Fit]; exact ⟨h1, h2, h3, h4⟩) hat
    norm at e1; norm at r1
    have hn' : ¬ (nm : Int) = 0 := by omega
    simp only [decodeMeta, us, List.map_cons, List.map_nil, e1, Py.okBind, el, List.getD_cons_zero, List.getD_cons_succ, if_neg hn',
      entry_rd c hc r1.head]
    rfl

/-- the encoder writes the header and no entries -/
theorem metadata_written {iod pid sid nm : Int} {p p' : Pos} (h : encodeMeta iod pid sid nm p = .ok p') :
    p'.2 = p.2 + (if nm = 0 then 36 else 29) ∧
      At p'.1 p.2 (fb [.u 4 iod.toNat, .u 16 pid.toNat, .u 4 sid.toNat, .u 5 nm.toNat]) ∧
      p'.1.drop (p.2 + 29) = p.1.drop (p.2 + 29) := by
  unfold encodeMeta at h
  obtain ⟨p1, h1, h⟩ := Py.bind_ok.1 h
  obtain ⟨p2, h2, h⟩ := Py.bind_ok.1 h
  obtain ⟨p3, h3, h⟩ := Py.bind_ok.1 h
  obtain ⟨p4, h4, h⟩ := Py.bind_ok.1 h
  obtain ⟨a1, b1, w1⟩ := RtcmSsr.putU_wr h1
  obtain ⟨a2, b2, w2⟩ := RtcmSsr.putU_wr h2
  obtain ⟨a3, b3, w3⟩ := RtcmSsr.putU_wr h3
  obtain ⟨a4, b4, w4⟩ := RtcmSsr.putU_wr h4
  have w := ((w1.trans w2).trans w3).trans w4
  have hp4 : p'.1 = p4.1 ∧ p'.2 = p4.2 + if nm = 0 then 7 else 0 := by
    by_cases hn : nm = 0
    · rw [if_pos hn] at h; cases h; simp [hn]
    · rw [if_neg hn] at h; cases h; simp [hn]
  have hlen : (natToBits 4 iod.toNat ++ natToBits 16 pid.toNat ++ natToBits 4 sid.toNat ++ natToBits 5 nm.toNat).length = 29 := by
    simp only [List.length_append, natToBits_length]
  refine ⟨?_, ?_, ?_⟩
  · rw [hp4.2, w.pos, hlen]; split_ifs <;> omega
  · rw [hp4.1]
    simpa only [fb, F.bits, List.flatMap_cons, List.flatMap_nil, List.append_nil, List.append_assoc] using w.at_
  · rw [hp4.1, w.buf]
    have hf := w.fits
    generalize natToBits 4 iod.toNat ++ natToBits 16 pid.toNat ++ natToBits 4 sid.toNat ++ natToBits 5 nm.toNat = L at hf hlen
    unfold splice
    rw [hlen] at hf ⊢
    exact List.drop_left' (by rw [List.length_append, List.length_take, hlen]; omega)

/-! ### witnesses -/

/-- flags given in descending order of satellites come back exchanged -/
theorem order_matters : (encSys (List.replicate 80 false, 0) (.gps, 3, [(5, 1), (2, 0)]) >>= fun p => ssrSys p.1 .gps 0) =
    .ok ((3, [(2, 1), (5, 0)]), 70) := by
  decide +kernel

/-- a message of the encoder for 1000 s is decoded as 262.148 s -/
theorem time_lost : (encodeSsr ⟨1, 1, 0, 3, 1000, 30, 5, [(.gps, 0, [(3, 1)])]⟩ (List.replicate 200 false, 0) >>= fun p =>
    (decodeHead 11 p.1 0).map fun r => r.1.tow) = .ok (262148 / 1000) := by
  decide +kernel

/-! ### the hypotheses can be met -/

/-- a mask with the given bits set -/
def bitsAt (n : Nat) (l : List Nat) : List Bool := (List.range n).map fun k => decide (k ∈ l)

example : HeadC.Fit ⟨345600000, 17, 5, 50, 3⟩ := by unfold HeadC.Fit; decide

/-- a buffer that carries a message at offset 3 -/
example : At ([false, true, true] ++ HeadC.bits 2005 ⟨345600000, 17, 5, 50, 3⟩ ++ [true]) 3 (HeadC.bits 2005 ⟨345600000, 17, 5, 50, 3⟩) :=
  At.intro [false, true, true] _ [true]

example : MinC.Fit ⟨bitsAt 16 [0, 4], 7, 9, [(.gps, ⟨bitsAt 64 [], 1, 0, bitsAt 64 [3], 2, []⟩),
    (.qzs, ⟨bitsAt 64 [1, 6], 1, 0, bitsAt 64 [1], 2, [(2, ⟨bitsAt 8 [0, 2], 1, 2, 3⟩), (7, ⟨bitsAt 8 [], 0, 0, 0⟩)]⟩)]⟩ := by
  simp only [MinC.Fit, ConsOf, MinSysC.Fit, SatsOf, MinSatC.Fit, List.forall_mem_cons]
  decide

example : ExtC.Fit ⟨3, 59, 4, List.replicate 52 false, bitsAt 16 [2], some 9, 1, 7,
    [(.gal, ⟨1, 2, 3, 4, 5, 6, 7, 8, bitsAt 64 [10], [(11, ⟨1, 2, 3, 4, 5, 6⟩)]⟩)]⟩ := by
  simp only [ExtC.Fit, ConsOf, ExtSysC.Fit, SatsOf, ExtSatC.Fit, List.forall_mem_cons]
  decide

example : AreaC.Fit ⟨1, 0, 3, 4, some (1, 2, 3), .points [(-2 ^ 33, 5), (7, 2 ^ 34 - 1)]⟩ := by
  simp only [AreaC.Fit, Shape.Fit, Coord, List.forall_mem_cons]
  simp

example : QualityC.Fit ⟨9, bitsAt 8 [1, 5], [30, 255]⟩ := by unfold QualityC.Fit; decide

example : CnrMsgC.Fit ⟨bitsAt 16 [0], [(.gps, ⟨bitsAt 64 [4], 1, [(5, ⟨bitsAt 8 [0, 2], 1, [(0, ⟨120, 1, 130⟩), (2, ⟨99, 0, 128⟩)]⟩)]⟩)]⟩ := by
  simp only [CnrMsgC.Fit, ConsOf, CnrSysC.Fit, SatsOf, CnrSatC.Fit, CnrC.Fit, List.forall_mem_cons]
  decide

example : VmapC.Fit ⟨0, 1, [⟨3181818181, -7, 100, [(90, 10), (45, 20)]⟩]⟩ := by
  simp only [VmapC.Fit, VAreaC.Fit, Coord, List.forall_mem_cons]
  simp

example : MmapC.Fit ⟨2, 0, 1, [⟨3181818181, -7, 100, [(3, 4, 15)], bitsAt 8 [6], [(6, 3, -16, 15, 200)]⟩]⟩ := by
  simp only [MmapC.Fit, MAreaC.Fit, Coord, GmFit, SgFit, List.forall_mem_cons]
  decide

example : SsrC.Fit ⟨5, 1, 2, bitsAt 16 [0, 3], [(.gps, ⟨bitsAt 64 [2, 8], 1, [(3, 1), (9, 0)]⟩), (.bds, ⟨bitsAt 64 [0], 0, [(1, 1)]⟩)]⟩ := by
  simp only [SsrC.Fit, ConsOf, SsrSysC.Fit, SatsOf, List.forall_mem_cons]
  decide

example : (SsrC.val ⟨5, 1, 2, bitsAt 16 [0, 3], [(.gps, ⟨bitsAt 64 [2, 8], 1, [(3, 1), (9, 0)]⟩), (.bds, ⟨bitsAt 64 [0], 0, [(1, 1)]⟩)]⟩).satE =
    [3, 86] := by decide

example : 7 ∈ positions 0 (bitsAt 16 [0, 7]) := by decide

example : EntryC.Fit ⟨7, 1, some (3, some [true, false, true]), some 12, 2, 1⟩ := by
  unfold EntryC.Fit; simp

example : Slot .qzs 3 ∧ [1, 3].Perm ([(3, 1), (1, 2)].map Prod.fst) := by
  constructor
  · unfold Slot; decide
  · decide

/-- times and intervals between two units of the message are cut towards zero -/
theorem truncated (x : ℚ) : |((pyTrunc x : Int) : ℚ)| ≤ |x| ∧ |x| < |((pyTrunc x : Int) : ℚ)| + 1 ∧ 0 ≤ x * ((pyTrunc x : Int) : ℚ) := by
  unfold pyTrunc
  split
  · rename_i h
    have h1 := Int.floor_le x
    have h2 := Int.lt_floor_add_one x
    have h3 : (0 : ℚ) ≤ ((⌊x⌋ : Int) : ℚ) := by exact_mod_cast Int.floor_nonneg.mpr h
    rw [abs_of_nonneg h3, abs_of_nonneg h]
    exact ⟨h1, h2, mul_nonneg h h3⟩
  · rename_i h
    have h0 : x < 0 := lt_of_not_ge h
    have h1 := Int.floor_le (-x)
    have h2 := Int.lt_floor_add_one (-x)
    have h3 : (0 : ℚ) ≤ ((⌊-x⌋ : Int) : ℚ) := by exact_mod_cast Int.floor_nonneg.mpr (by linarith)
    push_cast
    rw [abs_neg, abs_of_nonneg h3, abs_of_neg h0]
    exact ⟨h1, h2, by nlinarith⟩

end Verif.C98
