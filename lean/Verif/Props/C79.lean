import Verif.Model.Navic
import Verif.Lemmas.Collect
import Verif.Lemmas.Time
import Verif.Props.C01
import Verif.Props.C05
/-!
# C79 navigation messages of NavIC
-/

set_option linter.unusedSimpArgs false

namespace Verif.C79
open Verif.Navic Verif.Time Verif.Lay Verif.Slots Verif.Col
open Verif.Sat (Sys sat2prn)
open Verif.Rawnav (sc2rad)

/-! ## Specification -/

/-- names of the fields -/
inductive F where
  | tlm | tow | alert | auto | sid | spare | week | af0 | af1 | af2 | urai | toc | tgd | deln | iode | rsv | svh | cuc | cus | cic | cis
  | crc | crs | idot | rsv2 | crc24 | tail | M0 | toe | e | sqrtA | OMG0 | omg | OMGd | i0 | toi | sym | itow | dA | Adot | delnd
  | isc1 | isc2 | rsf | prn | sym2 | msgid | ivld | text
  deriving DecidableEq

/-- sub-frames 1 and 2 of the messages of the standard positioning service -/
def hdr : Layout F := [(.tlm, 8, false), (.tow, 17, false), (.alert, 1, false), (.auto, 1, false), (.sid, 2, false), (.spare, 1, false)]
def s1 : Layout F := hdr ++ [(.week, 10, false), (.af0, 22, true), (.af1, 16, true), (.af2, 8, true), (.urai, 4, false), (.toc, 16, false),
  (.tgd, 8, true), (.deln, 22, true), (.iode, 8, false), (.rsv, 10, false), (.svh, 2, false), (.cuc, 15, true), (.cus, 15, true),
  (.cic, 15, true), (.cis, 15, true), (.crc, 15, true), (.crs, 15, true), (.idot, 14, true), (.rsv2, 2, false), (.crc24, 24, false),
  (.tail, 6, false)]
def s2 : Layout F := hdr ++ [(.M0, 32, true), (.toe, 16, false), (.e, 32, false), (.sqrtA, 32, false), (.OMG0, 32, true), (.omg, 32, true),
  (.OMGd, 22, true), (.i0, 32, true), (.rsv2, 2, false), (.crc24, 24, false), (.tail, 6, false)]

/-- a message on L1: 52 symbols, the second sub-frame in a place of 1200 symbols, 274 bits of the third -/
def l1 : Layout F := [(.toi, 9, false), (.sym, 43, false), (.week, 13, false), (.itow, 8, false), (.alert, 1, false), (.svh, 1, false),
  (.iode, 4, false), (.urai, 5, true), (.toe, 11, false), (.dA, 26, true), (.Adot, 26, true), (.deln, 19, true), (.delnd, 23, true),
  (.M0, 33, true), (.e, 33, false), (.omg, 33, true), (.OMG0, 33, true), (.OMGd, 25, true), (.i0, 33, true), (.idot, 15, true),
  (.cis, 16, true), (.cic, 16, true), (.crs, 24, true), (.crc, 24, true), (.cus, 21, true), (.cuc, 21, true), (.af0, 29, true),
  (.af1, 22, true), (.af2, 15, true), (.tgd, 12, true), (.isc1, 12, true), (.isc2, 12, true), (.rsf, 1, false), (.spare, 3, false),
  (.prn, 6, false), (.sym2, 624, false), (.msgid, 6, false), (.ivld, 1, false), (.text, 267, false)]

def val (L : Layout F) (m : BitBuf) (f : F) : Int := num L m 0 f

/-- user range accuracy in metres -/
def ura : List ℚ := [2, 28 / 10, 4, 57 / 10, 8, 113 / 10, 16, 32, 64, 128, 256, 512, 1024, 2048, 4096, 8192]

/-- the week with the given last ten bits nearest to `week`; see `full_week` -/
def fullWeek (week w : Int) : Int := w + (week - w + 512) / 1024 * 1024

/-- the week of the time of transmission: next to the time `T` of the week `W`; see `tot_near` -/
def totWeek (W : Int) (T S : ℚ) : Int := if S + 302400 < T then W + 1 else if T < S - 302400 then W - 1 else W

/-- the ephemeris of two sub-frames -/
def lnavOf (week sat : Int) (x y : BitBuf) : Eph :=
  let a := val s1 x; let b := val s2 y
  let w := fullWeek week (a .week)
  { sat, week := w, code := 0, svh := a .svh, iodc := a .iode, iode := a .iode, af0 := a .af0 * (1 / 2 ^ 31), af1 := a .af1 * (1 / 2 ^ 43),
    af2 := a .af2 * (1 / 2 ^ 55), urai := a .urai, sva := ura.getD (a .urai).toNat 0, tgd := a .tgd * (1 / 2 ^ 31), isc := [0, 0, 0, 0],
    A := (b .sqrtA * (1 / 2 ^ 19)) ^ 2, Adot := 0, deln := a .deln * (1 / 2 ^ 41) * sc2rad, delnd := 0, M0 := b .M0 * (1 / 2 ^ 31) * sc2rad,
    e := b .e * (1 / 2 ^ 33), omg := b .omg * (1 / 2 ^ 31) * sc2rad, integ := 0, toes := b .toe * 16, OMG0 := b .OMG0 * (1 / 2 ^ 31) * sc2rad,
    i0 := b .i0 * (1 / 2 ^ 31) * sc2rad, OMGd := b .OMGd * (1 / 2 ^ 41) * sc2rad, idot := a .idot * (1 / 2 ^ 43) * sc2rad,
    cis := a .cis * (1 / 2 ^ 28), cic := a .cic * (1 / 2 ^ 28), crs := a .crs * (625 / 10000), crc := a .crc * (625 / 10000),
    cus := a .cus * (1 / 2 ^ 28), cuc := a .cuc * (1 / 2 ^ 28), mode := 0,
    tot := gpst2time (totWeek week (b .toe * 16) (a .tow * 12)) (a .tow * 12), toc := gpst2time w (a .toc * 16),
    toe := gpst2time w (b .toe * 16) }

/-- a call with the current week -/
structure WCall where
  week : Int
  call : Call

/-- the number of the sub-frame, from 0 -/
def kind (c : Call) : Option Nat := some (val hdr c.msg .sid).toNat

/-- the last sub-frame `k` of a satellite -/
def lastSub (cs : List WCall) (sat : Int) (k : Nat) : Option BitBuf := last kind (cs.map (·.call)) sat k

/-- what a call returns after the calls `cs`; as long as there is no first sub-frame it counts as one of zeros -/
def result (cs : List WCall) (c : WCall) : Option Eph :=
  if val hdr c.call.msg .sid = 3 then none else
    match (lastSub (cs ++ [c]) c.call.sat 0).getD (List.replicate 320 false), lastSub (cs ++ [c]) c.call.sat 1 with
    | x, some y => if val s2 y .tow = val s1 x .tow + 1 then some (lnavOf c.week c.call.sat x y) else none
    | _, none => none

/-- satellites of NavIC -/
def Dom (sat : Int) : Prop := 220 ≤ sat ∧ sat ≤ 233

def Good (c : WCall) : Prop := Dom c.call.sat ∧ 320 ≤ c.call.msg.length

/-- the ephemeris of a message on L1; negative accuracy indices count from the end of the table -/
def l1Of (sat : Int) (m : BitBuf) : Eph :=
  let v := val l1 m
  { sat, week := v .week, code := 2, svh := v .svh, iodc := v .iode, iode := v .iode, af0 := v .af0 * (1 / 2 ^ 35),
    af1 := v .af1 * (1 / 2 ^ 50), af2 := v .af2 * (1 / 2 ^ 66), urai := v .urai, sva := ura.getD (v .urai % 16).toNat 0,
    tgd := v .tgd * (1 / 2 ^ 35), isc := [0, 0, 0, 0, v .isc2 * (1 / 2 ^ 35), v .isc1 * (1 / 2 ^ 35)],
    A := 42164200 + v .dA * (1 / 2 ^ 9), Adot := v .Adot * (1 / 2 ^ 21), deln := v .deln * (1 / 2 ^ 44) * sc2rad,
    delnd := v .delnd * (1 / 2 ^ 57) * sc2rad, M0 := v .M0 * (1 / 2 ^ 32) * sc2rad, e := v .e * (1 / 2 ^ 34),
    omg := v .omg * (1 / 2 ^ 32) * sc2rad, integ := v .rsf, toes := v .toe * 300, OMG0 := v .OMG0 * (1 / 2 ^ 32) * sc2rad,
    i0 := v .i0 * (1 / 2 ^ 32) * sc2rad, OMGd := v .OMGd * (1 / 2 ^ 44) * sc2rad, idot := v .idot * (1 / 2 ^ 44) * sc2rad,
    cis := v .cis * (1 / 2 ^ 30), cic := v .cic * (1 / 2 ^ 30), crs := v .crs * (1 / 2 ^ 8), crc := v .crc * (1 / 2 ^ 8),
    cus := v .cus * (1 / 2 ^ 30), cuc := v .cuc * (1 / 2 ^ 30), mode := 2,
    tot := gst2time (v .week) ((v .itow * 7200 + v .toi * 18 : Int) : ℚ), toc := gst2time (v .week) (v .toe * 300),
    toe := gst2time (v .week) (v .toe * 300) }

/-! ## Fields -/

theorem hdr_tlm (m : BitBuf) : val hdr m .tlm = (bitsAt m 0 8 : Int) := num_u (by decide +kernel) _
theorem hdr_tow (m : BitBuf) : val hdr m .tow = (bitsAt m 8 17 : Int) := num_u (by decide +kernel) _
theorem hdr_alert (m : BitBuf) : val hdr m .alert = (bitsAt m 25 1 : Int) := num_u (by decide +kernel) _
theorem hdr_auto (m : BitBuf) : val hdr m .auto = (bitsAt m 26 1 : Int) := num_u (by decide +kernel) _
theorem hdr_sid (m : BitBuf) : val hdr m .sid = (bitsAt m 27 2 : Int) := num_u (by decide +kernel) _
theorem hdr_spare (m : BitBuf) : val hdr m .spare = (bitsAt m 29 1 : Int) := num_u (by decide +kernel) _
theorem s1_tlm (m : BitBuf) : val s1 m .tlm = (bitsAt m 0 8 : Int) := num_u (by decide +kernel) _
theorem s1_tow (m : BitBuf) : val s1 m .tow = (bitsAt m 8 17 : Int) := num_u (by decide +kernel) _
theorem s1_alert (m : BitBuf) : val s1 m .alert = (bitsAt m 25 1 : Int) := num_u (by decide +kernel) _
theorem s1_auto (m : BitBuf) : val s1 m .auto = (bitsAt m 26 1 : Int) := num_u (by decide +kernel) _
theorem s1_sid (m : BitBuf) : val s1 m .sid = (bitsAt m 27 2 : Int) := num_u (by decide +kernel) _
theorem s1_spare (m : BitBuf) : val s1 m .spare = (bitsAt m 29 1 : Int) := num_u (by decide +kernel) _
theorem s1_week (m : BitBuf) : val s1 m .week = (bitsAt m 30 10 : Int) := num_u (by decide +kernel) _
theorem s1_af0 (m : BitBuf) : val s1 m .af0 = intAt m 40 22 := num_s (by decide +kernel) _
theorem s1_af1 (m : BitBuf) : val s1 m .af1 = intAt m 62 16 := num_s (by decide +kernel) _
theorem s1_af2 (m : BitBuf) : val s1 m .af2 = intAt m 78 8 := num_s (by decide +kernel) _
theorem s1_urai (m : BitBuf) : val s1 m .urai = (bitsAt m 86 4 : Int) := num_u (by decide +kernel) _
theorem s1_toc (m : BitBuf) : val s1 m .toc = (bitsAt m 90 16 : Int) := num_u (by decide +kernel) _
theorem s1_tgd (m : BitBuf) : val s1 m .tgd = intAt m 106 8 := num_s (by decide +kernel) _
theorem s1_deln (m : BitBuf) : val s1 m .deln = intAt m 114 22 := num_s (by decide +kernel) _
theorem s1_iode (m : BitBuf) : val s1 m .iode = (bitsAt m 136 8 : Int) := num_u (by decide +kernel) _
theorem s1_rsv (m : BitBuf) : val s1 m .rsv = (bitsAt m 144 10 : Int) := num_u (by decide +kernel) _
theorem s1_svh (m : BitBuf) : val s1 m .svh = (bitsAt m 154 2 : Int) := num_u (by decide +kernel) _
theorem s1_cuc (m : BitBuf) : val s1 m .cuc = intAt m 156 15 := num_s (by decide +kernel) _
theorem s1_cus (m : BitBuf) : val s1 m .cus = intAt m 171 15 := num_s (by decide +kernel) _
theorem s1_cic (m : BitBuf) : val s1 m .cic = intAt m 186 15 := num_s (by decide +kernel) _
theorem s1_cis (m : BitBuf) : val s1 m .cis = intAt m 201 15 := num_s (by decide +kernel) _
theorem s1_crc (m : BitBuf) : val s1 m .crc = intAt m 216 15 := num_s (by decide +kernel) _
theorem s1_crs (m : BitBuf) : val s1 m .crs = intAt m 231 15 := num_s (by decide +kernel) _
theorem s1_idot (m : BitBuf) : val s1 m .idot = intAt m 246 14 := num_s (by decide +kernel) _
theorem s1_rsv2 (m : BitBuf) : val s1 m .rsv2 = (bitsAt m 260 2 : Int) := num_u (by decide +kernel) _
theorem s1_crc24 (m : BitBuf) : val s1 m .crc24 = (bitsAt m 262 24 : Int) := num_u (by decide +kernel) _
theorem s1_tail (m : BitBuf) : val s1 m .tail = (bitsAt m 286 6 : Int) := num_u (by decide +kernel) _
theorem s2_tlm (m : BitBuf) : val s2 m .tlm = (bitsAt m 0 8 : Int) := num_u (by decide +kernel) _
theorem s2_tow (m : BitBuf) : val s2 m .tow = (bitsAt m 8 17 : Int) := num_u (by decide +kernel) _
theorem s2_alert (m : BitBuf) : val s2 m .alert = (bitsAt m 25 1 : Int) := num_u (by decide +kernel) _
theorem s2_auto (m : BitBuf) : val s2 m .auto = (bitsAt m 26 1 : Int) := num_u (by decide +kernel) _
theorem s2_sid (m : BitBuf) : val s2 m .sid = (bitsAt m 27 2 : Int) := num_u (by decide +kernel) _
theorem s2_spare (m : BitBuf) : val s2 m .spare = (bitsAt m 29 1 : Int) := num_u (by decide +kernel) _
theorem s2_M0 (m : BitBuf) : val s2 m .M0 = intAt m 30 32 := num_s (by decide +kernel) _
theorem s2_toe (m : BitBuf) : val s2 m .toe = (bitsAt m 62 16 : Int) := num_u (by decide +kernel) _
theorem s2_e (m : BitBuf) : val s2 m .e = (bitsAt m 78 32 : Int) := num_u (by decide +kernel) _
theorem s2_sqrtA (m : BitBuf) : val s2 m .sqrtA = (bitsAt m 110 32 : Int) := num_u (by decide +kernel) _
theorem s2_OMG0 (m : BitBuf) : val s2 m .OMG0 = intAt m 142 32 := num_s (by decide +kernel) _
theorem s2_omg (m : BitBuf) : val s2 m .omg = intAt m 174 32 := num_s (by decide +kernel) _
theorem s2_OMGd (m : BitBuf) : val s2 m .OMGd = intAt m 206 22 := num_s (by decide +kernel) _
theorem s2_i0 (m : BitBuf) : val s2 m .i0 = intAt m 228 32 := num_s (by decide +kernel) _
theorem s2_rsv2 (m : BitBuf) : val s2 m .rsv2 = (bitsAt m 260 2 : Int) := num_u (by decide +kernel) _
theorem s2_crc24 (m : BitBuf) : val s2 m .crc24 = (bitsAt m 262 24 : Int) := num_u (by decide +kernel) _
theorem s2_tail (m : BitBuf) : val s2 m .tail = (bitsAt m 286 6 : Int) := num_u (by decide +kernel) _
theorem l1_toi (m : BitBuf) : val l1 m .toi = (bitsAt m 0 9 : Int) := num_u (by decide +kernel) _
theorem l1_sym (m : BitBuf) : val l1 m .sym = (bitsAt m 9 43 : Int) := num_u (by decide +kernel) _
theorem l1_week (m : BitBuf) : val l1 m .week = (bitsAt m 52 13 : Int) := num_u (by decide +kernel) _
theorem l1_itow (m : BitBuf) : val l1 m .itow = (bitsAt m 65 8 : Int) := num_u (by decide +kernel) _
theorem l1_alert (m : BitBuf) : val l1 m .alert = (bitsAt m 73 1 : Int) := num_u (by decide +kernel) _
theorem l1_svh (m : BitBuf) : val l1 m .svh = (bitsAt m 74 1 : Int) := num_u (by decide +kernel) _
theorem l1_iode (m : BitBuf) : val l1 m .iode = (bitsAt m 75 4 : Int) := num_u (by decide +kernel) _
theorem l1_urai (m : BitBuf) : val l1 m .urai = intAt m 79 5 := num_s (by decide +kernel) _
theorem l1_toe (m : BitBuf) : val l1 m .toe = (bitsAt m 84 11 : Int) := num_u (by decide +kernel) _
theorem l1_dA (m : BitBuf) : val l1 m .dA = intAt m 95 26 := num_s (by decide +kernel) _
theorem l1_Adot (m : BitBuf) : val l1 m .Adot = intAt m 121 26 := num_s (by decide +kernel) _
theorem l1_deln (m : BitBuf) : val l1 m .deln = intAt m 147 19 := num_s (by decide +kernel) _
theorem l1_delnd (m : BitBuf) : val l1 m .delnd = intAt m 166 23 := num_s (by decide +kernel) _
theorem l1_M0 (m : BitBuf) : val l1 m .M0 = intAt m 189 33 := num_s (by decide +kernel) _
theorem l1_e (m : BitBuf) : val l1 m .e = (bitsAt m 222 33 : Int) := num_u (by decide +kernel) _
theorem l1_omg (m : BitBuf) : val l1 m .omg = intAt m 255 33 := num_s (by decide +kernel) _
theorem l1_OMG0 (m : BitBuf) : val l1 m .OMG0 = intAt m 288 33 := num_s (by decide +kernel) _
theorem l1_OMGd (m : BitBuf) : val l1 m .OMGd = intAt m 321 25 := num_s (by decide +kernel) _
theorem l1_i0 (m : BitBuf) : val l1 m .i0 = intAt m 346 33 := num_s (by decide +kernel) _
theorem l1_idot (m : BitBuf) : val l1 m .idot = intAt m 379 15 := num_s (by decide +kernel) _
theorem l1_cis (m : BitBuf) : val l1 m .cis = intAt m 394 16 := num_s (by decide +kernel) _
theorem l1_cic (m : BitBuf) : val l1 m .cic = intAt m 410 16 := num_s (by decide +kernel) _
theorem l1_crs (m : BitBuf) : val l1 m .crs = intAt m 426 24 := num_s (by decide +kernel) _
theorem l1_crc (m : BitBuf) : val l1 m .crc = intAt m 450 24 := num_s (by decide +kernel) _
theorem l1_cus (m : BitBuf) : val l1 m .cus = intAt m 474 21 := num_s (by decide +kernel) _
theorem l1_cuc (m : BitBuf) : val l1 m .cuc = intAt m 495 21 := num_s (by decide +kernel) _
theorem l1_af0 (m : BitBuf) : val l1 m .af0 = intAt m 516 29 := num_s (by decide +kernel) _
theorem l1_af1 (m : BitBuf) : val l1 m .af1 = intAt m 545 22 := num_s (by decide +kernel) _
theorem l1_af2 (m : BitBuf) : val l1 m .af2 = intAt m 567 15 := num_s (by decide +kernel) _
theorem l1_tgd (m : BitBuf) : val l1 m .tgd = intAt m 582 12 := num_s (by decide +kernel) _
theorem l1_isc1 (m : BitBuf) : val l1 m .isc1 = intAt m 594 12 := num_s (by decide +kernel) _
theorem l1_isc2 (m : BitBuf) : val l1 m .isc2 = intAt m 606 12 := num_s (by decide +kernel) _
theorem l1_rsf (m : BitBuf) : val l1 m .rsf = (bitsAt m 618 1 : Int) := num_u (by decide +kernel) _
theorem l1_spare (m : BitBuf) : val l1 m .spare = (bitsAt m 619 3 : Int) := num_u (by decide +kernel) _
theorem l1_prn (m : BitBuf) : val l1 m .prn = (bitsAt m 622 6 : Int) := num_u (by decide +kernel) _
theorem l1_sym2 (m : BitBuf) : val l1 m .sym2 = (bitsAt m 628 624 : Int) := num_u (by decide +kernel) _
theorem l1_msgid (m : BitBuf) : val l1 m .msgid = (bitsAt m 1252 6 : Int) := num_u (by decide +kernel) _
theorem l1_ivld (m : BitBuf) : val l1 m .ivld = (bitsAt m 1258 1 : Int) := num_u (by decide +kernel) _
theorem l1_text (m : BitBuf) : val l1 m .text = (bitsAt m 1259 267 : Int) := num_u (by decide +kernel) _

variable {b : BitBuf} {a W : Nat} {m : BitBuf}

theorem forM_ok {α : Type} {f : α → Py Unit} : ∀ (l : List α), (∀ x ∈ l, f x = .ok ()) → l.forM f = .ok () := by
  intro l h
  induction l with
  | nil => rfl
  | cons x l ih =>
    show (f x >>= fun _ => l.forM f) = _
    rw [h x (by simp), Py.okBind]
    exact ih (fun y hy => h y (by simp [hy]))

theorem grid_ok (h : Seg b a W m) (o : Nat) {i : Nat} (c : i = a + o ∧ o + 243 ≤ W) : grid b i = .ok () := by
  unfold grid
  rw [h.u o (i := i) (n := 10) (by omega), Py.okBind]
  rw [h.u (o + 10) (i := i + 10) (n := 4) (by omega), Py.okBind]
  rw [forM_ok]
  · rw [Py.okBind, h.u (o + 14 + 195) (i := i + 14 + 195) (n := 3) (by omega), Py.okBind]
    rfl
  · intro k hk
    have := List.mem_range.1 hk
    rw [h.u (o + 14 + 13 * k) (i := i + 14 + 13 * k) (n := 10) (by omega), Py.okBind,
      h.u (o + 14 + 13 * k + 10) (i := i + 14 + 13 * k + 10) (n := 4) (by omega), Py.okBind]
    rfl

theorem alm_ok (h : Seg b a W m) (o : Nat) {i : Nat} (c : i = a + o ∧ o + 243 ≤ W) : alm b i = .ok () := by
  unfold alm
  rw [h.u o (i := i) (n := 13) (by omega), Py.okBind]
  rw [h.u (o + 13) (i := i + 13) (n := 20) (by omega), Py.okBind]
  rw [h.u (o + 33) (i := i + 33) (n := 16) (by omega), Py.okBind]
  rw [h.s (o + 49) (i := i + 49) (n := 24) (by omega), Py.okBind]
  rw [h.s (o + 73) (i := i + 73) (n := 19) (by omega), Py.okBind]
  rw [h.u (o + 92) (i := i + 92) (n := 24) (by omega), Py.okBind]
  rw [h.s (o + 116) (i := i + 116) (n := 24) (by omega), Py.okBind]
  rw [h.s (o + 140) (i := i + 140) (n := 24) (by omega), Py.okBind]
  rw [h.s (o + 164) (i := i + 164) (n := 24) (by omega), Py.okBind]
  rw [h.s (o + 188) (i := i + 188) (n := 14) (by omega), Py.okBind]
  rw [h.s (o + 202) (i := i + 202) (n := 11) (by omega), Py.okBind]
  rw [h.u (o + 213) (i := i + 213) (n := 6) (by omega), Py.okBind]
  rfl

theorem nequick_ok (h : Seg b a W m) (o : Nat) {i : Nat} (c : i = a + o ∧ o + 243 ≤ W) : nequick b i = .ok () := by
  unfold nequick
  rw [forM_ok]
  · rw [Py.okBind, h.u (o + 189) (i := i + 189) (n := 2) (by omega), Py.okBind]
    rfl
  · intro k hk
    have := List.mem_range.1 hk
    rw [h.s (o + 63 * k) (i := i + 63 * k) (n := 6) (by omega), Py.okBind]
    rw [h.s (o + 63 * k + 6) (i := i + 63 * k + 6) (n := 6) (by omega), Py.okBind]
    rw [h.s (o + 63 * k + 12) (i := i + 63 * k + 12) (n := 7) (by omega), Py.okBind]
    rw [h.s (o + 63 * k + 19) (i := i + 63 * k + 19) (n := 7) (by omega), Py.okBind]
    rw [h.u (o + 63 * k + 26) (i := i + 63 * k + 26) (n := 11) (by omega), Py.okBind]
    rw [h.s (o + 63 * k + 37) (i := i + 63 * k + 37) (n := 11) (by omega), Py.okBind]
    rw [h.s (o + 63 * k + 48) (i := i + 63 * k + 48) (n := 14) (by omega), Py.okBind]
    rw [h.u (o + 63 * k + 62) (i := i + 63 * k + 62) (n := 1) (by omega), Py.okBind]
    rfl

theorem klob_ok (h : Seg b a W m) (o : Nat) {i : Nat} (c : i = a + o ∧ o + 105 ≤ W) : klob b i = .ok () := by
  unfold klob
  rw [h.s o (i := i) (n := 8) (by omega), Py.okBind]
  rw [h.s (o + 8) (i := i + 8) (n := 8) (by omega), Py.okBind]
  rw [h.s (o + 16) (i := i + 16) (n := 10) (by omega), Py.okBind]
  rw [h.s (o + 26) (i := i + 26) (n := 12) (by omega), Py.okBind]
  rw [h.s (o + 38) (i := i + 38) (n := 8) (by omega), Py.okBind]
  rw [h.s (o + 46) (i := i + 46) (n := 8) (by omega), Py.okBind]
  rw [h.s (o + 54) (i := i + 54) (n := 11) (by omega), Py.okBind]
  rw [h.s (o + 65) (i := i + 65) (n := 14) (by omega), Py.okBind]
  rw [h.u (o + 79) (i := i + 79) (n := 6) (by omega), Py.okBind]
  rw [h.u (o + 85) (i := i + 85) (n := 6) (by omega), Py.okBind]
  rw [h.s (o + 91) (i := i + 91) (n := 5) (by omega), Py.okBind]
  rw [h.s (o + 96) (i := i + 96) (n := 5) (by omega), Py.okBind]
  rw [h.u (o + 101) (i := i + 101) (n := 2) (by omega), Py.okBind]
  rfl

theorem eop_ok (h : Seg b a W m) (o : Nat) {i : Nat} (c : i = a + o ∧ o + 138 ≤ W) : eop b i = .ok () := by
  unfold eop
  rw [h.u o (i := i) (n := 16) (by omega), Py.okBind]
  rw [h.s (o + 16) (i := i + 16) (n := 21) (by omega), Py.okBind]
  rw [h.s (o + 37) (i := i + 37) (n := 15) (by omega), Py.okBind]
  rw [h.s (o + 52) (i := i + 52) (n := 21) (by omega), Py.okBind]
  rw [h.s (o + 73) (i := i + 73) (n := 15) (by omega), Py.okBind]
  rw [h.s (o + 88) (i := i + 88) (n := 31) (by omega), Py.okBind]
  rw [h.s (o + 119) (i := i + 119) (n := 19) (by omega), Py.okBind]
  rfl

theorem utc_ok (h : Seg b a W m) (o : Nat) {i : Nat} (c : i = a + o ∧ o + 243 ≤ W) : utc b i = .ok () := by
  unfold utc
  rw [h.u o (i := i) (n := 3) (by omega), Py.okBind]
  rw [h.u (o + 3) (i := i + 3) (n := 8) (by omega), Py.okBind]
  rw [h.u (o + 11) (i := i + 11) (n := 13) (by omega), Py.okBind]
  rw [h.s (o + 24) (i := i + 24) (n := 8) (by omega), Py.okBind]
  rw [h.u (o + 32) (i := i + 32) (n := 13) (by omega), Py.okBind]
  rw [h.u (o + 45) (i := i + 45) (n := 4) (by omega), Py.okBind]
  rw [h.s (o + 49) (i := i + 49) (n := 8) (by omega), Py.okBind]
  rw [h.s (o + 57) (i := i + 57) (n := 16) (by omega), Py.okBind]
  rw [h.s (o + 73) (i := i + 73) (n := 13) (by omega), Py.okBind]
  rw [h.s (o + 86) (i := i + 86) (n := 7) (by omega), Py.okBind]
  rw [h.u (o + 93) (i := i + 93) (n := 1) (by omega), Py.okBind]
  have hF : (List.range 3).forM (fun k => do
      let _ ← readU b (i + 130 + 33 * k) 3
      let flg ← readU b (i + 130 + 33 * k + 3) 1
      if flg ≠ 0 then
        let _ ← readS b (i + 130 + 33 * k + 4) 16
        let _ ← readS b (i + 130 + 33 * k + 20) 13
      return () : Nat → Py Unit) = .ok () := by
    apply forM_ok
    intro k hk
    have := List.mem_range.1 hk
    rw [h.u (o + 130 + 33 * k) (i := i + 130 + 33 * k) (n := 3) (by omega), Py.okBind,
      h.u (o + 130 + 33 * k + 3) (i := i + 130 + 33 * k + 3) (n := 1) (by omega), Py.okBind]
    split
    · rw [h.s (o + 130 + 33 * k + 4) (i := i + 130 + 33 * k + 4) (n := 16) (by omega), Py.okBind,
        h.s (o + 130 + 33 * k + 20) (i := i + 130 + 33 * k + 20) (n := 13) (by omega), Py.okBind]
      rfl
    · rfl
  split
  · rw [h.s (o + 94) (i := i + 94) (n := 16) (by omega), Py.okBind, h.s (o + 110) (i := i + 94 + 16) (n := 13) (by omega), Py.okBind,
      h.s (o + 123) (i := i + 94 + 29) (n := 7) (by omega), Py.okBind]
    exact hF
  · exact hF

theorem sub3_ok (h : Seg b a W m) (o : Nat) {i n : Nat} (c : i = a + o ∧ o + 243 ≤ W) : sub3 b n i = .ok () := by
  unfold sub3
  split
  · exact grid_ok h o c
  split
  · exact alm_ok h o c
  split
  · exact nequick_ok h o c
  split
  · rw [eop_ok h o (by omega), Py.okBind]
    exact klob_ok h (o + 138) (by omega)
  split
  · exact utc_ok h o c
  · rfl

theorem ura_ok {n : Nat} (h : n < 16) : Rawnav.urai2sva n = .ok (ura.getD n 0) := by
  unfold Rawnav.urai2sva
  rcases n with _ | _ | _ | _ | _ | _ | _ | _ | _ | _ | _ | _ | _ | _ | _ | _ | n
  all_goals first | rfl | omega

theorem uraI_ok {n : Int} (h : -16 ≤ n ∧ n < 16) : urai2svaI n = .ok (ura.getD (n % 16).toNat 0) := by
  have : ∀ k : Nat, k < 32 → urai2svaI ((k : Int) - 16) = .ok (ura.getD (((k : Int) - 16) % 16).toNat 0) := by decide +kernel
  have := this (n + 16).toNat (by omega)
  rwa [show (((n + 16).toNat : Int) - 16) = n by omega] at this

theorem int_range (m : BitBuf) (i n : Nat) (hn : 0 < n) : -(2 : Int) ^ (n - 1) ≤ intAt m i n ∧ intAt m i n < (2 : Int) ^ (n - 1) := by
  unfold intAt
  exact toSigned_range n _ hn (bits_lt m i n)

theorem sat_irn {sat : Int} (h : Dom sat) : sat2prn sat = (.irn, sat - 219) := by
  unfold Dom at h
  rcases C01.sat2prn_cases sat with x | x | x | x | x | x | x | x
  all_goals first | exact x.2.2 | omega

/-! ## Messages on L1 -/

/-- **C79.** A message on L1 gives an ephemeris exactly if it has the number of the satellite. -/
theorem l1_message (sat : Int) (m : BitBuf) (hs : Dom sat) (h : 1502 ≤ m.length) :
    decodeL1nav sat m = .ok (if val l1 m .prn = sat - 219 then some (l1Of sat m) else none) := by
  have hm := Seg.self h
  unfold decodeL1nav
  rw [sat_irn hs]
  dsimp only
  rw [hm.u 0 (i := 0) (n := 9) (by omega), Py.okBind]
  rw [hm.u 52 (i := 52) (n := 13) (by omega), Py.okBind]
  rw [hm.u 65 (i := 65) (n := 8) (by omega), Py.okBind]
  rw [hm.u 73 (i := 73) (n := 1) (by omega), Py.okBind]
  rw [hm.u 74 (i := 74) (n := 1) (by omega), Py.okBind]
  rw [hm.u 75 (i := 75) (n := 4) (by omega), Py.okBind]
  rw [hm.s 79 (i := 79) (n := 5) (by omega), Py.okBind]
  rw [hm.u 84 (i := 84) (n := 11) (by omega), Py.okBind]
  rw [hm.s 95 (i := 95) (n := 26) (by omega), Py.okBind]
  rw [hm.s 121 (i := 121) (n := 26) (by omega), Py.okBind]
  rw [hm.s 147 (i := 147) (n := 19) (by omega), Py.okBind]
  rw [hm.s 166 (i := 166) (n := 23) (by omega), Py.okBind]
  rw [hm.s 189 (i := 189) (n := 33) (by omega), Py.okBind]
  rw [hm.u 222 (i := 222) (n := 33) (by omega), Py.okBind]
  rw [hm.s 255 (i := 255) (n := 33) (by omega), Py.okBind]
  rw [hm.s 288 (i := 288) (n := 33) (by omega), Py.okBind]
  rw [hm.s 321 (i := 321) (n := 25) (by omega), Py.okBind]
  rw [hm.s 346 (i := 346) (n := 33) (by omega), Py.okBind]
  rw [hm.s 379 (i := 379) (n := 15) (by omega), Py.okBind]
  rw [hm.s 394 (i := 394) (n := 16) (by omega), Py.okBind]
  rw [hm.s 410 (i := 410) (n := 16) (by omega), Py.okBind]
  rw [hm.s 426 (i := 426) (n := 24) (by omega), Py.okBind]
  rw [hm.s 450 (i := 450) (n := 24) (by omega), Py.okBind]
  rw [hm.s 474 (i := 474) (n := 21) (by omega), Py.okBind]
  rw [hm.s 495 (i := 495) (n := 21) (by omega), Py.okBind]
  rw [hm.s 516 (i := 516) (n := 29) (by omega), Py.okBind]
  rw [hm.s 545 (i := 545) (n := 22) (by omega), Py.okBind]
  rw [hm.s 567 (i := 567) (n := 15) (by omega), Py.okBind]
  rw [hm.s 582 (i := 582) (n := 12) (by omega), Py.okBind]
  rw [hm.s 594 (i := 594) (n := 12) (by omega), Py.okBind]
  rw [hm.s 606 (i := 606) (n := 12) (by omega), Py.okBind]
  rw [hm.u 618 (i := 618) (n := 1) (by omega), Py.okBind]
  rw [hm.u 622 (i := 622) (n := 6) (by omega), Py.okBind, l1_prn]
  by_cases c1 : (bitsAt m 622 6 : Int) = sat - 219
  swap
  · rw [if_pos c1, if_neg c1]
    rfl
  rw [if_neg (not_not.2 c1), if_pos c1, hm.u 1252 (i := 52 + 1200) (n := 6) (by omega), Py.okBind,
    hm.u 1258 (i := 52 + 1200 + 6) (n := 1) (by omega), Py.okBind, sub3_ok hm 1259 (by omega), Py.okBind,
    uraI_ok (int_range m 79 5 (by omega)), Py.okBind]
  unfold l1Of
  simp only [l1_toi, l1_sym, l1_week, l1_itow, l1_alert, l1_svh, l1_iode, l1_urai, l1_toe, l1_dA, l1_Adot, l1_deln, l1_delnd, l1_M0, l1_e, l1_omg, l1_OMG0, l1_OMGd, l1_i0, l1_idot, l1_cis, l1_cic, l1_crs, l1_crc, l1_cus, l1_cuc, l1_af0, l1_af1, l1_af2, l1_tgd, l1_isc1, l1_isc2, l1_rsf, l1_spare, l1_prn, l1_sym2, l1_msgid, l1_ivld, l1_text]
  rfl

/-! ## Sub-frames -/

theorem lnavTry_spec {week sat : Int} {x y : BitBuf} (h1 : Seg b 0 320 x) (h2 : Seg b 320 320 y) :
    lnavTry week sat b = .ok (if bitsAt x 27 2 = 0 ∧ bitsAt y 27 2 = 1 ∧ bitsAt y 8 17 = bitsAt x 8 17 + 1 then
      some (lnavOf week sat x y) else none) := by
  unfold lnavTry
  dsimp only
  rw [h1.u 27 (i := 27) (n := 2) (by omega), Py.okBind, h2.u 27 (i := 320 + 27) (n := 2) (by omega), Py.okBind,
    h1.u 8 (i := 8) (n := 17) (by omega), Py.okBind, h2.u 8 (i := 320 + 8) (n := 17) (by omega), Py.okBind]
  by_cases c1 : bitsAt x 27 2 ≠ 0 ∨ bitsAt y 27 2 ≠ 1
  · rw [if_pos c1, if_neg]
    · rfl
    · rintro ⟨h1, h2, -⟩
      omega
  rw [if_neg c1]
  by_cases c2 : bitsAt y 8 17 ≠ bitsAt x 8 17 + 1
  · rw [if_pos c2, if_neg]
    · rfl
    · rintro ⟨-, -, h⟩
      exact c2 h
  rw [if_neg c2]
  push Not at c1 c2
  rw [if_pos ⟨c1.1, c1.2, c2⟩]
  rw [h1.u 30 (i := 30) (n := 10) (by omega), Py.okBind]
  rw [h1.s 40 (i := 40) (n := 22) (by omega), Py.okBind]
  rw [h1.s 62 (i := 62) (n := 16) (by omega), Py.okBind]
  rw [h1.s 78 (i := 78) (n := 8) (by omega), Py.okBind]
  rw [h1.u 86 (i := 86) (n := 4) (by omega), Py.okBind]
  rw [h1.u 90 (i := 90) (n := 16) (by omega), Py.okBind]
  rw [h1.s 106 (i := 106) (n := 8) (by omega), Py.okBind]
  rw [h1.s 114 (i := 114) (n := 22) (by omega), Py.okBind]
  rw [h1.u 136 (i := 136) (n := 8) (by omega), Py.okBind]
  rw [h1.u 154 (i := 154) (n := 2) (by omega), Py.okBind]
  rw [h1.s 156 (i := 156) (n := 15) (by omega), Py.okBind]
  rw [h1.s 171 (i := 171) (n := 15) (by omega), Py.okBind]
  rw [h1.s 186 (i := 186) (n := 15) (by omega), Py.okBind]
  rw [h1.s 201 (i := 201) (n := 15) (by omega), Py.okBind]
  rw [h1.s 216 (i := 216) (n := 15) (by omega), Py.okBind]
  rw [h1.s 231 (i := 231) (n := 15) (by omega), Py.okBind]
  rw [h1.s 246 (i := 246) (n := 14) (by omega), Py.okBind]
  rw [h2.s 30 (i := 320 + 30) (n := 32) (by omega), Py.okBind]
  rw [h2.u 62 (i := 320 + 30 + 32) (n := 16) (by omega), Py.okBind]
  rw [h2.u 78 (i := 320 + 30 + 48) (n := 32) (by omega), Py.okBind]
  rw [h2.u 110 (i := 320 + 30 + 80) (n := 32) (by omega), Py.okBind]
  rw [h2.s 142 (i := 320 + 30 + 112) (n := 32) (by omega), Py.okBind]
  rw [h2.s 174 (i := 320 + 30 + 144) (n := 32) (by omega), Py.okBind]
  rw [h2.s 206 (i := 320 + 30 + 176) (n := 22) (by omega), Py.okBind]
  rw [h2.s 228 (i := 320 + 30 + 198) (n := 32) (by omega), Py.okBind]
  rw [ura_ok (bits_lt x 86 4), Py.okBind]
  unfold lnavOf fullWeek totWeek
  simp only [hdr_tlm, hdr_tow, hdr_alert, hdr_auto, hdr_sid, hdr_spare, s1_tlm, s1_tow, s1_alert, s1_auto, s1_sid, s1_spare, s1_week, s1_af0, s1_af1, s1_af2, s1_urai, s1_toc, s1_tgd, s1_deln, s1_iode, s1_rsv, s1_svh, s1_cuc, s1_cus, s1_cic, s1_cis, s1_crc, s1_crs, s1_idot, s1_rsv2, s1_crc24, s1_tail, s2_tlm, s2_tow, s2_alert, s2_auto, s2_sid, s2_spare, s2_M0, s2_toe, s2_e, s2_sqrtA, s2_OMG0, s2_omg, s2_OMGd, s2_i0, s2_rsv2, s2_crc24, s2_tail]
  rfl

/-- the buffer of a satellite -/
def buf (st : Dict Int BitBuf) (sat : Int) : Option BitBuf := Dict.get? st (sat - 220)

def Stored (st : Dict Int BitBuf) (cs : List WCall) : Prop :=
  Col.Inv kind 320 (fun k => 320 * k) (fun k => k < 4) 1600 Dom (buf st) (cs.map (·.call)) ∧ ∀ c ∈ cs, Good c

theorem kind_eq (c : Call) : kind c = some (bitsAt c.msg 27 2) := by
  unfold kind
  rw [hdr_sid, Int.toNat_natCast]

theorem result_parts (cs : List WCall) (c : WCall) (hk : bitsAt c.call.msg 27 2 ≤ 2) :
    result cs c =
      if bitsAt (part kind 320 ((cs ++ [c]).map (·.call)) c.call.sat 0) 27 2 = 0 ∧
        bitsAt (part kind 320 ((cs ++ [c]).map (·.call)) c.call.sat 1) 27 2 = 1 ∧
        bitsAt (part kind 320 ((cs ++ [c]).map (·.call)) c.call.sat 1) 8 17 =
          bitsAt (part kind 320 ((cs ++ [c]).map (·.call)) c.call.sat 0) 8 17 + 1 then
      some (lnavOf c.week c.call.sat (part kind 320 ((cs ++ [c]).map (·.call)) c.call.sat 0)
        (part kind 320 ((cs ++ [c]).map (·.call)) c.call.sat 1)) else none := by
  unfold result
  rw [if_neg (by rw [hdr_sid]; omega)]
  have e1 := part_id (kind := kind) (W := 320) (cs := (cs ++ [c]).map (·.call)) (s := c.call.sat) (k := 1) (n := 1) (i := 27) (w := 2)
    (by omega) (fun c' _ h => by rw [kind_eq] at h; exact Option.some.inj h)
  have e0 : bitsAt (part kind 320 ((cs ++ [c]).map (·.call)) c.call.sat 0) 27 2 = 0 ↔ True := by
    refine ⟨fun _ => trivial, fun _ => ?_⟩
    unfold part
    cases hl : last kind ((cs ++ [c]).map (·.call)) c.call.sat 0 with
    | none => rw [Option.getD_none, bits_zeros]
    | some x =>
      obtain ⟨c', _, _, hk, rfl⟩ := last_mem hl
      rw [kind_eq] at hk
      exact Option.some.inj hk
  rw [if_congr (and_congr e0 (and_congr e1 Iff.rfl)) rfl rfl]
  unfold lastSub part
  cases last kind ((cs ++ [c]).map (·.call)) c.call.sat 1 with
  | none => rw [if_neg (fun h => by cases h.2.1)]
  | some y =>
    simp only [Option.getD_some, Option.isSome_some, true_and]
    rw [s2_tow, s1_tow]
    apply if_congr _ rfl rfl
    norm_cast

theorem lnav_step (st : Dict Int BitBuf) (cs : List WCall) (c : WCall) (hi : Stored st cs) (hg : Good c) :
    ∃ st', decodeLnav st c.week c.call.sat c.call.msg = .ok (st', result cs c) ∧ Stored st' (cs ++ [c]) := by
  have hall : ∀ x ∈ cs ++ [c], Good x := by
    intro x hx
    rcases List.mem_append.1 hx with h | h
    · exact hi.2 x h
    · rw [List.mem_singleton.1 h]; exact hg
  obtain ⟨bf, hb, hl, hseg⟩ := hi.1 c.call.sat hg.1
  have hm := Seg.self hg.2
  unfold decodeLnav
  rw [sat_irn hg.1]
  dsimp only
  rw [hm.u 0 (i := 0) (n := 8) (by omega), Py.okBind, hm.u 8 (i := 8) (n := 17) (by omega), Py.okBind,
    hm.u 25 (i := 25) (n := 1) (by omega), Py.okBind, hm.u 26 (i := 26) (n := 1) (by omega), Py.okBind,
    hm.u 27 (i := 27) (n := 2) (by omega), Py.okBind]
  have hb' : Dict.get? st (c.call.sat - 219 - 1) = some bf := by
    rw [show c.call.sat - 219 - 1 = c.call.sat - 220 by omega]; exact hb
  rw [(Dict.getItem_ok_iff _ _ _).2 hb', Py.okBind]
  have hk4 : bitsAt c.call.msg 27 2 < 4 := bits_lt _ _ 2
  have hk : kind c.call = some (bitsAt c.call.msg 27 2) := kind_eq _
  generalize bitsAt c.call.msg 27 2 = k at *
  have hv : (c.call.msg.take 320).length = 320 := by rw [List.length_take]; have := hg.2; omega
  have hfit : 320 * k + (c.call.msg.take 320).length ≤ bf.length := by omega
  have hsl : Rawnav.pySliceSet bf ((k : Int) * 320) ((k : Int) * 320 + 320) (c.call.msg.take 320) =
      splice bf (320 * k) (c.call.msg.take 320) := by
    have := slice_splice (buf := bf) (v := c.call.msg.take 320) (p := 320 * k) hfit
    rw [hv] at this
    rw [← this]
    congr 1 <;> push_cast <;> ring
  rw [hsl]
  have hS : Stored (st.set (c.call.sat - 219 - 1) (splice bf (320 * k) (c.call.msg.take 320))) (cs ++ [c]) := by
    refine ⟨?_, hall⟩
    rw [List.map_append]
    refine Col.Inv.step hi.1 hb (b' := splice bf (320 * k) (c.call.msg.take 320)) ?_ ?_ ?_ (fun k hk => by omega) hg.2 ?_
    · unfold buf
      rw [show c.call.sat - 219 - 1 = c.call.sat - 220 by omega]
      exact Dict.get?_set_self _ _ _
    · intro s hs hne
      exact Dict.get?_set_ne _ _ (by show s - 220 ≠ _; have : s ≠ c.call.sat := hne; omega)
    · rw [splice_length _ _ _ hfit]; exact hl
    · intro j hj
      rw [splice_slots hv (by omega), hk]
      simp only [Option.some.injEq]
  by_cases c3 : k > 2
  · rw [if_pos c3]
    refine ⟨_, ?_, hS⟩
    unfold result
    rw [if_pos]
    · rfl
    · rw [hdr_sid]
      rw [kind_eq] at hk
      have := Option.some.inj hk
      omega
  rw [if_neg c3]
  obtain ⟨B, hB, -, hsegs⟩ := hS.1 c.call.sat hg.1
  have hB' : buf (st.set (c.call.sat - 219 - 1) (splice bf (320 * k) (c.call.msg.take 320))) c.call.sat =
      some (splice bf (320 * k) (c.call.msg.take 320)) := by
    unfold buf
    rw [show c.call.sat - 219 - 1 = c.call.sat - 220 by omega]
    exact Dict.get?_set_self _ _ _
  rw [hB'] at hB
  cases hB
  refine ⟨_, ?_, hS⟩
  rw [lnavTry_spec (hsegs 0 (by omega)) (hsegs 1 (by omega)), Py.okBind, result_parts _ _ (by
    rw [kind_eq] at hk
    have := Option.some.inj hk
    omega)]
  rfl

/-- **C79.** Starting with an empty store, for every sequence of sub-frames of NavIC satellites, each call returns what
`result` says about the calls so far. -/
theorem lnav_history (cs : List WCall) (h : ∀ c ∈ cs, Good c) :
    ∃ d' rs, run (fun d c => decodeLnav d c.week c.call.sat c.call.msg) (Rawnav.buffers 14) cs = .ok (d', rs) ∧
      rs.length = cs.length ∧ ∀ i (hi : i < cs.length), rs[i]? = some (result (cs.take i) cs[i]) := by
  refine history (Inv := Stored) (Good := Good) lnav_step ⟨Col.Inv.init (fun k hk => by omega) ?_, by simp⟩ cs h
  intro s hs
  unfold Dom at hs
  exact Rawnav.buffers_get (by omega) (by omega)

/-- **C79.** The week of the reference times has the broadcast last ten bits and is nearest to the current week. -/
theorem full_week (week w : Int) :
    fullWeek week w % 1024 = w % 1024 ∧ week - 511 ≤ fullWeek week w ∧ fullWeek week w ≤ week + 512 := by
  unfold fullWeek
  omega

/-- **C79.** If the current week has the broadcast last ten bits, the time of transmission is within half a week of the time of
ephemeris; it is then put into the week after or before the current one if they are more than half a week apart within a week. -/
theorem tot_near (week sat : Int) (x y : BitBuf) (hw : (week - val s1 x .week) % 1024 = 0) (ht : val s1 x .tow < 50400)
    (he : val s2 y .toe < 37800) :
    let e := lnavOf week sat x y
    e.week = week ∧ |timediff e.toe e.tot| ≤ 302400 ∧
    timediff e.toe ⟨0, 0⟩ = 315964800 + 604800 * week + e.toes ∧
    timediff e.tot ⟨0, 0⟩ = 315964800 + 604800 * totWeek week e.toes (val s1 x .tow * 12) + val s1 x .tow * 12 := by
  intro e
  have hew : e.week = week := by
    show fullWeek week (val s1 x .week) = week
    unfold fullWeek
    omega
  have r1 : (0 : ℚ) ≤ val s1 x .tow := by rw [s1_tow]; exact_mod_cast Nat.zero_le _
  have r2 : (0 : ℚ) ≤ val s2 y .toe := by rw [s2_toe]; exact_mod_cast Nat.zero_le _
  have ht' : (val s1 x .tow : ℚ) < 50400 := by exact_mod_cast ht
  have he' : (val s2 y .toe : ℚ) < 37800 := by exact_mod_cast he
  have h1 : timediff e.toe ⟨0, 0⟩ = 315964800 + 604800 * week + e.toes := by
    have : timediff e.toe ⟨0, 0⟩ = 315964800 + 604800 * e.week + e.toes :=
      (C05.week_tow_instant _ _ ⟨by linarith, by linarith⟩).1
    rwa [hew] at this
  have h2 : timediff e.tot ⟨0, 0⟩ = 315964800 + 604800 * totWeek week e.toes (val s1 x .tow * 12) + val s1 x .tow * 12 :=
    (C05.week_tow_instant _ _ ⟨by linarith, by linarith⟩).1
  refine ⟨hew, ?_, h1, h2⟩
  have e3 : timediff e.toe e.tot = 604800 * week + e.toes - (604800 * totWeek week e.toes (val s1 x .tow * 12) + val s1 x .tow * 12) := by
    rw [timediff_tot] at h1 h2 ⊢
    linarith
  have e4 : e.toes = val s2 y .toe * 16 := rfl
  rw [e3, e4]
  unfold totWeek
  rw [abs_le]
  split
  · push_cast; constructor <;> linarith
  · split
    · push_cast; constructor <;> linarith
    · constructor <;> linarith

/-- **C79.** Times of an ephemeris from L1: both reference times are in the broadcast week. -/
theorem l1_times (sat : Int) (m : BitBuf) :
    let e := l1Of sat m
    timediff e.toe ⟨0, 0⟩ = 935280000 + 604800 * e.week + e.toes ∧ e.toc = e.toe ∧
    timediff e.tot ⟨0, 0⟩ = 935280000 + 604800 * e.week + (val l1 m .itow * 7200 + val l1 m .toi * 18 : Int) := by
  intro e
  refine ⟨(C05.week_tow_instant _ _ ?_).2.1, rfl, (C05.week_tow_instant _ _ ?_).2.1⟩
  · rw [l1_toe]
    have h := bits_lt m 84 11
    have h1 : ((bitsAt m 84 11 : Int) : ℚ) ≤ 2048 := by exact_mod_cast (by omega : bitsAt m 84 11 ≤ 2048)
    have h0 : (0 : ℚ) ≤ ((bitsAt m 84 11 : Int) : ℚ) := by exact_mod_cast Nat.zero_le _
    constructor <;> linarith
  · rw [l1_itow, l1_toi]
    have h := bits_lt m 65 8
    have h' := bits_lt m 0 9
    have h1 : (bitsAt m 65 8 : Int) * 7200 + (bitsAt m 0 9 : Int) * 18 ≤ 1000000000 := by omega
    have h0 : -1000000000 ≤ (bitsAt m 65 8 : Int) * 7200 + (bitsAt m 0 9 : Int) * 18 := by omega
    constructor
    · exact_mod_cast h0
    · exact_mod_cast h1

/-- **C79.** The fields of a message are the values that were encoded. -/
theorem val_encode {L : Layout F} {v : F → Int} (hN : (L.map (·.1)).Nodup) (hF : Fit L v) (post : BitBuf) {f : F}
    (hf : f ∈ L.map (·.1)) : val L (encode L v ++ post) f = v f := by
  have := At.intro [] (encode L v) post
  rw [List.nil_append] at this
  exact num_encode L v _ 0 this hF hN f hf

/-- the fields of a layout have different names, and the layouts fill the messages -/
example : (s1.map (·.1)).Nodup ∧ (s2.map (·.1)).Nodup ∧ (l1.map (·.1)).Nodup ∧ size s1 = 292 ∧ size s2 = 292 ∧
    size l1 = 52 + 1200 + 274 := by decide +kernel

/-! ## Examples -/

/-- values of a satellite -/
def sample (sid tow : Int) : F → Int
  | .tlm => 0x8b | .sid => sid | .tow => tow | .week => 176 | .toe => 300 | .toc => 300 | .prn => 3 | .urai => -1 | .dA => -1024
  | .itow => 40 | .toi => 5 | .msgid => 17 | .af0 => -12345 | .tgd => -7 | _ => 1
def sampleS (sid tow : Int) (f : F) : Int := if f = .urai then 3 else sample sid tow f

example : Fit s1 (sampleS 0 24000) ∧ Fit s2 (sampleS 1 24001) ∧ Fit l1 (sample 0 0) := by unfold Fit; decide +kernel

def msg (L : Layout F) (sid tow : Int) : BitBuf := encode L (sampleS sid tow) ++ List.replicate 28 false

def calls : List WCall := [⟨2224, 222, msg s2 1 24001⟩, ⟨2224, 222, msg s1 0 24000⟩, ⟨2224, 223, msg s2 1 24001⟩,
  ⟨2224, 222, msg s1 3 24003⟩, ⟨2224, 222, msg s1 2 24002⟩]

example : ∀ c ∈ calls, Good c := by
  intro c hc
  simp only [calls, List.mem_cons, List.not_mem_nil, or_false] at hc
  rcases hc with rfl | rfl | rfl | rfl | rfl <;>
    exact ⟨by unfold Dom; decide, by rw [msg, List.length_append, encode_length]; decide +kernel⟩

example : (match run (fun d c => decodeLnav d c.week c.call.sat c.call.msg) (Rawnav.buffers 14) calls with
    | .ok (_, rs) => rs.map fun r => r.map fun e => (e.week, e.toes, e.sva)
    | .error _ => []) = [none, some (2224, 4800, 57 / 10), none, none, some (2224, 4800, 57 / 10)] := by decide +kernel

/-- a second sub-frame of the first 24 seconds of a week alone gives an ephemeris with a clock of zeros -/
example : (match run (fun d (c : WCall) => decodeLnav d c.week c.call.sat c.call.msg) (Rawnav.buffers 14) [⟨2224, 222, msg s2 1 1⟩] with
    | .ok (_, rs) => rs.map fun r => r.map fun e => (e.week, e.af0, e.sva)
    | .error _ => []) = [some (2048, 0, 2)] := by decide +kernel

/-- the accuracy index -1 gives the largest accuracy value -/
example : (match decodeL1nav 222 (encode l1 (sample 0 0)) with
    | .ok (some e) => some (e.week, e.sva, e.A)
    | _ => none) = some (176, 8192, 42164198) := by decide +kernel

end Verif.C79
