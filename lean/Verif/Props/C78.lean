import Verif.Model.Bcnav
import Verif.Lemmas.Collect
import Verif.Lemmas.Time
import Verif.Props.C01
import Verif.Props.C05
/-!
# C78 B-CNAV1, B-CNAV2 and B-CNAV3 messages of BeiDou
-/

set_option linter.unusedSimpArgs false

namespace Verif.C78
open Verif.Bcnav Verif.Time Verif.Lay Verif.Slots Verif.Col
open Verif.Sat (Sys sat2prn)
open Verif.Rawnav (sc2rad)

/-! ## Specification -/

/-- names of the fields -/
inductive F where
  | prn | sid | sow | week | how | iodc | iode | toe | sattype | dA | Adot | deln | delnd | M0 | e | omg | OMG0 | i0 | OMGd | idot | cis
  | cic | crs | crc | cus | cuc | toc | af0 | af1 | af2 | tgdA | iscD | tgdC | rsv | crc24 | err | page | hs | flags | flags1 | sismai
  | sis0 | top | sis1 | sis2 | sis3 | iono | utc | eop | rsv3 | crc3 | soh | tgdI | rsv0
  deriving DecidableEq

/-- the two groups of orbital elements, the clock and the accuracy -/
def orb1 : Layout F := [(.toe, 11, false), (.sattype, 2, false), (.dA, 26, true), (.Adot, 25, true), (.deln, 17, true), (.delnd, 23, true),
  (.M0, 33, true), (.e, 33, false), (.omg, 33, true)]
def orb2 : Layout F := [(.OMG0, 33, true), (.i0, 33, true), (.OMGd, 19, true), (.idot, 15, true), (.cis, 16, true), (.cic, 16, true),
  (.crs, 24, true), (.crc, 24, true), (.cus, 21, true), (.cuc, 21, true)]
def ck : Layout F := [(.toc, 11, false), (.af0, 25, true), (.af1, 22, true), (.af2, 11, true)]
def acc : Layout F := [(.top, 11, false), (.sis1, 5, true), (.sis2, 3, true), (.sis3, 3, true)]

/-- a B-CNAV1 message with page 1 of its third sub-frame -/
def b1a : Layout F := [(.week, 13, false), (.how, 8, false), (.iodc, 10, false), (.iode, 8, false)]
def b1b : Layout F := [(.tgdA, 12, true), (.iscD, 12, true), (.tgdC, 12, true), (.rsv, 7, false), (.crc24, 24, false), (.err, 8, false),
  (.page, 6, false), (.hs, 2, false), (.flags, 3, false), (.sismai, 4, true), (.sis0, 5, false)]
def b1c : Layout F := [(.iono, 74, false), (.utc, 97, false), (.rsv3, 27, false), (.crc3, 24, false), (.soh, 8, false)]
def b1 : Layout F := b1a ++ orb1 ++ orb2 ++ ck ++ b1b ++ acc ++ b1c

/-- messages of B-CNAV2 of the types 10, 11, 30 and 40 -/
def hdr2 : Layout F := [(.prn, 6, false), (.sid, 6, false), (.sow, 18, false)]
def flg2 : Layout F := [(.hs, 2, false), (.flags, 3, false), (.sismai, 4, true), (.flags1, 3, false)]
def x10 : Layout F := [(.week, 13, false), (.flags, 3, false), (.sismai, 4, true), (.flags1, 3, false), (.iode, 8, false)]
def x30 : Layout F := [(.iodc, 10, false), (.tgdA, 12, true), (.iscD, 12, true), (.iono, 74, false), (.tgdC, 12, true), (.rsv, 33, false)]
def x40 : Layout F := [(.sis0, 5, false)]
def y40 : Layout F := [(.rsv, 195, false)]
def end2 : Layout F := [(.crc24, 24, false)]
def n10 : Layout F := hdr2 ++ x10 ++ orb1 ++ end2
def n11 : Layout F := hdr2 ++ flg2 ++ orb2 ++ end2
def n30 : Layout F := hdr2 ++ flg2 ++ ck ++ x30 ++ end2
def n40 : Layout F := hdr2 ++ flg2 ++ x40 ++ acc ++ y40 ++ end2

/-- messages of B-CNAV3 of the types 10 and 30 -/
def hdr3 : Layout F := [(.prn, 6, false), (.rsv0, 6, false), (.sid, 6, false), (.sow, 20, false)]
def x310 : Layout F := [(.rsv, 4, false)]
def y310 : Layout F := [(.flags, 3, false), (.sismai, 4, true), (.crc24, 24, false)]
def x330 : Layout F := [(.week, 13, false), (.rsv, 4, false)]
def y330 : Layout F := [(.tgdI, 12, true), (.iono, 74, false), (.utc, 97, false), (.eop, 138, false)]
def z330 : Layout F := [(.sis0, 5, false), (.hs, 2, false), (.crc24, 24, false)]
def k10 : Layout F := hdr3 ++ x310 ++ orb1 ++ orb2 ++ y310
def k30 : Layout F := hdr3 ++ x330 ++ ck ++ y330 ++ acc ++ z330

def val (L : Layout F) (m : BitBuf) (f : F) : Int := num L m 0 f

/-- a time of the week of BeiDou time as an instant of GPS time -/
def refTime (week : Int) (n : Int) : GTime := bdt2gpst (bdt2time week (n * 300))

/-- the elements from the values of the fields -/
def orb1Of (v : F → Int) (week : Int) : Eph1 :=
  { toes := v .toe * 300, sattype := v .sattype, A := (if v .sattype = 3 then 27906100 else 42162200) + v .dA * (1 / 2 ^ 9),
    Adot := v .Adot * (1 / 2 ^ 21), deln := v .deln * (1 / 2 ^ 44) * sc2rad, delnd := v .delnd * (1 / 2 ^ 57) * sc2rad,
    M0 := v .M0 * (1 / 2 ^ 32) * sc2rad, e := v .e * (1 / 2 ^ 34), omg := v .omg * (1 / 2 ^ 32) * sc2rad, toe := refTime week (v .toe) }
def orb2Of (v : F → Int) : Eph2 :=
  { OMG0 := v .OMG0 * (1 / 2 ^ 32) * sc2rad, i0 := v .i0 * (1 / 2 ^ 32) * sc2rad, OMGd := v .OMGd * (1 / 2 ^ 44) * sc2rad,
    idot := v .idot * (1 / 2 ^ 44) * sc2rad, cis := v .cis * (1 / 2 ^ 30), cic := v .cic * (1 / 2 ^ 30), crs := v .crs * (1 / 2 ^ 8),
    crc := v .crc * (1 / 2 ^ 8), cus := v .cus * (1 / 2 ^ 30), cuc := v .cuc * (1 / 2 ^ 30) }
def ckOf (v : F → Int) (week : Int) : Clk :=
  { af0 := v .af0 * (1 / 2 ^ 34), af1 := v .af1 * (1 / 2 ^ 50), af2 := v .af2 * (1 / 2 ^ 66), toc := refTime week (v .toc) }

/-- the ephemeris of a B-CNAV1 message -/
def b1Of (sat : Int) (m : BitBuf) : Eph :=
  let v := val b1 m
  { sat, week := v .week, iodc := v .iodc, iode := v .iode, eph1 := orb1Of v (v .week), eph2 := orb2Of v, clk := ckOf v (v .week),
    tgd := v .tgdC * (1 / 2 ^ 34), tgdB := v .tgdA * (1 / 2 ^ 34), isc := [v .iscD * (1 / 2 ^ 34), 0, 0, 0, 0, 0], svh := v .hs,
    integ := v .flags, sismai := v .sismai, sisai := [v .sis0, v .sis1, v .sis2, v .sis3], tops := v .top * 300,
    tot := bdt2time (v .week) (v .how * 3600 + v .soh * 18), mode := 1 }

/-- the ephemeris of B-CNAV2 messages of the types 10, 11, 30 and 40 -/
def b2Of (sat : Int) (x y z u : BitBuf) : Eph :=
  let a := val n10 x; let b := val n11 y; let c := val n30 z; let d := val n40 u
  { sat, week := a .week, iodc := c .iodc, iode := a .iode, eph1 := orb1Of a (a .week), eph2 := orb2Of b, clk := ckOf c (a .week),
    tgd := c .tgdC * (1 / 2 ^ 34), tgdB := c .tgdA * (1 / 2 ^ 34), isc := [0, c .iscD * (1 / 2 ^ 34), 0, 0, 0, 0], svh := b .hs,
    integ := 8 * a .flags + a .flags1, sismai := a .sismai, sisai := [d .sis0, d .sis1, d .sis2, d .sis3], tops := d .top * 300,
    tot := bdt2time (a .week) (a .sow * 3), mode := 2 }

/-- the ephemeris of B-CNAV3 messages of the types 10 and 30; the time of ephemeris is in week 0 -/
def b3Of (sat : Int) (x y : BitBuf) : Eph :=
  let a := val k10 x; let b := val k30 y
  { sat, week := b .week, iodc := 0, iode := 0, eph1 := orb1Of a 0, eph2 := orb2Of a, clk := ckOf b (b .week),
    tgd := b .tgdI * (1 / 2 ^ 34), tgdB := 0, isc := [0, 0, 0, 0, 0, 0], svh := b .hs, integ := a .flags, sismai := a .sismai,
    sisai := [b .sis0, b .sis1, b .sis2, b .sis3], tops := b .top * 300, tot := bdt2time (b .week) (a .sow : Int), mode := 3 }

/-- kinds of B-CNAV2 messages: types 10, 11, 30, 34 and 40 -/
def kind2 (c : Call) : Option Nat :=
  if val hdr2 c.msg .sid = 10 then some 0 else if val hdr2 c.msg .sid = 11 then some 1
  else if val hdr2 c.msg .sid = 30 then some 2 else if val hdr2 c.msg .sid = 34 then some 3
  else if val hdr2 c.msg .sid = 40 then some 4 else none

/-- what a call of the B-CNAV2 decoder returns after the calls `cs` -/
def result2 (cs : List Call) (c : Call) : Option Eph :=
  if kind2 c = none then none else
    match last kind2 (cs ++ [c]) c.sat 0, last kind2 (cs ++ [c]) c.sat 1, last kind2 (cs ++ [c]) c.sat 2,
      last kind2 (cs ++ [c]) c.sat 4 with
    | some x, some y, some z, some u =>
      if val n11 y .sow = val n10 x .sow + 1 ∧ val n30 z .sow = val n10 x .sow + 2 ∧ val n30 z .iodc % 256 = val n10 x .iode then
        some (b2Of c.sat x y z u)
      else none
    | _, _, _, _ => none

/-- kinds of B-CNAV3 messages: types 10, 30 and 40 -/
def kind3 (c : Call) : Option Nat :=
  if val hdr3 c.msg .sid = 10 then some 0 else if val hdr3 c.msg .sid = 30 then some 1
  else if val hdr3 c.msg .sid = 40 then some 2 else none

/-- what a call of the B-CNAV3 decoder returns after the calls `cs` -/
def result3 (cs : List Call) (c : Call) : Option Eph :=
  if kind3 c = none then none else
    match last kind3 (cs ++ [c]) c.sat 0, last kind3 (cs ++ [c]) c.sat 1 with
    | some x, some y => if val k30 y .sow = val k10 x .sow + 1 then some (b3Of c.sat x y) else none
    | _, _ => none

/-- satellites of BeiDou -/
def Dom (sat : Int) : Prop := 86 ≤ sat ∧ sat ≤ 148

/-- messages of B-CNAV2 in 36 to 40 bytes, of B-CNAV3 in 60 to 64 bytes -/
def Good2 (c : Call) : Prop := Dom c.sat ∧ 288 ≤ c.msg.length ∧ c.msg.length ≤ 320
def Good3 (c : Call) : Prop := Dom c.sat ∧ 480 ≤ c.msg.length ∧ c.msg.length ≤ 512

/-! ## Fields -/

theorem b1_week (m : BitBuf) : val b1 m .week = (bitsAt m 0 13 : Int) := num_u (by decide +kernel) _
theorem b1_how (m : BitBuf) : val b1 m .how = (bitsAt m 13 8 : Int) := num_u (by decide +kernel) _
theorem b1_iodc (m : BitBuf) : val b1 m .iodc = (bitsAt m 21 10 : Int) := num_u (by decide +kernel) _
theorem b1_iode (m : BitBuf) : val b1 m .iode = (bitsAt m 31 8 : Int) := num_u (by decide +kernel) _
theorem b1_toe (m : BitBuf) : val b1 m .toe = (bitsAt m 39 11 : Int) := num_u (by decide +kernel) _
theorem b1_sattype (m : BitBuf) : val b1 m .sattype = (bitsAt m 50 2 : Int) := num_u (by decide +kernel) _
theorem b1_dA (m : BitBuf) : val b1 m .dA = intAt m 52 26 := num_s (by decide +kernel) _
theorem b1_Adot (m : BitBuf) : val b1 m .Adot = intAt m 78 25 := num_s (by decide +kernel) _
theorem b1_deln (m : BitBuf) : val b1 m .deln = intAt m 103 17 := num_s (by decide +kernel) _
theorem b1_delnd (m : BitBuf) : val b1 m .delnd = intAt m 120 23 := num_s (by decide +kernel) _
theorem b1_M0 (m : BitBuf) : val b1 m .M0 = intAt m 143 33 := num_s (by decide +kernel) _
theorem b1_e (m : BitBuf) : val b1 m .e = (bitsAt m 176 33 : Int) := num_u (by decide +kernel) _
theorem b1_omg (m : BitBuf) : val b1 m .omg = intAt m 209 33 := num_s (by decide +kernel) _
theorem b1_OMG0 (m : BitBuf) : val b1 m .OMG0 = intAt m 242 33 := num_s (by decide +kernel) _
theorem b1_i0 (m : BitBuf) : val b1 m .i0 = intAt m 275 33 := num_s (by decide +kernel) _
theorem b1_OMGd (m : BitBuf) : val b1 m .OMGd = intAt m 308 19 := num_s (by decide +kernel) _
theorem b1_idot (m : BitBuf) : val b1 m .idot = intAt m 327 15 := num_s (by decide +kernel) _
theorem b1_cis (m : BitBuf) : val b1 m .cis = intAt m 342 16 := num_s (by decide +kernel) _
theorem b1_cic (m : BitBuf) : val b1 m .cic = intAt m 358 16 := num_s (by decide +kernel) _
theorem b1_crs (m : BitBuf) : val b1 m .crs = intAt m 374 24 := num_s (by decide +kernel) _
theorem b1_crc (m : BitBuf) : val b1 m .crc = intAt m 398 24 := num_s (by decide +kernel) _
theorem b1_cus (m : BitBuf) : val b1 m .cus = intAt m 422 21 := num_s (by decide +kernel) _
theorem b1_cuc (m : BitBuf) : val b1 m .cuc = intAt m 443 21 := num_s (by decide +kernel) _
theorem b1_toc (m : BitBuf) : val b1 m .toc = (bitsAt m 464 11 : Int) := num_u (by decide +kernel) _
theorem b1_af0 (m : BitBuf) : val b1 m .af0 = intAt m 475 25 := num_s (by decide +kernel) _
theorem b1_af1 (m : BitBuf) : val b1 m .af1 = intAt m 500 22 := num_s (by decide +kernel) _
theorem b1_af2 (m : BitBuf) : val b1 m .af2 = intAt m 522 11 := num_s (by decide +kernel) _
theorem b1_tgdA (m : BitBuf) : val b1 m .tgdA = intAt m 533 12 := num_s (by decide +kernel) _
theorem b1_iscD (m : BitBuf) : val b1 m .iscD = intAt m 545 12 := num_s (by decide +kernel) _
theorem b1_tgdC (m : BitBuf) : val b1 m .tgdC = intAt m 557 12 := num_s (by decide +kernel) _
theorem b1_rsv (m : BitBuf) : val b1 m .rsv = (bitsAt m 569 7 : Int) := num_u (by decide +kernel) _
theorem b1_crc24 (m : BitBuf) : val b1 m .crc24 = (bitsAt m 576 24 : Int) := num_u (by decide +kernel) _
theorem b1_err (m : BitBuf) : val b1 m .err = (bitsAt m 600 8 : Int) := num_u (by decide +kernel) _
theorem b1_page (m : BitBuf) : val b1 m .page = (bitsAt m 608 6 : Int) := num_u (by decide +kernel) _
theorem b1_hs (m : BitBuf) : val b1 m .hs = (bitsAt m 614 2 : Int) := num_u (by decide +kernel) _
theorem b1_flags (m : BitBuf) : val b1 m .flags = (bitsAt m 616 3 : Int) := num_u (by decide +kernel) _
theorem b1_sismai (m : BitBuf) : val b1 m .sismai = intAt m 619 4 := num_s (by decide +kernel) _
theorem b1_sis0 (m : BitBuf) : val b1 m .sis0 = (bitsAt m 623 5 : Int) := num_u (by decide +kernel) _
theorem b1_top (m : BitBuf) : val b1 m .top = (bitsAt m 628 11 : Int) := num_u (by decide +kernel) _
theorem b1_sis1 (m : BitBuf) : val b1 m .sis1 = intAt m 639 5 := num_s (by decide +kernel) _
theorem b1_sis2 (m : BitBuf) : val b1 m .sis2 = intAt m 644 3 := num_s (by decide +kernel) _
theorem b1_sis3 (m : BitBuf) : val b1 m .sis3 = intAt m 647 3 := num_s (by decide +kernel) _
theorem b1_iono (m : BitBuf) : val b1 m .iono = (bitsAt m 650 74 : Int) := num_u (by decide +kernel) _
theorem b1_utc (m : BitBuf) : val b1 m .utc = (bitsAt m 724 97 : Int) := num_u (by decide +kernel) _
theorem b1_rsv3 (m : BitBuf) : val b1 m .rsv3 = (bitsAt m 821 27 : Int) := num_u (by decide +kernel) _
theorem b1_crc3 (m : BitBuf) : val b1 m .crc3 = (bitsAt m 848 24 : Int) := num_u (by decide +kernel) _
theorem b1_soh (m : BitBuf) : val b1 m .soh = (bitsAt m 872 8 : Int) := num_u (by decide +kernel) _
theorem hdr2_prn (m : BitBuf) : val hdr2 m .prn = (bitsAt m 0 6 : Int) := num_u (by decide +kernel) _
theorem hdr2_sid (m : BitBuf) : val hdr2 m .sid = (bitsAt m 6 6 : Int) := num_u (by decide +kernel) _
theorem hdr2_sow (m : BitBuf) : val hdr2 m .sow = (bitsAt m 12 18 : Int) := num_u (by decide +kernel) _
theorem n10_prn (m : BitBuf) : val n10 m .prn = (bitsAt m 0 6 : Int) := num_u (by decide +kernel) _
theorem n10_sid (m : BitBuf) : val n10 m .sid = (bitsAt m 6 6 : Int) := num_u (by decide +kernel) _
theorem n10_sow (m : BitBuf) : val n10 m .sow = (bitsAt m 12 18 : Int) := num_u (by decide +kernel) _
theorem n10_week (m : BitBuf) : val n10 m .week = (bitsAt m 30 13 : Int) := num_u (by decide +kernel) _
theorem n10_flags (m : BitBuf) : val n10 m .flags = (bitsAt m 43 3 : Int) := num_u (by decide +kernel) _
theorem n10_sismai (m : BitBuf) : val n10 m .sismai = intAt m 46 4 := num_s (by decide +kernel) _
theorem n10_flags1 (m : BitBuf) : val n10 m .flags1 = (bitsAt m 50 3 : Int) := num_u (by decide +kernel) _
theorem n10_iode (m : BitBuf) : val n10 m .iode = (bitsAt m 53 8 : Int) := num_u (by decide +kernel) _
theorem n10_toe (m : BitBuf) : val n10 m .toe = (bitsAt m 61 11 : Int) := num_u (by decide +kernel) _
theorem n10_sattype (m : BitBuf) : val n10 m .sattype = (bitsAt m 72 2 : Int) := num_u (by decide +kernel) _
theorem n10_dA (m : BitBuf) : val n10 m .dA = intAt m 74 26 := num_s (by decide +kernel) _
theorem n10_Adot (m : BitBuf) : val n10 m .Adot = intAt m 100 25 := num_s (by decide +kernel) _
theorem n10_deln (m : BitBuf) : val n10 m .deln = intAt m 125 17 := num_s (by decide +kernel) _
theorem n10_delnd (m : BitBuf) : val n10 m .delnd = intAt m 142 23 := num_s (by decide +kernel) _
theorem n10_M0 (m : BitBuf) : val n10 m .M0 = intAt m 165 33 := num_s (by decide +kernel) _
theorem n10_e (m : BitBuf) : val n10 m .e = (bitsAt m 198 33 : Int) := num_u (by decide +kernel) _
theorem n10_omg (m : BitBuf) : val n10 m .omg = intAt m 231 33 := num_s (by decide +kernel) _
theorem n10_crc24 (m : BitBuf) : val n10 m .crc24 = (bitsAt m 264 24 : Int) := num_u (by decide +kernel) _
theorem n11_prn (m : BitBuf) : val n11 m .prn = (bitsAt m 0 6 : Int) := num_u (by decide +kernel) _
theorem n11_sid (m : BitBuf) : val n11 m .sid = (bitsAt m 6 6 : Int) := num_u (by decide +kernel) _
theorem n11_sow (m : BitBuf) : val n11 m .sow = (bitsAt m 12 18 : Int) := num_u (by decide +kernel) _
theorem n11_hs (m : BitBuf) : val n11 m .hs = (bitsAt m 30 2 : Int) := num_u (by decide +kernel) _
theorem n11_flags (m : BitBuf) : val n11 m .flags = (bitsAt m 32 3 : Int) := num_u (by decide +kernel) _
theorem n11_sismai (m : BitBuf) : val n11 m .sismai = intAt m 35 4 := num_s (by decide +kernel) _
theorem n11_flags1 (m : BitBuf) : val n11 m .flags1 = (bitsAt m 39 3 : Int) := num_u (by decide +kernel) _
theorem n11_OMG0 (m : BitBuf) : val n11 m .OMG0 = intAt m 42 33 := num_s (by decide +kernel) _
theorem n11_i0 (m : BitBuf) : val n11 m .i0 = intAt m 75 33 := num_s (by decide +kernel) _
theorem n11_OMGd (m : BitBuf) : val n11 m .OMGd = intAt m 108 19 := num_s (by decide +kernel) _
theorem n11_idot (m : BitBuf) : val n11 m .idot = intAt m 127 15 := num_s (by decide +kernel) _
theorem n11_cis (m : BitBuf) : val n11 m .cis = intAt m 142 16 := num_s (by decide +kernel) _
theorem n11_cic (m : BitBuf) : val n11 m .cic = intAt m 158 16 := num_s (by decide +kernel) _
theorem n11_crs (m : BitBuf) : val n11 m .crs = intAt m 174 24 := num_s (by decide +kernel) _
theorem n11_crc (m : BitBuf) : val n11 m .crc = intAt m 198 24 := num_s (by decide +kernel) _
theorem n11_cus (m : BitBuf) : val n11 m .cus = intAt m 222 21 := num_s (by decide +kernel) _
theorem n11_cuc (m : BitBuf) : val n11 m .cuc = intAt m 243 21 := num_s (by decide +kernel) _
theorem n11_crc24 (m : BitBuf) : val n11 m .crc24 = (bitsAt m 264 24 : Int) := num_u (by decide +kernel) _
theorem n30_prn (m : BitBuf) : val n30 m .prn = (bitsAt m 0 6 : Int) := num_u (by decide +kernel) _
theorem n30_sid (m : BitBuf) : val n30 m .sid = (bitsAt m 6 6 : Int) := num_u (by decide +kernel) _
theorem n30_sow (m : BitBuf) : val n30 m .sow = (bitsAt m 12 18 : Int) := num_u (by decide +kernel) _
theorem n30_hs (m : BitBuf) : val n30 m .hs = (bitsAt m 30 2 : Int) := num_u (by decide +kernel) _
theorem n30_flags (m : BitBuf) : val n30 m .flags = (bitsAt m 32 3 : Int) := num_u (by decide +kernel) _
theorem n30_sismai (m : BitBuf) : val n30 m .sismai = intAt m 35 4 := num_s (by decide +kernel) _
theorem n30_flags1 (m : BitBuf) : val n30 m .flags1 = (bitsAt m 39 3 : Int) := num_u (by decide +kernel) _
theorem n30_toc (m : BitBuf) : val n30 m .toc = (bitsAt m 42 11 : Int) := num_u (by decide +kernel) _
theorem n30_af0 (m : BitBuf) : val n30 m .af0 = intAt m 53 25 := num_s (by decide +kernel) _
theorem n30_af1 (m : BitBuf) : val n30 m .af1 = intAt m 78 22 := num_s (by decide +kernel) _
theorem n30_af2 (m : BitBuf) : val n30 m .af2 = intAt m 100 11 := num_s (by decide +kernel) _
theorem n30_iodc (m : BitBuf) : val n30 m .iodc = (bitsAt m 111 10 : Int) := num_u (by decide +kernel) _
theorem n30_tgdA (m : BitBuf) : val n30 m .tgdA = intAt m 121 12 := num_s (by decide +kernel) _
theorem n30_iscD (m : BitBuf) : val n30 m .iscD = intAt m 133 12 := num_s (by decide +kernel) _
theorem n30_iono (m : BitBuf) : val n30 m .iono = (bitsAt m 145 74 : Int) := num_u (by decide +kernel) _
theorem n30_tgdC (m : BitBuf) : val n30 m .tgdC = intAt m 219 12 := num_s (by decide +kernel) _
theorem n30_rsv (m : BitBuf) : val n30 m .rsv = (bitsAt m 231 33 : Int) := num_u (by decide +kernel) _
theorem n30_crc24 (m : BitBuf) : val n30 m .crc24 = (bitsAt m 264 24 : Int) := num_u (by decide +kernel) _
theorem n40_prn (m : BitBuf) : val n40 m .prn = (bitsAt m 0 6 : Int) := num_u (by decide +kernel) _
theorem n40_sid (m : BitBuf) : val n40 m .sid = (bitsAt m 6 6 : Int) := num_u (by decide +kernel) _
theorem n40_sow (m : BitBuf) : val n40 m .sow = (bitsAt m 12 18 : Int) := num_u (by decide +kernel) _
theorem n40_hs (m : BitBuf) : val n40 m .hs = (bitsAt m 30 2 : Int) := num_u (by decide +kernel) _
theorem n40_flags (m : BitBuf) : val n40 m .flags = (bitsAt m 32 3 : Int) := num_u (by decide +kernel) _
theorem n40_sismai (m : BitBuf) : val n40 m .sismai = intAt m 35 4 := num_s (by decide +kernel) _
theorem n40_flags1 (m : BitBuf) : val n40 m .flags1 = (bitsAt m 39 3 : Int) := num_u (by decide +kernel) _
theorem n40_sis0 (m : BitBuf) : val n40 m .sis0 = (bitsAt m 42 5 : Int) := num_u (by decide +kernel) _
theorem n40_top (m : BitBuf) : val n40 m .top = (bitsAt m 47 11 : Int) := num_u (by decide +kernel) _
theorem n40_sis1 (m : BitBuf) : val n40 m .sis1 = intAt m 58 5 := num_s (by decide +kernel) _
theorem n40_sis2 (m : BitBuf) : val n40 m .sis2 = intAt m 63 3 := num_s (by decide +kernel) _
theorem n40_sis3 (m : BitBuf) : val n40 m .sis3 = intAt m 66 3 := num_s (by decide +kernel) _
theorem n40_rsv (m : BitBuf) : val n40 m .rsv = (bitsAt m 69 195 : Int) := num_u (by decide +kernel) _
theorem n40_crc24 (m : BitBuf) : val n40 m .crc24 = (bitsAt m 264 24 : Int) := num_u (by decide +kernel) _
theorem hdr3_prn (m : BitBuf) : val hdr3 m .prn = (bitsAt m 0 6 : Int) := num_u (by decide +kernel) _
theorem hdr3_rsv0 (m : BitBuf) : val hdr3 m .rsv0 = (bitsAt m 6 6 : Int) := num_u (by decide +kernel) _
theorem hdr3_sid (m : BitBuf) : val hdr3 m .sid = (bitsAt m 12 6 : Int) := num_u (by decide +kernel) _
theorem hdr3_sow (m : BitBuf) : val hdr3 m .sow = (bitsAt m 18 20 : Int) := num_u (by decide +kernel) _
theorem k10_prn (m : BitBuf) : val k10 m .prn = (bitsAt m 0 6 : Int) := num_u (by decide +kernel) _
theorem k10_rsv0 (m : BitBuf) : val k10 m .rsv0 = (bitsAt m 6 6 : Int) := num_u (by decide +kernel) _
theorem k10_sid (m : BitBuf) : val k10 m .sid = (bitsAt m 12 6 : Int) := num_u (by decide +kernel) _
theorem k10_sow (m : BitBuf) : val k10 m .sow = (bitsAt m 18 20 : Int) := num_u (by decide +kernel) _
theorem k10_rsv (m : BitBuf) : val k10 m .rsv = (bitsAt m 38 4 : Int) := num_u (by decide +kernel) _
theorem k10_toe (m : BitBuf) : val k10 m .toe = (bitsAt m 42 11 : Int) := num_u (by decide +kernel) _
theorem k10_sattype (m : BitBuf) : val k10 m .sattype = (bitsAt m 53 2 : Int) := num_u (by decide +kernel) _
theorem k10_dA (m : BitBuf) : val k10 m .dA = intAt m 55 26 := num_s (by decide +kernel) _
theorem k10_Adot (m : BitBuf) : val k10 m .Adot = intAt m 81 25 := num_s (by decide +kernel) _
theorem k10_deln (m : BitBuf) : val k10 m .deln = intAt m 106 17 := num_s (by decide +kernel) _
theorem k10_delnd (m : BitBuf) : val k10 m .delnd = intAt m 123 23 := num_s (by decide +kernel) _
theorem k10_M0 (m : BitBuf) : val k10 m .M0 = intAt m 146 33 := num_s (by decide +kernel) _
theorem k10_e (m : BitBuf) : val k10 m .e = (bitsAt m 179 33 : Int) := num_u (by decide +kernel) _
theorem k10_omg (m : BitBuf) : val k10 m .omg = intAt m 212 33 := num_s (by decide +kernel) _
theorem k10_OMG0 (m : BitBuf) : val k10 m .OMG0 = intAt m 245 33 := num_s (by decide +kernel) _
theorem k10_i0 (m : BitBuf) : val k10 m .i0 = intAt m 278 33 := num_s (by decide +kernel) _
theorem k10_OMGd (m : BitBuf) : val k10 m .OMGd = intAt m 311 19 := num_s (by decide +kernel) _
theorem k10_idot (m : BitBuf) : val k10 m .idot = intAt m 330 15 := num_s (by decide +kernel) _
theorem k10_cis (m : BitBuf) : val k10 m .cis = intAt m 345 16 := num_s (by decide +kernel) _
theorem k10_cic (m : BitBuf) : val k10 m .cic = intAt m 361 16 := num_s (by decide +kernel) _
theorem k10_crs (m : BitBuf) : val k10 m .crs = intAt m 377 24 := num_s (by decide +kernel) _
theorem k10_crc (m : BitBuf) : val k10 m .crc = intAt m 401 24 := num_s (by decide +kernel) _
theorem k10_cus (m : BitBuf) : val k10 m .cus = intAt m 425 21 := num_s (by decide +kernel) _
theorem k10_cuc (m : BitBuf) : val k10 m .cuc = intAt m 446 21 := num_s (by decide +kernel) _
theorem k10_flags (m : BitBuf) : val k10 m .flags = (bitsAt m 467 3 : Int) := num_u (by decide +kernel) _
theorem k10_sismai (m : BitBuf) : val k10 m .sismai = intAt m 470 4 := num_s (by decide +kernel) _
theorem k10_crc24 (m : BitBuf) : val k10 m .crc24 = (bitsAt m 474 24 : Int) := num_u (by decide +kernel) _
theorem k30_prn (m : BitBuf) : val k30 m .prn = (bitsAt m 0 6 : Int) := num_u (by decide +kernel) _
theorem k30_rsv0 (m : BitBuf) : val k30 m .rsv0 = (bitsAt m 6 6 : Int) := num_u (by decide +kernel) _
theorem k30_sid (m : BitBuf) : val k30 m .sid = (bitsAt m 12 6 : Int) := num_u (by decide +kernel) _
theorem k30_sow (m : BitBuf) : val k30 m .sow = (bitsAt m 18 20 : Int) := num_u (by decide +kernel) _
theorem k30_week (m : BitBuf) : val k30 m .week = (bitsAt m 38 13 : Int) := num_u (by decide +kernel) _
theorem k30_rsv (m : BitBuf) : val k30 m .rsv = (bitsAt m 51 4 : Int) := num_u (by decide +kernel) _
theorem k30_toc (m : BitBuf) : val k30 m .toc = (bitsAt m 55 11 : Int) := num_u (by decide +kernel) _
theorem k30_af0 (m : BitBuf) : val k30 m .af0 = intAt m 66 25 := num_s (by decide +kernel) _
theorem k30_af1 (m : BitBuf) : val k30 m .af1 = intAt m 91 22 := num_s (by decide +kernel) _
theorem k30_af2 (m : BitBuf) : val k30 m .af2 = intAt m 113 11 := num_s (by decide +kernel) _
theorem k30_tgdI (m : BitBuf) : val k30 m .tgdI = intAt m 124 12 := num_s (by decide +kernel) _
theorem k30_iono (m : BitBuf) : val k30 m .iono = (bitsAt m 136 74 : Int) := num_u (by decide +kernel) _
theorem k30_utc (m : BitBuf) : val k30 m .utc = (bitsAt m 210 97 : Int) := num_u (by decide +kernel) _
theorem k30_eop (m : BitBuf) : val k30 m .eop = (bitsAt m 307 138 : Int) := num_u (by decide +kernel) _
theorem k30_top (m : BitBuf) : val k30 m .top = (bitsAt m 445 11 : Int) := num_u (by decide +kernel) _
theorem k30_sis1 (m : BitBuf) : val k30 m .sis1 = intAt m 456 5 := num_s (by decide +kernel) _
theorem k30_sis2 (m : BitBuf) : val k30 m .sis2 = intAt m 461 3 := num_s (by decide +kernel) _
theorem k30_sis3 (m : BitBuf) : val k30 m .sis3 = intAt m 464 3 := num_s (by decide +kernel) _
theorem k30_sis0 (m : BitBuf) : val k30 m .sis0 = (bitsAt m 467 5 : Int) := num_u (by decide +kernel) _
theorem k30_hs (m : BitBuf) : val k30 m .hs = (bitsAt m 472 2 : Int) := num_u (by decide +kernel) _
theorem k30_crc24 (m : BitBuf) : val k30 m .crc24 = (bitsAt m 474 24 : Int) := num_u (by decide +kernel) _

/-- the values `v` are those at `o` -/
def Has1 (m : BitBuf) (o : Nat) (v : F → Int) : Prop := v .toe = (bitsAt m o 11 : Int) ∧ v .sattype = (bitsAt m (o + 11) 2 : Int) ∧ v .dA = intAt m (o + 13) 26 ∧ v .Adot = intAt m (o + 39) 25 ∧ v .deln = intAt m (o + 64) 17 ∧ v .delnd = intAt m (o + 81) 23 ∧ v .M0 = intAt m (o + 104) 33 ∧ v .e = (bitsAt m (o + 137) 33 : Int) ∧ v .omg = intAt m (o + 170) 33
/-- the values `v` are those at `o` -/
def Has2 (m : BitBuf) (o : Nat) (v : F → Int) : Prop := v .OMG0 = intAt m o 33 ∧ v .i0 = intAt m (o + 33) 33 ∧ v .OMGd = intAt m (o + 66) 19 ∧ v .idot = intAt m (o + 85) 15 ∧ v .cis = intAt m (o + 100) 16 ∧ v .cic = intAt m (o + 116) 16 ∧ v .crs = intAt m (o + 132) 24 ∧ v .crc = intAt m (o + 156) 24 ∧ v .cus = intAt m (o + 180) 21 ∧ v .cuc = intAt m (o + 201) 21
/-- the values `v` are those at `o` -/
def Has3 (m : BitBuf) (o : Nat) (v : F → Int) : Prop := v .toc = (bitsAt m o 11 : Int) ∧ v .af0 = intAt m (o + 11) 25 ∧ v .af1 = intAt m (o + 36) 22 ∧ v .af2 = intAt m (o + 58) 11
/-- the values `v` are those at `o` -/
def Has4 (m : BitBuf) (o : Nat) (v : F → Int) : Prop := v .top = (bitsAt m o 11 : Int) ∧ v .sis1 = intAt m (o + 11) 5 ∧ v .sis2 = intAt m (o + 16) 3 ∧ v .sis3 = intAt m (o + 19) 3

variable {b : BitBuf} {a W : Nat} {m : BitBuf}

theorem eph1_spec (h : Seg b a W m) (o : Nat) {i : Nat} {week : Int} (c : i = a + o ∧ o + 203 ≤ W) {v : F → Int} (hv : Has1 m o v) :
    eph1 b week i = .ok (orb1Of v week) := by
  obtain ⟨e0, e1, e2, e3, e4, e5, e6, e7, e8⟩ := hv
  unfold eph1
  rw [h.u o (i := i) (n := 11) (by omega), Py.okBind]
  rw [h.u (o + 11) (i := i + 11) (n := 2) (by omega), Py.okBind]
  rw [h.s (o + 13) (i := i + 13) (n := 26) (by omega), Py.okBind]
  rw [h.s (o + 39) (i := i + 39) (n := 25) (by omega), Py.okBind]
  rw [h.s (o + 64) (i := i + 64) (n := 17) (by omega), Py.okBind]
  rw [h.s (o + 81) (i := i + 81) (n := 23) (by omega), Py.okBind]
  rw [h.s (o + 104) (i := i + 104) (n := 33) (by omega), Py.okBind]
  rw [h.u (o + 137) (i := i + 137) (n := 33) (by omega), Py.okBind]
  rw [h.s (o + 170) (i := i + 170) (n := 33) (by omega), Py.okBind]
  unfold orb1Of refTime
  simp only [e0, e1, e2, e3, e4, e5, e6, e7, e8]
  have : ((bitsAt m (o + 11) 2 : Int) = 3) = (bitsAt m (o + 11) 2 = 3) := by norm_cast
  simp only [this]
  rfl

theorem eph2_spec (h : Seg b a W m) (o : Nat) {i : Nat} (c : i = a + o ∧ o + 222 ≤ W) {v : F → Int} (hv : Has2 m o v) :
    eph2 b i = .ok (orb2Of v) := by
  obtain ⟨e0, e1, e2, e3, e4, e5, e6, e7, e8, e9⟩ := hv
  unfold eph2
  rw [h.s o (i := i) (n := 33) (by omega), Py.okBind]
  rw [h.s (o + 33) (i := i + 33) (n := 33) (by omega), Py.okBind]
  rw [h.s (o + 66) (i := i + 66) (n := 19) (by omega), Py.okBind]
  rw [h.s (o + 85) (i := i + 85) (n := 15) (by omega), Py.okBind]
  rw [h.s (o + 100) (i := i + 100) (n := 16) (by omega), Py.okBind]
  rw [h.s (o + 116) (i := i + 116) (n := 16) (by omega), Py.okBind]
  rw [h.s (o + 132) (i := i + 132) (n := 24) (by omega), Py.okBind]
  rw [h.s (o + 156) (i := i + 156) (n := 24) (by omega), Py.okBind]
  rw [h.s (o + 180) (i := i + 180) (n := 21) (by omega), Py.okBind]
  rw [h.s (o + 201) (i := i + 201) (n := 21) (by omega), Py.okBind]
  unfold orb2Of
  simp only [e0, e1, e2, e3, e4, e5, e6, e7, e8, e9]
  rfl

theorem clk_spec (h : Seg b a W m) (o : Nat) {i : Nat} {week : Int} (c : i = a + o ∧ o + 69 ≤ W) {v : F → Int} (hv : Has3 m o v) :
    clk b week i = .ok (ckOf v week) := by
  obtain ⟨e0, e1, e2, e3⟩ := hv
  unfold clk
  rw [h.u o (i := i) (n := 11) (by omega), Py.okBind]
  rw [h.s (o + 11) (i := i + 11) (n := 25) (by omega), Py.okBind]
  rw [h.s (o + 36) (i := i + 36) (n := 22) (by omega), Py.okBind]
  rw [h.s (o + 58) (i := i + 58) (n := 11) (by omega), Py.okBind]
  unfold ckOf refTime
  simp only [e0, e1, e2, e3]
  rfl

theorem sisai_spec (h : Seg b a W m) (o : Nat) {i : Nat} (c : i = a + o ∧ o + 22 ≤ W) :
    sisai b i = .ok ((bitsAt m o 11 : Int) * 300, [intAt m (o + 11) 5, intAt m (o + 16) 3, intAt m (o + 19) 3]) := by
  unfold sisai
  rw [h.u o (i := i) (n := 11) (by omega), Py.okBind]
  rw [h.s (o + 11) (i := i + 11) (n := 5) (by omega), Py.okBind]
  rw [h.s (o + 16) (i := i + 16) (n := 3) (by omega), Py.okBind]
  rw [h.s (o + 19) (i := i + 19) (n := 3) (by omega), Py.okBind]
  rfl

theorem iono_spec (h : Seg b a W m) (o : Nat) {i : Nat} (c : i = a + o ∧ o + 74 ≤ W) : iono b i = .ok () := by
  unfold iono
  rw [h.u o (i := i) (n := 10) (by omega), Py.okBind]
  rw [h.s (o + 10) (i := i + 10) (n := 8) (by omega), Py.okBind]
  rw [h.u (o + 18) (i := i + 18) (n := 8) (by omega), Py.okBind]
  rw [h.u (o + 26) (i := i + 26) (n := 8) (by omega), Py.okBind]
  rw [h.u (o + 34) (i := i + 34) (n := 8) (by omega), Py.okBind]
  rw [h.s (o + 42) (i := i + 42) (n := 8) (by omega), Py.okBind]
  rw [h.s (o + 50) (i := i + 50) (n := 8) (by omega), Py.okBind]
  rw [h.s (o + 58) (i := i + 58) (n := 8) (by omega), Py.okBind]
  rw [h.s (o + 66) (i := i + 66) (n := 8) (by omega), Py.okBind]
  rfl

theorem utc_spec (h : Seg b a W m) (o : Nat) {i : Nat} (c : i = a + o ∧ o + 97 ≤ W) : utc b i = .ok () := by
  unfold utc
  rw [h.s o (i := i) (n := 16) (by omega), Py.okBind]
  rw [h.s (o + 16) (i := i + 16) (n := 13) (by omega), Py.okBind]
  rw [h.s (o + 29) (i := i + 29) (n := 7) (by omega), Py.okBind]
  rw [h.s (o + 36) (i := i + 36) (n := 8) (by omega), Py.okBind]
  rw [h.u (o + 44) (i := i + 44) (n := 16) (by omega), Py.okBind]
  rw [h.u (o + 60) (i := i + 60) (n := 13) (by omega), Py.okBind]
  rw [h.u (o + 73) (i := i + 73) (n := 13) (by omega), Py.okBind]
  rw [h.u (o + 86) (i := i + 86) (n := 3) (by omega), Py.okBind]
  rw [h.s (o + 89) (i := i + 89) (n := 8) (by omega), Py.okBind]
  rfl

theorem eop_spec (h : Seg b a W m) (o : Nat) {i : Nat} (c : i = a + o ∧ o + 138 ≤ W) : eop b i = .ok () := by
  unfold eop
  rw [h.u o (i := i) (n := 16) (by omega), Py.okBind]
  rw [h.s (o + 16) (i := i + 16) (n := 21) (by omega), Py.okBind]
  rw [h.s (o + 37) (i := i + 37) (n := 15) (by omega), Py.okBind]
  rw [h.s (o + 52) (i := i + 52) (n := 21) (by omega), Py.okBind]
  rw [h.s (o + 73) (i := i + 73) (n := 15) (by omega), Py.okBind]
  rw [h.s (o + 88) (i := i + 88) (n := 31) (by omega), Py.okBind]
  rw [h.s (o + 119) (i := i + 119) (n := 19) (by omega), Py.okBind]
  rfl

theorem and255 (n : Nat) : n &&& 0xff = n % 256 := Nat.and_two_pow_sub_one_eq_mod n 8

/-! ## B-CNAV1 -/

/-- **C78.** A B-CNAV1 message gives an ephemeris exactly if the issue numbers agree and its third sub-frame is page 1. -/
theorem b1_message (sat : Int) (m : BitBuf) (h : 880 ≤ m.length) :
    decodeB1c sat m = .ok (if val b1 m .iodc % 256 = val b1 m .iode ∧ val b1 m .page = 1 then some (b1Of sat m) else none) := by
  have hm := Seg.self h
  unfold decodeB1c
  dsimp only
  rw [hm.u 872 (i := 600 + 8 + 264) (n := 8) (by omega), Py.okBind]
  rw [hm.u 0 (i := 0) (n := 13) (by omega), Py.okBind]
  rw [hm.u 13 (i := 13) (n := 8) (by omega), Py.okBind]
  rw [hm.u 21 (i := 21) (n := 10) (by omega), Py.okBind]
  rw [hm.u 31 (i := 31) (n := 8) (by omega), Py.okBind]
  have hc : (val b1 m .iodc % 256 = val b1 m .iode ∧ val b1 m .page = 1) ↔
      ((bitsAt m 21 10 &&& 0xff) = bitsAt m 31 8 ∧ bitsAt m 608 6 = 1) := by
    rw [b1_iodc, b1_iode, b1_page, and255]
    norm_cast
  rw [if_congr hc rfl rfl]
  by_cases c1 : (bitsAt m 21 10 &&& 0xff) = bitsAt m 31 8
  swap
  · rw [if_pos c1, if_neg (fun h => c1 h.1)]
    rfl
  rw [if_neg (not_not.2 c1),
    eph1_spec hm 39 (by omega) (v := val b1 m) ⟨b1_toe _, b1_sattype _, b1_dA _, b1_Adot _, b1_deln _, b1_delnd _, b1_M0 _, b1_e _, b1_omg _⟩, Py.okBind,
    eph2_spec hm 242 (by omega) (v := val b1 m) ⟨b1_OMG0 _, b1_i0 _, b1_OMGd _, b1_idot _, b1_cis _, b1_cic _, b1_crs _, b1_crc _, b1_cus _, b1_cuc _⟩, Py.okBind,
    clk_spec hm 464 (by omega) (v := val b1 m) ⟨b1_toc _, b1_af0 _, b1_af1 _, b1_af2 _⟩, Py.okBind]
  rw [hm.s 533 (i := 533) (n := 12) (by omega), Py.okBind]
  rw [hm.s 545 (i := 545) (n := 12) (by omega), Py.okBind]
  rw [hm.s 557 (i := 557) (n := 12) (by omega), Py.okBind]
  rw [hm.u 608 (i := 608) (n := 6) (by omega), Py.okBind]
  rw [hm.u 614 (i := 614) (n := 2) (by omega), Py.okBind]
  rw [hm.u 616 (i := 616) (n := 3) (by omega), Py.okBind]
  rw [hm.s 619 (i := 619) (n := 4) (by omega), Py.okBind]
  rw [sisai_spec hm 623 (i := 608 + 15) (by omega), sisai_spec hm 628 (i := 608 + 15 + 5) (by omega),
    hm.u 623 (i := 608 + 15) (n := 5) (by omega)]
  by_cases c2 : bitsAt m 608 6 = 1
  swap
  · rw [if_neg c2, if_neg (fun h : _ ∧ bitsAt m 608 6 = 1 => c2 h.2)]
    simp only [if_pos (show bitsAt m 608 6 ≠ 1 from c2)]
    split
    · rfl
    · split
      · rfl
      · split <;> rfl
  rw [if_pos c2, if_pos (show _ ∧ _ from ⟨c1, c2⟩)]
  simp only [if_neg (show ¬ bitsAt m 608 6 ≠ 1 from not_not.2 c2)]
  unfold b1Of
  simp only [b1_week, b1_how, b1_iodc, b1_iode, b1_toe, b1_sattype, b1_dA, b1_Adot, b1_deln, b1_delnd, b1_M0, b1_e, b1_omg, b1_OMG0, b1_i0, b1_OMGd, b1_idot, b1_cis, b1_cic, b1_crs, b1_crc, b1_cus, b1_cuc, b1_toc, b1_af0, b1_af1, b1_af2, b1_tgdA, b1_iscD, b1_tgdC, b1_rsv, b1_crc24, b1_err, b1_page, b1_hs, b1_flags, b1_sismai, b1_sis0, b1_top, b1_sis1, b1_sis2, b1_sis3, b1_iono, b1_utc, b1_rsv3, b1_crc3, b1_soh]
  rfl


/-! ## B-CNAV2 -/

/-- the conditions on the stored messages -/
def Whole2 (x y z u : BitBuf) : Prop := bitsAt x 6 6 = 10 ∧ bitsAt y 6 6 = 11 ∧ bitsAt z 6 6 = 30 ∧ bitsAt u 6 6 = 40 ∧
  bitsAt y 12 18 = bitsAt x 12 18 + 1 ∧ bitsAt z 12 18 = bitsAt y 12 18 + 1 ∧ (bitsAt z 111 10 &&& 0xff) = bitsAt x 53 8
instance (x y z u : BitBuf) : Decidable (Whole2 x y z u) := inferInstanceAs (Decidable (_ ∧ _))

theorem flags8 (p q : Nat) : ((p <<< 3 + q : Nat) : Int) = 8 * (p : Int) + q := by
  rw [Nat.shiftLeft_eq]
  push_cast
  ring

theorem b2aTry_spec {sat : Int} {x y z w u : BitBuf} (h0 : Seg b 0 288 x) (h1 : Seg b 320 288 y) (h2 : Seg b (320 * 2) 288 z)
    (h3 : Seg b (320 * 3) 288 w) (h4 : Seg b (320 * 4) 288 u) :
    b2aTry sat b = .ok (if Whole2 x y z u then some (b2Of sat x y z u) else none) := by
  unfold b2aTry
  dsimp only
  rw [h0.u 6 (i := 6) (n := 6) (by omega), Py.okBind]
  rw [h0.u 12 (i := 12) (n := 18) (by omega), Py.okBind]
  rw [h1.u 6 (i := 320 + 6) (n := 6) (by omega), Py.okBind]
  rw [h1.u 12 (i := 320 + 6 + 6) (n := 18) (by omega), Py.okBind]
  rw [h2.u 6 (i := 320 * 2 + 6) (n := 6) (by omega), Py.okBind]
  rw [h2.u 12 (i := 320 * 2 + 6 + 6) (n := 18) (by omega), Py.okBind]
  rw [h3.u 6 (i := 320 * 3 + 6) (n := 6) (by omega), Py.okBind]
  rw [h3.u 12 (i := 320 * 3 + 6 + 6) (n := 18) (by omega), Py.okBind]
  rw [h4.u 6 (i := 320 * 4 + 6) (n := 6) (by omega), Py.okBind]
  rw [h4.u 12 (i := 320 * 4 + 6 + 6) (n := 18) (by omega), Py.okBind]
  by_cases c1 : bitsAt x 6 6 ≠ 10 ∨ bitsAt y 6 6 ≠ 11 ∨ bitsAt z 6 6 ≠ 30 ∨ bitsAt u 6 6 ≠ 40
  · rw [if_pos c1, if_neg]
    · rfl
    · rintro ⟨a, b, c, d, -⟩
      omega
  rw [if_neg c1]
  by_cases c2 : bitsAt y 12 18 ≠ bitsAt x 12 18 + 1 ∨ bitsAt z 12 18 ≠ bitsAt y 12 18 + 1
  · rw [if_pos c2, if_neg]
    · rfl
    · rintro ⟨-, -, -, -, a, b, -⟩
      omega
  rw [if_neg c2]
  push Not at c1 c2
  have hr4 : ∃ r, (if bitsAt w 6 6 = 34 then do
      let r ← sisai b (320 * 3 + 42)
      pure (0, r)
    else pure (0, 0, [0, 0, 0]) : Py (Nat × ℚ × List Int)) = .ok r := by
    rw [sisai_spec h3 42 (i := 320 * 3 + 42) (by omega)]
    split
    · exact ⟨_, rfl⟩
    · exact ⟨_, rfl⟩
  obtain ⟨r4, hr4⟩ := hr4
  rw [hr4, Py.okBind, if_pos c1.2.2.2, sisai_spec h4 47 (i := 320 * 4 + 42 + 5) (by omega), h4.u 42 (i := 320 * 4 + 42) (n := 5) (by omega),
    Py.okBind, Py.okBind]
  show (Except.ok _ >>= _) = _
  rw [Py.okBind]
  rw [h0.u 30 (i := 30) (n := 13) (by omega), Py.okBind]
  rw [h0.u 43 (i := 43) (n := 3) (by omega), Py.okBind]
  rw [h0.s 46 (i := 46) (n := 4) (by omega), Py.okBind]
  rw [h0.u 50 (i := 50) (n := 3) (by omega), Py.okBind]
  rw [h0.u 53 (i := 53) (n := 8) (by omega), Py.okBind]
  rw [eph1_spec h0 61 (i := 30 + 31) (by omega) (v := val n10 x) ⟨n10_toe _, n10_sattype _, n10_dA _, n10_Adot _, n10_deln _, n10_delnd _, n10_M0 _, n10_e _, n10_omg _⟩, Py.okBind,
    h1.u 30 (i := 320 + 30) (n := 2) (by omega), Py.okBind, eph2_spec h1 42 (i := 320 + 30 + 12) (by omega) (v := val n11 y) ⟨n11_OMG0 _, n11_i0 _, n11_OMGd _, n11_idot _, n11_cis _, n11_cic _, n11_crs _, n11_crc _, n11_cus _, n11_cuc _⟩, Py.okBind,
    clk_spec h2 42 (i := 320 * 2 + 42) (by omega) (v := val n30 z) ⟨n30_toc _, n30_af0 _, n30_af1 _, n30_af2 _⟩, Py.okBind]
  rw [h2.u 111 (i := 320 * 2 + 42 + 69) (n := 10) (by omega), Py.okBind]
  rw [h2.s 121 (i := 320 * 2 + 42 + 69 + 10) (n := 12) (by omega), Py.okBind]
  rw [h2.s 133 (i := 320 * 2 + 42 + 69 + 22) (n := 12) (by omega), Py.okBind]
  by_cases c3 : (bitsAt z 111 10 &&& 0xff) = bitsAt x 53 8
  swap
  · rw [if_pos c3, if_neg]
    · rfl
    · rintro ⟨-, -, -, -, -, -, a⟩
      exact c3 a
  rw [if_neg (not_not.2 c3), if_pos ⟨c1.1, c1.2.1, c1.2.2.1, c1.2.2.2, c2.1, c2.2, c3⟩, iono_spec h2 145 (i := 320 * 2 + 42 + 69 + 34) (by omega),
    Py.okBind, h2.s 219 (i := 320 * 2 + 42 + 69 + 34 + 74) (n := 12) (by omega), Py.okBind, flags8]
  unfold b2Of
  simp only [hdr2_prn, hdr2_sid, hdr2_sow, n10_prn, n10_sid, n10_sow, n10_week, n10_flags, n10_sismai, n10_flags1, n10_iode, n10_toe, n10_sattype, n10_dA, n10_Adot, n10_deln, n10_delnd, n10_M0, n10_e, n10_omg, n10_crc24, n11_prn, n11_sid, n11_sow, n11_hs, n11_flags, n11_sismai, n11_flags1, n11_OMG0, n11_i0, n11_OMGd, n11_idot, n11_cis, n11_cic, n11_crs, n11_crc, n11_cus, n11_cuc, n11_crc24, n30_prn, n30_sid, n30_sow, n30_hs, n30_flags, n30_sismai, n30_flags1, n30_toc, n30_af0, n30_af1, n30_af2, n30_iodc, n30_tgdA, n30_iscD, n30_iono, n30_tgdC, n30_rsv, n30_crc24, n40_prn, n40_sid, n40_sow, n40_hs, n40_flags, n40_sismai, n40_flags1, n40_sis0, n40_top, n40_sis1, n40_sis2, n40_sis3, n40_rsv, n40_crc24]
  rfl

/-! ### Calls -/

theorem sat_bds {sat : Int} (h : Dom sat) : sat2prn sat = (.bds, sat - 85) := by
  unfold Dom at h
  rcases C01.sat2prn_cases sat with x | x | x | x | x | x | x | x
  all_goals first | exact x.2.2 | omega

/-- the buffer of a satellite -/
def buf (st : Dict Int BitBuf) (sat : Int) : Option BitBuf := Dict.get? st (sat - 86)

def Stored2 (st : Dict Int BitBuf) (cs : List Call) : Prop :=
  Col.Inv kind2 288 (fun k => 320 * k) (fun k => k < 5) 1600 Dom (buf st) cs ∧ ∀ c ∈ cs, Good2 c
def Stored3 (st : Dict Int BitBuf) (cs : List Call) : Prop :=
  Col.Inv kind3 480 (fun k => 512 * k) (fun k => k < 3) 1600 Dom (buf st) cs ∧ ∀ c ∈ cs, Good3 c

theorem slot2_eq (c : Call) : slot2 (bitsAt c.msg 6 6) = kind2 c := by
  unfold slot2 kind2
  rw [hdr2_sid]
  generalize bitsAt c.msg 6 6 = n
  norm_cast

theorem slot3_eq (c : Call) : slot3 (bitsAt c.msg 12 6) = kind3 c := by
  unfold slot3 kind3
  rw [hdr3_sid]
  generalize bitsAt c.msg 12 6 = n
  norm_cast

theorem slot2_some {n k : Nat} : slot2 n = some k ↔ (n = 10 ∧ k = 0) ∨ (n = 11 ∧ k = 1) ∨ (n = 30 ∧ k = 2) ∨ (n = 34 ∧ k = 3) ∨
    (n = 40 ∧ k = 4) := by
  unfold slot2
  split_ifs <;> simp only [Option.some.injEq, reduceCtorEq, false_iff] <;> omega

theorem slot3_some {n k : Nat} : slot3 n = some k ↔ (n = 10 ∧ k = 0) ∨ (n = 30 ∧ k = 1) ∨ (n = 40 ∧ k = 2) := by
  unfold slot3
  split_ifs <;> simp only [Option.some.injEq, reduceCtorEq, false_iff] <;> omega

theorem kind2_id {c : Call} {k : Nat} (h : kind2 c = some k) : (k = 0 → bitsAt c.msg 6 6 = 10) ∧ (k = 1 → bitsAt c.msg 6 6 = 11) ∧
    (k = 2 → bitsAt c.msg 6 6 = 30) ∧ (k = 4 → bitsAt c.msg 6 6 = 40) := by
  rw [← slot2_eq, slot2_some] at h
  omega

theorem kind3_id {c : Call} {k : Nat} (h : kind3 c = some k) : (k = 0 → bitsAt c.msg 12 6 = 10) ∧ (k = 1 → bitsAt c.msg 12 6 = 30) := by
  rw [← slot3_eq, slot3_some] at h
  omega

theorem result2_parts (cs : List Call) (c : Call) (hk : kind2 c ≠ none) :
    result2 cs c = if Whole2 (part kind2 288 (cs ++ [c]) c.sat 0) (part kind2 288 (cs ++ [c]) c.sat 1)
        (part kind2 288 (cs ++ [c]) c.sat 2) (part kind2 288 (cs ++ [c]) c.sat 4) then
        some (b2Of c.sat (part kind2 288 (cs ++ [c]) c.sat 0) (part kind2 288 (cs ++ [c]) c.sat 1)
          (part kind2 288 (cs ++ [c]) c.sat 2) (part kind2 288 (cs ++ [c]) c.sat 4)) else none := by
  unfold result2
  rw [if_neg hk]
  have e0 := part_id (kind := kind2) (W := 288) (cs := cs ++ [c]) (s := c.sat) (k := 0) (n := 10) (i := 6) (w := 6) (by omega)
    (fun c' _ h => (kind2_id h).1 rfl)
  have e1 := part_id (kind := kind2) (W := 288) (cs := cs ++ [c]) (s := c.sat) (k := 1) (n := 11) (i := 6) (w := 6) (by omega)
    (fun c' _ h => (kind2_id h).2.1 rfl)
  have e2 := part_id (kind := kind2) (W := 288) (cs := cs ++ [c]) (s := c.sat) (k := 2) (n := 30) (i := 6) (w := 6) (by omega)
    (fun c' _ h => (kind2_id h).2.2.1 rfl)
  have e4 := part_id (kind := kind2) (W := 288) (cs := cs ++ [c]) (s := c.sat) (k := 4) (n := 40) (i := 6) (w := 6) (by omega)
    (fun c' _ h => (kind2_id h).2.2.2 rfl)
  have hW : Whole2 (part kind2 288 (cs ++ [c]) c.sat 0) (part kind2 288 (cs ++ [c]) c.sat 1)
        (part kind2 288 (cs ++ [c]) c.sat 2) (part kind2 288 (cs ++ [c]) c.sat 4) ↔ _ :=
    and_congr e0 (and_congr e1 (and_congr e2 (and_congr e4 Iff.rfl)))
  rw [if_congr hW rfl rfl]
  unfold part
  cases last kind2 (cs ++ [c]) c.sat 0 with
  | none => rw [if_neg (fun h => by cases h.1)]
  | some x =>
    cases last kind2 (cs ++ [c]) c.sat 1 with
    | none => rw [if_neg (fun h => by cases h.2.1)]
    | some y =>
      cases last kind2 (cs ++ [c]) c.sat 2 with
      | none => rw [if_neg (fun h => by cases h.2.2.1)]
      | some z =>
        cases last kind2 (cs ++ [c]) c.sat 4 with
        | none => rw [if_neg (fun h => by cases h.2.2.2.1)]
        | some u =>
          simp only [Option.getD_some, Option.isSome_some, true_and]
          rw [n11_sow, n10_sow, n30_sow, n30_iodc, n10_iode, and255]
          apply if_congr _ rfl rfl
          norm_cast
          constructor
          · rintro ⟨h1, h2, h3⟩; exact ⟨h1, by omega, h3⟩
          · rintro ⟨h1, h2, h3⟩; exact ⟨h1, by omega, h3⟩

theorem b2_step (st : Dict Int BitBuf) (cs : List Call) (c : Call) (hi : Stored2 st cs) (hg : Good2 c) :
    ∃ st', decodeB2a st c.sat c.msg = .ok (st', result2 cs c) ∧ Stored2 st' (cs ++ [c]) := by
  have hall : ∀ x ∈ cs ++ [c], Good2 x := by
    intro x hx
    rcases List.mem_append.1 hx with h | h
    · exact hi.2 x h
    · rw [List.mem_singleton.1 h]; exact hg
  obtain ⟨bf, hb, hl, hseg⟩ := hi.1 c.sat hg.1
  have hm := Seg.self hg.2.1
  unfold decodeB2a
  rw [sat_bds hg.1]
  dsimp only
  rw [hm.u 0 (i := 0) (n := 6) (by omega), Py.okBind, hm.u 6 (i := 6) (n := 6) (by omega), Py.okBind,
    hm.u 12 (i := 12) (n := 18) (by omega), Py.okBind, slot2_eq]
  cases hk : kind2 c with
  | none =>
    refine ⟨st, ?_, hi.1.same (fun k _ h => by rw [hk] at h; cases h), hall⟩
    unfold result2
    rw [if_pos hk]
    rfl
  | some k =>
    have hk5 : k < 5 := by
      rw [← slot2_eq, slot2_some] at hk
      omega
    have hfit : 320 * k + c.msg.length ≤ bf.length := by have := hg.2.2; omega
    dsimp only
    have hb' : Dict.get? st (c.sat - 85 - 1) = some bf := by rw [show c.sat - 85 - 1 = c.sat - 86 by omega]; exact hb
    rw [(Dict.getItem_ok_iff _ _ _).2 hb', Py.okBind]
    unfold put
    rw [if_pos (Or.inl hfit), Py.okBind]
    have hS : Stored2 (st.set (c.sat - 85 - 1) (splice bf (320 * k) c.msg)) (cs ++ [c]) := by
      refine ⟨Col.Inv.step hi.1 hb (b' := splice bf (320 * k) c.msg) ?_ ?_ ?_ (fun k hk => by omega) hg.2.1 ?_, hall⟩
      · unfold buf
        rw [show c.sat - 85 - 1 = c.sat - 86 by omega]
        exact Dict.get?_set_self _ _ _
      · intro s hs hne
        exact Dict.get?_set_ne _ _ (by omega)
      · rw [splice_length _ _ _ hfit]; exact hl
      · intro j hj
        rw [splice_parts hg.2 hfit, hk]
        simp only [Option.some.injEq]
    obtain ⟨B, hB, -, hsegs⟩ := hS.1 c.sat hg.1
    have hB' : buf (st.set (c.sat - 85 - 1) (splice bf (320 * k) c.msg)) c.sat = some (splice bf (320 * k) c.msg) := by
      unfold buf
      rw [show c.sat - 85 - 1 = c.sat - 86 by omega]
      exact Dict.get?_set_self _ _ _
    rw [hB'] at hB
    cases hB
    refine ⟨_, ?_, hS⟩
    rw [b2aTry_spec (hsegs 0 (by omega)) (hsegs 1 (by omega)) (hsegs 2 (by omega)) (hsegs 3 (by omega)) (hsegs 4 (by omega)), Py.okBind,
      result2_parts _ _ (by rw [hk]; simp)]
    rfl

/-- **C78.** Starting with an empty store, for every sequence of B-CNAV2 messages of BeiDou satellites, each call returns what
`result2` says about the calls so far. -/
theorem b2_history (cs : List Call) (h : ∀ c ∈ cs, Good2 c) :
    ∃ d' rs, run (fun d c => decodeB2a d c.sat c.msg) (Rawnav.buffers 63) cs = .ok (d', rs) ∧ rs.length = cs.length ∧
      ∀ i (hi : i < cs.length), rs[i]? = some (result2 (cs.take i) cs[i]) := by
  refine history (Inv := Stored2) (Good := Good2) b2_step ⟨Col.Inv.init (fun k hk => by omega) ?_, by simp⟩ cs h
  intro s hs
  unfold Dom at hs
  exact Rawnav.buffers_get (by omega) (by omega)

/-! ## B-CNAV3 -/

/-- the conditions on the stored messages -/
def Whole3 (x y : BitBuf) : Prop := bitsAt x 12 6 = 10 ∧ bitsAt y 12 6 = 30 ∧ bitsAt y 18 20 = bitsAt x 18 20 + 1
instance (x y : BitBuf) : Decidable (Whole3 x y) := inferInstanceAs (Decidable (_ ∧ _))

theorem b2bTry_spec {sat : Int} {x y z : BitBuf} (h0 : Seg b 0 480 x) (h1 : Seg b 512 480 y) (h2 : Seg b (512 * 2) 480 z) :
    b2bTry sat b 12 = .ok (if Whole3 x y then some (b3Of sat x y) else none) := by
  unfold b2bTry
  dsimp only
  rw [h0.u 12 (i := 12) (n := 6) (by omega), Py.okBind]
  rw [h0.u 18 (i := 18) (n := 20) (by omega), Py.okBind]
  rw [h1.u 12 (i := 512 + 12) (n := 6) (by omega), Py.okBind]
  rw [h1.u 18 (i := 512 + 12 + 6) (n := 20) (by omega), Py.okBind]
  rw [h2.u 12 (i := 512 * 2 + 12) (n := 6) (by omega), Py.okBind]
  rw [h2.u 18 (i := 512 * 2 + 12 + 6) (n := 20) (by omega), Py.okBind]
  by_cases c1 : bitsAt x 12 6 ≠ 10 ∨ bitsAt y 12 6 ≠ 30
  · rw [if_pos c1, if_neg]
    · rfl
    · rintro ⟨a, b, -⟩
      omega
  rw [if_neg c1]
  by_cases c2 : bitsAt y 18 20 ≠ bitsAt x 18 20 + 1
  · rw [if_pos c2, if_neg]
    · rfl
    · rintro ⟨-, -, a⟩
      omega
  rw [if_neg c2]
  push Not at c1 c2
  rw [if_pos ⟨c1.1, c1.2, c2⟩, eph1_spec h0 42 (i := 12 + 30) (by omega) (v := val k10 x) ⟨k10_toe _, k10_sattype _, k10_dA _, k10_Adot _, k10_deln _, k10_delnd _, k10_M0 _, k10_e _, k10_omg _⟩, Py.okBind,
    eph2_spec h0 245 (i := 12 + 30 + 203) (by omega) (v := val k10 x) ⟨k10_OMG0 _, k10_i0 _, k10_OMGd _, k10_idot _, k10_cis _, k10_cic _, k10_crs _, k10_crc _, k10_cus _, k10_cuc _⟩, Py.okBind]
  rw [h0.u 467 (i := 12 + 30 + 203 + 222) (n := 3) (by omega), Py.okBind]
  rw [h0.s 470 (i := 12 + 30 + 203 + 222 + 3) (n := 4) (by omega), Py.okBind]
  rw [h1.u 38 (i := 512 + 12 + 26) (n := 13) (by omega), Py.okBind,
    clk_spec h1 55 (i := 512 + 12 + 26 + 17) (by omega) (v := val k30 y) ⟨k30_toc _, k30_af0 _, k30_af1 _, k30_af2 _⟩, Py.okBind,
    h1.s 124 (i := 512 + 12 + 26 + 17 + 69) (n := 12) (by omega), Py.okBind,
    iono_spec h1 136 (i := 512 + 12 + 26 + 17 + 69 + 12) (by omega), Py.okBind,
    utc_spec h1 210 (i := 512 + 12 + 26 + 17 + 69 + 12 + 74) (by omega), Py.okBind,
    eop_spec h1 307 (i := 512 + 12 + 26 + 17 + 69 + 12 + 74 + 97) (by omega), Py.okBind,
    sisai_spec h1 445 (i := 512 + 12 + 26 + 17 + 69 + 12 + 74 + 97 + 138) (by omega), Py.okBind]
  rw [h1.u 467 (i := 512 + 12 + 26 + 17 + 69 + 12 + 74 + 97 + 138 + 22) (n := 5) (by omega), Py.okBind]
  rw [h1.u 472 (i := 512 + 12 + 26 + 17 + 69 + 12 + 74 + 97 + 138 + 22 + 5) (n := 2) (by omega), Py.okBind]
  unfold b3Of
  simp only [hdr3_prn, hdr3_rsv0, hdr3_sid, hdr3_sow, k10_prn, k10_rsv0, k10_sid, k10_sow, k10_rsv, k10_toe, k10_sattype, k10_dA, k10_Adot, k10_deln, k10_delnd, k10_M0, k10_e, k10_omg, k10_OMG0, k10_i0, k10_OMGd, k10_idot, k10_cis, k10_cic, k10_crs, k10_crc, k10_cus, k10_cuc, k10_flags, k10_sismai, k10_crc24, k30_prn, k30_rsv0, k30_sid, k30_sow, k30_week, k30_rsv, k30_toc, k30_af0, k30_af1, k30_af2, k30_tgdI, k30_iono, k30_utc, k30_eop, k30_top, k30_sis1, k30_sis2, k30_sis3, k30_sis0, k30_hs, k30_crc24]
  rfl

theorem result3_parts (cs : List Call) (c : Call) (hk : kind3 c ≠ none) :
    result3 cs c = if Whole3 (part kind3 480 (cs ++ [c]) c.sat 0) (part kind3 480 (cs ++ [c]) c.sat 1) then
        some (b3Of c.sat (part kind3 480 (cs ++ [c]) c.sat 0) (part kind3 480 (cs ++ [c]) c.sat 1)) else none := by
  unfold result3
  rw [if_neg hk]
  have e0 := part_id (kind := kind3) (W := 480) (cs := cs ++ [c]) (s := c.sat) (k := 0) (n := 10) (i := 12) (w := 6) (by omega)
    (fun c' _ h => (kind3_id h).1 rfl)
  have e1 := part_id (kind := kind3) (W := 480) (cs := cs ++ [c]) (s := c.sat) (k := 1) (n := 30) (i := 12) (w := 6) (by omega)
    (fun c' _ h => (kind3_id h).2 rfl)
  have hW : Whole3 (part kind3 480 (cs ++ [c]) c.sat 0) (part kind3 480 (cs ++ [c]) c.sat 1) ↔ _ :=
    and_congr e0 (and_congr e1 Iff.rfl)
  rw [if_congr hW rfl rfl]
  unfold part
  cases last kind3 (cs ++ [c]) c.sat 0 with
  | none => rw [if_neg (fun h => by cases h.1)]
  | some x =>
    cases last kind3 (cs ++ [c]) c.sat 1 with
    | none => rw [if_neg (fun h => by cases h.2.1)]
    | some y =>
      simp only [Option.getD_some, Option.isSome_some, true_and]
      rw [k30_sow, k10_sow]
      apply if_congr _ rfl rfl
      norm_cast

theorem b3_step (st : Dict Int BitBuf) (cs : List Call) (c : Call) (hi : Stored3 st cs) (hg : Good3 c) :
    ∃ st', decodeB2b st c.sat c.msg = .ok (st', result3 cs c) ∧ Stored3 st' (cs ++ [c]) := by
  have hall : ∀ x ∈ cs ++ [c], Good3 x := by
    intro x hx
    rcases List.mem_append.1 hx with h | h
    · exact hi.2 x h
    · rw [List.mem_singleton.1 h]; exact hg
  obtain ⟨bf, hb, hl, hseg⟩ := hi.1 c.sat hg.1
  have hm := Seg.self hg.2.1
  unfold decodeB2b
  rw [sat_bds hg.1]
  dsimp only
  rw [hm.u 12 (i := 12) (n := 6) (by omega), Py.okBind,
    hm.u 18 (i := 12 + 6) (n := 20) (by omega), Py.okBind, slot3_eq]
  cases hk : kind3 c with
  | none =>
    refine ⟨st, ?_, hi.1.same (fun k _ h => by rw [hk] at h; cases h), hall⟩
    unfold result3
    rw [if_pos hk]
    rfl
  | some k =>
    have hk5 : k < 3 := by
      rw [← slot3_eq, slot3_some] at hk
      omega
    have hfit : 512 * k + c.msg.length ≤ bf.length := by have := hg.2.2; omega
    dsimp only
    have hb' : Dict.get? st (c.sat - 85 - 1) = some bf := by rw [show c.sat - 85 - 1 = c.sat - 86 by omega]; exact hb
    rw [(Dict.getItem_ok_iff _ _ _).2 hb', Py.okBind]
    unfold put
    rw [if_pos (Or.inl hfit), Py.okBind]
    have hS : Stored3 (st.set (c.sat - 85 - 1) (splice bf (512 * k) c.msg)) (cs ++ [c]) := by
      refine ⟨Col.Inv.step hi.1 hb (b' := splice bf (512 * k) c.msg) ?_ ?_ ?_ (fun k hk => by omega) hg.2.1 ?_, hall⟩
      · unfold buf
        rw [show c.sat - 85 - 1 = c.sat - 86 by omega]
        exact Dict.get?_set_self _ _ _
      · intro s hs hne
        exact Dict.get?_set_ne _ _ (by omega)
      · rw [splice_length _ _ _ hfit]; exact hl
      · intro j hj
        rw [splice_parts hg.2 hfit, hk]
        simp only [Option.some.injEq]
    obtain ⟨B, hB, -, hsegs⟩ := hS.1 c.sat hg.1
    have hB' : buf (st.set (c.sat - 85 - 1) (splice bf (512 * k) c.msg)) c.sat = some (splice bf (512 * k) c.msg) := by
      unfold buf
      rw [show c.sat - 85 - 1 = c.sat - 86 by omega]
      exact Dict.get?_set_self _ _ _
    rw [hB'] at hB
    cases hB
    refine ⟨_, ?_, hS⟩
    rw [b2bTry_spec (hsegs 0 (by omega)) (hsegs 1 (by omega)) (hsegs 2 (by omega)), Py.okBind,
      result3_parts _ _ (by rw [hk]; simp)]
    rfl

/-- **C78.** Starting with an empty store, for every sequence of B-CNAV3 messages of BeiDou satellites, each call returns what
`result3` says about the calls so far. -/
theorem b3_history (cs : List Call) (h : ∀ c ∈ cs, Good3 c) :
    ∃ d' rs, run (fun d c => decodeB2b d c.sat c.msg) (Rawnav.buffers 63) cs = .ok (d', rs) ∧ rs.length = cs.length ∧
      ∀ i (hi : i < cs.length), rs[i]? = some (result3 (cs.take i) cs[i]) := by
  refine history (Inv := Stored3) (Good := Good3) b3_step ⟨Col.Inv.init (fun k hk => by omega) ?_, by simp⟩ cs h
  intro s hs
  unfold Dom at hs
  exact Rawnav.buffers_get (by omega) (by omega)

/-! ## Times -/

theorem val_range (m : BitBuf) (i k : Nat) : (0 : ℚ) ≤ ((bitsAt m i k : Int) : ℚ) ∧ ((bitsAt m i k : Int) : ℚ) < 2 ^ k := by
  refine ⟨by exact_mod_cast Nat.zero_le _, ?_⟩
  have := bits_lt m i k
  exact_mod_cast this

theorem tot_of {x : GTime} {v : ℚ} (h : timediff x ⟨0, 0⟩ = v) : x.tot = v := by
  rw [timediff_tot] at h
  rw [← h]
  simp [GTime.tot]

theorem ref_instant (week n : Int) (h0 : (0 : ℚ) ≤ n) (h1 : (n : ℚ) < 2 ^ 11) :
    timediff (refTime week n) ⟨0, 0⟩ = 1136073600 + 604800 * week + n * 300 + 14 := by
  unfold refTime
  rw [timediff_tot, bdt2gpst, tot_timeadd, tot_of (C05.week_tow_instant _ _ ?_).2.2]
  · simp [GTime.tot]
  · norm_num at h1
    constructor <;> linarith

theorem bdt_instant (week : Int) (t : ℚ) (h0 : 0 ≤ t) (h1 : t ≤ 2000000) :
    timediff (bdt2time week t) ⟨0, 0⟩ = 1136073600 + 604800 * week + t :=
  (C05.week_tow_instant _ _ ⟨by linarith, by linarith⟩).2.2

/-- **C78.** Times of a B-CNAV1 ephemeris: the reference times are in GPS time, the time of transmission in BeiDou time. -/
theorem b1_times (sat : Int) (m : BitBuf) :
    let e := b1Of sat m
    timediff e.eph1.toe ⟨0, 0⟩ = 1136073600 + 604800 * e.week + e.eph1.toes + 14 ∧
    timediff e.clk.toc ⟨0, 0⟩ = 1136073600 + 604800 * e.week + val b1 m .toc * 300 + 14 ∧
    timediff e.tot ⟨0, 0⟩ = 1136073600 + 604800 * e.week + (val b1 m .how * 3600 + val b1 m .soh * 18) := by
  intro e
  refine ⟨ref_instant _ _ ?_ ?_, ref_instant _ _ ?_ ?_, bdt_instant _ _ ?_ ?_⟩
  · rw [b1_toe]; exact (val_range _ _ _).1
  · rw [b1_toe]; exact (val_range _ _ _).2
  · rw [b1_toc]; exact (val_range _ _ _).1
  · rw [b1_toc]; exact (val_range _ _ _).2
  all_goals
    rw [b1_how, b1_soh]
    obtain ⟨a1, a2⟩ := val_range m 13 8
    obtain ⟨c1, c2⟩ := val_range m 872 8
    generalize (((bitsAt m 13 8 : Nat) : Int) : ℚ) = p at *
    generalize (((bitsAt m 872 8 : Nat) : Int) : ℚ) = q at *
    norm_num at a1 a2 c1 c2 ⊢
    linarith

/-- **C78.** Times of a B-CNAV2 ephemeris. -/
theorem b2_times (sat : Int) (x y z u : BitBuf) :
    let e := b2Of sat x y z u
    timediff e.eph1.toe ⟨0, 0⟩ = 1136073600 + 604800 * e.week + e.eph1.toes + 14 ∧
    timediff e.clk.toc ⟨0, 0⟩ = 1136073600 + 604800 * e.week + val n30 z .toc * 300 + 14 ∧
    timediff e.tot ⟨0, 0⟩ = 1136073600 + 604800 * e.week + val n10 x .sow * 3 := by
  intro e
  refine ⟨ref_instant _ _ ?_ ?_, ref_instant _ _ ?_ ?_, bdt_instant _ _ ?_ ?_⟩
  · rw [n10_toe]; exact (val_range _ _ _).1
  · rw [n10_toe]; exact (val_range _ _ _).2
  · rw [n30_toc]; exact (val_range _ _ _).1
  · rw [n30_toc]; exact (val_range _ _ _).2
  all_goals
    rw [n10_sow]
    obtain ⟨a1, a2⟩ := val_range x 12 18
    generalize (((bitsAt x 12 18 : Nat) : Int) : ℚ) = p at *
    norm_num at a1 a2 ⊢
    linarith

/-- **C78.** Times of a B-CNAV3 ephemeris: the time of ephemeris is in the first two weeks of BeiDou time, whatever the week. -/
theorem b3_times (sat : Int) (x y : BitBuf) :
    let e := b3Of sat x y
    timediff e.eph1.toe ⟨0, 0⟩ = 1136073600 + e.eph1.toes + 14 ∧ e.eph1.toes < 614400 ∧
    timediff e.clk.toc ⟨0, 0⟩ = 1136073600 + 604800 * e.week + val k30 y .toc * 300 + 14 ∧
    timediff e.tot ⟨0, 0⟩ = 1136073600 + 604800 * e.week + val k10 x .sow := by
  intro e
  have h0 : (0 : ℚ) ≤ val k10 x .toe := by rw [k10_toe]; exact (val_range _ _ _).1
  have h1 : (val k10 x .toe : ℚ) < 2 ^ 11 := by rw [k10_toe]; exact (val_range _ _ _).2
  refine ⟨?_, ?_, ref_instant _ _ ?_ ?_, bdt_instant _ _ ?_ ?_⟩
  · have := ref_instant 0 (val k10 x .toe) h0 h1
    rw [Int.cast_zero, mul_zero, add_zero] at this
    exact this
  · show (val k10 x .toe : ℚ) * 300 < 614400
    norm_num at h1
    linarith
  · rw [k30_toc]; exact (val_range _ _ _).1
  · rw [k30_toc]; exact (val_range _ _ _).2
  all_goals
    rw [k10_sow]
    obtain ⟨a1, a2⟩ := val_range x 18 20
    generalize (((bitsAt x 18 20 : Nat) : Int) : ℚ) = p at *
    norm_num at a1 a2 ⊢
    linarith

/-- **C78.** The fields of a message are the values that were encoded. -/
theorem val_encode {L : Layout F} {v : F → Int} (hN : (L.map (·.1)).Nodup) (hF : Fit L v) (post : BitBuf) {f : F}
    (hf : f ∈ L.map (·.1)) : val L (encode L v ++ post) f = v f := by
  have := At.intro [] (encode L v) post
  rw [List.nil_append] at this
  exact num_encode L v _ 0 this hF hN f hf

/-- the fields of a layout have different names, and the layouts fill the messages -/
example : (b1.map (·.1)).Nodup ∧ (n10.map (·.1)).Nodup ∧ (n11.map (·.1)).Nodup ∧ (n30.map (·.1)).Nodup ∧ (n40.map (·.1)).Nodup ∧
    (k10.map (·.1)).Nodup ∧ (k30.map (·.1)).Nodup ∧ size b1 = 600 + 8 + 264 + 8 ∧ size n10 = 288 ∧ size n11 = 288 ∧ size n30 = 288 ∧
    size n40 = 288 ∧ size k10 = 12 + 486 ∧ size k30 = 12 + 486 := by decide +kernel

/-! ## Examples -/

/-- values of a satellite -/
def sample (sid sow : Int) : F → Int
  | .prn => 30 | .sid => sid | .sow => sow | .week => 900 | .how => 75 | .soh => 3 | .iodc => 0x205 | .iode => 5 | .toe => 900 | .toc => 900
  | .sattype => 3 | .dA => -1024 | .page => 1 | .af0 => -12345 | .tgdA => -7 | .tgdC => 9 | .sis0 => 31 | .sis1 => -16 | .sismai => -1
  | .top => 880 | .hs => 2 | .flags => 5 | .flags1 => 3 | _ => 1

example : Fit b1 (sample 0 0) ∧ Fit n10 (sample 10 90010) ∧ Fit n40 (sample 40 90010) ∧ Fit k10 (sample 10 270010) ∧
    Fit k30 (sample 30 270011) := by unfold Fit; decide +kernel

def msg2 (L : Layout F) (sid sow : Int) : BitBuf := encode L (sample sid sow)
def msg3 (L : Layout F) (sid sow : Int) : BitBuf := encode L (sample sid sow) ++ List.replicate 14 false

def calls2 : List Call := [⟨115, msg2 n40 40 90002⟩, ⟨115, msg2 n10 10 90010⟩, ⟨115, msg2 n11 11 90011⟩, ⟨116, msg2 n30 30 90012⟩,
  ⟨115, msg2 n30 30 90012⟩, ⟨115, msg2 n11 32 0⟩, ⟨115, msg2 n10 10 90020⟩]
def calls3 : List Call := [⟨115, msg3 k30 30 270001⟩, ⟨115, msg3 k10 10 270010⟩, ⟨115, msg3 k30 30 270011⟩]

example : ∀ c ∈ calls2, Good2 c := by
  intro c hc
  simp only [calls2, List.mem_cons, List.not_mem_nil, or_false] at hc
  rcases hc with rfl | rfl | rfl | rfl | rfl | rfl | rfl <;>
    exact ⟨by unfold Dom; decide, by rw [msg2, encode_length]; decide +kernel, by rw [msg2, encode_length]; decide +kernel⟩

example : ∀ c ∈ calls3, Good3 c := by
  intro c hc
  simp only [calls3, List.mem_cons, List.not_mem_nil, or_false] at hc
  rcases hc with rfl | rfl | rfl <;>
    exact ⟨by unfold Dom; decide, by rw [msg3, List.length_append, encode_length]; decide +kernel,
      by rw [msg3, List.length_append, encode_length]; decide +kernel⟩

/-- an ephemeris once the types 10, 11 and 30 have followed each other and one of type 40 has been given -/
example : (match run (fun d c => decodeB2a d c.sat c.msg) (Rawnav.buffers 63) calls2 with
    | .ok (_, rs) => rs.map fun r => r.map fun e => (e.iodc, e.eph1.A, e.sisai, e.integ)
    | .error _ => []) = [none, none, none, none, some (0x205, 27906098, [31, -16, 1, 1], 43), none, none] := by decide +kernel

/-- the time of ephemeris of B-CNAV3 is 900 weeks before the time of clock -/
example : (match run (fun d c => decodeB2b d c.sat c.msg) (Rawnav.buffers 63) calls3 with
    | .ok (_, rs) => rs.map fun r => r.map fun e => (e.week, timediff e.clk.toc e.eph1.toe, e.svh)
    | .error _ => []) = [none, none, some (900, 900 * 604800, 2)] := by decide +kernel

example : (match decodeB1c 115 (encode b1 (sample 0 0)) with
    | .ok (some e) => some (e.week, timediff e.eph1.toe e.tot, e.sisai)
    | _ => none) = some (900, -40, [31, -16, 1, 1]) := by decide +kernel


end Verif.C78
