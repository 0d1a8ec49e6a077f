import Verif.Model.Cnav
import Verif.Lemmas.Collect
import Verif.Lemmas.Time
import Verif.Props.C01
import Verif.Props.C05
/-!
# C77 CNAV and CNAV/2 messages of GPS and QZSS
-/

set_option linter.unusedSimpArgs false

namespace Verif.C77
open Verif.Cnav Verif.Time Verif.Lay Verif.Slots Verif.Col
open Verif.Sat (Sys sat2prn)
open Verif.Rawnav (sc2rad)

/-! ## Specification -/

/-- names of the fields -/
inductive F where
  | pre | prn | sid | tow | alert | week | svh | top | uraEd | toe | dA | Adot | deln | delnd | M0 | e | omg | isf | esf | rsv | crc24
  | OMG0 | i0 | OMGd | idot | cis | cic | crs | crc | cus | cuc | ura0 | ura1 | ura2 | toc | af0 | af1 | af2 | tgd
  | isc1 | isc2 | isc3 | isc4 | iono | wnOp | toi | sym | itow | iscP | iscD | rsv2 | prn8 | page | utc
  deriving DecidableEq

/-- messages of type 10, 11 and 30 (61) -/
def hdr : Layout F := [(.pre, 8, false), (.prn, 6, false), (.sid, 6, false), (.tow, 17, false), (.alert, 1, false)]
def m10 : Layout F := hdr ++ [(.week, 13, false), (.svh, 3, false), (.top, 11, false), (.uraEd, 5, true), (.toe, 11, false),
  (.dA, 26, true), (.Adot, 25, true), (.deln, 17, true), (.delnd, 23, true), (.M0, 33, true), (.e, 33, false), (.omg, 33, true),
  (.isf, 1, false), (.esf, 1, false), (.rsv, 3, false), (.crc24, 24, false)]
def m11 : Layout F := hdr ++ [(.toe, 11, false), (.OMG0, 33, true), (.i0, 33, true), (.OMGd, 17, true), (.idot, 15, true),
  (.cis, 16, true), (.cic, 16, true), (.crs, 24, true), (.crc, 24, true), (.cus, 21, true), (.cuc, 21, true), (.rsv, 7, false),
  (.crc24, 24, false)]
def m30 : Layout F := hdr ++ [(.top, 11, false), (.ura0, 5, true), (.ura1, 3, false), (.ura2, 3, false), (.toc, 11, false),
  (.af0, 26, true), (.af1, 20, true), (.af2, 10, true), (.tgd, 13, true), (.isc1, 13, true), (.isc2, 13, true), (.isc3, 13, true),
  (.isc4, 13, true), (.iono, 64, false), (.wnOp, 8, false), (.rsv, 12, false), (.crc24, 24, false)]

/-- a CNAV/2 message: sub-frame 1 of 52 symbols, sub-frame 2 in a place of 1200 symbols, sub-frame 3 -/
def m2 : Layout F := [(.toi, 9, false), (.sym, 43, false), (.week, 13, false), (.itow, 8, false), (.top, 11, false), (.svh, 1, false),
  (.uraEd, 5, true), (.toe, 11, false), (.dA, 26, true), (.Adot, 25, true), (.deln, 17, true), (.delnd, 23, true), (.M0, 33, true),
  (.e, 33, false), (.omg, 33, true), (.OMG0, 33, true), (.i0, 33, true), (.OMGd, 17, true), (.idot, 15, true), (.cis, 16, true),
  (.cic, 16, true), (.crs, 24, true), (.crc, 24, true), (.cus, 21, true), (.cuc, 21, true), (.ura0, 5, true), (.ura1, 3, false),
  (.ura2, 3, false), (.af0, 26, true), (.af1, 20, true), (.af2, 10, true), (.tgd, 13, true), (.iscP, 13, true), (.iscD, 13, true),
  (.isf, 1, false), (.wnOp, 8, false), (.esf, 1, false), (.rsv2, 625, false), (.prn8, 8, false), (.page, 6, false), (.utc, 98, false),
  (.iono, 64, false), (.isc1, 13, true), (.isc2, 13, true), (.isc3, 13, true), (.isc4, 13, true), (.rsv, 18, false), (.crc24, 24, false)]

def val (L : Layout F) (m : BitBuf) (f : F) : Int := num L m 0 f

/-- satellites of GPS and QZSS -/
def Gps (sat : Int) : Prop := 1 ≤ sat ∧ sat ≤ 32
def Qzss (sat : Int) : Prop := 69 ≤ sat ∧ sat ≤ 85
instance (sat : Int) : Decidable (Gps sat) := inferInstanceAs (Decidable (_ ∧ _))
instance (sat : Int) : Decidable (Qzss sat) := inferInstanceAs (Decidable (_ ∧ _))

/-- reference semi-major axis in metres -/
def refAxis (sat : Int) : ℚ := if Gps sat then 26559710 else 42164200

/-- the week that brings the reference time `T` next to the time `S` of week `W`; see `near` -/
def refWeek (W : Int) (T S : ℚ) : Int := if T < S - 302400 then W + 1 else if S + 302400 < T then W - 1 else W

/-- the ephemeris of messages of type 10, 11 and 30 or 61 -/
def cnavOf (sat : Int) (a b c : BitBuf) : Eph :=
  let tow : ℚ := val m10 a .tow * 6
  let week := refWeek (val m10 a .week) (val m30 c .toc * 300) tow
  let wnOp := val m10 a .week / 256 * 256 + val m30 c .wnOp
  { sat, week, code := 1, svh := val m10 a .svh, af0 := val m30 c .af0 * (1 / 2 ^ 35), af1 := val m30 c .af1 * (1 / 2 ^ 48),
    af2 := val m30 c .af2 * (1 / 2 ^ 60), urai := [val m30 c .ura0, val m30 c .ura1, val m30 c .ura2, val m10 a .uraEd],
    tops := val m30 c .top * 300, A := refAxis sat + val m10 a .dA * (1 / 2 ^ 9), Adot := val m10 a .Adot * (1 / 2 ^ 21),
    deln := val m10 a .deln * (1 / 2 ^ 44) * sc2rad, delnd := val m10 a .delnd * (1 / 2 ^ 57) * sc2rad,
    M0 := val m10 a .M0 * (1 / 2 ^ 32) * sc2rad, e := val m10 a .e * (1 / 2 ^ 34), omg := val m10 a .omg * (1 / 2 ^ 32) * sc2rad,
    integ := (4 * val m10 a .alert + 2 * val m10 a .esf + val m10 a .isf).toNat, wnOp, toes := val m11 b .toe * 300,
    OMG0 := val m11 b .OMG0 * (1 / 2 ^ 32) * sc2rad, i0 := val m11 b .i0 * (1 / 2 ^ 32) * sc2rad,
    OMGd := (val m11 b .OMGd * (1 / 2 ^ 44) - 26 / 10 ^ 10) * sc2rad, idot := val m11 b .idot * (1 / 2 ^ 44) * sc2rad,
    cis := val m11 b .cis * (1 / 2 ^ 30), cic := val m11 b .cic * (1 / 2 ^ 30), crs := val m11 b .crs * (1 / 2 ^ 8),
    crc := val m11 b .crc * (1 / 2 ^ 8), cus := val m11 b .cus * (1 / 2 ^ 30), cuc := val m11 b .cuc * (1 / 2 ^ 30), mode := 1,
    tot := gpst2time (val m10 a .week) tow, toc := gpst2time week (val m30 c .toc * 300),
    toe := gpst2time week (val m11 b .toe * 300), top := gpst2time wnOp (val m30 c .top * 300), tgd := val m30 c .tgd * (1 / 2 ^ 35),
    isc := [val m30 c .isc1 * (1 / 2 ^ 35), val m30 c .isc2 * (1 / 2 ^ 35), val m30 c .isc3 * (1 / 2 ^ 35),
      val m30 c .isc4 * (1 / 2 ^ 35), 0, 0] }

/-- a message of the satellite itself -/
def own (c : Call) : Prop := val hdr c.msg .pre = 0x8b ∧ val hdr c.msg .prn = if Gps c.sat then c.sat else c.sat - 68
instance (c : Call) : Decidable (own c) := inferInstanceAs (Decidable (_ ∧ _))

/-- types that are not ignored -/
def accepted (c : Call) : Prop := own c ∧
  (val hdr c.msg .sid ∈ [10, 11, 12, 15, 60, 61] ∨ (30 ≤ val hdr c.msg .sid ∧ val hdr c.msg .sid ≤ 37))
instance (c : Call) : Decidable (accepted c) := inferInstanceAs (Decidable (_ ∧ _))

/-- 0: first part of the ephemeris, 1: second part, 2: clock -/
def kind (c : Call) : Option Nat :=
  if ¬ own c then none
  else if val hdr c.msg .sid = 10 then some 0
  else if val hdr c.msg .sid = 11 then some 1
  else if 30 ≤ val hdr c.msg .sid ∧ val hdr c.msg .sid ≤ 37 then some 2
  else if val hdr c.msg .sid = 61 ∧ Qzss c.sat then some 2
  else none

/-- what a call returns after the calls `cs` -/
def result (cs : List Call) (c : Call) : Option Eph :=
  if accepted c then
    match last kind (cs ++ [c]) c.sat 0, last kind (cs ++ [c]) c.sat 1, last kind (cs ++ [c]) c.sat 2 with
    | some x, some y, some z =>
      if val m10 x .toe = val m11 y .toe ∧ val m10 x .toe = val m30 z .toc ∧ (val hdr z .sid = 30 ∨ val hdr z .sid = 61) then
        some (cnavOf c.sat x y z)
      else none
    | _, _, _ => none
  else none

/-- the ephemeris of a CNAV/2 message; the week depends on the number `toe` of units of 300 s instead of the time -/
def cnav2Of (sat : Int) (m : BitBuf) : Eph :=
  let tow : ℚ := (val m2 m .itow * 7200 + val m2 m .toi * 18 : Int)
  let week := refWeek (val m2 m .week) (val m2 m .toe) tow
  let wnOp := val m2 m .week / 256 * 256 + val m2 m .wnOp
  { sat, week, code := 2, svh := val m2 m .svh, af0 := val m2 m .af0 * (1 / 2 ^ 35), af1 := val m2 m .af1 * (1 / 2 ^ 48),
    af2 := val m2 m .af2 * (1 / 2 ^ 60), urai := [val m2 m .ura0, val m2 m .ura1, val m2 m .ura2, val m2 m .uraEd],
    tops := val m2 m .top * 300, A := refAxis sat + val m2 m .dA * (1 / 2 ^ 9), Adot := val m2 m .Adot * (1 / 2 ^ 21),
    deln := val m2 m .deln * (1 / 2 ^ 44) * sc2rad, delnd := val m2 m .delnd * (1 / 2 ^ 57) * sc2rad,
    M0 := val m2 m .M0 * (1 / 2 ^ 32) * sc2rad, e := val m2 m .e * (1 / 2 ^ 34), omg := val m2 m .omg * (1 / 2 ^ 32) * sc2rad,
    integ := (if Gps sat then val m2 m .isf else 2 * val m2 m .esf + val m2 m .isf).toNat, wnOp, toes := val m2 m .toe * 300,
    OMG0 := val m2 m .OMG0 * (1 / 2 ^ 32) * sc2rad, i0 := val m2 m .i0 * (1 / 2 ^ 32) * sc2rad,
    OMGd := (val m2 m .OMGd * (1 / 2 ^ 44) - 26 / 10 ^ 10) * sc2rad, idot := val m2 m .idot * (1 / 2 ^ 44) * sc2rad,
    cis := val m2 m .cis * (1 / 2 ^ 30), cic := val m2 m .cic * (1 / 2 ^ 30), crs := val m2 m .crs * (1 / 2 ^ 8),
    crc := val m2 m .crc * (1 / 2 ^ 8), cus := val m2 m .cus * (1 / 2 ^ 30), cuc := val m2 m .cuc * (1 / 2 ^ 30), mode := 2,
    tot := gpst2time (val m2 m .week) tow, toc := gpst2time week (val m2 m .toe * 300),
    toe := gpst2time week (val m2 m .toe * 300), top := gpst2time wnOp (val m2 m .top * 300), tgd := val m2 m .tgd * (1 / 2 ^ 35),
    isc := [val m2 m .isc1 * (1 / 2 ^ 35), val m2 m .isc2 * (1 / 2 ^ 35), val m2 m .isc3 * (1 / 2 ^ 35),
      val m2 m .isc4 * (1 / 2 ^ 35), val m2 m .iscD * (1 / 2 ^ 35), val m2 m .iscP * (1 / 2 ^ 35)] }

/-! ## Fields -/

theorem hdr_pre (m : BitBuf) : val hdr m .pre = (bitsAt m 0 8 : Int) := num_u (by decide +kernel) _
theorem hdr_prn (m : BitBuf) : val hdr m .prn = (bitsAt m 8 6 : Int) := num_u (by decide +kernel) _
theorem hdr_sid (m : BitBuf) : val hdr m .sid = (bitsAt m 14 6 : Int) := num_u (by decide +kernel) _
theorem hdr_tow (m : BitBuf) : val hdr m .tow = (bitsAt m 20 17 : Int) := num_u (by decide +kernel) _
theorem hdr_alert (m : BitBuf) : val hdr m .alert = (bitsAt m 37 1 : Int) := num_u (by decide +kernel) _
theorem m10_pre (m : BitBuf) : val m10 m .pre = (bitsAt m 0 8 : Int) := num_u (by decide +kernel) _
theorem m10_prn (m : BitBuf) : val m10 m .prn = (bitsAt m 8 6 : Int) := num_u (by decide +kernel) _
theorem m10_sid (m : BitBuf) : val m10 m .sid = (bitsAt m 14 6 : Int) := num_u (by decide +kernel) _
theorem m10_tow (m : BitBuf) : val m10 m .tow = (bitsAt m 20 17 : Int) := num_u (by decide +kernel) _
theorem m10_alert (m : BitBuf) : val m10 m .alert = (bitsAt m 37 1 : Int) := num_u (by decide +kernel) _
theorem m10_week (m : BitBuf) : val m10 m .week = (bitsAt m 38 13 : Int) := num_u (by decide +kernel) _
theorem m10_svh (m : BitBuf) : val m10 m .svh = (bitsAt m 51 3 : Int) := num_u (by decide +kernel) _
theorem m10_top (m : BitBuf) : val m10 m .top = (bitsAt m 54 11 : Int) := num_u (by decide +kernel) _
theorem m10_uraEd (m : BitBuf) : val m10 m .uraEd = intAt m 65 5 := num_s (by decide +kernel) _
theorem m10_toe (m : BitBuf) : val m10 m .toe = (bitsAt m 70 11 : Int) := num_u (by decide +kernel) _
theorem m10_dA (m : BitBuf) : val m10 m .dA = intAt m 81 26 := num_s (by decide +kernel) _
theorem m10_Adot (m : BitBuf) : val m10 m .Adot = intAt m 107 25 := num_s (by decide +kernel) _
theorem m10_deln (m : BitBuf) : val m10 m .deln = intAt m 132 17 := num_s (by decide +kernel) _
theorem m10_delnd (m : BitBuf) : val m10 m .delnd = intAt m 149 23 := num_s (by decide +kernel) _
theorem m10_M0 (m : BitBuf) : val m10 m .M0 = intAt m 172 33 := num_s (by decide +kernel) _
theorem m10_e (m : BitBuf) : val m10 m .e = (bitsAt m 205 33 : Int) := num_u (by decide +kernel) _
theorem m10_omg (m : BitBuf) : val m10 m .omg = intAt m 238 33 := num_s (by decide +kernel) _
theorem m10_isf (m : BitBuf) : val m10 m .isf = (bitsAt m 271 1 : Int) := num_u (by decide +kernel) _
theorem m10_esf (m : BitBuf) : val m10 m .esf = (bitsAt m 272 1 : Int) := num_u (by decide +kernel) _
theorem m10_rsv (m : BitBuf) : val m10 m .rsv = (bitsAt m 273 3 : Int) := num_u (by decide +kernel) _
theorem m10_crc24 (m : BitBuf) : val m10 m .crc24 = (bitsAt m 276 24 : Int) := num_u (by decide +kernel) _
theorem m11_pre (m : BitBuf) : val m11 m .pre = (bitsAt m 0 8 : Int) := num_u (by decide +kernel) _
theorem m11_prn (m : BitBuf) : val m11 m .prn = (bitsAt m 8 6 : Int) := num_u (by decide +kernel) _
theorem m11_sid (m : BitBuf) : val m11 m .sid = (bitsAt m 14 6 : Int) := num_u (by decide +kernel) _
theorem m11_tow (m : BitBuf) : val m11 m .tow = (bitsAt m 20 17 : Int) := num_u (by decide +kernel) _
theorem m11_alert (m : BitBuf) : val m11 m .alert = (bitsAt m 37 1 : Int) := num_u (by decide +kernel) _
theorem m11_toe (m : BitBuf) : val m11 m .toe = (bitsAt m 38 11 : Int) := num_u (by decide +kernel) _
theorem m11_OMG0 (m : BitBuf) : val m11 m .OMG0 = intAt m 49 33 := num_s (by decide +kernel) _
theorem m11_i0 (m : BitBuf) : val m11 m .i0 = intAt m 82 33 := num_s (by decide +kernel) _
theorem m11_OMGd (m : BitBuf) : val m11 m .OMGd = intAt m 115 17 := num_s (by decide +kernel) _
theorem m11_idot (m : BitBuf) : val m11 m .idot = intAt m 132 15 := num_s (by decide +kernel) _
theorem m11_cis (m : BitBuf) : val m11 m .cis = intAt m 147 16 := num_s (by decide +kernel) _
theorem m11_cic (m : BitBuf) : val m11 m .cic = intAt m 163 16 := num_s (by decide +kernel) _
theorem m11_crs (m : BitBuf) : val m11 m .crs = intAt m 179 24 := num_s (by decide +kernel) _
theorem m11_crc (m : BitBuf) : val m11 m .crc = intAt m 203 24 := num_s (by decide +kernel) _
theorem m11_cus (m : BitBuf) : val m11 m .cus = intAt m 227 21 := num_s (by decide +kernel) _
theorem m11_cuc (m : BitBuf) : val m11 m .cuc = intAt m 248 21 := num_s (by decide +kernel) _
theorem m11_rsv (m : BitBuf) : val m11 m .rsv = (bitsAt m 269 7 : Int) := num_u (by decide +kernel) _
theorem m11_crc24 (m : BitBuf) : val m11 m .crc24 = (bitsAt m 276 24 : Int) := num_u (by decide +kernel) _
theorem m30_pre (m : BitBuf) : val m30 m .pre = (bitsAt m 0 8 : Int) := num_u (by decide +kernel) _
theorem m30_prn (m : BitBuf) : val m30 m .prn = (bitsAt m 8 6 : Int) := num_u (by decide +kernel) _
theorem m30_sid (m : BitBuf) : val m30 m .sid = (bitsAt m 14 6 : Int) := num_u (by decide +kernel) _
theorem m30_tow (m : BitBuf) : val m30 m .tow = (bitsAt m 20 17 : Int) := num_u (by decide +kernel) _
theorem m30_alert (m : BitBuf) : val m30 m .alert = (bitsAt m 37 1 : Int) := num_u (by decide +kernel) _
theorem m30_top (m : BitBuf) : val m30 m .top = (bitsAt m 38 11 : Int) := num_u (by decide +kernel) _
theorem m30_ura0 (m : BitBuf) : val m30 m .ura0 = intAt m 49 5 := num_s (by decide +kernel) _
theorem m30_ura1 (m : BitBuf) : val m30 m .ura1 = (bitsAt m 54 3 : Int) := num_u (by decide +kernel) _
theorem m30_ura2 (m : BitBuf) : val m30 m .ura2 = (bitsAt m 57 3 : Int) := num_u (by decide +kernel) _
theorem m30_toc (m : BitBuf) : val m30 m .toc = (bitsAt m 60 11 : Int) := num_u (by decide +kernel) _
theorem m30_af0 (m : BitBuf) : val m30 m .af0 = intAt m 71 26 := num_s (by decide +kernel) _
theorem m30_af1 (m : BitBuf) : val m30 m .af1 = intAt m 97 20 := num_s (by decide +kernel) _
theorem m30_af2 (m : BitBuf) : val m30 m .af2 = intAt m 117 10 := num_s (by decide +kernel) _
theorem m30_tgd (m : BitBuf) : val m30 m .tgd = intAt m 127 13 := num_s (by decide +kernel) _
theorem m30_isc1 (m : BitBuf) : val m30 m .isc1 = intAt m 140 13 := num_s (by decide +kernel) _
theorem m30_isc2 (m : BitBuf) : val m30 m .isc2 = intAt m 153 13 := num_s (by decide +kernel) _
theorem m30_isc3 (m : BitBuf) : val m30 m .isc3 = intAt m 166 13 := num_s (by decide +kernel) _
theorem m30_isc4 (m : BitBuf) : val m30 m .isc4 = intAt m 179 13 := num_s (by decide +kernel) _
theorem m30_iono (m : BitBuf) : val m30 m .iono = (bitsAt m 192 64 : Int) := num_u (by decide +kernel) _
theorem m30_wnOp (m : BitBuf) : val m30 m .wnOp = (bitsAt m 256 8 : Int) := num_u (by decide +kernel) _
theorem m30_rsv (m : BitBuf) : val m30 m .rsv = (bitsAt m 264 12 : Int) := num_u (by decide +kernel) _
theorem m30_crc24 (m : BitBuf) : val m30 m .crc24 = (bitsAt m 276 24 : Int) := num_u (by decide +kernel) _
theorem m2_toi (m : BitBuf) : val m2 m .toi = (bitsAt m 0 9 : Int) := num_u (by decide +kernel) _
theorem m2_sym (m : BitBuf) : val m2 m .sym = (bitsAt m 9 43 : Int) := num_u (by decide +kernel) _
theorem m2_week (m : BitBuf) : val m2 m .week = (bitsAt m 52 13 : Int) := num_u (by decide +kernel) _
theorem m2_itow (m : BitBuf) : val m2 m .itow = (bitsAt m 65 8 : Int) := num_u (by decide +kernel) _
theorem m2_top (m : BitBuf) : val m2 m .top = (bitsAt m 73 11 : Int) := num_u (by decide +kernel) _
theorem m2_svh (m : BitBuf) : val m2 m .svh = (bitsAt m 84 1 : Int) := num_u (by decide +kernel) _
theorem m2_uraEd (m : BitBuf) : val m2 m .uraEd = intAt m 85 5 := num_s (by decide +kernel) _
theorem m2_toe (m : BitBuf) : val m2 m .toe = (bitsAt m 90 11 : Int) := num_u (by decide +kernel) _
theorem m2_dA (m : BitBuf) : val m2 m .dA = intAt m 101 26 := num_s (by decide +kernel) _
theorem m2_Adot (m : BitBuf) : val m2 m .Adot = intAt m 127 25 := num_s (by decide +kernel) _
theorem m2_deln (m : BitBuf) : val m2 m .deln = intAt m 152 17 := num_s (by decide +kernel) _
theorem m2_delnd (m : BitBuf) : val m2 m .delnd = intAt m 169 23 := num_s (by decide +kernel) _
theorem m2_M0 (m : BitBuf) : val m2 m .M0 = intAt m 192 33 := num_s (by decide +kernel) _
theorem m2_e (m : BitBuf) : val m2 m .e = (bitsAt m 225 33 : Int) := num_u (by decide +kernel) _
theorem m2_omg (m : BitBuf) : val m2 m .omg = intAt m 258 33 := num_s (by decide +kernel) _
theorem m2_OMG0 (m : BitBuf) : val m2 m .OMG0 = intAt m 291 33 := num_s (by decide +kernel) _
theorem m2_i0 (m : BitBuf) : val m2 m .i0 = intAt m 324 33 := num_s (by decide +kernel) _
theorem m2_OMGd (m : BitBuf) : val m2 m .OMGd = intAt m 357 17 := num_s (by decide +kernel) _
theorem m2_idot (m : BitBuf) : val m2 m .idot = intAt m 374 15 := num_s (by decide +kernel) _
theorem m2_cis (m : BitBuf) : val m2 m .cis = intAt m 389 16 := num_s (by decide +kernel) _
theorem m2_cic (m : BitBuf) : val m2 m .cic = intAt m 405 16 := num_s (by decide +kernel) _
theorem m2_crs (m : BitBuf) : val m2 m .crs = intAt m 421 24 := num_s (by decide +kernel) _
theorem m2_crc (m : BitBuf) : val m2 m .crc = intAt m 445 24 := num_s (by decide +kernel) _
theorem m2_cus (m : BitBuf) : val m2 m .cus = intAt m 469 21 := num_s (by decide +kernel) _
theorem m2_cuc (m : BitBuf) : val m2 m .cuc = intAt m 490 21 := num_s (by decide +kernel) _
theorem m2_ura0 (m : BitBuf) : val m2 m .ura0 = intAt m 511 5 := num_s (by decide +kernel) _
theorem m2_ura1 (m : BitBuf) : val m2 m .ura1 = (bitsAt m 516 3 : Int) := num_u (by decide +kernel) _
theorem m2_ura2 (m : BitBuf) : val m2 m .ura2 = (bitsAt m 519 3 : Int) := num_u (by decide +kernel) _
theorem m2_af0 (m : BitBuf) : val m2 m .af0 = intAt m 522 26 := num_s (by decide +kernel) _
theorem m2_af1 (m : BitBuf) : val m2 m .af1 = intAt m 548 20 := num_s (by decide +kernel) _
theorem m2_af2 (m : BitBuf) : val m2 m .af2 = intAt m 568 10 := num_s (by decide +kernel) _
theorem m2_tgd (m : BitBuf) : val m2 m .tgd = intAt m 578 13 := num_s (by decide +kernel) _
theorem m2_iscP (m : BitBuf) : val m2 m .iscP = intAt m 591 13 := num_s (by decide +kernel) _
theorem m2_iscD (m : BitBuf) : val m2 m .iscD = intAt m 604 13 := num_s (by decide +kernel) _
theorem m2_isf (m : BitBuf) : val m2 m .isf = (bitsAt m 617 1 : Int) := num_u (by decide +kernel) _
theorem m2_wnOp (m : BitBuf) : val m2 m .wnOp = (bitsAt m 618 8 : Int) := num_u (by decide +kernel) _
theorem m2_esf (m : BitBuf) : val m2 m .esf = (bitsAt m 626 1 : Int) := num_u (by decide +kernel) _
theorem m2_rsv2 (m : BitBuf) : val m2 m .rsv2 = (bitsAt m 627 625 : Int) := num_u (by decide +kernel) _
theorem m2_prn8 (m : BitBuf) : val m2 m .prn8 = (bitsAt m 1252 8 : Int) := num_u (by decide +kernel) _
theorem m2_page (m : BitBuf) : val m2 m .page = (bitsAt m 1260 6 : Int) := num_u (by decide +kernel) _
theorem m2_utc (m : BitBuf) : val m2 m .utc = (bitsAt m 1266 98 : Int) := num_u (by decide +kernel) _
theorem m2_iono (m : BitBuf) : val m2 m .iono = (bitsAt m 1364 64 : Int) := num_u (by decide +kernel) _
theorem m2_isc1 (m : BitBuf) : val m2 m .isc1 = intAt m 1428 13 := num_s (by decide +kernel) _
theorem m2_isc2 (m : BitBuf) : val m2 m .isc2 = intAt m 1441 13 := num_s (by decide +kernel) _
theorem m2_isc3 (m : BitBuf) : val m2 m .isc3 = intAt m 1454 13 := num_s (by decide +kernel) _
theorem m2_isc4 (m : BitBuf) : val m2 m .isc4 = intAt m 1467 13 := num_s (by decide +kernel) _
theorem m2_rsv (m : BitBuf) : val m2 m .rsv = (bitsAt m 1480 18 : Int) := num_u (by decide +kernel) _
theorem m2_crc24 (m : BitBuf) : val m2 m .crc24 = (bitsAt m 1498 24 : Int) := num_u (by decide +kernel) _

theorem near (W : Int) (T S : ℚ) (hT : 0 ≤ T ∧ T < 604800) (hS : 0 ≤ S ∧ S < 604800) :
    |(604800 * refWeek W T S + T) - (604800 * W + S)| ≤ 302400 := by
  unfold refWeek
  rw [abs_le]
  split
  · push_cast; constructor <;> linarith
  · split
    · push_cast; constructor <;> linarith
    · constructor <;> linarith

theorem integ3 {a b c : Nat} (ha : a < 2) (hb : b < 2) (hc : c < 2) :
    (a <<< 2) ||| (b <<< 1) ||| c = (4 * (a : Int) + 2 * (b : Int) + (c : Int)).toNat := by
  have h : ∀ a : Nat, a < 2 → ∀ b : Nat, b < 2 → ∀ c : Nat, c < 2 → (a <<< 2) ||| (b <<< 1) ||| c = (4 * (a : Int) + 2 * (b : Int) + (c : Int)).toNat := by
    decide
  exact h a ha b hb c hc

theorem integ2 {b c : Nat} (hb : b < 2) (hc : c < 2) :
    (b <<< 1) ||| c = (2 * (b : Int) + (c : Int)).toNat := by
  have h : ∀ b : Nat, b < 2 → ∀ c : Nat, c < 2 → (b <<< 1) ||| c = (2 * (b : Int) + (c : Int)).toNat := by
    decide
  exact h b hb c hc

variable {b : BitBuf}

theorem groupDelay_spec {a W : Nat} {m : BitBuf} (h : Seg b a W m) (o : Nat) {i : Nat} (c : i = a + o ∧ o + 52 ≤ W) :
    groupDelay b i = .ok [intAt m o 13 * (1 / 2 ^ 35), intAt m (o + 13) 13 * (1 / 2 ^ 35), intAt m (o + 26) 13 * (1 / 2 ^ 35),
      intAt m (o + 39) 13 * (1 / 2 ^ 35)] := by
  unfold groupDelay
  rw [h.s o (i := i) (n := 13) (by omega), Py.okBind, h.s (o + 13) (i := i + 13) (n := 13) (by omega), Py.okBind,
    h.s (o + 26) (i := i + 26) (n := 13) (by omega), Py.okBind, h.s (o + 39) (i := i + 39) (n := 13) (by omega), Py.okBind]
  rfl

theorem iono_spec {a W : Nat} {m : BitBuf} (h : Seg b a W m) (o : Nat) {i : Nat} (c : i = a + o ∧ o + 64 ≤ W) :
    iono b i = .ok () := by
  unfold iono
  rw [h.s o (i := i) (n := 8) (by omega), Py.okBind, h.s (o + 8) (i := i + 8) (n := 8) (by omega), Py.okBind,
    h.s (o + 16) (i := i + 16) (n := 8) (by omega), Py.okBind, h.s (o + 24) (i := i + 24) (n := 8) (by omega), Py.okBind,
    h.s (o + 32) (i := i + 32) (n := 8) (by omega), Py.okBind, h.s (o + 40) (i := i + 40) (n := 8) (by omega), Py.okBind,
    h.s (o + 48) (i := i + 48) (n := 8) (by omega), Py.okBind, h.s (o + 56) (i := i + 56) (n := 8) (by omega), Py.okBind]
  rfl

theorem utc_spec {a W : Nat} {m : BitBuf} (h : Seg b a W m) (o : Nat) {i : Nat} (c : i = a + o ∧ o + 98 ≤ W) :
    utc b i = .ok () := by
  unfold utc
  rw [h.s o (i := i) (n := 16) (by omega), Py.okBind, h.s (o + 16) (i := i + 16) (n := 13) (by omega), Py.okBind,
    h.s (o + 29) (i := i + 29) (n := 7) (by omega), Py.okBind, h.s (o + 36) (i := i + 36) (n := 8) (by omega), Py.okBind,
    h.u (o + 44) (i := i + 44) (n := 16) (by omega), Py.okBind, h.u (o + 60) (i := i + 60) (n := 13) (by omega), Py.okBind,
    h.u (o + 73) (i := i + 73) (n := 13) (by omega), Py.okBind, h.u (o + 86) (i := i + 86) (n := 4) (by omega), Py.okBind,
    h.s (o + 90) (i := i + 90) (n := 8) (by omega), Py.okBind]
  rfl

/-! ## CNAV -/

/-- the conditions on the stored messages -/
def Whole (x y z : BitBuf) : Prop := bitsAt x 14 6 = 10 ∧ bitsAt y 14 6 = 11 ∧ bitsAt x 70 11 = bitsAt y 38 11 ∧
  bitsAt x 70 11 = bitsAt z 60 11 ∧ (bitsAt z 14 6 = 30 ∨ bitsAt z 14 6 = 61)
instance (x y z : BitBuf) : Decidable (Whole x y z) := inferInstanceAs (Decidable (_ ∧ _))

theorem cnavTry_spec {sys : Sys} {sat : Int} (hs : axis sys = refAxis sat) {x y z : BitBuf} (h1 : Seg b 0 304 x)
    (h2 : Seg b 304 304 y) (h3 : Seg b (304 * 2) 304 z) :
    cnavTry sys sat b = .ok (if Whole x y z then some (cnavOf sat x y z) else none) := by
  unfold cnavTry
  dsimp only
  rw [h1.u 14 (i := 14) (n := 6) (by omega), Py.okBind, h2.u 14 (i := 304 + 14) (n := 6) (by omega), Py.okBind,
    h3.u 14 (i := 304 * 2 + 14) (n := 6) (by omega), Py.okBind]
  by_cases c1 : bitsAt x 14 6 ≠ 10 ∨ bitsAt y 14 6 ≠ 11
  · rw [if_pos c1, if_neg (fun h => by rcases c1 with c | c; exacts [c h.1, c h.2.1])]
    rfl
  rw [if_neg c1]
  by_cases c2 : bitsAt z 14 6 / 10 ≠ 3 ∧ (sys = .qzs ∧ bitsAt z 14 6 ≠ 61)
  · rw [if_pos c2, if_neg]
    · rfl
    · rintro ⟨-, -, -, -, h | h⟩
      · exact c2.1 (by rw [h])
      · exact c2.2.2 h
  rw [if_neg c2]
  rw [h1.u 70 (i := 70) (n := 11) (by omega), Py.okBind, h2.u 38 (i := 304 + 38) (n := 11) (by omega), Py.okBind,
    h3.u 60 (i := 304 * 2 + 60) (n := 11) (by omega), Py.okBind]
  by_cases c3 : bitsAt x 70 11 ≠ bitsAt y 38 11 ∨ bitsAt x 70 11 ≠ bitsAt z 60 11
  · rw [if_pos c3, if_neg (fun h => by rcases c3 with c | c; exacts [c h.2.2.1, c h.2.2.2.1])]
    rfl
  rw [if_neg c3]
  rw [h1.u 20 (i := 20) (n := 17) (by omega), Py.okBind]
  rw [h1.u 37 (i := 37) (n := 1) (by omega), Py.okBind]
  rw [h1.u 38 (i := 38) (n := 13) (by omega), Py.okBind]
  rw [h1.u 51 (i := 51) (n := 3) (by omega), Py.okBind]
  rw [h1.u 54 (i := 54) (n := 11) (by omega), Py.okBind]
  rw [h1.s 65 (i := 65) (n := 5) (by omega), Py.okBind]
  rw [Py.okBind]
  rw [h1.s 81 (i := 81) (n := 26) (by omega), Py.okBind]
  rw [h1.s 107 (i := 107) (n := 25) (by omega), Py.okBind]
  rw [h1.s 132 (i := 132) (n := 17) (by omega), Py.okBind]
  rw [h1.s 149 (i := 149) (n := 23) (by omega), Py.okBind]
  rw [h1.s 172 (i := 172) (n := 33) (by omega), Py.okBind]
  rw [h1.u 205 (i := 205) (n := 33) (by omega), Py.okBind]
  rw [h1.s 238 (i := 238) (n := 33) (by omega), Py.okBind]
  rw [h1.u 271 (i := 271) (n := 1) (by omega), Py.okBind]
  rw [h1.u 272 (i := 272) (n := 1) (by omega), Py.okBind]
  rw [Py.okBind]
  rw [h2.s 49 (i := 304 + 38 + 11) (n := 33) (by omega), Py.okBind]
  rw [h2.s 82 (i := 304 + 38 + 44) (n := 33) (by omega), Py.okBind]
  rw [h2.s 115 (i := 304 + 38 + 77) (n := 17) (by omega), Py.okBind]
  rw [h2.s 132 (i := 304 + 38 + 94) (n := 15) (by omega), Py.okBind]
  rw [h2.s 147 (i := 304 + 38 + 109) (n := 16) (by omega), Py.okBind]
  rw [h2.s 163 (i := 304 + 38 + 125) (n := 16) (by omega), Py.okBind]
  rw [h2.s 179 (i := 304 + 38 + 141) (n := 24) (by omega), Py.okBind]
  rw [h2.s 203 (i := 304 + 38 + 165) (n := 24) (by omega), Py.okBind]
  rw [h2.s 227 (i := 304 + 38 + 189) (n := 21) (by omega), Py.okBind]
  rw [h2.s 248 (i := 304 + 38 + 210) (n := 21) (by omega), Py.okBind]
  rw [h3.u 38 (i := 304 * 2 + 38) (n := 11) (by omega), Py.okBind]
  rw [h3.s 49 (i := 304 * 2 + 38 + 11) (n := 5) (by omega), Py.okBind]
  rw [h3.u 54 (i := 304 * 2 + 38 + 16) (n := 3) (by omega), Py.okBind]
  rw [h3.u 57 (i := 304 * 2 + 38 + 19) (n := 3) (by omega), Py.okBind]
  rw [Py.okBind]
  rw [h3.s 71 (i := 304 * 2 + 38 + 33) (n := 26) (by omega), Py.okBind]
  rw [h3.s 97 (i := 304 * 2 + 38 + 59) (n := 20) (by omega), Py.okBind]
  rw [h3.s 117 (i := 304 * 2 + 38 + 79) (n := 10) (by omega), Py.okBind]
  by_cases c4 : bitsAt z 14 6 = 30 ∨ bitsAt z 14 6 = 61
  · push Not at c1 c3
    rw [if_pos c4, if_pos ⟨c1.1, c1.2, c3.1, c3.2, c4⟩]
    rw [h3.s 127 (i := 304 * 2 + 127) (n := 13) (by omega), Py.okBind, groupDelay_spec h3 140 (by omega), Py.okBind,
      iono_spec h3 192 (by omega), Py.okBind, h3.u 256 (i := 304 * 2 + 127 + 13 + 52 + 64) (n := 8) (by omega), Py.okBind,
      integ3 (bits_lt _ _ 1) (bits_lt _ _ 1) (bits_lt _ _ 1), hs]
    unfold cnavOf
    simp only [hdr_pre, hdr_prn, hdr_sid, hdr_tow, hdr_alert, m10_pre, m10_prn, m10_sid, m10_tow, m10_alert, m10_week, m10_svh, m10_top, m10_uraEd, m10_toe, m10_dA, m10_Adot, m10_deln, m10_delnd, m10_M0, m10_e, m10_omg, m10_isf, m10_esf, m10_rsv, m10_crc24, m11_pre, m11_prn, m11_sid, m11_tow, m11_alert, m11_toe, m11_OMG0, m11_i0, m11_OMGd, m11_idot, m11_cis, m11_cic, m11_crs, m11_crc, m11_cus, m11_cuc, m11_rsv, m11_crc24, m30_pre, m30_prn, m30_sid, m30_tow, m30_alert, m30_top, m30_ura0, m30_ura1, m30_ura2, m30_toc, m30_af0, m30_af1, m30_af2, m30_tgd, m30_isc1, m30_isc2, m30_isc3, m30_isc4, m30_iono, m30_wnOp, m30_rsv, m30_crc24]
    rfl
  · rw [if_neg c4, if_neg (fun h : Whole x y z => c4 h.2.2.2.2)]
    by_cases c5 : bitsAt z 14 6 = 31
    · rw [if_pos c5]
      rw [h3.u 127 (i := 304 * 2 + 127) (n := 13) (by omega), Py.okBind]
      rw [h3.u 140 (i := 304 * 2 + 127 + 13) (n := 8) (by omega), Py.okBind]
      rfl
    · rw [if_neg c5]
      rfl


theorem sat_gps {sat : Int} (h : Gps sat) : sat2prn sat = (.gps, sat) := by
  unfold Gps at h
  rcases C01.sat2prn_cases sat with x | x | x | x | x | x | x | x
  all_goals first | exact x.2 | omega

theorem sat_qzs {sat : Int} (h : Qzss sat) : sat2prn sat = (.qzs, sat + 124) := by
  unfold Qzss at h
  rcases C01.sat2prn_cases sat with x | x | x | x | x | x | x | x
  all_goals first | exact x.2.2 | omega

def Dom (sat : Int) : Prop := Gps sat ∨ Qzss sat

/-- calls whose messages have all 300 bits (as 38 bytes) -/
def Good (c : Call) : Prop := Dom c.sat ∧ 304 ≤ c.msg.length

/-- the buffer of a satellite -/
def buf (st : Store) (sat : Int) : Option BitBuf :=
  if Gps sat then Dict.get? st.gps (sat - 1) else Dict.get? st.qzs (sat - 69)

def Stored (st : Store) (cs : List Call) : Prop :=
  Col.Inv kind 304 (fun k => 304 * k) (fun k => k < 3) 1600 Dom (buf st) cs ∧ ∀ c ∈ cs, Good c

theorem store_length {sys : Sys} {sid : Nat} {buff msg : BitBuf} (hb : 1600 ≤ buff.length) (hm : 304 ≤ msg.length) :
    (store sys sid buff msg = buff ∧ sid ≠ 10 ∧ sid ≠ 11 ∧ ¬ ((sid ≥ 30 ∧ sid ≤ 37) ∨ (sys = .qzs ∧ sid = 61))) ∨
    ∃ k, k < 3 ∧ store sys sid buff msg = splice buff (304 * k) (msg.take 304) ∧
      ((sid = 10 ∧ k = 0) ∨ (sid = 11 ∧ k = 1) ∨ (((sid ≥ 30 ∧ sid ≤ 37) ∨ (sys = .qzs ∧ sid = 61)) ∧ k = 2)) := by
  have hv : (msg.take 304).length = 304 := by rw [List.length_take]; omega
  have hsl : ∀ k, k < 3 → Rawnav.pySliceSet buff ((304 * k : Nat) : Int) ((304 * k + 304 : Nat) : Int) (msg.take 304) =
      splice buff (304 * k) (msg.take 304) := by
    intro k hk
    have := slice_splice (buf := buff) (v := msg.take 304) (p := 304 * k) (by omega)
    rwa [hv] at this
  unfold store
  by_cases c1 : sid = 10
  · subst c1
    rw [if_pos (Or.inl rfl)]
    exact .inr ⟨0, by omega, hsl 0 (by omega), .inl ⟨rfl, rfl⟩⟩
  by_cases c2 : sid = 11
  · subst c2
    rw [if_pos (Or.inr rfl)]
    exact .inr ⟨1, by omega, hsl 1 (by omega), .inr (.inl ⟨rfl, rfl⟩)⟩
  rw [if_neg (by omega)]
  by_cases c3 : (sid ≥ 30 ∧ sid ≤ 37) ∨ (sys = .qzs ∧ sid = 61)
  · rw [if_pos c3]
    exact .inr ⟨2, by omega, hsl 2 (by omega), .inr (.inr ⟨c3, rfl⟩)⟩
  · rw [if_neg c3]
    exact .inl ⟨rfl, c1, c2, c3⟩

/-- the kind in terms of the bits -/
theorem kind_some {c : Call} {k : Nat} : kind c = some k ↔ own c ∧
    ((bitsAt c.msg 14 6 = 10 ∧ k = 0) ∨ (bitsAt c.msg 14 6 = 11 ∧ k = 1) ∨
      (((30 ≤ bitsAt c.msg 14 6 ∧ bitsAt c.msg 14 6 ≤ 37) ∨ (bitsAt c.msg 14 6 = 61 ∧ Qzss c.sat)) ∧ k = 2)) := by
  unfold kind
  rw [hdr_sid]
  generalize bitsAt c.msg 14 6 = n
  by_cases ho : own c
  swap
  · rw [if_pos ho]
    exact ⟨fun h => (nomatch h), fun h => absurd h.1 ho⟩
  rw [if_neg (not_not.2 ho)]
  by_cases c1 : (n : Int) = 10
  · rw [if_pos c1, Option.some.injEq]
    constructor
    · intro h; exact ⟨ho, .inl ⟨by omega, h.symm⟩⟩
    · rintro ⟨-, h | h | h⟩ <;> omega
  rw [if_neg c1]
  by_cases c2 : (n : Int) = 11
  · rw [if_pos c2, Option.some.injEq]
    constructor
    · intro h; exact ⟨ho, .inr (.inl ⟨by omega, h.symm⟩)⟩
    · rintro ⟨-, h | h | h⟩ <;> omega
  rw [if_neg c2]
  by_cases c3 : 30 ≤ (n : Int) ∧ (n : Int) ≤ 37
  · rw [if_pos c3, Option.some.injEq]
    constructor
    · intro h; exact ⟨ho, .inr (.inr ⟨.inl (by omega), h.symm⟩)⟩
    · rintro ⟨-, h | h | h⟩ <;> omega
  rw [if_neg c3]
  by_cases c4 : (n : Int) = 61 ∧ Qzss c.sat
  · rw [if_pos c4, Option.some.injEq]
    constructor
    · intro h; exact ⟨ho, .inr (.inr ⟨.inr ⟨by omega, c4.2⟩, h.symm⟩)⟩
    · rintro ⟨-, h | h | h⟩ <;> omega
  · rw [if_neg c4]
    constructor
    · intro h; cases h
    · rintro ⟨-, h | h | ⟨h | h, -⟩⟩
      · omega
      · omega
      · omega
      · exact absurd ⟨by omega, h.2⟩ c4

theorem accepted_iff (c : Call) : accepted c ↔ own c ∧
    ¬ (¬ (bitsAt c.msg 14 6 = 10 ∨ bitsAt c.msg 14 6 = 11 ∨ bitsAt c.msg 14 6 = 12 ∨ bitsAt c.msg 14 6 = 15 ∨
      bitsAt c.msg 14 6 = 60 ∨ bitsAt c.msg 14 6 = 61) ∧ (bitsAt c.msg 14 6 < 30 ∨ bitsAt c.msg 14 6 > 37)) := by
  unfold accepted
  rw [hdr_sid]
  generalize bitsAt c.msg 14 6 = n
  simp only [List.mem_cons, List.not_mem_nil, or_false]
  apply and_congr_right
  intro _
  omega

/-- the result from the parts -/
theorem result_parts (cs : List Call) (c : Call) :
    result cs c = if accepted c then
      (if Whole (part kind 304 (cs ++ [c]) c.sat 0) (part kind 304 (cs ++ [c]) c.sat 1) (part kind 304 (cs ++ [c]) c.sat 2) then
        some (cnavOf c.sat (part kind 304 (cs ++ [c]) c.sat 0) (part kind 304 (cs ++ [c]) c.sat 1)
          (part kind 304 (cs ++ [c]) c.sat 2)) else none) else none := by
  unfold result
  by_cases ha : accepted c
  swap
  · rw [if_neg ha, if_neg ha]
  rw [if_pos ha, if_pos ha]
  have e0 := part_id (kind := kind) (W := 304) (cs := cs ++ [c]) (s := c.sat) (k := 0) (n := 10) (i := 14) (w := 6) (by omega)
    (fun c' _ h => by rcases (kind_some.1 h).2 with h | h | h <;> omega)
  have e1 := part_id (kind := kind) (W := 304) (cs := cs ++ [c]) (s := c.sat) (k := 1) (n := 11) (i := 14) (w := 6) (by omega)
    (fun c' _ h => by rcases (kind_some.1 h).2 with h | h | h <;> omega)
  have hW : Whole (part kind 304 (cs ++ [c]) c.sat 0) (part kind 304 (cs ++ [c]) c.sat 1) (part kind 304 (cs ++ [c]) c.sat 2) ↔ _ :=
    and_congr e0 (and_congr e1 Iff.rfl)
  rw [if_congr hW rfl rfl]
  unfold part
  cases last kind (cs ++ [c]) c.sat 0 with
  | none => rw [if_neg (fun h => by cases h.1)]
  | some x =>
    cases last kind (cs ++ [c]) c.sat 1 with
    | none => rw [if_neg (fun h => by cases h.2.1)]
    | some y =>
      cases last kind (cs ++ [c]) c.sat 2 with
      | none =>
        rw [if_neg]
        rintro ⟨-, -, -, -, h⟩
        rw [Option.getD_none, bits_zeros] at h
        omega
      | some z =>
        simp only [Option.getD_some, Option.isSome_some, true_and]
        rw [m10_toe, m11_toe, m30_toc, hdr_sid]
        apply if_congr _ rfl rfl
        norm_cast

theorem body_spec {sys : Sys} {prn : Int} {c : Call} {cs : List Call} {st : Store} {bf : BitBuf} (hi : Stored st cs) (hg : Good c)
    (hsys : axis sys = refAxis c.sat) (hq : sys = .qzs ↔ Qzss c.sat)
    (hp : ∀ n : Nat, prn = (if sys = .qzs then (n : Int) + 192 else n) ↔ (n : Int) = if Gps c.sat then c.sat else c.sat - 68)
    (hb : buf st c.sat = some bf) :
    ∃ b', cnavBody sys prn c.sat bf c.msg = .ok (b', result cs c) ∧
      ∀ st', buf st' c.sat = some b' → (∀ s, Dom s → s ≠ c.sat → buf st' s = buf st s) → Stored st' (cs ++ [c]) := by
  have hall : ∀ x ∈ cs ++ [c], Good x := by
    intro x hx
    rcases List.mem_append.1 hx with h | h
    · exact hi.2 x h
    · rw [List.mem_singleton.1 h]; exact hg
  have hm := Seg.self hg.2
  obtain ⟨bf', hbf', hl, hseg⟩ := hi.1 c.sat hg.1
  rw [hb] at hbf'
  cases hbf'
  have hsame : kind c = none → ∀ st', buf st' c.sat = some bf → (∀ s, Dom s → s ≠ c.sat → buf st' s = buf st s) →
      Stored st' (cs ++ [c]) := by
    intro hk st' h1 h2
    refine ⟨?_, hall⟩
    have : Col.Inv kind 304 (fun k => 304 * k) (fun k => k < 3) 1600 Dom (buf st') cs := by
      intro s hs
      by_cases e : s = c.sat
      · rw [e]; exact ⟨bf, h1, hl, hseg⟩
      · rw [h2 s hs e]; exact hi.1 s hs
    exact this.same (fun k _ h => by rw [hk] at h; cases h)
  unfold cnavBody
  rw [hm.u 0 (i := 0) (n := 8) (by omega), Py.okBind, hm.u 8 (i := 8) (n := 6) (by omega), Py.okBind,
    hm.u 14 (i := 14) (n := 6) (by omega), Py.okBind]
  have hown : own c ↔ ¬ (bitsAt c.msg 0 8 ≠ 0x8b ∨
      prn ≠ (if sys = .qzs then ((bitsAt c.msg 8 6 : Nat) : Int) + 192 else (bitsAt c.msg 8 6 : Nat))) := by
    unfold own
    rw [hdr_pre, hdr_prn, ← hp]
    push Not
    constructor
    · rintro ⟨h1, h2⟩; exact ⟨by exact_mod_cast h1, h2⟩
    · rintro ⟨h1, h2⟩; exact ⟨by exact_mod_cast h1, h2⟩
  dsimp only
  by_cases c1 : bitsAt c.msg 0 8 ≠ 0x8b ∨
      prn ≠ (if sys = .qzs then ((bitsAt c.msg 8 6 : Nat) : Int) + 192 else (bitsAt c.msg 8 6 : Nat))
  · rw [if_pos c1]
    have hn : ¬ own c := fun h => (hown.1 h) c1
    refine ⟨bf, ?_, hsame ?_⟩
    · unfold result
      rw [if_neg (fun h : accepted c => hn h.1)]
      rfl
    · unfold kind
      rw [if_pos hn]
  have ho := hown.2 c1
  rw [if_neg c1]
  by_cases c2 : ¬ (bitsAt c.msg 14 6 = 10 ∨ bitsAt c.msg 14 6 = 11 ∨ bitsAt c.msg 14 6 = 12 ∨ bitsAt c.msg 14 6 = 15 ∨
      bitsAt c.msg 14 6 = 60 ∨ bitsAt c.msg 14 6 = 61) ∧ (bitsAt c.msg 14 6 < 30 ∨ bitsAt c.msg 14 6 > 37)
  · rw [if_pos c2]
    refine ⟨bf, ?_, hsame ?_⟩
    · unfold result
      rw [if_neg (fun h : accepted c => ((accepted_iff c).1 h).2 c2)]
      rfl
    · cases hk : kind c with
      | none => rfl
      | some k =>
        rcases (kind_some.1 hk).2 with h | h | ⟨h | h, -⟩ <;> omega
  rw [if_neg c2]
  have hacc := (accepted_iff c).2 ⟨ho, c2⟩
  have hst : ∀ st', buf st' c.sat = some (store sys (bitsAt c.msg 14 6) bf c.msg) →
      (∀ s, Dom s → s ≠ c.sat → buf st' s = buf st s) → Stored st' (cs ++ [c]) := by
    intro st' h1 h2
    rcases store_length (sys := sys) (sid := bitsAt c.msg 14 6) hl hg.2 with ⟨e, n1, n2, n3⟩ | ⟨k, hk, e, hs⟩
    · refine hsame ?_ st' (by rw [h1, e]) h2
      cases hk : kind c with
      | none => rfl
      | some k =>
        rcases (kind_some.1 hk).2 with h | h | ⟨h | h, -⟩
        · exact absurd h.1 n1
        · exact absurd h.1 n2
        · exact absurd (Or.inl h) n3
        · exact absurd (Or.inr ⟨hq.2 h.2, h.1⟩) n3
    · have hv : (c.msg.take 304).length = 304 := by rw [List.length_take]; have := hg.2; omega
      have hf : 304 * k + (c.msg.take 304).length ≤ bf.length := by omega
      have hkind : kind c = some k := by
        rw [kind_some]
        refine ⟨ho, ?_⟩
        rcases hs with h | h | ⟨h | h, h'⟩
        · exact .inl h
        · exact .inr (.inl h)
        · exact .inr (.inr ⟨.inl h, h'⟩)
        · exact .inr (.inr ⟨.inr ⟨h.2, hq.1 h.1⟩, h'⟩)
      refine ⟨Col.Inv.step hi.1 hb h1 h2 ?_ (fun k hk => by omega) hg.2 ?_, hall⟩
      · rw [e, splice_length _ _ _ hf]; exact hl
      · intro j hj
        rw [e, splice_slots hv (by omega), hkind]
        simp only [Option.some.injEq]
  generalize hB : store sys (bitsAt c.msg 14 6) bf c.msg = B at hst ⊢
  -- a store in which the buffer has been replaced
  have hst0 : ∃ st0, buf st0 c.sat = some B ∧ ∀ s, Dom s → s ≠ c.sat → buf st0 s = buf st s := by
    by_cases hG : Gps c.sat
    · refine ⟨{ st with gps := st.gps.set (c.sat - 1) B }, ?_, ?_⟩
      · unfold buf; rw [if_pos hG]; exact Dict.get?_set_self _ _ _
      · intro s hs hne
        unfold buf
        split
        · exact Dict.get?_set_ne _ _ (by omega)
        · rfl
    · refine ⟨{ st with qzs := st.qzs.set (c.sat - 69) B }, ?_, ?_⟩
      · unfold buf; rw [if_neg hG]; exact Dict.get?_set_self _ _ _
      · intro s hs hne
        unfold buf
        split
        · rfl
        · exact Dict.get?_set_ne _ _ (by omega)
  obtain ⟨st0, g1, g2⟩ := hst0
  obtain ⟨B', hB', -, hsegs⟩ := (hst st0 g1 g2).1 c.sat hg.1
  rw [g1] at hB'
  cases hB'
  refine ⟨B, ?_, hst⟩
  rw [cnavTry_spec hsys (hsegs 0 (by omega)) (hsegs 1 (by omega)) (by
    have := hsegs 2 (by omega)
    exact this), Py.okBind, result_parts, if_pos hacc]
  rfl

theorem cnav_step (st : Store) (cs : List Call) (c : Call) (hi : Stored st cs) (hg : Good c) :
    ∃ st', decodeCnav st c.sat c.msg = .ok (st', result cs c) ∧ Stored st' (cs ++ [c]) := by
  obtain ⟨bf, hb, hl, -⟩ := hi.1 c.sat hg.1
  unfold decodeCnav
  rcases hg.1 with hG | hQ
  · have hnq : ¬ Qzss c.sat := by unfold Gps at hG; unfold Qzss; omega
    obtain ⟨b', e, hS⟩ := body_spec (sys := .gps) (prn := c.sat) hi hg (by rw [refAxis, if_pos hG]; rfl)
      ⟨fun h => (nomatch h), fun h => absurd h hnq⟩ (fun n => by rw [if_neg (by decide), if_pos hG]; omega) hb
    rw [sat_gps hG]
    dsimp only
    have hb' := hb
    unfold buf at hb'
    rw [if_pos hG] at hb'
    rw [(Dict.getItem_ok_iff _ _ _).2 hb', Py.okBind, e, Py.okBind]
    refine ⟨_, rfl, hS _ ?_ ?_⟩
    · unfold buf; rw [if_pos hG]; exact Dict.get?_set_self _ _ _
    · intro s hs hne
      unfold buf
      split
      · exact Dict.get?_set_ne _ _ (by omega)
      · rfl
  · have hnG : ¬ Gps c.sat := by unfold Qzss at hQ; unfold Gps; omega
    obtain ⟨b', e, hS⟩ := body_spec (sys := .qzs) (prn := c.sat + 124) hi hg (by rw [refAxis, if_neg hnG]; rfl)
      ⟨fun _ => hQ, fun _ => rfl⟩ (fun n => by rw [if_pos rfl, if_neg hnG]; omega) hb
    rw [sat_qzs hQ]
    dsimp only
    have hb' := hb
    unfold buf at hb'
    rw [if_neg hnG] at hb'
    rw [show c.sat + 124 - 193 = c.sat - 69 by omega, (Dict.getItem_ok_iff _ _ _).2 hb', Py.okBind, e, Py.okBind]
    refine ⟨_, rfl, hS _ ?_ ?_⟩
    · unfold buf; rw [if_neg hnG]; exact Dict.get?_set_self _ _ _
    · intro s hs hne
      unfold buf
      split
      · rfl
      · exact Dict.get?_set_ne _ _ (by omega)

/-- **C77.** Starting with an empty store, for every sequence of CNAV messages of GPS and QZSS satellites, each call
returns what `result` says about the calls so far. -/
theorem cnav_history (cs : List Call) (h : ∀ c ∈ cs, Good c) :
    ∃ d' rs, run (fun d c => decodeCnav d c.sat c.msg) Store.init cs = .ok (d', rs) ∧ rs.length = cs.length ∧
      ∀ i (hi : i < cs.length), rs[i]? = some (result (cs.take i) cs[i]) := by
  refine history (Inv := Stored) (Good := Good) cnav_step ⟨Col.Inv.init (fun k hk => by omega) ?_, by simp⟩ cs h
  intro s hs
  unfold buf
  by_cases hG : Gps s
  · rw [if_pos hG]
    unfold Gps at hG
    exact Rawnav.buffers_get (by omega) (by omega)
  · rw [if_neg hG]
    have hQ : Qzss s := hs.resolve_left hG
    unfold Qzss at hQ
    exact Rawnav.buffers_get (by omega) (by omega)

/-- **C77.** Messages of other systems are ignored. -/
theorem cnav_other (st : Store) (sat : Int) (msg : BitBuf) (h : 33 ≤ sat ∧ ¬ Qzss sat) :
    decodeCnav st sat msg = .ok (st, none) := by
  unfold Qzss at h
  unfold decodeCnav
  rcases C01.sat2prn_cases sat with x | x | x | x | x | x | x | x
  · omega
  all_goals first | omega | (rw [x.2.2]; rfl) | (rw [x.2]; rfl)

/-! ## CNAV/2 -/

/-- **C77.** A CNAV/2 message gives an ephemeris exactly if its third sub-frame is page 1 or 61. -/
theorem cnav2_message (sat : Int) (m : BitBuf) (hs : 1 ≤ sat) (h : 1480 ≤ m.length) :
    decodeCnav2 sat m = .ok (if val m2 m .page = 1 ∨ val m2 m .page = 61 then some (cnav2Of sat m) else none) := by
  have hm := Seg.self h
  obtain ⟨sys, prn, hsp⟩ : ∃ sys prn, sat2prn sat = (sys, prn) := ⟨_, _, rfl⟩
  have hg : sys = .gps ↔ Gps sat := by
    unfold Gps
    rcases C01.sat2prn_cases sat with x | x | x | x | x | x | x | x
    · rw [x.2] at hsp; cases hsp; exact ⟨fun _ => ⟨hs, x.1⟩, fun _ => rfl⟩
    all_goals
      first
      | (rw [x.2.2] at hsp; cases hsp; exact ⟨fun h => (by cases h), fun h => by omega⟩)
      | (rw [x.2] at hsp; cases hsp; exact ⟨fun h => (by cases h), fun h => by omega⟩)
  have ha : axis sys = refAxis sat := by
    unfold refAxis
    by_cases hG : Gps sat
    · rw [if_pos hG, hg.2 hG]; rfl
    · rw [if_neg hG]
      have : sys ≠ .gps := fun h => hG (hg.1 h)
      cases sys <;> first | rfl | exact absurd rfl this
  unfold decodeCnav2
  rw [hsp]
  dsimp only
  rw [hm.u 0 (i := 0) (n := 9) (by omega), Py.okBind]
  rw [hm.u 52 (i := 52) (n := 13) (by omega), Py.okBind]
  rw [hm.u 65 (i := 65) (n := 8) (by omega), Py.okBind]
  rw [hm.u 73 (i := 73) (n := 11) (by omega), Py.okBind]
  rw [hm.u 84 (i := 84) (n := 1) (by omega), Py.okBind]
  rw [hm.s 85 (i := 85) (n := 5) (by omega), Py.okBind]
  rw [hm.u 90 (i := 90) (n := 11) (by omega), Py.okBind]
  rw [hm.s 101 (i := 101) (n := 26) (by omega), Py.okBind]
  rw [hm.s 127 (i := 127) (n := 25) (by omega), Py.okBind]
  rw [hm.s 152 (i := 152) (n := 17) (by omega), Py.okBind]
  rw [hm.s 169 (i := 169) (n := 23) (by omega), Py.okBind]
  rw [hm.s 192 (i := 192) (n := 33) (by omega), Py.okBind]
  rw [hm.u 225 (i := 225) (n := 33) (by omega), Py.okBind]
  rw [hm.s 258 (i := 258) (n := 33) (by omega), Py.okBind]
  rw [hm.s 291 (i := 291) (n := 33) (by omega), Py.okBind]
  rw [hm.s 324 (i := 324) (n := 33) (by omega), Py.okBind]
  rw [hm.s 357 (i := 357) (n := 17) (by omega), Py.okBind]
  rw [hm.s 374 (i := 374) (n := 15) (by omega), Py.okBind]
  rw [hm.s 389 (i := 389) (n := 16) (by omega), Py.okBind]
  rw [hm.s 405 (i := 405) (n := 16) (by omega), Py.okBind]
  rw [hm.s 421 (i := 421) (n := 24) (by omega), Py.okBind]
  rw [hm.s 445 (i := 445) (n := 24) (by omega), Py.okBind]
  rw [hm.s 469 (i := 469) (n := 21) (by omega), Py.okBind]
  rw [hm.s 490 (i := 490) (n := 21) (by omega), Py.okBind]
  rw [hm.s 511 (i := 511) (n := 5) (by omega), Py.okBind]
  rw [hm.u 516 (i := 516) (n := 3) (by omega), Py.okBind]
  rw [hm.u 519 (i := 519) (n := 3) (by omega), Py.okBind]
  rw [hm.s 522 (i := 522) (n := 26) (by omega), Py.okBind]
  rw [hm.s 548 (i := 548) (n := 20) (by omega), Py.okBind]
  rw [hm.s 568 (i := 568) (n := 10) (by omega), Py.okBind]
  rw [hm.s 578 (i := 578) (n := 13) (by omega), Py.okBind]
  rw [hm.s 591 (i := 591) (n := 13) (by omega), Py.okBind]
  rw [hm.s 604 (i := 604) (n := 13) (by omega), Py.okBind]
  rw [hm.u 617 (i := 617) (n := 1) (by omega), Py.okBind]
  rw [hm.u 618 (i := 618) (n := 8) (by omega), Py.okBind]
  rw [hm.u 626 (i := 626) (n := 1) (by omega), Py.okBind]
  rw [hm.u 1252 (i := 1252) (n := 8) (by omega), Py.okBind]
  rw [hm.u 1260 (i := 1260) (n := 6) (by omega), Py.okBind]
  have hpage : (val m2 m .page = 1 ∨ val m2 m .page = 61) ↔ (bitsAt m 1260 6 = 1 ∨ bitsAt m 1260 6 = 61) := by
    rw [m2_page]
    norm_cast
  by_cases c : bitsAt m 1260 6 = 1 ∨ bitsAt m 1260 6 = 61
  swap
  · rw [if_neg c, if_neg (fun h => c (hpage.1 h))]
    rfl
  rw [if_pos c, if_pos (hpage.2 c), utc_spec hm 1266 (by omega), Py.okBind, iono_spec hm 1364 (by omega), Py.okBind,
    groupDelay_spec hm 1428 (by omega), Py.okBind, ha]
  have hint : (if sys = .gps then bitsAt m 617 1 else (bitsAt m 626 1 <<< 1) ||| bitsAt m 617 1) =
      (if Gps sat then (bitsAt m 617 1 : Int) else 2 * (bitsAt m 626 1 : Int) + (bitsAt m 617 1 : Int)).toNat := by
    by_cases hG : Gps sat
    · rw [if_pos hG, if_pos (hg.2 hG)]; simp
    · rw [if_neg hG, if_neg (fun h => hG (hg.1 h)), integ2 (bits_lt _ _ 1) (bits_lt _ _ 1)]
  rw [hint]
  unfold cnav2Of
  simp only [m2_toi, m2_sym, m2_week, m2_itow, m2_top, m2_svh, m2_uraEd, m2_toe, m2_dA, m2_Adot, m2_deln, m2_delnd, m2_M0, m2_e, m2_omg, m2_OMG0, m2_i0, m2_OMGd, m2_idot, m2_cis, m2_cic, m2_crs, m2_crc, m2_cus, m2_cuc, m2_ura0, m2_ura1, m2_ura2, m2_af0, m2_af1, m2_af2, m2_tgd, m2_iscP, m2_iscD, m2_isf, m2_wnOp, m2_esf, m2_rsv2, m2_prn8, m2_page, m2_utc, m2_iono, m2_isc1, m2_isc2, m2_isc3, m2_isc4, m2_rsv, m2_crc24]
  rfl

/-- **C77.** Times of a CNAV/2 ephemeris: up to the middle of the week the week of the reference time is the broadcast one;
from 304447 s on it is the following one, so that reference times within half a week are returned a week late. -/
theorem cnav2_week (sat : Int) (m : BitBuf) :
    let S : ℚ := (val m2 m .itow * 7200 + val m2 m .toi * 18 : Int)
    (S ≤ 302400 → (cnav2Of sat m).week = val m2 m .week) ∧
    (304447 < S → (cnav2Of sat m).week = val m2 m .week + 1) := by
  intro S
  have hu : (0 : ℚ) ≤ val m2 m .toe ∧ (val m2 m .toe : ℚ) ≤ 2047 := by
    rw [m2_toe]
    have := bits_lt m 90 11
    constructor
    · exact_mod_cast Nat.zero_le _
    · have h : bitsAt m 90 11 ≤ 2047 := by omega
      exact_mod_cast h
  have hS : (0 : ℚ) ≤ S := by
    show (0 : ℚ) ≤ ((val m2 m .itow * 7200 + val m2 m .toi * 18 : Int) : ℚ)
    rw [m2_itow, m2_toi]
    have : (0 : Int) ≤ (bitsAt m 65 8 : Int) * 7200 + (bitsAt m 0 9 : Int) * 18 := by omega
    exact_mod_cast this
  show (S ≤ 302400 → refWeek _ _ S = _) ∧ (304447 < S → refWeek _ _ S = _)
  unfold refWeek
  constructor
  · intro h
    rw [if_neg (by intro; linarith [hu.1]), if_neg (by intro; linarith [hu.2])]
  · intro h
    rw [if_pos (by linarith [hu.2])]

theorem val_range (m : BitBuf) (i k : Nat) : (0 : ℚ) ≤ ((bitsAt m i k : Int) : ℚ) ∧ ((bitsAt m i k : Int) : ℚ) < 2 ^ k := by
  refine ⟨by exact_mod_cast Nat.zero_le _, ?_⟩
  have := bits_lt m i k
  exact_mod_cast this

/-- **C77.** The times of a CNAV ephemeris are instants of GPS time; the time of clock is the one nearest to the time of
transmission, if both are times of a week. -/
theorem cnav_times (sat : Int) (x y z : BitBuf) :
    let e := cnavOf sat x y z
    timediff e.tot ⟨0, 0⟩ = 315964800 + 604800 * val m10 x .week + val m10 x .tow * 6 ∧
    timediff e.toc ⟨0, 0⟩ = 315964800 + 604800 * e.week + val m30 z .toc * 300 ∧
    timediff e.toe ⟨0, 0⟩ = 315964800 + 604800 * e.week + val m11 y .toe * 300 ∧
    timediff e.top ⟨0, 0⟩ = 315964800 + 604800 * e.wnOp + e.tops ∧
    (val m30 z .toc < 2016 → val m10 x .tow < 100800 → |timediff e.toc e.tot| ≤ 302400) := by
  intro e
  have h1 : timediff e.tot ⟨0, 0⟩ = 315964800 + 604800 * val m10 x .week + val m10 x .tow * 6 := by
    refine (C05.week_tow_instant _ _ ?_).1
    rw [m10_tow]
    obtain ⟨a1, a2⟩ := val_range x 20 17
    generalize (((bitsAt x 20 17 : Nat) : Int) : ℚ) = p at *
    norm_num at a1 a2 ⊢
    constructor <;> linarith
  have h2 : timediff e.toc ⟨0, 0⟩ = 315964800 + 604800 * e.week + val m30 z .toc * 300 := by
    refine (C05.week_tow_instant _ _ ?_).1
    rw [m30_toc]
    obtain ⟨a1, a2⟩ := val_range z 60 11
    generalize (((bitsAt z 60 11 : Nat) : Int) : ℚ) = p at *
    norm_num at a1 a2 ⊢
    constructor <;> linarith
  refine ⟨h1, h2, ?_, ?_, ?_⟩
  · refine (C05.week_tow_instant _ _ ?_).1
    rw [m11_toe]
    obtain ⟨a1, a2⟩ := val_range y 38 11
    generalize (((bitsAt y 38 11 : Nat) : Int) : ℚ) = p at *
    norm_num at a1 a2 ⊢
    constructor <;> linarith
  · refine (C05.week_tow_instant _ _ ?_).1
    rw [m30_top]
    obtain ⟨a1, a2⟩ := val_range z 38 11
    generalize (((bitsAt z 38 11 : Nat) : Int) : ℚ) = p at *
    norm_num at a1 a2 ⊢
    constructor <;> linarith
  · intro c1 c2
    have r1 : (0 : ℚ) ≤ val m30 z .toc := by rw [m30_toc]; exact (val_range z 60 11).1
    have r2 : (0 : ℚ) ≤ val m10 x .tow := by rw [m10_tow]; exact (val_range x 20 17).1
    have c1' : (val m30 z .toc : ℚ) < 2016 := by exact_mod_cast c1
    have c2' : (val m10 x .tow : ℚ) < 100800 := by exact_mod_cast c2
    have hw : e.week = refWeek (val m10 x .week) (val m30 z .toc * 300) (val m10 x .tow * 6) := rfl
    have hn := near (val m10 x .week) (val m30 z .toc * 300) (val m10 x .tow * 6) ⟨by linarith, by linarith⟩ ⟨by linarith, by linarith⟩
    rw [← hw] at hn
    rw [timediff_tot] at h1 h2 ⊢
    have e1 : e.toc.tot - e.tot.tot = (604800 * (e.week : ℚ) + val m30 z .toc * 300) - (604800 * (val m10 x .week : ℚ) + val m10 x .tow * 6) := by
      linarith
    rw [e1]
    exact hn

/-- **C77.** The fields of a message are the values that were encoded. -/
theorem val_encode {L : Layout F} {v : F → Int} (hN : (L.map (·.1)).Nodup) (hF : Fit L v) (post : BitBuf) {f : F}
    (hf : f ∈ L.map (·.1)) : val L (encode L v ++ post) f = v f := by
  have := At.intro [] (encode L v) post
  rw [List.nil_append] at this
  exact num_encode L v _ 0 this hF hN f hf

/-- the fields of a layout have different names, and the layouts fill the messages -/
example : (m10.map (·.1)).Nodup ∧ (m11.map (·.1)).Nodup ∧ (m30.map (·.1)).Nodup ∧ (m2.map (·.1)).Nodup ∧
    size m10 = 300 ∧ size m11 = 300 ∧ size m30 = 300 ∧ size m2 = 52 + 1200 + 270 := by decide +kernel

/-! ## Examples -/

/-- values of a satellite -/
def sample (prn sid tow toe : Int) : F → Int
  | .pre => 0x8b | .prn => prn | .sid => sid | .tow => tow | .week => 2200 | .top => 100 | .toe => toe | .toc => toe | .dA => -1024
  | .uraEd => -3 | .e => 2 ^ 24 | .af0 => -12345 | .wnOp => 152 | .tgd => -7 | .isc4 => -9 | .rsv => 0 | .page => 1 | .itow => 70
  | .toi => 5 | _ => 1

example : Fit m10 (sample 3 10 100 500) ∧ Fit m11 (sample 3 11 102 500) ∧ Fit m30 (sample 3 30 104 500) ∧
    Fit m2 (sample 3 0 0 1680) := by unfold Fit; decide +kernel

def msg (L : Layout F) (prn sid tow toe : Int) : BitBuf := encode L (sample prn sid tow toe) ++ List.replicate 4 false

def calls : List Call := [⟨3, msg m30 3 30 25000 490⟩, ⟨3, msg m11 3 11 25002 500⟩, ⟨3, msg m10 3 10 25004 500⟩,
  ⟨3, msg m30 4 30 25006 500⟩, ⟨3, msg m30 3 33 25008 500⟩, ⟨70, msg m30 3 30 25010 500⟩, ⟨3, msg m30 3 30 25012 500⟩,
  ⟨3, msg m30 3 12 25014 0⟩]

theorem calls_good : ∀ c ∈ calls, Good c := by
  intro c hc
  simp only [calls, List.mem_cons, List.not_mem_nil, or_false] at hc
  rcases hc with rfl | rfl | rfl | rfl | rfl | rfl | rfl | rfl <;>
    exact ⟨by unfold Dom Gps Qzss; decide, by rw [msg, List.length_append, encode_length]; decide +kernel⟩

/-- only after all three messages with the same time have been given there is an ephemeris -/
example : (match run (fun d c => decodeCnav d c.sat c.msg) Store.init calls with
    | .ok (_, rs) => rs.map fun r => r.map fun e => (e.week, e.toes, e.A, e.urai)
    | .error _ => []) = [none, none, none, none, none, none, some (2200, 150000, 26559708, [1, 1, 1, -3]),
      some (2200, 150000, 26559708, [1, 1, 1, -3])] := by decide +kernel

/-- the CNAV/2 message of a satellite at 140 hours: the time of ephemeris is in the following week -/
example : (match decodeCnav2 3 (encode m2 (sample 3 0 0 1680)) with
    | .ok (some e) => some (e.week, e.toes, timediff e.toe e.tot)
    | _ => none) = some (2201, 504000, 604710) := by decide +kernel

example : 1480 ≤ (encode m2 (sample 3 0 0 1680)).length := by rw [encode_length]; decide +kernel


end Verif.C77
