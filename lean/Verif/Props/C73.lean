import Verif.Model.RtcmEph
import Verif.Lemmas.Read
import Verif.Lemmas.At
import Mathlib.Tactic.Linarith
/-!
# C73 RTCM ephemeris messages
-/

namespace Verif.C73
open Verif.RtcmEph Verif.Sat Verif.Time
open Verif.Rawnav (p2 sc2rad)

/-! ## Specification -/

/-- names of the fields -/
inductive F where
  | prn | week | sva | code | idot | iode | toc | af2 | af1 | af0 | iodc | crs | deln | M0 | cuc | e | cus
  | sqrtA | toe | cic | OMG0 | cis | i0 | crc | omg | OMGd | tgd | tgdB | svh | flag | fit | hs | dvs | hs1
  | dvs1 | rsv | rsv2
  -- GLONASS
  | frq | Cn | Cna | P1 | tkh | tkm | tks | Bn | P2 | tb | xd | x | xdd | yd | y | ydd | zd | z | zdd | P3 | gamn
  | P | ln3 | taun | dtaun | En | P4 | Ft | Nt | M | add | NA | tauc | N4 | taugps | ln5
  deriving DecidableEq

/-- the fields of a message in order: name, width, two's complement -/
abbrev Layout := List (F × Nat × Bool)

/-- the value of a field of a message of the layout starting at bit `i` -/
def num : Layout → BitBuf → Nat → F → Int
  | [], _, _, _ => 0
  | (g, w, s) :: L, b, i, f =>
    if g = f then (if s then intAt b i w else (bitsAt b i w : Int)) else num L b (i + w) f

def size : Layout → Nat
  | [] => 0
  | (_, w, _) :: L => w + size L

/-- the bits of a message with given field values -/
def encode (L : Layout) (v : F → Int) : List Bool := L.flatMap fun x => natToBits x.2.1 (ofSigned x.2.1 (v x.1))

/-- the values fit their fields -/
def Fit (L : Layout) (v : F → Int) : Prop := ∀ x ∈ L, 0 < x.2.1 ∧
  (if x.2.2 then -(2 ^ (x.2.1 - 1) : Int) ≤ v x.1 ∧ v x.1 < 2 ^ (x.2.1 - 1) else 0 ≤ v x.1 ∧ v x.1 < 2 ^ x.2.1)

/-- message 1019 after its number -/
def gps : Layout := [(.prn, 6, false), (.week, 10, false), (.sva, 4, false), (.code, 2, false), (.idot, 14, true),
  (.iode, 8, false), (.toc, 16, false), (.af2, 8, true), (.af1, 16, true), (.af0, 22, true), (.iodc, 10, false),
  (.crs, 16, true), (.deln, 16, true), (.M0, 32, true), (.cuc, 16, true), (.e, 32, false), (.cus, 16, true),
  (.sqrtA, 32, false), (.toe, 16, false), (.cic, 16, true), (.OMG0, 32, true), (.cis, 16, true), (.i0, 32, true),
  (.crc, 16, true), (.omg, 32, true), (.OMGd, 24, true), (.tgd, 8, true), (.svh, 6, false), (.flag, 1, false),
  (.fit, 1, false)]

/-- message 1044 -/
def qzs : Layout := [(.prn, 4, false), (.toc, 16, false), (.af2, 8, true), (.af1, 16, true), (.af0, 22, true),
  (.iode, 8, false), (.crs, 16, true), (.deln, 16, true), (.M0, 32, true), (.cuc, 16, true), (.e, 32, false),
  (.cus, 16, true), (.sqrtA, 32, false), (.toe, 16, false), (.cic, 16, true), (.OMG0, 32, true), (.cis, 16, true),
  (.i0, 32, true), (.crc, 16, true), (.omg, 32, true), (.OMGd, 24, true), (.idot, 14, true), (.code, 2, false),
  (.week, 10, false), (.sva, 4, false), (.svh, 6, false), (.tgd, 8, true), (.iodc, 10, false), (.fit, 1, false)]

/-- the common part of messages 1045 and 1046 -/
def gal : Layout := [(.prn, 6, false), (.week, 12, false), (.iode, 10, false), (.sva, 8, false), (.idot, 14, true),
  (.toc, 14, false), (.af2, 6, true), (.af1, 21, true), (.af0, 31, true), (.crs, 16, true), (.deln, 16, true),
  (.M0, 32, true), (.cuc, 16, true), (.e, 32, false), (.cus, 16, true), (.sqrtA, 32, false), (.toe, 14, false),
  (.cic, 16, true), (.OMG0, 32, true), (.cis, 16, true), (.i0, 32, true), (.crc, 16, true), (.omg, 32, true),
  (.OMGd, 24, true), (.tgd, 10, true)]

/-- message 1045: F/NAV -/
def fnav : Layout := gal ++ [(.hs, 2, false), (.dvs, 1, false), (.rsv, 7, false)]

/-- message 1046: I/NAV -/
def inav : Layout := gal ++ [(.tgdB, 10, true), (.hs, 2, false), (.dvs, 1, false), (.hs1, 2, false),
  (.dvs1, 1, false), (.rsv, 2, false)]

/-- message 1042 with `w` bits for `cus`; the standard has 18 -/
def bds (w : Nat) : Layout := [(.prn, 6, false), (.week, 13, false), (.sva, 4, false), (.idot, 14, true),
  (.iode, 5, false), (.toc, 17, false), (.af2, 11, true), (.af1, 22, true), (.af0, 24, true), (.iodc, 5, false),
  (.crs, 18, true), (.deln, 16, true), (.M0, 32, true), (.cuc, 18, true), (.e, 32, false), (.cus, w, true),
  (.sqrtA, 32, false), (.toe, 17, false), (.cic, 18, true), (.OMG0, 32, true), (.cis, 18, true), (.i0, 32, true),
  (.crc, 18, true), (.omg, 32, true), (.OMGd, 24, true), (.tgd, 10, true), (.tgdB, 10, true), (.svh, 1, false)]

/-- message 1041 -/
def irn : Layout := [(.prn, 6, false), (.week, 10, false), (.af0, 22, true), (.af1, 16, true), (.af2, 8, true),
  (.sva, 4, false), (.toc, 16, false), (.tgd, 8, true), (.deln, 22, true), (.iode, 8, false), (.rsv, 10, false),
  (.svh, 2, false), (.cuc, 15, true), (.cus, 15, true), (.cic, 15, true), (.cis, 15, true), (.crc, 15, true),
  (.crs, 15, true), (.idot, 14, true), (.M0, 32, true), (.toe, 16, false), (.e, 32, false), (.sqrtA, 32, false),
  (.OMG0, 32, true), (.omg, 32, true), (.OMGd, 22, true), (.i0, 32, true), (.rsv2, 4, false)]

/-- message 1020; the standard has the signed fields in sign-magnitude form, see `sign_magnitude` -/
def glo : Layout := [(.prn, 6, false), (.frq, 5, false), (.Cn, 1, false), (.Cna, 1, false), (.P1, 2, false),
  (.tkh, 5, false), (.tkm, 6, false), (.tks, 1, false), (.Bn, 1, false), (.P2, 1, false), (.tb, 7, false),
  (.xd, 24, true), (.x, 27, true), (.xdd, 5, true), (.yd, 24, true), (.y, 27, true), (.ydd, 5, true),
  (.zd, 24, true), (.z, 27, true), (.zdd, 5, true), (.P3, 1, false), (.gamn, 11, true), (.P, 2, false),
  (.ln3, 1, false), (.taun, 22, true), (.dtaun, 5, true), (.En, 5, false), (.P4, 1, false), (.Ft, 4, false),
  (.Nt, 11, false), (.M, 2, false), (.add, 1, false), (.NA, 11, false), (.tauc, 32, true), (.N4, 5, false),
  (.taugps, 22, true), (.ln5, 1, false), (.rsv, 7, false)]

/-- units of the clock, harmonic and angular-rate parameters and of the reference times -/
structure Units where
  t : ℚ
  af1 : ℚ
  af0 : ℚ
  /-- `crs`, `crc` -/
  r : ℚ
  /-- `cuc`, `cus`, `cic`, `cis` -/
  c : ℚ
  /-- `deln`, `OMGd`, in semicircles -/
  n : ℚ
  dn : ℚ
  tgd : ℚ

def gpsU : Units := { t := 16, af1 := 1 / 2 ^ 43, af0 := 1 / 2 ^ 31, r := 1 / 2 ^ 5, c := 1 / 2 ^ 29, n := 1 / 2 ^ 43, dn := 1 / 2 ^ 43, tgd := 1 / 2 ^ 31 }
def galU : Units := { t := 60, af1 := 1 / 2 ^ 46, af0 := 1 / 2 ^ 34, r := 1 / 2 ^ 5, c := 1 / 2 ^ 29, n := 1 / 2 ^ 43, dn := 1 / 2 ^ 43, tgd := 1 / 2 ^ 32 }
def bdsU : Units := { t := 8, af1 := 1 / 2 ^ 50, af0 := 1 / 2 ^ 33, r := 1 / 2 ^ 6, c := 1 / 2 ^ 31, n := 1 / 2 ^ 43, dn := 1 / 2 ^ 43, tgd := 1 / 10 ^ 10 }
def irnU : Units := { t := 16, af1 := 1 / 2 ^ 43, af0 := 1 / 2 ^ 31, r := 1 / 2 ^ 4, c := 1 / 2 ^ 28, n := 1 / 2 ^ 41, dn := 1 / 2 ^ 41, tgd := 1 / 2 ^ 31 }

/-- the ephemeris has the orbit and clock parameters `v` in their units; `π` is 3.1415926535898 as in
the interface specifications.  The clock drift rate, issues, health and times are stated apart. -/
structure Orbit (U : Units) (v : F → Int) (x : Eph) : Prop where
  sva : x.sva = v .sva
  af0 : x.af0 = v .af0 * U.af0
  af1 : x.af1 = v .af1 * U.af1
  crs : x.crs = v .crs * U.r
  crc : x.crc = v .crc * U.r
  cuc : x.cuc = v .cuc * U.c
  cus : x.cus = v .cus * U.c
  cic : x.cic = v .cic * U.c
  cis : x.cis = v .cis * U.c
  e : x.e = v .e * (1 / 2 ^ 33)
  A : x.A = (v .sqrtA * (1 / 2 ^ 19)) ^ 2
  deln : x.deln = v .deln * U.dn * sc2rad
  M0 : x.M0 = v .M0 * (1 / 2 ^ 31) * sc2rad
  OMG0 : x.OMG0 = v .OMG0 * (1 / 2 ^ 31) * sc2rad
  omg : x.omg = v .omg * (1 / 2 ^ 31) * sc2rad
  i0 : x.i0 = v .i0 * (1 / 2 ^ 31) * sc2rad
  idot : x.idot = v .idot * (1 / 2 ^ 43) * sc2rad
  OMGd : x.OMGd = v .OMGd * U.n * sc2rad
  tgd : x.tgd = v .tgd * U.tgd
  toes : x.toes = v .toe * U.t
  iode : x.iode = v .iode

/-- reference times in the week of the ephemeris -/
structure Times (U : Units) (v : F → Int) (time : GTime) (x : Eph) : Prop where
  toe : x.toe = gpst2time x.week (v .toe * U.t)
  toc : x.toc = gpst2time x.week (v .toc * U.t)
  tot : x.tot = time

/-! ## Reading a layout -/

theorem num_encode : ∀ (L : Layout) (v : F → Int) (b : BitBuf) (i : Nat), At b i (encode L v) → Fit L v →
    (L.map (·.1)).Nodup → ∀ f, f ∈ L.map (·.1) → num L b i f = v f := by
  intro L
  induction L with
  | nil => intro v b i _ _ _ f hf; cases hf
  | cons x L ih =>
    obtain ⟨g, w, s⟩ := x
    intro v b i hA hF hN f hf
    have hA' : At b i (natToBits w (ofSigned w (v g)) ++ encode L v) := hA
    have h0 := hF (g, w, s) (by simp)
    rw [num]
    by_cases hg : g = f
    · subst hg
      rw [if_pos rfl]
      have hle := hA'.head.le
      rw [natToBits_length] at hle
      cases s with
      | true =>
        have h0' : 0 < w ∧ (-(2 ^ (w - 1) : Int) ≤ v g ∧ v g < 2 ^ (w - 1)) := h0
        have := hA'.head.readS h0'.1 h0'.2.1 h0'.2.2
        rw [readS_at hle] at this
        exact Except.ok.inj this
      | false =>
        have h0' : 0 < w ∧ (0 ≤ v g ∧ v g < 2 ^ w) := h0
        have hlt := ofSigned_lt w (v g)
        have := hA'.head.readU hlt
        rw [readU_at hle] at this
        have e := Except.ok.inj this
        show (bitsAt b i w : Int) = v g
        rw [e]
        unfold ofSigned
        rw [Int.toNat_of_nonneg (Int.emod_nonneg _ (by positivity))]
        exact Int.emod_eq_of_lt h0'.2.1 (by exact_mod_cast h0'.2.2)
    · rw [if_neg hg]
      rw [List.map_cons, List.nodup_cons] at hN
      refine ih v b (i + w) (hA'.tail' (natToBits_length w _)) (fun y hy => hF y (List.mem_cons_of_mem _ hy)) hN.2 f ?_
      rw [List.map_cons, List.mem_cons] at hf
      exact hf.resolve_left fun e => hg e.symm

theorem encode_length (L : Layout) (v : F → Int) : (encode L v).length = size L := by
  induction L with
  | nil => rfl
  | cons x L ih =>
    obtain ⟨g, w, s⟩ := x
    show (natToBits w (ofSigned w (v g)) ++ encode L v).length = w + size L
    rw [List.length_append, natToBits_length, ih]

/-! ## The decoders -/

theorem sq_eq (x : ℚ) : x * x = x ^ 2 := (pow_two x).symm

/-- **GPS** -/
theorem gps_fields (time : GTime) {b : BitBuf} {i : Nat} (h : i + size gps ≤ b.length) :
    ∃ x, decodeGps time b i = .ok (i + size gps, x) ∧ Orbit gpsU (num gps b i) x ∧
      Times gpsU (num gps b i) time x ∧ x.af2 = num gps b i .af2 * (1 / 2 ^ 55) ∧
      x.sat = prn2sat .gps (num gps b i .prn) ∧ x.week = adjustweek (num gps b i .week) time ∧
      x.code = num gps b i .code ∧ x.iodc = num gps b i .iodc ∧ x.svh = num gps b i .svh ∧
      x.flag = num gps b i .flag ∧ x.fit = num gps b i .fit ∧ x.mode = 0 := by
  have hs : size gps = 476 := rfl
  rw [hs] at h
  unfold decodeGps
  dsimp only
  repeat first
    | rw [readU_at (by omega), Py.okBind]
    | rw [readS_at (by omega), Py.okBind]
  refine ⟨_, rfl, ?_, ?_, ?_⟩
  · constructor
    all_goals first
      | rfl
      | exact sq_eq _
  · constructor
    all_goals rfl
  · exact ⟨rfl, rfl, rfl, rfl, rfl, rfl, rfl, rfl, rfl⟩

/-- **QZSS** -/
theorem qzs_fields (time : GTime) {b : BitBuf} {i : Nat} (h : i + size qzs ≤ b.length) :
    ∃ x, decodeQzs time b i = .ok (i + size qzs, x) ∧ Orbit gpsU (num qzs b i) x ∧
      Times gpsU (num qzs b i) time x ∧ x.af2 = num qzs b i .af2 * (1 / 2 ^ 55) ∧
      x.sat = prn2sat .qzs (num qzs b i .prn + 192) ∧ x.week = adjustweek (num qzs b i .week) time ∧
      x.code = num qzs b i .code ∧ x.iodc = num qzs b i .iodc ∧ x.svh = num qzs b i .svh ∧
      x.fit = num qzs b i .fit ∧ x.flag = 1 ∧ x.mode = 0 := by
  have hs : size qzs = 473 := rfl
  rw [hs] at h
  unfold decodeQzs
  dsimp only
  repeat first
    | rw [readU_at (by omega), Py.okBind]
    | rw [readS_at (by omega), Py.okBind]
  refine ⟨_, rfl, ?_, ?_, ?_⟩
  · constructor
    all_goals first
      | rfl
      | exact sq_eq _
  · constructor
    all_goals rfl
  · exact ⟨rfl, rfl, rfl, rfl, rfl, rfl, rfl, rfl, rfl⟩

/-- **Galileo F/NAV**: the health bits are put where those of the second I/NAV signal belong, and the
data source is given as I/NAV -/
theorem fnav_fields (time : GTime) {b : BitBuf} {i : Nat} (h : i + size fnav ≤ b.length) :
    ∃ x, decodeGal 1045 time b i = .ok (i + size fnav, x) ∧ Orbit galU (num fnav b i) x ∧
      Times galU (num fnav b i) time x ∧ x.af2 = num fnav b i .af2 * (1 / 2 ^ 59) ∧
      x.sat = prn2sat .gal (num fnav b i .prn) ∧ x.week = adjustweek (num fnav b i .week) time ∧
      x.iodc = num fnav b i .iode ∧ x.svh = num fnav b i .hs * 128 + num fnav b i .dvs * 64 ∧
      x.code = 517 ∧ x.tgdB = 0 ∧ x.mode = 1 := by
  have hs : size fnav = 484 := rfl
  rw [hs] at h
  unfold decodeGal
  dsimp only
  repeat first
    | rw [readU_at (by omega), Py.okBind]
    | rw [readS_at (by omega), Py.okBind]
  rw [if_pos rfl]
  refine ⟨_, rfl, ?_, ?_, ?_⟩
  · constructor
    all_goals first
      | rfl
      | exact sq_eq _
  · constructor
    all_goals rfl
  · refine ⟨rfl, rfl, rfl, rfl, ?_, rfl, rfl, rfl⟩
    dsimp only
    rw [Nat.shiftLeft_eq, Nat.shiftLeft_eq]
    push_cast
    rfl

theorem bits_lt {b : BitBuf} {k n : Nat} (h : k + n ≤ b.length) : bitsAt b k n < 2 ^ n := readU_lt (readU_at h)

/-- **Galileo I/NAV** -/
theorem inav_fields (time : GTime) {b : BitBuf} {i : Nat} (h : i + size inav ≤ b.length) :
    ∃ x, decodeGal 1046 time b i = .ok (i + size inav, x) ∧ Orbit galU (num inav b i) x ∧
      Times galU (num inav b i) time x ∧ x.af2 = num inav b i .af2 * (1 / 2 ^ 59) ∧
      x.sat = prn2sat .gal (num inav b i .prn) ∧ x.week = adjustweek (num inav b i .week) time ∧
      x.iodc = num inav b i .iode ∧ x.svh = num inav b i .hs * 128 + num inav b i .dvs * 64 +
        num inav b i .hs1 * 2 + num inav b i .dvs1 ∧
      x.code = 517 ∧ x.tgdB = num inav b i .tgdB * (1 / 2 ^ 32) ∧ x.mode = 0 := by
  have hs : size inav = 492 := rfl
  rw [hs] at h
  unfold decodeGal
  dsimp only
  repeat first
    | rw [readU_at (by omega), Py.okBind]
    | rw [readS_at (by omega), Py.okBind]
  rw [if_neg (by decide)]
  refine ⟨_, rfl, ?_, ?_, ?_⟩
  · constructor
    all_goals first
      | rfl
      | exact sq_eq _
  · constructor
    all_goals rfl
  · refine ⟨rfl, rfl, rfl, rfl, ?_, rfl, rfl, rfl⟩
    dsimp only
    have h1 := bits_lt (b := b) (k := i + 50 + 72 + 80 + 110 + 128 + 34 + 13) (n := 2) (by omega)
    have h2 := bits_lt (b := b) (k := i + 50 + 72 + 80 + 110 + 128 + 34 + 15) (n := 1) (by omega)
    have key : ∀ a c d e : Nat, d < 2 ^ 2 → e < 2 ^ 1 →
        (((a <<< 7) + (c <<< 6)) ||| ((d <<< 1) + e) : Nat) = a * 128 + c * 64 + d * 2 + e := by
      intro a c d e hd he
      rw [Nat.shiftLeft_eq, Nat.shiftLeft_eq, Nat.shiftLeft_eq,
        show a * 2 ^ 7 + c * 2 ^ 6 = 2 ^ 6 * (2 * a + c) by omega, ← Nat.two_pow_add_eq_or_of_lt (by omega)]
      omega
    rw [key _ _ _ _ h1 h2]
    push_cast
    rfl

/-- **NavIC**: all parameters but the clock drift rate -/
theorem irn_fields (time : GTime) {b : BitBuf} {i : Nat} (h : i + size irn ≤ b.length) :
    ∃ x, decodeIrn time b i = .ok (i + size irn, x) ∧ Orbit irnU (num irn b i) x ∧
      Times irnU (num irn b i) time x ∧ x.sat = prn2sat .irn (num irn b i .prn) ∧
      x.week = adjustweek (num irn b i .week) time ∧ x.iodc = num irn b i .iode ∧
      x.svh = num irn b i .svh ∧ x.mode = 0 ∧
      -- the drift rate is computed from the clock offset
      x.af2 = num irn b i .af0 * (1 / 2 ^ 55) := by
  have hs : size irn = 470 := rfl
  rw [hs] at h
  unfold decodeIrn
  dsimp only
  repeat first
    | rw [readU_at (by omega), Py.okBind]
    | rw [readS_at (by omega), Py.okBind]
  refine ⟨_, rfl, ?_, ?_, ?_⟩
  · constructor
    all_goals first
      | rfl
      | exact sq_eq _
      | (show _ * (625 / 10000 : ℚ) = _ * (1 / 2 ^ 4); norm_num; rfl)
  · constructor
    all_goals rfl
  · exact ⟨rfl, rfl, rfl, rfl, rfl, rfl⟩

/-- **BeiDou**: the parameters up to the clock offset and the mean anomaly are right, those from `cus`
on are read as if `cus` had 16 bits instead of 18; the drift rate is computed from the clock offset -/
theorem bds_fields (time : GTime) {b : BitBuf} {i : Nat} (h : i + size (bds 16) ≤ b.length) :
    ∃ x, decodeBds time b i = .ok (i + size (bds 16), x) ∧ Orbit bdsU (num (bds 16) b i) x ∧
      x.toe = bdt2gpst (bdt2time x.week (num (bds 16) b i .toe * 8)) ∧
      x.toc = bdt2gpst (bdt2time x.week (num (bds 16) b i .toc * 8)) ∧ x.tot = time ∧
      x.sat = prn2sat .bds (num (bds 16) b i .prn) ∧ x.week = num (bds 16) b i .week ∧
      x.iodc = num (bds 16) b i .iodc ∧ x.tgdB = num (bds 16) b i .tgdB * (1 / 10 ^ 10) ∧
      x.svh = num (bds 16) b i .svh ∧ x.mode = 0 ∧ x.af2 = num (bds 16) b i .af0 * (1 / 2 ^ 66) := by
  have hs : size (bds 16) = 497 := rfl
  rw [hs] at h
  unfold decodeBds
  dsimp only
  repeat first
    | rw [readU_at (by omega), Py.okBind]
    | rw [readS_at (by omega), Py.okBind]
  refine ⟨_, rfl, ?_, ?_⟩
  · constructor
    all_goals first
      | rfl
      | exact sq_eq _
  · exact ⟨rfl, rfl, rfl, rfl, rfl, rfl, rfl, rfl, rfl, rfl⟩

theorem num_append {A B : Layout} {b : BitBuf} {f : F} (h : f ∈ A.map (·.1)) : ∀ i, num (A ++ B) b i f = num A b i f := by
  induction A with
  | nil => cases h
  | cons y A ih =>
    obtain ⟨g, w, s⟩ := y
    intro i
    rw [List.cons_append, num, num]
    by_cases hg : g = f
    · rw [if_pos hg, if_pos hg]
    · rw [if_neg hg, if_neg hg]
      rw [List.map_cons, List.mem_cons] at h
      exact ih (h.resolve_left fun e => hg e.symm) _

/-- the fields before `cus` do not depend on its width -/
theorem bds_head (b : BitBuf) (i w : Nat) : ∀ f ∈ ((bds 0).take 15).map (·.1), num (bds w) b i f = num (bds 18) b i f := by
  intro f hf
  have e : ∀ w, bds w = (bds 0).take 15 ++ (bds w).drop 15 := fun w => rfl
  rw [e w, e 18, num_append hf, num_append hf]

theorem bitsAt_lt (b : BitBuf) (k n : Nat) : bitsAt b k n < 2 ^ n := by
  show bitsToNat ((b.drop k).take n) < _
  have := bitsToNat_lt ((b.drop k).take n)
  exact lt_of_lt_of_le this (Nat.pow_le_pow_right (by norm_num) (by simp))

theorem bitsAt_add {b : BitBuf} {k n m : Nat} (h : k + (n + m) ≤ b.length) :
    bitsAt b k (n + m) = bitsAt b k n * 2 ^ m + bitsAt b (k + n) m := by
  show bitsToNat (seg b k (n + m)) = bitsToNat (seg b k n) * 2 ^ m + bitsToNat (seg b (k + n) m)
  rw [seg_add, bitsToNat_append, seg_length (by omega)]

theorem intAt_emod (b : BitBuf) (k n : Nat) : intAt b k (n + 1) % 2 ^ (n + 1) = bitsAt b k (n + 1) := by
  have h := bitsAt_lt b k (n + 1)
  have h' : (bitsAt b k (n + 1) : Int) < 2 ^ (n + 1) := by exact_mod_cast h
  show toSigned (n + 1) (bitsAt b k (n + 1)) % _ = _
  unfold toSigned
  rw [if_neg (by omega)]
  split
  · exact Int.emod_eq_of_lt (by positivity) h'
  · rw [Int.sub_emod_right]
    exact Int.emod_eq_of_lt (by positivity) h'

/-- what is read for the square root of the semi-major axis from a message as the standard has it -/
theorem bds_sqrtA {b : BitBuf} {i : Nat} (h : i + size (bds 18) ≤ b.length) :
    num (bds 16) b i .sqrtA = num (bds 18) b i .cus % 4 * 2 ^ 30 + num (bds 18) b i .sqrtA / 4 := by
  have hs : size (bds 18) = 499 := rfl
  rw [hs] at h
  have e1 : num (bds 16) b i .sqrtA = (bitsAt b (i + 253) 32 : Nat) := rfl
  have e2 : num (bds 18) b i .sqrtA = (bitsAt b (i + 255) 32 : Nat) := rfl
  have e3 : num (bds 18) b i .cus = intAt b (i + 237) 18 := rfl
  have h1 := bitsAt_add (b := b) (k := i + 253) (n := 2) (m := 30) (by omega)
  have h2 := bitsAt_add (b := b) (k := i + 255) (n := 30) (m := 2) (by omega)
  have h3 := bitsAt_add (b := b) (k := i + 237) (n := 16) (m := 2) (by omega)
  have h4 := intAt_emod b (i + 237) 17
  have l1 := bitsAt_lt b (i + 253) 2
  have l2 := bitsAt_lt b (i + 255 + 30) 2
  rw [show i + 253 + 2 = i + 255 by omega] at h1
  rw [show i + 237 + 16 = i + 253 by omega] at h3
  norm_num at h1 h2 h3 h4 l1 l2
  rw [e1, e2, e3]
  omega

/-- so a right semi-major axis is decoded only when its root is 0, about 2730.67, 5461.33 or 8192 -/
theorem bds_sqrtA_wrong {b : BitBuf} {i : Nat} (h : i + size (bds 18) ≤ b.length)
    (hr : num (bds 16) b i .sqrtA = num (bds 18) b i .sqrtA) :
    ∃ k : Int, 0 ≤ k ∧ k < 4 ∧ 3 * num (bds 18) b i .sqrtA ≤ k * 2 ^ 32 ∧
      k * 2 ^ 32 ≤ 3 * num (bds 18) b i .sqrtA + 3 := by
  rw [bds_sqrtA h] at hr
  have h1 := Int.emod_nonneg (num (bds 18) b i .cus) (show (4 : Int) ≠ 0 by decide)
  have h2 := Int.emod_lt_of_pos (num (bds 18) b i .cus) (show (0 : Int) < 4 by decide)
  refine ⟨num (bds 18) b i .cus % 4, h1, h2, ?_, ?_⟩
  all_goals
    norm_num at hr ⊢
    omega

/-- SBAS: no message is decoded -/
theorem sbs_raises {b : BitBuf} {i : Nat} (h : i + 218 ≤ b.length) : decodeSbs b i = .error .attributeError := by
  unfold decodeSbs
  dsimp only
  repeat first
    | rw [readU_at (by omega), Py.okBind]
    | rw [readS_at (by omega), Py.okBind]
  rfl

/-- what two's complement makes of a number written in sign-magnitude form -/
theorem sign_magnitude {w : Nat} (hw : 0 < w) {X : Int} (hX : X.natAbs < 2 ^ (w - 1)) {b : BitBuf} {k : Nat}
    (h : At b k (natToBits w ((if X < 0 then 2 ^ (w - 1) else 0) + X.natAbs))) :
    intAt b k w = if 0 ≤ X then X else -2 ^ (w - 1) - X := by
  obtain ⟨n, rfl⟩ : ∃ n, w = n + 1 := ⟨w - 1, by omega⟩
  have hp : (2 : Nat) ^ (n + 1) = 2 * 2 ^ n := by rw [Nat.pow_succ]; omega
  rw [Nat.add_sub_cancel] at *
  have hle := h.le
  rw [natToBits_length] at hle
  have hr := h.readU (by split <;> omega)
  rw [readU_at hle] at hr
  have e := Except.ok.inj hr
  show toSigned (n + 1) (bitsAt b k (n + 1)) = _
  rw [e]
  unfold toSigned
  rw [if_neg (by omega), Nat.add_sub_cancel]
  have hp' : (2 : Int) ^ (n + 1) = 2 * 2 ^ n := by exact_mod_cast hp
  have hX' : (X.natAbs : Int) < 2 ^ n := by exact_mod_cast hX
  by_cases hx : 0 ≤ X
  · rw [if_pos hx, if_neg (c := X < 0) (by omega), Nat.zero_add, if_pos hX]
    omega
  · rw [if_neg hx, if_pos (c := X < 0) (by omega), if_neg (by omega)]
    have hc : ((2 ^ n + X.natAbs : Nat) : Int) = 2 ^ n + (X.natAbs : Int) := by
      rw [Nat.cast_add, Nat.cast_pow]; rfl
    rw [hc, hp']
    omega

/-- an instant `s` seconds into the week of `time` which has the time of day `tod` in Moscow and is at
most half a day from `time` -/
def Near (time : GTime) (tod : ℚ) (s : ℚ) : Prop :=
  (∃ k : Int, s = tod - 10800 + 86400 * k) ∧ |s - (time2gpst time).2| ≤ 43200

theorem near_of (time : GTime) (t : ℚ) (h0 : 0 ≤ t) (h1 : t ≤ 10800 + 129600) :
    let tow := (time2gpst time).2
    let tod := tow - 86400 * ⌊tow / 86400⌋
    let r := t - 10800
    Near time t (tow - tod + if r < tod - 43200 then r + 86400 else if r > tod + 43200 then r - 86400 else r) := by
  intro tow tod r
  have hf := Int.floor_le (tow / 86400)
  have hc := Int.lt_floor_add_one (tow / 86400)
  have ht0 : 0 ≤ tod := by
    show (0 : ℚ) ≤ tow - 86400 * ⌊tow / 86400⌋
    linarith
  have ht1 : tod < 86400 := by
    show tow - 86400 * ⌊tow / 86400⌋ < (86400 : ℚ)
    linarith
  have hd : tow - tod = 86400 * ⌊tow / 86400⌋ := by
    show tow - (tow - 86400 * ⌊tow / 86400⌋) = _
    ring
  have hr : r = t - 10800 := rfl
  have hT : (time2gpst time).2 = tow := rfl
  unfold Near
  rw [hT]
  split
  · refine ⟨⟨⌊tow / 86400⌋ + 1, ?_⟩, ?_⟩
    · rw [hd, hr]; push_cast; ring
    · rw [abs_le]; constructor <;> linarith
  · split
    · refine ⟨⟨⌊tow / 86400⌋ - 1, ?_⟩, ?_⟩
      · rw [hd, hr]; push_cast; ring
      · rw [abs_le]; constructor <;> linarith
    · refine ⟨⟨⌊tow / 86400⌋, ?_⟩, ?_⟩
      · rw [hd, hr]; ring
      · rw [abs_le]; constructor <;> linarith

theorem status_eq : ∀ (m : Fin 4) (p4 p3 p2 : Fin 2) (p1 p : Fin 4),
    m.val <<< 7 ||| p4.val <<< 6 ||| p3.val <<< 5 ||| p2.val <<< 4 ||| p1.val <<< 2 ||| p.val =
      m.val * 128 + p4.val * 64 + p3.val * 32 + p2.val * 16 + p1.val * 4 + p.val := by decide +kernel

/-- **GLONASS**: identity, channel, flags, clock parameters and times; of position, velocity and
acceleration the decoded y and z repeat x -/
theorem glo_fields (time : GTime) {b : BitBuf} {i : Nat} (h : i + size glo ≤ b.length) :
    ∃ x, decodeGlo time b i = .ok (i + size glo, x) ∧ x.sat = prn2sat .glo (num glo b i .prn) ∧
      x.frq = num glo b i .frq - 7 ∧ x.iode = num glo b i .tb ∧ x.svh = num glo b i .Bn ∧
      x.age = num glo b i .En ∧ x.gamn = num glo b i .gamn * (1 / 2 ^ 40) ∧
      x.taun = num glo b i .taun * (1 / 2 ^ 30) ∧ x.dtaun = num glo b i .dtaun * (1 / 2 ^ 30) ∧ x.mode = 0 ∧
      (x.status : Int) = num glo b i .M * 128 + num glo b i .P4 * 64 + num glo b i .P3 * 32 +
        num glo b i .P2 * 16 + num glo b i .P1 * 4 + num glo b i .P ∧
      (∃ p : ℚ, p = num glo b i .x * (1 / 2 ^ 11) * 1000 ∧ x.pos = (p, p, p)) ∧
      (∃ p : ℚ, p = num glo b i .xd * (1 / 2 ^ 20) * 1000 ∧ x.vel = (p, p, p)) ∧
      (∃ p : ℚ, p = num glo b i .xdd * (1 / 2 ^ 30) * 1000 ∧ x.acc = (p, p, p)) ∧
      (∃ s, Near time (num glo b i .tb * 900) s ∧ x.toe = utc2gpst (gpst2time (time2gpst time).1 s)) ∧
      ∃ s, Near time (num glo b i .tkh * 3600 + num glo b i .tkm * 60 + num glo b i .tks * 30) s ∧
        x.tof = utc2gpst (gpst2time (time2gpst time).1 s) := by
  have hs : size glo = 348 := rfl
  rw [hs] at h
  unfold decodeGlo
  dsimp only
  repeat first
    | rw [readU_at (by omega), Py.okBind]
    | rw [readS_at (by omega), Py.okBind]
  refine ⟨_, rfl, rfl, rfl, ?_, rfl, rfl, rfl, rfl, rfl, rfl, ?_, ⟨_, rfl, rfl⟩, ⟨_, rfl, rfl⟩, ⟨_, rfl, rfl⟩,
    ⟨_, near_of time _ ?_ ?_, rfl⟩, ⟨_, near_of time _ ?_ ?_, rfl⟩⟩
  · show ((bitsAt b (i + 15 + 12 + 2) 7 &&& 127 : Nat) : Int) = (bitsAt b (i + 15 + 12 + 2) 7 : Nat)
    rw [show 127 = 2 ^ 7 - 1 from rfl, Nat.and_two_pow_sub_one_eq_mod, Nat.mod_eq_of_lt (bitsAt_lt b _ 7)]
  · have e := status_eq ⟨_, bitsAt_lt b (i + 15 + 12 + 9 + 56 + 56 + 56 + 42 + 21) 2⟩
      ⟨_, bitsAt_lt b (i + 15 + 12 + 9 + 56 + 56 + 56 + 42 + 5) 1⟩
      ⟨_, bitsAt_lt b (i + 15 + 12 + 9 + 56 + 56 + 56) 1⟩ ⟨_, bitsAt_lt b (i + 15 + 12 + 1) 1⟩
      ⟨_, bitsAt_lt b (i + 13) 2⟩ ⟨_, bitsAt_lt b (i + 15 + 12 + 9 + 56 + 56 + 56 + 12) 2⟩
    dsimp only at e ⊢
    rw [e]
    push_cast
    rfl
  · show (0 : ℚ) ≤ (((bitsAt b (i + 15 + 12 + 2) 7 : Nat) : Int) : ℚ) * 900
    positivity
  · show (((bitsAt b (i + 15 + 12 + 2) 7 : Nat) : Int) : ℚ) * 900 ≤ 10800 + 129600
    have hq : (((bitsAt b (i + 15 + 12 + 2) 7 : Nat) : Int) : ℚ) < 2 ^ 7 := by
      exact_mod_cast bitsAt_lt b (i + 15 + 12 + 2) 7
    linarith
  · show (0 : ℚ) ≤ (((bitsAt b (i + 15) 5 : Nat) : Int) : ℚ) * 3600 + (((bitsAt b (i + 15 + 5) 6 : Nat) : Int) : ℚ) * 60 +
      (((bitsAt b (i + 15 + 11) 1 : Nat) : Int) : ℚ) * 30
    positivity
  · show (((bitsAt b (i + 15) 5 : Nat) : Int) : ℚ) * 3600 + (((bitsAt b (i + 15 + 5) 6 : Nat) : Int) : ℚ) * 60 +
      (((bitsAt b (i + 15 + 11) 1 : Nat) : Int) : ℚ) * 30 ≤ 10800 + 129600
    have h5 : (((bitsAt b (i + 15) 5 : Nat) : Int) : ℚ) < 2 ^ 5 := by exact_mod_cast bitsAt_lt b (i + 15) 5
    have h6 : (((bitsAt b (i + 15 + 5) 6 : Nat) : Int) : ℚ) < 2 ^ 6 := by exact_mod_cast bitsAt_lt b (i + 15 + 5) 6
    have h1 : (((bitsAt b (i + 15 + 11) 1 : Nat) : Int) : ℚ) < 2 ^ 1 := by exact_mod_cast bitsAt_lt b (i + 15 + 11) 1
    linarith

/-! ## The week -/

/-- the week of a GPS, QZSS or NavIC message, which gives it modulo 1024, is right iff it is in the
same 1024 weeks as the reference time -/
theorem week_right (W : Int) (time : GTime) :
    adjustweek (W % 1024) time = W ↔ W / 1024 = (time2gpst time).1 / 1024 := by
  unfold adjustweek
  omega

/-- the same for Galileo, whose week is modulo 4096 and counts from GPS week 1024 -/
theorem week_right_gal (W : Int) (time : GTime) :
    adjustweek ((W - 1024) % 4096) time = W ↔ W / 1024 = (time2gpst time).1 / 1024 := by
  unfold adjustweek
  omega

/-- at the beginning of each 1024 weeks the ephemerides of the week before get a week 1024 too late -/
theorem week_rollover (k : Nat) :
    adjustweek ((1024 * (k + 1) - 1) % 1024) (gpst2time (1024 * (k + 1)) 0) = 1024 * (k + 1) - 1 + 1024 := by
  have e : (time2gpst (gpst2time (1024 * (k + 1)) 0)).1 = 1024 * ((k : Int) + 1) := by
    unfold time2gpst gpst2time time2wk wk2time
    have h0 : truncQ 0 = 0 := by decide +kernel
    have hn : ¬ ((0 : ℚ) < -1000000000 ∨ (0 : ℚ) > 1000000000) := by norm_num
    dsimp only
    rw [if_neg hn, h0, Int.add_zero, add_sub_cancel_left, Int.tdiv_eq_ediv_of_nonneg (by positivity)]
    omega
  unfold adjustweek
  rw [e]
  omega

/-! ## Messages as the standard has them -/

/-- the fields of the orbit and clock -/
def orbitF : List F := [.sva, .af0, .af1, .crs, .crc, .cuc, .cus, .cic, .cis, .e, .sqrtA, .deln, .M0, .OMG0, .omg, .i0,
  .idot, .OMGd, .tgd, .toe, .iode]

theorem Orbit.congr {U : Units} {v v' : F → Int} {x : Eph} (h : Orbit U v x) (e : ∀ f ∈ orbitF, v f = v' f) :
    Orbit U v' x := by
  constructor
  · rw [h.sva, e _ (by decide)]
  · rw [h.af0, e _ (by decide)]
  · rw [h.af1, e _ (by decide)]
  · rw [h.crs, e _ (by decide)]
  · rw [h.crc, e _ (by decide)]
  · rw [h.cuc, e _ (by decide)]
  · rw [h.cus, e _ (by decide)]
  · rw [h.cic, e _ (by decide)]
  · rw [h.cis, e _ (by decide)]
  · rw [h.e, e _ (by decide)]
  · rw [h.A, e _ (by decide)]
  · rw [h.deln, e _ (by decide)]
  · rw [h.M0, e _ (by decide)]
  · rw [h.OMG0, e _ (by decide)]
  · rw [h.omg, e _ (by decide)]
  · rw [h.i0, e _ (by decide)]
  · rw [h.idot, e _ (by decide)]
  · rw [h.OMGd, e _ (by decide)]
  · rw [h.tgd, e _ (by decide)]
  · rw [h.toes, e _ (by decide)]
  · rw [h.iode, e _ (by decide)]

theorem orbit_gps : ∀ f ∈ orbitF, f ∈ gps.map (·.1) := by decide
theorem orbit_qzs : ∀ f ∈ orbitF, f ∈ qzs.map (·.1) := by decide
theorem orbit_fnav : ∀ f ∈ orbitF, f ∈ fnav.map (·.1) := by decide
theorem orbit_inav : ∀ f ∈ orbitF, f ∈ inav.map (·.1) := by decide
theorem orbit_irn : ∀ f ∈ orbitF, f ∈ irn.map (·.1) := by decide

/-- every GPS ephemeris in a message of the standard layout, with a week in the reference 1024 weeks,
is recovered -/
theorem gps_message (time : GTime) {b : BitBuf} {i : Nat} {v : F → Int} {W : Int} (hA : At b i (encode gps v))
    (hF : Fit gps v) (hw : v .week = W % 1024) (hW : W / 1024 = (time2gpst time).1 / 1024) :
    ∃ x, decodeGps time b i = .ok (i + 476, x) ∧ Orbit gpsU v x ∧ x.af2 = v .af2 * (1 / 2 ^ 55) ∧
      x.week = W ∧ x.toe = gpst2time W (v .toe * 16) ∧ x.toc = gpst2time W (v .toc * 16) ∧
      x.sat = prn2sat .gps (v .prn) ∧ x.svh = v .svh ∧ x.iodc = v .iodc ∧ x.code = v .code ∧ x.flag = v .flag ∧
      x.fit = v .fit := by
  have hl := hA.le
  rw [encode_length] at hl
  have hn := num_encode gps v b i hA hF (by decide)
  obtain ⟨x, e, hO, hT, h2, hs, hk, hc, hi, hv, hf, ht, -⟩ := gps_fields time hl
  have hk' : x.week = W := by
    rw [hk, hn _ (by decide), hw]
    exact (week_right W time).2 hW
  refine ⟨x, e, hO.congr fun f hf => hn f (orbit_gps f hf), ?_, hk', ?_, ?_, ?_, ?_, ?_, ?_, ?_, ?_⟩
  · rw [h2, hn _ (by decide)]
  · rw [hT.toe, hk', hn _ (by decide)]; rfl
  · rw [hT.toc, hk', hn _ (by decide)]; rfl
  · rw [hs, hn _ (by decide)]
  · rw [hv, hn _ (by decide)]
  · rw [hi, hn _ (by decide)]
  · rw [hc, hn _ (by decide)]
  · rw [hf, hn _ (by decide)]
  · rw [ht, hn _ (by decide)]

/-- the same for QZSS; the standard numbers the satellites from 1 -/
theorem qzs_message (time : GTime) {b : BitBuf} {i : Nat} {v : F → Int} {W : Int} (hA : At b i (encode qzs v))
    (hF : Fit qzs v) (hw : v .week = W % 1024) (hW : W / 1024 = (time2gpst time).1 / 1024) :
    ∃ x, decodeQzs time b i = .ok (i + 473, x) ∧ Orbit gpsU v x ∧ x.af2 = v .af2 * (1 / 2 ^ 55) ∧
      x.week = W ∧ x.toe = gpst2time W (v .toe * 16) ∧ x.toc = gpst2time W (v .toc * 16) ∧
      x.sat = prn2sat .qzs (v .prn + 192) ∧ x.svh = v .svh ∧ x.iodc = v .iodc ∧ x.code = v .code ∧
      x.fit = v .fit := by
  have hl := hA.le
  rw [encode_length] at hl
  have hn := num_encode qzs v b i hA hF (by decide)
  obtain ⟨x, e, hO, hT, h2, hs, hk, hc, hi, hv, ht, -⟩ := qzs_fields time hl
  have hk' : x.week = W := by
    rw [hk, hn _ (by decide), hw]
    exact (week_right W time).2 hW
  refine ⟨x, e, hO.congr fun f hf => hn f (orbit_qzs f hf), ?_, hk', ?_, ?_, ?_, ?_, ?_, ?_, ?_⟩
  · rw [h2, hn _ (by decide)]
  · rw [hT.toe, hk', hn _ (by decide)]; rfl
  · rw [hT.toc, hk', hn _ (by decide)]; rfl
  · rw [hs, hn _ (by decide)]
  · rw [hv, hn _ (by decide)]
  · rw [hi, hn _ (by decide)]
  · rw [hc, hn _ (by decide)]
  · rw [ht, hn _ (by decide)]

/-- the same for Galileo I/NAV -/
theorem inav_message (time : GTime) {b : BitBuf} {i : Nat} {v : F → Int} {W : Int} (hA : At b i (encode inav v))
    (hF : Fit inav v) (hw : v .week = (W - 1024) % 4096) (hW : W / 1024 = (time2gpst time).1 / 1024) :
    ∃ x, decodeGal 1046 time b i = .ok (i + 492, x) ∧ Orbit galU v x ∧ x.af2 = v .af2 * (1 / 2 ^ 59) ∧
      x.week = W ∧ x.toe = gpst2time W (v .toe * 60) ∧ x.toc = gpst2time W (v .toc * 60) ∧
      x.sat = prn2sat .gal (v .prn) ∧ x.svh = v .hs * 128 + v .dvs * 64 + v .hs1 * 2 + v .dvs1 ∧
      x.tgdB = v .tgdB * (1 / 2 ^ 32) ∧ x.mode = 0 := by
  have hl := hA.le
  rw [encode_length] at hl
  have hn := num_encode inav v b i hA hF (by decide)
  obtain ⟨x, e, hO, hT, h2, hs, hk, -, hv, -, hb, hm⟩ := inav_fields time hl
  have hk' : x.week = W := by
    rw [hk, hn _ (by decide), hw]
    exact (week_right_gal W time).2 hW
  refine ⟨x, e, hO.congr fun f hf => hn f (orbit_inav f hf), ?_, hk', ?_, ?_, ?_, ?_, ?_, hm⟩
  · rw [h2, hn _ (by decide)]
  · rw [hT.toe, hk', hn _ (by decide)]; rfl
  · rw [hT.toc, hk', hn _ (by decide)]; rfl
  · rw [hs, hn _ (by decide)]
  · rw [hv, hn _ (by decide), hn _ (by decide), hn _ (by decide), hn _ (by decide)]
  · rw [hb, hn _ (by decide)]

/-- the same for Galileo F/NAV, but for the place of the health bits -/
theorem fnav_message (time : GTime) {b : BitBuf} {i : Nat} {v : F → Int} {W : Int} (hA : At b i (encode fnav v))
    (hF : Fit fnav v) (hw : v .week = (W - 1024) % 4096) (hW : W / 1024 = (time2gpst time).1 / 1024) :
    ∃ x, decodeGal 1045 time b i = .ok (i + 484, x) ∧ Orbit galU v x ∧ x.af2 = v .af2 * (1 / 2 ^ 59) ∧
      x.week = W ∧ x.toe = gpst2time W (v .toe * 60) ∧ x.toc = gpst2time W (v .toc * 60) ∧
      x.sat = prn2sat .gal (v .prn) ∧ x.svh = v .hs * 128 + v .dvs * 64 ∧ x.mode = 1 := by
  have hl := hA.le
  rw [encode_length] at hl
  have hn := num_encode fnav v b i hA hF (by decide)
  obtain ⟨x, e, hO, hT, h2, hs, hk, -, hv, -, -, hm⟩ := fnav_fields time hl
  have hk' : x.week = W := by
    rw [hk, hn _ (by decide), hw]
    exact (week_right_gal W time).2 hW
  refine ⟨x, e, hO.congr fun f hf => hn f (orbit_fnav f hf), ?_, hk', ?_, ?_, ?_, ?_, hm⟩
  · rw [h2, hn _ (by decide)]
  · rw [hT.toe, hk', hn _ (by decide)]; rfl
  · rw [hT.toc, hk', hn _ (by decide)]; rfl
  · rw [hs, hn _ (by decide)]
  · rw [hv, hn _ (by decide), hn _ (by decide)]

/-- the same for NavIC, but for the drift rate, which is right only if it is zero with the clock offset
or equals it as a number -/
theorem irn_message (time : GTime) {b : BitBuf} {i : Nat} {v : F → Int} {W : Int} (hA : At b i (encode irn v))
    (hF : Fit irn v) (hw : v .week = W % 1024) (hW : W / 1024 = (time2gpst time).1 / 1024) :
    ∃ x, decodeIrn time b i = .ok (i + 470, x) ∧ Orbit irnU v x ∧
      (x.af2 = v .af2 * (1 / 2 ^ 55) ↔ v .af0 = v .af2) ∧
      x.week = W ∧ x.toe = gpst2time W (v .toe * 16) ∧ x.toc = gpst2time W (v .toc * 16) ∧
      x.sat = prn2sat .irn (v .prn) ∧ x.svh = v .svh := by
  have hl := hA.le
  rw [encode_length] at hl
  have hn := num_encode irn v b i hA hF (by decide)
  obtain ⟨x, e, hO, hT, hs, hk, -, hv, -, h2⟩ := irn_fields time hl
  have hk' : x.week = W := by
    rw [hk, hn _ (by decide), hw]
    exact (week_right W time).2 hW
  refine ⟨x, e, hO.congr fun f hf => hn f (orbit_irn f hf), ?_, hk', ?_, ?_, ?_, ?_⟩
  · rw [h2, hn _ (by decide)]
    constructor
    · intro h
      have h' := mul_right_cancel₀ (show (1 / 2 ^ 55 : ℚ) ≠ 0 by norm_num) h
      exact_mod_cast h'
    · intro h; rw [h]
  · rw [hT.toe, hk', hn _ (by decide)]; rfl
  · rw [hT.toc, hk', hn _ (by decide)]; rfl
  · rw [hs, hn _ (by decide)]
  · rw [hv, hn _ (by decide)]

/-- what is right of a BeiDou ephemeris in a message of the standard layout; the root of the semi-major
axis which is decoded is given by the last line -/
theorem bds_message (time : GTime) {b : BitBuf} {i : Nat} {v : F → Int} (hA : At b i (encode (bds 18) v))
    (hF : Fit (bds 18) v) :
    ∃ x, decodeBds time b i = .ok (i + 497, x) ∧ x.sat = prn2sat .bds (v .prn) ∧ x.week = v .week ∧
      x.toc = bdt2gpst (bdt2time (v .week) (v .toc * 8)) ∧ x.sva = v .sva ∧ x.iode = v .iode ∧ x.iodc = v .iodc ∧
      x.af0 = v .af0 * (1 / 2 ^ 33) ∧ x.af1 = v .af1 * (1 / 2 ^ 50) ∧
      (x.af2 = v .af2 * (1 / 2 ^ 66) ↔ v .af0 = v .af2) ∧ x.crs = v .crs * (1 / 2 ^ 6) ∧
      x.deln = v .deln * (1 / 2 ^ 43) * sc2rad ∧ x.M0 = v .M0 * (1 / 2 ^ 31) * sc2rad ∧
      x.cuc = v .cuc * (1 / 2 ^ 31) ∧ x.e = v .e * (1 / 2 ^ 33) ∧ x.idot = v .idot * (1 / 2 ^ 43) * sc2rad ∧
      x.A = (((v .cus % 4 * 2 ^ 30 + v .sqrtA / 4 : Int) : ℚ) * (1 / 2 ^ 19)) ^ 2 := by
  have hl := hA.le
  rw [encode_length] at hl
  have hn := num_encode (bds 18) v b i hA hF (by decide)
  have hl' : i + size (bds 16) ≤ b.length := le_trans (by show i + 497 ≤ i + 499; omega) hl
  obtain ⟨x, e, hO, -, hT, -, hs, hk, hi, -, -, -, h2⟩ := bds_fields time hl'
  have hh : ∀ f, f ∈ ((bds 0).take 15).map (·.1) → f ∈ (bds 18).map (·.1) → num (bds 16) b i f = v f :=
    fun f h1 h2 => (bds_head b i 16 f h1).trans (hn f h2)
  have hk' : x.week = v .week := by rw [hk, hh _ (by decide) (by decide)]
  refine ⟨x, e, ?_, hk', ?_, ?_, ?_, ?_, ?_, ?_, ?_, ?_, ?_, ?_, ?_, ?_, ?_, ?_⟩
  · rw [hs, hh _ (by decide) (by decide)]
  · rw [hT, hk', hh _ (by decide) (by decide)]
  · rw [hO.sva, hh _ (by decide) (by decide)]
  · rw [hO.iode, hh _ (by decide) (by decide)]
  · rw [hi, hh _ (by decide) (by decide)]
  · rw [hO.af0, hh _ (by decide) (by decide)]; rfl
  · rw [hO.af1, hh _ (by decide) (by decide)]; rfl
  · rw [h2, hh _ (by decide) (by decide)]
    constructor
    · intro h
      have h' := mul_right_cancel₀ (show (1 / 2 ^ 66 : ℚ) ≠ 0 by norm_num) h
      exact_mod_cast h'
    · intro h; rw [h]
  · rw [hO.crs, hh _ (by decide) (by decide)]; rfl
  · rw [hO.deln, hh _ (by decide) (by decide)]; rfl
  · rw [hO.M0, hh _ (by decide) (by decide)]
  · rw [hO.cuc, hh _ (by decide) (by decide)]; rfl
  · rw [hO.e, hh _ (by decide) (by decide)]
  · rw [hO.idot, hh _ (by decide) (by decide)]
  · rw [hO.A, bds_sqrtA hl, hn _ (by decide), hn _ (by decide)]

/-! ## Examples -/

/-- an ephemeris: some values of each kind -/
def sample : F → Int
  | .prn => 7 | .week => 100 | .idot => -5 | .af0 => -123456 | .crs => -100 | .e => 12345678
  | .sqrtA => 2701131776 | .toe => 3600 | .toc => 3600 | .M0 => -2147483648 | .svh => 1 | .cus => 3 | _ => 0

instance (L : Layout) (v : F → Int) : Decidable (Fit L v) :=
  inferInstanceAs (Decidable (∀ x ∈ L, 0 < x.2.1 ∧
    (if x.2.2 then -(2 ^ (x.2.1 - 1) : Int) ≤ v x.1 ∧ v x.1 < 2 ^ (x.2.1 - 1) else 0 ≤ v x.1 ∧ v x.1 < 2 ^ x.2.1)))

example : Fit gps sample ∧ Fit qzs sample ∧ Fit inav sample ∧ Fit fnav sample ∧ Fit irn sample ∧
    Fit (bds 18) sample := by decide +kernel

/-- GPS week 2148 is 100 modulo 1024; the message may start at any bit -/
example : ∃ x, decodeGps (gpst2time 2150 0) ([true, true, false] ++ encode gps sample ++ [true]) 3 = .ok (479, x) ∧
    x.week = 2148 ∧ x.A = (2701131776 * (1 / 2 ^ 19)) ^ 2 ∧ x.M0 = -sc2rad := by
  have hA := At.intro [true, true, false] (encode gps sample) [true]
  obtain ⟨x, e, hO, -, hw, -⟩ := gps_message (gpst2time 2150 0) (W := 2148) hA (by decide +kernel) rfl (by decide +kernel)
  refine ⟨x, e, hw, hO.A, ?_⟩
  rw [hO.M0]
  show ((-2147483648 : Int) : ℚ) * (1 / 2 ^ 31) * sc2rad = -sc2rad
  norm_num

/-- the semi-major axis of a BeiDou message comes out wrong: its root 5152.0 reads as 7432.0 -/
example : ∃ x, decodeBds (gpst2time 2150 0) (encode (bds 18) sample) 0 = .ok (497, x) ∧ x.A = 7432 ^ 2 ∧
    (sample .sqrtA * (1 / 2 ^ 19) : ℚ) = 5152 := by
  have hA : At (encode (bds 18) sample) 0 (encode (bds 18) sample) := by
    have := At.intro [] (encode (bds 18) sample) []
    rwa [List.nil_append, List.append_nil] at this
  obtain ⟨x, e, -, -, -, -, -, -, -, -, -, -, -, -, -, -, -, h⟩ := bds_message (gpst2time 2150 0) hA (by decide +kernel)
  refine ⟨x, e, ?_, ?_⟩
  · rw [h]
    show (((3 % 4 * 2 ^ 30 + 2701131776 / 4 : Int) : ℚ) * (1 / 2 ^ 19)) ^ 2 = 7432 ^ 2
    norm_num
  · show ((2701131776 : Int) : ℚ) * (1 / 2 ^ 19) = 5152
    norm_num

/-- GLONASS: a position of -1 unit is read as the most negative number plus one -/
example : intAt (natToBits 27 (2 ^ 26 + 1)) 0 27 = -67108863 := by
  have hA : At (natToBits 27 (2 ^ 26 + 1)) 0 (natToBits 27 (2 ^ 26 + 1)) := by
    have := At.intro [] (natToBits 27 (2 ^ 26 + 1)) []
    rwa [List.nil_append, List.append_nil] at this
  exact sign_magnitude (w := 27) (X := -1) (by decide) (by decide) hA

/-- the first hour of GPS week 2048 with an ephemeris of week 2047 -/
example : adjustweek 1023 (gpst2time 2048 0) = 3071 := week_rollover 1

end Verif.C73
