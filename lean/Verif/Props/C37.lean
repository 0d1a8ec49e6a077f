import Verif.Lemmas.Rawnav
import Mathlib.Tactic.NormNum
import Mathlib.Tactic.IntervalCases
import Mathlib.Analysis.Real.Pi.Bounds
/-!
# C37 Legacy GPS ephemeris is assembled from one data set
-/

namespace Verif.C37
open Verif.Rawnav Verif.Time
open Verif.Sat (Sys sat2prn)
open Verif.C36 (field field_length readU_field readS_field)

/-! ## Specification

A sub-frame is stored as ten 32-bit containers, each with two padding bits followed by the 30 bits
of a word. -/

/-- a semicircle is the interface value of pi: 13 decimals -/
theorem semicircle : |(sc2rad : ℝ) - Real.pi| < 1 / 10 ^ 13 := by
  have h1 := Real.pi_gt_d20
  have h2 := Real.pi_lt_d20
  unfold sc2rad
  push_cast
  rw [abs_lt]
  constructor <;> norm_num at h1 h2 ⊢ <;> linarith

/-- bits `o … o+n-1` of word `w` (counted from 1) -/
def word (m : BitBuf) (w o n : Nat) : List Bool := field m (32 * (w - 1) + 2 + o) n
/-- unsigned / two's-complement value of a bit string -/
def uval (l : List Bool) : Nat := bitsToNat l
def sval (l : List Bool) : Int := toSigned l.length (bitsToNat l)

/-- the sub-frame begins with the preamble 10001011 -/
def framed (m : BitBuf) : Prop := uval (word m 1 0 8) = 0x8b
instance (m : BitBuf) : Decidable (framed m) := by unfold framed; infer_instance
/-- sub-frame number -/
def sfid (m : BitBuf) : Nat := uval (word m 2 19 3)

/-- a call of the decoder -/
structure Call where
  week : Int
  sat : Int
  msg : BitBuf

/-- the last sub-frame number `k` received from a satellite -/
def last (cs : List Call) (sat : Int) (k : Nat) : Option BitBuf :=
  ((cs.filter fun c => c.sat = sat ∧ framed c.msg ∧ sfid c.msg = k).getLast?).map (·.msg)

/-- the issue of data of the three sub-frames agree -/
def sameIssue (m1 m2 m3 : BitBuf) : Prop :=
  word m2 3 0 8 = word m3 10 0 8 ∧ word m2 3 0 8 = word m1 8 0 8
instance (m1 m2 m3 : BitBuf) : Decidable (sameIssue m1 m2 m3) := by unfold sameIssue; infer_instance

/-- URA index to metres (RINEX) -/
def uraTable : List ℚ :=
  [2, 28 / 10, 4, 57 / 10, 8, 113 / 10, 16, 32, 64, 128, 256, 512, 1024, 2048, 4096, 8192]

/-- ephemeris parameters: words, bits and scale factors of the interface document -/
def ephOf (week sat : Int) (m1 m2 m3 : BitBuf) : Eph :=
  let tow : ℚ := uval (word m1 2 0 17) * 6
  let wn := week.fdiv 1024 * 1024 + uval (word m1 3 0 10)
  let toc : ℚ := uval (word m1 8 8 16) * 16
  let wk := if toc < tow - 302400 then wn + 1 else if toc > tow + 302400 then wn - 1 else wn
  let toes : ℚ := uval (word m2 10 0 16) * 16
  { sat := sat, week := wk, mode := 0
    code := uval (word m1 3 10 2), svh := uval (word m1 3 16 6), l2p := uval (word m1 4 0 1)
    sva := uraTable[uval (word m1 3 12 4)]?
    iodc := uval (word m1 3 22 2 ++ word m1 8 0 8)
    tgd := sval (word m1 7 16 8) * (1 / 2 ^ 31)
    af2 := sval (word m1 9 0 8) * (1 / 2 ^ 55)
    af1 := sval (word m1 9 8 16) * (1 / 2 ^ 43)
    af0 := sval (word m1 10 0 22) * (1 / 2 ^ 31)
    iode := uval (word m2 3 0 8)
    crs := sval (word m2 3 8 16) * (1 / 2 ^ 5)
    deln := sval (word m2 4 0 16) * (1 / 2 ^ 43) * sc2rad
    M0 := sval (word m2 4 16 8 ++ word m2 5 0 24) * (1 / 2 ^ 31) * sc2rad
    cuc := sval (word m2 6 0 16) * (1 / 2 ^ 29)
    e := sval (word m2 6 16 8 ++ word m2 7 0 24) * (1 / 2 ^ 33)
    cus := sval (word m2 8 0 16) * (1 / 2 ^ 29)
    A := (uval (word m2 8 16 8 ++ word m2 9 0 24) * (1 / 2 ^ 19)) ^ 2
    toes := toes
    cic := sval (word m3 3 0 16) * (1 / 2 ^ 29)
    OMG0 := sval (word m3 3 16 8 ++ word m3 4 0 24) * (1 / 2 ^ 31) * sc2rad
    cis := sval (word m3 5 0 16) * (1 / 2 ^ 29)
    i0 := sval (word m3 5 16 8 ++ word m3 6 0 24) * (1 / 2 ^ 31) * sc2rad
    crc := sval (word m3 7 0 16) * (1 / 2 ^ 5)
    omg := sval (word m3 7 16 8 ++ word m3 8 0 24) * (1 / 2 ^ 31) * sc2rad
    OMGd := sval (word m3 9 0 24) * (1 / 2 ^ 43) * sc2rad
    idot := sval (word m3 10 8 14) * (1 / 2 ^ 43) * sc2rad
    toc := gpst2time wk toc, toe := gpst2time wk toes
    tot := bdt2time wn tow }

/-- what a call must return after earlier calls `cs` -/
def result (cs : List Call) (c : Call) : Option Eph :=
  if framed c.msg ∧ ((sat2prn c.sat).1 = .gps ∨ (sat2prn c.sat).1 = .qzs) then
    match last (cs ++ [c]) c.sat 1, last (cs ++ [c]) c.sat 2, last (cs ++ [c]) c.sat 3 with
    | some m1, some m2, some m3 => if sameIssue m1 m2 m3 then some (ephOf c.week c.sat m1 m2 m3) else none
    | _, _, _ => none
  else none

/-- the decoder over a list of calls -/
def run (n : Nav) : List Call → Py (Nav × List (Option Eph))
  | [] => .ok (n, [])
  | c :: cs => do
    let (n, r) ← decodeGpsLnav n c.week c.sat c.msg
    let (n, rs) ← run n cs
    return (n, r :: rs)

/-! ## Reading the buffer -/

theorem merge_S {f g : List Bool} (hf : f.length = 8) (hg : g.length = 24) :
    mergeS (bitsToNat f) (bitsToNat g) = .ok (sval (f ++ g)) := by
  unfold mergeS
  have ef := natToBits_bitsToNat f
  have eg := natToBits_bitsToNat g
  rw [hf] at ef
  rw [hg] at eg
  rw [ef, eg, readS_field (by rw [List.length_append]; omega)]
  unfold field sval
  rw [List.drop_zero, List.take_of_length_le (by rw [List.length_append]; omega), List.length_append, hf, hg]

theorem merge_U {f g : List Bool} (hf : f.length = 8) (hg : g.length = 24) :
    mergeU (bitsToNat f) (bitsToNat g) = .ok (uval (f ++ g)) := by
  unfold mergeU
  have ef := natToBits_bitsToNat f
  have eg := natToBits_bitsToNat g
  rw [hf] at ef
  rw [hg] at eg
  rw [ef, eg, readU_field (by rw [List.length_append]; omega)]
  unfold field uval
  rw [List.drop_zero, List.take_of_length_le (by rw [List.length_append]; omega)]

/-- integer parameters of three sub-frames -/
def rawOf (m1 m2 m3 : BitBuf) : LnavRaw :=
  { tow := uval (word m1 2 0 17), wn := uval (word m1 3 0 10), code := uval (word m1 3 10 2)
    urai := uval (word m1 3 12 4), svh := uval (word m1 3 16 6), l2p := uval (word m1 4 0 1)
    tgd := sval (word m1 7 16 8), iodc := uval (word m1 3 22 2 ++ word m1 8 0 8)
    toc := uval (word m1 8 8 16), af2 := sval (word m1 9 0 8), af1 := sval (word m1 9 8 16)
    af0 := sval (word m1 10 0 22), iode := uval (word m2 3 0 8), crs := sval (word m2 3 8 16)
    deln := sval (word m2 4 0 16), M0 := sval (word m2 4 16 8 ++ word m2 5 0 24)
    cuc := sval (word m2 6 0 16), e := sval (word m2 6 16 8 ++ word m2 7 0 24)
    cus := sval (word m2 8 0 16), sqrtA := uval (word m2 8 16 8 ++ word m2 9 0 24)
    toe := uval (word m2 10 0 16), cic := sval (word m3 3 0 16)
    OMG0 := sval (word m3 3 16 8 ++ word m3 4 0 24), cis := sval (word m3 5 0 16)
    inc0 := sval (word m3 5 16 8 ++ word m3 6 0 24), crc := sval (word m3 7 0 16)
    omg := sval (word m3 7 16 8 ++ word m3 8 0 24), OMGd := sval (word m3 9 0 24)
    iode2 := uval (word m3 10 0 8), idot := sval (word m3 10 8 14) }

/-- the buffer holds three sub-frames -/
structure Holds (b : BitBuf) (m1 m2 m3 : BitBuf) : Prop where
  len : 1600 ≤ b.length
  l1 : 320 ≤ m1.length
  l2 : 320 ≤ m2.length
  l3 : 320 ≤ m3.length
  h1 : (b.drop 0).take 320 = m1.take 320
  h2 : (b.drop 320).take 320 = m2.take 320
  h3 : (b.drop 640).take 320 = m3.take 320

theorem readU1 {b m1 m2 m3 : BitBuf} (h : Holds b m1 m2 m3) {i o n : Nat} (hi : i = o) (hn : o + n ≤ 320) :
    readU b i n = .ok (bitsToNat (field m1 o n)) := by
  have := h.len
  rw [readU_field (by omega), hi, ← field_of_take h.h1 hn, Nat.zero_add]
theorem readU2 {b m1 m2 m3 : BitBuf} (h : Holds b m1 m2 m3) {i o n : Nat} (hi : i = 320 + o) (hn : o + n ≤ 320) :
    readU b i n = .ok (bitsToNat (field m2 o n)) := by
  have := h.len
  rw [readU_field (by omega), hi, ← field_of_take h.h2 hn]
theorem readU3 {b m1 m2 m3 : BitBuf} (h : Holds b m1 m2 m3) {i o n : Nat} (hi : i = 640 + o) (hn : o + n ≤ 320) :
    readU b i n = .ok (bitsToNat (field m3 o n)) := by
  have := h.len
  rw [readU_field (by omega), hi, ← field_of_take h.h3 hn]
theorem readS_of {b m : BitBuf} {i o n : Nat} (hl : o + n ≤ m.length) (h : readU b i n = .ok (bitsToNat (field m o n))) :
    readS b i n = .ok (sval (field m o n)) := by
  unfold readS
  rw [h]
  unfold sval
  rw [field_length hl]

theorem or_shift (a b : Nat) (h : a < 2 ^ 8) : a ||| b <<< 8 = b * 2 ^ 8 + a := by
  rw [Nat.or_comm, ← Nat.shiftLeft_add_eq_or_of_lt h, Nat.shiftLeft_eq]

theorem lnavRaw_spec {b m1 m2 m3 : BitBuf} (h : Holds b m1 m2 m3) : lnavRaw b = .ok (rawOf m1 m2 m3) := by
  have l1 := h.l1
  have l2 := h.l2
  have l3 := h.l3
  have u1 := fun o n (hn : o + n ≤ 320) => readU1 h (o := o) (n := n) rfl hn
  have u2 := fun o n (hn : o + n ≤ 320) => readU2 h (o := o) (n := n) rfl hn
  have u3 := fun o n (hn : o + n ≤ 320) => readU3 h (o := o) (n := n) rfl hn
  have s1 := fun o n (hn : o + n ≤ 320) => readS_of (by omega) (u1 o n hn)
  have s2 := fun o n (hn : o + n ≤ 320) => readS_of (by omega) (u2 o n hn)
  have s3 := fun o n (hn : o + n ≤ 320) => readS_of (by omega) (u3 o n hn)
  unfold lnavRaw
  have a1 := u1 (32 + 2) 17 (by omega)
  have a2 := u1 (32 * 2 + 2) 10 (by omega)
  have a3 := u1 (32 * 2 + 2 + 10) 2 (by omega)
  have a4 := u1 (32 * 2 + 2 + 12) 4 (by omega)
  have a5 := u1 (32 * 2 + 2 + 16) 6 (by omega)
  have a6 := u1 (32 * 2 + 2 + 22) 2 (by omega)
  have a7 := u1 (32 * 3 + 2) 1 (by omega)
  have a8 := s1 (32 * 6 + 2 + 16) 8 (by omega)
  have a9 := u1 (32 * 7 + 2) 8 (by omega)
  have a10 := u1 (32 * 7 + 2 + 8) 16 (by omega)
  have a11 := s1 (32 * 8 + 2) 8 (by omega)
  have a12 := s1 (32 * 8 + 2 + 8) 16 (by omega)
  have a13 := s1 (32 * 9 + 2) 22 (by omega)
  have b1 := u2 (32 * 2 + 2) 8 (by omega)
  have b2 := s2 (32 * 2 + 2 + 8) 16 (by omega)
  have b3 := s2 (32 * 3 + 2) 16 (by omega)
  have b4 := u2 (32 * 3 + 2 + 16) 8 (by omega)
  have b5 := u2 (32 * 4 + 2) 24 (by omega)
  have b6 := s2 (32 * 5 + 2) 16 (by omega)
  have b7 := u2 (32 * 5 + 2 + 16) 8 (by omega)
  have b8 := u2 (32 * 6 + 2) 24 (by omega)
  have b9 := s2 (32 * 7 + 2) 16 (by omega)
  have b10 := u2 (32 * 7 + 2 + 16) 8 (by omega)
  have b11 := u2 (32 * 8 + 2) 24 (by omega)
  have b12 := u2 (32 * 9 + 2) 16 (by omega)
  have c1 := s3 (32 * 2 + 2) 16 (by omega)
  have c2 := u3 (32 * 2 + 2 + 16) 8 (by omega)
  have c3 := u3 (32 * 3 + 2) 24 (by omega)
  have c4 := s3 (32 * 4 + 2) 16 (by omega)
  have c5 := u3 (32 * 4 + 2 + 16) 8 (by omega)
  have c6 := u3 (32 * 5 + 2) 24 (by omega)
  have c7 := s3 (32 * 6 + 2) 16 (by omega)
  have c8 := u3 (32 * 6 + 2 + 16) 8 (by omega)
  have c9 := u3 (32 * 7 + 2) 24 (by omega)
  have c10 := s3 (32 * 8 + 2) 24 (by omega)
  have c11 := u3 (32 * 9 + 2) 8 (by omega)
  have c12 := s3 (32 * 9 + 2 + 8) 14 (by omega)
  clear u1 u2 u3 s1 s2 s3
  simp only [← Nat.add_assoc] at b1 b2 b3 b4 b5 b6 b7 b8 b9 b10 b11 b12 c1 c2 c3 c4 c5 c6 c7 c8 c9 c10 c11 c12
  rw [a1, Py.okBind]
  rw [a2, Py.okBind]
  rw [a3, Py.okBind]
  rw [a4, Py.okBind]
  rw [a5, Py.okBind]
  rw [a6, Py.okBind]
  rw [a7, Py.okBind]
  rw [a8, Py.okBind]
  rw [a9, Py.okBind]
  rw [a10, Py.okBind]
  rw [a11, Py.okBind]
  rw [a12, Py.okBind]
  rw [a13, Py.okBind]
  rw [b1, Py.okBind]
  rw [b2, Py.okBind]
  rw [b3, Py.okBind]
  rw [b4, Py.okBind]
  rw [b5, Py.okBind]
  rw [merge_S (field_length (by omega)) (field_length (by omega)), Py.okBind]
  rw [b6, Py.okBind]
  rw [b7, Py.okBind]
  rw [b8, Py.okBind]
  rw [merge_S (field_length (by omega)) (field_length (by omega)), Py.okBind]
  rw [b9, Py.okBind]
  rw [b10, Py.okBind]
  rw [b11, Py.okBind]
  rw [merge_U (field_length (by omega)) (field_length (by omega)), Py.okBind]
  rw [b12, Py.okBind]
  rw [c1, Py.okBind]
  rw [c2, Py.okBind]
  rw [c3, Py.okBind]
  rw [merge_S (field_length (by omega)) (field_length (by omega)), Py.okBind]
  rw [c4, Py.okBind]
  rw [c5, Py.okBind]
  rw [c6, Py.okBind]
  rw [merge_S (field_length (by omega)) (field_length (by omega)), Py.okBind]
  rw [c7, Py.okBind]
  rw [c8, Py.okBind]
  rw [c9, Py.okBind]
  rw [merge_S (field_length (by omega)) (field_length (by omega)), Py.okBind]
  rw [c10, Py.okBind]
  rw [c11, Py.okBind]
  rw [c12, Py.okBind]
  have e : bitsToNat (field m1 (32 * 7 + 2) 8) ||| bitsToNat (field m1 (32 * 2 + 2 + 22) 2) <<< 8 =
      uval (word m1 3 22 2 ++ word m1 8 0 8) := by
    have hl := field_length (b := m1) (p := 32 * 7 + 2) (l := 8) (by omega)
    have := bitsToNat_lt (field m1 (32 * 7 + 2) 8)
    rw [hl] at this
    rw [or_shift _ _ this]
    unfold uval word
    rw [bitsToNat_append]
    show _ = _ * 2 ^ (field m1 (32 * 7 + 2) 8).length + _
    rw [hl]
  rw [e]
  rfl

theorem ura_ok (m1 : BitBuf) (h : 320 ≤ m1.length) :
    urai2sva (uval (word m1 3 12 4)) = .ok ((uraTable[uval (word m1 3 12 4)]?).getD 0) ∧
      (uraTable[uval (word m1 3 12 4)]?).isSome := by
  have hl : (word m1 3 12 4).length = 4 := field_length (by omega)
  have hb := bitsToNat_lt (word m1 3 12 4)
  rw [hl] at hb
  have hb : uval (word m1 3 12 4) < 16 := hb
  generalize uval (word m1 3 12 4) = u at *
  interval_cases u <;> exact ⟨rfl, rfl⟩

theorem lnavEph_spec (week sat : Int) {m1 m2 m3 : BitBuf} (h : 320 ≤ m1.length) :
    lnavEph week sat (rawOf m1 m2 m3) = .ok (ephOf week sat m1 m2 m3) := by
  obtain ⟨h1, h2⟩ := ura_ok m1 h
  unfold lnavEph
  show (urai2sva (uval (word m1 3 12 4)) >>= _) = _
  rw [h1, Py.okBind]
  obtain ⟨v, hv⟩ := Option.isSome_iff_exists.1 h2
  unfold ephOf
  rw [hv]
  rfl

theorem lnavTry_spec (week sat : Int) {b m1 m2 m3 : BitBuf} (h : Holds b m1 m2 m3) :
    lnavTry week sat b = .ok (if sfid m1 = 1 ∧ sfid m2 = 2 ∧ sfid m3 = 3 ∧ sameIssue m1 m2 m3 then
      some (ephOf week sat m1 m2 m3) else none) := by
  unfold lnavTry
  have r1 := readU1 h (o := 53) (n := 3) (i := 53) rfl (by omega)
  have r2 := readU2 h (o := 53) (n := 3) (i := 320 + 53) rfl (by omega)
  have r3 := readU3 h (o := 53) (n := 3) (i := 320 * 2 + 53) rfl (by omega)
  rw [r1, Py.okBind, r2, Py.okBind, r3, Py.okBind]
  show (if sfid m1 ≠ 1 ∨ sfid m2 ≠ 2 ∨ sfid m3 ≠ 3 then _ else _) = _
  by_cases c : sfid m1 ≠ 1 ∨ sfid m2 ≠ 2 ∨ sfid m3 ≠ 3
  · rw [if_pos c, if_neg (by tauto)]
    rfl
  · rw [if_neg c, lnavRaw_spec h, Py.okBind]
    have l1 := h.l1
    have l2 := h.l2
    have l3 := h.l3
    have w1 : (word m1 8 0 8).length = 8 := field_length (by omega)
    have w2 : (word m2 3 0 8).length = 8 := field_length (by omega)
    have w3 : (word m3 10 0 8).length = 8 := field_length (by omega)
    have e : (rawOf m1 m2 m3).iodc % 256 = uval (word m1 8 0 8) := by
      show uval (word m1 3 22 2 ++ word m1 8 0 8) % 256 = _
      unfold uval
      rw [bitsToNat_append, w1, show (256 : Nat) = 2 ^ 8 from rfl, Nat.mul_add_mod_self_right]
      have := bitsToNat_lt (word m1 8 0 8)
      rw [w1] at this
      exact Nat.mod_eq_of_lt this
    have iff : ((rawOf m1 m2 m3).iode ≠ (rawOf m1 m2 m3).iode2 ∨
        (rawOf m1 m2 m3).iode ≠ (rawOf m1 m2 m3).iodc % 256) ↔ ¬sameIssue m1 m2 m3 := by
      rw [e]
      show (uval (word m2 3 0 8) ≠ uval (word m3 10 0 8) ∨ uval (word m2 3 0 8) ≠ uval (word m1 8 0 8)) ↔ _
      unfold sameIssue uval
      have i1 : bitsToNat (word m2 3 0 8) = bitsToNat (word m3 10 0 8) ↔ word m2 3 0 8 = word m3 10 0 8 :=
        ⟨bitsToNat_injective (by rw [w2, w3]), fun h => by rw [h]⟩
      have i2 : bitsToNat (word m2 3 0 8) = bitsToNat (word m1 8 0 8) ↔ word m2 3 0 8 = word m1 8 0 8 :=
        ⟨bitsToNat_injective (by rw [w2, w1]), fun h => by rw [h]⟩
      rw [← i1, ← i2]
      tauto
    by_cases c2 : sameIssue m1 m2 m3
    · rw [if_neg (by rw [iff]; exact not_not.2 c2), if_pos (by tauto), lnavEph_spec week sat l1]
      rfl
    · rw [if_pos (iff.2 c2), if_neg (by tauto)]
      rfl

/-! ## Histories -/

def zeros : BitBuf := List.replicate 320 false

theorem sfid_zeros : sfid zeros = 0 := by decide

/-- the buffer of a satellite -/
def buf (n : Nav) (sat : Int) : Option BitBuf :=
  match sat2prn sat with
  | (.gps, prn) => Dict.get? n.gpsLnav (prn - 1)
  | (.qzs, prn) => Dict.get? n.qzsLnav (prn - 193)
  | _ => none

/-- satellites with a buffer -/
def Known (sat : Int) : Prop := 1 ≤ sat ∧ ((sat2prn sat).1 = .gps ∨ (sat2prn sat).1 = .qzs)

/-- the buffers hold the last sub-frames -/
def Inv (n : Nav) (cs : List Call) : Prop :=
  ∀ sat, Known sat → ∃ b, buf n sat = some b ∧
    Holds b ((last cs sat 1).getD zeros) ((last cs sat 2).getD zeros) ((last cs sat 3).getD zeros)

theorem known_iff (sat : Int) : Known sat ↔ 1 ≤ sat ∧ sat ≤ 32 ∧ sat2prn sat = (.gps, sat) ∨
    69 ≤ sat ∧ sat ≤ 85 ∧ sat2prn sat = (.qzs, sat + 124) := by
  unfold Known sat2prn Sat.maxSat Sat.irnMin Sat.sbsMin Sat.gloMin Sat.bdsMin Sat.qzsMin Sat.galMin
  by_cases c1 : sat > 233
  · simp [c1]
  by_cases c2 : sat > 219
  · simp [c1, c2]
  by_cases c3 : sat > 180
  · simp [c1, c2, c3]
  by_cases c4 : sat > 148
  · simp [c1, c2, c3, c4]
  by_cases c5 : sat > 85
  · simp [c1, c2, c3, c4, c5]
  by_cases c6 : sat > 68
  · simp only [c1, c2, c3, c4, c5, c6, if_true, if_false, Prod.mk.injEq, true_and, or_true, and_true,
      reduceCtorEq, false_and, and_false, false_or]
    omega
  by_cases c7 : sat > 32
  · simp [c1, c2, c3, c4, c5, c6, c7]
  · simp only [c1, c2, c3, c4, c5, c6, c7, if_false, and_true, reduceCtorEq, Prod.mk.injEq,
      false_and, and_false, or_false]
    omega

theorem buffers_get {n : Nat} {k : Int} (h0 : 0 ≤ k) (h1 : k < n) :
    Dict.get? (buffers n) k = some (List.replicate 1600 false) := by
  obtain ⟨m, rfl⟩ := Int.eq_ofNat_of_zero_le h0
  unfold buffers Dict.get?
  have hex : ∃ x ∈ (List.range n).map (fun k : Nat => ((k : Int), List.replicate 1600 false)), decide (x.1 = (m : Int)) = true :=
    ⟨((m : Int), List.replicate 1600 false), List.mem_map.2 ⟨m, (List.mem_range (m := m) (n := n)).2 (by omega), rfl⟩, by simp⟩
  cases hf : ((List.range n).map (fun k : Nat => ((k : Int), List.replicate 1600 false))).find?
      (fun p => decide (p.1 = (m : Int))) with
  | none =>
    obtain ⟨x, hx, hp⟩ := hex
    have := List.find?_eq_none.1 hf x hx
    exact absurd hp this
  | some x =>
    obtain ⟨i, _, rfl⟩ := List.mem_map.1 (List.mem_of_find?_eq_some hf)
    rfl

theorem inv_init : Inv Nav.init [] := by
  intro sat hs
  refine ⟨List.replicate 1600 false, ?_, ?_⟩
  · rcases (known_iff sat).1 hs with ⟨a, b, c⟩ | ⟨a, b, c⟩
    · unfold buf; rw [c]; exact buffers_get (by omega) (by omega)
    · unfold buf; rw [c]; exact buffers_get (by omega) (by omega)
  · have hz : (320 : Nat) ≤ zeros.length := by unfold zeros; rw [List.length_replicate]
    have e : ∀ k, k + 320 ≤ 1600 → ((List.replicate 1600 false).drop k).take 320 = zeros.take 320 := by
      intro k hk
      rw [List.drop_replicate, List.take_replicate]
      unfold zeros
      rw [List.take_replicate]
      congr 1
      omega
    exact ⟨by rw [List.length_replicate], hz, hz, hz, e 0 (by omega), e 320 (by omega), e 640 (by omega)⟩

theorem last_append (cs : List Call) (c : Call) (sat : Int) (k : Nat) :
    last (cs ++ [c]) sat k = if c.sat = sat ∧ framed c.msg ∧ sfid c.msg = k then some c.msg else last cs sat k := by
  unfold last
  rw [List.filter_append]
  by_cases h : c.sat = sat ∧ framed c.msg ∧ sfid c.msg = k
  · rw [if_pos h, List.filter_cons, if_pos (by simpa using h)]
    simp
  · rw [if_neg h, List.filter_cons, if_neg (by simpa using h)]
    simp

theorem last_sfid {cs : List Call} {sat : Int} {k : Nat} {m : BitBuf} (h : last cs sat k = some m) : sfid m = k := by
  unfold last at h
  rw [Option.map_eq_some_iff] at h
  obtain ⟨c, hc, rfl⟩ := h
  have := List.mem_of_getLast? hc
  have := (List.mem_filter.1 this).2
  simp only [decide_eq_true_eq] at this
  exact this.2.2

/-- storing in the buffer of one satellite -/
theorem inv_step {n n' : Nav} {cs : List Call} {c : Call} {b : BitBuf} (hi : Inv n cs) (hk : Known c.sat)
    (hm : 320 ≤ c.msg.length) (hf : framed c.msg) (hb : buf n c.sat = some b)
    (h1 : buf n' c.sat = some (lnavStore b (sfid c.msg) c.msg))
    (h2 : ∀ s, Known s → s ≠ c.sat → buf n' s = buf n s) : Inv n' (cs ++ [c]) := by
  intro sat hs
  by_cases e : sat = c.sat
  · subst e
    obtain ⟨b', hb', hh⟩ := hi c.sat hk
    rw [hb] at hb'
    cases hb'
    have hsid : sfid c.msg < 8 := by
      have := bitsToNat_lt (word c.msg 2 19 3)
      have hl : (word c.msg 2 19 3).length = 3 := field_length (by omega)
      rw [hl] at this
      exact this
    obtain ⟨s1, s2⟩ := lnavStore_spec hh.len hm hsid
    refine ⟨_, h1, ?_⟩
    have key : ∀ k, (last (cs ++ [c]) c.sat k).getD zeros =
        if sfid c.msg = k then c.msg else (last cs c.sat k).getD zeros := by
      intro k
      rw [last_append]
      by_cases ck : sfid c.msg = k
      · rw [if_pos ⟨rfl, hf, ck⟩, if_pos ck]; rfl
      · rw [if_neg (by tauto), if_neg ck]
    rw [key 1, key 2, key 3]
    have t0 := s2 0 (by omega)
    have t1 := s2 1 (by omega)
    have t2 := s2 2 (by omega)
    simp only [Nat.mul_zero, Nat.mul_one, Nat.zero_add, Nat.reduceAdd, Nat.reduceMul] at t0 t1 t2
    have q1 := hh.h1
    have q2 := hh.h2
    have q3 := hh.h3
    refine ⟨s1, ?_, ?_, ?_, ?_, ?_, ?_⟩
    · by_cases ck : sfid c.msg = 1
      · rw [if_pos ck]; exact hm
      · rw [if_neg ck]; exact hh.l1
    · by_cases ck : sfid c.msg = 2
      · rw [if_pos ck]; exact hm
      · rw [if_neg ck]; exact hh.l2
    · by_cases ck : sfid c.msg = 3
      · rw [if_pos ck]; exact hm
      · rw [if_neg ck]; exact hh.l3
    · rw [t0]
      by_cases ck : sfid c.msg = 1
      · rw [if_pos ck, if_pos ck]
      · rw [if_neg ck, if_neg ck]; exact q1
    · rw [t1]
      by_cases ck : sfid c.msg = 2
      · rw [if_pos ck, if_pos ck]
      · rw [if_neg ck, if_neg ck]; exact q2
    · rw [t2]
      by_cases ck : sfid c.msg = 3
      · rw [if_pos ck, if_pos ck]
      · rw [if_neg ck, if_neg ck]; exact q3
  · obtain ⟨b', hb', hh⟩ := hi sat hs
    refine ⟨b', by rw [h2 sat hs e]; exact hb', ?_⟩
    have key : ∀ k, last (cs ++ [c]) sat k = last cs sat k := by
      intro k
      rw [last_append, if_neg (by tauto)]
    rw [key, key, key]
    exact hh

theorem inv_same {n : Nav} {cs : List Call} {c : Call} (hi : Inv n cs) (h : ¬framed c.msg ∨ ¬Known c.sat) :
    Inv n (cs ++ [c]) := by
  intro sat hs
  obtain ⟨b, hb, hh⟩ := hi sat hs
  refine ⟨b, hb, ?_⟩
  have key : ∀ k, last (cs ++ [c]) sat k = last cs sat k := by
    intro k
    rw [last_append, if_neg]
    rintro ⟨e, f, _⟩
    rcases h with h | h
    · exact h f
    · rw [e] at h; exact h hs
  rw [key, key, key]
  exact hh

/-- the decision in terms of the last sub-frames -/
theorem try_result {n : Nav} {cs : List Call} {c : Call} {b : BitBuf} (hi : Inv n (cs ++ [c])) (hk : Known c.sat)
    (hf : framed c.msg) (hb : buf n c.sat = some b) :
    lnavTry c.week c.sat b = .ok (result cs c) := by
  obtain ⟨b', hb', hh⟩ := hi c.sat hk
  rw [hb] at hb'
  cases hb'
  rw [lnavTry_spec c.week c.sat hh]
  unfold result
  rw [if_pos (show framed c.msg ∧ _ from ⟨hf, hk.2⟩)]
  cases e1 : last (cs ++ [c]) c.sat 1 with
  | none => rw [if_neg]; intro h; have := h.1; simp only [Option.getD_none, sfid_zeros] at this; omega
  | some m1 =>
    cases e2 : last (cs ++ [c]) c.sat 2 with
    | none => rw [if_neg]; intro h; have := h.2.1; simp only [Option.getD_none, sfid_zeros] at this; omega
    | some m2 =>
      cases e3 : last (cs ++ [c]) c.sat 3 with
      | none => rw [if_neg]; intro h; have := h.2.2.1; simp only [Option.getD_none, sfid_zeros] at this; omega
      | some m3 =>
        simp only [Option.getD_some]
        rw [show sfid m1 = 1 from last_sfid e1, show sfid m2 = 2 from last_sfid e2,
          show sfid m3 = 3 from last_sfid e3]
        simp only [true_and]

/-- calls with whole sub-frames -/
def Good (c : Call) : Prop := 320 ≤ c.msg.length ∧ 1 ≤ c.sat

theorem step_spec {n : Nav} {cs : List Call} {c : Call} (hi : Inv n cs) (hg : Good c) :
    ∃ n', decodeGpsLnav n c.week c.sat c.msg = .ok (n', result cs c) ∧ Inv n' (cs ++ [c]) := by
  obtain ⟨hm, h1⟩ := hg
  unfold decodeGpsLnav
  have rp : readU c.msg 2 8 = .ok (uval (word c.msg 1 0 8)) := readU_field (by omega)
  have rs : readU c.msg 53 3 = .ok (sfid c.msg) := readU_field (by omega)
  generalize hsp : sat2prn c.sat = sp
  obtain ⟨sys, prn⟩ := sp
  simp only
  rw [rp, Py.okBind]
  by_cases hf : framed c.msg
  · rw [if_neg (show ¬(uval (word c.msg 1 0 8) ≠ 0x8b) from not_not.2 hf)]
    by_cases hk : Known c.sat
    · obtain ⟨b, hb, hh⟩ := hi c.sat hk
      rcases (known_iff c.sat).1 hk with ⟨a1, a2, a3⟩ | ⟨a1, a2, a3⟩
      · rw [a3] at hsp
        cases hsp
        have hb' : Dict.get? n.gpsLnav (c.sat - 1) = some b := by
          unfold buf at hb; rw [a3] at hb; exact hb
        have hg : Dict.getItem n.gpsLnav (c.sat - 1) = .ok b := by unfold Dict.getItem; rw [hb']
        simp only
        rw [hg, Py.okBind, rs, Py.okBind]
        have hi' : Inv { n with gpsLnav := n.gpsLnav.set (c.sat - 1) (lnavStore b (sfid c.msg) c.msg) } (cs ++ [c]) := by
          refine inv_step hi hk hm hf hb ?_ ?_
          · unfold buf; rw [a3]; simp
          · intro s hs hne
            unfold buf
            rcases (known_iff s).1 hs with ⟨d1, d2, d3⟩ | ⟨d1, d2, d3⟩
            · rw [d3]; exact Dict.get?_set_ne _ _ (by omega)
            · rw [d3]
        rw [try_result hi' hk hf (by unfold buf; rw [a3]; simp), Py.okBind]
        exact ⟨_, rfl, hi'⟩
      · rw [a3] at hsp
        cases hsp
        have hb' : Dict.get? n.qzsLnav (c.sat + 124 - 193) = some b := by
          unfold buf at hb; rw [a3] at hb; exact hb
        have hg : Dict.getItem n.qzsLnav (c.sat + 124 - 193) = .ok b := by unfold Dict.getItem; rw [hb']
        simp only
        rw [hg, Py.okBind, rs, Py.okBind]
        have hi' : Inv { n with qzsLnav := n.qzsLnav.set (c.sat + 124 - 193) (lnavStore b (sfid c.msg) c.msg) }
            (cs ++ [c]) := by
          refine inv_step hi hk hm hf hb ?_ ?_
          · unfold buf; rw [a3]; simp
          · intro s hs hne
            unfold buf
            rcases (known_iff s).1 hs with ⟨d1, d2, d3⟩ | ⟨d1, d2, d3⟩
            · rw [d3]
            · rw [d3]; exact Dict.get?_set_ne _ _ (by omega)
        rw [try_result hi' hk hf (by unfold buf; rw [a3]; simp), Py.okBind]
        exact ⟨_, rfl, hi'⟩
    · have hns : ¬((sat2prn c.sat).1 = .gps ∨ (sat2prn c.sat).1 = .qzs) := fun h => hk ⟨h1, h⟩
      have hr : result cs c = none := by unfold result; rw [if_neg (by tauto)]
      rw [hsp] at hns
      refine ⟨n, ?_, inv_same hi (Or.inr hk)⟩
      rw [hr]
      cases sys with
      | gps => simp at hns
      | qzs => simp at hns
      | none => rfl
      | gal => rfl
      | bds => rfl
      | glo => rfl
      | sbs => rfl
      | irn => rfl
  · rw [if_pos (show uval (word c.msg 1 0 8) ≠ 0x8b from hf)]
    have hr : result cs c = none := by unfold result; rw [if_neg (by tauto)]
    exact ⟨n, by rw [hr]; rfl, inv_same hi (Or.inl hf)⟩

theorem run_spec : ∀ (cs pre : List Call) (n : Nav), Inv n pre → (∀ c ∈ cs, Good c) →
    ∃ n' rs, run n cs = .ok (n', rs) ∧ Inv n' (pre ++ cs) ∧ rs.length = cs.length ∧
      ∀ i (hi : i < cs.length), rs[i]? = some (result (pre ++ cs.take i) cs[i])
  | [], pre, n, hi, _ => ⟨n, [], rfl, by simpa using hi, rfl, fun i hi => absurd hi (by simp)⟩
  | c :: cs, pre, n, hi, hg => by
    obtain ⟨n1, e1, hi1⟩ := step_spec hi (hg c (by simp))
    obtain ⟨n2, rs, e2, hi2, hl, hr⟩ := run_spec cs (pre ++ [c]) n1 hi1 (fun c' h => hg c' (by simp [h]))
    refine ⟨n2, result pre c :: rs, ?_, by simpa using hi2, by simp [hl], ?_⟩
    · unfold run
      rw [e1, Py.okBind]
      simp only
      rw [e2]
      rfl
    · intro i hi
      cases i with
      | zero => simp
      | succ i =>
        have := hr i (by simpa using hi)
        simpa using this

/-- **Main theorem.** Over every sequence of received sub-frames (any satellites, any content, any
sub-frame identifiers) the decoder never raises, and each call returns an ephemeris exactly when
the last sub-frames 1, 2 and 3 of that satellite carry one issue of data; the ephemeris is the one
of these three sub-frames. -/
theorem lnav_history (cs : List Call) (h : ∀ c ∈ cs, Good c) :
    ∃ n rs, run Nav.init cs = .ok (n, rs) ∧ rs.length = cs.length ∧
      ∀ i (hi : i < cs.length), rs[i]? = some (result (cs.take i) cs[i]) := by
  obtain ⟨n, rs, h1, _, h2, h3⟩ := run_spec cs [] Nav.init inv_init h
  exact ⟨n, rs, h1, h2, by simpa using h3⟩

/-- sub-frames with another identifier (0, 4 … 7) do not influence the ephemeris of any later call -/
theorem other_ids_ignored (cs cs' : List Call) (x c : Call) (h : sfid x.msg ∉ [1, 2, 3]) :
    result (cs ++ x :: cs') c = result (cs ++ cs') c := by
  have key : ∀ sat k, k ∈ [1, 2, 3] → last (cs ++ x :: cs' ++ [c]) sat k = last (cs ++ cs' ++ [c]) sat k := by
    intro sat k hk
    unfold last
    rw [List.filter_append, List.filter_append, List.filter_cons, if_neg, List.filter_append, List.filter_append]
    simp only [decide_eq_true_eq]
    rintro ⟨_, _, e⟩
    rw [e] at h
    exact h hk
  unfold result
  rw [key _ 1 (by simp), key _ 2 (by simp), key _ 3 (by simp)]

/-- messages of other satellites do not influence it either -/
theorem other_satellites_ignored (cs cs' : List Call) (x c : Call) (h : x.sat ≠ c.sat) :
    result (cs ++ x :: cs') c = result (cs ++ cs') c := by
  have key : ∀ k, last (cs ++ x :: cs' ++ [c]) c.sat k = last (cs ++ cs' ++ [c]) c.sat k := by
    intro k
    unfold last
    rw [List.filter_append, List.filter_append, List.filter_cons, if_neg, List.filter_append, List.filter_append]
    simp only [decide_eq_true_eq]
    rintro ⟨e, _⟩
    exact h e
  unfold result
  rw [key, key, key]

/-- **Disagreement with the interface document**: the eccentricity is an unsigned field, the code
reads it as signed; the two agree exactly below 0.25. -/
theorem eccentricity (week sat : Int) (m1 m2 m3 : BitBuf) (h : 320 ≤ m2.length) :
    (ephOf week sat m1 m2 m3).e = uval (word m2 6 16 8 ++ word m2 7 0 24) * (1 / 2 ^ 33) ↔
      (uval (word m2 6 16 8 ++ word m2 7 0 24) : ℚ) * (1 / 2 ^ 33) < 1 / 4 := by
  show (sval (word m2 6 16 8 ++ word m2 7 0 24) : ℚ) * (1 / 2 ^ 33) = _ ↔ _
  have hl : (word m2 6 16 8 ++ word m2 7 0 24).length = 32 := by
    rw [List.length_append]
    have h1 : (word m2 6 16 8).length = 8 := field_length (by omega)
    have h2 : (word m2 7 0 24).length = 24 := field_length (by omega)
    omega
  unfold sval uval
  rw [hl]
  generalize bitsToNat (word m2 6 16 8 ++ word m2 7 0 24) = u
  unfold toSigned
  rw [if_neg (by omega)]
  by_cases c : u < 2 ^ (32 - 1)
  · rw [if_pos c]
    have c' : (u : ℚ) < 2147483648 := by exact_mod_cast c
    have : (u : ℚ) * (1 / 2 ^ 33) < 1 / 4 := by norm_num; linarith
    exact iff_of_true (by push_cast; rfl) this
  · rw [if_neg c]
    have c' : (2147483648 : ℚ) ≤ u := by exact_mod_cast (not_lt.1 c)
    constructor
    · intro h
      exfalso
      push_cast at h
      norm_num at h
    · intro h
      exfalso
      norm_num at h
      linarith

/-- **Disagreement**: the transmission time is computed from the BeiDou epoch, 1356 weeks after the
GPS time it denotes. -/
theorem transmission_time (week sat : Int) (m1 m2 m3 : BitBuf) :
    timediff (ephOf week sat m1 m2 m3).tot
      (gpst2time (week.fdiv 1024 * 1024 + uval (word m1 3 0 10)) (uval (word m1 2 0 17) * 6)) = 1356 * 604800 := by
  show timediff (bdt2time _ _) (gpst2time _ _) = _
  have e1 : epoch2time bdt0 = ⟨1136073600, 0⟩ := by decide +kernel
  have e2 : epoch2time gpst0 = ⟨315964800, 0⟩ := by decide +kernel
  unfold bdt2time gpst2time wk2time timediff
  rw [e1, e2]
  simp only
  split <;> (push_cast; ring)

/-! ## A concrete history -/

/-- a sub-frame with preamble, identifier and the two bytes carrying issues of data -/
def exSf (id w3 w8 w10 : Nat) : BitBuf :=
  [false, false] ++ natToBits 8 0x8b ++ List.replicate 43 false ++ natToBits 3 id ++ List.replicate 10 false ++
  natToBits 8 w3 ++ List.replicate 152 false ++ natToBits 8 w8 ++ List.replicate 56 false ++ natToBits 8 w10 ++
  List.replicate 22 false

def exCalls : List Call :=
  [⟨2200, 5, exSf 3 0 0 77⟩, ⟨2200, 5, exSf 0 1 2 3⟩, ⟨2200, 5, exSf 1 0 77 0⟩, ⟨2200, 6, exSf 2 77 0 0⟩,
   ⟨2200, 5, exSf 2 77 0 0⟩]

example : ∀ c ∈ exCalls, Good c := by unfold Good; decide +kernel

/-- only the last call completes the set -/
example : (exCalls.zipIdx.map fun (c, i) => (result (exCalls.take i) c).isSome) = [false, false, false, false, true] := by
  decide +kernel

end Verif.C37
