import Verif.Lemmas.Slots
import Mathlib.Tactic.NormNum
import Mathlib.Tactic.IntervalCases
/-!
# C38 Galileo ephemerides (I/NAV and F/NAV) are assembled from one issue
-/

namespace Verif.C38
open Verif.Rawnav Verif.Time Verif.Slots
open Verif.Sat (Sys sat2prn)
open Verif.C36 (field field_length readU_field readS_field)

/-! ## Specification -/

/-- unsigned / two's-complement value of a bit string -/
def uval (l : List Bool) : Nat := bitsToNat l
def sval (l : List Bool) : Int := toSigned l.length (bitsToNat l)

/-- week of the reference time nearest to the time of transmission -/
def refWeek (wn : Int) (toc tow : ℚ) : Int :=
  if toc < tow - 302400 then wn + 1 else if toc > tow + 302400 then wn - 1 else wn

/-- signal-in-space accuracy index in metres -/
def sisa (i : Nat) : Option ℚ :=
  if i ≤ 49 then some (i / 100) else if i ≤ 74 then some ((50 + 2 * (i - 50)) / 100)
  else if i ≤ 99 then some ((100 + 4 * (i - 75)) / 100) else if i ≤ 125 then some (2 + 16 / 100 * (i - 100))
  else if i = 255 then some (-1) else none

/-- a call of the decoder; `type` tells the signal (I/NAV only) -/
structure Call where
  sat : Int
  type : Int
  msg : BitBuf

/-- the calls concern Galileo satellites -/
def Galileo (c : Call) : Prop := 33 ≤ c.sat ∧ c.sat ≤ 68

/-! ### I/NAV -/

/-- the 128-bit word of a nominal page pair -/
def inavWord (m : BitBuf) : BitBuf := field m 2 112 ++ field m 122 16
/-- word type -/
def inavId (m : BitBuf) : Nat := uval (field m 2 6)
/-- the ephemeris words are 1 to 5 -/
def inavKey (c : Call) : Option (Int × Nat) :=
  if 1 ≤ inavId c.msg ∧ inavId c.msg ≤ 5 then some (c.sat, inavId c.msg) else none
/-- the last word `k` of a satellite -/
def inavLast (cs : List Call) (sat : Int) (k : Nat) : Option BitBuf := lastC inavKey (fun c => inavWord c.msg) cs sat k

/-- issue of data of words 1-4 -/
def inavIod (w : BitBuf) : List Bool := field w 6 10

/-- ephemeris parameters: bit positions and scale factors of the interface document -/
def inavOf (sat type : Int) (m1 m2 m3 m4 m5 : BitBuf) : Eph :=
  let wn : Int := uval (field m5 73 12)
  let tow : ℚ := uval (field m5 85 20)
  let toc : ℚ := uval (field m4 54 14) * 60
  let toes : ℚ := uval (field m1 16 14) * 60
  { sat := sat, week := wn + 1024, mode := 0
    iode := uval (inavIod m1), iodc := uval (inavIod m1)
    toes := toes, toe := gst2time (refWeek wn toc tow) toes, toc := gst2time (refWeek wn toc tow) toc
    tot := gst2time wn tow
    M0 := sval (field m1 30 32) * (1 / 2 ^ 31) * sc2rad
    e := uval (field m1 62 32) * (1 / 2 ^ 33)
    A := (uval (field m1 94 32) * (1 / 2 ^ 19)) ^ 2
    OMG0 := sval (field m2 16 32) * (1 / 2 ^ 31) * sc2rad
    i0 := sval (field m2 48 32) * (1 / 2 ^ 31) * sc2rad
    omg := sval (field m2 80 32) * (1 / 2 ^ 31) * sc2rad
    idot := sval (field m2 112 14) * (1 / 2 ^ 43) * sc2rad
    OMGd := sval (field m3 16 24) * (1 / 2 ^ 43) * sc2rad
    deln := sval (field m3 40 16) * (1 / 2 ^ 43) * sc2rad
    cuc := sval (field m3 56 16) * (1 / 2 ^ 29), cus := sval (field m3 72 16) * (1 / 2 ^ 29)
    crc := sval (field m3 88 16) * (1 / 2 ^ 5), crs := sval (field m3 104 16) * (1 / 2 ^ 5)
    sva := sisa (uval (field m3 120 8))
    cic := sval (field m4 22 16) * (1 / 2 ^ 29), cis := sval (field m4 38 16) * (1 / 2 ^ 29)
    af0 := sval (field m4 68 31) * (1 / 2 ^ 34), af1 := sval (field m4 99 21) * (1 / 2 ^ 46)
    af2 := sval (field m4 120 6) * (1 / 2 ^ 59)
    tgd := sval (field m5 47 10) * (1 / 2 ^ 32), tgdB := sval (field m5 57 10) * (1 / 2 ^ 32)
    svh := uval (field m5 67 2 ++ field m5 71 1 ++ [false, false, false] ++ field m5 69 2 ++ field m5 72 1)
    code := if type = 0 then 513 else if type = 1 then 258 else if type = 2 then 516 else 0 }

/-- what a call must return after earlier calls `cs` -/
def inavResult (cs : List Call) (c : Call) : Option Eph :=
  if inavKey c = none then none
  else match inavLast (cs ++ [c]) c.sat 1, inavLast (cs ++ [c]) c.sat 2, inavLast (cs ++ [c]) c.sat 3,
      inavLast (cs ++ [c]) c.sat 4, inavLast (cs ++ [c]) c.sat 5 with
    | some m1, some m2, some m3, some m4, some m5 =>
      if inavIod m2 = inavIod m1 ∧ inavIod m3 = inavIod m1 ∧ inavIod m4 = inavIod m1 then
        some (inavOf c.sat c.type m1 m2 m3 m4 m5)
      else none
    | _, _, _, _, _ => none

def inavRun (n : Nav) : List Call → Py (Nav × List (Option Eph))
  | [] => .ok (n, [])
  | c :: cs => do
    let (n, r) ← decodeGalInav n c.sat c.type c.msg
    let (n, rs) ← inavRun n cs
    return (n, r :: rs)

/-! ### F/NAV -/

/-- page type -/
def fnavId (m : BitBuf) : Nat := uval (field m 0 6)
/-- the ephemeris pages are 1 to 4 -/
def fnavKey (c : Call) : Option (Int × Nat) :=
  if 1 ≤ fnavId c.msg ∧ fnavId c.msg ≤ 4 then some (c.sat, fnavId c.msg) else none
def fnavLast (cs : List Call) (sat : Int) (k : Nat) : Option BitBuf :=
  lastC fnavKey (fun c => field c.msg 0 248) cs sat k

def fnavOf (sat : Int) (m1 m2 m3 m4 : BitBuf) : Eph :=
  let wn : Int := uval (field m1 155 12)
  let tow : ℚ := uval (field m1 167 20)
  let toc : ℚ := uval (field m1 22 14) * 60
  let toes : ℚ := uval (field m3 160 14) * 60
  { sat := sat, week := wn + 1024, mode := 1, code := 258
    iode := uval (field m1 12 10), iodc := uval (field m1 12 10)
    toes := toes, toe := gst2time (refWeek wn toc tow) toes, toc := gst2time (refWeek wn toc tow) toc
    tot := gst2time wn tow
    af0 := sval (field m1 36 31) * (1 / 2 ^ 34), af1 := sval (field m1 67 21) * (1 / 2 ^ 46)
    af2 := sval (field m1 88 6) * (1 / 2 ^ 59), sva := sisa (uval (field m1 94 8))
    tgd := sval (field m1 143 10) * (1 / 2 ^ 32), tgdB := 0
    svh := uval (field m1 153 2 ++ field m1 187 1 ++ [false, false, false])
    M0 := sval (field m2 16 32) * (1 / 2 ^ 31) * sc2rad
    OMGd := sval (field m2 48 24) * (1 / 2 ^ 43) * sc2rad
    e := uval (field m2 72 32) * (1 / 2 ^ 33)
    A := (uval (field m2 104 32) * (1 / 2 ^ 19)) ^ 2
    OMG0 := sval (field m2 136 32) * (1 / 2 ^ 31) * sc2rad
    idot := sval (field m2 168 14) * (1 / 2 ^ 43) * sc2rad
    i0 := sval (field m3 16 32) * (1 / 2 ^ 31) * sc2rad
    omg := sval (field m3 48 32) * (1 / 2 ^ 31) * sc2rad
    deln := sval (field m3 80 16) * (1 / 2 ^ 43) * sc2rad
    cuc := sval (field m3 96 16) * (1 / 2 ^ 29), cus := sval (field m3 112 16) * (1 / 2 ^ 29)
    crc := sval (field m3 128 16) * (1 / 2 ^ 5), crs := sval (field m3 144 16) * (1 / 2 ^ 5)
    cic := sval (field m4 16 16) * (1 / 2 ^ 29), cis := sval (field m4 32 16) * (1 / 2 ^ 29) }

/-- issue of data: after the satellite number in page 1, after the type in pages 2-4 -/
def fnavSame (m1 m2 m3 m4 : BitBuf) : Prop :=
  field m2 6 10 = field m1 12 10 ∧ field m3 6 10 = field m1 12 10 ∧ field m4 6 10 = field m1 12 10
instance (m1 m2 m3 m4 : BitBuf) : Decidable (fnavSame m1 m2 m3 m4) := by unfold fnavSame; infer_instance

/-- what the code returns: besides one issue of data in the four last pages, bits 6-11 of the
page just received must equal the satellite number in page 1 -/
def fnavResult (cs : List Call) (c : Call) : Option Eph :=
  if fnavId c.msg ≤ 4 then
    match fnavLast (cs ++ [c]) c.sat 1, fnavLast (cs ++ [c]) c.sat 2, fnavLast (cs ++ [c]) c.sat 3,
      fnavLast (cs ++ [c]) c.sat 4 with
    | some m1, some m2, some m3, some m4 =>
      if field c.msg 6 6 = field m1 6 6 ∧ fnavSame m1 m2 m3 m4 then some (fnavOf c.sat m1 m2 m3 m4) else none
    | _, _, _, _ => none
  else none

def fnavRun (n : Nav) : List Call → Py (Nav × List (Option Eph))
  | [] => .ok (n, [])
  | c :: cs => do
    let (n, r) ← decodeGalFnav n c.sat c.msg
    let (n, rs) ← fnavRun n cs
    return (n, r :: rs)

/-! ## Proofs -/

theorem sisa_eq (i : Nat) : sisa2sva i = sisa i := by
  unfold sisa2sva sisa
  by_cases c1 : i < 50
  · rw [if_pos c1, if_pos (show i ≤ 49 by omega)]; congr 1; ring
  · rw [if_neg c1, if_neg (show ¬ i ≤ 49 by omega)]
    by_cases c2 : i < 75
    · rw [if_pos c2, if_pos (show i ≤ 74 by omega)]; congr 1; ring
    · rw [if_neg c2, if_neg (show ¬ i ≤ 74 by omega)]
      by_cases c3 : i < 100
      · rw [if_pos c3, if_pos (show i ≤ 99 by omega)]; congr 1; ring
      · rw [if_neg c3, if_neg (show ¬ i ≤ 99 by omega)]
        by_cases c4 : i < 126
        · rw [if_pos c4, if_pos (show i ≤ 125 by omega)]; congr 1; ring
        · rw [if_neg c4, if_neg (show ¬ i ≤ 125 by omega)]

theorem gal_prn {c : Call} (h : Galileo c) : sat2prn c.sat = (.gal, c.sat - 32) := by
  obtain ⟨h1, h2⟩ := h
  unfold sat2prn Sat.maxSat Sat.irnMin Sat.sbsMin Sat.gloMin Sat.bdsMin Sat.qzsMin Sat.galMin
  rw [if_neg (by omega), if_neg (by omega), if_neg (by omega), if_neg (by omega), if_neg (by omega),
    if_neg (by omega), if_pos (by omega)]

theorem uval_inj {f g : List Bool} (h : f.length = g.length) : uval f = uval g ↔ f = g :=
  ⟨fun e => bitsToNat_injective h e, fun e => by rw [e]⟩

theorem shift_or3 {f g h : List Bool} :
    uval (f ++ g ++ h) = (uval f * 2 ^ g.length + uval g) * 2 ^ h.length + uval h := by
  unfold uval; rw [bitsToNat_append, bitsToNat_append]

def inavRawOf (m1 m2 m3 m4 m5 : BitBuf) : InavRaw :=
  {
    iod := uval (field m1 6 10), wn := uval (field m5 73 12), tow := uval (field m5 85 20)
    toe := uval (field m1 16 14), M0 := sval (field m1 30 32), e := uval (field m1 62 32)
    sqrtA := uval (field m1 94 32), OMG0 := sval (field m2 16 32), i0 := sval (field m2 48 32)
    omg := sval (field m2 80 32), idot := sval (field m2 112 14), OMGd := sval (field m3 16 24)
    deln := sval (field m3 40 16), cuc := sval (field m3 56 16), cus := sval (field m3 72 16)
    crc := sval (field m3 88 16), crs := sval (field m3 104 16), sisa := uval (field m3 120 8)
    cic := sval (field m4 22 16), cis := sval (field m4 38 16), toc := uval (field m4 54 14)
    af0 := sval (field m4 68 31), af1 := sval (field m4 99 21), af2 := sval (field m4 120 6)
    bgda := sval (field m5 47 10), bgdb := sval (field m5 57 10), e5bHs := uval (field m5 67 2)
    e1bHs := uval (field m5 69 2), e5bDvs := uval (field m5 71 1), e1bDvs := uval (field m5 72 1) }

/-- reading the five places -/
theorem inavRaw_spec {b : BitBuf} {g : Nat → BitBuf} (hl : b.length = 1600)
    (hg : ∀ k, 1 ≤ k ∧ k ≤ 5 → (b.drop (128 * k)).take 128 = g k) :
    (∀ k, 1 ≤ k ∧ k ≤ 5 → (g k).length = 128) ∧
    (∀ k, 1 ≤ k ∧ k ≤ 5 → ∀ i o n, i = 128 * k + o → o + n ≤ 128 → readU b i n = .ok (uval (field (g k) o n))) ∧
    inavRaw b = .ok (inavRawOf (g 1) (g 2) (g 3) (g 4) (g 5)) := by
  have hlen : ∀ k, 1 ≤ k ∧ k ≤ 5 → (g k).length = 128 := by
    intro k hk
    rw [← hg k hk, List.length_take, List.length_drop]; omega
  have hU : ∀ k, 1 ≤ k ∧ k ≤ 5 → ∀ i o n, i = 128 * k + o → o + n ≤ 128 →
      readU b i n = .ok (uval (field (g k) o n)) := by
    intro k hk i o n hi hn
    rw [readU_field (by omega), hi, field_slot (hg k hk) hn]; rfl
  have hS : ∀ k, 1 ≤ k ∧ k ≤ 5 → ∀ i o n, i = 128 * k + o → o + n ≤ 128 →
      readS b i n = .ok (sval (field (g k) o n)) := by
    intro k hk i o n hi hn
    unfold readS
    rw [hU k hk i o n hi hn]
    unfold sval uval
    rw [field_length (by rw [hlen k hk]; exact hn)]
  refine ⟨hlen, hU, ?_⟩
  unfold inavRaw
  rw [hU 1 (by omega) (128 + 6) 6 10 (by omega) (by omega), Py.okBind]
  rw [hU 5 (by omega) (128 * 5 + 73) 73 12 (by omega) (by omega), Py.okBind]
  rw [hU 5 (by omega) (128 * 5 + 73 + 12) 85 20 (by omega) (by omega), Py.okBind]
  rw [hU 1 (by omega) (128 + 16) 16 14 (by omega) (by omega), Py.okBind]
  rw [hS 1 (by omega) (128 + 16 + 14) 30 32 (by omega) (by omega), Py.okBind]
  rw [hU 1 (by omega) (128 + 16 + 46) 62 32 (by omega) (by omega), Py.okBind]
  rw [hU 1 (by omega) (128 + 16 + 78) 94 32 (by omega) (by omega), Py.okBind]
  rw [hS 2 (by omega) (128 * 2 + 16) 16 32 (by omega) (by omega), Py.okBind]
  rw [hS 2 (by omega) (128 * 2 + 16 + 32) 48 32 (by omega) (by omega), Py.okBind]
  rw [hS 2 (by omega) (128 * 2 + 16 + 64) 80 32 (by omega) (by omega), Py.okBind]
  rw [hS 2 (by omega) (128 * 2 + 16 + 96) 112 14 (by omega) (by omega), Py.okBind]
  rw [hS 3 (by omega) (128 * 3 + 16) 16 24 (by omega) (by omega), Py.okBind]
  rw [hS 3 (by omega) (128 * 3 + 16 + 24) 40 16 (by omega) (by omega), Py.okBind]
  rw [hS 3 (by omega) (128 * 3 + 16 + 40) 56 16 (by omega) (by omega), Py.okBind]
  rw [hS 3 (by omega) (128 * 3 + 16 + 56) 72 16 (by omega) (by omega), Py.okBind]
  rw [hS 3 (by omega) (128 * 3 + 16 + 72) 88 16 (by omega) (by omega), Py.okBind]
  rw [hS 3 (by omega) (128 * 3 + 16 + 88) 104 16 (by omega) (by omega), Py.okBind]
  rw [hU 3 (by omega) (128 * 3 + 16 + 104) 120 8 (by omega) (by omega), Py.okBind]
  rw [hU 4 (by omega) (128 * 4 + 16) 16 6 (by omega) (by omega), Py.okBind]
  rw [hS 4 (by omega) (128 * 4 + 16 + 6) 22 16 (by omega) (by omega), Py.okBind]
  rw [hS 4 (by omega) (128 * 4 + 16 + 22) 38 16 (by omega) (by omega), Py.okBind]
  rw [hU 4 (by omega) (128 * 4 + 16 + 38) 54 14 (by omega) (by omega), Py.okBind]
  rw [hS 4 (by omega) (128 * 4 + 16 + 52) 68 31 (by omega) (by omega), Py.okBind]
  rw [hS 4 (by omega) (128 * 4 + 16 + 83) 99 21 (by omega) (by omega), Py.okBind]
  rw [hS 4 (by omega) (128 * 4 + 16 + 104) 120 6 (by omega) (by omega), Py.okBind]
  rw [hS 5 (by omega) (128 * 5 + 6 + 41) 47 10 (by omega) (by omega), Py.okBind]
  rw [hS 5 (by omega) (128 * 5 + 6 + 51) 57 10 (by omega) (by omega), Py.okBind]
  rw [hU 5 (by omega) (128 * 5 + 6 + 61) 67 2 (by omega) (by omega), Py.okBind]
  rw [hU 5 (by omega) (128 * 5 + 6 + 63) 69 2 (by omega) (by omega), Py.okBind]
  rw [hU 5 (by omega) (128 * 5 + 6 + 65) 71 1 (by omega) (by omega), Py.okBind]
  rw [hU 5 (by omega) (128 * 5 + 6 + 66) 72 1 (by omega) (by omega), Py.okBind]
  rfl

theorem svh_inav {a1 a2 a3 a4 : List Bool} (h1 : a1.length = 2) (h2 : a2.length = 1) (h3 : a3.length = 2)
    (h4 : a4.length = 1) : uval a1 <<< 7 ||| uval a2 <<< 6 ||| uval a3 <<< 1 ||| uval a4 =
      uval (a1 ++ a2 ++ [false, false, false] ++ a3 ++ a4) := by
  have key : ∀ a1 a2 a3 a4 : List Bool, a1 ∈ [[false, false], [false, true], [true, false], [true, true]] →
      a2 ∈ [[false], [true]] → a3 ∈ [[false, false], [false, true], [true, false], [true, true]] →
      a4 ∈ [[false], [true]] → uval a1 <<< 7 ||| uval a2 <<< 6 ||| uval a3 <<< 1 ||| uval a4 =
      uval (a1 ++ a2 ++ [false, false, false] ++ a3 ++ a4) := by
    have : ∀ a1 ∈ [[false, false], [false, true], [true, false], [true, true]],
      ∀ a2 ∈ [[false], [true]], ∀ a3 ∈ [[false, false], [false, true], [true, false], [true, true]],
      ∀ a4 ∈ [[false], [true]], uval a1 <<< 7 ||| uval a2 <<< 6 ||| uval a3 <<< 1 ||| uval a4 =
      uval (a1 ++ a2 ++ [false, false, false] ++ a3 ++ a4) := by decide +kernel
    intro a1 a2 a3 a4 i1 i2 i3 i4
    exact this a1 i1 a2 i2 a3 i3 a4 i4
  have one : ∀ l : List Bool, l.length = 1 → l ∈ [[false], [true]] := by
    intro l h
    match l, h with
    | [x], _ => cases x <;> simp
  have two : ∀ l : List Bool, l.length = 2 → l ∈ [[false, false], [false, true], [true, false], [true, true]] := by
    intro l h
    match l, h with
    | [x, y], _ => cases x <;> cases y <;> simp
  exact key a1 a2 a3 a4 (two a1 h1) (one a2 h2) (two a3 h3) (one a4 h4)

theorem inavEph_spec (sat type : Int) {m1 m2 m3 m4 m5 : BitBuf} (h5 : m5.length = 128) :
    inavEph sat type (inavRawOf m1 m2 m3 m4 m5) = inavOf sat type m1 m2 m3 m4 m5 := by
  have e := svh_inav (a1 := field m5 67 2) (a2 := field m5 71 1) (a3 := field m5 69 2) (a4 := field m5 72 1)
    (field_length (by omega)) (field_length (by omega)) (field_length (by omega)) (field_length (by omega))
  have e2 : inavCode type = if type = 0 then 513 else if type = 1 then 258 else if type = 2 then 516 else 0 := by
    unfold inavCode
    by_cases c0 : type = 0
    · subst c0; rfl
    · by_cases c1 : type = 1
      · subst c1; rfl
      · by_cases c2 : type = 2
        · subst c2; rfl
        · simp [c0, c1, c2]
  unfold inavOf
  rw [← e, ← e2, ← sisa_eq]
  rfl

theorem inavTry_spec (sat type : Int) {b : BitBuf} {g : Nat → BitBuf} (hl : b.length = 1600)
    (hg : ∀ k, 1 ≤ k ∧ k ≤ 5 → (b.drop (128 * k)).take 128 = g k) :
    inavTry sat type b = .ok (
      if uval (field (g 1) 0 6) = 1 ∧ uval (field (g 2) 0 6) = 2 ∧ uval (field (g 3) 0 6) = 3 ∧
          uval (field (g 4) 0 6) = 4 ∧ uval (field (g 5) 0 6) = 5 ∧
          inavIod (g 2) = inavIod (g 1) ∧ inavIod (g 3) = inavIod (g 1) ∧ inavIod (g 4) = inavIod (g 1) then
        some (inavOf sat type (g 1) (g 2) (g 3) (g 4) (g 5))
      else none) := by
  obtain ⟨hlen, hU, hraw⟩ := inavRaw_spec hl hg
  unfold inavTry
  rw [hU 1 (by omega) 128 0 6 (by omega) (by omega), Py.okBind,
    hU 1 (by omega) (128 + 6) 6 10 (by omega) (by omega), Py.okBind,
    hU 2 (by omega) (128 * 2) 0 6 (by omega) (by omega), Py.okBind,
    hU 2 (by omega) (128 * 2 + 6) 6 10 (by omega) (by omega), Py.okBind,
    hU 3 (by omega) (128 * 3) 0 6 (by omega) (by omega), Py.okBind,
    hU 3 (by omega) (128 * 3 + 6) 6 10 (by omega) (by omega), Py.okBind,
    hU 4 (by omega) (128 * 4) 0 6 (by omega) (by omega), Py.okBind,
    hU 4 (by omega) (128 * 4 + 6) 6 10 (by omega) (by omega), Py.okBind,
    hU 5 (by omega) (128 * 5) 0 6 (by omega) (by omega), Py.okBind]
  have w : ∀ k, 1 ≤ k ∧ k ≤ 5 → (inavIod (g k)).length = 10 := fun k hk => field_length (by rw [hlen k hk]; omega)
  have ieq : ∀ k, 1 ≤ k ∧ k ≤ 5 → (uval (field (g 1) 6 10) = uval (field (g k) 6 10) ↔ inavIod (g k) = inavIod (g 1)) := by
    intro k hk
    rw [eq_comm]
    exact uval_inj (by have a := w k hk; have b := w 1 (by omega); unfold inavIod at a b; rw [a, b])
  by_cases c : uval (field (g 1) 0 6) = 1 ∧ uval (field (g 2) 0 6) = 2 ∧ uval (field (g 3) 0 6) = 3 ∧
      uval (field (g 4) 0 6) = 4 ∧ uval (field (g 5) 0 6) = 5
  · rw [if_neg (by tauto)]
    by_cases c2 : inavIod (g 2) = inavIod (g 1) ∧ inavIod (g 3) = inavIod (g 1) ∧ inavIod (g 4) = inavIod (g 1)
    · rw [if_neg (by rw [ne_eq, ne_eq, ne_eq, ieq 2 (by omega), ieq 3 (by omega), ieq 4 (by omega)]; tauto), hraw,
        Py.okBind, if_pos (by tauto), inavEph_spec _ _ (hlen 5 (by omega))]
      rfl
    · rw [if_pos (by rw [ne_eq, ne_eq, ne_eq, ieq 2 (by omega), ieq 3 (by omega), ieq 4 (by omega)]; tauto),
        if_neg (by tauto)]
      rfl
  · rw [if_pos (by tauto), if_neg (by tauto)]
    rfl

/-- keys of the buffers -/
def DomG (s : Int) : Prop := 0 ≤ s ∧ s < 36

/-- dictionary key of a call -/
def shiftKey (key : Call → Option (Int × Nat)) (c : Call) : Option (Int × Nat) := (key c).map fun p => (p.1 - 33, p.2)

theorem lastC_shift (key : Call → Option (Int × Nat)) (cont : Call → BitBuf) (cs : List Call) (sat : Int) (k : Nat) :
    lastC (shiftKey key) cont cs (sat - 33) k = lastC key cont cs sat k := by
  unfold lastC
  congr 2
  apply List.filter_congr
  intro c _
  unfold shiftKey
  cases key c with
  | none => simp
  | some p =>
    obtain ⟨a, b⟩ := p
    simp only [Option.map_some, Option.some.injEq, Prod.mk.injEq]
    rw [decide_eq_decide]
    omega

abbrev IInv (d : Dict Int BitBuf) (cs : List Call) : Prop :=
  SInv (shiftKey inavKey) (fun c => inavWord c.msg) 128 (fun k => 128 * k) (fun k => 1 ≤ k ∧ k ≤ 5) 1600 DomG d cs

theorem zero_slot {a w : Nat} (h : a + w ≤ 1600) :
    ((List.replicate 1600 false).drop a).take w = List.replicate w false := by
  rw [List.drop_replicate, List.take_replicate]
  congr 1
  omega

theorem iinv_init : IInv Nav.init.galInav [] := by
  intro s hs
  refine ⟨_, buffers_get hs.1 hs.2, by rw [List.length_replicate], ?_⟩
  intro k hk
  show _ = List.replicate 128 false
  exact zero_slot (by simp only; omega)

/-- the zero word is of type 0 -/
theorem zero_id : uval (field (List.replicate 128 false) 0 6) = 0 := by decide

theorem word_id {m : BitBuf} (h : 138 ≤ m.length) : uval (field (inavWord m) 0 6) = inavId m := by
  unfold inavId inavWord field
  rw [List.drop_zero, List.take_append_of_le_length (by rw [List.length_take, List.length_drop]; omega),
    List.take_take]
  rfl

def GoodI (c : Call) : Prop := Galileo c ∧ 138 ≤ c.msg.length

theorem inav_step {n : Nav} {cs : List Call} {c : Call} (hi : IInv n.galInav cs) (hg : GoodI c)
    (hcs : ∀ c' ∈ cs, GoodI c') :
    ∃ n', decodeGalInav n c.sat c.type c.msg = .ok (n', inavResult cs c) ∧ IInv n'.galInav (cs ++ [c]) := by
  obtain ⟨hgal, hm⟩ := hg
  have hd : DomG (c.sat - 33) := by unfold DomG; unfold Galileo at hgal; omega
  obtain ⟨b, hb, hl, hh⟩ := hi _ hd
  unfold decodeGalInav
  rw [gal_prn hgal]
  simp only
  have r1 : readU c.msg 2 6 = .ok (inavId c.msg) := readU_field (by omega)
  rw [readU_field (by omega), Py.okBind, r1, Py.okBind, readU_field (by omega), Py.okBind]
  by_cases hk : 1 ≤ inavId c.msg ∧ inavId c.msg ≤ 5
  · rw [if_neg (by omega)]
    have hit : Dict.getItem n.galInav (c.sat - 32 - 1) = .ok b := by
      unfold Dict.getItem
      rw [show c.sat - 32 - 1 = c.sat - 33 by omega, hb]
    rw [hit, Py.okBind, copyBytes_spec _ _ _ _ _ (by omega) (by omega), Py.okBind]
    have f1 : (field c.msg 2 112).length = 112 := field_length (by omega)
    have f2 : (field c.msg 122 16).length = 16 := field_length (by omega)
    have s1 : (splice b (8 * (inavId c.msg * 16)) (field c.msg 2 (8 * 14))).length = 1600 := by
      rw [splice_length _ _ _ (by rw [f1]; omega), hl]
    rw [copyBytes_spec _ _ _ _ _ (by omega) (by rw [s1]; omega), Py.okBind]
    have eb : splice (splice b (8 * (inavId c.msg * 16)) (field c.msg 2 (8 * 14)))
        (8 * (inavId c.msg * 16 + 14)) (field c.msg 122 (8 * 2)) =
        splice b (128 * inavId c.msg) (inavWord c.msg) := by
      have := splice_append (b := b) (f := field c.msg 2 112) (g := field c.msg 122 16) (i := 128 * inavId c.msg)
        (by rw [List.length_append, f1, f2]; omega)
      rw [f1] at this
      unfold inavWord
      rw [← this]
      congr 1
      · congr 1; omega
      · omega
    rw [eb]
    have wl : (inavWord c.msg).length = 128 := by unfold inavWord; rw [List.length_append, f1, f2]
    have fits : 128 * inavId c.msg + (inavWord c.msg).length ≤ b.length := by omega
    have hkey : inavKey c = some (c.sat, inavId c.msg) := by unfold inavKey; rw [if_pos hk]
    have hi' : IInv (n.galInav.set (c.sat - 32 - 1) (splice b (128 * inavId c.msg) (inavWord c.msg))) (cs ++ [c]) := by
      rw [show c.sat - 32 - 1 = c.sat - 33 by omega]
      refine SInv.step hi (k0 := inavId c.msg) (by unfold shiftKey; rw [hkey]; rfl) hb
        (by rw [splice_length _ _ _ fits, hl]) ?_
      intro k hk'
      by_cases e : k = inavId c.msg
      · rw [if_pos e, e]
        have := splice_seg_same fits
        rwa [wl] at this
      · rw [if_neg e]
        exact splice_seg_other fits (by omega)
    refine ⟨{ n with galInav := n.galInav.set (c.sat - 32 - 1) (splice b (128 * inavId c.msg) (inavWord c.msg)) }, ?_, hi'⟩
    obtain ⟨b2, hb2, hl2, hh2⟩ := hi' _ hd
    rw [show c.sat - 32 - 1 = c.sat - 33 by omega, Dict.get?_set_self] at hb2
    cases hb2
    have ht := inavTry_spec c.sat c.type hl2 (g := fun k => (inavLast (cs ++ [c]) c.sat k).getD (List.replicate 128 false))
      (fun k hk => by
        have := hh2 k hk
        rw [lastC_shift] at this
        exact this)
    rw [ht, Py.okBind]
    have hid : ∀ k m, inavLast (cs ++ [c]) c.sat k = some m → uval (field m 0 6) = k := by
      intro k m hm'
      obtain ⟨c', h1, h2, h3⟩ := lastC_mem hm'
      rw [← h3]
      have hlen : 138 ≤ c'.msg.length := by
        rcases List.mem_append.1 h1 with h | h
        · exact (hcs c' h).2
        · rw [List.mem_singleton.1 h]; exact hm
      show uval (field (inavWord c'.msg) 0 6) = k
      rw [word_id hlen]
      unfold inavKey at h2
      by_cases h : 1 ≤ inavId c'.msg ∧ inavId c'.msg ≤ 5
      · rw [if_pos h] at h2
        simp only [Option.some.injEq, Prod.mk.injEq] at h2
        exact h2.2
      · rw [if_neg h] at h2; cases h2
    unfold inavResult
    rw [hkey, if_neg (show ¬(some (c.sat, inavId c.msg) = none) by simp)]
    simp only [pure, Except.pure]
    congr 2
    cases e1 : inavLast (cs ++ [c]) c.sat 1 with
    | none => rw [if_neg]; intro h; have := h.1; rw [Option.getD_none, zero_id] at this; omega
    | some m1 =>
      cases e2 : inavLast (cs ++ [c]) c.sat 2 with
      | none => rw [if_neg]; intro h; have := h.2.1; rw [Option.getD_none, zero_id] at this; omega
      | some m2 =>
        cases e3 : inavLast (cs ++ [c]) c.sat 3 with
        | none => rw [if_neg]; intro h; have := h.2.2.1; rw [Option.getD_none, zero_id] at this; omega
        | some m3 =>
          cases e4 : inavLast (cs ++ [c]) c.sat 4 with
          | none => rw [if_neg]; intro h; have := h.2.2.2.1; rw [Option.getD_none, zero_id] at this; omega
          | some m4 =>
            cases e5 : inavLast (cs ++ [c]) c.sat 5 with
            | none => rw [if_neg]; intro h; have := h.2.2.2.2.1; rw [Option.getD_none, zero_id] at this; omega
            | some m5 =>
              simp only [Option.getD_some, hid 1 m1 e1, hid 2 m2 e2, hid 3 m3 e3, hid 4 m4 e4, hid 5 m5 e5, true_and]
  · rw [if_pos (by omega)]
    have hkey : inavKey c = none := by unfold inavKey; rw [if_neg hk]
    refine ⟨n, ?_, SInv.same hi (fun s k _ _ => by unfold shiftKey; rw [hkey]; simp)⟩
    unfold inavResult
    rw [if_pos hkey]
    rfl

theorem inavRun_spec : ∀ (cs pre : List Call) (n : Nav), IInv n.galInav pre → (∀ c ∈ pre ++ cs, GoodI c) →
    ∃ n' rs, inavRun n cs = .ok (n', rs) ∧ rs.length = cs.length ∧
      ∀ i (hi : i < cs.length), rs[i]? = some (inavResult (pre ++ cs.take i) cs[i])
  | [], pre, n, hi, _ => ⟨n, [], rfl, rfl, fun i hi => absurd hi (by simp)⟩
  | c :: cs, pre, n, hi, hg => by
    obtain ⟨n1, e1, hi1⟩ := inav_step hi (hg c (by simp)) (fun c' h => hg c' (by simp [h]))
    obtain ⟨n2, rs, e2, hl, hr⟩ := inavRun_spec cs (pre ++ [c]) n1 hi1 (by simpa using hg)
    refine ⟨n2, inavResult pre c :: rs, ?_, by simp [hl], ?_⟩
    · unfold inavRun
      rw [e1, Py.okBind]
      simp only
      rw [e2]
      rfl
    · intro i hi
      cases i with
      | zero => simp
      | succ i =>
        have := hr i (by simpa using hi)
        simpa using this

/-- **I/NAV.** Over every sequence of received words (any Galileo satellites, any content) the
decoder never raises, and each call returns an ephemeris exactly when it brings one of the words
1-5 and the last words 1-4 of the satellite carry one issue and word 5 was received; the
parameters are those of these last words. -/
theorem inav_history (cs : List Call) (h : ∀ c ∈ cs, GoodI c) :
    ∃ n rs, inavRun Nav.init cs = .ok (n, rs) ∧ rs.length = cs.length ∧
      ∀ i (hi : i < cs.length), rs[i]? = some (inavResult (cs.take i) cs[i]) := by
  obtain ⟨n, rs, h1, h2, h3⟩ := inavRun_spec cs [] Nav.init iinv_init (by simpa using h)
  exact ⟨n, rs, h1, h2, by simpa using h3⟩

/-! ### F/NAV -/

def fnavRawOf (m1 m2 m3 m4 : BitBuf) : FnavRaw :=
  {
    iod := uval (field m1 12 10), toc := uval (field m1 22 14), af0 := sval (field m1 36 31)
    af1 := sval (field m1 67 21), af2 := sval (field m1 88 6), sisa := uval (field m1 94 8)
    bgda := sval (field m1 143 10), e5aHs := uval (field m1 153 2), wn := uval (field m1 155 12)
    tow := uval (field m1 167 20), e5aDvs := uval (field m1 187 1), M0 := sval (field m2 16 32)
    OMGd := sval (field m2 48 24), e := uval (field m2 72 32), sqrtA := uval (field m2 104 32)
    OMG0 := sval (field m2 136 32), idot := sval (field m2 168 14), i0 := sval (field m3 16 32)
    omg := sval (field m3 48 32), deln := sval (field m3 80 16), cuc := sval (field m3 96 16)
    cus := sval (field m3 112 16), crc := sval (field m3 128 16), crs := sval (field m3 144 16)
    toe := uval (field m3 160 14), cic := sval (field m4 16 16), cis := sval (field m4 32 16) }

theorem fnavRaw_spec {b : BitBuf} {g : Nat → BitBuf} (hl : b.length = 1600)
    (hg : ∀ k, 1 ≤ k ∧ k ≤ 4 → (b.drop (248 * (k - 1))).take 248 = g k) :
    (∀ k, 1 ≤ k ∧ k ≤ 4 → (g k).length = 248) ∧
    (∀ k, 1 ≤ k ∧ k ≤ 4 → ∀ i o n, i = 248 * (k - 1) + o → o + n ≤ 248 → readU b i n = .ok (uval (field (g k) o n))) ∧
    fnavRaw b = .ok (fnavRawOf (g 1) (g 2) (g 3) (g 4)) := by
  have hlen : ∀ k, 1 ≤ k ∧ k ≤ 4 → (g k).length = 248 := by
    intro k hk
    rw [← hg k hk, List.length_take, List.length_drop]; omega
  have hU : ∀ k, 1 ≤ k ∧ k ≤ 4 → ∀ i o n, i = 248 * (k - 1) + o → o + n ≤ 248 →
      readU b i n = .ok (uval (field (g k) o n)) := by
    intro k hk i o n hi hn
    rw [readU_field (by omega), hi, field_slot (hg k hk) hn]; rfl
  have hS : ∀ k, 1 ≤ k ∧ k ≤ 4 → ∀ i o n, i = 248 * (k - 1) + o → o + n ≤ 248 →
      readS b i n = .ok (sval (field (g k) o n)) := by
    intro k hk i o n hi hn
    unfold readS
    rw [hU k hk i o n hi hn]
    unfold sval uval
    rw [field_length (by rw [hlen k hk]; exact hn)]
  refine ⟨hlen, hU, ?_⟩
  unfold fnavRaw
  rw [hU 1 (by omega) (12) 12 10 (by omega) (by omega), Py.okBind]
  rw [hU 1 (by omega) (22) 22 14 (by omega) (by omega), Py.okBind]
  rw [hS 1 (by omega) (22 + 14) 36 31 (by omega) (by omega), Py.okBind]
  rw [hS 1 (by omega) (22 + 45) 67 21 (by omega) (by omega), Py.okBind]
  rw [hS 1 (by omega) (22 + 66) 88 6 (by omega) (by omega), Py.okBind]
  rw [hU 1 (by omega) (94) 94 8 (by omega) (by omega), Py.okBind]
  rw [hS 1 (by omega) (94 + 49) 143 10 (by omega) (by omega), Py.okBind]
  rw [hU 1 (by omega) (94 + 59) 153 2 (by omega) (by omega), Py.okBind]
  rw [hU 1 (by omega) (94 + 61) 155 12 (by omega) (by omega), Py.okBind]
  rw [hU 1 (by omega) (94 + 73) 167 20 (by omega) (by omega), Py.okBind]
  rw [hU 1 (by omega) (94 + 93) 187 1 (by omega) (by omega), Py.okBind]
  rw [hS 2 (by omega) (248 + 16) 16 32 (by omega) (by omega), Py.okBind]
  rw [hS 2 (by omega) (248 + 16 + 32) 48 24 (by omega) (by omega), Py.okBind]
  rw [hU 2 (by omega) (248 + 16 + 56) 72 32 (by omega) (by omega), Py.okBind]
  rw [hU 2 (by omega) (248 + 16 + 88) 104 32 (by omega) (by omega), Py.okBind]
  rw [hS 2 (by omega) (248 + 16 + 120) 136 32 (by omega) (by omega), Py.okBind]
  rw [hS 2 (by omega) (248 + 16 + 152) 168 14 (by omega) (by omega), Py.okBind]
  rw [hS 3 (by omega) (248 * 2 + 16) 16 32 (by omega) (by omega), Py.okBind]
  rw [hS 3 (by omega) (248 * 2 + 16 + 32) 48 32 (by omega) (by omega), Py.okBind]
  rw [hS 3 (by omega) (248 * 2 + 16 + 64) 80 16 (by omega) (by omega), Py.okBind]
  rw [hS 3 (by omega) (248 * 2 + 16 + 80) 96 16 (by omega) (by omega), Py.okBind]
  rw [hS 3 (by omega) (248 * 2 + 16 + 96) 112 16 (by omega) (by omega), Py.okBind]
  rw [hS 3 (by omega) (248 * 2 + 16 + 112) 128 16 (by omega) (by omega), Py.okBind]
  rw [hS 3 (by omega) (248 * 2 + 16 + 128) 144 16 (by omega) (by omega), Py.okBind]
  rw [hU 3 (by omega) (248 * 2 + 16 + 144) 160 14 (by omega) (by omega), Py.okBind]
  rw [hS 4 (by omega) (248 * 3 + 16) 16 16 (by omega) (by omega), Py.okBind]
  rw [hS 4 (by omega) (248 * 3 + 16 + 16) 32 16 (by omega) (by omega), Py.okBind]
  rfl

theorem svh_fnav {a1 a2 : List Bool} (h1 : a1.length = 2) (h2 : a2.length = 1) :
    uval a1 <<< 4 ||| uval a2 <<< 3 = uval (a1 ++ a2 ++ [false, false, false]) := by
  match a1, h1, a2, h2 with
  | [x, y], _, [z], _ => cases x <;> cases y <;> cases z <;> decide

theorem fnavEph_spec (sat : Int) {m1 m2 m3 m4 : BitBuf} (h1 : m1.length = 248) :
    fnavEph sat (fnavRawOf m1 m2 m3 m4) = fnavOf sat m1 m2 m3 m4 := by
  have e := svh_fnav (a1 := field m1 153 2) (a2 := field m1 187 1) (field_length (by omega)) (field_length (by omega))
  unfold fnavOf
  rw [← e, ← sisa_eq]
  rfl

theorem fnavTry_spec (sat : Int) {svid : List Bool} {b : BitBuf} {g : Nat → BitBuf} (hl : b.length = 1600)
    (hsv : svid.length = 6) (hg : ∀ k, 1 ≤ k ∧ k ≤ 4 → (b.drop (248 * (k - 1))).take 248 = g k) :
    fnavTry sat (uval svid) b = .ok (
      if uval (field (g 1) 0 6) = 1 ∧ uval (field (g 2) 0 6) = 2 ∧ uval (field (g 3) 0 6) = 3 ∧
          uval (field (g 4) 0 6) = 4 ∧ svid = field (g 1) 6 6 ∧ fnavSame (g 1) (g 2) (g 3) (g 4) then
        some (fnavOf sat (g 1) (g 2) (g 3) (g 4))
      else none) := by
  obtain ⟨hlen, hU, hraw⟩ := fnavRaw_spec hl hg
  unfold fnavTry
  rw [hU 1 (by omega) 0 0 6 (by omega) (by omega), Py.okBind,
    hU 1 (by omega) 6 6 6 (by omega) (by omega), Py.okBind,
    hU 1 (by omega) 12 12 10 (by omega) (by omega), Py.okBind,
    hU 2 (by omega) 248 0 6 (by omega) (by omega), Py.okBind,
    hU 2 (by omega) (248 + 6) 6 10 (by omega) (by omega), Py.okBind,
    hU 3 (by omega) (248 * 2) 0 6 (by omega) (by omega), Py.okBind,
    hU 3 (by omega) (248 * 2 + 6) 6 10 (by omega) (by omega), Py.okBind,
    hU 4 (by omega) (248 * 3) 0 6 (by omega) (by omega), Py.okBind,
    hU 4 (by omega) (248 * 3 + 6) 6 10 (by omega) (by omega), Py.okBind]
  have w1 : (field (g 1) 12 10).length = 10 := field_length (by rw [hlen 1 (by omega)]; omega)
  have w : ∀ k, 1 ≤ k ∧ k ≤ 4 → (field (g k) 6 10).length = 10 := fun k hk => field_length (by rw [hlen k hk]; omega)
  have ieq : ∀ k, 1 ≤ k ∧ k ≤ 4 → (uval (field (g 1) 12 10) = uval (field (g k) 6 10) ↔ field (g k) 6 10 = field (g 1) 12 10) := by
    intro k hk
    rw [eq_comm]
    exact uval_inj (by rw [w k hk, w1])
  have seq : uval svid = uval (field (g 1) 6 6) ↔ svid = field (g 1) 6 6 :=
    uval_inj (by rw [hsv, field_length (by rw [hlen 1 (by omega)]; omega)])
  by_cases c : svid = field (g 1) 6 6 ∧ uval (field (g 1) 0 6) = 1 ∧ uval (field (g 2) 0 6) = 2 ∧
      uval (field (g 3) 0 6) = 3 ∧ uval (field (g 4) 0 6) = 4
  · rw [if_neg (by rw [ne_eq, seq]; tauto)]
    by_cases c2 : fnavSame (g 1) (g 2) (g 3) (g 4)
    · rw [if_neg (by rw [ne_eq, ne_eq, ne_eq, ieq 2 (by omega), ieq 3 (by omega), ieq 4 (by omega)];
                     unfold fnavSame at c2; tauto), hraw,
        Py.okBind, if_pos (by tauto), fnavEph_spec _ (hlen 1 (by omega))]
      rfl
    · rw [if_pos (by rw [ne_eq, ne_eq, ne_eq, ieq 2 (by omega), ieq 3 (by omega), ieq 4 (by omega)];
                     unfold fnavSame at c2; tauto),
        if_neg (by tauto)]
      rfl
  · rw [if_pos (by rw [ne_eq, seq]; tauto), if_neg (by tauto)]
    rfl

/-- place of a page; page type 0 goes to the end of the buffer -/
def fnavPos (sid : Nat) : Nat := if sid = 0 then 169 else (sid - 1) * 31

theorem fnavStore_spec {msg b : BitBuf} {sid : Nat} (hm : 248 ≤ msg.length) (hb : b.length = 1600) (hs : sid ≤ 4) :
    fnavStore b sid msg = .ok (splice b (8 * fnavPos sid) (field msg 0 248)) := by
  have main : ∀ n, n ≤ 31 → (List.range n).foldlM (init := b) (fun b k => do
      let v ← (if 8 * k + 8 ≤ msg.length then readU msg (8 * k) 8 else .error .indexError)
      let j : Int := ((sid : Int) - 1) * 31 + k
      let j := if j < 0 then j + b.length / 8 else j
      if j < 0 then .error .indexError
      else putByte b j.toNat v) = (Except.ok (splice b (8 * fnavPos sid) (field msg 0 (8 * n))) : Py BitBuf) := by
    intro n
    induction n with
    | zero =>
      intro _
      unfold splice field
      simp
      rfl
    | succ n ih =>
      intro hn
      have ih := ih (by omega)
      have hp : fnavPos sid ≤ 169 := by unfold fnavPos; split <;> omega
      have hf : (field msg 0 (8 * n)).length = 8 * n := field_length (by omega)
      have hg : (field msg (8 * n) 8).length = 8 := field_length (by omega)
      have hsl : (splice b (8 * fnavPos sid) (field msg 0 (8 * n))).length = b.length := splice_length _ _ _ (by omega)
      rw [List.range_succ, List.foldlM_append, ih, Py.okBind, List.foldlM_cons, if_pos (by omega),
        readU_field (by omega), Py.okBind]
      simp only
      rw [hsl]
      have hj : (if ((sid : Int) - 1) * 31 + (n : Int) < 0 then ((sid : Int) - 1) * 31 + (n : Int) + (b.length : Int) / 8
          else ((sid : Int) - 1) * 31 + (n : Int)) = ((fnavPos sid + n : Nat) : Int) := by
        unfold fnavPos
        by_cases c : sid = 0
        · subst c
          rw [if_pos (by omega), if_pos rfl, hb]
          omega
        · rw [if_neg (by omega), if_neg c]
          push_cast
          omega
      rw [hj, if_neg (by omega), Int.toNat_natCast]
      have e : putByte (splice b (8 * fnavPos sid) (field msg 0 (8 * n))) (fnavPos sid + n)
          (bitsToNat (field msg (8 * n) 8)) =
          .ok (splice (splice b (8 * fnavPos sid) (field msg 0 (8 * n)))
            (8 * fnavPos sid + (field msg 0 (8 * n)).length) (field msg (8 * n) 8)) := by
        unfold putByte writeU
        have hlt := bitsToNat_lt (field msg (8 * n) 8)
        rw [hg] at hlt
        rw [hsl, if_pos (by omega), if_pos hlt, if_pos (by omega)]
        have := natToBits_bitsToNat (field msg (8 * n) 8)
        rw [hg] at this
        rw [this, hf]
        congr 2
        omega
      have fa := field_append msg 0 (8 * n) 8
      rw [Nat.zero_add] at fa
      rw [e, splice_append (by rw [List.length_append]; omega), fa]
      rfl
  have := main 31 (by omega)
  exact this

abbrev FInv (d : Dict Int BitBuf) (cs : List Call) : Prop :=
  SInv (shiftKey fnavKey) (fun c => field c.msg 0 248) 248 (fun k => 248 * (k - 1)) (fun k => 1 ≤ k ∧ k ≤ 4) 1600 DomG d cs

theorem finv_init : FInv Nav.init.galFnav [] := by
  intro s hs
  refine ⟨_, buffers_get hs.1 hs.2, by rw [List.length_replicate], ?_⟩
  intro k hk
  show _ = List.replicate 248 false
  exact zero_slot (by simp only; omega)

theorem zero_idF : uval (field (List.replicate 248 false) 0 6) = 0 := by decide

theorem page_id {m : BitBuf} : uval (field (field m 0 248) 0 6) = fnavId m := by
  unfold fnavId field
  rw [List.drop_zero, List.drop_zero, List.take_take]
  rfl

def GoodF (c : Call) : Prop := Galileo c ∧ 248 ≤ c.msg.length

theorem fnav_step {n : Nav} {cs : List Call} {c : Call} (hi : FInv n.galFnav cs) (hg : GoodF c) :
    ∃ n', decodeGalFnav n c.sat c.msg = .ok (n', fnavResult cs c) ∧ FInv n'.galFnav (cs ++ [c]) := by
  obtain ⟨hgal, hm⟩ := hg
  have hd : DomG (c.sat - 33) := by unfold DomG; unfold Galileo at hgal; omega
  obtain ⟨b, hb, hl, hh⟩ := hi _ hd
  unfold decodeGalFnav
  rw [gal_prn hgal]
  simp only
  have r1 : readU c.msg 0 6 = .ok (fnavId c.msg) := readU_field (by omega)
  have r2 : readU c.msg 6 6 = .ok (uval (field c.msg 6 6)) := readU_field (by omega)
  rw [r1, Py.okBind, r2, Py.okBind, readU_field (by omega), Py.okBind]
  by_cases hk : fnavId c.msg ≤ 4
  · rw [if_neg (by omega)]
    have hit : Dict.getItem n.galFnav (c.sat - 32 - 1) = .ok b := by
      unfold Dict.getItem
      rw [show c.sat - 32 - 1 = c.sat - 33 by omega, hb]
    rw [hit, Py.okBind, fnavStore_spec hm hl hk, Py.okBind]
    have wl : (field c.msg 0 248).length = 248 := field_length (by omega)
    have hp : fnavPos (fnavId c.msg) ≤ 169 := by unfold fnavPos; split <;> omega
    have fits : 8 * fnavPos (fnavId c.msg) + (field c.msg 0 248).length ≤ b.length := by omega
    have hi' : FInv (n.galFnav.set (c.sat - 32 - 1) (splice b (8 * fnavPos (fnavId c.msg)) (field c.msg 0 248)))
        (cs ++ [c]) := by
      rw [show c.sat - 32 - 1 = c.sat - 33 by omega]
      by_cases h0 : fnavId c.msg = 0
      · intro s hs
        have hkey : fnavKey c = none := by unfold fnavKey; rw [if_neg (by omega)]
        have hsame := SInv.same (c := c) hi (fun s k _ _ => by unfold shiftKey; rw [hkey]; simp)
        by_cases es : s = c.sat - 33
        · obtain ⟨b2, hb2, hl2, hh2⟩ := hsame _ hs
          rw [es, hb] at hb2
          cases hb2
          refine ⟨_, by rw [es]; exact Dict.get?_set_self _ _ _, by rw [splice_length _ _ _ fits, hl], ?_⟩
          intro k hk'
          rw [splice_seg_other fits (by
            have : fnavPos (fnavId c.msg) = 169 := by rw [h0]; rfl
            simp only
            omega)]
          exact hh2 k hk'
        · obtain ⟨b2, hb2, hl2, hh2⟩ := hsame _ hs
          exact ⟨b2, by rw [Dict.get?_set_ne _ _ es]; exact hb2, hl2, hh2⟩
      · have hkey : fnavKey c = some (c.sat, fnavId c.msg) := by unfold fnavKey; rw [if_pos (by omega)]
        have hpos : fnavPos (fnavId c.msg) = (fnavId c.msg - 1) * 31 := by unfold fnavPos; rw [if_neg h0]
        refine SInv.step hi (k0 := fnavId c.msg) (by unfold shiftKey; rw [hkey]; rfl) hb
          (by rw [splice_length _ _ _ fits, hl]) ?_
        intro k hk'
        by_cases e : k = fnavId c.msg
        · rw [if_pos e, e, show 248 * (fnavId c.msg - 1) = 8 * fnavPos (fnavId c.msg) by omega]
          have := splice_seg_same fits
          rwa [wl] at this
        · rw [if_neg e]
          exact splice_seg_other fits (by omega)
    refine ⟨{ n with galFnav := n.galFnav.set (c.sat - 32 - 1) (splice b (8 * fnavPos (fnavId c.msg)) (field c.msg 0 248)) }, ?_, hi'⟩
    obtain ⟨b2, hb2, hl2, hh2⟩ := hi' _ hd
    rw [show c.sat - 32 - 1 = c.sat - 33 by omega, Dict.get?_set_self] at hb2
    cases hb2
    have ht := fnavTry_spec c.sat (svid := field c.msg 6 6) hl2 (field_length (by omega))
      (g := fun k => (fnavLast (cs ++ [c]) c.sat k).getD (List.replicate 248 false))
      (fun k hk => by
        have := hh2 k hk
        rw [lastC_shift] at this
        exact this)
    rw [ht, Py.okBind]
    have hid : ∀ k m, fnavLast (cs ++ [c]) c.sat k = some m → uval (field m 0 6) = k := by
      intro k m hm'
      obtain ⟨c', h1, h2, h3⟩ := lastC_mem hm'
      rw [← h3]
      show uval (field (field c'.msg 0 248) 0 6) = k
      rw [page_id]
      unfold fnavKey at h2
      by_cases h : 1 ≤ fnavId c'.msg ∧ fnavId c'.msg ≤ 4
      · rw [if_pos h] at h2
        simp only [Option.some.injEq, Prod.mk.injEq] at h2
        exact h2.2
      · rw [if_neg h] at h2; cases h2
    unfold fnavResult
    rw [if_pos (show fnavId c.msg ≤ 4 from hk)]
    simp only [pure, Except.pure]
    congr 2
    cases e1 : fnavLast (cs ++ [c]) c.sat 1 with
    | none => rw [if_neg]; intro h; have := h.1; rw [Option.getD_none, zero_idF] at this; omega
    | some m1 =>
      cases e2 : fnavLast (cs ++ [c]) c.sat 2 with
      | none => rw [if_neg]; intro h; have := h.2.1; rw [Option.getD_none, zero_idF] at this; omega
      | some m2 =>
        cases e3 : fnavLast (cs ++ [c]) c.sat 3 with
        | none => rw [if_neg]; intro h; have := h.2.2.1; rw [Option.getD_none, zero_idF] at this; omega
        | some m3 =>
          cases e4 : fnavLast (cs ++ [c]) c.sat 4 with
          | none => rw [if_neg]; intro h; have := h.2.2.2.1; rw [Option.getD_none, zero_idF] at this; omega
          | some m4 =>
            simp only [Option.getD_some, hid 1 m1 e1, hid 2 m2 e2, hid 3 m3 e3, hid 4 m4 e4, true_and]
  · rw [if_pos (by omega)]
    have hkey : fnavKey c = none := by unfold fnavKey; rw [if_neg (by omega)]
    refine ⟨n, ?_, SInv.same hi (fun s k _ _ => by unfold shiftKey; rw [hkey]; simp)⟩
    unfold fnavResult
    rw [if_neg hk]
    rfl

theorem fnavRun_spec : ∀ (cs pre : List Call) (n : Nav), FInv n.galFnav pre → (∀ c ∈ cs, GoodF c) →
    ∃ n' rs, fnavRun n cs = .ok (n', rs) ∧ rs.length = cs.length ∧
      ∀ i (hi : i < cs.length), rs[i]? = some (fnavResult (pre ++ cs.take i) cs[i])
  | [], pre, n, hi, _ => ⟨n, [], rfl, rfl, fun i hi => absurd hi (by simp)⟩
  | c :: cs, pre, n, hi, hg => by
    obtain ⟨n1, e1, hi1⟩ := fnav_step hi (hg c (by simp))
    obtain ⟨n2, rs, e2, hl, hr⟩ := fnavRun_spec cs (pre ++ [c]) n1 hi1 (fun c' h => hg c' (by simp [h]))
    refine ⟨n2, fnavResult pre c :: rs, ?_, by simp [hl], ?_⟩
    · unfold fnavRun
      rw [e1, Py.okBind]
      simp only
      rw [e2]
      rfl
    · intro i hi
      cases i with
      | zero => simp
      | succ i =>
        have := hr i (by simpa using hi)
        simpa using this

/-- **F/NAV.** Over every sequence of received pages the decoder never raises and each call
returns what `fnavResult` says: pages 1-4 of one issue, and the odd condition on the page just
received. -/
theorem fnav_history (cs : List Call) (h : ∀ c ∈ cs, GoodF c) :
    ∃ n rs, fnavRun Nav.init cs = .ok (n, rs) ∧ rs.length = cs.length ∧
      ∀ i (hi : i < cs.length), rs[i]? = some (fnavResult (cs.take i) cs[i]) := by
  obtain ⟨n, rs, h1, h2, h3⟩ := fnavRun_spec cs [] Nav.init finv_init h
  exact ⟨n, rs, h1, h2, by simpa using h3⟩

/-- a page 1 that completes a set yields the ephemeris -/
theorem fnav_page1 (cs : List Call) (c : Call) (h1 : fnavId c.msg = 1) {m2 m3 m4 : BitBuf}
    (e2 : fnavLast cs c.sat 2 = some m2) (e3 : fnavLast cs c.sat 3 = some m3) (e4 : fnavLast cs c.sat 4 = some m4)
    (hs : fnavSame (field c.msg 0 248) m2 m3 m4) :
    fnavResult cs c = some (fnavOf c.sat (field c.msg 0 248) m2 m3 m4) := by
  have hkey : fnavKey c = some (c.sat, 1) := by unfold fnavKey; rw [h1, if_pos (by omega)]
  have l1 : fnavLast (cs ++ [c]) c.sat 1 = some (field c.msg 0 248) := by
    unfold fnavLast; rw [lastC_append, hkey, if_pos rfl]
  have l2 : fnavLast (cs ++ [c]) c.sat 2 = some m2 := by
    unfold fnavLast; rw [lastC_append, hkey, if_neg (by simp)]; exact e2
  have l3 : fnavLast (cs ++ [c]) c.sat 3 = some m3 := by
    unfold fnavLast; rw [lastC_append, hkey, if_neg (by simp)]; exact e3
  have l4 : fnavLast (cs ++ [c]) c.sat 4 = some m4 := by
    unfold fnavLast; rw [lastC_append, hkey, if_neg (by simp)]; exact e4
  have e : field (field c.msg 0 248) 6 6 = field c.msg 6 6 := by
    unfold field
    rw [List.drop_zero, List.drop_take, List.take_take]
    rfl
  unfold fnavResult
  rw [if_pos (by omega), l1, l2, l3, l4]
  simp only
  rw [e, if_pos ⟨rfl, hs⟩]

/-- **Defect**: a page 2, 3 or 4 that completes a set yields an ephemeris only if the six leading
bits of the issue number happen to equal the satellite number. -/
theorem fnav_page234 (cs : List Call) (c : Call) (h : fnavId c.msg = 2 ∨ fnavId c.msg = 3 ∨ fnavId c.msg = 4)
    {e : Eph} (hr : fnavResult cs c = some e) :
    ∃ m1, fnavLast cs c.sat 1 = some m1 ∧ (field m1 12 10).take 6 = field m1 6 6 := by
  unfold fnavResult at hr
  rw [if_pos (by omega)] at hr
  have hkey : fnavKey c = some (c.sat, fnavId c.msg) := by unfold fnavKey; rw [if_pos (by omega)]
  have hl : ∀ k, fnavLast (cs ++ [c]) c.sat k = if fnavId c.msg = k then some (field c.msg 0 248) else fnavLast cs c.sat k := by
    intro k
    unfold fnavLast
    rw [lastC_append, hkey]
    by_cases ck : fnavId c.msg = k
    · rw [if_pos ck, if_pos (by rw [ck])]
    · rw [if_neg ck, if_neg (by simp [ck])]
  rw [hl 1, hl 2, hl 3, hl 4, if_neg (show ¬fnavId c.msg = 1 by omega)] at hr
  cases e1 : fnavLast cs c.sat 1 with
  | none => rw [e1] at hr; cases hr
  | some m1 =>
    rw [e1] at hr
    refine ⟨m1, rfl, ?_⟩
    have sub : field (field c.msg 0 248) 6 10 = field c.msg 6 10 := by
      unfold field
      rw [List.drop_zero, List.drop_take, List.take_take]
      rfl
    have pre : (field c.msg 6 10).take 6 = field c.msg 6 6 := by
      unfold field; rw [List.take_take]; rfl
    rcases h with h | h | h
    · rw [h] at hr
      simp only [if_true, Nat.reduceEqDiff, if_false] at hr
      cases e3 : fnavLast cs c.sat 3 with
      | none => rw [e3] at hr; cases hr
      | some m3 =>
        cases e4 : fnavLast cs c.sat 4 with
        | none => rw [e3, e4] at hr; cases hr
        | some m4 =>
          rw [e3, e4] at hr
          simp only at hr
          by_cases cc : field c.msg 6 6 = field m1 6 6 ∧ fnavSame m1 (field c.msg 0 248) m3 m4
          · have := cc.2.1
            rw [sub] at this
            rw [← this, pre, cc.1]
          · rw [if_neg cc] at hr; cases hr
    · rw [h] at hr
      simp only [if_true, Nat.reduceEqDiff, if_false] at hr
      cases e3 : fnavLast cs c.sat 2 with
      | none => rw [e3] at hr; cases hr
      | some m3 =>
        cases e4 : fnavLast cs c.sat 4 with
        | none => rw [e3, e4] at hr; cases hr
        | some m4 =>
          rw [e3, e4] at hr
          simp only at hr
          by_cases cc : field c.msg 6 6 = field m1 6 6 ∧ fnavSame m1 m3 (field c.msg 0 248) m4
          · have := cc.2.2.1
            rw [sub] at this
            rw [← this, pre, cc.1]
          · rw [if_neg cc] at hr; cases hr
    · rw [h] at hr
      simp only [if_true, Nat.reduceEqDiff, if_false] at hr
      cases e3 : fnavLast cs c.sat 2 with
      | none => rw [e3] at hr; cases hr
      | some m3 =>
        cases e4 : fnavLast cs c.sat 3 with
        | none => rw [e3, e4] at hr; cases hr
        | some m4 =>
          rw [e3, e4] at hr
          simp only at hr
          by_cases cc : field c.msg 6 6 = field m1 6 6 ∧ fnavSame m1 m3 m4 (field c.msg 0 248)
          · have := cc.2.2.2
            rw [sub] at this
            rw [← this, pre, cc.1]
          · rw [if_neg cc] at hr; cases hr

/-! ## Concrete histories -/

def exWord (k iod : Nat) : BitBuf :=
  [false, false] ++ natToBits 6 k ++ natToBits 10 iod ++ List.replicate 222 false

def exI : List Call :=
  [⟨36, 0, exWord 5 0⟩, ⟨36, 0, exWord 1 99⟩, ⟨36, 0, exWord 2 99⟩, ⟨36, 0, exWord 3 99⟩, ⟨40, 0, exWord 4 99⟩,
   ⟨36, 0, exWord 6 0⟩, ⟨36, 0, exWord 4 98⟩, ⟨36, 0, exWord 4 99⟩]

example : ∀ c ∈ exI, GoodI c := by unfold GoodI Galileo; decide +kernel
example : (exI.zipIdx.map fun (c, i) => (inavResult (exI.take i) c).isSome) =
    [false, false, false, false, false, false, false, true] := by decide +kernel

def exPage (k sv iod : Nat) : BitBuf :=
  natToBits 6 k ++ (if k = 1 then natToBits 6 sv else []) ++ natToBits 10 iod ++ List.replicate 232 false

/-- the set is complete with page 4, but only the next page 1 yields the ephemeris -/
def exF : List Call :=
  [⟨36, 1, exPage 1 4 99⟩, ⟨36, 1, exPage 2 4 99⟩, ⟨36, 1, exPage 3 4 99⟩, ⟨36, 1, exPage 4 4 99⟩, ⟨36, 1, exPage 1 4 99⟩]

example : ∀ c ∈ exF, GoodF c := by unfold GoodF Galileo; decide +kernel
example : (exF.zipIdx.map fun (c, i) => (fnavResult (exF.take i) c).isSome) = [false, false, false, false, true] := by
  decide +kernel

end Verif.C38
