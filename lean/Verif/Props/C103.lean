import Verif.Model.Jma
import Verif.Lemmas.Fld
/-!
C103: disaster reports of the Japan Meteorological Agency.
-/

namespace Verif.C103
open Verif.Jma Verif.RtcmInteg Verif.Time
open Verif.Cssr (positions)

/-! ### specification -/

/-- the bits of unsigned numbers: width and value -/
def ub (l : List (Nat × Nat)) : List Bool := l.flatMap fun x => natToBits x.1 x.2

/-- the numbers fit their fields -/
def Fits (l : List (Nat × Nat)) : Prop := ∀ x ∈ l, x.2 < 2 ^ x.1

/-- month, day, hour and minute of the report -/
structure Date where
  mo : Nat
  d : Nat
  h : Nat
  mi : Nat

def Date.f (x : Date) : List (Nat × Nat) := [(4, x.mo), (5, x.d), (5, x.h), (6, x.mi)]

/-- day, hour and minute of the event -/
structure Clock where
  d : Nat
  h : Nat
  mi : Nat

def Clock.f (x : Clock) : List (Nat × Nat) := [(5, x.d), (5, x.h), (6, x.mi)]

/-- that minute -/
def instant (y : Int) (mo d h mi : Nat) : GTime := epoch2time ⟨y, mo, d, h, mi, 0⟩

/-- the year of the clock of the decoder -/
def yearOf (s : St) : Int := (time2epoch s.time).year

/-- what every report sets: class, version, report time, all in the year of the clock of the decoder -/
def base (s : St) (x : Date) (kind ver : Nat) : St :=
  { s with it := kind, vn := ver, year := yearOf s, month := (time2epoch s.time).mon, ta := instant (yearOf s) x.mo x.d x.h x.mi }

/-- the time of the event: day, hour and minute, in year and month of the report -/
def event (s : St) (x : Date) (c : Clock) : GTime := instant (yearOf s) x.mo c.d c.h c.mi

/-- degrees, minutes, seconds; negative with the sign bit -/
structure Dms where
  neg : Bool
  d : Nat
  m : Nat
  s : Nat

def Dms.f (n : Nat) (x : Dms) : List (Nat × Nat) := [(1, if x.neg then 1 else 0), (n, x.d), (6, x.m), (6, x.s)]

def Dms.val (x : Dms) : ℚ := (if x.neg then -1 else 1) * (x.d + x.m / 60 + x.s / 3600)

/-- end of a report: version and spare bits -/
def tailF (ver sp : Nat) : List Bool := ub [(6, ver)] ++ ub [(6, sp)]

structure Quake where
  date : Date
  kind : Nat
  sp1 : Nat
  lo : Nat
  hi : Nat
  notes : List Nat
  time : Clock
  depth : Nat
  mag : Nat
  epicentre : Nat
  il : Nat
  iu : Nat
  regions : List Bool
  sp2 : Nat
  ver : Nat
  sp3 : Nat

def Quake.bits (c : Quake) : List Bool :=
  ub c.date.f ++ (ub [(2, c.kind), (4, c.sp1)] ++ (ub [(3, c.lo), (3, c.hi)] ++ (c.notes.flatMap (fun v => ub [(9, v)]) ++ (ub c.time.f ++
  (ub [(9, c.depth), (7, c.mag)] ++ (ub [(10, c.epicentre), (4, c.il), (4, c.iu)] ++ (c.regions.flatMap (fun x => [x]) ++
  (ub [(4, c.sp2)] ++ tailF c.ver c.sp3))))))))

def Quake.Fit (c : Quake) : Prop :=
  Fits c.date.f ∧ Fits [(2, c.kind), (4, c.sp1)] ∧ Fits [(3, c.lo), (3, c.hi)] ∧ c.notes.length = 3 ∧ (∀ v ∈ c.notes, v < 2 ^ 9) ∧ Fits c.time.f ∧
  Fits [(9, c.depth), (7, c.mag)] ∧ Fits [(10, c.epicentre), (4, c.il), (4, c.iu)] ∧ c.regions.length = 80 ∧ Fits [(4, c.sp2)] ∧
  Fits [(6, c.ver)] ∧ Fits [(6, c.sp3)]

/-- the ends of the two ranges have texts -/
def Quake.Known (T : Tables) (c : Quake) : Prop :=
  T.longm c.lo ∧ T.longm c.hi ∧ T.sil c.il ∧ (c.il ≠ c.iu → T.siu c.iu)

structure Hypo where
  date : Date
  kind : Nat
  sp1 : Nat
  notes : List Nat
  time : Clock
  depth : Nat
  mag : Nat
  epicentre : Nat
  lat : Dms
  lon : Dms
  sp2 : Nat
  ver : Nat
  sp3 : Nat

def Hypo.bits (c : Hypo) : List Bool :=
  ub c.date.f ++ (ub [(2, c.kind), (10, c.sp1)] ++ (c.notes.flatMap (fun v => ub [(9, v)]) ++ (ub c.time.f ++
  (ub [(9, c.depth), (7, c.mag), (10, c.epicentre)] ++ (ub (c.lat.f 7) ++ (ub (c.lon.f 8) ++ (ub [(51, c.sp2)] ++ tailF c.ver c.sp3)))))))

def Hypo.Fit (c : Hypo) : Prop :=
  Fits c.date.f ∧ Fits [(2, c.kind), (10, c.sp1)] ∧ c.notes.length = 3 ∧ (∀ v ∈ c.notes, v < 2 ^ 9) ∧ Fits c.time.f ∧
  Fits [(9, c.depth), (7, c.mag), (10, c.epicentre)] ∧ Fits (c.lat.f 7) ∧ Fits (c.lon.f 8) ∧ Fits [(51, c.sp2)] ∧
  Fits [(6, c.ver)] ∧ Fits [(6, c.sp3)]

structure Inten where
  date : Date
  kind : Nat
  sp1 : Nat
  time : Clock
  list : List (Nat × Nat)
  sp2 : Nat
  ver : Nat
  sp3 : Nat

/-- a list of pairs -/
def pairs (n m : Nat) (l : List (Nat × Nat)) : List Bool := l.flatMap fun x => ub [(n, x.1), (m, x.2)]

def Inten.bits (c : Inten) : List Bool :=
  ub c.date.f ++ (ub [(2, c.kind), (10, c.sp1)] ++ (ub c.time.f ++ (pairs 3 6 c.list ++ (ub [(1, c.sp2)] ++ tailF c.ver c.sp3))))

def Inten.Fit (c : Inten) : Prop :=
  Fits c.date.f ∧ Fits [(2, c.kind), (10, c.sp1)] ∧ Fits c.time.f ∧ c.list.length = 16 ∧ (∀ x ∈ c.list, x.1 < 2 ^ 3 ∧ x.2 < 2 ^ 6) ∧
  Fits [(1, c.sp2)] ∧ Fits [(6, c.ver)] ∧ Fits [(6, c.sp3)]

structure Nankai where
  date : Date
  kind : Nat
  sp1 : Nat
  code : Nat
  text : List Nat
  pn : Nat
  pm : Nat
  sp2 : Nat
  ver : Nat
  sp3 : Nat

def Nankai.bits (c : Nankai) : List Bool :=
  ub c.date.f ++ (ub [(2, c.kind), (10, c.sp1), (4, c.code)] ++ (c.text.flatMap (fun v => ub [(8, v)]) ++ (ub [(6, c.pn), (6, c.pm)] ++
  (ub [(1, c.sp2)] ++ tailF c.ver c.sp3))))

def Nankai.Fit (c : Nankai) : Prop :=
  Fits c.date.f ∧ Fits [(2, c.kind), (10, c.sp1), (4, c.code)] ∧ c.text.length = 18 ∧ (∀ v ∈ c.text, v < 2 ^ 8) ∧ Fits [(6, c.pn), (6, c.pm)] ∧
  Fits [(1, c.sp2)] ∧ Fits [(6, c.ver)] ∧ Fits [(6, c.sp3)]

/-- arrival of a tsunami: today or tomorrow, hour, minute, height, region -/
structure Arrival where
  d : Nat
  h : Nat
  mi : Nat
  height : Nat
  region : Nat
  deriving DecidableEq

def Arrival.bits (n m : Nat) (x : Arrival) : List Bool := ub [(1, x.d), (5, x.h), (6, x.mi)] ++ ub [(n, x.height), (m, x.region)]

def Arrival.Fit (n m : Nat) (x : Arrival) : Prop := Fits [(1, x.d), (5, x.h), (6, x.mi)] ∧ Fits [(n, x.height), (m, x.region)]

structure Tsunami where
  date : Date
  kind : Nat
  sp1 : Nat
  notes : List Nat
  code : Nat
  list : List Arrival
  ver : Nat
  sp3 : Nat

def Tsunami.bits (c : Tsunami) : List Bool :=
  ub c.date.f ++ (ub [(2, c.kind), (10, c.sp1)] ++ (c.notes.flatMap (fun v => ub [(9, v)]) ++ (ub [(4, c.code)] ++
  (c.list.flatMap (Arrival.bits 4 10) ++ tailF c.ver c.sp3))))

def Tsunami.Fit (c : Tsunami) : Prop :=
  Fits c.date.f ∧ Fits [(2, c.kind), (10, c.sp1)] ∧ c.notes.length = 3 ∧ (∀ v ∈ c.notes, v < 2 ^ 9) ∧ Fits [(4, c.code)] ∧
  c.list.length = 5 ∧ (∀ x ∈ c.list, x.Fit 4 10) ∧ Fits [(6, c.ver)] ∧ Fits [(6, c.sp3)]

structure NpTsunami where
  date : Date
  kind : Nat
  sp1 : Nat
  potential : Nat
  list : List Arrival
  sp2 : Nat
  ver : Nat
  sp3 : Nat

def NpTsunami.bits (c : NpTsunami) : List Bool :=
  ub c.date.f ++ (ub [(2, c.kind), (10, c.sp1), (3, c.potential)] ++ (c.list.flatMap (Arrival.bits 9 7) ++ (ub [(18, c.sp2)] ++ tailF c.ver c.sp3)))

def NpTsunami.Fit (c : NpTsunami) : Prop :=
  Fits c.date.f ∧ Fits [(2, c.kind), (10, c.sp1), (3, c.potential)] ∧ c.list.length = 5 ∧ (∀ x ∈ c.list, x.Fit 9 7) ∧
  Fits [(18, c.sp2)] ∧ Fits [(6, c.ver)] ∧ Fits [(6, c.sp3)]

structure Volcano where
  date : Date
  kind : Nat
  sp1 : Nat
  ambiguity : Nat
  time : Clock
  code : Nat
  volcano : Nat
  regions : List Nat
  sp2 : Nat
  ver : Nat
  sp3 : Nat

def Volcano.bits (c : Volcano) : List Bool :=
  ub c.date.f ++ (ub [(2, c.kind), (7, c.sp1), (3, c.ambiguity)] ++ (ub c.time.f ++ (ub [(7, c.code), (12, c.volcano)] ++
  (c.regions.flatMap (fun v => ub [(23, v)]) ++ (ub [(11, c.sp2)] ++ tailF c.ver c.sp3)))))

def Volcano.Fit (c : Volcano) : Prop :=
  Fits c.date.f ∧ Fits [(2, c.kind), (7, c.sp1), (3, c.ambiguity)] ∧ Fits c.time.f ∧ Fits [(7, c.code), (12, c.volcano)] ∧
  c.regions.length = 5 ∧ (∀ v ∈ c.regions, v < 2 ^ 23) ∧ Fits [(11, c.sp2)] ∧ Fits [(6, c.ver)] ∧ Fits [(6, c.sp3)]

/-- hours, code, region -/
structure AshRow where
  hours : Nat
  code : Nat
  region : Nat

def AshRow.f (x : AshRow) : List (Nat × Nat) := [(3, x.hours), (3, x.code), (23, x.region)]

structure Ash where
  date : Date
  kind : Nat
  sp1 : Nat
  time : Clock
  code : Nat
  volcano : Nat
  list : List AshRow
  sp2 : Nat
  ver : Nat
  sp3 : Nat

def Ash.bits (c : Ash) : List Bool :=
  ub c.date.f ++ (ub [(2, c.kind)] ++ (ub [(10, c.sp1)] ++ (ub (c.time.f ++ [(2, c.code), (12, c.volcano)]) ++
  (c.list.flatMap (fun x => ub x.f) ++ (ub [(15, c.sp2)] ++ tailF c.ver c.sp3)))))

def Ash.Fit (c : Ash) : Prop :=
  Fits c.date.f ∧ Fits [(2, c.kind)] ∧ Fits [(10, c.sp1)] ∧ Fits (c.time.f ++ [(2, c.code), (12, c.volcano)]) ∧ c.list.length = 4 ∧
  (∀ x ∈ c.list, Fits x.f) ∧ Fits [(15, c.sp2)] ∧ Fits [(6, c.ver)] ∧ Fits [(6, c.sp3)]

/-- reports of pairs -/
structure Weather where
  date : Date
  kind : Nat
  sp1 : Nat
  state : Nat
  list : List (Nat × Nat)
  sp2 : Nat
  ver : Nat
  sp3 : Nat

def Weather.bits (c : Weather) : List Bool :=
  ub c.date.f ++ (ub [(2, c.kind), (10, c.sp1), (3, c.state)] ++ (pairs 5 19 c.list ++ (ub [(14, c.sp2)] ++ tailF c.ver c.sp3)))

def Weather.Fit (c : Weather) : Prop :=
  Fits c.date.f ∧ Fits [(2, c.kind), (10, c.sp1), (3, c.state)] ∧ c.list.length = 6 ∧ (∀ x ∈ c.list, x.1 < 2 ^ 5 ∧ x.2 < 2 ^ 19) ∧
  Fits [(14, c.sp2)] ∧ Fits [(6, c.ver)] ∧ Fits [(6, c.sp3)]

structure Flood where
  date : Date
  kind : Nat
  sp1 : Nat
  list : List (Nat × Nat)
  sp2 : Nat
  ver : Nat
  sp3 : Nat

def Flood.bits (c : Flood) : List Bool :=
  ub c.date.f ++ (ub [(2, c.kind), (10, c.sp1)] ++ (pairs 4 40 c.list ++ (ub [(29, c.sp2)] ++ tailF c.ver c.sp3)))

def Flood.Fit (c : Flood) : Prop :=
  Fits c.date.f ∧ Fits [(2, c.kind), (10, c.sp1)] ∧ c.list.length = 3 ∧ (∀ x ∈ c.list, x.1 < 2 ^ 4 ∧ x.2 < 2 ^ 40) ∧
  Fits [(29, c.sp2)] ∧ Fits [(6, c.ver)] ∧ Fits [(6, c.sp3)]

structure Typhoon where
  date : Date
  kind : Nat
  sp1 : Nat
  time : Clock
  refType : Nat
  sp2 : Nat
  hours : Nat
  number : Nat
  scale : Nat
  intensity : Nat
  lat : Dms
  lon : Dms
  pressure : Nat
  wind : Nat
  gust : Nat
  sp3 : Nat
  ver : Nat
  sp4 : Nat

def Typhoon.bits (c : Typhoon) : List Bool :=
  ub c.date.f ++ (ub ([(2, c.kind), (10, c.sp1)] ++ c.time.f ++ [(3, c.refType)]) ++ (ub [(8, c.sp2)] ++
  (ub [(7, c.hours), (7, c.number), (4, c.scale), (4, c.intensity)] ++ (ub (c.lat.f 7) ++ (ub (c.lon.f 8) ++
  (ub [(11, c.pressure), (7, c.wind), (7, c.gust)] ++ (ub [(46, c.sp3)] ++ tailF c.ver c.sp4)))))))

def Typhoon.Fit (c : Typhoon) : Prop :=
  Fits c.date.f ∧ Fits ([(2, c.kind), (10, c.sp1)] ++ c.time.f ++ [(3, c.refType)]) ∧ Fits [(8, c.sp2)] ∧
  Fits [(7, c.hours), (7, c.number), (4, c.scale), (4, c.intensity)] ∧ Fits (c.lat.f 7) ∧ Fits (c.lon.f 8) ∧
  Fits [(11, c.pressure), (7, c.wind), (7, c.gust)] ∧ Fits [(46, c.sp3)] ∧ Fits [(6, c.ver)] ∧ Fits [(6, c.sp4)]

structure Marine where
  date : Date
  kind : Nat
  sp1 : Nat
  list : List (Nat × Nat)
  sp2 : Nat
  ver : Nat
  sp3 : Nat

def Marine.bits (c : Marine) : List Bool :=
  ub c.date.f ++ (ub [(2, c.kind)] ++ (ub [(10, c.sp1)] ++ (pairs 5 14 c.list ++ (ub [(9, c.sp2)] ++ tailF c.ver c.sp3))))

def Marine.Fit (c : Marine) : Prop :=
  Fits c.date.f ∧ Fits [(2, c.kind)] ∧ Fits [(10, c.sp1)] ∧ c.list.length = 8 ∧ (∀ x ∈ c.list, x.1 < 2 ^ 5 ∧ x.2 < 2 ^ 14) ∧
  Fits [(9, c.sp2)] ∧ Fits [(6, c.ver)] ∧ Fits [(6, c.sp3)]

/-- entries that are not all zero -/
def given (l : List (Nat × Nat)) : List (Nat × Nat) := l.filter fun x => x ≠ (0, 0)

/-- the two numbers as integers -/
def ints (x : Nat × Nat) : Int × Int := ((x.1 : Int), (x.2 : Int))

/-- the entry is not all zero -/
def Arrival.some' (x : Arrival) : Bool := x ≠ ⟨0, 0, 0, 0, 0⟩

def AshRow.row (x : AshRow) : Int × Int × Int := ((x.hours : Int), (x.code : Int), (x.region : Int))

/-- the volcano, and code and region of every entry in use, have texts -/
def Ash.Known (T : Tables) (c : Ash) : Prop :=
  T.vo c.volcano ∧ ∀ x ∈ c.list, x.region ≠ 0 → T.regV x.region ∧ T.dw x.code

/-! ### reading -/

theorem rd {b : BitBuf} {i : Nat} {m : List Bool} (l : List (Nat × Nat)) (hf : Fits l) (h : At b i (ub l ++ m)) :
    flds b i (us (l.map Prod.fst)) = .ok (l.map fun x => (x.2 : Int)) ∧ At b (i + (l.map Prod.fst).sum) m := by
  have e := flds_at (b := b) (i := i) (m := m) (l.map fun x => F.u x.1 x.2)
    (by intro x hx; obtain ⟨y, hy, rfl⟩ := List.mem_map.1 hx; exact hf y hy)
    (by simpa [fb, ub, List.flatMap_map, F.bits] using h)
  simpa [us, List.map_map, Function.comp_def, F.fmt, F.val] using e

theorem rows_at {C R : Type} {b : BitBuf} {f : Nat → Py (R × Nat)} {bits : C → List Bool} {val : C → R} {l : List C} {k n i : Nat}
    {m : List Bool} (hl : l.length = k) (hr : ∀ x ∈ l, Rd b f (bits x) (val x)) (hn : ∀ x, (bits x).length = n)
    (h : At b i (l.flatMap bits ++ m)) : rows f k i = .ok (l.map val, i + k * n) ∧ At b (i + k * n) m := by
  have e : (l.flatMap bits).length = k * n := by
    subst hl
    clear hr h
    induction l with
    | nil => simp
    | cons x l ih => simp [hn, ih, Nat.add_mul, Nat.add_comm]
  refine ⟨?_, h.tail' e⟩
  have := rows_rd hr i h.head
  rwa [hl, e] at this

theorem ub_length (l : List (Nat × Nat)) : (ub l).length = (l.map Prod.fst).sum := by
  simp [ub, List.length_flatMap]

theorem num_rd {b : BitBuf} (n v : Nat) (h : v < 2 ^ n) : Rd b (num n b) (ub [(n, v)]) (v : Int) := by
  intro i hat
  obtain ⟨e1, -⟩ := rd (m := []) [(n, v)] (by simpa [Fits] using h) (by simpa using hat)
  simp only [List.map_cons, List.map_nil] at e1
  simp only [num, e1, Py.okBind, el, List.getD_cons_zero, ub_length, List.map_cons, List.map_nil, List.sum_cons, List.sum_nil, Nat.add_zero]
  rfl

theorem num2_rd {b : BitBuf} (n m : Nat) (x : Nat × Nat) (h : x.1 < 2 ^ n ∧ x.2 < 2 ^ m) :
    Rd b (num2 n m b) (ub [(n, x.1), (m, x.2)]) ((x.1 : Int), (x.2 : Int)) := by
  intro i hat
  obtain ⟨e1, -⟩ := rd (m := []) [(n, x.1), (m, x.2)] (by simpa [Fits] using h) (by simpa using hat)
  simp only [List.map_cons, List.map_nil] at e1
  simp only [num2, e1, Py.okBind, el, List.getD_cons_zero, List.getD_cons_succ, ub_length, List.map_cons, List.map_nil, List.sum_cons,
    List.sum_nil, Nat.add_zero]
  rfl

theorem bit_rd {b : BitBuf} (x : Bool) : Rd b (num 1 b) [x] (if x then 1 else 0 : Int) := by
  have := num_rd (b := b) 1 (if x then 1 else 0) (by cases x <;> simp)
  intro i hat
  have := this i (by cases x <;> simpa [ub, natToBits] using hat)
  rw [this]
  cases x <;> simp [ub]

/-- the five numbers of an arrival -/
def Arrival.row (x : Arrival) : List Int := [(x.d : Int), x.h, x.mi, x.height, x.region]

theorem arrival_rd {b : BitBuf} (n m : Nat) (x : Arrival) (h : x.Fit n m) : Rd b (arrival n m b) (x.bits n m) x.row := by
  intro i hat
  obtain ⟨e1, r1⟩ := rd _ h.1 hat
  obtain ⟨e2, -⟩ := rd (m := []) _ h.2 (by simpa using r1)
  simp only [List.map_cons, List.map_nil, List.sum_cons, List.sum_nil, Nat.add_zero, Nat.reduceAdd] at e1 e2
  simp only [arrival, e1, e2, Py.okBind, Arrival.bits, List.length_append, ub_length, List.map_cons, List.map_nil, List.sum_cons, List.sum_nil,
    Nat.add_zero, Nat.reduceAdd]
  rfl

theorem arrival_length (n m : Nat) (x : Arrival) : (x.bits n m).length = 12 + (n + m) := by
  simp [Arrival.bits, ub_length]

theorem setBits_eq : ∀ (l : List Bool) (k : Nat), setBits k (l.map fun x => (if x then 1 else 0 : Int)) = positions k l
  | [], k => by simp [setBits, positions]
  | x :: l, k => by
    cases x <;> simp [setBits, positions, setBits_eq l]

theorem angle_eq (n : Nat) (x : Dms) : angle ((x.f n).map fun y => (y.2 : Int)) = x.val := by
  cases x with | mk neg d m s => cases neg <;> simp [angle, Dms.f, Dms.val, el]

theorem given_eq (l : List (Nat × Nat)) :
    ((l.map fun x : Nat × Nat => ((x.1 : Int), (x.2 : Int))).filter fun x => !(x.1 == 0 && x.2 == 0)) = (given l).map ints := by
  rw [List.filter_map]
  unfold given ints
  congr 1
  apply List.filter_congr
  intro x _
  obtain ⟨x, y⟩ := x
  rw [Bool.eq_iff_iff]
  simp [Prod.ext_iff]

theorem both_filter (l : List (Nat × Nat)) :
    ((l.map fun x : Nat × Nat => ((x.1 : Int), (x.2 : Int))).filter fun x => !(x.1 == 0 || x.2 == 0)) =
      (l.filter fun x => x.1 ≠ 0 ∧ x.2 ≠ 0).map ints := by
  rw [List.filter_map]
  unfold ints
  congr 1
  apply List.filter_congr
  intro x _
  rw [Bool.eq_iff_iff]
  simp

theorem pos_filter (l : List Nat) :
    ((l.map fun v : Nat => (v : Int)).filter fun x => decide (x > 0)) = (l.filter fun v => v ≠ 0).map fun v : Nat => (v : Int) := by
  rw [List.filter_map]
  congr 1
  apply List.filter_congr
  intro x _
  simp [Nat.pos_iff_ne_zero]

theorem ash_filter (l : List AshRow) :
    ((l.map AshRow.row).filter fun x => decide (x.2.2 > 0)) = (l.filter fun x => x.region ≠ 0).map AshRow.row := by
  rw [List.filter_map]
  congr 1
  apply List.filter_congr
  intro x _
  simp [AshRow.row, Nat.pos_iff_ne_zero]

theorem row_filter (l : List Arrival) :
    ((l.map Arrival.row).filter fun x => !(x.getD 0 0 == 0 && x.getD 1 0 == 0 && x.getD 2 0 == 0 && x.getD 3 0 == 0 && x.getD 4 0 == 0)) =
      (l.filter Arrival.some').map Arrival.row := by
  rw [List.filter_map]
  congr 1
  apply List.filter_congr
  intro x _
  cases x
  rw [Bool.eq_iff_iff]
  simp [Arrival.row, Arrival.some']
  omega

theorem ash_rd (T : Tables) {b : BitBuf} (x : AshRow) (h : Fits x.f) (hk : x.region ≠ 0 → T.regV x.region ∧ T.dw x.code) :
    Rd b (ashRow T b) (ub x.f) x.row := by
  intro i hat
  obtain ⟨e1, -⟩ := rd (m := []) _ h (by simpa using hat)
  simp only [AshRow.f, List.map_cons, List.map_nil] at e1
  simp only [ashRow, e1, Py.okBind, el, List.getD_cons_zero, List.getD_cons_succ, ub_length, AshRow.f, List.map_cons, List.map_nil,
    List.sum_cons, List.sum_nil, Nat.add_zero, Nat.reduceAdd]
  by_cases hz : x.region = 0
  · simp [hz, AshRow.row]; rfl
  · have : (x.region : Int) > 0 := by omega
    rw [if_pos this]
    simp [look, hk hz, AshRow.row]; rfl

/-- normal form of what `rd` and `rows_at` give -/
local macro "nrm" " at " h:ident : tactic =>
  `(tactic| simp only [Date.f, Clock.f, Dms.f, AshRow.f, List.cons_append, List.nil_append, List.map_cons, List.map_nil, List.sum_cons, List.sum_nil, Nat.add_zero, Nat.add_assoc,
    Nat.reduceAdd, Nat.reduceMul] at $h:ident)

/-! ### theorems -/

theorem earthquake_report (T : Tables) (b : BitBuf) (s : St) (i : Nat) (c : Quake) (h : c.Fit) (hk : c.Known T) (hat : At b i c.bits) :
    earthquake T b s i = .ok ({ base s c.date c.kind c.ver with
      tb := .one (event s c.date c.time)
      params := .quake (positions 0 c.regions) c.depth (c.mag * (1 / 10)) (time2epoch s.time) c.il c.iu }, i + 205) := by
  obtain ⟨f1, f2, f3, l4, f4, f5, f6, f7, l8, f9, f10, f11⟩ := h
  obtain ⟨e1, r1⟩ := rd _ f1 hat
  obtain ⟨e2, r2⟩ := rd _ f2 r1
  obtain ⟨e3, r3⟩ := rd _ f3 r2
  obtain ⟨e4, r4⟩ := rows_at (n := 9) l4 (fun v hv => num_rd 9 v (f4 v hv)) (fun v => by simp [ub_length]) r3
  obtain ⟨e5, r5⟩ := rd _ f5 r4
  obtain ⟨e6, r6⟩ := rd _ f6 r5
  obtain ⟨e7, r7⟩ := rd _ f7 r6
  obtain ⟨e8, r8⟩ := rows_at (n := 1) l8 (fun v _ => bit_rd v) (fun v => rfl) r7
  obtain ⟨e9, r9⟩ := rd _ f9 r8
  obtain ⟨e10, -⟩ := rd _ f10 r9
  nrm at e1; nrm at e2; nrm at e3; nrm at e4; nrm at e5; nrm at e6; nrm at e7; nrm at e8; nrm at e9; nrm at e10
  obtain ⟨k1, k2, k3, k4⟩ := hk
  have g1 : lookRange T.longm T.longm (c.lo : Int) (c.hi : Int) = .ok () := by
    unfold lookRange look; simp [k1, k2]; intro _; rfl
  have g2 : lookRange T.sil T.siu (c.il : Int) (c.iu : Int) = .ok () := by
    unfold lookRange look
    by_cases hh : c.il = c.iu
    · simp [hh ▸ k3, hh]
    · simp [k3, k4 hh, hh]; rfl
  simp only [earthquake, e1, e2, e3, e4, e5, e6, e7, e8, e9, e10, g1, g2, Py.okBind, el, List.getD_cons_zero, List.getD_cons_succ, Nat.add_assoc,
    Nat.reduceAdd, Nat.reduceMul, setBits_eq]
  rfl

theorem hypocenter_report (b : BitBuf) (s : St) (i : Nat) (c : Hypo) (h : c.Fit) (hat : At b i c.bits) :
    hypocenter b s i = .ok ({ base s c.date c.kind c.ver with
      pos := (c.lat.val, c.lon.val)
      params := .hypo (c.notes.map fun v : Nat => (v : Int)) c.depth (c.mag * (1 / 10)) (time2epoch s.time) }, i + 205) := by
  obtain ⟨f1, f2, l3, f3, f4, f5, f6, f7, f8, f9, -⟩ := h
  obtain ⟨e1, r1⟩ := rd _ f1 hat
  obtain ⟨e2, r2⟩ := rd _ f2 r1
  obtain ⟨e3, r3⟩ := rows_at (n := 9) l3 (fun v hv => num_rd 9 v (f3 v hv)) (fun v => by simp [ub_length]) r2
  obtain ⟨e4, r4⟩ := rd _ f4 r3
  obtain ⟨e5, r5⟩ := rd _ f5 r4
  obtain ⟨e6, r6⟩ := rd _ f6 r5
  obtain ⟨e7, r7⟩ := rd _ f7 r6
  obtain ⟨e8, r8⟩ := rd _ f8 r7
  obtain ⟨e9, -⟩ := rd _ f9 r8
  nrm at e1; nrm at e2; nrm at e3; nrm at e4; nrm at e5; nrm at e6; nrm at e7; nrm at e8; nrm at e9
  have a1 := angle_eq 7 c.lat
  have a2 := angle_eq 8 c.lon
  nrm at a1; nrm at a2
  simp only [hypocenter, e1, e2, e3, e4, e5, e6, e7, e8, e9, Py.okBind, el, List.getD_cons_zero, List.getD_cons_succ, Nat.add_assoc,
    Nat.reduceAdd, Nat.reduceMul, a1, a2]
  rfl

theorem intensity_report (b : BitBuf) (s : St) (i : Nat) (c : Inten) (h : c.Fit) (hat : At b i c.bits) :
    intensity b s i = .ok ({ base s c.date c.kind c.ver with
      tb := .one (event s c.date c.time)
      params := .intensity ((given c.list).map fun x => (x.1 : Int)) ((given c.list).map fun x => (x.2 : Int)) }, i + 205) := by
  obtain ⟨f1, f2, f3, l4, f4, f5, f6, -⟩ := h
  obtain ⟨e1, r1⟩ := rd _ f1 hat
  obtain ⟨e2, r2⟩ := rd _ f2 r1
  obtain ⟨e3, r3⟩ := rd _ f3 r2
  obtain ⟨e4, r4⟩ := rows_at (n := 9) l4 (fun v hv => num2_rd 3 6 v (f4 v hv)) (fun v => by simp [ub_length]) r3
  obtain ⟨e5, r5⟩ := rd _ f5 r4
  obtain ⟨e6, -⟩ := rd _ f6 r5
  nrm at e1; nrm at e2; nrm at e3; nrm at e4; nrm at e5; nrm at e6
  simp only [intensity, e1, e2, e3, e4, e5, e6, Py.okBind, el, List.getD_cons_zero, List.getD_cons_succ, Nat.add_assoc,
    Nat.reduceAdd, Nat.reduceMul, given_eq, List.map_map, Function.comp_def]
  rfl

theorem tsunami_report (b : BitBuf) (s : St) (i : Nat) (c : Tsunami) (h : c.Fit) (hat : At b i c.bits) :
    tsunami b s i = .ok ({ base s c.date c.kind c.ver with
      tb := .many ((c.list.filter Arrival.some').map fun x => instant (yearOf s) c.date.mo x.d x.h x.mi)
      params := .tsunami (c.notes.map fun v : Nat => (v : Int)) c.code ((c.list.filter Arrival.some').map fun x => ((x.height : Int), (x.region : Int))) }, i + 205) := by
  obtain ⟨f1, f2, l3, f3, f4, l5, f5, f6, -⟩ := h
  obtain ⟨e1, r1⟩ := rd _ f1 hat
  obtain ⟨e2, r2⟩ := rd _ f2 r1
  obtain ⟨e3, r3⟩ := rows_at (n := 9) l3 (fun v hv => num_rd 9 v (f3 v hv)) (fun v => by simp [ub_length]) r2
  obtain ⟨e4, r4⟩ := rd _ f4 r3
  obtain ⟨e5, r5⟩ := rows_at (n := 26) l5 (fun v hv => arrival_rd 4 10 v (f5 v hv)) (fun v => by exact arrival_length 4 10 v) r4
  obtain ⟨e6, -⟩ := rd _ f6 r5
  nrm at e1; nrm at e2; nrm at e3; nrm at e4; nrm at e5; nrm at e6
  simp only [tsunami, e1, e2, e3, e4, e5, e6, Py.okBind, el, List.getD_cons_zero, List.getD_cons_succ, Nat.add_assoc,
    Nat.reduceAdd, Nat.reduceMul, row_filter, List.map_map, Function.comp_def]
  rfl

theorem np_tsunami_report (b : BitBuf) (s : St) (i : Nat) (c : NpTsunami) (h : c.Fit) (hat : At b i c.bits) :
    npTsunami b s i = .ok ({ base s c.date c.kind c.ver with
      tb := .many (c.list.map fun x => instant s.year c.date.mo x.d x.h x.mi)
      params := .npTsunami c.potential (c.list.map fun x => ((x.height : Int), (x.region : Int))) }, i + 205) := by
  obtain ⟨f1, f2, l3, f3, f4, f5, -⟩ := h
  obtain ⟨e1, r1⟩ := rd _ f1 hat
  obtain ⟨e2, r2⟩ := rd _ f2 r1
  obtain ⟨e3, r3⟩ := rows_at (n := 28) l3 (fun v hv => arrival_rd 9 7 v (f3 v hv)) (fun v => by exact arrival_length 9 7 v) r2
  obtain ⟨e4, r4⟩ := rd _ f4 r3
  obtain ⟨e5, -⟩ := rd _ f5 r4
  nrm at e1; nrm at e2; nrm at e3; nrm at e4; nrm at e5
  simp only [npTsunami, e1, e2, e3, e4, e5, Py.okBind, el, List.getD_cons_zero, List.getD_cons_succ, Nat.add_assoc,
    Nat.reduceAdd, Nat.reduceMul, List.map_map, Function.comp_def]
  rfl

theorem volcano_report (b : BitBuf) (s : St) (i : Nat) (c : Volcano) (h : c.Fit) (hat : At b i c.bits) :
    volcano b s i = .ok ({ base s c.date c.kind c.ver with
      tb := .one (event s c.date c.time)
      params := .volcano c.ambiguity c.code c.volcano ((c.regions.filter fun v => v ≠ 0).map fun v : Nat => (v : Int)) }, i + 205) := by
  obtain ⟨f1, f2, f3, f4, l5, f5, f6, f7, -⟩ := h
  obtain ⟨e1, r1⟩ := rd _ f1 hat
  obtain ⟨e2, r2⟩ := rd _ f2 r1
  obtain ⟨e3, r3⟩ := rd _ f3 r2
  obtain ⟨e4, r4⟩ := rd _ f4 r3
  obtain ⟨e5, r5⟩ := rows_at (n := 23) l5 (fun v hv => num_rd 23 v (f5 v hv)) (fun v => by simp [ub_length]) r4
  obtain ⟨e6, r6⟩ := rd _ f6 r5
  obtain ⟨e7, -⟩ := rd _ f7 r6
  nrm at e1; nrm at e2; nrm at e3; nrm at e4; nrm at e5; nrm at e6; nrm at e7
  simp only [volcano, e1, e2, e3, e4, e5, e6, e7, Py.okBind, el, List.getD_cons_zero, List.getD_cons_succ, Nat.add_assoc,
    Nat.reduceAdd, Nat.reduceMul, pos_filter]
  rfl

theorem weather_report (b : BitBuf) (s : St) (i : Nat) (c : Weather) (h : c.Fit) (hat : At b i c.bits) :
    weather b s i = .ok ({ base s c.date c.kind c.ver with
      params := .weather c.state ((c.list.filter fun x => x.1 ≠ 0 ∧ x.2 ≠ 0).map ints) }, i + 205) := by
  obtain ⟨f1, f2, l3, f3, f4, f5, -⟩ := h
  obtain ⟨e1, r1⟩ := rd _ f1 hat
  obtain ⟨e2, r2⟩ := rd _ f2 r1
  obtain ⟨e3, r3⟩ := rows_at (n := 24) l3 (fun v hv => num2_rd 5 19 v (f3 v hv)) (fun v => by simp [ub_length]) r2
  obtain ⟨e4, r4⟩ := rd _ f4 r3
  obtain ⟨e5, -⟩ := rd _ f5 r4
  nrm at e1; nrm at e2; nrm at e3; nrm at e4; nrm at e5
  simp only [weather, e1, e2, e3, e4, e5, Py.okBind, el, List.getD_cons_zero, List.getD_cons_succ, Nat.add_assoc,
    Nat.reduceAdd, Nat.reduceMul, both_filter]
  rfl

theorem flood_report (b : BitBuf) (s : St) (i : Nat) (c : Flood) (h : c.Fit) (hat : At b i c.bits) :
    flood b s i = .ok ({ base s c.date c.kind c.ver with
      params := .flood ((given c.list).map ints) }, i + 205) := by
  obtain ⟨f1, f2, l3, f3, f4, f5, -⟩ := h
  obtain ⟨e1, r1⟩ := rd _ f1 hat
  obtain ⟨e2, r2⟩ := rd _ f2 r1
  obtain ⟨e3, r3⟩ := rows_at (n := 44) l3 (fun v hv => num2_rd 4 40 v (f3 v hv)) (fun v => by simp [ub_length]) r2
  obtain ⟨e4, r4⟩ := rd _ f4 r3
  obtain ⟨e5, -⟩ := rd _ f5 r4
  nrm at e1; nrm at e2; nrm at e3; nrm at e4; nrm at e5
  simp only [flood, e1, e2, e3, e4, e5, Py.okBind, el, List.getD_cons_zero, List.getD_cons_succ, Nat.add_assoc,
    Nat.reduceAdd, Nat.reduceMul, given_eq]
  rfl

theorem typhoon_report (b : BitBuf) (s : St) (i : Nat) (c : Typhoon) (h : c.Fit) (hat : At b i c.bits) :
    typhoon b s i = .ok ({ base s c.date c.kind c.ver with
      month := c.date.mo
      tb := .one (event s c.date c.time)
      pos := (c.lat.val, c.lon.val)
      params := .typhoon c.refType c.hours c.number c.scale c.intensity c.pressure c.wind c.gust }, i + 205) := by
  obtain ⟨f1, f2, f3, f4, f5, f6, f7, f8, f9, -⟩ := h
  obtain ⟨e1, r1⟩ := rd _ f1 hat
  obtain ⟨e2, r2⟩ := rd _ f2 r1
  obtain ⟨e3, r3⟩ := rd _ f3 r2
  obtain ⟨e4, r4⟩ := rd _ f4 r3
  obtain ⟨e5, r5⟩ := rd _ f5 r4
  obtain ⟨e6, r6⟩ := rd _ f6 r5
  obtain ⟨e7, r7⟩ := rd _ f7 r6
  obtain ⟨e8, r8⟩ := rd _ f8 r7
  obtain ⟨e9, -⟩ := rd _ f9 r8
  nrm at e1; nrm at e2; nrm at e3; nrm at e4; nrm at e5; nrm at e6; nrm at e7; nrm at e8; nrm at e9
  have a1 := angle_eq 7 c.lat
  have a2 := angle_eq 8 c.lon
  nrm at a1; nrm at a2
  simp only [typhoon, e1, e2, e3, e4, e5, e6, e7, e8, e9, Py.okBind, el, List.getD_cons_zero, List.getD_cons_succ, Nat.add_assoc,
    Nat.reduceAdd, Nat.reduceMul, a1, a2]
  rfl

theorem marine_report (b : BitBuf) (s : St) (i : Nat) (c : Marine) (h : c.Fit) (hat : At b i c.bits) :
    marine b s i = .ok ({ base s c.date c.kind c.ver with
      month := c.date.mo
      params := .marine ((given c.list).map ints) }, i + 205) := by
  obtain ⟨f1, f2, f3, l4, f4, f5, f6, -⟩ := h
  obtain ⟨e1, r1⟩ := rd _ f1 hat
  obtain ⟨e2, r2⟩ := rd _ f2 r1
  obtain ⟨e3, r3⟩ := rd _ f3 r2
  obtain ⟨e4, r4⟩ := rows_at (n := 19) l4 (fun v hv => num2_rd 5 14 v (f4 v hv)) (fun v => by simp [ub_length]) r3
  obtain ⟨e5, r5⟩ := rd _ f5 r4
  obtain ⟨e6, -⟩ := rd _ f6 r5
  nrm at e1; nrm at e2; nrm at e3; nrm at e4; nrm at e5; nrm at e6
  simp only [marine, e1, e2, e3, e4, e5, e6, Py.okBind, el, List.getD_cons_zero, List.getD_cons_succ, Nat.add_assoc,
    Nat.reduceAdd, Nat.reduceMul, given_eq]
  rfl

theorem ash_report (T : Tables) (b : BitBuf) (s : St) (i : Nat) (c : Ash) (h : c.Fit) (hk : c.Known T) (hat : At b i c.bits) :
    ashFall T b s i = .ok ({ base s c.date c.kind c.ver with
      tb := .one (event s c.date c.time)
      params := .ash c.code c.volcano ((c.list.filter fun x => x.region ≠ 0).map AshRow.row) }, i + 205) := by
  obtain ⟨f1, f2, f3, f4, l5, f5, f6, f7, -⟩ := h
  obtain ⟨e1, r1⟩ := rd _ f1 hat
  obtain ⟨e2, r2⟩ := rd _ f2 r1
  obtain ⟨e3, r3⟩ := rd _ f3 r2
  obtain ⟨e4, r4⟩ := rd _ f4 r3
  obtain ⟨e5, r5⟩ := rows_at (n := 29) l5 (fun v hv => ash_rd T v (f5 v hv) (hk.2 v hv)) (fun v => by simp [ub_length, AshRow.f]) r4
  obtain ⟨e6, r6⟩ := rd _ f6 r5
  obtain ⟨e7, -⟩ := rd _ f7 r6
  nrm at e1; nrm at e2; nrm at e3; nrm at e4; nrm at e5; nrm at e6; nrm at e7
  have g1 : look T.vo (c.volcano : Int) = .ok () := by simp [look, hk.1]
  simp only [ashFall, e1, e2, e3, e4, e5, e6, e7, Py.okBind, el, List.getD_cons_zero, List.getD_cons_succ, Nat.add_assoc,
    Nat.reduceAdd, Nat.reduceMul, g1, ash_filter]
  rfl

theorem nankai_report (b : BitBuf) (s : St) (i : Nat) (c : Nankai) (h : c.Fit) (hp : c.pn ≠ 0) (hat : At b i c.bits) :
    nankai b s i = .ok ({ base s c.date c.kind c.ver with
      pidx := s.pidx ||| 1 <<< (c.pn - 1)
      msg := Jma.splice s.msg ((c.pn - 1) * 18) (c.pn * 18) (c.text.map fun v : Nat => (v : Int))
      params := .nankai (c.text.map fun v : Nat => (v : Int)) c.pn c.pm }, i + 205) := by
  obtain ⟨f1, f2, l3, f3, f4, f5, f6, -⟩ := h
  obtain ⟨e1, r1⟩ := rd _ f1 hat
  obtain ⟨e2, r2⟩ := rd _ f2 r1
  obtain ⟨e3, r3⟩ := rows_at (n := 8) l3 (fun v hv => num_rd 8 v (f3 v hv)) (fun v => by simp [ub_length]) r2
  obtain ⟨e4, r4⟩ := rd _ f4 r3
  obtain ⟨e5, r5⟩ := rd _ f5 r4
  obtain ⟨e6, -⟩ := rd _ f6 r5
  nrm at e1; nrm at e2; nrm at e3; nrm at e4; nrm at e5; nrm at e6
  simp only [nankai, e1, e2, e3, e4, e5, e6, Py.okBind, el, List.getD_cons_zero, List.getD_cons_succ, Nat.add_assoc,
    Nat.reduceAdd, Nat.reduceMul, page, Int.toNat_natCast, if_neg hp]
  rfl


/-! ### all reports -/

inductive Report where
  | quake (c : Quake)
  | hypo (c : Hypo)
  | inten (c : Inten)
  | nankai (c : Nankai)
  | tsunami (c : Tsunami)
  | npTsunami (c : NpTsunami)
  | volcano (c : Volcano)
  | ash (c : Ash)
  | weather (c : Weather)
  | flood (c : Flood)
  | typhoon (c : Typhoon)
  | marine (c : Marine)

/-- the number of the kind of report -/
def Report.code : Report → Nat
  | .quake _ => 1 | .hypo _ => 2 | .inten _ => 3 | .nankai _ => 4 | .tsunami _ => 5 | .npTsunami _ => 6 | .volcano _ => 8 | .ash _ => 9
  | .weather _ => 10 | .flood _ => 11 | .typhoon _ => 12 | .marine _ => 14

def Report.bits : Report → List Bool
  | .quake c => c.bits | .hypo c => c.bits | .inten c => c.bits | .nankai c => c.bits | .tsunami c => c.bits | .npTsunami c => c.bits
  | .volcano c => c.bits | .ash c => c.bits | .weather c => c.bits | .flood c => c.bits | .typhoon c => c.bits | .marine c => c.bits

/-- the fields are in range, the needed texts exist, pages are counted from 1 -/
def Report.Ok (T : Tables) : Report → Prop
  | .quake c => c.Fit ∧ c.Known T | .hypo c => c.Fit | .inten c => c.Fit | .nankai c => c.Fit ∧ c.pn ≠ 0 | .tsunami c => c.Fit
  | .npTsunami c => c.Fit | .volcano c => c.Fit | .ash c => c.Fit ∧ c.Known T | .weather c => c.Fit | .flood c => c.Fit
  | .typhoon c => c.Fit | .marine c => c.Fit

/-- numbers as integers -/
def intList (l : List Nat) : List Int := l.map fun v : Nat => (v : Int)

/-- the decoder after the report -/
def Report.out (s : St) : Report → St
  | .quake c => { base s c.date c.kind c.ver with
      tb := .one (event s c.date c.time)
      params := .quake (positions 0 c.regions) c.depth (c.mag * (1 / 10)) (time2epoch s.time) c.il c.iu }
  | .hypo c => { base s c.date c.kind c.ver with
      pos := (c.lat.val, c.lon.val)
      params := .hypo (intList c.notes) c.depth (c.mag * (1 / 10)) (time2epoch s.time) }
  | .inten c => { base s c.date c.kind c.ver with
      tb := .one (event s c.date c.time)
      params := .intensity ((given c.list).map fun x => (x.1 : Int)) ((given c.list).map fun x => (x.2 : Int)) }
  | .nankai c => { base s c.date c.kind c.ver with
      pidx := s.pidx ||| 1 <<< (c.pn - 1)
      msg := Jma.splice s.msg ((c.pn - 1) * 18) (c.pn * 18) (intList c.text)
      params := .nankai (intList c.text) c.pn c.pm }
  | .tsunami c => { base s c.date c.kind c.ver with
      tb := .many ((c.list.filter Arrival.some').map fun x => instant (yearOf s) c.date.mo x.d x.h x.mi)
      params := .tsunami (intList c.notes) c.code ((c.list.filter Arrival.some').map fun x => ((x.height : Int), (x.region : Int))) }
  | .npTsunami c => { base s c.date c.kind c.ver with
      tb := .many (c.list.map fun x => instant s.year c.date.mo x.d x.h x.mi)
      params := .npTsunami c.potential (c.list.map fun x => ((x.height : Int), (x.region : Int))) }
  | .volcano c => { base s c.date c.kind c.ver with
      tb := .one (event s c.date c.time)
      params := .volcano c.ambiguity c.code c.volcano (intList (c.regions.filter fun v => v ≠ 0)) }
  | .ash c => { base s c.date c.kind c.ver with
      tb := .one (event s c.date c.time)
      params := .ash c.code c.volcano ((c.list.filter fun x => x.region ≠ 0).map AshRow.row) }
  | .weather c => { base s c.date c.kind c.ver with
      params := .weather c.state ((c.list.filter fun x => x.1 ≠ 0 ∧ x.2 ≠ 0).map ints) }
  | .flood c => { base s c.date c.kind c.ver with params := .flood ((given c.list).map ints) }
  | .typhoon c => { base s c.date c.kind c.ver with
      month := c.date.mo
      tb := .one (event s c.date c.time)
      pos := (c.lat.val, c.lon.val)
      params := .typhoon c.refType c.hours c.number c.scale c.intensity c.pressure c.wind c.gust }
  | .marine c => { base s c.date c.kind c.ver with month := c.date.mo, params := .marine ((given c.list).map ints) }

theorem body_report (T : Tables) (b : BitBuf) (s : St) (i : Nat) (r : Report) (h : r.Ok T) (hat : At b i r.bits) :
    body T b (r.code : Int) s i = .ok (r.out s, i + 205) := by
  cases r with
  | quake c => exact earthquake_report T b s i c h.1 h.2 hat
  | hypo c => exact hypocenter_report b s i c h hat
  | inten c => exact intensity_report b s i c h hat
  | nankai c => exact nankai_report b s i c h.1 h.2 hat
  | tsunami c => exact tsunami_report b s i c h hat
  | npTsunami c => exact np_tsunami_report b s i c h hat
  | volcano c => exact volcano_report b s i c h hat
  | ash c => exact ash_report T b s i c h.1 h.2 hat
  | weather c => exact weather_report b s i c h hat
  | flood c => exact flood_report b s i c h hat
  | typhoon c => exact typhoon_report b s i c h hat
  | marine c => exact marine_report b s i c h hat

/-- every regular or test report is decoded to the values of its fields -/
theorem report (T : Tables) (b : BitBuf) (s : St) (i rc : Nat) (r : Report) (hr : rc = 3 ∨ rc = 7) (h : r.Ok T)
    (hat : At b i (ub [(3, rc), (4, r.code)] ++ r.bits)) :
    decode T b s i = .ok (r.out { s with rc := rc, dc := r.code }, none) := by
  have hc : r.code < 16 ∧ (r.code : Int) ∈ kinds := by cases r <;> simp [Report.code, kinds]
  obtain ⟨e1, r1⟩ := rd _ (by simp [Fits]; omega) hat
  nrm at e1; nrm at r1
  have e2 := body_report T b { s with rc := rc, dc := r.code } (i + 7) r h r1
  have hm : (rc : Int) ∈ classes := by rcases hr with rfl | rfl <;> simp [classes]
  simp only [decode, e1, Py.okBind, el, List.getD_cons_zero, List.getD_cons_succ, e2, hm, hc.2, not_true_eq_false, or_self, if_false]
  rfl

/-- other reports are left alone -/
theorem other_reports (T : Tables) (b : BitBuf) (s : St) (i rc dc : Nat) (m : List Bool) (h1 : rc < 8) (h2 : dc < 16)
    (h : (rc ≠ 3 ∧ rc ≠ 7) ∨ dc ∈ [0, 7, 13, 15]) (hat : At b i (ub [(3, rc), (4, dc)] ++ m)) :
    decode T b s i = .ok ({ s with rc := rc, dc := dc }, some (-1)) := by
  obtain ⟨e1, r1⟩ := rd _ (by simp [Fits]; omega) hat
  nrm at e1
  have hn : (dc : Int) ∉ kinds ∨ (rc : Int) ∉ classes := by
    rcases h with h | h
    · exact .inr (by simp [classes]; omega)
    · exact .inl (by simp at h; simp [kinds]; omega)
  simp only [decode, e1, Py.okBind, el, List.getD_cons_zero, List.getD_cons_succ, if_pos hn]
  rfl

/-! ### times -/

/-- an arrival of a tsunami is dated as many days early as the day of the month of the report: the flag today or tomorrow is taken for
the day of the month -/
theorem arrival_early (y : Int) (mo day d h mi : Nat) (hy : 1970 ≤ y ∧ y ≤ 2099) (hm : 1 ≤ mo ∧ mo ≤ 12) :
    (instant y mo (day + d) h mi).time = (instant y mo d h mi).time + day * 86400 := by
  have : ¬ (y < 1970 ∨ y > 2099 ∨ (mo : Int) < 1 ∨ (mo : Int) > 12) := by omega
  simp only [instant, epoch2time, if_neg this]
  split_ifs <;> push_cast <;> ring

/-- the first report of a north-west Pacific tsunami is dated 1970: it uses the year of the report before, 0 at the beginning -/
theorem np_first (y : Int) (mo d h mi : Nat) (hy : y < 1970) : instant y mo d h mi = {} := by
  simp only [instant, epoch2time, if_pos (Or.inl hy)]

/-- at the turn of the year: a report of 31 December read on 1 January is a year late -/
theorem year_late (y : Int) (h mi : Nat) (hy : 1970 ≤ y ∧ y ≤ 2098) :
    (instant (y + 1) 12 31 h mi).time - (instant y 12 31 h mi).time = (if (y + 1) % 4 = 0 then 366 else 365) * 86400 := by
  have h1 : ¬ (y < 1970 ∨ y > 2099 ∨ ((12 : Nat) : Int) < 1 ∨ ((12 : Nat) : Int) > 12) := by omega
  have h2 : ¬ (y + 1 < 1970 ∨ y + 1 > 2099 ∨ ((12 : Nat) : Int) < 1 ∨ ((12 : Nat) : Int) > 12) := by omega
  simp only [instant, epoch2time, if_neg h1, if_neg h2]
  split_ifs <;> omega

/-- the code of the epicentre is lost -/
theorem epicentre_lost (s : St) (c : Quake) (e : Nat) : (Report.quake { c with epicentre := e }).out s = (Report.quake c).out s := rfl

theorem epicentre_lost' (s : St) (c : Hypo) (e : Nat) : (Report.hypo { c with epicentre := e }).out s = (Report.hypo c).out s := rfl

/-! ### text in pages -/

/-- the bytes of page p -/
def window (msg : List Int) (p : Nat) : List Int := (msg.drop ((p - 1) * 18)).take 18

/-- receiving pages: numbers and texts -/
def receive (s : St) : List (Nat × List Int) → Py St
  | [] => .ok s
  | (p, t) :: l => do
    let s ← page s p t
    receive s l

theorem splice_window (msg t : List Int) (p q : Nat) (hl : msg.length = 512) (ht : t.length = 18) (hp : 1 ≤ p ∧ p ≤ 28) (hq : 1 ≤ q) :
    (Jma.splice msg ((p - 1) * 18) (p * 18) t).length = 512 ∧
    window (Jma.splice msg ((p - 1) * 18) (p * 18) t) q = if q = p then t else window msg q := by
  have hlen : (Jma.splice msg ((p - 1) * 18) (p * 18) t).length = 512 := by
    simp only [Jma.splice, List.length_append, List.length_take, List.length_drop, hl, ht]; omega
  refine ⟨hlen, ?_⟩
  apply List.ext_getElem?
  intro k
  by_cases hk : k < 18
  · by_cases e : q = p
    · subst e
      simp only [window, Jma.splice, if_true, List.getElem?_take, hk, if_true, List.getElem?_drop, List.append_assoc]
      rw [List.getElem?_append_right (by simp [hl]), List.getElem?_append_left (by simp [hl, ht]; omega)]
      congr 1
      simp [hl]; omega
    · simp only [window, Jma.splice, if_neg e, List.getElem?_take, hk, if_true, List.getElem?_drop, List.append_assoc]
      rcases Nat.lt_or_gt_of_ne e with h | h
      · rw [List.getElem?_append_left (by simp [hl]; omega), List.getElem?_take, if_pos (by omega)]
      · rw [List.getElem?_append_right (by simp [hl]; omega), List.getElem?_append_right (by simp [hl, ht]; omega), List.getElem?_drop]
        congr 1
        simp [hl, ht]; omega
  · have h1 : ∀ m : List Int, (window m q)[k]? = none := fun m => by
      simp [window]; omega
    rw [h1]
    split_ifs
    · exact (List.getElem?_eq_none (by omega)).symm
    · exact (h1 _).symm

/-- up to 28 pages in any order, with repetitions: a page received has its text in its place, and is marked; a page not received is as before -/
theorem pages : ∀ (l : List (Nat × List Int)) (s : St), s.msg.length = 512 → (∀ x ∈ l, 1 ≤ x.1 ∧ x.1 ≤ 28 ∧ x.2.length = 18) →
    (∀ x ∈ l, ∀ y ∈ l, x.1 = y.1 → x.2 = y.2) →
    ∃ s', receive s l = .ok s' ∧ s'.msg.length = 512 ∧ (∀ x ∈ l, window s'.msg x.1 = x.2) ∧
      (∀ q, 1 ≤ q → q ∉ l.map Prod.fst → window s'.msg q = window s.msg q) ∧
      ∀ k, s'.pidx.testBit k = (s.pidx.testBit k || decide (k + 1 ∈ l.map Prod.fst))
  | [], s, hs, _, _ => ⟨s, rfl, hs, by simp, by simp, by simp⟩
  | (p, t) :: l, s, hs, hl, hu => by
    obtain ⟨h1, h2, h3⟩ := hl (p, t) (by simp)
    dsimp only at h1 h2 h3
    have hp : p ≠ 0 := by omega
    have hw := fun q hq => splice_window s.msg t p q hs h3 ⟨h1, h2⟩ hq
    obtain ⟨s', e, g1, g2, g3, g4⟩ := pages l
      { s with pidx := s.pidx ||| 1 <<< (p - 1), msg := Jma.splice s.msg ((p - 1) * 18) (p * 18) t } (hw 1 (by omega)).1
      (fun x hx => hl x (by simp [hx])) (fun x hx y hy => hu x (by simp [hx]) y (by simp [hy]))
    refine ⟨s', by simp only [receive, page, if_neg hp, Py.okBind, e], g1, ?_, ?_, ?_⟩
    · intro x hx
      rcases List.mem_cons.1 hx with rfl | hx
      · by_cases hm : p ∈ l.map Prod.fst
        · obtain ⟨y, hy, hyp⟩ := List.mem_map.1 hm
          have := g2 y hy
          rw [hyp] at this
          rw [this]
          exact hu y (by simp [hy]) (p, t) (by simp) hyp
        · rw [g3 p h1 hm, (hw p h1).2, if_pos rfl]
      · exact g2 x hx
    · intro q hq hm
      simp only [List.map_cons, List.mem_cons, not_or] at hm
      rw [g3 q hq hm.2, (hw q hq).2, if_neg hm.1]
    · intro k
      rw [g4 k]
      have : (s.pidx ||| 1 <<< (p - 1)).testBit k = (s.pidx.testBit k || decide (k + 1 = p)) := by
        rw [Nat.testBit_or, Nat.one_shiftLeft, Nat.testBit_two_pow]
        congr 1
        rw [Bool.eq_iff_iff]; simp; omega
      simp only [this, List.map_cons, List.mem_cons, Bool.decide_or, Bool.or_assoc]

/-- the text is complete, all marks of n pages being set, if and only if the n pages have been received -/
theorem complete (l : List (Nat × List Int)) (s s' : St) (n : Nat) (h0 : s.pidx = 0) (hl : ∀ x ∈ l, 1 ≤ x.1 ∧ x.1 ≤ n)
    (hb : ∀ k, s'.pidx.testBit k = (s.pidx.testBit k || decide (k + 1 ∈ l.map Prod.fst))) :
    s'.pidx = 2 ^ n - 1 ↔ ∀ p, 1 ≤ p → p ≤ n → p ∈ l.map Prod.fst := by
  constructor
  · intro h p h1 h2
    have := hb (p - 1)
    rw [h, Nat.testBit_two_pow_sub_one, h0] at this
    have hp : p - 1 < n := by omega
    have hq : p - 1 + 1 = p := by omega
    simpa [hp, hq] using this
  · intro h
    apply Nat.eq_of_testBit_eq
    intro k
    rw [hb, Nat.testBit_two_pow_sub_one, h0, Nat.zero_testBit, Bool.false_or, Bool.eq_iff_iff, decide_eq_true_iff, decide_eq_true_iff]
    constructor
    · intro hm
      obtain ⟨x, hx, e⟩ := List.mem_map.1 hm
      have := hl x hx
      omega
    · intro hk
      exact h (k + 1) (by omega) (by omega)

/-- page 0 raises an exception -/
theorem page_zero (s : St) (t : List Int) : page s 0 t = .error .valueError := rfl

/-- a page beyond 29 in a buffer of 512 bytes is put at the end of the buffer, not in its place -/
theorem late_page (s : St) (p : Nat) (t : List Int) (hs : s.msg.length = 512) (hp : 30 ≤ p) :
    page s p t = .ok { s with pidx := s.pidx ||| 1 <<< (p - 1), msg := s.msg ++ t } := by
  have h1 : s.msg.take ((p - 1) * 18) = s.msg := List.take_of_length_le (by omega)
  have h2 : s.msg.drop (p * 18) = [] := List.drop_of_length_le (by omega)
  simp only [page, Jma.splice, h1, h2, List.append_nil, if_neg (show p ≠ 0 by omega)]

/-- the marks of a text are still there for the next one: one page of it and the text counts as complete -/
example : ∃ s : St, s.pidx = 3 ∧ ∀ t, ∃ s', page s 1 t = .ok s' ∧ s'.pidx = 2 ^ 2 - 1 :=
  ⟨⟨{}, 0, 0, 0, 0, 0, 0, {}, .many [], (0, 0), .none, 3, []⟩, rfl, fun _ => ⟨_, rfl, rfl⟩⟩

/-! ### exceptions -/

/-- an ash fall report of a volcano without text raises an exception -/
theorem unknown_volcano (T : Tables) (b : BitBuf) (s : St) (i : Nat) (c : Ash) (h : c.Fit) (hk : T.vo c.volcano = false)
    (hat : At b i c.bits) : ashFall T b s i = .error .keyError := by
  obtain ⟨f1, f2, f3, f4, -⟩ := h
  obtain ⟨e1, r1⟩ := rd _ f1 hat
  obtain ⟨e2, r2⟩ := rd _ f2 r1
  obtain ⟨e3, r3⟩ := rd _ f3 r2
  obtain ⟨e4, -⟩ := rd _ f4 r3
  nrm at e1; nrm at e2; nrm at e4
  simp only [ashFall, e1, e2, e4, Py.okBind, el, List.getD_cons_zero, List.getD_cons_succ, look, hk]
  rfl

/-- an earthquake report with a long-period class without text raises an exception -/
theorem unknown_class (T : Tables) (b : BitBuf) (s : St) (i : Nat) (c : Quake) (h : c.Fit) (hk : T.longm c.lo = false)
    (hat : At b i c.bits) : earthquake T b s i = .error .keyError := by
  obtain ⟨f1, f2, f3, -⟩ := h
  obtain ⟨e1, r1⟩ := rd _ f1 hat
  obtain ⟨e2, r2⟩ := rd _ f2 r1
  obtain ⟨e3, -⟩ := rd _ f3 r2
  nrm at e1; nrm at e2; nrm at e3
  have : lookRange T.longm T.longm (c.lo : Int) (c.hi : Int) = .error .keyError := by
    unfold lookRange look; simp only [hk]; split <;> rfl
  simp only [earthquake, e1, e2, e3, Py.okBind, el, List.getD_cons_zero, List.getD_cons_succ, this]
  rfl

/-! ### examples -/

def exMarine : Marine := ⟨⟨3, 14, 15, 9⟩, 0, 0, [(2, 1010), (0, 0), (23, 4030), (0, 0), (0, 0), (0, 0), (0, 0), (0, 5)], 0, 1, 0⟩

example (T : Tables) : (Report.marine exMarine).Ok T := by
  simp [Report.Ok, Marine.Fit, exMarine, Fits, Date.f]

example : (Report.marine exMarine).bits.length = 205 := by decide +kernel

example (s : St) : ((Report.marine exMarine).out s).params = .marine [(2, 1010), (23, 4030), (0, 5)] := by rfl

def exQuake : Quake := ⟨⟨1, 1, 7, 10⟩, 0, 0, 0, 3, [101, 0, 0], ⟨1, 7, 10⟩, 10, 76, 390, 4, 7, List.replicate 79 false ++ [true], 0, 1, 0⟩

example (T : Tables) (h : T = ⟨fun k => k < 6, fun k => k < 9, fun k => k < 9, fun _ => true, fun _ => true, fun _ => true⟩) :
    (Report.quake exQuake).Ok T := by
  subst h
  simp [Report.Ok, Quake.Fit, Quake.Known, exQuake, Fits, Date.f, Clock.f]

example : ([(2, List.replicate 18 7), (1, List.replicate 18 8), (2, List.replicate 18 7)] : List (Nat × List Int)).all
    (fun x => 1 ≤ x.1 ∧ x.1 ≤ 28 ∧ x.2.length = 18) = true := by decide

example : (instant 2024 3 1 12 30).time = (instant 2024 3 15 12 30).time - 14 * 86400 := by decide +kernel

end Verif.C103
