import Verif.Model.Camf
import Verif.Lemmas.Read
import Verif.Lemmas.Time
import Verif.Props.C05
/-!
C52: layout of common alert messages and their extensions.

A message of 122 bits consists of: type (2), region (9), provider (5), hazard (7), severity (2),
week (1), minute of the week (14), duration (2), guidance selection (1), version (3), guidance
(10), latitude (16), longitude (17), semi-major and semi-minor axis (5, 5), azimuth (6), subject
(2), specific settings (15).
-/

namespace Verif.C52
open Verif.Camf Verif.Time

/-! ### Specification -/

/-- field of an alert message starting at bit `i` -/
def fld (b : BitBuf) (i o n : Nat) : Nat := bitsAt b (i + o) n

/-- details that can be decoded: hazard, and per field its width and its defined values -/
def detailTable (T : Tables) : List (Nat × List (Nat × (Nat → Bool))) :=
  let lt (n : Nat) : Nat → Bool := fun x => decide (x < n)
  let any : Nat → Bool := fun _ => true
  [(36, [(4, lt 9), (3, lt 8), (4, any), (4, lt 16)]),
   (43, [(3, lt 8)]), (44, [(3, lt 8)]),
   (63, [(4, lt 16)]), (71, [(4, lt 16)]),
   (80, [(3, lt 5), (4, lt 13), (3, lt 8)]),
   (82, [(3, lt 5), (4, lt 13), (3, lt 8)]),
   (79, [(4, lt 13), (3, lt 8), (3, lt 6)]),
   (77, [(4, lt 13), (3, lt 8), (3, lt 6), (3, lt 6)]),
   (70, [(3, lt 11)]),
   (74, [(3, lt 8), (4, lt 10)]),
   (76, [(5, T.d14), (4, lt 10)]),
   (68, [(2, lt 4)]),
   (72, [(3, lt 6)])]

/-- consecutive field values -/
def vals (b : BitBuf) : Nat → List Nat → List Nat
  | _, [] => []
  | i, w :: ws => bitsAt b i w :: vals b (i + w) ws

/-- all field values are defined -/
def defined : List (Nat → Bool) → List Nat → Bool
  | p :: ps, x :: xs => p x && defined ps xs
  | _, _ => true

/-- the details of the hazard can be decoded -/
def DetailOk (T : Tables) (b : BitBuf) (i h : Nat) : Prop :=
  ∃ l, (detailTable T).lookup h = some l ∧ defined (l.map (·.2)) (vals b i (l.map (·.1))) = true

/-- the guidance can be decoded -/
def GuideOk (T : Tables) (b : BitBuf) (i : Nat) : Prop :=
  if fld b i 42 1 = 0 then T.listA (fld b i 46 5) = true ∧ T.listB (fld b i 51 5) = true
  else if fld b i 11 5 = 2 ∨ fld b i 11 5 = 3 then fld b i 48 8 ≤ 1 ∨ (127 ≤ fld b i 48 8 ∧ fld b i 48 8 ≤ 136) ∨ fld b i 48 8 = 255
  else fld b i 48 8 ≤ 7 ∨ fld b i 48 8 = 127 ∨ fld b i 48 8 = 255

/-- the message is skipped: unknown hazard, or national guidance of another region than Japan -/
def Skipped (T : Tables) (b : BitBuf) (i : Nat) : Prop :=
  T.hazard (fld b i 16 7) = false ∨ (fld b i 42 1 = 1 ∧ fld b i 2 9 ≠ 111)

/-- the content of the message is decoded -/
def Decoded (T : Tables) (mon : Bool) (b : BitBuf) (i : Nat) : Prop :=
  GuideOk T b i ∧ (fld b i 105 2 = 3 → DetailOk T b (i + 107) (fld b i 16 7)) ∧
  ¬ (mon = true ∧ fld b i 42 1 = 0)

/-! ### Details -/

theorem fields_at {b : BitBuf} {i : Nat} {ws : List Nat} (h : i + ws.sum ≤ b.length) :
    fields b i ws = .ok (vals b i ws) := by
  induction ws generalizing i with
  | nil => rfl
  | cons w ws ih =>
    rw [List.sum_cons] at h
    rw [fields, readU_at (by omega), Py.okBind, ih (by omega)]; rfl

/-- a look-up that succeeds exactly for the values `p` -/
def Lk (f : Nat → Py Nat) (p : Nat → Bool) : Prop :=
  ∀ x, (p x = true → f x = .ok x) ∧ (p x = false → ∃ e, f x = .error e)

theorem lk_tup (n : Nat) : Lk (tup n) (fun x => decide (x < n)) := by
  intro x
  refine ⟨fun h => if_pos (by simpa using h), fun h => ⟨_, if_neg (by simpa using h)⟩⟩
theorem lk_key (d : Nat → Bool) : Lk (key d) d :=
  fun _ => ⟨fun h => if_pos h, fun h => ⟨_, if_neg (by simp [h])⟩⟩
theorem lk_any : Lk (.ok : Nat → Py Nat) (fun _ => true) := fun _ => ⟨fun _ => rfl, fun h => by cases h⟩

theorem lookups_spec {fs : List (Nat → Py Nat)} {ps : List (Nat → Bool)} (h : List.Forall₂ Lk fs ps)
    (xs : List Nat) (hx : xs.length = fs.length) :
    (defined ps xs = true → lookups fs xs = .ok xs) ∧
    (defined ps xs = false → ∃ e, lookups fs xs = .error e) := by
  induction h generalizing xs with
  | nil =>
    cases xs with
    | nil => exact ⟨fun _ => rfl, fun h => by cases h⟩
    | cons => cases hx
  | @cons f p fs ps h1 _ ih =>
    cases xs with
    | nil => cases hx
    | cons x xs =>
      obtain ⟨i1, i2⟩ := ih xs (by simpa using hx)
      rw [defined, lookups]
      cases hp : p x with
      | false =>
        obtain ⟨e, he⟩ := (h1 x).2 hp
        exact ⟨fun h => by simp at h, fun _ => ⟨e, by rw [he]; rfl⟩⟩
      | true =>
        rw [(h1 x).1 hp, Py.okBind, Bool.true_and]
        refine ⟨fun h => by rw [i1 h]; rfl, fun h => ?_⟩
        obtain ⟨e, he⟩ := i2 h
        exact ⟨e, by rw [he]; rfl⟩

theorem vals_length (b : BitBuf) (i : Nat) (ws : List Nat) : (vals b i ws).length = ws.length := by
  induction ws generalizing i with
  | nil => rfl
  | cons w ws ih => rw [vals, List.length_cons, List.length_cons, ih]

/-- the parts of the model and of the specification agree -/
def Agree (l : List (Nat × (Nat → Py Nat))) (m : List (Nat × (Nat → Bool))) : Prop :=
  List.Forall₂ (fun x y => x.1 = y.1 ∧ Lk x.2 y.2) l m

theorem Agree.widths {l m} (h : Agree l m) : l.map (·.1) = m.map (·.1) := by
  unfold Agree at h
  induction h with
  | nil => rfl
  | cons h _ ih => rw [List.map_cons, List.map_cons, h.1, ih]

theorem Agree.lks {l m} (h : Agree l m) : List.Forall₂ Lk (l.map (·.2)) (m.map (·.2)) := by
  unfold Agree at h
  induction h with
  | nil => exact .nil
  | cons h _ ih => exact .cons h.2 ih

/-- the outcome of reading details, in terms of the table entry -/
def Outcome (b : BitBuf) (i : Nat) (m : List (Nat × (Nat → Bool))) (r : Py (List Nat)) : Prop :=
  (defined (m.map (·.2)) (vals b i (m.map (·.1))) = true → r = .ok (vals b i (m.map (·.1)))) ∧
  (defined (m.map (·.2)) (vals b i (m.map (·.1))) = false → ∃ e, r = .error e)

theorem part_spec {b : BitBuf} {i : Nat} {l : List (Nat × (Nat → Py Nat))} {m : List (Nat × (Nat → Bool))}
    (h : Agree l m) (hl : i + (m.map (·.1)).sum ≤ b.length) : Outcome b i m (part b i l) := by
  unfold Outcome part
  rw [h.widths, fields_at hl, Py.okBind]
  exact lookups_spec h.lks _ (by rw [vals_length, ← h.widths, List.length_map, List.length_map])

theorem details_spec (T : Tables) {b : BitBuf} {i : Nat} (hl : i + 15 ≤ b.length) (h : Nat) :
    (∀ m, (detailTable T).lookup h = some m → Outcome b i m (details T b i h)) ∧
    ((detailTable T).lookup h = none → details T b i h = .error .attributeError) := by
  have ag : ∀ {l m}, Agree l m → ((m.map (·.1)).sum ≤ 15) → Outcome b i m (part b i l) :=
    fun h hs => part_spec h (by omega)
  unfold details
  by_cases h1 : h = 36
  · subst h1
    exact ⟨fun m hm => by
      cases hm
      exact ag (.cons ⟨rfl, lk_tup _⟩ (.cons ⟨rfl, lk_tup _⟩ (.cons ⟨rfl, lk_any⟩ (.cons ⟨rfl, lk_tup _⟩ .nil)))) (by decide),
      fun h => by cases h⟩
  rw [if_neg h1]
  by_cases h2 : h = 43 ∨ h = 44
  · rw [if_pos h2]
    rcases h2 with h2 | h2 <;> subst h2 <;>
    exact ⟨fun m hm => by cases hm; exact ag (.cons ⟨rfl, lk_tup _⟩ .nil) (by decide), fun h => by cases h⟩
  rw [if_neg h2]
  by_cases h3 : h = 63 ∨ h = 71
  · rw [if_pos h3]
    rcases h3 with h3 | h3 <;> subst h3 <;>
    exact ⟨fun m hm => by cases hm; exact ag (.cons ⟨rfl, lk_tup _⟩ .nil) (by decide), fun h => by cases h⟩
  rw [if_neg h3]
  by_cases h4 : h = 80
  · subst h4
    exact ⟨fun m hm => by
      cases hm
      exact ag (.cons ⟨rfl, lk_tup _⟩ (.cons ⟨rfl, lk_tup _⟩ (.cons ⟨rfl, lk_tup _⟩ .nil))) (by decide),
      fun h => by cases h⟩
  rw [if_neg h4]
  by_cases h5 : h = 82
  · subst h5
    exact ⟨fun m hm => by
      cases hm
      exact ag (.cons ⟨rfl, lk_tup _⟩ (.cons ⟨rfl, lk_tup _⟩ (.cons ⟨rfl, lk_tup _⟩ .nil))) (by decide),
      fun h => by cases h⟩
  rw [if_neg h5]
  by_cases h6 : h = 79
  · subst h6
    exact ⟨fun m hm => by
      cases hm
      exact ag (.cons ⟨rfl, lk_tup _⟩ (.cons ⟨rfl, lk_tup _⟩ (.cons ⟨rfl, lk_tup _⟩ .nil))) (by decide),
      fun h => by cases h⟩
  rw [if_neg h6]
  by_cases h7 : h = 77
  · subst h7
    exact ⟨fun m hm => by
      cases hm
      exact ag (.cons ⟨rfl, lk_tup _⟩ (.cons ⟨rfl, lk_tup _⟩ (.cons ⟨rfl, lk_tup _⟩ (.cons ⟨rfl, lk_tup _⟩ .nil)))) (by decide),
      fun h => by cases h⟩
  rw [if_neg h7]
  by_cases h8 : h = 70
  · subst h8
    exact ⟨fun m hm => by cases hm; exact ag (.cons ⟨rfl, lk_tup _⟩ .nil) (by decide), fun h => by cases h⟩
  rw [if_neg h8]
  by_cases h9 : h = 74
  · subst h9
    exact ⟨fun m hm => by
      cases hm
      exact ag (.cons ⟨rfl, lk_tup _⟩ (.cons ⟨rfl, lk_tup _⟩ .nil)) (by decide), fun h => by cases h⟩
  rw [if_neg h9]
  by_cases h10 : h = 76
  · subst h10
    exact ⟨fun m hm => by
      cases hm
      exact ag (.cons ⟨rfl, lk_key _⟩ (.cons ⟨rfl, lk_tup _⟩ .nil)) (by simp), fun h => by cases h⟩
  rw [if_neg h10]
  by_cases h11 : h = 68
  · subst h11
    exact ⟨fun m hm => by cases hm; exact ag (.cons ⟨rfl, lk_tup _⟩ .nil) (by decide), fun h => by cases h⟩
  rw [if_neg h11]
  by_cases h12 : h = 72
  · subst h12
    exact ⟨fun m hm => by cases hm; exact ag (.cons ⟨rfl, lk_tup _⟩ .nil) (by decide), fun h => by cases h⟩
  rw [if_neg h12]
  push Not at h2 h3
  refine ⟨fun m hm => ?_, fun _ => rfl⟩
  have : (detailTable T).lookup h = none := by
    unfold detailTable
    simp only [List.lookup, beq_iff_eq, h1, h2, h3, h4, h5, h6, h7, h8, h9, h10, h11, h12]
    simp [h1, h2, h3, h4, h5, h6, h7, h8, h9, h10, h11, h12,
      show (h == 36) = false by simpa using h1, show (h == 43) = false by simpa using h2.1,
      show (h == 44) = false by simpa using h2.2, show (h == 63) = false by simpa using h3.1,
      show (h == 71) = false by simpa using h3.2, show (h == 80) = false by simpa using h4,
      show (h == 82) = false by simpa using h5, show (h == 79) = false by simpa using h6,
      show (h == 77) = false by simpa using h7, show (h == 70) = false by simpa using h8,
      show (h == 74) = false by simpa using h9, show (h == 76) = false by simpa using h10,
      show (h == 68) = false by simpa using h11, show (h == 72) = false by simpa using h12]
  rw [this] at hm; cases hm

/-! ### Guidance and specific settings -/

theorem mem_guidLa (x : Nat) : x ∈ guidLaKeys ↔ x ≤ 1 ∨ (127 ≤ x ∧ x ≤ 136) ∨ x = 255 := by
  simp only [guidLaKeys, List.mem_cons, List.not_mem_nil, or_false]; omega
theorem mem_guid (x : Nat) : x ∈ guidKeys ↔ x ≤ 7 ∨ x = 127 ∨ x = 255 := by
  simp only [guidKeys, List.mem_cons, List.not_mem_nil, or_false]; omega

/-- the guidance fields -/
def guideFields (b : BitBuf) (i : Nat) : Nat × Nat :=
  if fld b i 42 1 = 0 then (fld b i 46 5, fld b i 51 5) else (fld b i 46 2, fld b i 48 8)

theorem fld_lt (b : BitBuf) (i o n : Nat) : fld b i o n < 2 ^ n := by
  unfold fld bitsAt
  refine lt_of_lt_of_le (bitsToNat_lt _) (Nat.pow_le_pow_right (by decide) ?_)
  simp

theorem guide_spec (T : Tables) {b : BitBuf} {i : Nat} (hl : i + 122 ≤ b.length) :
    ((fld b i 42 1 = 1 ∧ fld b i 2 9 ≠ 111) →
      guide T b (i + 46) (fld b i 42 1) (fld b i 2 9) (fld b i 11 5) = .ok none) ∧
    (¬ (fld b i 42 1 = 1 ∧ fld b i 2 9 ≠ 111) → GuideOk T b i →
      guide T b (i + 46) (fld b i 42 1) (fld b i 2 9) (fld b i 11 5) = .ok (some (guideFields b i))) ∧
    (¬ (fld b i 42 1 = 1 ∧ fld b i 2 9 ≠ 111) → ¬ GuideOk T b i →
      ∃ e, guide T b (i + 46) (fld b i 42 1) (fld b i 2 9) (fld b i 11 5) = .error e) := by
  have h01 : fld b i 42 1 < 2 := fld_lt b i 42 1
  unfold guide GuideOk guideFields
  rw [readU_at (b := b) (k := i + 46) (n := 5) (by omega), readU_at (b := b) (k := i + 46 + 5) (n := 5) (by omega),
    readU_at (b := b) (k := i + 46) (n := 2) (by omega), readU_at (b := b) (k := i + 46 + 2) (n := 8) (by omega)]
  rw [show bitsAt b (i + 46) 5 = fld b i 46 5 from rfl, show bitsAt b (i + 46 + 5) 5 = fld b i 51 5 from rfl,
    show bitsAt b (i + 46) 2 = fld b i 46 2 from rfl, show bitsAt b (i + 46 + 2) 8 = fld b i 48 8 from rfl]
  simp only [Py.okBind]
  by_cases hs : fld b i 42 1 = 0
  · rw [if_pos hs, if_pos hs, if_pos hs]
    refine ⟨fun h => by omega, fun _ h => ?_, fun _ h => ?_⟩
    · rw [key, if_pos h.1, Py.okBind, key, if_pos h.2]; rfl
    · unfold key
      by_cases h1 : T.listA (fld b i 46 5) = true
      · rw [if_pos h1, Py.okBind, if_neg (fun h2 => h ⟨h1, h2⟩)]
        exact ⟨_, rfl⟩
      · rw [if_neg h1]; exact ⟨_, rfl⟩
  · rw [if_neg hs, if_neg hs, if_neg hs]
    by_cases hr : fld b i 2 9 = 111
    · rw [if_pos hr]
      refine ⟨fun h => absurd hr h.2, fun _ h => ?_, fun _ h => ?_⟩
      · by_cases hp : fld b i 11 5 = 2 ∨ fld b i 11 5 = 3
        · rw [if_pos hp] at h ⊢; rw [if_pos ((mem_guidLa _).2 h)]; rfl
        · rw [if_neg hp] at h ⊢; rw [if_pos ((mem_guid _).2 h)]; rfl
      · by_cases hp : fld b i 11 5 = 2 ∨ fld b i 11 5 = 3
        · rw [if_pos hp] at h ⊢; rw [if_neg (fun hh => h ((mem_guidLa _).1 hh))]; exact ⟨_, rfl⟩
        · rw [if_neg hp] at h ⊢; rw [if_neg (fun hh => h ((mem_guid _).1 hh))]; exact ⟨_, rfl⟩
    · rw [if_neg hr]
      exact ⟨fun _ => rfl, fun h => absurd ⟨by omega, hr⟩ h, fun h => absurd ⟨by omega, hr⟩ h⟩

/-- the target ellipse before refinement -/
def centreLat (b : BitBuf) (i : Nat) : ℚ := -90 + 180 / 65535 * fld b i 56 16
def centreLon (b : BitBuf) (i : Nat) : ℚ := -180 + 360 / 131071 * fld b i 72 17
/-- the radius of a code, as the broadcast table lists it [km] -/
def radius (k : Nat) : ℚ := rTbl.getD k 0
/-- the distance of a radius from the next smaller one -/
def below (k : Nat) : ℚ := radius k - if k = 0 then 0 else radius (k - 1)
/-- the shift of a 7-bit code: 64 steps of 5/32 degree up from -10, the others down from +10 -/
def shift (c : Nat) : ℚ := if c < 64 then -10 + 5 / 32 * c else 10 - 5 / 32 * (127 - c)

/-- The table of radii is a geometric progression up to 2500 km with ratio 1.35228193, rounded to metres. -/
theorem radii (k : Nat) (h : k < 32) :
    |radius k - 2500 / (135228193 / 100000000) ^ (31 - k)| ≤ 1 / 2000 := by
  have e : ∀ k : Fin 32, |radius k.val - 2500 / (135228193 / 100000000) ^ (31 - k.val)| ≤ (1 / 2000 : ℚ) := by
    decide +kernel
  exact e ⟨k, h⟩

theorem radStep_eq (k : Nat) : radStep k = below k := by
  unfold radStep below radius
  by_cases h : k > 0
  · rw [if_pos h, if_neg (by omega)]
  · have : k = 0 := by omega
    subst this
    simp

theorem refine_eq (c : Nat) : refine c = shift c := by
  unfold Camf.refine shift
  by_cases h : c ≤ 63
  · rw [if_pos h, if_pos (by omega)]; ring
  · rw [if_neg h, if_neg (by omega)]; ring

/-- what a decoded alert reports -/
structure Reports (T : Tables) (b : BitBuf) (i : Nat) (now : GTime) (a : Alert) : Prop where
  mt : a.mt = fld b i 0 2
  region : a.region = fld b i 2 9
  pid : a.pid = fld b i 11 5
  hazard : a.hazard = fld b i 16 7
  severity : a.severity = fld b i 23 2
  onset : a.onset = onset now (fld b i 25 1) (fld b i 26 14)
  duration : a.duration = fld b i 40 2
  sel : a.sel = fld b i 42 1
  ver : a.ver = fld b i 43 3 + 1
  guide : a.guide = guideFields b i
  az : a.az = -90 + 180 / 64 * (fld b i 99 6 : ℚ)
  subj : a.subj = fld b i 105 2
  /-- the ellipse is refined by subject 0 only -/
  lat : a.lat = centreLat b i + if fld b i 105 2 = 0 then (fld b i 107 3 : ℚ) * (343 / 1000000) else 0
  lon : a.lon = centreLon b i + if fld b i 105 2 = 0 then (fld b i 110 3 : ℚ) * (343325 / 1000000000) else 0
  major : a.major = radius (fld b i 89 5) -
    if fld b i 105 2 = 0 then (fld b i 113 3 : ℚ) / 8 * below (fld b i 89 5) else 0
  minor : a.minor = radius (fld b i 94 5) -
    if fld b i 105 2 = 0 then (fld b i 116 3 : ℚ) / 8 * below (fld b i 94 5) else 0
  dlat : fld b i 105 2 = 1 → a.dlat = shift (fld b i 107 7)
  dlon : fld b i 105 2 = 1 → a.dlon = shift (fld b i 114 7)
  dist : fld b i 105 2 = 2 → a.dist = (fld b i 107 2 : ℚ) * radius (fld b i 89 5)
  major2 : fld b i 105 2 = 2 → a.major2 = radius (fld b i 89 5) * ((fld b i 109 3 : ℚ) + 1) / 4
  minor2 : fld b i 105 2 = 2 → a.minor2 = radius (fld b i 94 5) * ((fld b i 109 3 : ℚ) + 1) / 4
  theta : fld b i 105 2 = 2 → a.theta = (fld b i 112 5 : ℚ) * (45 / 4)
  detail : fld b i 105 2 = 3 → ∃ l, (detailTable T).lookup (fld b i 16 7) = some l ∧
    a.detail = vals b (i + 107) (l.map (·.1))

/-- the alert built from the first part of the message -/
def start (b : BitBuf) (i : Nat) (now : GTime) : Alert :=
  { mt := fld b i 0 2, region := fld b i 2 9, pid := fld b i 11 5, hazard := fld b i 16 7
    severity := fld b i 23 2
    onset := onset now (fld b i 25 1) (fld b i 26 14), duration := fld b i 40 2
    sel := fld b i 42 1, ver := fld b i 43 3 + 1, guide := guideFields b i
    lat := 0, lon := 0, major := 0, minor := 0, az := 0, subj := 0, dlat := 0, dlon := 0
    dist := 0, major2 := 0, minor2 := 0, theta := 0, detail := [] }

theorem area_spec (T : Tables) {b : BitBuf} {i : Nat} (hl : i + 122 ≤ b.length) (now : GTime) :
    ((fld b i 105 2 = 3 → DetailOk T b (i + 107) (fld b i 16 7)) →
      ∃ a, area T b i (start b i now) = .ok a ∧ Reports T b i now a) ∧
    (¬ (fld b i 105 2 = 3 → DetailOk T b (i + 107) (fld b i 16 7)) →
      ∃ e, area T b i (start b i now) = .error e) := by
  have h4 : fld b i 105 2 < 4 := fld_lt b i 105 2
  have e : ∀ o n, bitsAt b (i + o) n = fld b i o n := fun _ _ => rfl
  unfold area
  rw [readU_at (by omega), Py.okBind, readU_at (by omega), Py.okBind, readU_at (by omega), Py.okBind,
    readU_at (by omega), Py.okBind, readU_at (by omega), Py.okBind, readU_at (by omega), Py.okBind]
  simp only [e]
  unfold specific
  simp only [radStep_eq, refine_eq]
  by_cases h0 : fld b i 105 2 = 0
  · rw [if_pos h0]
    refine ⟨fun _ => ?_, fun h => absurd (fun h3 => by omega) h⟩
    rw [readU_at (by omega), Py.okBind, readU_at (by omega), Py.okBind, readU_at (by omega), Py.okBind,
      readU_at (by omega), Py.okBind]
    simp only [Nat.add_assoc, Nat.reduceAdd, e]
    refine ⟨_, rfl, ?_⟩
    constructor <;> simp only [start, if_pos h0, centreLat, centreLon, radius]
    any_goals (intro h; omega)
    · ring
    · ring
  rw [if_neg h0]
  by_cases h1 : fld b i 105 2 = 1
  · rw [if_pos h1]
    refine ⟨fun _ => ?_, fun h => absurd (fun h3 => by omega) h⟩
    rw [readU_at (by omega), Py.okBind, readU_at (by omega), Py.okBind]
    simp only [Nat.add_assoc, Nat.reduceAdd, e]
    refine ⟨_, rfl, ?_⟩
    constructor <;> simp only [start, if_neg h0, centreLat, centreLon, radius, add_zero, sub_zero]
    any_goals (intro h; omega)
    · exact fun _ => trivial
    · exact fun _ => trivial
  rw [if_neg h1]
  by_cases h2 : fld b i 105 2 = 2
  · rw [if_pos h2]
    refine ⟨fun _ => ?_, fun h => absurd (fun h3 => by omega) h⟩
    rw [readU_at (by omega), Py.okBind, readU_at (by omega), Py.okBind, readU_at (by omega), Py.okBind,
      readU_at (by omega), Py.okBind]
    simp only [Nat.add_assoc, Nat.reduceAdd, e]
    refine ⟨_, rfl, ?_⟩
    constructor <;> simp only [start, if_neg h0, centreLat, centreLon, radius, add_zero, sub_zero]
    any_goals (intro h; omega)
    · exact fun _ => trivial
    · intro _; ring
    · intro _; ring
    · exact fun _ => trivial
  rw [if_neg h2]
  have h3 : fld b i 105 2 = 3 := by omega
  obtain ⟨d1, d2⟩ := details_spec T (b := b) (i := i + 107) (by omega) (fld b i 16 7)
  rw [show (start b i now).hazard = fld b i 16 7 from rfl]
  refine ⟨fun h => ?_, fun h => ?_⟩
  · obtain ⟨l, hl1, hl2⟩ := h h3
    rw [(d1 l hl1).1 hl2, Py.okBind]
    refine ⟨_, rfl, ?_⟩
    constructor <;> simp only [start, if_neg h0, centreLat, centreLon, radius, add_zero, sub_zero]
    any_goals (intro h; omega)
    · exact fun _ => ⟨l, hl1, rfl⟩
  · have hd : ¬ DetailOk T b (i + 107) (fld b i 16 7) := fun hd => h fun _ => hd
    cases hlk : (detailTable T).lookup (fld b i 16 7) with
    | none => rw [d2 hlk]; exact ⟨_, rfl⟩
    | some l =>
      obtain ⟨e, he⟩ := (d1 l hlk).2 (by
        by_contra hh
        exact hd ⟨l, hlk, by simpa using hh⟩)
      rw [he]; exact ⟨e, rfl⟩

/-! ### Whole messages -/

theorem decode_unfold (T : Tables) (mon : Bool) {b : BitBuf} {i : Nat} (hl : i + 122 ≤ b.length) (s : St) :
    decode T mon b i s = if T.region (fld b i 2 9) = true then
      (if T.hazard (fld b i 16 7) = false then .ok ({ s with pid := fld b i 11 5 }, i + 122)
       else body T mon b i { s with pid := fld b i 11 5 } (fld b i 0 2) (fld b i 2 9) (fld b i 11 5)
         (fld b i 16 7) (fld b i 23 2))
      else .error .keyError := by
  unfold decode
  rw [readU_at (by omega), Py.okBind, readU_at (by omega), Py.okBind, readU_at (by omega), Py.okBind]
  unfold key
  by_cases h : T.region (fld b i 2 9) = true
  · rw [if_pos h, if_pos (show T.region (bitsAt b (i + 2) 9) = true from h), Py.okBind,
      readU_at (by omega), Py.okBind, readU_at (by omega), Py.okBind]
    rfl
  · rw [if_neg h, if_neg (show ¬ T.region (bitsAt b (i + 2) 9) = true from h)]; rfl

theorem body_unfold (T : Tables) (mon : Bool) {b : BitBuf} {i : Nat} (hl : i + 122 ≤ b.length) (s : St) :
    ((fld b i 42 1 = 1 ∧ fld b i 2 9 ≠ 111) →
      body T mon b i s (fld b i 0 2) (fld b i 2 9) (fld b i 11 5) (fld b i 16 7) (fld b i 23 2)
        = .ok ({ s with sel := fld b i 42 1 }, i + 122)) ∧
    (¬ (fld b i 42 1 = 1 ∧ fld b i 2 9 ≠ 111) → Decoded T mon b i →
      ∃ a, Reports T b i s.time a ∧
        body T mon b i s (fld b i 0 2) (fld b i 2 9) (fld b i 11 5) (fld b i 16 7) (fld b i 23 2)
          = .ok ({ s with sel := fld b i 42 1, last := some a }, i + 122)) ∧
    (¬ (fld b i 42 1 = 1 ∧ fld b i 2 9 ≠ 111) → ¬ Decoded T mon b i →
      ∃ e, body T mon b i s (fld b i 0 2) (fld b i 2 9) (fld b i 11 5) (fld b i 16 7) (fld b i 23 2) = .error e) := by
  have e : ∀ o n, bitsAt b (i + o) n = fld b i o n := fun _ _ => rfl
  obtain ⟨g1, g2, g3⟩ := guide_spec T hl
  obtain ⟨a1, a2⟩ := area_spec T hl s.time
  unfold body
  rw [readU_at (by omega), Py.okBind, readU_at (by omega), Py.okBind, readU_at (by omega), Py.okBind,
    readU_at (by omega), Py.okBind, readU_at (by omega), Py.okBind]
  simp only [e]
  refine ⟨fun h => ?_, fun h hd => ?_, fun h hd => ?_⟩
  · rw [g1 h]; rfl
  · obtain ⟨hd1, hd2, hd3⟩ := hd
    rw [g2 h hd1, Py.okBind]
    obtain ⟨a, ha, hr⟩ := a1 hd2
    refine ⟨a, hr, ?_⟩
    rw [start] at ha
    simp only [ha, Py.okBind, if_neg hd3]
    rfl
  · by_cases hg : GuideOk T b i
    · rw [g2 h hg, Py.okBind]
      by_cases hdt : fld b i 105 2 = 3 → DetailOk T b (i + 107) (fld b i 16 7)
      · obtain ⟨a, ha, hr⟩ := a1 hdt
        rw [start] at ha
        simp only [ha, Py.okBind]
        rw [if_pos (by by_contra hm; exact hd ⟨hg, hdt, hm⟩)]
        exact ⟨_, rfl⟩
      · obtain ⟨er, ha⟩ := a2 hdt
        rw [start] at ha
        simp only [ha]
        exact ⟨er, rfl⟩
    · obtain ⟨er, he⟩ := g3 h hg
      rw [he]; exact ⟨er, rfl⟩

/-- Exactly which messages decode: the region is known, and the message is skipped (unknown
hazard, national guidance of a region other than Japan) or all its codes are defined. -/
theorem succeeds_iff (T : Tables) (mon : Bool) {b : BitBuf} {i : Nat} (hl : i + 122 ≤ b.length) (s : St) :
    (∃ r, decode T mon b i s = .ok r) ↔
      T.region (fld b i 2 9) = true ∧ (Skipped T b i ∨ Decoded T mon b i) := by
  rw [decode_unfold T mon hl]
  obtain ⟨b1, b2, b3⟩ := body_unfold T mon hl { s with pid := fld b i 11 5 }
  unfold Skipped
  by_cases hr : T.region (fld b i 2 9) = true
  · rw [if_pos hr]
    by_cases hh : T.hazard (fld b i 16 7) = false
    · rw [if_pos hh]
      exact ⟨fun _ => ⟨hr, .inl (.inl hh)⟩, fun _ => ⟨_, rfl⟩⟩
    · rw [if_neg hh]
      by_cases hs : fld b i 42 1 = 1 ∧ fld b i 2 9 ≠ 111
      · rw [b1 hs]
        exact ⟨fun _ => ⟨hr, .inl (.inr hs)⟩, fun _ => ⟨_, rfl⟩⟩
      · by_cases hd : Decoded T mon b i
        · obtain ⟨a, _, ha⟩ := b2 hs hd
          exact ⟨fun _ => ⟨hr, .inr hd⟩, fun _ => ⟨_, ha⟩⟩
        · obtain ⟨e, he⟩ := b3 hs hd
          rw [he]
          refine ⟨fun ⟨r, h⟩ => (by cases h), fun ⟨_, h⟩ => ?_⟩
          rcases h with (h | h) | h
          · exact absurd h hh
          · exact absurd h hs
          · exact absurd h hd
  · rw [if_neg hr]
    exact ⟨fun ⟨r, h⟩ => (by cases h), fun h => absurd h.1 hr⟩

/-- A message that decodes takes 122 bits; if it is skipped nothing is reported, otherwise the
reported alert is what the fields say.  The guidance selection is left as it was if the hazard is
unknown. -/
theorem decoded (T : Tables) (mon : Bool) {b : BitBuf} {i : Nat} (hl : i + 122 ≤ b.length) (s s' : St) (j : Nat)
    (h : decode T mon b i s = .ok (s', j)) :
    j = i + 122 ∧ s'.time = s.time ∧ s'.pid = fld b i 11 5 ∧
    (T.hazard (fld b i 16 7) = false → s'.sel = s.sel) ∧
    (T.hazard (fld b i 16 7) = true → s'.sel = fld b i 42 1) ∧
    (Skipped T b i → s'.last = s.last) ∧
    (¬ Skipped T b i → ∃ a, s'.last = some a ∧ Reports T b i s.time a) := by
  rw [decode_unfold T mon hl] at h
  obtain ⟨b1, b2, b3⟩ := body_unfold T mon hl { s with pid := fld b i 11 5 }
  unfold Skipped
  by_cases hr : T.region (fld b i 2 9) = true
  · rw [if_pos hr] at h
    by_cases hh : T.hazard (fld b i 16 7) = false
    · rw [if_pos hh] at h
      cases h
      exact ⟨rfl, rfl, rfl, fun _ => rfl, fun h => (by rw [hh] at h; cases h), fun _ => rfl,
        fun h => absurd (.inl hh) h⟩
    · rw [if_neg hh] at h
      by_cases hs : fld b i 42 1 = 1 ∧ fld b i 2 9 ≠ 111
      · rw [b1 hs] at h
        cases h
        exact ⟨rfl, rfl, rfl, fun h => absurd h hh, fun _ => rfl, fun _ => rfl, fun h => absurd (.inr hs) h⟩
      · by_cases hd : Decoded T mon b i
        · obtain ⟨a, hrep, ha⟩ := b2 hs hd
          rw [ha] at h
          cases h
          refine ⟨rfl, rfl, rfl, fun h => absurd h hh, fun _ => rfl, fun h => ?_, fun _ => ⟨a, rfl, hrep⟩⟩
          rcases h with h | h
          · exact absurd h hh
          · exact absurd h hs
        · obtain ⟨e, he⟩ := b3 hs hd
          rw [he] at h; cases h
  · rw [if_neg hr] at h; cases h

/-- Detailed information of any hazard other than the fourteen listed ones makes decoding fail. -/
theorem undetailed (T : Tables) (mon : Bool) {b : BitBuf} {i : Nat} (hl : i + 122 ≤ b.length) (s : St)
    (hh : fld b i 16 7 ∉ [36, 43, 44, 63, 68, 70, 71, 72, 74, 76, 77, 79, 80, 82])
    (hs : ¬ Skipped T b i) (h3 : fld b i 105 2 = 3) : ∀ r, decode T mon b i s ≠ .ok r := by
  intro r hr
  obtain ⟨_, h | h⟩ := (succeeds_iff T mon hl s).1 ⟨r, hr⟩
  · exact hs h
  · obtain ⟨l, hlk, _⟩ := h.2.1 h3
    apply hh
    have := List.mem_map_of_mem (f := Prod.fst) (List.lookup_eq_some_iff.1 hlk |>.choose_spec.choose_spec.1 ▸ List.mem_append_right _ List.mem_cons_self)
    have h2 : (detailTable T).map Prod.fst = [36, 43, 44, 63, 71, 80, 82, 79, 77, 70, 74, 76, 68, 72] := rfl
    rw [h2] at this
    revert this
    simp only [List.mem_cons, List.not_mem_nil, or_false]
    tauto

/-- The reported onset is the transmitted minute of the week (1 is Monday 00:00, the week being
the current one or the next). -/
theorem onset_instant (now : GTime) (wn t : Nat) (ht : t ≤ 16383) :
    timediff (onset now wn t) ⟨0, 0⟩ =
      315964800 + 604800 * ((time2gpst now).1 + wn) + 86400 + 60 * ((t : ℚ) - 1) := by
  have hq : (t : ℚ) ≤ 16383 := by exact_mod_cast ht
  have h0 : (0 : ℚ) ≤ t := by positivity
  unfold onset
  simp only
  split
  · rw [(C05.week_tow_instant _ _ ⟨by push_cast; linarith, by push_cast; linarith⟩).1]
    push_cast; ring
  · rw [(C05.week_tow_instant _ _ ⟨by push_cast; linarith, by push_cast; linarith⟩).1]
    push_cast; ring

/-! ### Extensions -/

/-- rows and keys an extension refers to exist -/
def ExtOk (T : Tables) (b : BitBuf) (i : Nat) (s : St) : Prop :=
  s.sel ≠ 0 →
    (s.pid = 1 → bitsAt b i 16 = 0 ∨ T.city (bitsAt b i 16) ≤ 1) ∧
    (s.pid = 2 ∨ s.pid = 3 →
      (bitsAt b i 1 = 0 → ∀ k < 47, bitsAt b (i + 1 + k) 1 = 1 → T.pref (k + 1) = true) ∧
      (bitsAt b i 1 = 1 → ∀ k < 4, 0 < bitsAt b (i + 1 + 16 * k) 16 → 1 ≤ T.city (bitsAt b (i + 1 + 16 * k) 16)))

theorem cityStep_spec (T : Tables) {b : BitBuf} (n i : Nat) (hl : i + 16 * n ≤ b.length) :
    ((∀ k < n, 0 < bitsAt b (i + 16 * k) 16 → 1 ≤ T.city (bitsAt b (i + 16 * k) 16)) →
      cityStep T b n i = .ok (i + 16 * n)) ∧
    (¬ (∀ k < n, 0 < bitsAt b (i + 16 * k) 16 → 1 ≤ T.city (bitsAt b (i + 16 * k) 16)) →
      ∃ e, cityStep T b n i = .error e) := by
  induction n generalizing i with
  | zero => exact ⟨fun _ => rfl, fun h => absurd (fun k hk => by omega) h⟩
  | succ n ih =>
    obtain ⟨i1, i2⟩ := ih (i + 16) (by omega)
    have shift : (∀ k < n, 0 < bitsAt b (i + 16 + 16 * k) 16 → 1 ≤ T.city (bitsAt b (i + 16 + 16 * k) 16)) ↔
        (∀ k < n, 0 < bitsAt b (i + 16 * (k + 1)) 16 → 1 ≤ T.city (bitsAt b (i + 16 * (k + 1)) 16)) := by
      simp only [show ∀ k, i + 16 + 16 * k = i + 16 * (k + 1) by intro k; omega]
    rw [cityStep, readU_at (by omega), Py.okBind]
    by_cases h0 : bitsAt b i 16 > 0 ∧ T.city (bitsAt b i 16) = 0
    · rw [if_pos h0]
      refine ⟨fun h => ?_, fun _ => ⟨_, rfl⟩⟩
      have := h 0 (by omega) h0.1
      simp only [Nat.mul_zero, Nat.add_zero] at this
      omega
    · rw [if_neg h0]
      refine ⟨fun h => ?_, fun h => ?_⟩
      · rw [i1 (shift.2 fun k hk => h (k + 1) (by omega))]
        congr 1; omega
      · refine i2 (fun hs => h fun k hk => ?_)
        cases k with
        | zero =>
          intro hp
          simp only [Nat.mul_zero, Nat.add_zero] at hp ⊢
          by_contra hc
          exact h0 ⟨hp, by omega⟩
        | succ k => exact shift.1 hs k (by omega)

theorem prefStep_spec (T : Tables) (x : Nat) (ks : List Nat) :
    ((∀ k ∈ ks, (x >>> (46 - k)) &&& 1 ≠ 0 → T.pref (k + 1) = true) → prefStep T x ks = .ok ()) ∧
    (¬ (∀ k ∈ ks, (x >>> (46 - k)) &&& 1 ≠ 0 → T.pref (k + 1) = true) → ∃ e, prefStep T x ks = .error e) := by
  induction ks with
  | nil => exact ⟨fun _ => rfl, fun h => absurd (fun k hk => by cases hk) h⟩
  | cons k ks ih =>
    rw [prefStep]
    by_cases h0 : (x >>> (46 - k)) &&& 1 ≠ 0 ∧ T.pref (k + 1) = false
    · rw [if_pos h0]
      refine ⟨fun h => ?_, fun _ => ⟨_, rfl⟩⟩
      have := h k List.mem_cons_self h0.1
      rw [h0.2] at this; cases this
    · rw [if_neg h0]
      refine ⟨fun h => ih.1 fun k' hk' => h k' (List.mem_cons_of_mem _ hk'), fun h => ih.2 fun hs => h ?_⟩
      intro k' hk' h1
      rcases List.mem_cons.1 hk' with rfl | hk'
      · by_contra hc
        exact h0 ⟨h1, by simpa using hc⟩
      · exact hs k' hk' h1

/-- bit `k` of a field, first bit first -/
theorem bit_of_field {b : BitBuf} {i n k : Nat} (hl : i + n ≤ b.length) (hk : k < n) :
    (bitsAt b i n >>> (n - 1 - k)) &&& 1 = bitsAt b (i + k) 1 := by
  have hlen : ((b.drop i).take n).length = n := by simp; omega
  have h1 := Cssr.testBit_bitsToNat ((b.drop i).take n) k (by omega)
  have h2 : bitsAt b (i + k) 1 = (((b.drop i).take n)[k]'(by omega)).toNat := by
    unfold bitsAt
    rw [List.take_one, List.head?_drop]
    simp only [List.getElem_take, List.getElem_drop]
    rw [List.getElem?_eq_getElem (by omega)]
    cases b[i + k] <;> rfl
  rw [h2, ← h1, Nat.toNat_testBit, Nat.shiftRight_eq_div_pow, Nat.and_one_is_mod]
  rw [hlen, show n - 1 - k = n - k - 1 by omega]; rfl

/-- Exactly which extensions decode. -/
theorem ext_succeeds_iff (T : Tables) {b : BitBuf} {i : Nat} (hl : i + 74 ≤ b.length) (s : St) :
    (∃ j, decodeExt T b i s = .ok j) ↔ ExtOk T b i s := by
  unfold decodeExt ExtOk
  by_cases h0 : s.sel = 0
  · rw [if_pos h0, readU_at (by omega)]
    exact ⟨fun _ h => absurd h0 h, fun _ => ⟨_, rfl⟩⟩
  rw [if_neg h0]
  by_cases h1 : s.pid = 1
  · rw [if_pos h1, readU_at (by omega), Py.okBind, readU_at (by omega), Py.okBind, readU_at (by omega), Py.okBind]
    have h23 : ¬ (s.pid = 2 ∨ s.pid = 3) := by omega
    by_cases hz : bitsAt b i 16 = 0
    · rw [if_pos hz]
      exact ⟨fun _ _ => ⟨fun _ => .inl hz, fun h => absurd h h23⟩, fun _ => ⟨_, rfl⟩⟩
    rw [if_neg hz]
    by_cases hc : T.city (bitsAt b i 16) ≤ 1
    · rw [if_pos hc]
      exact ⟨fun _ _ => ⟨fun _ => .inr hc, fun h => absurd h h23⟩, fun _ => ⟨_, rfl⟩⟩
    · rw [if_neg hc]
      refine ⟨fun ⟨_, h⟩ => (by cases h), fun h => ?_⟩
      rcases (h h0).1 h1 with h | h
      · exact absurd h hz
      · exact absurd h hc
  rw [if_neg h1]
  by_cases h2 : s.pid = 2 ∨ s.pid = 3
  · rw [if_pos h2, readU_at (by omega), Py.okBind]
    have hb : bitsAt b i 1 < 2 := fld_lt b i 0 1
    by_cases hz : bitsAt b i 1 = 0
    · rw [if_pos hz, readU_at (by omega), Py.okBind]
      obtain ⟨p1, p2⟩ := prefStep_spec T (bitsAt b (i + 1) 47) (List.range 47)
      have conv : (∀ k ∈ List.range 47, (bitsAt b (i + 1) 47 >>> (46 - k)) &&& 1 ≠ 0 → T.pref (k + 1) = true) ↔
          (∀ k < 47, bitsAt b (i + 1 + k) 1 = 1 → T.pref (k + 1) = true) := by
        constructor
        · intro h k hk hv
          refine h k (List.mem_range.2 hk) ?_
          rw [show 46 - k = 47 - 1 - k by omega, bit_of_field (by omega) hk]; omega
        · intro h k hk hv
          have hk := List.mem_range.1 hk
          rw [show 46 - k = 47 - 1 - k by omega, bit_of_field (by omega) hk] at hv
          have : bitsAt b (i + 1 + k) 1 < 2 := fld_lt b (i + 1 + k) 0 1
          exact h k hk (by omega)
      by_cases hp : ∀ k < 47, bitsAt b (i + 1 + k) 1 = 1 → T.pref (k + 1) = true
      · rw [p1 (conv.2 hp), Py.okBind]
        refine ⟨fun _ _ => ⟨fun h => absurd h h1, fun _ => ⟨fun _ => hp, fun h => by omega⟩⟩, fun _ => ?_⟩
        refine ⟨i + 1 + 64 + 9, ?_⟩
        show ((Except.ok (i + 1 + 64) : Py Nat) >>= _) = _
        rw [Py.okBind, readU_at (by omega)]; rfl
      · obtain ⟨e, he⟩ := p2 (fun h => hp (conv.1 h))
        rw [he]
        exact ⟨fun ⟨_, h⟩ => (by cases h), fun h => absurd (((h h0).2 h2).1 hz) hp⟩
    · rw [if_neg hz]
      have h1' : bitsAt b i 1 = 1 := by omega
      obtain ⟨c1, c2⟩ := cityStep_spec T (b := b) 4 (i + 1) (by omega)
      by_cases hp : ∀ k < 4, 0 < bitsAt b (i + 1 + 16 * k) 16 → 1 ≤ T.city (bitsAt b (i + 1 + 16 * k) 16)
      · rw [c1 hp, Py.okBind, readU_at (by omega)]
        exact ⟨fun _ _ => ⟨fun h => absurd h h1, fun _ => ⟨fun h => absurd h hz, fun _ => hp⟩⟩, fun _ => ⟨_, rfl⟩⟩
      · obtain ⟨e, he⟩ := c2 hp
        rw [he]
        exact ⟨fun ⟨_, h⟩ => (by cases h), fun h => absurd (((h h0).2 h2).2 h1') hp⟩
  · rw [if_neg h2]
    exact ⟨fun _ _ => ⟨fun h => absurd h h1, fun h => absurd h h2⟩, fun _ => ⟨_, rfl⟩⟩

theorem cityStep_pos (T : Tables) (b : BitBuf) (n i j : Nat) (h : cityStep T b n i = .ok j) : j = i + 16 * n := by
  induction n generalizing i with
  | zero => cases h; omega
  | succ n ih =>
    rw [cityStep] at h
    obtain ⟨mc, _, h⟩ := Py.bind_ok.1 h
    by_cases hc : mc > 0 ∧ T.city mc = 0
    · rw [if_pos hc] at h; cases h
    · rw [if_neg hc] at h
      rw [ih _ h]; omega

/-- An extension takes 74 bits, whatever its content; for a national message of a provider other
than 1 to 3 nothing is read. -/
theorem ext_size (T : Tables) (b : BitBuf) (i j : Nat) (s : St) (h : decodeExt T b i s = .ok j) :
    j = if s.sel = 0 ∨ s.pid = 1 ∨ s.pid = 2 ∨ s.pid = 3 then i + 74 else i := by
  unfold decodeExt at h
  by_cases h0 : s.sel = 0
  · rw [if_pos h0] at h
    obtain ⟨_, _, h⟩ := Py.bind_ok.1 h
    cases h; rw [if_pos (.inl h0)]
  rw [if_neg h0] at h
  by_cases h1 : s.pid = 1
  · rw [if_pos h1] at h
    obtain ⟨x, _, h⟩ := Py.bind_ok.1 h
    obtain ⟨_, _, h⟩ := Py.bind_ok.1 h
    obtain ⟨_, _, h⟩ := Py.bind_ok.1 h
    rw [if_pos (.inr (.inl h1))]
    by_cases hx : x = 0
    · rw [if_pos hx] at h; cases h; rfl
    · rw [if_neg hx] at h
      by_cases hc : T.city x ≤ 1
      · rw [if_pos hc] at h; cases h; rfl
      · rw [if_neg hc] at h; cases h
  rw [if_neg h1] at h
  by_cases h2 : s.pid = 2 ∨ s.pid = 3
  · rw [if_pos h2] at h
    rw [if_pos (.inr (.inr h2))]
    obtain ⟨x, _, h⟩ := Py.bind_ok.1 h
    obtain ⟨i', hi, h⟩ := Py.bind_ok.1 h
    obtain ⟨_, _, h⟩ := Py.bind_ok.1 h
    cases h
    suffices i' = i + 65 by omega
    by_cases hx : x = 0
    · rw [if_pos hx] at hi
      obtain ⟨_, _, hi⟩ := Py.bind_ok.1 hi
      obtain ⟨_, _, hi⟩ := Py.bind_ok.1 hi
      cases hi; rfl
    · rw [if_neg hx] at hi
      rw [cityStep_pos T b 4 _ _ hi]
  · rw [if_neg h2] at h
    cases h
    rw [if_neg (by tauto)]

/-- After a message with an unknown hazard its extension is interpreted with the guidance
selection of an earlier message (or of the constructor). -/
theorem ext_after_unknown (T : Tables) (mon : Bool) {b : BitBuf} {i : Nat} (hl : i + 122 + 74 ≤ b.length)
    (s s' : St) (j : Nat) (h : decode T mon b i s = .ok (s', j)) (hh : T.hazard (fld b i 16 7) = false) :
    decodeExt T b j s' = decodeExt T b (i + 122) { s with pid := fld b i 11 5 } := by
  rw [decode_unfold T mon (by omega)] at h
  by_cases hr : T.region (fld b i 2 9) = true
  · rw [if_pos hr, if_pos hh] at h
    cases h; rfl
  · rw [if_neg hr] at h; cases h

/-! ### Concrete cases -/

/-- tables with every key, every municipality once -/
def demoT : Tables :=
  { hazard := fun h => decide (1 ≤ h ∧ h ≤ 113), region := fun _ => true, listA := fun _ => true
    listB := fun _ => true, d14 := fun _ => true, pref := fun _ => true, city := fun _ => 1 }

/-- a message of a Japanese provider followed by an extension: hazard, subject and details -/
def demo (hazard subj : Nat) (d : List (Nat × Nat)) : BitBuf :=
  ([(2, 1), (9, 111), (5, 2), (7, hazard), (2, 3), (1, 0), (14, 1500), (2, 1), (1, 1), (3, 0), (2, 1), (8, 128),
    (16, 46000), (17, 116000), (5, 10), (5, 9), (6, 32), (2, subj)] ++ d ++ [(1, 0), (64, 5), (9, 0), (40, 0)]).flatMap
    fun p : Nat × Nat => natToBits p.1 p.2

/-- an earthquake with details is decoded -/
example : demoT.region (fld (demo 36 3 [(4, 6), (3, 4), (4, 3), (4, 7)]) 0 2 9) = true ∧
    ((decode demoT true (demo 36 3 [(4, 6), (3, 4), (4, 3), (4, 7)]) 0 {}).toOption.map
      fun r => (r.2, r.1.last.map fun a => (a.hazard, a.guide, a.detail))) =
      some (122, some (36, (1, 128), [6, 4, 3, 7])) := by decide +kernel

/-- wind chill with details fails, although the hazard is defined; so does an undefined index -/
example : (decode demoT false (demo 81 3 [(4, 1), (4, 1), (7, 0)]) 0 {}).toOption.isNone = true ∧
    fld (demo 81 3 [(4, 1), (4, 1), (7, 0)]) 0 16 7 ∉ [36, 43, 44, 63, 68, 70, 71, 72, 74, 76, 77, 79, 80, 82] ∧
    ¬ Skipped demoT (demo 81 3 [(4, 1), (4, 1), (7, 0)]) 0 ∧
    (decode demoT false (demo 36 3 [(4, 9), (3, 4), (4, 3), (4, 7)]) 0 {}).toOption.isNone = true := by
  unfold Skipped; decide +kernel

/-- an unknown hazard and its extension: read as an international one at first -/
example : ((decode demoT false (demo 0 3 [(15, 0)]) 0 {}).toOption.map fun r => (r.2, r.1.sel, r.1.pid)) =
      some (122, 0, 2) ∧
    demoT.hazard (fld (demo 0 3 [(15, 0)]) 0 16 7) = false ∧
    (decodeExt demoT (demo 0 3 [(15, 0)]) 122 { sel := 1, pid := 2 }).toOption = some 196 ∧
    (decodeExt demoT (demo 0 3 [(15, 0)]) 122 { sel := 1, pid := 4 }).toOption = some 122 := by decide +kernel

end Verif.C52
