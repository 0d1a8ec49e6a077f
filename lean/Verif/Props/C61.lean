import Verif.Props.C26
/-!
# C61 Contents of SBAS correction and ionosphere messages

Positions are counted from the start of the message; the data field begins at bit 14 (L1) or bit
10 (L5).
-/

namespace Verif.C61
open Verif.Sbas Verif.Sat Verif.Time Verif.C26

/-! ## Specification -/

/-- what is held for a satellite: issue of data, orbit, clock, their rates, and the epoch -/
structure Item where
  iode : Nat
  orb : Val × Val × Val
  clk : Val
  vel : Val × Val × Val
  dft : Val
  epoch : GTime

/-- everything held for the satellite is this item -/
def Holds (s : St) (x : Int) (it : Item) : Prop :=
  Dict.get? s.iode x = some it.iode ∧ Dict.get? s.dorb x = some it.orb ∧ Dict.get? s.dclk x = some it.clk ∧
  Dict.get? s.dvel x = some it.vel ∧ Dict.get? s.ddft x = some it.dft ∧ Dict.get? s.t0C x = some it.epoch ∧
  Dict.get? s.t0O x = some it.epoch

/-- nothing held for the satellite has changed -/
def Same (s s' : St) (x : Int) : Prop :=
  Dict.get? s'.iode x = Dict.get? s.iode x ∧ Dict.get? s'.dorb x = Dict.get? s.dorb x ∧ Dict.get? s'.dclk x = Dict.get? s.dclk x ∧
  Dict.get? s'.dvel x = Dict.get? s.dvel x ∧ Dict.get? s'.ddft x = Dict.get? s.ddft x ∧ Dict.get? s'.t0C x = Dict.get? s.t0C x ∧
  Dict.get? s'.t0O x = Dict.get? s.t0O x

/-- the last of the items addressed to a satellite -/
def lastFor (recs : List (Int × Item)) (x : Int) : Option Item := (recs.reverse.find? fun r => r.1 = x).map (·.2)

/-- the satellites named are appended to the list of corrected satellites, each once -/
def Listed (l l' xs : List Int) : Prop := ∃ new, l' = l ++ new ∧ new.Nodup ∧ ∀ x, x ∈ new ↔ x ∈ xs ∧ x ∉ l

/-- the items, and only these, have been taken over -/
def Taken (recs : List (Int × Item)) (s s' : St) : Prop :=
  (∀ x, match lastFor recs x with | some it => Holds s' x it | none => Same s s' x) ∧
  Listed s.satN s'.satN (recs.map (·.1)) ∧
  s' = { s with satN := s'.satN, iode := s'.iode, dorb := s'.dorb, dclk := s'.dclk, dvel := s'.dvel, ddft := s'.ddft,
                t0C := s'.t0C, t0O := s'.t0O, iodssrClk := s'.iodssrClk, iodssrOrb := s'.iodssrOrb }

/-- a value that is missing when the field holds `top` -/
def given (top u : Int) (v : ℚ) : Val := if u = top then none else some v

/-- position and clock correction without rates, 51 bits from `i`: no value is ever missing -/
def shortItem (t : GTime) (msg : BitBuf) (i : Nat) : Item :=
  { iode := bitsAt msg (i + 6) 8
    orb := (some (-(intAt msg (i + 14) 9 : ℚ) / 8), some (-(intAt msg (i + 23) 9 : ℚ) / 8), some (-(intAt msg (i + 32) 9 : ℚ) / 8))
    clk := some ((intAt msg (i + 41) 10 : ℚ) * 299792458 / 2147483648)
    vel := (some 0, some 0, some 0)
    dft := some 0
    epoch := t }

/-- the coordinate of an 11-bit field counting `1/n` metre -/
def coord (n : ℚ) (msg : BitBuf) (i : Nat) : Val := given 1023 (intAt msg i 11) (-(intAt msg i 11 : ℚ) / n)

/-- the velocity of an 8-bit field -/
def speed (msg : BitBuf) (i : Nat) : Val := given 127 (intAt msg i 8) (-(intAt msg i 8 : ℚ) / 2048)

/-- position, clock and rates, 90 bits from `i` -/
def longItem (t : GTime) (msg : BitBuf) (i : Nat) : Item :=
  { iode := bitsAt msg (i + 6) 8
    orb := (coord 8 msg (i + 14), coord 8 msg (i + 25), coord 8 msg (i + 36))
    clk := given 1023 (intAt msg (i + 47) 11) ((intAt msg (i + 47) 11 : ℚ) * 299792458 / 2147483648)
    vel := (speed msg (i + 58), speed msg (i + 66), speed msg (i + 74))
    dft := given 127 (intAt msg (i + 82) 8) ((intAt msg (i + 82) 8 : ℚ) * 299792458 / 549755813888)
    epoch := t }

/-- the items of a half message beginning at `i` -/
def halfItems (t : GTime) (msg : BitBuf) (i : Nat) : List (Int × Item) :=
  if bitsAt msg i 1 = 0 then
    ([i + 1, i + 52].filter fun j => bitsAt msg j 6 ≠ 0).map fun j => (slot2sat (bitsAt msg j 6), shortItem t msg j)
  else [(slot2sat (bitsAt msg (i + 1) 6), longItem t msg (i + 1))]

/-- the item of a dual-frequency correction message; the epoch is the one of the time of day in the
message -/
def dfmcItem (t : GTime) (msg : BitBuf) : Item :=
  { iode := bitsAt msg 18 10
    orb := (coord 16 msg 28, coord 16 msg 39, coord 16 msg 50)
    clk := given 2047 (intAt msg 61 12) ((intAt msg 61 12 : ℚ) / 32)
    vel := (speed msg 73, speed msg 81, speed msg 89)
    dft := given 255 (intAt msg 97 9) ((intAt msg 97 9 : ℚ) / 4096)
    epoch := tod2tow ((bitsAt msg 106 13 : ℚ) * 16) t }

/-! ## Taking over items -/

theorem taken_nil (s : St) : Taken [] s s :=
  ⟨fun _ => ⟨rfl, rfl, rfl, rfl, rfl, rfl, rfl⟩, ⟨[], by simp, List.nodup_nil, by simp⟩, rfl⟩

theorem lastFor_append (a b : List (Int × Item)) (x : Int) :
    lastFor (a ++ b) x = match lastFor b x with | some it => some it | none => lastFor a x := by
  unfold lastFor
  rw [List.reverse_append, List.find?_append]
  cases List.find? (fun r => decide (r.1 = x)) b.reverse <;> rfl

theorem Taken.trans {a b : List (Int × Item)} {s s1 s2 : St} (h1 : Taken a s s1) (h2 : Taken b s1 s2) : Taken (a ++ b) s s2 := by
  obtain ⟨p1, ⟨n1, q1, r1, w1⟩, e1⟩ := h1
  obtain ⟨p2, ⟨n2, q2, r2, w2⟩, e2⟩ := h2
  refine ⟨?_, ⟨n1 ++ n2, ?_, ?_, ?_⟩, ?_⟩
  · intro x
    have h1 := p1 x
    have h2 := p2 x
    rw [lastFor_append]
    cases hb : lastFor b x with
    | some it => rw [hb] at h2; exact h2
    | none =>
      rw [hb] at h2
      cases ha : lastFor a x with
      | some it =>
        rw [ha] at h1
        obtain ⟨g1, g2, g3, g4, g5, g6, g7⟩ := h1
        obtain ⟨k1, k2, k3, k4, k5, k6, k7⟩ := h2
        exact ⟨k1.trans g1, k2.trans g2, k3.trans g3, k4.trans g4, k5.trans g5, k6.trans g6, k7.trans g7⟩
      | none =>
        rw [ha] at h1
        obtain ⟨g1, g2, g3, g4, g5, g6, g7⟩ := h1
        obtain ⟨k1, k2, k3, k4, k5, k6, k7⟩ := h2
        exact ⟨k1.trans g1, k2.trans g2, k3.trans g3, k4.trans g4, k5.trans g5, k6.trans g6, k7.trans g7⟩
  · rw [q2, q1, List.append_assoc]
  · rw [List.nodup_append]
    refine ⟨r1, r2, ?_⟩
    intro x hx y hy hxy
    subst hxy
    exact ((w2 x).1 hy).2 (by rw [q1]; exact List.mem_append.2 (Or.inr hx))
  · intro x
    rw [List.mem_append, w1, w2, q1, List.map_append, List.mem_append, List.mem_append, w1]
    tauto
  · rw [e2]
    conv_lhs => rw [e1]

theorem Taken.issue {a : List (Int × Item)} {s s' : St} (h : Taken a s s') (c o : Int) :
    Taken a s { s' with iodssrClk := c, iodssrOrb := o } := by
  obtain ⟨p, q, e⟩ := h
  refine ⟨fun x => ?_, q, ?_⟩
  · have := p x
    revert this
    cases lastFor a x <;> exact fun h => h
  · conv_lhs => rw [e]

theorem listed_one (l : List Int) (x : Int) : Listed l (if x ∈ l then l else l ++ [x]) [x] := by
  by_cases h : x ∈ l
  · rw [if_pos h]
    exact ⟨[], by simp, List.nodup_nil, by
      intro y; constructor
      · intro hy; cases hy
      · rintro ⟨hy, hl⟩; rw [List.mem_singleton] at hy; subst hy; exact absurd h hl⟩
  · rw [if_neg h]
    exact ⟨[x], rfl, by simp, by
      intro y; rw [List.mem_singleton]
      exact ⟨fun e => by subst e; exact ⟨rfl, h⟩, fun e => e.1⟩⟩

theorem lastFor_one (x : Int) (it : Item) (y : Int) : lastFor [(x, it)] y = if y = x then some it else none := by
  unfold lastFor
  by_cases h : y = x
  · subst h; simp
  · rw [if_neg h]
    have : ¬ x = y := fun e => h e.symm
    simp [this]

/-- storing one item in every dictionary -/
theorem taken_one (s s' : St) (x : Int) (it : Item)
    (h : s' = { s with
      satN := if x ∈ s.satN then s.satN else s.satN ++ [x]
      iode := Dict.set s.iode x it.iode
      dorb := Dict.set s.dorb x it.orb
      dclk := Dict.set s.dclk x it.clk
      dvel := Dict.set s.dvel x it.vel
      ddft := Dict.set s.ddft x it.dft
      t0C := Dict.set s.t0C x it.epoch
      t0O := Dict.set s.t0O x it.epoch }) : Taken [(x, it)] s s' := by
  subst h
  refine ⟨?_, listed_one _ _, rfl⟩
  intro y
  rw [lastFor_one]
  by_cases h : y = x
  · rw [if_pos h]
    subst h
    unfold Holds
    simp only [Dict.get?_set, if_pos, and_self]
  · rw [if_neg h]
    unfold Same
    simp only [Dict.get?_set, if_neg h, and_self]

/-! ## Values -/

theorem bitsAt_lt (msg : BitBuf) (i n : Nat) : bitsAt msg i n < 2 ^ n := by
  unfold bitsAt
  refine lt_of_lt_of_le (bitsToNat_lt _) (Nat.pow_le_pow_right (by norm_num) ?_)
  rw [List.length_take]
  exact Nat.min_le_left _ _

theorem intAt_lt (msg : BitBuf) (i n : Nat) : intAt msg i (n + 1) < 2 ^ n :=
  (toSigned_range (n + 1) _ (by omega) (bitsAt_lt msg i (n + 1))).2

theorem neg_given (u : Int) (n : Nat) (top : Int) (ht : (2 : Int) ^ (n - 1) - 1 = top) (scl v : ℚ) (hv : -((u : ℚ) * scl) = v) :
    neg (Sval.svalSbas u n scl) = given top u v := by
  unfold neg Sval.svalSbas given
  rw [ht]
  by_cases h : u = top
  · rw [if_pos h, if_pos h]; rfl
  · rw [if_neg h, if_neg h, Option.map_some, hv]

theorem pos_given (u : Int) (n : Nat) (top : Int) (ht : (2 : Int) ^ (n - 1) - 1 = top) (scl v : ℚ) (hv : (u : ℚ) * scl = v) :
    Sval.svalSbas u n scl = given top u v := by
  unfold Sval.svalSbas given
  rw [ht]
  by_cases h : u = top
  · rw [if_pos h, if_pos h]
  · rw [if_neg h, if_neg h, hv]

theorem given_ne {top u : Int} (h : u ≠ top) (v : ℚ) : given top u v = some v := if_neg h

theorem mapM_reads {msg : BitBuf} (f : Nat → Nat) (w : Nat) : ∀ n, (∀ k, k < n → f k + w ≤ msg.length) →
    (List.range n).mapM (fun k => readU msg (f k) w) = .ok ((List.range n).map fun k => bitsAt msg (f k) w)
  | 0, _ => rfl
  | n + 1, h => by
    rw [List.range_succ, List.mapM_append, mapM_reads f w n (fun k hk => h k (by omega)), Py.okBind, List.mapM_cons,
      readU_at (h n (by omega))]
    rw [List.map_append]
    rfl

theorem mem_set {α : Type} (d : Dict Nat α) (c : Nat) (v : α) (b : Nat) :
    Dict.get? (if Dict.mem d c then d else Dict.set d c v) b = if b = c ∧ Dict.get? d b = none then some v else Dict.get? d b := by
  unfold Dict.mem
  by_cases h : b = c
  · subst h
    cases e : Dict.get? d b with
    | none => simp [Dict.get?_set]
    | some w => simp [e]
  · rw [if_neg (show ¬ (b = c ∧ Dict.get? d b = none) from fun e => h e.1)]
    by_cases m : (Dict.get? d c).isSome = true
    · rw [if_pos m]
    · rw [if_neg m, Dict.get?_set, if_neg h]

/-! ## Long-term corrections -/

theorem addCorr_short (s : St) (msg : BitBuf) (i : Nat) :
    Taken [(slot2sat (bitsAt msg i 6), shortItem s.time msg i)] s
      (addCorr s ⟨bitsAt msg i 6, bitsAt msg (i + 6) 8, intAt msg (i + 14) 9, intAt msg (i + 23) 9, intAt msg (i + 32) 9,
        intAt msg (i + 41) 10, 0, 0, 0, 0⟩) := by
  refine taken_one _ _ _ _ ?_
  unfold addCorr shortItem
  have o : ∀ j, neg (Sval.svalSbas (intAt msg j 9) 11 (1 / 8)) = some (-(intAt msg j 9 : ℚ) / 8) := by
    intro j
    rw [neg_given _ 11 1023 (by norm_num) _ (-(intAt msg j 9 : ℚ) / 8) (by ring)]
    exact given_ne (by have := intAt_lt msg j 8; norm_num at this; omega) _
  have c : Sval.svalSbas (intAt msg (i + 41) 10) 11 (299792458 / 2 ^ 31) = some ((intAt msg (i + 41) 10 : ℚ) * 299792458 / 2147483648) := by
    rw [pos_given _ 11 1023 (by norm_num) _ ((intAt msg (i + 41) 10 : ℚ) * 299792458 / 2147483648) (by ring)]
    exact given_ne (by have := intAt_lt msg (i + 41) 9; norm_num at this; omega) _
  have v : neg (Sval.svalSbas 0 8 (1 / 2 ^ 11)) = some 0 := by
    rw [neg_given _ 8 127 (by norm_num) _ 0 (by norm_num)]; rfl
  have d : Sval.svalSbas 0 8 (299792458 / 2 ^ 39) = some 0 := by
    rw [pos_given _ 8 127 (by norm_num) _ 0 (by norm_num)]; rfl
  simp only [o, c, v, d]

theorem coord_eq (n : ℚ) (msg : BitBuf) (i : Nat) : neg (Sval.svalSbas (intAt msg i 11) 11 (1 / n)) = coord n msg i :=
  neg_given _ 11 1023 (by norm_num) _ _ (by ring)

theorem speed_eq (msg : BitBuf) (i : Nat) : neg (Sval.svalSbas (intAt msg i 8) 8 (1 / 2 ^ 11)) = speed msg i :=
  neg_given _ 8 127 (by norm_num) _ _ (by ring)

theorem addCorr_long (s : St) (msg : BitBuf) (i : Nat) :
    Taken [(slot2sat (bitsAt msg i 6), longItem s.time msg i)] s
      (addCorr s ⟨bitsAt msg i 6, bitsAt msg (i + 6) 8, intAt msg (i + 14) 11, intAt msg (i + 25) 11, intAt msg (i + 36) 11,
        intAt msg (i + 47) 11, intAt msg (i + 58) 8, intAt msg (i + 66) 8, intAt msg (i + 74) 8, intAt msg (i + 82) 8⟩) := by
  refine taken_one _ _ _ _ ?_
  unfold addCorr longItem
  have c : Sval.svalSbas (intAt msg (i + 47) 11) 11 (299792458 / 2 ^ 31) =
      given 1023 (intAt msg (i + 47) 11) ((intAt msg (i + 47) 11 : ℚ) * 299792458 / 2147483648) :=
    pos_given _ 11 1023 (by norm_num) _ _ (by ring)
  have d : Sval.svalSbas (intAt msg (i + 82) 8) 8 (299792458 / 2 ^ 39) =
      given 127 (intAt msg (i + 82) 8) ((intAt msg (i + 82) 8 : ℚ) * 299792458 / 549755813888) :=
    pos_given _ 8 127 (by norm_num) _ _ (by ring)
  simp only [coord_eq, speed_eq, c, d]

theorem readShort_eq {msg : BitBuf} {i : Nat} (h : i + 51 ≤ msg.length) :
    readShort msg i = .ok ⟨bitsAt msg i 6, bitsAt msg (i + 6) 8, intAt msg (i + 14) 9, intAt msg (i + 23) 9, intAt msg (i + 32) 9,
        intAt msg (i + 41) 10, 0, 0, 0, 0⟩ := by
  unfold readShort
  rw [readU_at (by omega), Py.okBind, readU_at (by omega), Py.okBind, readS_at (by omega), Py.okBind, readS_at (by omega), Py.okBind,
    readS_at (by omega), Py.okBind, readS_at (by omega), Py.okBind]
  rfl

theorem readLong_eq {msg : BitBuf} {i : Nat} (h : i + 90 ≤ msg.length) :
    readLong msg i = .ok ⟨bitsAt msg i 6, bitsAt msg (i + 6) 8, intAt msg (i + 14) 11, intAt msg (i + 25) 11, intAt msg (i + 36) 11,
        intAt msg (i + 47) 11, intAt msg (i + 58) 8, intAt msg (i + 66) 8, intAt msg (i + 74) 8, intAt msg (i + 82) 8⟩ := by
  unfold readLong
  rw [readU_at (by omega), Py.okBind, readU_at (by omega), Py.okBind, readS_at (by omega), Py.okBind, readS_at (by omega), Py.okBind,
    readS_at (by omega), Py.okBind, readS_at (by omega), Py.okBind, readS_at (by omega), Py.okBind, readS_at (by omega), Py.okBind,
    readS_at (by omega), Py.okBind, readS_at (by omega), Py.okBind]
  rfl

theorem addIf_short (s : St) (msg : BitBuf) (i : Nat) :
    Taken (([i].filter fun j => bitsAt msg j 6 ≠ 0).map fun j => (slot2sat (bitsAt msg j 6), shortItem s.time msg j)) s
      (addIf s ⟨bitsAt msg i 6, bitsAt msg (i + 6) 8, intAt msg (i + 14) 9, intAt msg (i + 23) 9, intAt msg (i + 32) 9,
        intAt msg (i + 41) 10, 0, 0, 0, 0⟩) := by
  unfold addIf
  by_cases c : bitsAt msg i 6 > 0
  · rw [if_pos c, List.filter_cons_of_pos (by simpa using Nat.pos_iff_ne_zero.1 c)]
    exact addCorr_short s msg i
  · rw [if_neg c, List.filter_cons_of_neg (by simp; omega)]
    exact taken_nil s

/-- **Half message**: an accepted half message stores exactly its items, under the current epoch. -/
theorem half_content (s : St) (msg : BitBuf) (i : Nat) (h : i + 106 ≤ msg.length) (hi : (halfIssue msg i : Int) = s.iodp) :
    ∃ s', lcorrHalf s msg i = .ok (s', i + 106) ∧ Taken (halfItems s.time msg i) s s' ∧ s'.iodssrClk = s.iodp ∧ s'.iodssrOrb = s.iodp := by
  unfold lcorrHalf halfItems
  unfold halfIssue at hi
  rw [readU_at (show i + 1 ≤ msg.length by omega), Py.okBind]
  by_cases c : bitsAt msg i 1 = 0
  · simp only [if_pos c] at hi ⊢
    rw [show i + 1 + 102 = i + 103 by omega, readU_at (show i + 103 + 2 ≤ msg.length by omega), Py.okBind, if_neg (by simpa using hi),
      readShort_eq (by omega), Py.okBind, show i + 1 + 51 = i + 52 by omega, readShort_eq (by omega), Py.okBind]
    refine ⟨_, rfl, ?_, hi, hi⟩
    refine Taken.issue ?_ _ _
    have h1 := addIf_short s msg (i + 1)
    have ht := congrArg St.time h1.2.2
    have h2 := addIf_short (addIf s ⟨bitsAt msg (i + 1) 6, bitsAt msg (i + 1 + 6) 8, intAt msg (i + 1 + 14) 9, intAt msg (i + 1 + 23) 9,
      intAt msg (i + 1 + 32) 9, intAt msg (i + 1 + 41) 10, 0, 0, 0, 0⟩) msg (i + 52)
    rw [ht] at h2
    have := h1.trans h2
    rw [← List.map_append, ← List.filter_append] at this
    exact this
  · simp only [if_neg c] at hi ⊢
    rw [show i + 1 + 103 = i + 104 by omega, readU_at (show i + 104 + 2 ≤ msg.length by omega), Py.okBind, if_neg (by simpa using hi),
      readLong_eq (by omega), Py.okBind, readU_at (by omega), Py.okBind]
    exact ⟨_, rfl, (addCorr_long s msg (i + 1)).issue _ _, hi, hi⟩

/-- **Long-term message** (type 25): when both halves belong to the current mask, their items are
stored in order, later ones replacing earlier ones of the same satellite. -/
theorem long_message (s : St) (msg : BitBuf) (hl : 226 ≤ msg.length) (hm : bitsAt msg 8 6 = 25)
    (h1 : (halfIssue msg 14 : Int) = s.iodp) (h2 : (halfIssue msg 120 : Int) = s.iodp) :
    ∃ s', decode s false msg = .ok s' ∧ Taken (halfItems s.time msg 14 ++ halfItems s.time msg 120) s s' ∧
      s'.iodssrClk = s.iodp ∧ s'.iodssrOrb = s.iodp := by
  rw [decode_l1 hm (by omega)]
  rw [if_neg (by omega), if_neg (by omega), if_neg (by omega), if_neg (by omega), if_neg (by omega), if_neg (by omega), if_pos rfl]
  unfold longCorr
  obtain ⟨a, ea, ta, _, _⟩ := half_content s msg 14 (by omega) h1
  have hp := congrArg St.iodp ta.2.2
  have ht := congrArg St.time ta.2.2
  simp only at hp ht
  obtain ⟨b, eb, tb, c1, c2⟩ := half_content a msg 120 (by omega) (by rw [hp]; exact h2)
  rw [ht] at tb
  rw [hp] at c1 c2
  rw [ea, Py.okBind]
  simp only
  rw [eb]
  exact ⟨b, rfl, ta.trans tb, c1, c2⟩

/-- **First half only**: when the second half belongs to another mask only the first is stored. -/
theorem first_half (s : St) (msg : BitBuf) (hl : 226 ≤ msg.length) (hm : bitsAt msg 8 6 = 25)
    (h1 : (halfIssue msg 14 : Int) = s.iodp) (h2 : (halfIssue msg 120 : Int) ≠ s.iodp) :
    ∃ s', decode s false msg = .ok s' ∧ Taken (halfItems s.time msg 14) s s' ∧ s'.iodssrClk = s.iodp ∧ s'.iodssrOrb = s.iodp := by
  rw [decode_l1 hm (by omega)]
  rw [if_neg (by omega), if_neg (by omega), if_neg (by omega), if_neg (by omega), if_neg (by omega), if_neg (by omega), if_pos rfl]
  unfold longCorr
  obtain ⟨a, ea, ta, c1, c2⟩ := half_content s msg 14 (by omega) h1
  have hp := congrArg St.iodp ta.2.2
  simp only at hp
  rw [ea, Py.okBind]
  simp only
  rw [(half_spec a msg 120 (by omega)).1 (by rw [hp]; exact h2)]
  exact ⟨a, rfl, ta, c1, c2⟩

/-! ## Dual-frequency corrections -/

theorem decode_l5 {s : St} {msg : BitBuf} {mt : Nat} (h : bitsAt msg 4 6 = mt) (hl : 10 ≤ msg.length) :
    decode s true msg = (do
      let (s, _) ←
        if mt = 1 then mask1 s msg 10
        else if mt = 2 ∨ mt = 3 ∨ mt = 4 ∨ mt = 5 then fastCorr s msg mt 10
        else if mt = 6 then integrity s msg 10
        else if mt = 7 then degradation s msg 10
        else if mt = 18 then igpMask s msg 10
        else if mt = 24 then mixed s msg 10
        else if mt = 25 then longCorr s msg 10
        else if mt = 26 then iono s msg 10
        else if mt = 31 then mask31 s msg 10
        else if mt = 32 then corr32 s msg 10
        else if mt = 34 then mt34 s msg 10
        else if mt = 35 ∨ mt = 36 then mt3536 s msg 10
        else pure (s, 10)
      pure s) := by
  unfold decode
  rw [if_pos rfl, if_pos rfl, readU_at (by omega), Py.okBind, h]

/-- **Dual-frequency correction** (type 32): slot zero changes nothing; any other stores exactly one
item, for the satellite of the slot, without looking at the issue of the mask. -/
theorem dfmc_correction (s : St) (msg : BitBuf) (hl : 226 ≤ msg.length) (hm : bitsAt msg 4 6 = 32) :
    (bitsAt msg 10 8 = 0 → decode s true msg = .ok s) ∧
    (bitsAt msg 10 8 ≠ 0 → ∃ s', decode s true msg = .ok s' ∧ Taken [(slot2sat (bitsAt msg 10 8), dfmcItem s.time msg)] s s' ∧
      (s'.iodssrClk, s'.iodssrOrb) = if slot2sat (bitsAt msg 10 8) = 0 then (s.iodssrClk, s.iodssrOrb) else (s.iodssr, s.iodssr)) := by
  rw [decode_l5 hm (by omega)]
  rw [if_neg (by omega), if_neg (by omega), if_neg (by omega), if_neg (by omega), if_neg (by omega), if_neg (by omega), if_neg (by omega),
    if_neg (by omega), if_neg (by omega), if_pos rfl]
  unfold corr32
  rw [readU_at (by omega), Py.okBind, readU_at (by omega), Py.okBind]
  constructor
  · intro h0
    rw [if_pos h0]; rfl
  · intro h0
    rw [if_neg h0, readS_at (by omega), Py.okBind, readS_at (by omega), Py.okBind, readS_at (by omega), Py.okBind, readS_at (by omega),
      Py.okBind, readS_at (by omega), Py.okBind, readS_at (by omega), Py.okBind, readS_at (by omega), Py.okBind, readS_at (by omega),
      Py.okBind, readU_at (by omega), Py.okBind, readU_at (by omega), Py.okBind, readU_at (by omega), Py.okBind]
    have key : Taken [(slot2sat (bitsAt msg 10 8), dfmcItem s.time msg)] s
        (addDfmc s ⟨bitsAt msg 10 8, bitsAt msg (10 + 8) 10, intAt msg (10 + 18) 11, intAt msg (10 + 29) 11, intAt msg (10 + 40) 11,
          intAt msg (10 + 51) 12, intAt msg (10 + 63) 8, intAt msg (10 + 71) 8, intAt msg (10 + 79) 8, intAt msg (10 + 87) 9⟩
          (tod2tow ((bitsAt msg (10 + 96) 13 : ℚ) * 16) s.time)) := by
      refine taken_one _ _ _ _ ?_
      unfold addDfmc dfmcItem
      have c : Sval.svalSbas (intAt msg (10 + 51) 12) 12 (1 / 32) = given 2047 (intAt msg 61 12) ((intAt msg 61 12 : ℚ) / 32) :=
        pos_given _ 12 2047 (by norm_num) _ _ (by ring)
      have d : Sval.svalSbas (intAt msg (10 + 87) 9) 9 (1 / 2 ^ 12) = given 255 (intAt msg 97 9) ((intAt msg 97 9 : ℚ) / 4096) :=
        pos_given _ 9 255 (by norm_num) _ _ (by ring)
      simp only [coord_eq, speed_eq, c, d]
    by_cases hz : slot2sat (bitsAt msg 10 8) = 0
    · rw [if_pos hz, if_pos hz]
      exact ⟨_, rfl, key, rfl⟩
    · rw [if_neg hz, if_neg hz]
      exact ⟨_, rfl, key.issue _ _, rfl⟩

/-- **Integrity of all satellites** (type 34): read only with the issue of the current mask; then it
raises as soon as one of the listed satellites has a non-zero indicator, or when more than 92 are
listed. -/
theorem dfmc_indicators (s : St) (msg : BitBuf) (hl : 226 ≤ msg.length) (hm : bitsAt msg 4 6 = 34) :
    decode s true msg =
      if (bitsAt msg 214 2 : Int) ≠ s.iodm then .ok s
      else if ∃ k ∈ List.range 92, k < s.nsat ∧ bitsAt msg (10 + 2 * k) 2 ≠ 0 then .error .attributeError
      else if 92 < s.nsat then .error .indexError else .ok s := by
  rw [decode_l5 hm (by omega)]
  rw [if_neg (by omega), if_neg (by omega), if_neg (by omega), if_neg (by omega), if_neg (by omega), if_neg (by omega), if_neg (by omega),
    if_neg (by omega), if_neg (by omega), if_neg (by omega), if_pos rfl]
  unfold mt34
  rw [readU_at (by omega), Py.okBind]
  by_cases hi : (bitsAt msg 214 2 : Int) ≠ s.iodm
  · rw [if_pos hi, if_pos hi]; rfl
  · rw [if_neg hi, if_neg hi, mapM_reads (fun k => 10 + 2 * k) 2 92 (fun k hk => by omega), Py.okBind, readU_at (by omega), Py.okBind]
    have e : (((List.range 92).map fun k => bitsAt msg (10 + 2 * k) 2).take s.nsat).any (fun c => decide (c ≠ 0)) = true ↔
        ∃ k ∈ List.range 92, k < s.nsat ∧ bitsAt msg (10 + 2 * k) 2 ≠ 0 := by
      rw [← List.map_take, List.take_range, List.any_map, List.any_eq_true]
      constructor
      · rintro ⟨k, hk, h⟩
        rw [List.mem_range] at hk
        exact ⟨k, List.mem_range.2 (by omega), by omega, by simpa using h⟩
      · rintro ⟨k, h1, h2, h⟩
        rw [List.mem_range] at h1
        exact ⟨k, List.mem_range.2 (by omega), by simpa using h⟩
    by_cases c : ∃ k ∈ List.range 92, k < s.nsat ∧ bitsAt msg (10 + 2 * k) 2 ≠ 0
    · rw [if_pos c, if_pos (e.2 c)]; rfl
    · rw [if_neg c, if_neg (fun h => c (e.1 h))]
      by_cases n : 92 < s.nsat
      · rw [if_pos n, if_pos n]; rfl
      · rw [if_neg n, if_neg n]; rfl

/-- **Previous list**: a dual-frequency mask (type 31) of another issue keeps the previous issue and
list; one of the same issue leaves them. -/
theorem dfmc_previous (s : St) (msg : BitBuf) (hl : 226 ≤ msg.length) (hm : bitsAt msg 4 6 = 31) :
    ∃ s', decode s true msg = .ok s' ∧ s'.iodssr = bitsAt msg 224 2 ∧ s'.iodm = bitsAt msg 224 2 ∧ s'.nsat = s'.satN.length ∧
      (s'.iodssrP, s'.satNP) = if (bitsAt msg 224 2 : Int) = s.iodssr then (s.iodssrP, s.satNP) else (s.iodssr, s.satN) := by
  rw [decode_l5 hm (by omega)]
  rw [if_neg (by omega), if_neg (by omega), if_neg (by omega), if_neg (by omega), if_neg (by omega), if_neg (by omega), if_neg (by omega),
    if_neg (by omega), if_pos rfl]
  unfold mask31
  rw [readU_at (by omega), Py.okBind, readU_at (by omega), Py.okBind, readU_at (by omega), Py.okBind, readU_at (by omega), Py.okBind,
    readU_at (by omega), Py.okBind, readU_at (by omega), Py.okBind, readU_at (by omega), Py.okBind]
  refine ⟨_, rfl, rfl, rfl, rfl, ?_⟩
  by_cases c : (bitsAt msg 224 2 : Int) = s.iodssr
  · rw [if_pos c]
    simp only [if_neg (show ¬ (bitsAt msg (10 + 214) 2 : Int) ≠ s.iodssr from fun h => h c)]
  · rw [if_neg c]
    simp only [if_pos (show (bitsAt msg (10 + 214) 2 : Int) ≠ s.iodssr from c)]

/-! ## Ionosphere -/

/-- the grid points marked in a mask message -/
def marked (msg : BitBuf) : List Nat := (List.range 201).filter fun k => bitsAt msg (24 + k) 1 = 1

/-- **Grid mask** (type 18): the marked points of the band replace the previous ones and the issue is
taken over; the delays of the band are created on the first mask only, and kept (with their old
number of points) afterwards. -/
theorem grid_mask (s : St) (msg : BitBuf) (hl : 226 ≤ msg.length) (hm : bitsAt msg 8 6 = 18) :
    ∃ s', decode s false msg = .ok s' ∧
      s' = { s with igpIdx := s'.igpIdx, iodi := bitsAt msg 22 2, vtec := s'.vtec, givei := s'.givei } ∧
      (∀ b, Dict.get? s'.igpIdx b = if b = bitsAt msg 18 4 then some (marked msg) else Dict.get? s.igpIdx b) ∧
      (∀ b, Dict.get? s'.vtec b = if b = bitsAt msg 18 4 ∧ Dict.get? s.vtec b = none then
        some (List.replicate (marked msg).length (some 0)) else Dict.get? s.vtec b) ∧
      (∀ b, Dict.get? s'.givei b = if b = bitsAt msg 18 4 ∧ Dict.get? s.givei b = none then
        some (List.replicate (marked msg).length 0) else Dict.get? s.givei b) := by
  rw [decode_l1 hm (by omega)]
  rw [if_neg (by omega), if_neg (by omega), if_neg (by omega), if_neg (by omega), if_pos rfl]
  unfold igpMask
  rw [readU_at (by omega), Py.okBind, readU_at (by omega), Py.okBind, readU_at (by omega), Py.okBind,
    mapM_reads (fun k => 14 + 10 + k) 1 201 (fun k hk => by omega), Py.okBind]
  have hx : ((List.range 201).filter fun k => ((List.range 201).map fun k => bitsAt msg (14 + 10 + k) 1)[k]? = some 1) = marked msg := by
    unfold marked
    refine List.filter_congr fun k hk => ?_
    rw [List.mem_range] at hk
    rw [List.getElem?_map, List.getElem?_range hk]
    simp
  rw [hx]
  refine ⟨_, rfl, rfl, ?_, ?_, ?_⟩
  · intro b
    exact Dict.get?_set ..
  · intro b
    exact mem_set ..
  · intro b
    exact mem_set ..

/-- delays and indicators of a band go together -/
def Paired (s : St) : Prop := ∀ b, (Dict.get? s.vtec b).map List.length = (Dict.get? s.givei b).map List.length

/-- the pairing is kept and a band, once there, keeps its number of points -/
def Grows (s s' : St) : Prop :=
  Paired s → Paired s' ∧ ∀ b v, Dict.get? s.vtec b = some v → ∃ v', Dict.get? s'.vtec b = some v' ∧ v'.length = v.length

theorem Grows.of_eq {s s' : St} (h1 : s'.vtec = s.vtec) (h2 : s'.givei = s.givei) : Grows s s' := by
  intro hp
  unfold Paired at hp ⊢
  rw [h1, h2]
  exact ⟨hp, fun b v hv => ⟨v, hv, rfl⟩⟩

theorem Grows.trans {a b c : St} (h1 : Grows a b) (h2 : Grows b c) : Grows a c := by
  intro hp
  obtain ⟨p1, k1⟩ := h1 hp
  obtain ⟨p2, k2⟩ := h2 p1
  refine ⟨p2, fun x v hv => ?_⟩
  obtain ⟨v1, e1, l1⟩ := k1 x v hv
  obtain ⟨v2, e2, l2⟩ := k2 x v1 e1
  exact ⟨v2, e2, l2.trans l1⟩

theorem same_fastLoop (msg : BitBuf) (typ : Nat) : ∀ (n : Nat) (s : St) (i k : Nat),
    Post (fastLoop s msg i typ k n) (fun r => r.1.vtec = s.vtec ∧ r.1.givei = s.givei)
  | 0, s, i, k => Post.ok ⟨rfl, rfl⟩
  | n + 1, s, i, k => by
    rw [fastLoop]
    refine Post.bind_any fun fc => ?_
    cases s.sat[typ * 13 + k]? with
    | none => exact Post.pure ⟨rfl, rfl⟩
    | some x => exact same_fastLoop msg typ n _ _ _

theorem same_udreiLoop (msg : BitBuf) (typ : Nat) : ∀ (n : Nat) (s : St) (i k : Nat),
    Post (udreiLoop s msg i typ k n) (fun r => r.1.vtec = s.vtec ∧ r.1.givei = s.givei)
  | 0, s, i, k => Post.ok ⟨rfl, rfl⟩
  | n + 1, s, i, k => by
    rw [udreiLoop]
    refine Post.bind_any fun fc => ?_
    cases s.sat[typ * 13 + k]? with
    | none => exact Post.pure ⟨rfl, rfl⟩
    | some x => exact same_udreiLoop msg typ n _ _ _

theorem same_fastBlk (s : St) (msg : BitBuf) (i n typ : Nat) :
    Post (fastBlk s msg i n typ) (fun r => r.1.vtec = s.vtec ∧ r.1.givei = s.givei) := by
  unfold fastBlk
  refine Post.bind (same_fastLoop msg typ n s i 0) ?_
  rintro ⟨s1, i1⟩ h
  exact (same_udreiLoop msg typ n s1 i1 0).mono fun r hr => ⟨hr.1.trans h.1, hr.2.trans h.2⟩

theorem same_half (s : St) (msg : BitBuf) (i : Nat) : Post (lcorrHalf s msg i) (fun r => r.1.vtec = s.vtec ∧ r.1.givei = s.givei) := by
  unfold lcorrHalf
  refine Post.bind_any fun vc => ?_
  refine Post.bind_any fun iodp => ?_
  refine Post.ite (fun _ => Post.pure ⟨rfl, rfl⟩) fun _ => ?_
  refine Post.ite (fun _ => ?_) fun _ => ?_
  · refine Post.bind_any fun a => ?_
    refine Post.bind_any fun b => ?_
    refine Post.pure ?_
    have key : ∀ t l, (addIf t l).vtec = t.vtec ∧ (addIf t l).givei = t.givei := by
      intro t l
      unfold addIf
      split <;> exact ⟨rfl, rfl⟩
    exact ⟨(key _ b).1.trans (key s a).1, (key _ b).2.trans (key s a).2⟩
  · refine Post.bind_any fun a => ?_
    refine Post.bind_any fun b => ?_
    exact Post.pure ⟨rfl, rfl⟩

theorem length_ionoLoop (msg : BitBuf) (bid nigp : Nat) : ∀ (n : Nat) (v : List Val) (g : List Nat) (i k : Nat),
    Post (ionoLoop msg bid nigp v g i k n) (fun r => r.1.length = v.length ∧ r.2.1.length = g.length)
  | 0, v, g, i, k => Post.ok ⟨rfl, rfl⟩
  | n + 1, v, g, i, k => by
    rw [ionoLoop]
    refine Post.bind_any fun vd => Post.bind_any fun gi => ?_
    refine Post.ite (fun _ => Post.pure ⟨rfl, rfl⟩) fun _ => ?_
    refine (length_ionoLoop msg bid nigp n _ _ _ _).mono fun r hr => ?_
    rw [List.length_set, List.length_set] at hr
    exact hr

theorem grows_decode (s : St) (l5 : Bool) (m : BitBuf) : Post (decode s l5 m) (Grows s) := by
  unfold decode
  refine Post.bind_any fun mt => ?_
  have fin : ∀ r : St × Nat, Grows s r.1 → Post (Pure.pure r.1 : Py St) (Grows s) := fun r hr => Post.pure hr
  have same : ∀ r : St × Nat, r.1.vtec = s.vtec ∧ r.1.givei = s.givei → Grows s r.1 := fun r h => Grows.of_eq h.1 h.2
  dsimp only
  refine Post.ite (fun _ => Post.bind (Q := fun r : St × Nat => Grows s r.1) ?_ fin) fun _ => ?_
  · unfold mask1
    refine Post.bind_any fun _ => Post.bind_any fun _ => Post.bind_any fun _ => Post.bind_any fun _ => ?_
    exact Post.pure (Grows.of_eq rfl rfl)
  refine Post.ite (fun _ => Post.bind (Q := fun r : St × Nat => Grows s r.1) ?_ fin) fun _ => ?_
  · unfold fastCorr
    refine Post.bind_any fun _ => Post.bind_any fun _ => ?_
    exact Post.ite (fun _ => Post.pure (Grows.of_eq rfl rfl)) fun _ => (same_fastBlk _ _ _ _ _).mono same
  refine Post.ite (fun _ => Post.bind (Q := fun r : St × Nat => Grows s r.1) ?_ fin) fun _ => ?_
  · unfold integrity
    refine Post.bind_any fun _ => Post.bind_any fun _ => ?_
    exact Post.pure (Grows.of_eq rfl rfl)
  refine Post.ite (fun _ => Post.bind (Q := fun r : St × Nat => Grows s r.1) ?_ fin) fun _ => ?_
  · unfold degradation
    refine Post.bind_any fun _ => Post.bind_any fun _ => ?_
    exact Post.ite (fun _ => Post.pure (Grows.of_eq rfl rfl)) fun _ => Post.bind_any fun _ => Post.pure (Grows.of_eq rfl rfl)
  refine Post.ite (fun _ => Post.bind (Q := fun r : St × Nat => Grows s r.1) ?_ fin) fun _ => ?_
  · unfold igpMask
    refine Post.bind_any fun _ => Post.bind_any fun band => Post.bind_any fun _ => Post.bind_any fun bits => ?_
    refine Post.pure ?_
    intro hp
    refine ⟨fun b => ?_, fun b v hv => ⟨v, ?_, rfl⟩⟩
    · simp only [mem_set]
      have := hp b
      cases e1 : Dict.get? s.vtec b with
      | none =>
        rw [e1] at this
        have e2 : Dict.get? s.givei b = none := by
          cases e : Dict.get? s.givei b with
          | none => rfl
          | some w => rw [e] at this; cases this
        rw [e2]
        by_cases c : b = band
        · rw [if_pos ⟨c, rfl⟩, if_pos ⟨c, rfl⟩]; simp
        · rw [if_neg (fun e => c e.1), if_neg (fun e => c e.1)]; rfl
      | some w =>
        rw [if_neg (fun e => by cases e.2), ← e1, this]
        rw [if_neg]
        rintro ⟨_, e2⟩
        rw [e1, e2] at this
        cases this
    · simp only [mem_set]
      rw [if_neg (fun e => by rw [hv] at e; cases e.2)]
      exact hv
  refine Post.ite (fun _ => Post.bind (Q := fun r : St × Nat => Grows s r.1) ?_ fin) fun _ => ?_
  · unfold mixed
    refine Post.bind_any fun _ => Post.bind_any fun _ => Post.bind_any fun _ => ?_
    refine Post.ite (fun _ => Post.pure (Grows.of_eq rfl rfl)) fun _ => ?_
    refine Post.bind (same_fastBlk _ _ _ _ _) ?_
    rintro ⟨s1, i1⟩ h
    exact (same_half s1 m i1).mono fun r hr => Grows.of_eq (hr.1.trans h.1) (hr.2.trans h.2)
  refine Post.ite (fun _ => Post.bind (Q := fun r : St × Nat => Grows s r.1) ?_ fin) fun _ => ?_
  · unfold longCorr
    refine Post.bind (same_half _ _ _) ?_
    rintro ⟨s1, i1⟩ h
    exact (same_half s1 m i1).mono fun r hr => Grows.of_eq (hr.1.trans h.1) (hr.2.trans h.2)
  refine Post.ite (fun _ => Post.bind (Q := fun r : St × Nat => Grows s r.1) ?_ fin) fun _ => ?_
  · unfold iono
    refine Post.bind_any fun _ => ?_
    refine Post.ite (fun _ => Post.pure (Grows.of_eq rfl rfl)) fun _ => ?_
    refine Post.bind_any fun band => Post.bind_any fun _ => ?_
    cases e1 : Dict.get? s.vtec band with
    | none => exact Post.pure (Grows.of_eq rfl rfl)
    | some v =>
      cases e2 : Dict.get? s.givei band with
      | none => exact Post.error
      | some g =>
        refine Post.bind (length_ionoLoop _ _ _ _ _ _ _ _) ?_
        rintro ⟨v', g', i'⟩ ⟨l1, l2⟩
        refine Post.pure ?_
        intro hp
        refine ⟨fun b => ?_, fun b w hw => ?_⟩
        · simp only [Dict.get?_set]
          by_cases c : b = band
          · rw [if_pos c, if_pos c, Option.map_some, Option.map_some]
            have := hp band
            rw [e1, e2, Option.map_some, Option.map_some] at this
            simp only at l1 l2
            rw [l1, l2]; exact this
          · rw [if_neg c, if_neg c]; exact hp b
        · simp only [Dict.get?_set]
          by_cases c : b = band
          · rw [if_pos c]
            subst c
            rw [e1] at hw
            cases hw
            exact ⟨v', rfl, l1⟩
          · rw [if_neg c]; exact ⟨w, hw, rfl⟩
  refine Post.ite (fun _ => Post.bind (Q := fun r : St × Nat => Grows s r.1) ?_ fin) fun _ => ?_
  · unfold mask31
    refine Post.bind_any fun _ => Post.bind_any fun _ => Post.bind_any fun _ => Post.bind_any fun _ =>
      Post.bind_any fun _ => Post.bind_any fun _ => Post.bind_any fun iodm => ?_
    refine Post.pure ?_
    by_cases c : (iodm : Int) ≠ s.iodssr
    · simp only [if_pos c]; exact Grows.of_eq rfl rfl
    · simp only [if_neg c]; exact Grows.of_eq rfl rfl
  refine Post.ite (fun _ => Post.bind (Q := fun r : St × Nat => Grows s r.1) ?_ fin) fun _ => ?_
  · unfold corr32
    refine Post.bind_any fun _ => Post.bind_any fun _ => ?_
    refine Post.ite (fun _ => Post.pure (Grows.of_eq rfl rfl)) fun _ => ?_
    refine Post.bind_any fun _ => Post.bind_any fun _ => Post.bind_any fun _ => Post.bind_any fun _ =>
      Post.bind_any fun _ => Post.bind_any fun _ => Post.bind_any fun _ => Post.bind_any fun _ =>
      Post.bind_any fun _ => Post.bind_any fun _ => Post.bind_any fun _ => ?_
    exact Post.ite (fun _ => Post.pure (Grows.of_eq rfl rfl)) fun _ => Post.pure (Grows.of_eq rfl rfl)
  refine Post.ite (fun _ => Post.bind (Q := fun r : St × Nat => Grows s r.1) ?_ fin) fun _ => ?_
  · unfold mt34
    refine Post.bind_any fun _ => ?_
    refine Post.ite (fun _ => Post.pure (Grows.of_eq rfl rfl)) fun _ => ?_
    refine Post.bind_any fun _ => Post.bind_any fun _ => ?_
    refine Post.ite (fun _ => Post.error) fun _ => ?_
    exact Post.ite (fun _ => Post.error) fun _ => Post.pure (Grows.of_eq rfl rfl)
  refine Post.ite (fun _ => Post.bind (Q := fun r : St × Nat => Grows s r.1) ?_ fin) fun _ => ?_
  · unfold mt3536
    refine Post.bind_any fun _ => ?_
    refine Post.ite (fun _ => Post.pure (Grows.of_eq rfl rfl)) fun _ => ?_
    exact Post.bind_any fun _ => Post.error
  exact Post.pure (Grows.of_eq rfl rfl)

/-- **Delays of a band never change in number**: along any stream of messages delays and indicators
of a band have equal length, the one they got from the first mask of the band. -/
theorem delays_paired (ms : List (Bool × BitBuf)) (s : St) : Post (run s ms) (Grows s) := by
  induction ms generalizing s with
  | nil => exact Post.ok (Grows.of_eq rfl rfl)
  | cons p ms ih =>
    obtain ⟨l5, m⟩ := p
    rw [run]
    exact Post.bind (grows_decode s l5 m) fun s1 h1 => (ih s1).mono fun s2 h2 => h1.trans h2

/-- a fresh decoder satisfies the condition -/
theorem delays_paired_fresh (ms : List (Bool × BitBuf)) : Post (run {} ms) Paired :=
  (delays_paired ms {}).mono fun _ h => (h fun _ => rfl).1

/-! ## Concrete cases -/

/-- long-term message: half with rates for number 3 (orbit 8, -16, 1023; clock 2; rates 4, 5, 127;
drift -1), then half without rates for numbers 4 and 3 -/
def exLong2 : BitBuf := natToBits 8 0xc6 ++ natToBits 6 25 ++
  natToBits 1 1 ++ natToBits 6 3 ++ natToBits 8 77 ++ natToBits 11 8 ++ natToBits 11 2032 ++ natToBits 11 1023 ++ natToBits 11 2 ++
  natToBits 8 4 ++ natToBits 8 5 ++ natToBits 8 127 ++ natToBits 8 255 ++ natToBits 13 0 ++ natToBits 2 1 ++
  natToBits 1 0 ++ natToBits 6 4 ++ natToBits 8 78 ++ natToBits 9 255 ++ natToBits 9 1 ++ natToBits 9 2 ++ natToBits 10 511 ++
  natToBits 6 0 ++ natToBits 45 0 ++ natToBits 2 1 ++ natToBits 1 0 ++ natToBits 24 0

example : exLong2.length = 250 ∧ bitsAt exLong2 8 6 = 25 ∧ halfIssue exLong2 14 = 1 ∧ halfIssue exLong2 120 = 1 ∧
    (halfItems ⟨5, 0⟩ exLong2 14 ++ halfItems ⟨5, 0⟩ exLong2 120).map (fun r => (r.1, r.2.iode)) = [(3, 77), (4, 78)] := by decide +kernel

example : (longItem ⟨5, 0⟩ exLong2 15).orb = (some (-1), some 2, none) ∧ (longItem ⟨5, 0⟩ exLong2 15).dft = some (-(299792458 / 549755813888)) ∧
    (longItem ⟨5, 0⟩ exLong2 15).vel = (some (-(1 / 512)), some (-(5 / 2048)), none) ∧
    (shortItem ⟨5, 0⟩ exLong2 121).orb = (some (-(255 / 8)), some (-(1 / 8)), some (-(1 / 4))) := by decide +kernel

/-- dual-frequency correction for slot 75 (Galileo 1), issue 300, time of day 100 -/
def exDfmc : BitBuf := natToBits 4 0 ++ natToBits 6 32 ++ natToBits 8 75 ++ natToBits 10 300 ++ natToBits 11 16 ++ natToBits 11 0 ++
  natToBits 11 1023 ++ natToBits 12 64 ++ natToBits 8 1 ++ natToBits 8 0 ++ natToBits 8 0 ++ natToBits 9 1 ++ natToBits 13 100 ++
  natToBits 99 0 ++ natToBits 8 0 ++ natToBits 24 0

example : exDfmc.length = 250 ∧ bitsAt exDfmc 4 6 = 32 ∧ slot2sat (bitsAt exDfmc 10 8) = 33 ∧ (dfmcItem ⟨5, 0⟩ exDfmc).iode = 300 ∧
    (dfmcItem ⟨5, 0⟩ exDfmc).orb = (some (-1), some 0, none) ∧ (dfmcItem ⟨5, 0⟩ exDfmc).clk = some 2 := by decide +kernel

/-- indicators: the 92nd is set -/
def exInd : BitBuf := natToBits 4 0 ++ natToBits 6 34 ++ natToBits 182 0 ++ natToBits 2 1 ++ natToBits 22 0 ++ natToBits 34 0

example : bitsAt exInd 4 6 = 34 ∧ exInd.length = 250 ∧ bitsAt exInd 214 2 = 0 ∧ bitsAt exInd (10 + 2 * 91) 2 = 1 := by decide +kernel

example : (decode { iodm := 0, nsat := 92 } true exInd).isOk = false ∧ (decode { iodm := 0, nsat := 91 } true exInd).isOk = true := by
  decide +kernel

/-- dual-frequency mask with GPS 1 and 3, issue 2 -/
def exMask31 : BitBuf := natToBits 4 0 ++ natToBits 6 31 ++ natToBits 3 5 ++ natToBits 211 0 ++ natToBits 2 2 ++ natToBits 24 0

example : exMask31.length = 250 ∧ bitsAt exMask31 224 2 = 2 ∧
    (decode { iodssr := 1, satN := [7] } true exMask31).toOption.map (fun s => (s.satN, s.iodssrP, s.satNP)) = some ([1, 3], 1, [7]) := by
  decide +kernel

/-- grid mask of band 3 with points 0 and 2 -/
def exIgp : BitBuf := natToBits 8 0x53 ++ natToBits 6 18 ++ natToBits 4 1 ++ natToBits 4 3 ++ natToBits 2 2 ++ natToBits 3 5 ++
  natToBits 223 0

example : exIgp.length = 250 ∧ bitsAt exIgp 8 6 = 18 ∧ marked exIgp = [0, 2] := by decide +kernel

/-- a second mask with another number of points does not resize the delays -/
example : (run { vtec := [(3, [some 1])], givei := [(3, [4])] } [(false, exIgp)]).toOption.map (fun s => (s.igpIdx, s.givei)) =
    some ([(3, [0, 2])], [(3, [4])]) := by decide +kernel

end Verif.C61
