import Verif.Model.RtcmFrame
/-!
# Lemmas on the CRC register
-/

namespace Verif.RtcmFrame

theorem shift_xor (a b : Reg) : shift (a ^^^ b) = shift a ^^^ shift b := by
  unfold shift
  rw [BitVec.msb_xor]
  cases a.msb <;> cases b.msb <;> simp [BitVec.shiftLeft_xor_distrib]
  · rw [BitVec.xor_assoc]
  · rw [BitVec.xor_assoc, BitVec.xor_assoc, BitVec.xor_comm poly]
  · rw [BitVec.xor_assoc (a <<< 1), ← BitVec.xor_assoc poly, BitVec.xor_comm poly,
      BitVec.xor_assoc (b <<< 1), BitVec.xor_self, BitVec.xor_zero]

theorem shift_zero : shift 0 = 0 := by decide

theorem shift_eq_zero {u : Reg} (h : shift u = 0) : u = 0 := by
  unfold shift at h
  cases hm : u.msb with
  | true =>
    rw [hm, if_pos rfl] at h
    have h0 := congrArg (fun x : Reg => x.getLsbD 0) h
    simp [poly] at h0
  | false =>
    rw [hm, if_neg (by simp)] at h
    ext i hi
    show u[i] = (0#24)[i]
    rw [BitVec.getElem_zero]
    by_cases e : i = 23
    · subst e
      rw [BitVec.msb_eq_getLsbD_last] at hm
      rw [← BitVec.getLsbD_eq_getElem]; exact hm
    · have h0 := congrArg (fun x : Reg => x.getLsbD (i + 1)) h
      simp only [BitVec.getLsbD_shiftLeft] at h0
      rw [← BitVec.getLsbD_eq_getElem]
      simpa [show i + 1 < 24 by omega] using h0

theorem shift_inj {a b : Reg} (h : shift a = shift b) : a = b := by
  have : shift (a ^^^ b) = 0 := by rw [shift_xor, h, BitVec.xor_self]; rfl
  have := shift_eq_zero this
  exact BitVec.xor_eq_zero_iff.1 this

theorem shiftN_xor : ∀ n (a b : Reg), shiftN n (a ^^^ b) = shiftN n a ^^^ shiftN n b
  | 0, _, _ => rfl
  | n + 1, a, b => by unfold shiftN; rw [shift_xor]; exact shiftN_xor n _ _

theorem shiftN_zero : ∀ n, shiftN n 0 = 0
  | 0 => rfl
  | n + 1 => by unfold shiftN; rw [shift_zero]; exact shiftN_zero n

theorem shiftN_eq_zero : ∀ n {u : Reg}, shiftN n u = 0 → u = 0
  | 0, _, h => h
  | n + 1, _, h => shift_eq_zero (shiftN_eq_zero n h)

theorem shiftN_inj (n : Nat) {a b : Reg} (h : shiftN n a = shiftN n b) : a = b := by
  have : shiftN n (a ^^^ b) = 0 := by rw [shiftN_xor, h, BitVec.xor_self]; rfl
  exact BitVec.xor_eq_zero_iff.1 (shiftN_eq_zero n this)

theorem shiftN_add : ∀ m n (s : Reg), shiftN (m + n) s = shiftN n (shiftN m s)
  | 0, n, s => by rw [Nat.zero_add]; rfl
  | m + 1, n, s => by rw [Nat.add_right_comm]; exact shiftN_add m n (shift s)

/-! ## Bit by bit -/

/-- one bit at the top of the register -/
def top (b : Bool) : Reg := if b then 0x800000 else 0

def bitStep (s : Reg) (b : Bool) : Reg := shift (s ^^^ top b)

def runBits (s : Reg) (l : List Bool) : Reg := l.foldl bitStep s

/-- bits placed at the top of the register -/
def topBits : List Bool → Reg
  | [] => 0
  | b :: l => top b ^^^ (topBits l >>> 1)

theorem shift_ushift {u : Reg} (h : u.getLsbD 0 = false) : shift (u >>> 1) = u := by
  unfold shift
  rw [if_neg (by simp [BitVec.msb_eq_getLsbD_last])]
  ext i hi
  rw [← BitVec.getLsbD_eq_getElem, ← BitVec.getLsbD_eq_getElem, BitVec.getLsbD_shiftLeft]
  by_cases e : i = 0
  · subst e; rw [h]; simp
  · rw [BitVec.getLsbD_ushiftRight, show 1 + (i - 1) = i by omega]
    simp [hi, show ¬ i < 1 by omega]

theorem topBits_low : ∀ (l : List Bool) (i : Nat), i + l.length < 24 → (topBits l).getLsbD i = false
  | [], i, _ => by simp [topBits]
  | b :: l, i, h => by
    rw [List.length_cons] at h
    unfold topBits
    rw [BitVec.getLsbD_xor, BitVec.getLsbD_ushiftRight, topBits_low l (1 + i) (by omega)]
    unfold top
    cases b
    · simp
    · have : i < 23 := by omega
      simp only [if_true, Bool.xor_false]
      have : ∀ i, i < 23 → (0x800000 : Reg).getLsbD i = false := by decide
      exact this i (by omega)

/-- up to 24 bits can be put into the register at once -/
theorem runBits_top : ∀ (l : List Bool) (s : Reg), l.length ≤ 24 →
    runBits s l = shiftN l.length (s ^^^ topBits l)
  | [], s, _ => by simp [runBits, topBits, shiftN]
  | b :: l, s, h => by
    rw [List.length_cons] at h
    have ih := runBits_top l (bitStep s b) (by omega)
    show runBits (bitStep s b) l = shiftN (l.length + 1) (s ^^^ topBits (b :: l))
    rw [ih]
    show _ = shiftN l.length (shift _)
    congr 1
    show bitStep s b ^^^ topBits l = shift (s ^^^ (top b ^^^ (topBits l >>> 1)))
    unfold bitStep
    rw [← BitVec.xor_assoc, shift_xor (s ^^^ top b), shift_ushift (topBits_low l 0 (by omega))]

/-- bits of a byte, most significant first -/
def bits8 (b : Byte) : List Bool := (List.range 8).map fun i => b.getMsbD i

def bitsOf (m : List Byte) : List Bool := m.flatMap bits8

theorem bits8_length (b : Byte) : (bits8 b).length = 8 := by simp [bits8]

theorem topBits_bits8 : ∀ b : Byte, topBits (bits8 b) = b.setWidth 24 <<< 16 := by
  intro b
  have : ∀ n, n < 256 → topBits (bits8 (BitVec.ofNat 8 n)) = (BitVec.ofNat 8 n).setWidth 24 <<< 16 := by
    decide +kernel
  have h := this b.toNat b.isLt
  rwa [BitVec.ofNat_toNat, BitVec.setWidth_eq] at h

theorem crcByte_bits (s : Reg) (b : Byte) : crcByte s b = runBits s (bits8 b) := by
  rw [runBits_top _ _ (by rw [bits8_length]; omega), bits8_length, topBits_bits8]
  rfl

theorem runBits_append (s : Reg) (a b : List Bool) :
    runBits s (a ++ b) = runBits (runBits s a) b := by
  unfold runBits; rw [List.foldl_append]

theorem crc_bits (m : List Byte) (s : Reg) : m.foldl crcByte s = runBits s (bitsOf m) := by
  induction m generalizing s with
  | nil => rfl
  | cons b m ih =>
    rw [List.foldl_cons, ih, crcByte_bits]
    unfold bitsOf
    rw [List.flatMap_cons, runBits_append]

theorem crc24_bits (m : List Byte) : crc24 m = runBits 0 (bitsOf m) := crc_bits m 0

/-! ## Linearity -/

theorem top_xor (a b : Bool) : top (a ^^ b) = top a ^^^ top b := by cases a <;> cases b <;> decide

theorem bitStep_xor (s t : Reg) (a b : Bool) :
    bitStep (s ^^^ t) (a ^^ b) = bitStep s a ^^^ bitStep t b := by
  unfold bitStep
  rw [top_xor, ← shift_xor]
  congr 1
  rw [BitVec.xor_assoc, BitVec.xor_assoc, ← BitVec.xor_assoc t, BitVec.xor_comm t, BitVec.xor_assoc]

theorem runBits_xor : ∀ (a b : List Bool) (s t : Reg), a.length = b.length →
    runBits (s ^^^ t) (List.zipWith xor a b) = runBits s a ^^^ runBits t b
  | [], [], _, _, _ => rfl
  | x :: a, y :: b, s, t, h => by
    show runBits (bitStep (s ^^^ t) (x ^^ y)) _ = runBits (bitStep s x) a ^^^ runBits (bitStep t y) b
    rw [bitStep_xor]
    exact runBits_xor a b _ _ (by simpa using h)
  | [], _ :: _, _, _, h => by simp at h
  | _ :: _, [], _, _, h => by simp at h

theorem bitsOf_length (m : List Byte) : (bitsOf m).length = 8 * m.length := by
  induction m with
  | nil => rfl
  | cons b m ih =>
    unfold bitsOf at *
    rw [List.flatMap_cons, List.length_append, ih, bits8_length, List.length_cons]; omega

/-- bit `i` of a buffer -/
theorem bitsOf_getElem? : ∀ (m : List Byte) (i : Nat), i < 8 * m.length →
    (bitsOf m)[i]? = some ((m.getD (i / 8) 0).getMsbD (i % 8))
  | [], i, h => by simp at h
  | b :: m, i, h => by
    unfold bitsOf
    rw [List.flatMap_cons]
    by_cases e : i < 8
    · rw [List.getElem?_append_left (by rw [bits8_length]; exact e)]
      unfold bits8
      rw [List.getElem?_map, List.getElem?_range e, Nat.div_eq_of_lt e, Nat.mod_eq_of_lt e]
      rfl
    · rw [List.getElem?_append_right (by rw [bits8_length]; omega), bits8_length]
      rw [List.length_cons] at h
      have := bitsOf_getElem? m (i - 8) (by omega)
      unfold bitsOf at this
      rw [this, show i / 8 = (i - 8) / 8 + 1 by omega, show i % 8 = (i - 8) % 8 by omega]
      rfl

/-! ## The remainder appended -/

theorem topBits_getMsbD : ∀ (l : List Bool) (i : Nat), i < 24 →
    (topBits l).getMsbD i = (l[i]?).getD false
  | [], i, _ => by simp [topBits]
  | b :: l, 0, _ => by
    unfold topBits
    rw [BitVec.getMsbD_xor]
    cases b <;> simp [top] <;> decide
  | b :: l, i + 1, h => by
    unfold topBits
    rw [BitVec.getMsbD_xor, BitVec.getMsbD_ushiftRight, List.getElem?_cons_succ,
      ← topBits_getMsbD l i (by omega)]
    have : (top b).getMsbD (i + 1) = false := by
      unfold top
      cases b
      · simp
      · have : ∀ i, i < 23 → (0x800000 : Reg).getMsbD (i + 1) = false := by decide
        exact this i (by omega)
    rw [this]
    simp
    omega

/-- the three check bytes -/
def tail3 (s : Reg) : List Byte :=
  [BitVec.ofNat 8 (s.toNat / 256 / 256), BitVec.ofNat 8 (s.toNat / 256 % 256),
    BitVec.ofNat 8 (s.toNat % 256)]

theorem topBits_tail3 (s : Reg) : topBits (bitsOf (tail3 s)) = s := by
  have hmsb : ∀ i, i < 24 → (topBits (bitsOf (tail3 s))).getMsbD i = s.getMsbD i := by
    intro i hi
    rw [topBits_getMsbD _ _ hi, bitsOf_getElem? _ _ (by simp [tail3]; omega), Option.getD_some]
    have hs : s.getMsbD i = s.toNat.testBit (23 - i) := by
      rw [BitVec.getMsbD, BitVec.getLsbD]; simp [hi]
    rw [hs]
    have h8 : ∀ (n j : Nat), j < 8 → (BitVec.ofNat 8 n).getMsbD j = n.testBit (7 - j) := by
      intro n j hj
      rw [BitVec.getMsbD, BitVec.getLsbD, BitVec.toNat_ofNat, Nat.testBit_mod_two_pow]
      simp [hj]; omega
    have hdiv : ∀ n j, (n / 256).testBit j = n.testBit (j + 8) := by
      intro n j
      rw [show (256 : Nat) = 2 ^ 8 from rfl, Nat.testBit_div_two_pow]
    have hmod : ∀ n j, j < 8 → (n % 256).testBit j = n.testBit j := by
      intro n j hj
      rw [show (256 : Nat) = 2 ^ 8 from rfl, Nat.testBit_mod_two_pow]; simp [hj]
    have h3 : i / 8 = 0 ∨ i / 8 = 1 ∨ i / 8 = 2 := by omega
    rcases h3 with e | e | e
    · rw [e]
      show (BitVec.ofNat 8 (s.toNat / 256 / 256)).getMsbD (i % 8) = _
      rw [h8 _ _ (by omega), hdiv, hdiv]; congr 1; omega
    · rw [e]
      show (BitVec.ofNat 8 (s.toNat / 256 % 256)).getMsbD (i % 8) = _
      rw [h8 _ _ (by omega), hmod _ _ (by omega), hdiv]; congr 1; omega
    · rw [e]
      show (BitVec.ofNat 8 (s.toNat % 256)).getMsbD (i % 8) = _
      rw [h8 _ _ (by omega), hmod _ _ (by omega)]; congr 1; omega
  refine BitVec.eq_of_getMsbD_eq fun i hi => hmsb i hi

theorem bitsOf_append (a b : List Byte) : bitsOf (a ++ b) = bitsOf a ++ bitsOf b := by
  unfold bitsOf; rw [List.flatMap_append]

/-- the checksum of a message with three check bytes vanishes exactly for its own checksum -/
theorem crc24_tail (m t : List Byte) (ht : t.length = 3) :
    crc24 (m ++ t) = 0 ↔ topBits (bitsOf t) = crc24 m := by
  rw [crc24_bits, bitsOf_append, runBits_append, ← crc24_bits,
    runBits_top _ _ (by rw [bitsOf_length, ht]; omega)]
  constructor
  · intro h
    have := BitVec.xor_eq_zero_iff.1 (shiftN_eq_zero _ h)
    exact this.symm
  · intro h
    rw [h, BitVec.xor_self]; exact shiftN_zero _

/-! ## Parity -/

/-- the number of ones modulo two -/
def parity : List Bool → Bool
  | [] => false
  | b :: l => b ^^ parity l

theorem parity_xor : ∀ (a b : List Bool), a.length = b.length →
    parity (List.zipWith xor a b) = (parity a ^^ parity b)
  | [], [], _ => rfl
  | x :: a, y :: b, h => by
    show (x ^^ y ^^ parity (List.zipWith xor a b)) = ((x ^^ parity a) ^^ (y ^^ parity b))
    rw [parity_xor a b (by simpa using h)]
    cases x <;> cases y <;> cases parity a <;> cases parity b <;> rfl
  | [], _ :: _, h => by simp at h
  | _ :: _, [], h => by simp at h

theorem parity_append : ∀ a b : List Bool, parity (a ++ b) = (parity a ^^ parity b)
  | [], b => by simp [parity]
  | x :: a, b => by
    show (x ^^ parity (a ++ b)) = ((x ^^ parity a) ^^ parity b)
    rw [parity_append a b, Bool.xor_assoc]

theorem parity_map_xor (f g : Nat → Bool) : ∀ l : List Nat,
    parity (l.map fun i => f i ^^ g i) = (parity (l.map f) ^^ parity (l.map g))
  | [] => rfl
  | x :: l => by
    show ((f x ^^ g x) ^^ parity _) = ((f x ^^ parity _) ^^ (g x ^^ parity _))
    rw [parity_map_xor f g l]
    cases f x <;> cases g x <;> cases parity (l.map f) <;> cases parity (l.map g) <;> rfl

/-- parity of the register -/
def regPar (u : Reg) : Bool := parity ((List.range 24).map u.getLsbD)

theorem regPar_xor (a b : Reg) : regPar (a ^^^ b) = (regPar a ^^ regPar b) := by
  unfold regPar
  rw [← parity_map_xor]
  congr 1
  refine List.map_congr_left fun i _ => BitVec.getLsbD_xor ..

theorem regPar_shl (u : Reg) : regPar (u <<< 1) = (regPar u ^^ u.msb) := by
  unfold regPar
  have h1 : (List.range 24).map (u <<< 1).getLsbD = false :: (List.range 23).map u.getLsbD := by
    rw [show List.range 24 = 0 :: (List.range 23).map Nat.succ from rfl, List.map_cons, List.map_map]
    congr 1
    · rw [BitVec.getLsbD_shiftLeft]; simp
    · refine List.map_congr_left fun i hi => ?_
      rw [List.mem_range] at hi
      show (u <<< 1).getLsbD (i + 1) = _
      rw [BitVec.getLsbD_shiftLeft]
      simp [show i + 1 < 24 by omega]
  rw [h1, show List.range 24 = List.range 23 ++ [23] from rfl, List.map_append, parity_append,
    BitVec.msb_eq_getLsbD_last]
  show (false ^^ parity _) = ((parity _ ^^ (u.getLsbD 23 ^^ false)) ^^ u.getLsbD 23)
  cases u.getLsbD 23 <;> cases parity ((List.range 23).map u.getLsbD) <;> rfl

theorem regPar_shift (u : Reg) : regPar (shift u) = regPar u := by
  unfold shift
  cases h : u.msb
  · rw [if_neg (by simp), regPar_shl, h, Bool.xor_false]
  · rw [if_pos rfl, regPar_xor, regPar_shl, h, show regPar poly = true by decide]
    cases regPar u <;> rfl

theorem regPar_run : ∀ (l : List Bool) (s : Reg), regPar (runBits s l) = (regPar s ^^ parity l)
  | [], s => by simp [runBits, parity]
  | b :: l, s => by
    show regPar (runBits (bitStep s b) l) = (regPar s ^^ (b ^^ parity l))
    rw [regPar_run l]
    unfold bitStep
    rw [regPar_shift, regPar_xor]
    have : regPar (top b) = b := by cases b <;> decide
    rw [this, Bool.xor_assoc]

/-! ## Errors that leave a trace -/

theorem run_false : ∀ (l : List Bool), (∀ b ∈ l, b = false) → ∀ s, runBits s l = shiftN l.length s
  | [], _, _ => rfl
  | b :: l, h, s => by
    have hb : b = false := h b (by simp)
    subst hb
    show runBits (bitStep s false) l = shiftN l.length (shift s)
    rw [run_false l (fun c hc => h c (by simp [hc]))]
    congr 1
    unfold bitStep
    congr 1
    simp [top]

/-- a burst of at most 24 bits -/
theorem run_burst {e : List Bool} {p w : Nat} (hw : w ≤ 24)
    (h : ∀ i : Nat, e[i]? = some true → p ≤ i ∧ i < p + w) (hne : ∃ i : Nat, e[i]? = some true) :
    runBits 0 e ≠ 0 := by
  have h1 : ∀ b ∈ e.take p, b = false := by
    intro b hb
    obtain ⟨i, hi, e'⟩ := List.getElem_of_mem hb
    cases b with
    | false => rfl
    | true =>
      rw [List.length_take] at hi
      have := h i (by rw [← e', List.getElem_take]; exact List.getElem?_eq_getElem _)
      omega
  have h3 : ∀ b ∈ (e.drop p).drop w, b = false := by
    intro b hb
    obtain ⟨i, hi, e'⟩ := List.getElem_of_mem hb
    cases b with
    | false => rfl
    | true =>
      rw [List.length_drop, List.length_drop] at hi
      rw [List.getElem_drop, List.getElem_drop] at e'
      have := h (p + (w + i)) (by rw [← e']; exact List.getElem?_eq_getElem _)
      omega
  have h2 : true ∈ (e.drop p).take w := by
    obtain ⟨i, hi⟩ := hne
    have := h i hi
    refine List.mem_of_getElem? (i := i - p) ?_
    rw [List.getElem?_take, if_pos (by omega), List.getElem?_drop, show p + (i - p) = i by omega, hi]
  intro hz
  rw [← List.take_append_drop p e, runBits_append, run_false _ h1, shiftN_zero,
    ← List.take_append_drop w (e.drop p), runBits_append, run_false _ h3,
    runBits_top _ _ (by rw [List.length_take]; omega)] at hz
  have := shiftN_eq_zero _ (shiftN_eq_zero _ hz)
  rw [show (0 : Reg) ^^^ topBits ((e.drop p).take w) = topBits ((e.drop p).take w) from BitVec.zero_xor] at this
  obtain ⟨i, hi, e'⟩ := List.getElem_of_mem h2
  have hi' := hi
  rw [List.length_take] at hi'
  have ht := topBits_getMsbD ((e.drop p).take w) i (by omega)
  rw [this, List.getElem?_eq_getElem hi, e'] at ht
  simp at ht

/-- an odd number of errors -/
theorem run_odd {e : List Bool} (h : parity e = true) : runBits 0 e ≠ 0 := by
  intro hz
  have := regPar_run e 0
  rw [hz, h] at this
  revert this
  decide

/-- the register does not come back within `n` shifts -/
def noRet : Nat → Reg → Bool
  | 0, _ => true
  | n + 1, s => (shift s != top true) && noRet n (shift s)

theorem noRet_spec : ∀ n s, noRet n s = true → ∀ t, 1 ≤ t → t ≤ n → shiftN t s ≠ top true
  | 0, _, _, t, h1, h2 => by omega
  | n + 1, s, h, t, h1, h2 => by
    unfold noRet at h
    rw [Bool.and_eq_true] at h
    obtain ⟨t, rfl⟩ : ∃ u, t = u + 1 := ⟨t - 1, by omega⟩
    show shiftN t (shift s) ≠ _
    by_cases e : t = 0
    · subst e
      have := h.1
      simp only [bne_iff_ne] at this
      exact this
    · exact noRet_spec n (shift s) h.2 t (by omega) (by omega)

set_option maxRecDepth 100000 in
theorem noRet_frame : noRet 8231 (top true) = true := by decide +kernel

/-- two errors at most 8231 bits apart -/
theorem run_two {e : List Bool} {i j : Nat} (hij : i < j) (hd : j - i ≤ 8231)
    (h : ∀ l : Nat, e[l]? = some true ↔ l = i ∨ l = j) : runBits 0 e ≠ 0 := by
  have hfalse : ∀ (l : List Bool) (o : Nat), (∀ x, x < l.length → l[x]? = e[o + x]?) →
      (∀ x, x < l.length → o + x ≠ i ∧ o + x ≠ j) → ∀ b ∈ l, b = false := by
    intro l o h1 h2 b hb
    obtain ⟨x, hx, e'⟩ := List.getElem_of_mem hb
    cases b with
    | false => rfl
    | true =>
      have hh := h1 x hx
      rw [List.getElem?_eq_getElem hx, e'] at hh
      have := (h (o + x)).1 hh.symm
      have := h2 x hx
      omega
  have hi := (h i).2 (Or.inl rfl)
  have hj := (h j).2 (Or.inr rfl)
  have hjl : j < e.length := by
    rcases Nat.lt_or_ge j e.length with hc | hc
    · exact hc
    · rw [List.getElem?_eq_none hc] at hj; cases hj
  have e1 : e = e.take i ++ (true :: ((e.drop (i + 1)).take (j - i - 1) ++ (true :: e.drop (j + 1)))) := by
    conv => lhs; rw [← List.take_append_drop i e]
    congr 1
    rw [List.drop_eq_getElem?_toList_append, hi]
    show true :: e.drop (i + 1) = _
    congr 1
    conv => lhs; rw [← List.take_append_drop (j - i - 1) (e.drop (i + 1))]
    congr 1
    rw [List.drop_drop, show i + 1 + (j - i - 1) = j by omega, List.drop_eq_getElem?_toList_append, hj]
    rfl
  intro hz
  rw [e1, runBits_append, run_false (e.take i) (hfalse _ 0 (fun x hx => by
      rw [List.length_take] at hx
      rw [List.getElem?_take, if_pos (by omega), Nat.zero_add]) (fun x hx => by
      rw [List.length_take] at hx; omega)), shiftN_zero] at hz
  change runBits (bitStep 0 true) _ = 0 at hz
  rw [runBits_append, run_false ((e.drop (i + 1)).take (j - i - 1)) (hfalse _ (i + 1) (fun x hx => by
      rw [List.length_take] at hx
      rw [List.getElem?_take, if_pos (by omega), List.getElem?_drop]) (fun x hx => by
      rw [List.length_take] at hx; omega))] at hz
  change runBits (bitStep _ true) _ = 0 at hz
  rw [run_false (e.drop (j + 1)) (hfalse _ (j + 1) (fun x hx => by rw [List.getElem?_drop]) (fun x hx => by omega))] at hz
  have h1 := shift_eq_zero (shiftN_eq_zero _ hz)
  have h2 := BitVec.xor_eq_zero_iff.1 h1
  have h3 : bitStep 0 true = shift (top true) := by decide
  rw [h3, List.length_take, List.length_drop, Nat.min_eq_left (by omega)] at h2
  have h4 : shiftN (j - i - 1) (shift (top true)) = shiftN (j - i) (top true) := by
    rw [show j - i = (j - i - 1) + 1 by omega]; rfl
  rw [h4] at h2
  exact noRet_spec 8231 _ noRet_frame (j - i) (by omega) hd h2

end Verif.RtcmFrame
