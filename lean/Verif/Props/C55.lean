import Verif.Lemmas.MaskCopy
import Verif.Lemmas.OsnmaMsg
/-!
# C55 The masks applied before signature verification

Bit numbers count from 0 at the start of a sub-frame (300 bits of LNAV, 300 of CNAV, 244 of
F/NAV).  `Excluded` says which bits the signature does not cover; `source` says where bit `q` of
the message handed to the signature check comes from.
-/

namespace Verif.C55
open Verif.Qznma

/-! ## Specification -/

/-- LNAV: bit `j` of word `w` (both from 0) of sub-frame `s + 1` not covered by the signature -/
def lnavExcluded (qzs : Bool) (s w j : Nat) : Prop :=
  24 ≤ j ∨
  if qzs then (w = 0 ∧ 22 ≤ j) ∨ (w = 1 ∧ 17 ≤ j) ∨ (w = 9 ∧ 22 ≤ j)
  else (w = 0 ∧ 8 ≤ j ∧ j < 22) ∨ (w = 1 ∧ 22 ≤ j) ∨ (w = 9 ∧ (if s = 1 then 17 else 22) ≤ j)

instance (qzs : Bool) (s w j : Nat) : Decidable (lnavExcluded qzs s w j) := by
  unfold lnavExcluded; infer_instance

/-- received LNAV sub-frames occupy 320 bits each, ten words of two filling bits and 30 bits -/
def lnavSource (qzs : Bool) (q : Nat) : Option Nat :=
  let s := q / 300; let w := q % 300 / 30; let j := q % 30
  if q < 900 ∧ ¬ lnavExcluded qzs s w j then some (320 * s + 32 * w + 2 + j) else none

/-- CNAV: bit `b` of the message `s + 1` not covered by the signature -/
def cnavExcluded (qzs : Bool) (s b : Nat) : Prop :=
  276 ≤ b ∨ (s = 2 ∧ 127 ≤ b) ∨
  if qzs then (8 ≤ b ∧ b < 14) ∨ b = 37 ∨ (s = 0 ∧ b = 271) else 14 ≤ b ∧ b < 20

instance (qzs : Bool) (s b : Nat) : Decidable (cnavExcluded qzs s b) := by
  unfold cnavExcluded; infer_instance

/-- received CNAV messages occupy 304 bits each -/
def cnavSource (qzs : Bool) (q : Nat) : Option Nat :=
  if q < 900 ∧ ¬ cnavExcluded qzs (q / 300) (q % 300) then some (304 * (q / 300) + q % 300) else none

/-- CNAV2: nine bits of the time of interval, then 576 bits from bit 52 of the received message
without its bits 32 (after the time of week) and 565 -/
def cnav2Source (q : Nat) : Option Nat :=
  if 9 ≤ q ∧ q < 585 ∧ q ≠ 9 + 32 ∧ q ≠ 9 + 565 then some (52 + (q - 9)) else none

/-- F/NAV: everything but the 24 bit checksum of each page -/
def fnavSource (q : Nat) : Option Nat :=
  if ¬ (214 ≤ q % 244 ∧ q % 244 < 238) then some (248 * (q / 244) + q % 244) else none

/-- the message with exactly the kept bits, everything else zero -/
def IsMasked (src : Nat → Option Nat) (len : Nat) (msg out : BitBuf) : Prop :=
  out.length = len ∧ ∀ q, q < len →
    out[q]? = some (match src q with | some i => msg.getD i false | none => false)

/-! ## The four maskings -/

def lnavSegs (qzs : Bool) : List Seg :=
  ((List.range 3).flatMap fun s => (List.range 10).map fun k => (s, k)).map fun p =>
    ⟨p.1 * 320 + 32 * p.2 + 2, p.1 * 300 + 30 * p.2, 30, entry (lnavMask qzs) p.1 p.2 * 2 ^ 6⟩

def cnavSegs (qzs : Bool) : List Seg :=
  ((List.range 3).flatMap fun s => (List.range 9).map fun k => (s, k)).map fun p =>
    ⟨p.1 * 304 + 32 * p.2, p.1 * 300 + 32 * p.2, 32, entry (cnavMask qzs) p.1 p.2⟩

def fnavSegs : List Seg :=
  ((List.range 4).flatMap fun s => (List.range 8).map fun k => (s, k)).map fun p =>
    ⟨p.1 * 248 + 32 * p.2, p.1 * 244 + 32 * p.2, if p.2 < 7 then 32 else 20, fnavMask.getD p.2 0⟩

def cnav2Segs : List Seg :=
  (List.range 18).map fun k => ⟨52 + 32 * k, 9 + 32 * k, 32, cnav2Mask.getD k 0⟩

theorem lnav_eq (msg : BitBuf) (qzs : Bool) :
    lnavToMnav msg qzs = maskAll msg (lnavSegs qzs) (zeros 113) := by
  unfold lnavToMnav maskAll lnavSegs
  rw [foldlM_nest, List.foldlM_map]

theorem cnav_eq (msg : BitBuf) (qzs : Bool) :
    cnavToMnav msg qzs = maskAll msg (cnavSegs qzs) (zeros 113) := by
  unfold cnavToMnav maskAll cnavSegs
  rw [foldlM_nest, List.foldlM_map]

theorem fnav_eq (msg : BitBuf) : fnavToMnav msg = maskAll msg fnavSegs (zeros 122) := by
  unfold fnavToMnav maskAll fnavSegs
  rw [foldlM_nest, List.foldlM_map]

theorem lnav_table (qzs : Bool) : ∀ q, q < 8 * 113 → (match covered (lnavSegs qzs) q with
    | some (i, true) => some i | _ => none) = lnavSource qzs q := by
  cases qzs <;> decide +kernel

theorem cnav_table (qzs : Bool) : ∀ q, q < 8 * 113 → (match covered (cnavSegs qzs) q with
    | some (i, true) => some i | _ => none) = cnavSource qzs q := by
  cases qzs <;> decide +kernel

theorem fnav_table : ∀ q, q < 8 * 122 → (match covered fnavSegs q with
    | some (i, true) => some i | _ => none) = fnavSource q := by
  decide +kernel

theorem cnav2_table : ∀ q, q < 8 * 77 → (match covered cnav2Segs q with
    | some (i, true) => some i | _ => none) = cnav2Source q := by
  decide +kernel

/-- **LNAV**: the signature check sees exactly the bits that are not excluded; the call fails only
when the three sub-frames are not complete -/
theorem lnav_masked (msg : BitBuf) (qzs : Bool) :
    if 960 ≤ msg.length then
      ∃ out, lnavToMnav msg qzs = .ok out ∧ IsMasked (lnavSource qzs) 904 msg out
    else lnavToMnav msg qzs = .error .bitstruct := by
  rw [lnav_eq]
  by_cases h : 960 ≤ msg.length
  · rw [if_pos h]
    exact maskAll_table msg (lnavSegs qzs) 113 960 (lnavSource qzs)
      (by cases qzs <;> decide +kernel) h (lnav_table qzs)
  · rw [if_neg h]
    refine maskAll_err msg _ _ ⟨930, 870, 30, entry (lnavMask qzs) 2 9 * 2 ^ 6⟩ ?_ (by simpa using h)
    unfold lnavSegs
    exact List.mem_map.2 ⟨(2, 9), by decide, rfl⟩

/-- **CNAV** -/
theorem cnav_masked (msg : BitBuf) (qzs : Bool) :
    if 896 ≤ msg.length then
      ∃ out, cnavToMnav msg qzs = .ok out ∧ IsMasked (cnavSource qzs) 904 msg out
    else cnavToMnav msg qzs = .error .bitstruct := by
  rw [cnav_eq]
  by_cases h : 896 ≤ msg.length
  · rw [if_pos h]
    exact maskAll_table msg (cnavSegs qzs) 113 896 (cnavSource qzs)
      (by cases qzs <;> decide +kernel) h (cnav_table qzs)
  · rw [if_neg h]
    refine maskAll_err msg _ _ ⟨864, 856, 32, entry (cnavMask qzs) 2 8⟩ ?_ (by simpa using h)
    unfold cnavSegs
    exact List.mem_map.2 ⟨(2, 8), by decide, rfl⟩

/-- **F/NAV** -/
theorem fnav_masked (msg : BitBuf) :
    if 988 ≤ msg.length then
      ∃ out, fnavToMnav msg = .ok out ∧ IsMasked fnavSource 976 msg out
    else fnavToMnav msg = .error .bitstruct := by
  rw [fnav_eq]
  by_cases h : 988 ≤ msg.length
  · rw [if_pos h]
    exact maskAll_table msg fnavSegs 122 988 fnavSource (by decide +kernel) h fnav_table
  · rw [if_neg h]
    refine maskAll_err msg _ _ ⟨968, 956, 20, 0x3f⟩ ?_ (by simpa using h)
    exact List.mem_map.2 ⟨(3, 7), by decide, rfl⟩

/-- **CNAV2**: the time of interval in front, then the kept bits -/
theorem cnav2_masked (toi : Nat) (msg : BitBuf) (ht : toi < 512) (hm : 628 ≤ msg.length) :
    ∃ out, cnav2ToMnav toi msg = .ok out ∧ out.length = 616 ∧ out.take 9 = natToBits 9 toi ∧
      ∀ q, 9 ≤ q → q < 616 →
        out[q]? = some (match cnav2Source q with | some i => msg.getD i false | none => false) := by
  unfold cnav2ToMnav
  have h0 := Osnma.fillU [] 616 0 9 toi rfl (by omega) ht
  rw [List.nil_append, List.nil_append] at h0
  rw [show zeros 77 = List.replicate 616 false from rfl, h0, Py.okBind]
  have hsegs : ∀ s ∈ cnav2Segs, s.is + s.n ≤ 628 ∧ 9 ≤ s.id ∧ s.id + s.n ≤ 616 := by decide +kernel
  have hl : (natToBits 9 toi ++ List.replicate (616 - 9) false).length = 616 := by
    rw [List.length_append, natToBits_length, List.length_replicate]
  obtain ⟨out, h1, h2, h3⟩ := maskAll_bits msg cnav2Segs
    (natToBits 9 toi ++ List.replicate (616 - 9) false)
    (fun s hs => by have := hsegs s hs; rw [hl]; exact ⟨by omega, this.2.2⟩)
  refine ⟨out, ?_, by omega, ?_, ?_⟩
  · rw [← h1]
    unfold maskAll cnav2Segs
    rw [List.foldlM_map]
  · have hnone : ∀ q, q < 9 → covered cnav2Segs q = none := by decide +kernel
    refine List.ext_getElem? fun q => ?_
    by_cases hq : q < 9
    · rw [List.getElem?_take_of_lt hq, h3 q, hnone q hq]
      simp only
      rw [List.getElem?_append_left (by simpa using hq)]
    · rw [List.getElem?_eq_none (by simp; omega), List.getElem?_eq_none (by simp; omega)]
  · intro q hq1 hq2
    obtain ⟨o2, g1, g2, g3⟩ := maskAll_table msg cnav2Segs 77 628 cnav2Source
      (fun s hs => ⟨(hsegs s hs).1, (hsegs s hs).2.2⟩) hm cnav2_table
    refine Eq.trans ?_ (g3 q hq2)
    rw [h3 q]
    obtain ⟨o3, k1, k2, k3⟩ := maskAll_bits msg cnav2Segs (zeros 77)
      (fun s hs => by
        have := hsegs s hs
        rw [show (zeros 77).length = 616 from List.length_replicate]
        exact ⟨by omega, this.2.2⟩)
    have : o3 = o2 := by rw [k1] at g1; cases g1; rfl
    subst this
    rw [k3 q]
    cases covered cnav2Segs q with
    | some p => rfl
    | none =>
      simp only
      rw [List.getElem?_append_right (by simpa using hq1), List.getElem?_replicate,
        natToBits_length, if_pos (by omega)]
      unfold zeros
      rw [List.getElem?_replicate, if_pos hq2]

/-- **what the mask means**: two messages give the same signed bits exactly when they agree on
every bit that is kept -/
theorem masked_same_iff (src : Nat → Option Nat) (len : Nat) (m1 m2 o1 o2 : BitBuf)
    (h1 : IsMasked src len m1 o1) (h2 : IsMasked src len m2 o2) :
    o1 = o2 ↔ ∀ q i, q < len → src q = some i → m1.getD i false = m2.getD i false := by
  constructor
  · intro h q i hq hs
    have e1 := h1.2 q hq
    have e2 := h2.2 q hq
    rw [h, e2, hs] at e1
    simp only [Option.some.injEq] at e1
    exact e1.symm
  · intro h
    refine List.ext_getElem? fun q => ?_
    by_cases hq : q < len
    · rw [h1.2 q hq, h2.2 q hq]
      cases hs : src q with
      | none => rfl
      | some i => simp only [h q i hq hs]
    · rw [List.getElem?_eq_none (by rw [h1.1]; omega), List.getElem?_eq_none (by rw [h2.1]; omega)]

/-- the kept bits of a message are distinct bits of it -/
theorem source_injective (qzs : Bool) (q q' i : Nat) (h : lnavSource qzs q = some i)
    (h' : lnavSource qzs q' = some i) : q = q' := by
  unfold lnavSource at h h'
  simp only at h h'
  split at h
  · rename_i hc
    split at h'
    · rename_i hc'
      cases h
      simp only [Option.some.injEq] at h'
      have hd := hc.2
      have hd' := hc'.2
      unfold lnavExcluded at hd hd'
      omega
    · cases h'
  · cases h

/-! ## The time of the message replaces the received one (`decode_gnss_rds`) -/

/-- the bit of the message signed for a satellite of another system -/
def gnssBit (mt : Nat) (msg : BitBuf) (rtow q : Nat) : Bool :=
  let keep (o : Option Nat) : Bool := match o with | some i => msg.getD i false | none => false
  if mt = 1 then
    if q < 900 ∧ 30 ≤ q % 300 ∧ q % 300 < 47 then (rtow + q / 300).testBit (46 - q % 300)
    else keep (lnavSource false q)
  else if mt = 2 then
    if q < 900 ∧ 20 ≤ q % 300 ∧ q % 300 < 37 then (rtow + q / 300).testBit (36 - q % 300)
    else keep (cnavSource false q)
  else if mt = 4 then
    let at_ := [167, 194, 186, 189].getD (q / 244) 0
    if at_ ≤ q % 244 ∧ q % 244 < at_ + 20 then (rtow + 10 * (q / 244)).testBit (at_ + 19 - q % 244)
    else keep (fnavSource q)
  else if 597 ≤ q ∧ q < 617 then rtow.testBit (616 - q) else keep (some q)

theorem writeU_bits {b out : BitBuf} {i n v : Nat} (h : writeU b i n v = .ok out) :
    out.length = b.length ∧ i + n ≤ b.length ∧ v < 2 ^ n ∧ ∀ q, out[q]? =
      if i ≤ q ∧ q < i + n then some (v.testBit (i + n - 1 - q)) else b[q]? := by
  have hl := writeU_length h
  unfold writeU at h
  split at h
  · split at h
    · rename_i hv hb
      cases h
      refine ⟨hl, hb, hv, fun q => ?_⟩
      rw [splice_getElem? _ _ _ (by simpa using hb), natToBits_length]
      split
      · rw [natToBits_getElem? _ _ _ (by omega)]
        congr 2; omega
      · rfl
    · cases h
  · cases h

/-- **the signed message**: whenever the message to be verified can be built, its bits are the kept
bits of the stored message with the time of week replaced by the one of the authentication record -/
theorem build_bits (mt : Nat) (msg out : BitBuf) (rtow : Nat) (h : buildMnav mt msg rtow = .ok out) :
    (mt = 1 ∨ mt = 2 ∨ mt = 4 ∨ mt = 5) ∧
    ∀ q, q < (if mt = 1 ∨ mt = 2 then 904 else if mt = 4 then 976 else msg.length) →
      out[q]? = some (gnssBit mt msg rtow q) := by
  unfold buildMnav at h
  split at h
  · rename_i e
    replace e : mt = 1 := e
    subst e
    obtain ⟨m0, h0, h⟩ := Py.bind_ok.1 h
    obtain ⟨m1, h1, h⟩ := Py.bind_ok.1 h
    obtain ⟨m2, h2, h3⟩ := Py.bind_ok.1 h
    refine ⟨Or.inl rfl, fun q hq => ?_⟩
    simp only [true_or, if_true] at hq
    have hm := lnav_masked msg false
    by_cases hlen : 960 ≤ msg.length
    · rw [if_pos hlen] at hm
      obtain ⟨o, g0, -, g⟩ := hm
      rw [h0] at g0; cases g0
      rw [(writeU_bits h3).2.2.2 q, (writeU_bits h2).2.2.2 q, (writeU_bits h1).2.2.2 q, g q hq]
      unfold gnssBit
      simp only [if_true]
      by_cases c1 : 600 + 30 ≤ q ∧ q < 600 + 47
      · rw [if_pos (by omega), if_pos (by omega)]; congr 2 <;> omega
      · rw [if_neg (by omega)]
        by_cases c2 : 300 + 30 ≤ q ∧ q < 300 + 47
        · rw [if_pos (by omega), if_pos (by omega)]; congr 2 <;> omega
        · rw [if_neg (by omega)]
          by_cases c3 : 30 ≤ q ∧ q < 47
          · rw [if_pos (by omega), if_pos (by omega)]; congr 2 <;> omega
          · rw [if_neg (by omega), if_neg (by omega)]
    · rw [if_neg hlen, h0] at hm; cases hm
  split at h
  · rename_i e1 e
    replace e : mt = 2 := e
    subst e
    obtain ⟨m0, h0, h⟩ := Py.bind_ok.1 h
    obtain ⟨m1, h1, h⟩ := Py.bind_ok.1 h
    obtain ⟨m2, h2, h3⟩ := Py.bind_ok.1 h
    refine ⟨Or.inr (Or.inl rfl), fun q hq => ?_⟩
    simp only [or_true, if_true] at hq
    have hm := cnav_masked msg false
    by_cases hlen : 896 ≤ msg.length
    · rw [if_pos hlen] at hm
      obtain ⟨o, g0, -, g⟩ := hm
      rw [h0] at g0; cases g0
      rw [(writeU_bits h3).2.2.2 q, (writeU_bits h2).2.2.2 q, (writeU_bits h1).2.2.2 q, g q hq]
      unfold gnssBit
      simp only [if_true, Nat.reduceEqDiff, if_false]
      by_cases c1 : 600 + 20 ≤ q ∧ q < 600 + 37
      · rw [if_pos (by omega), if_pos (by omega)]; congr 2 <;> omega
      · rw [if_neg (by omega)]
        by_cases c2 : 300 + 20 ≤ q ∧ q < 300 + 37
        · rw [if_pos (by omega), if_pos (by omega)]; congr 2 <;> omega
        · rw [if_neg (by omega)]
          by_cases c3 : 20 ≤ q ∧ q < 37
          · rw [if_pos (by omega), if_pos (by omega)]; congr 2 <;> omega
          · rw [if_neg (by omega), if_neg (by omega)]
    · rw [if_neg hlen, h0] at hm; cases hm
  split at h
  · cases h
  split at h
  · rename_i e1 e2 e3 e
    replace e : mt = 4 := e
    subst e
    obtain ⟨m0, h0, h⟩ := Py.bind_ok.1 h
    obtain ⟨m1, h1, h⟩ := Py.bind_ok.1 h
    obtain ⟨m2, h2, h⟩ := Py.bind_ok.1 h
    obtain ⟨m3, h3, h4⟩ := Py.bind_ok.1 h
    refine ⟨Or.inr (Or.inr (Or.inl rfl)), fun q hq => ?_⟩
    simp only [Nat.reduceEqDiff, or_self, if_true, if_false] at hq
    have hm := fnav_masked msg
    by_cases hlen : 988 ≤ msg.length
    · rw [if_pos hlen] at hm
      obtain ⟨o, g0, -, g⟩ := hm
      rw [h0] at g0; cases g0
      rw [(writeU_bits h4).2.2.2 q, (writeU_bits h3).2.2.2 q, (writeU_bits h2).2.2.2 q,
        (writeU_bits h1).2.2.2 q, g q hq]
      unfold gnssBit
      simp only [if_true, Nat.reduceEqDiff, if_false]
      have hk : q / 244 = 0 ∨ q / 244 = 1 ∨ q / 244 = 2 ∨ q / 244 = 3 := by omega
      rcases hk with hk | hk | hk | hk <;> rw [hk] <;> simp only [List.getD_cons_zero,
        List.getD_cons_succ]
      · rw [if_neg (by omega), if_neg (by omega), if_neg (by omega)]
        by_cases c : 167 ≤ q ∧ q < 187
        · rw [if_pos (by omega), if_pos (by omega)]; congr 2; omega
        · rw [if_neg (by omega), if_neg (by omega)]
      · rw [if_neg (by omega), if_neg (by omega)]
        by_cases c : 244 + 194 ≤ q ∧ q < 244 + 214
        · rw [if_pos (by omega), if_pos (by omega)]; congr 2; omega
        · rw [if_neg (by omega), if_neg (by omega), if_neg (by omega)]
      · rw [if_neg (by omega)]
        by_cases c : 488 + 186 ≤ q ∧ q < 488 + 206
        · rw [if_pos (by omega), if_pos (by omega)]; congr 2; omega
        · rw [if_neg (by omega), if_neg (by omega), if_neg (by omega), if_neg (by omega)]
      · by_cases c : 732 + 189 ≤ q ∧ q < 732 + 209
        · rw [if_pos (by omega), if_pos (by omega)]; congr 2; omega
        · rw [if_neg (by omega), if_neg (by omega), if_neg (by omega), if_neg (by omega),
            if_neg (by omega)]
    · rw [if_neg hlen, h0] at hm; cases hm
  split at h
  · rename_i e1 e2 e3 e4 e
    replace e : mt = 5 := e
    subst e
    refine ⟨Or.inr (Or.inr (Or.inr rfl)), fun q hq => ?_⟩
    simp only [Nat.reduceEqDiff, or_self, if_false] at hq
    rw [(writeU_bits h).2.2.2 q]
    unfold gnssBit
    simp only [Nat.reduceEqDiff, if_false]
    by_cases c : 597 ≤ q ∧ q < 617
    · rw [if_pos (by omega), if_pos (by omega)]
    · rw [if_neg (by omega), if_neg (by omega)]
      simp [List.getD_eq_getElem?_getD, List.getElem?_eq_getElem hq]
  · cases h

/-! ## Collecting the signature (`gen_rds`) -/

/-- the bits of the signature carried by one page -/
def payload (mode : Nat) (msg : BitBuf) (j : Nat) : Bool :=
  if mode = 1 then if j < 14 then msg.getD (76 + j) false
    else msg.getD (32 * ((j - 14) / 24 + 3) + 2 + (j - 14) % 24) false
  else if mode = 2 then msg.getD (40 + j) false
  else msg.getD (1268 + j) false

/-- distance of the pages in the collected signature, and bits written by one page -/
def stride (mode : Nat) : Nat := if mode = 1 then 180 else if mode = 2 then 236 else 234
def written (mode : Nat) : Nat := if mode = 1 then 182 else if mode = 2 then 236 else 234

/-- page number of a message -/
def pageNo (mode : Nat) (msg : BitBuf) : Py Nat :=
  readU msg (if mode = 1 then 74 else if mode = 2 then 38 else 1266) 2

theorem readU_writeU_bits {src b out : BitBuf} {i j n v : Nat} (h1 : readU src j n = .ok v)
    (h2 : writeU b i n v = .ok out) : out.length = b.length ∧ ∀ q, out[q]? =
      if i ≤ q ∧ q < i + n then some (src.getD (j + (q - i)) false) else b[q]? := by
  obtain ⟨hl, hb, -, hq⟩ := writeU_bits h2
  refine ⟨hl, fun q => ?_⟩
  rw [hq q]
  split
  · rename_i hc
    have hle := readU_ok_iff.1 ⟨v, h1⟩
    unfold readU at h1
    rw [if_pos hle] at h1
    cases h1
    have hln : ((src.drop j).take n).length = n := by simp; omega
    have ht := testBit_bitsToNat ((src.drop j).take n) (q - i) (by omega)
    rw [List.getElem?_take_of_lt (by omega), List.getElem?_drop, hln] at ht
    rw [List.getD_eq_getElem?_getD, ht]
    simp only [Option.getD_some]
    congr 2; omega
  · rfl

theorem copyBuff_all {src dst out : BitBuf} {os od n : Nat} (hn : 0 < n)
    (h : CopyBuff.copyBuff src dst os od n = .ok out) : out.length = dst.length ∧ ∀ q, out[q]? =
      if od ≤ q ∧ q < od + n then some (src.getD (os + (q - od)) false) else dst[q]? := by
  have hb : os + n ≤ src.length ∧ od + n ≤ dst.length := by
    by_contra hc
    rw [C08.copyBuff_raises src dst os od n hn hc] at h
    cases h
  obtain ⟨o, h1, h2, h3, h4⟩ := C08.copyBuff_bits src dst os od n hb.1 hb.2
  rw [h] at h1; cases h1
  refine ⟨h2, fun q => ?_⟩
  split
  · obtain ⟨j, rfl⟩ : ∃ j, q = od + j := ⟨q - od, by omega⟩
    rw [h3 j (by omega), Nat.add_sub_cancel_left, List.getD_eq_getElem?_getD,
      List.getElem?_eq_getElem (show os + j < src.length by omega)]
    rfl
  · exact h4 q (by omega)

/-- the word loop of an LNAV signature page -/
theorem lnav_words (msg : BitBuf) (i0 : Nat) (r0 : BitBuf) :
    Post ((List.range 7).foldlM (fun r k => do
        let d ← readU msg (32 * (k + 3) + 2) 24
        writeU r (i0 + 14 + 24 * k) 24 d) r0) fun (r : BitBuf) => r.length = r0.length ∧ ∀ q, r[q]? =
      if i0 + 14 ≤ q ∧ q < i0 + 14 + 24 * 7 then
        some (msg.getD (32 * ((q - i0 - 14) / 24 + 3) + 2 + (q - i0 - 14) % 24) false) else r0[q]? := by
  refine Post.foldlM_range (I := fun k (r : BitBuf) => r.length = r0.length ∧ ∀ q, r[q]? =
      if i0 + 14 ≤ q ∧ q < i0 + 14 + 24 * k then
        some (msg.getD (32 * ((q - i0 - 14) / 24 + 3) + 2 + (q - i0 - 14) % 24) false) else r0[q]?)
    ?_ ⟨rfl, fun q => by rw [if_neg (by omega)]⟩
  intro k r hk hr
  refine Post.bind (Q := fun d => readU msg (32 * (k + 3) + 2) 24 = .ok d) ⟨fun a h => h⟩ fun d hd =>
    ⟨fun r' h => ?_⟩
  obtain ⟨h1, h2⟩ := readU_writeU_bits hd h
  refine ⟨h1.trans hr.1, fun q => ?_⟩
  rw [h2 q, hr.2 q]
  by_cases c : i0 + 14 + 24 * k ≤ q ∧ q < i0 + 14 + 24 * k + 24
  · rw [if_pos c, if_pos (by omega)]
    have e1 : (q - i0 - 14) / 24 = k := by omega
    have e2 : (q - i0 - 14) % 24 = q - (i0 + 14 + 24 * k) := by omega
    rw [e1, e2]
  · rw [if_neg c]
    by_cases c2 : i0 + 14 ≤ q ∧ q < i0 + 14 + 24 * k
    · rw [if_pos c2, if_pos (by omega)]
    · rw [if_neg c2, if_neg (by omega)]

/-- **one page of the signature**: a page with number 0 changes nothing; any other page replaces
exactly the bits of its slot and is recorded in the mask.  The LNAV slots are 180 bits apart but
182 bits are written. -/
theorem page_slot (mode : Nat) (hmode : mode = 1 ∨ mode = 2 ∨ mode = 3) (rds msg out : BitBuf)
    (mask mask' : Nat) (h : rdsPage rds mask mode msg = .ok (out, mask')) :
    ∃ n, pageNo mode msg = .ok n ∧ out.length = rds.length ∧
      if n = 0 then out = rds ∧ mask' = mask
      else mask' = mask ||| 1 <<< (n - 1) ∧ ∀ q, out[q]? =
        if (n - 1) * stride mode ≤ q ∧ q < (n - 1) * stride mode + written mode then
          some (payload mode msg (q - (n - 1) * stride mode)) else rds[q]? := by
  unfold rdsPage at h
  rcases hmode with rfl | rfl | rfl
  · rw [if_pos (show 1 = LNAV from rfl)] at h
    obtain ⟨n, hn, h⟩ := Py.bind_ok.1 h
    obtain ⟨d, hd, h⟩ := Py.bind_ok.1 h
    refine ⟨n, hn, ?_⟩
    by_cases h0 : n = 0
    · subst h0
      rw [if_neg (by omega)] at h
      rw [Py.pure_ok] at h
      cases h
      exact ⟨rfl, by rw [if_pos rfl]; exact ⟨rfl, rfl⟩⟩
    · rw [if_pos (by omega)] at h
      obtain ⟨r1, hr1, h⟩ := Py.bind_ok.1 h
      obtain ⟨r2, hr2, h⟩ := Py.bind_ok.1 h
      rw [Py.pure_ok] at h
      cases h
      obtain ⟨g1, g2⟩ := readU_writeU_bits hd hr1
      obtain ⟨k1, k2⟩ := (lnav_words msg _ r1).out _ hr2
      refine ⟨k1.trans g1, ?_⟩
      rw [if_neg h0]
      refine ⟨rfl, fun q => ?_⟩
      rw [k2 q, g2 q]
      simp only [stride, written, payload, if_true]
      by_cases c1 : (n - 1) * 180 + 14 ≤ q ∧ q < (n - 1) * 180 + 14 + 24 * 7
      · rw [if_pos c1, if_pos (by omega), if_neg (by omega)]
      · rw [if_neg c1]
        by_cases c2 : (n - 1) * 180 ≤ q ∧ q < (n - 1) * 180 + 14
        · rw [if_pos c2, if_pos (by omega), if_pos (by omega)]
        · rw [if_neg c2, if_neg (by omega)]
  · rw [if_neg (show ¬ 2 = LNAV by decide), if_pos (show 2 = CNAV from rfl)] at h
    obtain ⟨n, hn, h⟩ := Py.bind_ok.1 h
    refine ⟨n, hn, ?_⟩
    by_cases h0 : n = 0
    · subst h0
      rw [if_neg (by omega)] at h
      rw [Py.pure_ok] at h
      cases h
      exact ⟨rfl, by rw [if_pos rfl]; exact ⟨rfl, rfl⟩⟩
    · rw [if_pos (by omega)] at h
      obtain ⟨r1, hr1, h⟩ := Py.bind_ok.1 h
      rw [Py.pure_ok] at h
      cases h
      obtain ⟨g1, g2⟩ := copyBuff_all (by omega) hr1
      refine ⟨g1, ?_⟩
      rw [if_neg h0]
      exact ⟨rfl, g2⟩
  · rw [if_neg (show ¬ 3 = LNAV by decide), if_neg (show ¬ 3 = CNAV by decide),
      if_pos (show 3 = CNAV2 from rfl)] at h
    obtain ⟨n, hn, h⟩ := Py.bind_ok.1 h
    refine ⟨n, hn, ?_⟩
    by_cases h0 : n = 0
    · subst h0
      rw [if_neg (by omega)] at h
      rw [Py.pure_ok] at h
      cases h
      exact ⟨rfl, by rw [if_pos rfl]; exact ⟨rfl, rfl⟩⟩
    · rw [if_pos (by omega)] at h
      obtain ⟨r1, hr1, h⟩ := Py.bind_ok.1 h
      rw [Py.pure_ok] at h
      cases h
      obtain ⟨g1, g2⟩ := copyBuff_all (by omega) hr1
      refine ⟨g1, ?_⟩
      rw [if_neg h0]
      exact ⟨rfl, g2⟩

/-- pages 1, 2, 3 in this order: bit `q` of the collected signature is the bit of page `q / stride`;
on LNAV other orders are not safe (`lnav_order_matters`) -/
theorem pages_in_order (mode : Nat) (hmode : mode = 1 ∨ mode = 2 ∨ mode = 3)
    (p1 p2 p3 r0 r1 r2 r3 : BitBuf) (k0 k1 k2 k3 : Nat)
    (n1 : pageNo mode p1 = .ok 1) (n2 : pageNo mode p2 = .ok 2) (n3 : pageNo mode p3 = .ok 3)
    (h1 : rdsPage r0 k0 mode p1 = .ok (r1, k1)) (h2 : rdsPage r1 k1 mode p2 = .ok (r2, k2))
    (h3 : rdsPage r2 k2 mode p3 = .ok (r3, k3)) (hk : k0 < 8) :
    k3 = 7 ∧ ∀ q, q < 3 * stride mode → r3[q]? = some
      (payload mode (if q < stride mode then p1 else if q < 2 * stride mode then p2 else p3)
        (q % stride mode)) := by
  obtain ⟨m1, e1, -, g1⟩ := page_slot mode hmode _ _ _ _ _ h1
  obtain ⟨m2, e2, -, g2⟩ := page_slot mode hmode _ _ _ _ _ h2
  obtain ⟨m3, e3, -, g3⟩ := page_slot mode hmode _ _ _ _ _ h3
  rw [n1] at e1; cases e1
  rw [n2] at e2; cases e2
  rw [n3] at e3; cases e3
  simp only [Nat.reduceEqDiff, Nat.succ_ne_self, if_false, Nat.add_one_sub_one, Nat.sub_self,
    Nat.reduceSub, OfNat.ofNat_ne_zero, Nat.zero_mul, Nat.zero_add, Nat.zero_le, true_and] at g1 g2 g3
  obtain ⟨a1, b1⟩ := g1
  obtain ⟨a2, b2⟩ := g2
  obtain ⟨a3, b3⟩ := g3
  refine ⟨?_, fun q hq => ?_⟩
  · rw [a3, a2, a1]
    have : ∀ k, k < 8 → ((k ||| 1 <<< 0) ||| 1 <<< 1) ||| 1 <<< 2 = 7 := by decide
    exact this k0 hk
  · have hw : stride mode ≤ written mode ∧ written mode ≤ stride mode + 2 ∧ 234 ≤ written mode + 54 ∧
        180 ≤ stride mode := by
      rcases hmode with rfl | rfl | rfl <;> decide
    rw [b3 q, b2 q, b1 q]
    by_cases c3 : 2 * stride mode ≤ q
    · rw [if_pos (by omega), if_neg (by omega), if_neg (by omega)]
      rw [Nat.mod_eq_sub_mod (by omega), Nat.mod_eq_sub_mod (by omega), Nat.mod_eq_of_lt (by omega),
        Nat.sub_sub, ← Nat.two_mul]
    · rw [if_neg (by omega)]
      by_cases c2 : stride mode ≤ q
      · rw [if_pos (by omega), if_neg (by omega), if_pos (by omega), Nat.mod_eq_sub_mod c2,
          Nat.mod_eq_of_lt (by omega), Nat.one_mul]
      · rw [if_neg (by omega), if_pos (by omega), if_pos (by omega), Nat.mod_eq_of_lt (by omega)]
        rfl

/-- an LNAV page whose two last data bits are set, with page number `n` -/
def testPage (n : Nat) : BitBuf :=
  List.replicate 74 false ++ natToBits 2 n ++ List.replicate 236 false ++ [true, true] ++
    List.replicate 6 false

/-- page 1 received after page 2 overwrites the first two bits of page 2 -/
theorem lnav_order_matters :
    (do let (r, k) ← rdsPage (zeros 89) 0 1 (testPage 2)
        let (r, k) ← rdsPage r k 1 (testPage 3)
        let (r, k) ← rdsPage r k 1 (testPage 1)
        pure ((r.drop 180).take 2, k, payload 1 (testPage 2) 0)) = .ok ([true, true], 7, false) := by
  decide +kernel

/-! ## Concrete cases -/

/-- a stored message with every bit set -/
example : ∃ out, lnavToMnav (List.replicate 960 true) true = .ok out ∧
    (out.drop 30).take 30 = List.replicate 17 true ++ List.replicate 13 false :=
  match h : lnavToMnav (List.replicate 960 true) true with
  | .ok out => ⟨out, rfl, by
      have key : ((lnavToMnav (List.replicate 960 true) true).map fun o => (o.drop 30).take 30) =
          .ok (List.replicate 17 true ++ List.replicate 13 false) := by decide +kernel
      rw [h] at key
      simpa [Except.map] using key⟩
  | .error e => by
      have key : ((lnavToMnav (List.replicate 960 true) true).map fun o => o.length) =
          .ok 904 := by decide +kernel
      rw [h] at key
      simp [Except.map] at key

/-- the time of week 5 of an I/NAV record replaces the stored one -/
example : ((buildMnav 5 (List.replicate 640 false) 5).map fun o => (o.drop 597).take 20) =
    .ok (natToBits 20 5) := by decide +kernel

/-- two messages differing in a parity bit only are signed alike, in a data bit not -/
example : lnavToMnav ((List.replicate 960 false).set 26 true) false =
    lnavToMnav (List.replicate 960 false) false ∧
    lnavToMnav ((List.replicate 960 false).set 66 true) false ≠
    lnavToMnav (List.replicate 960 false) false := by decide +kernel

/-- three LNAV pages in order -/
example : (do let (r, k) ← rdsPage (zeros 89) 0 1 (testPage 1)
              let (r, k) ← rdsPage r k 1 (testPage 2)
              let (r, k) ← rdsPage r k 1 (testPage 3)
              pure (k, r.length)) = .ok (7, 712) := by
  decide +kernel

end Verif.C55
