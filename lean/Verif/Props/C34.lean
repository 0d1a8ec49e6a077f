import Verif.Model.RtcmTypes
/-!
# C34 RTCM message-number tables are consistent
-/

namespace Verif.C34
open Verif.RtcmTypes
open Verif.Sat (Sys)

/-- multi-signal message numbers of RTCM 10403: `1070 + 10·c + k`, `k = 1..7` -/
def msmNumber (s : Sys) (k : Nat) : Option Nat :=
    if 1 ≤ k ∧ k ≤ 7 then
      match s with
      | .gps => some (1070 + k) | .glo => some (1080 + k) | .gal => some (1090 + k)
      | .sbs => some (1100 + k) | .qzs => some (1110 + k) | .bds => some (1120 + k)
      | _ => none
    else none

/-- SSR message numbers: six consecutive ones per constellation -/
def ssrNumber (s : Sys) (k : Nat) : Option Nat :=
    if 1 ≤ k ∧ k ≤ 6 then
      match s with
      | .gps => some (1056 + k) | .glo => some (1062 + k) | .gal => some (1239 + k)
      | .qzs => some (1245 + k) | .sbs => some (1251 + k) | .bds => some (1257 + k)
      | _ => none
    else none

theorem isMsmtype_iff (m : Nat) : isMsmtype m = true ↔
    (1071 ≤ m ∧ m ≤ 1077) ∨ (1081 ≤ m ∧ m ≤ 1087) ∨ (1091 ≤ m ∧ m ≤ 1097) ∨
    (1101 ≤ m ∧ m ≤ 1107) ∨ (1111 ≤ m ∧ m ≤ 1117) ∨ (1121 ≤ m ∧ m ≤ 1127) := by
  simp only [isMsmtype, msmT, List.any_cons, List.any_nil, Bool.or_false, Bool.or_eq_true,
    Bool.and_eq_true, decide_eq_true_eq, ge_iff_le]

theorem msm_fwd : ∀ m, m < 1128 → isMsmtype m = true →
    msmNumber (msmtype m).1 (msmtype m).2 = some m := by decide +kernel

theorem msm_bwd (s : Sys) : ∀ k, k < 8 → ∀ m ∈ msmNumber s k, isMsmtype m = true ∧ msmtype m = (s, k) := by
  cases s <;> decide +kernel

/-- **MSM numbers**: a number is classified as message kind `k` of constellation `s` exactly when
it is the number of that message; in particular as at most one -/
theorem msmtype_iff (m : Nat) (s : Sys) (k : Nat) :
    (isMsmtype m = true ∧ msmtype m = (s, k)) ↔ msmNumber s k = some m := by
  constructor
  · rintro ⟨h, e⟩
    have hm : m < 1128 := by have := (isMsmtype_iff m).1 h; omega
    have := msm_fwd m hm h
    rw [e] at this
    exact this
  · intro h
    have hk : k < 8 := by
      rcases Nat.lt_or_ge k 8 with g | g
      · exact g
      · unfold msmNumber at h
        rw [if_neg (by omega)] at h
        cases h
    exact msm_bwd s k hk m h

/-- a number that is no MSM number gets no constellation -/
theorem msmtype_none (m : Nat) (h : isMsmtype m = false) : msmtype m = (.none, 0) := by
  have : msmT.find? (fun p => m ≥ p.2 ∧ m ≤ p.2 + 6) = none := by
    rw [List.find?_eq_none]
    intro p hp hq
    have : isMsmtype m = true := by
      unfold isMsmtype
      rw [List.any_eq_true]
      exact ⟨p, hp, by simpa using hq⟩
    rw [h] at this; cases this
  unfold msmtype
  rw [this]

/-- **SSR numbers** -/
theorem ssr_ranges (m : Nat) (h : (ssrtype m).1 ≠ .none) : m < 1264 := by
  unfold ssrtype at h
  cases e : ssrT.find? (fun p => m ≥ p.2 ∧ m < p.2 + 6) with
  | none => rw [e] at h; exact absurd rfl h
  | some p =>
    have h1 := List.mem_of_find?_eq_some e
    have h2 := List.find?_some e
    have h3 : ∀ p ∈ ssrT, p.2 ≤ 1258 := by decide
    have := h3 p h1
    simp only [decide_eq_true_eq] at h2
    omega

theorem ssr_fwd : ∀ m, m < 1264 → (ssrtype m).1 ≠ .none →
    ssrNumber (ssrtype m).1 (ssrtype m).2 = some m := by decide +kernel

theorem ssr_bwd (s : Sys) : ∀ k, k < 7 → ∀ m ∈ ssrNumber s k, ssrtype m = (s, k) := by
  cases s <;> decide +kernel

theorem ssrtype_iff (m : Nat) (s : Sys) (k : Nat) (hs : s ≠ .none) :
    ssrtype m = (s, k) ↔ ssrNumber s k = some m := by
  constructor
  · intro e
    have h : (ssrtype m).1 ≠ .none := by rw [e]; exact hs
    have := ssr_fwd m (ssr_ranges m h) h
    rw [e] at this
    exact this
  · intro h
    have hk : k < 7 := by
      rcases Nat.lt_or_ge k 7 with g | g
      · exact g
      · unfold ssrNumber at h
        rw [if_neg (by omega)] at h
        cases h
    exact ssr_bwd s k hk m h

/-- the range test for SSR numbers accepts the numbers `ssrtype` knows, the vertical TEC and phase
bias numbers, and one number too many: 1069 -/
theorem isSsrtype_iff (m : Nat) : isSsrtype m = true ↔
    (ssrtype m).1 ≠ .none ∨ (1264 ≤ m ∧ m ≤ 1270) ∨ m = 1069 := by
  have h1 : isSsrtype m = true ↔ (1057 ≤ m ∧ m ≤ 1069) ∨ (1240 ≤ m ∧ m ≤ 1270) := by
    simp only [isSsrtype, ssrT, List.any_cons, List.any_nil, Bool.or_false, Bool.or_eq_true,
      Bool.and_eq_true, decide_eq_true_eq, ge_iff_le, Bool.false_and, Bool.false_eq_true, or_false]
    omega
  have h2 : ∀ m, m < 1264 → ((ssrtype m).1 ≠ .none ↔
      (1057 ≤ m ∧ m ≤ 1068) ∨ (1240 ≤ m ∧ m ≤ 1263)) := by decide +kernel
  rw [h1]
  by_cases g : m < 1264
  · rw [h2 m g]; omega
  · constructor
    · intro h; omega
    · rintro (h | h)
      · exact absurd (ssr_ranges m h) g
      · omega

/-- **No number is of two families** -/
theorem families_disjoint (m : Nat) :
    (isMsmtype m = true → isSsrtype m = false ∧ (nrtktype m).2 = 0) ∧
    (isSsrtype m = true → (nrtktype m).2 = 0) := by
  have hn : (nrtktype m).2 ≠ 0 → m = 1030 ∨ m = 1031 ∨ m = 1303 ∨ m = 1304 ∨ m = 1305 := by
    intro h
    rcases Nat.lt_or_ge m 1306 with g | g
    · have : ∀ m, m < 1306 → (nrtktype m).2 ≠ 0 →
        m = 1030 ∨ m = 1031 ∨ m = 1303 ∨ m = 1304 ∨ m = 1305 := by decide +kernel
      exact this m g h
    · refine absurd ?_ h
      have e : Dict.get? [(1030, Sys.gps), (1031, .glo), (1303, .bds), (1304, .gal), (1305, .qzs)] m = none := by
        unfold Dict.get?
        rw [List.find?_eq_none.2]
        · rfl
        · intro p hp hq
          have : ∀ p ∈ [(1030, Sys.gps), (1031, .glo), (1303, .bds), (1304, .gal), (1305, .qzs)], p.1 < 1306 := by
            decide
          have := this p hp
          simp only [decide_eq_true_eq] at hq
          omega
      unfold nrtktype
      rw [e]
  have hs : isSsrtype m = true ↔ (1057 ≤ m ∧ m ≤ 1069) ∨ (1240 ≤ m ∧ m ≤ 1270) := by
    simp only [isSsrtype, ssrT, List.any_cons, List.any_nil, Bool.or_false, Bool.or_eq_true,
      Bool.and_eq_true, decide_eq_true_eq, ge_iff_le, Bool.false_and, Bool.false_eq_true, or_false]
    omega
  have hm := isMsmtype_iff m
  constructor
  · intro h
    have h' := hm.1 h
    constructor
    · cases e : isSsrtype m with
      | false => rfl
      | true => have := hs.1 e; omega
    · rcases Nat.eq_zero_or_pos (nrtktype m).2 with g | g
      · exact g
      · have := hn (by omega); omega
  · intro h
    have h' := hs.1 h
    rcases Nat.eq_zero_or_pos (nrtktype m).2 with g | g
    · exact g
    · have := hn (by omega); omega

/-! ## The SSR kind table -/

theorem mem_of_mt2sct {m : Nat} {v : Sys × SC} (h : mt2sct m = .ok v) : (m, v) ∈ ssrtypeT := by
  unfold mt2sct at h
  rw [Dict.getItem_ok_iff] at h
  unfold Dict.get? at h
  cases e : ssrtypeT.find? (fun p => p.1 = m) with
  | none => rw [e] at h; cases h
  | some p =>
    rw [e] at h
    have h1 := List.mem_of_find?_eq_some e
    have h2 := List.find?_some e
    simp only [Option.map_some, Option.some.injEq] at h
    simp only [decide_eq_true_eq] at h2
    subst h; subst h2
    exact h1

/-- the table lists no number twice: reading it back gives the entry -/
theorem mt2sct_mem : ∀ p ∈ ssrtypeT, mt2sct p.1 = .ok p.2 := by decide +kernel

/-- **kind to number and back**: the number returned has the requested constellation and kind;
`-1` is returned exactly when no number has them -/
theorem mt2sct_sct2mt (sct : SC) (sys : Sys) :
    (∃ m : Nat, sct2mt sct sys = m ∧ mt2sct m = .ok (sys, sct)) ∨
    (sct2mt sct sys = -1 ∧ ∀ m, mt2sct m ≠ .ok (sys, sct)) := by
  cases e : ssrtypeT.find? (fun p => p.2.1 = sys ∧ p.2.2 = sct) with
  | some p =>
    left
    have h1 := List.mem_of_find?_eq_some e
    have h2 := List.find?_some e
    simp only [decide_eq_true_eq] at h2
    refine ⟨p.1, ?_, ?_⟩
    · unfold sct2mt; rw [e]
    · rw [mt2sct_mem p h1, ← h2.1, ← h2.2]
  | none =>
    right
    constructor
    · unfold sct2mt; rw [e]
    · intro m h
      have := List.find?_eq_none.1 e _ (mem_of_mt2sct h)
      simp at this

/-- the numbers that share constellation and kind with an earlier entry -/
def duplicate : List Nat :=
  [41, 42, 43, 44, 45, 46, 62, 65, 68, 71, 74, 77, 85, 86, 87, 88, 89]

/-- **number to kind and back** returns the number, except for the seventeen duplicates -/
theorem sct2mt_mt2sct {m : Nat} {s : Sys} {k : SC} (h : mt2sct m = .ok (s, k)) :
    sct2mt k s = m ↔ m ∉ duplicate := by
  have : ∀ p ∈ ssrtypeT, (sct2mt p.2.2 p.2.1 = p.1 ↔ p.1 ∉ duplicate) := by decide +kernel
  exact this _ (mem_of_mt2sct h)

/-- **the constellation** read off the number is the one of the kind table -/
theorem getSsrSys_mt2sct {m : Nat} {s : Sys} {k : SC} (r : Sys) (h : mt2sct m = .ok (s, k)) :
    getSsrSys r m = .ok s := by
  have : ∀ p ∈ ssrtypeT, getSsrSys r p.1 = .ok p.2.1 := by
    cases r <;> decide +kernel
  exact this _ (mem_of_mt2sct h)

/-- … and that of `ssrtype` -/
theorem getSsrSys_ssrtype (m : Nat) (r : Sys) (h : (ssrtype m).1 ≠ .none) :
    getSsrSys r m = .ok (ssrtype m).1 := by
  have : ∀ m, m < 1264 → (ssrtype m).1 ≠ .none → getSsrSys r m = .ok (ssrtype m).1 := by
    cases r <;> decide +kernel
  exact this m (ssr_ranges m h) h

/-! ## Dispatch -/

/-- the method that handles a correction kind -/
def handler : SC → Option Kind
  | .orbit => some .orb | .clock => some .clk | .cbias => some .cbias | .oc => some .comb
  | .ura => some .ura | .hclock => some .hclk | .pbias => some .pbias | .satant => some .satant
  | .pbiasEx => some .pbiasEx | .trop => some .trop | .stec => some .iono
  | .metadata => some .metadata | .grid => some .grid | _ => none

/-- the decoder hands every number of the table to the method of its kind, except that the
BeiDou orbit test number 63 goes to the ephemeris decoder (and vertical TEC to none) -/
theorem decode_handler {m : Nat} {s : Sys} {k : SC} (h : mt2sct m = .ok (s, k)) (h63 : m ≠ 63) :
    decKind m = handler k := by
  have : ∀ p ∈ ssrtypeT, p.1 ≠ 63 → decKind p.1 = handler p.2.2 := by decide +kernel
  exact this _ (mem_of_mt2sct h) h63

theorem number_63 : mt2sct 63 = .ok (.bds, .orbit) ∧ encKind 63 = some .orb ∧
    decKind 63 = some .bdsEph := by decide +kernel

theorem encKind_bound {m : Nat} {k : Kind} (h : encKind m = some k) : m < 1128 := by
  rcases Nat.lt_or_ge m 1128 with g | g
  · exact g
  · have hm : isMsmtype m = false := by
      cases e : isMsmtype m with
      | false => rfl
      | true => have := (isMsmtype_iff m).1 e; omega
    unfold encKind at h
    simp only [hm, List.mem_cons, List.not_mem_nil, or_false] at h
    rw [if_neg Bool.false_ne_true, if_neg (by omega), if_neg (by omega), if_neg (by omega),
      if_neg (by omega), if_neg (by omega), if_neg (by omega), if_neg (by omega), if_neg (by omega),
      if_neg (by omega), if_neg (by omega), if_neg (by omega), if_neg (by omega), if_neg (by omega),
      if_neg (by omega)] at h
    cases h

/-- **what the encoder writes the decoder reads with the matching method**, except number 63 -/
theorem encode_decode_kind {m : Nat} {k : Kind} (h : encKind m = some k) (h63 : m ≠ 63) :
    decKind m = some k := by
  have : ∀ m, m < 1128 → m ≠ 63 → ∀ k ∈ encKind m, decKind m = some k := by decide +kernel
  exact this m (encKind_bound h) h63 k h

/-- the message numbers each decoding method is responsible for -/
def numbersOf : Kind → List Nat
  | .orb => [1057, 1063, 1240, 1246, 1252, 1258] ++ [41, 62, 64]
  | .clk => [1058, 1064, 1241, 1247, 1253, 1259] ++ [42, 65, 66, 67]
  | .cbias => [1059, 1065, 1242, 1248, 1254, 1260] ++ [43, 68, 69, 70]
  | .comb => [1060, 1066, 1243, 1249, 1255, 1261] ++ [44, 71, 72, 73]
  | .ura => [1061, 1067, 1244, 1250, 1256, 1262] ++ [45, 74, 75, 76]
  | .hclk => [1062, 1068, 1245, 1251, 1257, 1263] ++ [46, 77, 78, 79]
  | .pbias => [1265, 1266, 1267, 1268, 1269, 1270] ++ [85, 86, 87, 88, 89]
  | .igsssr => [4076]
  | .nrtk => [1030, 1031, 1303, 1304, 1305]
  | .msm => List.range' 1071 7 ++ List.range' 1081 7 ++ List.range' 1091 7 ++ List.range' 1101 7 ++ List.range' 1111 7 ++
      List.range' 1121 7
  | .antDesc => [1007, 1008, 1033] | .staPos => [1005, 1006, 1032] | .gloBias => [1230]
  | .gpsEph => [1019] | .gloEph => [1020] | .irnEph => [1041] | .bdsEph => [1042, 63] | .sbsEph => [1043]
  | .qzsEph => [1044] | .galEph => [1045, 1046] | .text => [1029]
  | .metadata => [60] | .grid => [61] | .satant => [80, 81, 82, 83, 84] | .pbiasEx => [90, 91, 92, 93, 94]
  | .trop => [95] | .iono => [96, 97, 98, 99, 100]
  | .integMin => [3, 2000] | .integExt => [4, 2005] | .integSis => [5, 2006] | .integArea => [6, 2007, 2008]
  | .integQuality => [7, 2051] | .integCnr => [8, 2091] | .integVmap => [2071] | .integMmap => [2072]
  | .integSsr => [11, 12, 13, 2011] | .sc134 => [54]

/-- the methods that have an encoder -/
def encoded : Kind → List Nat
  | .orb => [1057, 41, 62, 63, 64] | .clk => [1058, 42, 65, 66, 67] | .comb => [1060, 44, 71, 72, 73]
  | .ura => [1061, 45, 74, 75, 76] | .hclk => [1062, 46, 77, 78, 79] | .cbias => [1059, 43, 68, 69, 70]
  | .pbias => [85, 86, 87, 88, 89] | .msm => numbersOf .msm | .integSsr => [11, 12, 13] | .metadata => [60]
  | .grid => [61] | .trop => [95] | .iono => [96, 97, 98, 99, 100]
  | _ => []

def kinds : List Kind := [.orb, .clk, .cbias, .pbias, .comb, .ura, .hclk, .igsssr, .nrtk, .msm, .antDesc, .staPos, .gloBias,
  .gpsEph, .gloEph, .irnEph, .bdsEph, .sbsEph, .qzsEph, .galEph, .text, .metadata, .grid, .satant, .pbiasEx, .trop, .iono,
  .integMin, .integExt, .integSis, .integArea, .integQuality, .integCnr, .integVmap, .integMmap, .integSsr, .sc134]

theorem kinds_all (k : Kind) : k ∈ kinds := by cases k <;> decide

theorem msm_mem {m : Nat} (h : isMsmtype m = true) : m ∈ numbersOf .msm := by
  have := (isMsmtype_iff m).1 h
  simp only [numbersOf, List.mem_append, List.mem_range'_1]
  omega

theorem peel {c : Prop} [Decidable c] {a b : Option Kind} {k : Kind} {P : Prop} (h : (if c then a else b) = some k)
    (h1 : c → a = some k → P) (h2 : ¬ c → b = some k → P) : P := by
  by_cases g : c
  · rw [if_pos g] at h; exact h1 g h
  · rw [if_neg g] at h; exact h2 g h

/-- **Every message number is decoded by the method responsible for it**, any other number by none. -/
theorem decode_iff (m : Nat) (k : Kind) : decKind m = some k ↔ m ∈ numbersOf k := by
  have h2 : ∀ k ∈ kinds, ∀ m ∈ numbersOf k, decKind m = some k := by decide +kernel
  refine ⟨fun h => ?_, h2 k (kinds_all k) _⟩
  unfold decKind at h
  repeat
    refine peel h (fun c e => ?_) ?_
    · first
        | (obtain rfl := Option.some.inj e
           first
            | exact msm_mem c
            | (simp only [numbersOf, List.mem_append, List.mem_cons, List.not_mem_nil, or_false] at c ⊢; omega))
        | cases e
    clear h
    intro _ h
  cases h

/-- **Every message number is encoded by the method responsible for it**, any other number by none. -/
theorem encode_iff (m : Nat) (k : Kind) : encKind m = some k ↔ m ∈ encoded k := by
  have h2 : ∀ k ∈ kinds, ∀ m ∈ encoded k, encKind m = some k := by decide +kernel
  refine ⟨fun h => ?_, h2 k (kinds_all k) _⟩
  unfold encKind at h
  repeat
    refine peel h (fun c e => ?_) ?_
    · first
        | (obtain rfl := Option.some.inj e
           first
            | exact msm_mem c
            | (simp only [encoded, List.mem_cons, List.not_mem_nil, or_false] at c ⊢; omega))
        | cases e
    clear h
    intro _ h
  cases h

/-- **Network RTK residuals**: constellation and kind by number -/
theorem nrtktype_iff (m : Nat) (s : Sys) (k : Nat) : (nrtktype m = (s, k) ∧ s ≠ .none) ↔
    k = 1 ∧ (m, s) ∈ [(1030, Sys.gps), (1031, .glo), (1303, .bds), (1304, .gal), (1305, .qzs)] := by
  have h2 : ∀ p ∈ [(1030, Sys.gps), (1031, .glo), (1303, .bds), (1304, .gal), (1305, .qzs)],
      nrtktype p.1 = (p.2, 1) ∧ p.2 ≠ .none := by decide +kernel
  constructor
  · rintro ⟨h, hs⟩
    unfold nrtktype at h
    cases e : Dict.get? [(1030, Sys.gps), (1031, .glo), (1303, .bds), (1304, .gal), (1305, .qzs)] m with
    | none => rw [e] at h; exact absurd (Prod.ext_iff.1 h).1.symm hs
    | some x =>
      rw [e] at h
      obtain ⟨rfl, rfl⟩ := Prod.ext_iff.1 h
      refine ⟨rfl, ?_⟩
      unfold Dict.get? at e
      cases g : List.find? (fun p => p.1 = m) [(1030, Sys.gps), (1031, .glo), (1303, .bds), (1304, .gal), (1305, .qzs)] with
      | none => rw [g] at e; cases e
      | some p =>
        rw [g] at e
        have h1 := List.mem_of_find?_eq_some g
        have h2 := List.find?_some g
        simp only [Option.map_some, Option.some.injEq] at e
        simp only [decide_eq_true_eq] at h2
        subst e; subst h2
        exact h1
  · rintro ⟨rfl, h⟩
    exact h2 (m, s) h

/-! ## IGS SSR sub-types -/

/-- IGS SSR sub-type numbers: 20·c + k, `k = 1..7` -/
def igsNumber (s : Sys) (k : SC) : Option Nat :=
  let b : Option Nat := match s with
    | .gps => some 20 | .glo => some 40 | .gal => some 60 | .qzs => some 80 | .bds => some 100
    | .sbs => some 120 | _ => none
  let n : Option Nat := match k with
    | .orbit => some 1 | .clock => some 2 | .oc => some 3 | .hclock => some 4 | .cbias => some 5
    | .pbias => some 6 | .ura => some 7 | _ => none
  b.bind fun b => n.map fun n => b + n

/-- every sub-type is classified as at most one (constellation, kind), the one of the standard;
`r` is the constellation of the previous message (kept by vertical TEC messages) -/
theorem igs_iff (n : Nat) (hn : n < 256) (s r : Sys) (k : SC) (hk : k ≠ .vtec) :
    igsKind n r = .ok (s, some k) ↔ igsNumber s k = some n := by
  by_cases h201 : n = 201
  · subst h201
    constructor
    · intro h
      unfold igsKind at h
      rw [if_pos rfl] at h
      simp only [Except.ok.injEq, Prod.mk.injEq, Option.some.injEq] at h
      exact absurd h.2.symm hk
    · intro h
      have : ∀ s k, igsNumber s k ≠ some 201 := by
        intro s k; cases s <;> cases k <;> decide
      exact absurd h (this s k)
  · have e : igsKind n r = igsKind n .none := by
      unfold igsKind
      rw [if_neg h201, if_neg h201]
    rw [e]
    constructor
    · intro h
      have : ∀ n, n < 256 → n ≠ 201 → (match igsKind n .none with
          | .ok (s, some k) => decide (igsNumber s k = some n)
          | _ => true) = true := by decide +kernel
      have := this n hn h201
      rw [h] at this
      exact of_decide_eq_true this
    · intro h
      have : ∀ s k, (match igsNumber s k with
          | some n => decide (igsKind n .none = .ok (s, some k))
          | none => true) = true := by
        intro s k; cases s <;> cases k <;> decide +kernel
      have := this s k
      rw [h] at this
      exact of_decide_eq_true this

/-! ## Concrete cases -/

example : isMsmtype 1097 = true ∧ msmtype 1097 = (.gal, 7) ∧ msmNumber .gal 7 = some 1097 := by decide
example : ssrtype 1243 = (.gal, 4) ∧ mt2sct 1243 = .ok (.gal, .oc) ∧ sct2mt .oc .gal = 1243 := by decide
example : mt2sct 86 = .ok (.glo, .pbias) ∧ sct2mt .pbias .glo = 1266 := by decide
example : isSsrtype 1069 = true ∧ ssrtype 1069 = (.none, 0) ∧ getSsrSys .none 1069 = .error .unboundLocal := by
  decide
example : igsKind 101 .gps = .ok (.bds, some .orbit) := by decide

end Verif.C34
