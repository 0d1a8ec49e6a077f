import Verif.Lemmas.RtcmSsr
import Verif.Props.C13
/-!
# C33 RTCM SSR orbit/clock encode-decode round-trip
-/

namespace Verif.C33
open Verif.RtcmSsr Verif.RtcmTypes Verif.Sval Verif.Time
open Verif.Sat (Sys sat2prn prn2sat)

/-! ## Specification -/

/-- `z` is what remains of the value `y` in an `n`-bit field with the given unit: the nearest
multiple; the most negative code means "not available" -/
def Quant (n : Nat) (unit : ℚ) (y z : Val) : Prop :=
  match y with
  | none => z = none
  | some y => ∃ u : Int, -(2 ^ (n - 1) : Int) ≤ u ∧ u < 2 ^ (n - 1) ∧ |(u : ℚ) * unit - y| ≤ unit / 2 ∧
      z = if u = -2 ^ (n - 1) then none else some (u * unit)

def QOrb (o o' : Vec) : Prop :=
  Quant 22 (1 / 10000) o.1 o'.1 ∧ Quant 20 (4 / 10000) o.2.1 o'.2.1 ∧ Quant 20 (4 / 10000) o.2.2 o'.2.2

def QVel (o o' : Vec) : Prop :=
  Quant 21 (1 / 1000000) o.1 o'.1 ∧ Quant 19 (4 / 1000000) o.2.1 o'.2.1 ∧
    Quant 19 (4 / 1000000) o.2.2 o'.2.2

def QClk (o o' : Vec) : Prop :=
  Quant 22 (1 / 10000) o.1 o'.1 ∧ Quant 21 (4 / 10000) o.2.1 o'.2.1 ∧ Quant 27 (4 / 1000000) o.2.2 o'.2.2

/-- entry of a dictionary that may be missing -/
def look {α : Type} (d : Option (Dict Int α)) (s : Int) : Option α := d.bind fun d => Dict.get? d s

theorem quant_Quant {n : Nat} {scl : ℚ} {y : Val} (hs : 0 < scl) (hf : FitS n (ival y n scl)) :
    Quant n scl y (quant n scl y) := by
  unfold Quant quant
  cases y with
  | none => simp [ival, sval]
  | some y =>
    refine ⟨pyRound (y / scl), hf.2.1, hf.2.2, ?_, rfl⟩
    have hc := C13.pyRound_close (y / scl)
    have e : ((pyRound (y / scl) : Int) : ℚ) * scl - y = (((pyRound (y / scl) : Int) : ℚ) - y / scl) * scl := by
      field_simp
    rw [e, abs_mul, abs_of_pos hs]
    nlinarith

/-! ## Loops -/

theorem times_succ (n : Nat) (f : Dec × Nat → Py (Dec × Nat)) (s : Dec × Nat) :
    times (n + 1) f s = f s >>= times n f := by
  unfold times
  rw [List.range_succ_eq_map, List.foldlM_cons]
  congr 1
  funext s'
  rw [List.foldlM_map]

/-- what one record does to the decoder -/
def orbPut (e : Enc) (d : Dec) (s : Int) : Dec :=
  { d with
    iode := d.iode.map (·.set s (iodeOf e s).toNat)
    dorb := d.dorb.map (·.set s (qdorb e s))
    ddorb := d.ddorb.map (·.set s (qddorb e s))
    satN := d.satN ++ [s] }

theorem orb_loop {e : Enc} {sys : Sys} (hs : sys ≠ .none) (hg : sys ≠ .glo) (hb : sys ≠ .sbs)
    (h76 : e.msgtype ≠ 4076) {b : BitBuf} : ∀ (l : List Int) (d : Dec) (i : Nat) (m : List Bool),
    (∀ s ∈ l, (sat2prn s).1 = sys ∧ SatFit e s ∧ OrbFit e s) →
    At b i (l.flatMap (fun s => satBits e s ++ orbBits e s) ++ m) → d.msgtype = e.msgtype →
    d.iode.isSome → d.dorb.isSome → d.ddorb.isSome →
    times l.length (orbStep sys b) (d, i) =
      .ok (l.foldl (orbPut e) d, i + (l.flatMap (fun s => satBits e s ++ orbBits e s)).length)
  | [], d, i, m, _, _, _, _, _, _ => rfl
  | s :: l, d, i, m, hl, hat, hm, h1, h2, h3 => by
    obtain ⟨hsys, f1, f2⟩ := hl s (by simp)
    rw [List.flatMap_cons, List.append_assoc, List.append_assoc] at hat
    obtain ⟨r1, hat⟩ := decodeSat_spec hsys hs hg hb h76 f1 hat
    obtain ⟨r2, hat⟩ := decodeOrbSat_spec hsys f2 hat
    obtain ⟨m1, e1⟩ := Option.isSome_iff_exists.1 h1
    obtain ⟨m2, e2⟩ := Option.isSome_iff_exists.1 h2
    obtain ⟨m3, e3⟩ := Option.isSome_iff_exists.1 h3
    have step : orbStep sys b (d, i) = .ok (orbPut e d s, i + (satBits e s).length + (orbBits e s).length) := by
      unfold orbStep
      simp only
      rw [hm, r1]
      simp only [Py.okBind]
      rw [r2]
      simp only [Py.okBind, e1, e2, e3, setOpt]
      unfold orbPut
      simp only [e1, e2, e3, hm]
      rfl
    rw [List.length_cons, times_succ, step, Py.okBind,
      orb_loop hs hg hb h76 l (orbPut e d s) _ m (fun s' h => hl s' (by simp [h])) hat hm
        (by simp [orbPut, e1]) (by simp [orbPut, e2]) (by simp [orbPut, e3])]
    rw [List.foldl_cons, List.flatMap_cons, List.length_append, List.length_append]
    congr 2
    omega

theorem orbPut_fold (e : Enc) : ∀ (l : List Int) (d : Dec), d.iode.isSome → d.dorb.isSome → d.ddorb.isSome →
    (∀ s, look (l.foldl (orbPut e) d).iode s = if s ∈ l then some (iodeOf e s).toNat else look d.iode s) ∧
    (∀ s, look (l.foldl (orbPut e) d).dorb s = if s ∈ l then some (qdorb e s) else look d.dorb s) ∧
    (∀ s, look (l.foldl (orbPut e) d).ddorb s = if s ∈ l then some (qddorb e s) else look d.ddorb s) ∧
    l.foldl (orbPut e) d = { d with
      iode := (l.foldl (orbPut e) d).iode
      dorb := (l.foldl (orbPut e) d).dorb
      ddorb := (l.foldl (orbPut e) d).ddorb
      satN := d.satN ++ l }
  | [], d, _, _, _ => by simp
  | a :: l, d, h1, h2, h3 => by
    obtain ⟨m1, e1⟩ := Option.isSome_iff_exists.1 h1
    obtain ⟨m2, e2⟩ := Option.isSome_iff_exists.1 h2
    obtain ⟨m3, e3⟩ := Option.isSome_iff_exists.1 h3
    obtain ⟨i1, i2, i3, i4⟩ := orbPut_fold e l (orbPut e d a) (by simp [orbPut, e1])
      (by simp [orbPut, e2]) (by simp [orbPut, e3])
    rw [List.foldl_cons]
    refine ⟨fun s => ?_, fun s => ?_, fun s => ?_, ?_⟩
    · rw [i1 s]
      by_cases c : s ∈ l
      · rw [if_pos c, if_pos (by simp [c])]
      · rw [if_neg c]
        by_cases c' : s = a
        · subst c'
          simp [orbPut, look, e1]
        · rw [if_neg (by simp [c, c'])]
          simp [orbPut, look, e1, Dict.get?_set_ne _ _ c']
    · rw [i2 s]
      by_cases c : s ∈ l
      · rw [if_pos c, if_pos (by simp [c])]
      · rw [if_neg c]
        by_cases c' : s = a
        · subst c'
          simp [orbPut, look, e2]
        · rw [if_neg (by simp [c, c'])]
          simp [orbPut, look, e2, Dict.get?_set_ne _ _ c']
    · rw [i3 s]
      by_cases c : s ∈ l
      · rw [if_pos c, if_pos (by simp [c])]
      · rw [if_neg c]
        by_cases c' : s = a
        · subst c'
          simp [orbPut, look, e3]
        · rw [if_neg (by simp [c, c'])]
          simp [orbPut, look, e3, Dict.get?_set_ne _ _ c']
    · conv_lhs => rw [i4]
      simp only [orbPut, List.append_assoc, List.singleton_append]

/-! ## Orbit messages -/

/-- constellations of the orbit messages the encoder offers, GLONASS (41) and number 63 apart -/
def orbSys : Nat → Option Sys
  | 1057 => some .gps | 62 => some .gal | 64 => some .qzs | _ => none

theorem orbSys_spec {m : Nat} {sys : Sys} (h : orbSys m = some sys) :
    getSsrSys .none m = .ok sys ∧ (∀ r, getSsrSys r m = .ok sys) ∧ encKind m = some .orb ∧
    decKind m = some .orb ∧ sys ≠ .none ∧ sys ≠ .glo ∧ sys ≠ .sbs ∧ m ≠ 4076 := by
  unfold orbSys at h
  split at h
  · cases h
    refine ⟨by decide, fun r => by cases r <;> decide, by decide, by decide, by decide, by decide, by decide, by decide⟩
  · cases h
    refine ⟨by decide, fun r => by cases r <;> decide, by decide, by decide, by decide, by decide, by decide, by decide⟩
  · cases h
    refine ⟨by decide, fun r => by cases r <;> decide, by decide, by decide, by decide, by decide, by decide, by decide⟩
  · cases h

/-- the epoch of the message -/
def epoch (d : Dec) (e : Enc) : GTime := gpst2time d.week e.tow

/-- **Orbit message round trip.**  Every satellite of the message's constellation in the encoder's
list comes back with its issue of data and its quantised values; all other entries are those the
decoder had (none, if the message starts a new epoch); the header comes back; the read position is
the end of what was written. -/
theorem orbit_round_trip {qi : ℚ → Int × Int} {e : Enc} {sys : Sys} {b : BitBuf} {p : Pos} {d : Dec}
    (hm : orbSys e.msgtype = some sys) (hb : 36 ≤ b.length) (h : encode qi e b = .ok p)
    (hnew : timediff (epoch d e) (d.t0s .orbit) > 0 ∨
      (d.iode.isSome ∧ d.dorb.isSome ∧ d.ddorb.isSome)) :
    ∃ d', decode d p.1 = .ok (some (d', p.2)) ∧
      (d'.iodssr = e.iodssr ∧ d'.pid = e.pid ∧ d'.sid = e.sid ∧ d'.datum = e.datum ∧ d'.mi = e.mi ∧
        d'.udi .orbit = e.udi .orbit ∧ d'.tow = e.tow) ∧
      d'.satN = (if timediff (epoch d e) (d.t0s .orbit) > 0 then [] else d.satN) ++
        e.satN.filter (fun s => (sat2prn s).1 = sys) ∧
      ∀ s, if s ∈ e.satN ∧ (sat2prn s).1 = sys then
          (∃ io, Dict.get? e.iode s = some io ∧ look d'.iode s = some io.toNat ∧ 0 ≤ io) ∧
          (∃ o o', Dict.get? e.dorb s = some o ∧ look d'.dorb s = some o' ∧ QOrb o o') ∧
          (∃ v v', (match e.ddorb with | none => some (some 0, some 0, some 0) | some m => Dict.get? m s) = some v ∧
            look d'.ddorb s = some v' ∧ QVel v v')
        else if timediff (epoch d e) (d.t0s .orbit) > 0 then
          look d'.iode s = none ∧ look d'.dorb s = none ∧ look d'.ddorb s = none
        else look d'.iode s = look d.iode s ∧ look d'.dorb s = look d.dorb s ∧
          look d'.ddorb s = look d.ddorb s := by
  obtain ⟨g1, g2, g3, g4, g5, g6, g7, g8⟩ := orbSys_spec hm
  unfold encode at h
  obtain ⟨p1, h1, h⟩ := Py.bind_ok.1 h
  obtain ⟨f1, w1⟩ := putU_spec h1
  rw [g3] at h
  simp only at h
  unfold encodeCssrOrb encSys at h
  rw [if_neg g8, g1, Py.okBind] at h
  obtain ⟨p2, h2, h⟩ := Py.bind_ok.1 h
  obtain ⟨f2, w2⟩ := encodeHead_spec w1.le h2
  obtain ⟨f3, w3⟩ := loop_wr (P := fun s => SatFit e s ∧ OrbFit e s)
    (bits := fun s => satBits e s ++ orbBits e s)
    (fun s p p' h => by
      obtain ⟨q, a, b⟩ := Py.bind_ok.1 h
      have a := encodeSat_spec a
      have b := encodeOrbSat_spec b
      exact ⟨⟨a.1, b.1⟩, a.2.trans b.2⟩) _ _ _ w2.le h
  have w := w1.trans (w2.trans w3)
  have hat := w.at_
  have hpos := w.pos
  rw [← List.append_nil (own sys e.satN |>.flatMap _)] at hat
  obtain ⟨r1, hat⟩ := stepU f1 hat
  rw [Int.toNat_natCast] at r1
  simp only [Nat.reduceAdd] at hat
  generalize hd1 : ({ d with msgtype := e.msgtype } : Dec) = d1
  obtain ⟨r2, hat⟩ := decodeHead_spec g6 f2 hat d1
  -- the state before the loop
  have hep : (headState d1 e .orbit).time = epoch d e := by subst hd1; rfl
  have ht0 : (headState d1 e .orbit).t0s .orbit = d.t0s .orbit := by subst hd1; rfl
  generalize hd2 : (if timediff (headState d1 e .orbit).time ((headState d1 e .orbit).t0s .orbit) > 0 then
      { headState d1 e .orbit with nsatN := 0, sysN := [], satN := [], iode := some [], dorb := some [], ddorb := some [] }
    else headState d1 e .orbit) = d2
  have k2 : d2.msgtype = e.msgtype ∧ d2.iode.isSome ∧ d2.dorb.isSome ∧ d2.ddorb.isSome ∧
      d2.pid = e.pid.toNat ∧ d2.sid = e.sid.toNat ∧ d2.datum = e.datum.toNat ∧ d2.tow = e.tow.toNat ∧
      (if timediff (epoch d e) (d.t0s .orbit) > 0 then
        d2.iode = some [] ∧ d2.dorb = some [] ∧ d2.ddorb = some [] ∧ d2.satN = []
       else d2.iode = d.iode ∧ d2.dorb = d.dorb ∧ d2.ddorb = d.ddorb ∧ d2.satN = d.satN) := by
    rw [← hd2, hep, ht0]
    by_cases c : timediff (epoch d e) (d.t0s .orbit) > 0
    · rw [if_pos c, if_pos c]
      subst hd1
      exact ⟨rfl, rfl, rfl, rfl, rfl, rfl, rfl, rfl, rfl, rfl, rfl, rfl⟩
    · rw [if_neg c, if_neg c]
      have hn := hnew.resolve_left c
      subst hd1
      exact ⟨rfl, hn.1, hn.2.1, hn.2.2, rfl, rfl, rfl, rfl, rfl, rfl, rfl, rfl⟩
  generalize hd3 : ({ d2 with
    iodssr := e.iodssr.toNat
    udi := fun c => if c = .orbit then (e.udi .orbit).toNat else d2.udi c
    mi := e.mi } : Dec) = d3
  obtain ⟨k21, k22, k23, k24, k25, k26, k27, k28, k29⟩ := k2
  have L := orb_loop g5 g6 g7 g8 (own sys e.satN) d3 _ []
    (fun s hs => ⟨by have := (List.mem_filter.1 hs).2; simpa using this, f3 s hs⟩) hat
    (by subst hd3; exact k21) (by subst hd3; exact k22) (by subst hd3; exact k23) (by subst hd3; exact k24)
  obtain ⟨l1, l2, l3, l4⟩ := orbPut_fold e (own sys e.satN) d3
    (by subst hd3; exact k22) (by subst hd3; exact k23) (by subst hd3; exact k24)
  generalize (own sys e.satN).foldl (orbPut e) d3 = d4 at L l1 l2 l3 l4
  refine ⟨{ d4 with
    nsatN := d4.nsatN + (own sys e.satN).length
    sysN := d4.sysN ++ List.replicate (own sys e.satN).length sys
    iodssrC := fun c => if c = .orbit then e.iodssr.toNat else d4.iodssrC c
    t0s := fun c => if c = .orbit then d4.time else d4.t0s c }, ?_, ?_, ?_, ?_⟩
  · unfold decode
    rw [r1, Py.okBind]
    simp only
    rw [g4]
    simp only
    unfold decodeCssrOrb
    rw [hd1]
    have hmt : d1.msgtype = e.msgtype := by subst hd1; rfl
    rw [hmt, g2, Py.okBind, r2, Py.okBind]
    simp only
    rw [hd2]
    have hudi : (e.udi Sub.orbit.sc) = e.udi .orbit := rfl
    rw [hudi, hd3, L, Py.okBind]
    have hpos' : p.2 = 36 + (headBits e .orbit sys).length +
        ((own sys e.satN).flatMap fun s => satBits e s ++ orbBits e s).length := by
      rw [hpos, List.length_append, List.length_append, ub_length]
      omega
    rw [hpos']
    rfl
  · have hi := f2.iodssr.1
    have hp := f2.pid.1
    have hs := f2.sid.1
    have hdt := (f2.datum (Or.inl rfl)).1
    have hu := f2.udi.1
    have ht := f2.tow.1
    simp only
    rw [l4]
    subst hd3
    simp only [k25, k26, k27, k28, if_true]
    refine ⟨Int.toNat_of_nonneg hi, Int.toNat_of_nonneg hp, Int.toNat_of_nonneg hs,
      Int.toNat_of_nonneg hdt, trivial, Int.toNat_of_nonneg hu, Int.toNat_of_nonneg ht⟩
  · simp only
    rw [l4]
    subst hd3
    simp only
    by_cases c : timediff (epoch d e) (d.t0s .orbit) > 0
    · rw [if_pos c] at k29 ⊢
      rw [k29.2.2.2]; rfl
    · rw [if_neg c] at k29 ⊢
      rw [k29.2.2.2]; rfl
  · intro s
    simp only
    have hmem : s ∈ own sys e.satN ↔ s ∈ e.satN ∧ (sat2prn s).1 = sys := by
      unfold own; rw [List.mem_filter]; simp
    by_cases c : s ∈ e.satN ∧ (sat2prn s).1 = sys
    · rw [if_pos c]
      have hin := hmem.2 c
      have fo := (f3 s hin).2
      rw [l1 s, l2 s, l3 s, if_pos hin, if_pos hin, if_pos hin]
      obtain ⟨io, hio⟩ := Option.isSome_iff_exists.1 fo.iodeIn
      obtain ⟨o, ho⟩ := Option.isSome_iff_exists.1 fo.dorbIn
      have ei : iodeOf e s = io := by unfold iodeOf; rw [hio]; rfl
      have eo : dorbOf e s = o := by unfold dorbOf; rw [ho]; rfl
      refine ⟨⟨io, hio, by rw [ei], ?_⟩, ⟨o, qdorb e s, ho, rfl, ?_⟩, ⟨ddorbV e s, qddorb e s, ?_, rfl, ?_⟩⟩
      · have := fo.iode.1; rwa [ei] at this
      · rw [← eo]
        exact ⟨quant_Quant (by norm_num) fo.x, quant_Quant (by norm_num) fo.y, quant_Quant (by norm_num) fo.z⟩
      · unfold ddorbV
        cases hd : e.ddorb with
        | none => rfl
        | some m =>
          simp only
          obtain ⟨v, hv⟩ := Option.isSome_iff_exists.1 (fo.ddorbIn m hd)
          rw [hv]; rfl
      · exact ⟨quant_Quant (by norm_num) fo.vx, quant_Quant (by norm_num) fo.vy, quant_Quant (by norm_num) fo.vz⟩
    · rw [if_neg c]
      have hin : s ∉ own sys e.satN := fun h => c (hmem.1 h)
      rw [l1 s, l2 s, l3 s, if_neg hin, if_neg hin, if_neg hin]
      subst hd3
      simp only
      by_cases ct : timediff (epoch d e) (d.t0s .orbit) > 0
      · rw [if_pos ct] at k29 ⊢
        obtain ⟨a1, a2, a3, _⟩ := k29
        rw [a1, a2, a3]
        exact ⟨rfl, rfl, rfl⟩
      · rw [if_neg ct] at k29 ⊢
        obtain ⟨a1, a2, a3, _⟩ := k29
        rw [a1, a2, a3]
        exact ⟨rfl, rfl, rfl⟩

/-! ## Clock messages -/

def clkPut (e : Enc) (d : Dec) (s : Int) : Dec :=
  { d with
    dclk := d.dclk.map (·.set s (qclk e s).1)
    ddclk := d.ddclk.map (·.set s (qclk e s).2.1)
    dddclk := d.dddclk.map (·.set s (qclk e s).2.2) }

theorem clk_loop {e : Enc} {sys : Sys} (hs : sys ≠ .none) (hg : sys ≠ .glo) (hb : sys ≠ .sbs)
    (h76 : e.msgtype ≠ 4076) {b : BitBuf} : ∀ (l : List Int) (d : Dec) (i : Nat) (m : List Bool),
    (∀ s ∈ l, (sat2prn s).1 = sys ∧ SatFit e s ∧ ClkFit e s) →
    At b i (l.flatMap (fun s => satBits e s ++ clkBits e s) ++ m) → d.msgtype = e.msgtype →
    d.dclk.isSome → d.ddclk.isSome → d.dddclk.isSome →
    times l.length (clkStep sys b) (d, i) =
      .ok (l.foldl (clkPut e) d, i + (l.flatMap (fun s => satBits e s ++ clkBits e s)).length)
  | [], d, i, m, _, _, _, _, _, _ => rfl
  | s :: l, d, i, m, hl, hat, hm, h1, h2, h3 => by
    obtain ⟨hsys, f1, f2⟩ := hl s (by simp)
    rw [List.flatMap_cons, List.append_assoc, List.append_assoc] at hat
    obtain ⟨r1, hat⟩ := decodeSat_spec hsys hs hg hb h76 f1 hat
    obtain ⟨r2, hat⟩ := decodeClkSat_spec f2 hat
    obtain ⟨m1, e1⟩ := Option.isSome_iff_exists.1 h1
    obtain ⟨m2, e2⟩ := Option.isSome_iff_exists.1 h2
    obtain ⟨m3, e3⟩ := Option.isSome_iff_exists.1 h3
    have step : clkStep sys b (d, i) = .ok (clkPut e d s, i + (satBits e s).length + (clkBits e s).length) := by
      unfold clkStep
      simp only
      rw [hm, r1]
      simp only [Py.okBind]
      rw [r2]
      simp only [Py.okBind, e1, e2, e3, setOpt]
      unfold clkPut
      simp only [e1, e2, e3, hm]
      rfl
    rw [List.length_cons, times_succ, step, Py.okBind,
      clk_loop hs hg hb h76 l (clkPut e d s) _ m (fun s' h => hl s' (by simp [h])) hat hm
        (by simp [clkPut, e1]) (by simp [clkPut, e2]) (by simp [clkPut, e3])]
    rw [List.foldl_cons, List.flatMap_cons, List.length_append, List.length_append]
    congr 2
    omega

theorem clkPut_fold (e : Enc) : ∀ (l : List Int) (d : Dec), d.dclk.isSome → d.ddclk.isSome → d.dddclk.isSome →
    (∀ s, look (l.foldl (clkPut e) d).dclk s = if s ∈ l then some (qclk e s).1 else look d.dclk s) ∧
    (∀ s, look (l.foldl (clkPut e) d).ddclk s = if s ∈ l then some (qclk e s).2.1 else look d.ddclk s) ∧
    (∀ s, look (l.foldl (clkPut e) d).dddclk s = if s ∈ l then some (qclk e s).2.2 else look d.dddclk s) ∧
    l.foldl (clkPut e) d = { d with
      dclk := (l.foldl (clkPut e) d).dclk
      ddclk := (l.foldl (clkPut e) d).ddclk
      dddclk := (l.foldl (clkPut e) d).dddclk }
  | [], d, _, _, _ => by simp
  | a :: l, d, h1, h2, h3 => by
    obtain ⟨m1, e1⟩ := Option.isSome_iff_exists.1 h1
    obtain ⟨m2, e2⟩ := Option.isSome_iff_exists.1 h2
    obtain ⟨m3, e3⟩ := Option.isSome_iff_exists.1 h3
    obtain ⟨i1, i2, i3, i4⟩ := clkPut_fold e l (clkPut e d a) (by simp [clkPut, e1])
      (by simp [clkPut, e2]) (by simp [clkPut, e3])
    rw [List.foldl_cons]
    refine ⟨fun s => ?_, fun s => ?_, fun s => ?_, ?_⟩
    · rw [i1 s]
      by_cases c : s ∈ l
      · rw [if_pos c, if_pos (by simp [c])]
      · rw [if_neg c]
        by_cases c' : s = a
        · subst c'
          simp [clkPut, look, e1]
        · rw [if_neg (by simp [c, c'])]
          simp [clkPut, look, e1, Dict.get?_set_ne _ _ c']
    · rw [i2 s]
      by_cases c : s ∈ l
      · rw [if_pos c, if_pos (by simp [c])]
      · rw [if_neg c]
        by_cases c' : s = a
        · subst c'
          simp [clkPut, look, e2]
        · rw [if_neg (by simp [c, c'])]
          simp [clkPut, look, e2, Dict.get?_set_ne _ _ c']
    · rw [i3 s]
      by_cases c : s ∈ l
      · rw [if_pos c, if_pos (by simp [c])]
      · rw [if_neg c]
        by_cases c' : s = a
        · subst c'
          simp [clkPut, look, e3]
        · rw [if_neg (by simp [c, c'])]
          simp [clkPut, look, e3, Dict.get?_set_ne _ _ c']
    · conv_lhs => rw [i4]
      simp only [clkPut]

/-- constellations of the clock messages the encoder offers, GLONASS (42) apart -/
def clkSys : Nat → Option Sys
  | 1058 => some .gps | 65 => some .gal | 66 => some .bds | 67 => some .qzs | _ => none

theorem clkSys_spec {m : Nat} {sys : Sys} (h : clkSys m = some sys) :
    getSsrSys .none m = .ok sys ∧ (∀ r, getSsrSys r m = .ok sys) ∧ encKind m = some .clk ∧
    decKind m = some .clk ∧ sys ≠ .none ∧ sys ≠ .glo ∧ sys ≠ .sbs ∧ m ≠ 4076 := by
  unfold clkSys at h
  split at h
  · cases h
    refine ⟨by decide, fun r => by cases r <;> decide, by decide, by decide, by decide, by decide, by decide, by decide⟩
  · cases h
    refine ⟨by decide, fun r => by cases r <;> decide, by decide, by decide, by decide, by decide, by decide, by decide⟩
  · cases h
    refine ⟨by decide, fun r => by cases r <;> decide, by decide, by decide, by decide, by decide, by decide, by decide⟩
  · cases h
    refine ⟨by decide, fun r => by cases r <;> decide, by decide, by decide, by decide, by decide, by decide, by decide⟩
  · cases h

/-- **Clock message round trip.** -/
theorem clock_round_trip {qi : ℚ → Int × Int} {e : Enc} {sys : Sys} {b : BitBuf} {p : Pos} {d : Dec}
    (hm : clkSys e.msgtype = some sys) (hb : 36 ≤ b.length) (h : encode qi e b = .ok p)
    (hnew : timediff (epoch d e) (d.t0s .clock) > 0 ∨
      (d.dclk.isSome ∧ d.ddclk.isSome ∧ d.dddclk.isSome)) :
    ∃ d', decode d p.1 = .ok (some (d', p.2)) ∧
      (d'.iodssr = e.iodssr ∧ d'.pid = e.pid ∧ d'.sid = e.sid ∧ d'.mi = e.mi ∧
        d'.udi .clock = e.udi .clock ∧ d'.tow = e.tow) ∧
      ∀ s, if s ∈ e.satN ∧ (sat2prn s).1 = sys then
          ∃ c0 c1 c2 c0' c1' c2', Dict.get? e.dclk s = some c0 ∧
            (match e.ddclk with
              | none => some (some 0, some 0)
              | some m => (Dict.get? m s).bind fun a => (Dict.get? e.dddclk s).map fun b => (a, b)) =
                some (c1, c2) ∧
            look d'.dclk s = some c0' ∧ look d'.ddclk s = some c1' ∧ look d'.dddclk s = some c2' ∧
            QClk (c0, c1, c2) (c0', c1', c2')
        else if timediff (epoch d e) (d.t0s .clock) > 0 then
          look d'.dclk s = none ∧ look d'.ddclk s = none ∧ look d'.dddclk s = none
        else look d'.dclk s = look d.dclk s ∧ look d'.ddclk s = look d.ddclk s ∧
          look d'.dddclk s = look d.dddclk s := by
  obtain ⟨g1, g2, g3, g4, g5, g6, g7, g8⟩ := clkSys_spec hm
  unfold encode at h
  obtain ⟨p1, h1, h⟩ := Py.bind_ok.1 h
  obtain ⟨f1, w1⟩ := putU_spec h1
  rw [g3] at h
  simp only at h
  unfold encodeCssrClk encSys at h
  rw [if_neg g8, g1, Py.okBind] at h
  obtain ⟨p2, h2, h⟩ := Py.bind_ok.1 h
  obtain ⟨f2, w2⟩ := encodeHead_spec w1.le h2
  obtain ⟨f3, w3⟩ := loop_wr (P := fun s => SatFit e s ∧ ClkFit e s)
    (bits := fun s => satBits e s ++ clkBits e s)
    (fun s p p' h => by
      obtain ⟨q, a, b⟩ := Py.bind_ok.1 h
      have a := encodeSat_spec a
      have b := encodeClkSat_spec b
      exact ⟨⟨a.1, b.1⟩, a.2.trans b.2⟩) _ _ _ w2.le h
  have w := w1.trans (w2.trans w3)
  have hat := w.at_
  have hpos := w.pos
  rw [← List.append_nil (own sys e.satN |>.flatMap _)] at hat
  obtain ⟨r1, hat⟩ := stepU f1 hat
  rw [Int.toNat_natCast] at r1
  simp only [Nat.reduceAdd] at hat
  generalize hd1 : ({ d with msgtype := e.msgtype } : Dec) = d1
  obtain ⟨r2, hat⟩ := decodeHead_spec g6 f2 hat d1
  have hep : (headState d1 e .clock).time = epoch d e := by subst hd1; rfl
  have ht0 : (headState d1 e .clock).t0s .clock = d.t0s .clock := by subst hd1; rfl
  generalize hd2 : (if timediff (headState d1 e .clock).time ((headState d1 e .clock).t0s .clock) > 0 then
      { headState d1 e .clock with dclk := some [], ddclk := some [], dddclk := some [] }
    else headState d1 e .clock) = d2
  have k2 : d2.msgtype = e.msgtype ∧ d2.dclk.isSome ∧ d2.ddclk.isSome ∧ d2.dddclk.isSome ∧
      d2.pid = e.pid.toNat ∧ d2.sid = e.sid.toNat ∧ d2.tow = e.tow.toNat ∧
      (if timediff (epoch d e) (d.t0s .clock) > 0 then
        d2.dclk = some [] ∧ d2.ddclk = some [] ∧ d2.dddclk = some []
       else d2.dclk = d.dclk ∧ d2.ddclk = d.ddclk ∧ d2.dddclk = d.dddclk) := by
    rw [← hd2, hep, ht0]
    by_cases c : timediff (epoch d e) (d.t0s .clock) > 0
    · rw [if_pos c, if_pos c]
      subst hd1
      exact ⟨rfl, rfl, rfl, rfl, rfl, rfl, rfl, rfl, rfl, rfl⟩
    · rw [if_neg c, if_neg c]
      have hn := hnew.resolve_left c
      subst hd1
      exact ⟨rfl, hn.1, hn.2.1, hn.2.2, rfl, rfl, rfl, rfl, rfl, rfl⟩
  generalize hd3 : ({ d2 with
    dclkN := some (own sys e.satN).length
    iodssr := e.iodssr.toNat
    udi := fun c => if c = .clock then (e.udi .clock).toNat else d2.udi c
    mi := e.mi } : Dec) = d3
  obtain ⟨k21, k22, k23, k24, k25, k26, k28, k29⟩ := k2
  have L := clk_loop g5 g6 g7 g8 (own sys e.satN) d3 _ []
    (fun s hs => ⟨by have := (List.mem_filter.1 hs).2; simpa using this, f3 s hs⟩) hat
    (by subst hd3; exact k21) (by subst hd3; exact k22) (by subst hd3; exact k23) (by subst hd3; exact k24)
  obtain ⟨l1, l2, l3, l4⟩ := clkPut_fold e (own sys e.satN) d3
    (by subst hd3; exact k22) (by subst hd3; exact k23) (by subst hd3; exact k24)
  generalize (own sys e.satN).foldl (clkPut e) d3 = d4 at L l1 l2 l3 l4
  refine ⟨{ d4 with
    iodssrC := fun c => if c = .clock then e.iodssr.toNat else d4.iodssrC c
    t0s := fun c => if c = .clock then d4.time else d4.t0s c }, ?_, ?_, ?_⟩
  · unfold decode
    rw [r1, Py.okBind]
    simp only
    rw [g4]
    simp only
    unfold decodeCssrClk
    rw [hd1]
    have hmt : d1.msgtype = e.msgtype := by subst hd1; rfl
    rw [hmt, g2, Py.okBind, r2, Py.okBind]
    simp only
    rw [hd2]
    have hudi : (e.udi Sub.clock.sc) = e.udi .clock := rfl
    rw [hudi, hd3, L, Py.okBind]
    have hpos' : p.2 = 36 + (headBits e .clock sys).length +
        ((own sys e.satN).flatMap fun s => satBits e s ++ clkBits e s).length := by
      rw [hpos, List.length_append, List.length_append, ub_length]
      omega
    rw [hpos']
    rfl
  · have hi := f2.iodssr.1
    have hp := f2.pid.1
    have hs := f2.sid.1
    have hu := f2.udi.1
    have ht := f2.tow.1
    simp only
    rw [l4]
    subst hd3
    simp only [k25, k26, k28, if_true]
    refine ⟨Int.toNat_of_nonneg hi, Int.toNat_of_nonneg hp, Int.toNat_of_nonneg hs,
      trivial, Int.toNat_of_nonneg hu, Int.toNat_of_nonneg ht⟩
  · intro s
    simp only
    have hmem : s ∈ own sys e.satN ↔ s ∈ e.satN ∧ (sat2prn s).1 = sys := by
      unfold own; rw [List.mem_filter]; simp
    by_cases c : s ∈ e.satN ∧ (sat2prn s).1 = sys
    · rw [if_pos c]
      have hin := hmem.2 c
      have fo := (f3 s hin).2
      rw [l1 s, l2 s, l3 s, if_pos hin, if_pos hin, if_pos hin]
      obtain ⟨c0, hc0⟩ := Option.isSome_iff_exists.1 fo.dclkIn
      have e0 : dclkOf e s = c0 := by unfold dclkOf; rw [hc0]; rfl
      refine ⟨c0, (ddclkV e s).1, (ddclkV e s).2, _, _, _, hc0, ?_, rfl, rfl, rfl, ?_⟩
      · unfold ddclkV
        cases hd : e.ddclk with
        | none => rfl
        | some m =>
          simp only
          obtain ⟨v, hv⟩ := Option.isSome_iff_exists.1 (fo.ddclkIn m hd).1
          obtain ⟨v', hv'⟩ := Option.isSome_iff_exists.1 (fo.ddclkIn m hd).2
          rw [hv, hv']; rfl
      · have f0 := fo.c0
        rw [e0] at f0
        refine ⟨?_, quant_Quant (by norm_num) fo.c1, quant_Quant (by norm_num) fo.c2⟩
        unfold qclk
        rw [e0]
        exact quant_Quant (by norm_num) f0
    · rw [if_neg c]
      have hin : s ∉ own sys e.satN := fun h => c (hmem.1 h)
      rw [l1 s, l2 s, l3 s, if_neg hin, if_neg hin, if_neg hin]
      subst hd3
      simp only
      by_cases ct : timediff (epoch d e) (d.t0s .clock) > 0
      · rw [if_pos ct] at k29 ⊢
        obtain ⟨a1, a2, a3⟩ := k29
        rw [a1, a2, a3]
        exact ⟨rfl, rfl, rfl⟩
      · rw [if_neg ct] at k29 ⊢
        obtain ⟨a1, a2, a3⟩ := k29
        rw [a1, a2, a3]
        exact ⟨rfl, rfl, rfl⟩

/-! ## URA messages -/

/-- the index pair written for a satellite -/
def idxOf (qi : ℚ → Int × Int) : Val → Int × Int
  | none => (0, 0)
  | some y => qi y

def uraIdx (qi : ℚ → Int × Int) (e : Enc) (s : Int) : Int × Int :=
  idxOf qi ((Dict.get? e.ura s).getD none)

def uraBits (qi : ℚ → Int × Int) (e : Enc) (s : Int) : List Bool :=
  satBits e s ++ (ub 3 (uraIdx qi e s).1 ++ ub 3 (uraIdx qi e s).2)

def UraFit (qi : ℚ → Int × Int) (e : Enc) (s : Int) : Prop :=
  SatFit e s ∧ FitU 3 (uraIdx qi e s).1 ∧ FitU 3 (uraIdx qi e s).2

theorem encodeUraSat_spec {qi : ℚ → Int × Int} {e : Enc} {s : Int} {p p' : Pos}
    (h : encodeUraSat qi e s p = .ok p') : UraFit qi e s ∧ Wr p p' (uraBits qi e s) := by
  unfold encodeUraSat at h
  obtain ⟨p1, h1, h⟩ := Py.bind_ok.1 h
  obtain ⟨y, h2, h⟩ := Py.bind_ok.1 h
  obtain ⟨p3, h3, h4⟩ := Py.bind_ok.1 h
  rw [Dict.getItem_ok_iff] at h2
  have ey : uraIdx qi e s = idxOf qi y := by
    unfold uraIdx; rw [h2]; rfl
  have h3 : putU p1 3 (idxOf qi y).1 = .ok p3 := h3
  have h4 : putU p3 3 (idxOf qi y).2 = .ok p' := h4
  rw [← ey] at h3 h4
  have s1 := encodeSat_spec h1
  have s3 := putU_spec h3
  have s4 := putU_spec h4
  exact ⟨⟨s1.1, s3.1, s4.1⟩, s1.2.trans (s3.2.trans s4.2)⟩

def uraVal (qi : ℚ → Int × Int) (e : Enc) (s : Int) : Val :=
  qualityIdx (uraIdx qi e s).1.toNat (uraIdx qi e s).2.toNat

def uraPut (qi : ℚ → Int × Int) (e : Enc) (d : Dec) (s : Int) : Dec :=
  { d with ura := d.ura.map (·.set s (uraVal qi e s)) }

theorem ura_loop {qi : ℚ → Int × Int} {e : Enc} {sys : Sys} (hs : sys ≠ .none) (hg : sys ≠ .glo)
    (hb : sys ≠ .sbs) (h76 : e.msgtype ≠ 4076) {b : BitBuf} :
    ∀ (l : List Int) (d : Dec) (i : Nat) (m : List Bool),
    (∀ s ∈ l, (sat2prn s).1 = sys ∧ UraFit qi e s) →
    At b i (l.flatMap (uraBits qi e) ++ m) → d.msgtype = e.msgtype → d.ura.isSome →
    times l.length (uraStep sys b) (d, i) =
      .ok (l.foldl (uraPut qi e) d, i + (l.flatMap (uraBits qi e)).length)
  | [], d, i, m, _, _, _, _ => rfl
  | s :: l, d, i, m, hl, hat, hm, h1 => by
    obtain ⟨hsys, f1, f2, f3⟩ := hl s (by simp)
    rw [List.flatMap_cons, List.append_assoc] at hat
    have hat' := hat.tail
    unfold uraBits at hat
    rw [List.append_assoc, List.append_assoc] at hat
    obtain ⟨r1, hat⟩ := decodeSat_spec hsys hs hg hb h76 f1 hat
    obtain ⟨r2, hat⟩ := stepU f2 hat
    obtain ⟨r3, hat⟩ := stepU f3 hat
    obtain ⟨m1, e1⟩ := Option.isSome_iff_exists.1 h1
    have hlen : (uraBits qi e s).length = (satBits e s).length + 6 := by
      unfold uraBits; simp only [List.length_append, ub_length]
    have step : uraStep sys b (d, i) = .ok (uraPut qi e d s, i + (uraBits qi e s).length) := by
      unfold uraStep
      simp only
      rw [hm, r1]
      simp only [Py.okBind]
      rw [r2]
      simp only [Py.okBind]
      rw [r3]
      simp only [Py.okBind, e1, setOpt]
      unfold uraPut
      simp only [e1, hm, hlen, ← Nat.add_assoc]
      rfl
    rw [List.length_cons, times_succ, step, Py.okBind,
      ura_loop hs hg hb h76 l (uraPut qi e d s) _ m (fun s' h => hl s' (by simp [h])) hat' hm
        (by simp [uraPut, e1])]
    rw [List.foldl_cons, List.flatMap_cons, List.length_append]
    congr 2
    omega

theorem uraPut_fold (qi : ℚ → Int × Int) (e : Enc) : ∀ (l : List Int) (d : Dec), d.ura.isSome →
    (∀ s, look (l.foldl (uraPut qi e) d).ura s = if s ∈ l then some (uraVal qi e s) else look d.ura s) ∧
    l.foldl (uraPut qi e) d = { d with ura := (l.foldl (uraPut qi e) d).ura }
  | [], d, _ => by simp
  | a :: l, d, h1 => by
    obtain ⟨m1, e1⟩ := Option.isSome_iff_exists.1 h1
    obtain ⟨i1, i4⟩ := uraPut_fold qi e l (uraPut qi e d a) (by simp [uraPut, e1])
    rw [List.foldl_cons]
    refine ⟨fun s => ?_, ?_⟩
    · rw [i1 s]
      by_cases c : s ∈ l
      · rw [if_pos c, if_pos (by simp [c])]
      · rw [if_neg c]
        by_cases c' : s = a
        · subst c'
          simp [uraPut, look, e1]
        · rw [if_neg (by simp [c, c'])]
          simp [uraPut, look, e1, Dict.get?_set_ne _ _ c']
    · conv_lhs => rw [i4]
      simp only [uraPut]

/-- constellations of the URA messages the encoder offers, GLONASS (45) apart -/
def uraSys : Nat → Option Sys
  | 1061 => some .gps | 74 => some .gal | 75 => some .bds | 76 => some .qzs | _ => none

theorem uraSys_spec {m : Nat} {sys : Sys} (h : uraSys m = some sys) :
    getSsrSys .none m = .ok sys ∧ (∀ r, getSsrSys r m = .ok sys) ∧ encKind m = some .ura ∧
    decKind m = some .ura ∧ sys ≠ .none ∧ sys ≠ .glo ∧ sys ≠ .sbs ∧ m ≠ 4076 := by
  unfold uraSys at h
  split at h
  · cases h
    refine ⟨by decide, fun r => by cases r <;> decide, by decide, by decide, by decide, by decide, by decide, by decide⟩
  · cases h
    refine ⟨by decide, fun r => by cases r <;> decide, by decide, by decide, by decide, by decide, by decide, by decide⟩
  · cases h
    refine ⟨by decide, fun r => by cases r <;> decide, by decide, by decide, by decide, by decide, by decide, by decide⟩
  · cases h
    refine ⟨by decide, fun r => by cases r <;> decide, by decide, by decide, by decide, by decide, by decide, by decide⟩
  · cases h

/-- **URA message round trip**: the index pair (class, value) comes back, turned into metres.  The
header counts the satellites of the corrections list while the records are those of the URA
dictionary: the two must be equally many (of the constellation). -/
theorem ura_round_trip {qi : ℚ → Int × Int} {e : Enc} {sys : Sys} {b : BitBuf} {p : Pos} {d : Dec}
    (hm : uraSys e.msgtype = some sys) (hb : 36 ≤ b.length) (h : encode qi e b = .ok p)
    (hcnt : (e.satN.filter fun s => (sat2prn s).1 = sys).length =
      ((e.ura.map (·.1)).filter fun s => (sat2prn s).1 = sys).length)
    (hnew : timediff (epoch d e) (d.t0s .ura) > 0 ∨ d.ura.isSome) :
    ∃ d', decode d p.1 = .ok (some (d', p.2)) ∧ d'.iodssr = e.iodssr ∧
      ∀ s, if (Dict.get? e.ura s).isSome ∧ (sat2prn s).1 = sys then
          ∃ (y : Val) (c v : Nat), Dict.get? e.ura s = some y ∧ ((c : Int), (v : Int)) = idxOf qi y ∧
            look d'.ura s = some (qualityIdx c v)
        else if timediff (epoch d e) (d.t0s .ura) > 0 then look d'.ura s = none
        else look d'.ura s = look d.ura s := by
  obtain ⟨g1, g2, g3, g4, g5, g6, g7, g8⟩ := uraSys_spec hm
  unfold encode at h
  obtain ⟨p1, h1, h⟩ := Py.bind_ok.1 h
  obtain ⟨f1, w1⟩ := putU_spec h1
  rw [g3] at h
  simp only at h
  unfold encodeCssrUra encSys at h
  rw [if_neg g8, g1, Py.okBind] at h
  obtain ⟨p2, h2, h⟩ := Py.bind_ok.1 h
  obtain ⟨f2, w2⟩ := encodeHead_spec w1.le h2
  obtain ⟨f3, w3⟩ := loop_wr (P := UraFit qi e) (bits := uraBits qi e)
    (fun s p p' h => encodeUraSat_spec h) _ _ _ w2.le h
  have w := w1.trans (w2.trans w3)
  have hat := w.at_
  have hpos := w.pos
  generalize hl0 : own sys (e.ura.map (·.1)) = l0 at *
  have hcnt' : (own sys e.satN).length = l0.length := by rw [← hl0]; exact hcnt
  rw [← List.append_nil (l0.flatMap _)] at hat
  obtain ⟨r1, hat⟩ := stepU f1 hat
  rw [Int.toNat_natCast] at r1
  simp only [Nat.reduceAdd] at hat
  generalize hd1 : ({ d with msgtype := e.msgtype } : Dec) = d1
  obtain ⟨r2, hat⟩ := decodeHead_spec g6 f2 hat d1
  have hep : (headState d1 e .ura).time = epoch d e := by subst hd1; rfl
  have ht0 : (headState d1 e .ura).t0s .ura = d.t0s .ura := by subst hd1; rfl
  generalize hd2 : (if timediff (headState d1 e .ura).time ((headState d1 e .ura).t0s .ura) > 0 then
      { headState d1 e .ura with ura := some [] } else headState d1 e .ura) = d2
  have k2 : d2.msgtype = e.msgtype ∧ d2.ura.isSome ∧
      (if timediff (epoch d e) (d.t0s .ura) > 0 then d2.ura = some [] else d2.ura = d.ura) := by
    rw [← hd2, hep, ht0]
    by_cases c : timediff (epoch d e) (d.t0s .ura) > 0
    · rw [if_pos c, if_pos c]
      subst hd1
      exact ⟨rfl, rfl, rfl⟩
    · rw [if_neg c, if_neg c]
      have hn := hnew.resolve_left c
      subst hd1
      exact ⟨rfl, hn, rfl⟩
  generalize hd3 : ({ d2 with
    iodssr := e.iodssr.toNat
    udi := fun c => if c = .ura then (e.udi .ura).toNat else d2.udi c
    mi := e.mi } : Dec) = d3
  obtain ⟨k21, k22, k29⟩ := k2
  have L := ura_loop g5 g6 g7 g8 l0 d3 _ []
    (fun s hs => ⟨by rw [← hl0] at hs; have := (List.mem_filter.1 hs).2; simpa using this, f3 s hs⟩) hat
    (by subst hd3; exact k21) (by subst hd3; exact k22)
  obtain ⟨l1, l4⟩ := uraPut_fold qi e l0 d3 (by subst hd3; exact k22)
  generalize l0.foldl (uraPut qi e) d3 = d4 at L l1 l4
  refine ⟨{ d4 with
    iodssrC := fun c => if c = .ura then e.iodssr.toNat else d4.iodssrC c
    t0s := fun c => if c = .ura then d4.time else d4.t0s c }, ?_, ?_, ?_⟩
  · unfold decode
    rw [r1, Py.okBind]
    simp only
    rw [g4]
    simp only
    unfold decodeCssrUra
    rw [hd1]
    have hmt : d1.msgtype = e.msgtype := by subst hd1; rfl
    rw [hmt, g2, Py.okBind, r2, Py.okBind]
    simp only
    rw [hd2]
    have hudi : (e.udi Sub.ura.sc) = e.udi .ura := rfl
    rw [hudi, hd3, hcnt', L, Py.okBind]
    have hpos' : p.2 = 36 + (headBits e .ura sys).length + (l0.flatMap (uraBits qi e)).length := by
      rw [hpos, List.length_append, List.length_append, ub_length]
      omega
    rw [hpos']
    rfl
  · simp only
    rw [l4]
    subst hd3
    exact Int.toNat_of_nonneg f2.iodssr.1
  · intro s
    simp only
    have hkey : s ∈ e.ura.map (·.1) ↔ (Dict.get? e.ura s).isSome := by
      unfold Dict.get?
      rw [Option.isSome_map, List.find?_isSome, List.mem_map]
      simp only [decide_eq_true_eq]
    have hmem : s ∈ l0 ↔ (Dict.get? e.ura s).isSome ∧ (sat2prn s).1 = sys := by
      rw [← hl0]; unfold own; rw [List.mem_filter, hkey]; simp
    by_cases c : (Dict.get? e.ura s).isSome ∧ (sat2prn s).1 = sys
    · rw [if_pos c]
      have hin := hmem.2 c
      have fo := f3 s hin
      rw [l1 s, if_pos hin]
      obtain ⟨y, hy⟩ := Option.isSome_iff_exists.1 c.1
      refine ⟨y, (uraIdx qi e s).1.toNat, (uraIdx qi e s).2.toNat, hy, ?_, rfl⟩
      have ey : uraIdx qi e s = idxOf qi y := by
        unfold uraIdx; rw [hy]; rfl
      rw [← ey, Int.toNat_of_nonneg fo.2.1.1, Int.toNat_of_nonneg fo.2.2.1]
    · rw [if_neg c]
      have hin : s ∉ l0 := fun h => c (hmem.1 h)
      rw [l1 s, if_neg hin]
      subst hd3
      simp only
      by_cases ct : timediff (epoch d e) (d.t0s .ura) > 0
      · rw [if_pos ct] at k29 ⊢
        rw [k29]; rfl
      · rw [if_neg ct] at k29 ⊢
        rw [k29]

/-! ## Combined and high-rate clock records -/

/-- the message-level encoders for combined and high-rate clock messages do not exist: a call
raises -/
theorem no_combined_encoder (qi : ℚ → Int × Int) (e : Enc) (b : BitBuf)
    (h : e.msgtype ∈ [1060, 44, 71, 72, 73, 1062, 46, 77, 78, 79]) :
    ∀ p, encode qi e b ≠ .ok p := by
  intro p hp
  unfold encode at hp
  obtain ⟨q, _, h2⟩ := Py.bind_ok.1 hp
  have : ∀ m ∈ [1060, 44, 71, 72, 73, 1062, 46, 77, 78, 79],
      encKind m = some .comb ∨ encKind m = some .hclk := by decide +kernel
  rcases this _ h with e1 | e1
  · rw [e1] at h2; cases h2
  · rw [e1] at h2; cases h2

/-- one combined record, written with the record encoders, is read back -/
theorem combined_record {e : Enc} {s : Int} {sys : Sys} {p p1 p2 p3 : Pos} {d : Dec}
    (hsys : (sat2prn s).1 = sys) (hs : sys ≠ .none) (hg : sys ≠ .glo) (hb : sys ≠ .sbs)
    (h76 : e.msgtype ≠ 4076) (hm : d.msgtype = e.msgtype)
    (h1 : encodeSat e s p = .ok p1) (h2 : encodeOrbSat e s p1 = .ok p2) (h3 : encodeClkSat e s p2 = .ok p3)
    (k : d.iode.isSome ∧ d.dorb.isSome ∧ d.ddorb.isSome ∧ d.dclk.isSome ∧ d.ddclk.isSome ∧ d.dddclk.isSome) :
    ∃ d', combStep sys p3.1 (d, p.2) = .ok (d', p3.2) ∧ d'.satN = d.satN ++ [s] ∧
      look d'.iode s = some (iodeOf e s).toNat ∧
      (∃ o', look d'.dorb s = some o' ∧ QOrb (dorbOf e s) o') ∧
      (∃ v', look d'.ddorb s = some v' ∧ QVel (ddorbV e s) v') ∧
      ∃ c0 c1 c2, look d'.dclk s = some c0 ∧ look d'.ddclk s = some c1 ∧ look d'.dddclk s = some c2 ∧
        QClk (dclkOf e s, ddclkV e s) (c0, c1, c2) := by
  obtain ⟨f1, w1⟩ := encodeSat_spec h1
  obtain ⟨f2, w2⟩ := encodeOrbSat_spec h2
  obtain ⟨f3, w3⟩ := encodeClkSat_spec h3
  have w := w1.trans (w2.trans w3)
  have hat := w.at_
  have hpos := w.pos
  rw [← List.append_nil (clkBits e s)] at hat
  obtain ⟨r1, hat⟩ := decodeSat_spec hsys hs hg hb h76 f1 hat
  obtain ⟨r2, hat⟩ := decodeOrbSat_spec hsys f2 hat
  obtain ⟨r3, hat⟩ := decodeClkSat_spec f3 hat
  obtain ⟨k1, k2, k3, k4, k5, k6⟩ := k
  obtain ⟨m1, e1⟩ := Option.isSome_iff_exists.1 k1
  obtain ⟨m2, e2⟩ := Option.isSome_iff_exists.1 k2
  obtain ⟨m3, e3⟩ := Option.isSome_iff_exists.1 k3
  obtain ⟨m4, e4⟩ := Option.isSome_iff_exists.1 k4
  obtain ⟨m5, e5⟩ := Option.isSome_iff_exists.1 k5
  obtain ⟨m6, e6⟩ := Option.isSome_iff_exists.1 k6
  have hpos' : p3.2 = p.2 + (satBits e s).length + (orbBits e s).length + (clkBits e s).length := by
    rw [hpos, List.length_append, List.length_append]; omega
  refine ⟨{ d with
    satN := d.satN ++ [s], iode := some (m1.set s (iodeOf e s).toNat)
    dorb := some (m2.set s (qdorb e s)), ddorb := some (m3.set s (qddorb e s))
    dclk := some (m4.set s (qclk e s).1), ddclk := some (m5.set s (qclk e s).2.1)
    dddclk := some (m6.set s (qclk e s).2.2) }, ?_, ?_⟩
  · unfold combStep
    simp only
    rw [hm, r1]
    simp only [Py.okBind]
    rw [r2]
    simp only [Py.okBind]
    rw [r3]
    simp only [Py.okBind, e1, e2, e3, e4, e5, e6, setOpt]
    rw [hpos']
    rfl
  · refine ⟨rfl, by simp [look], ⟨qdorb e s, by simp [look], ?_⟩, ⟨qddorb e s, by simp [look], ?_⟩,
      ⟨(qclk e s).1, (qclk e s).2.1, (qclk e s).2.2, by simp [look], by simp [look], by simp [look], ?_⟩⟩
    · exact ⟨quant_Quant (by norm_num) f2.x, quant_Quant (by norm_num) f2.y, quant_Quant (by norm_num) f2.z⟩
    · exact ⟨quant_Quant (by norm_num) f2.vx, quant_Quant (by norm_num) f2.vy, quant_Quant (by norm_num) f2.vz⟩
    · exact ⟨quant_Quant (by norm_num) f3.c0, quant_Quant (by norm_num) f3.c1, quant_Quant (by norm_num) f3.c2⟩

/-- one high-rate clock record is read back when it is not beyond the satellites of the last clock
or combined message; otherwise the decoder raises -/
theorem hclk_record {e : Enc} {s : Int} {p p' : Pos} (h : encodeHclkSat e s p = .ok p') (n : Option Nat) (k : Nat) :
    match n with
    | none => decodeHclkSat n k p'.1 p.2 = .error .attributeError
    | some n' => if k < n' then
        ∃ z, decodeHclkSat n k p'.1 p.2 = .ok (p'.2, z) ∧ Quant 22 (1 / 10000) (hclkOf e s) z
      else decodeHclkSat n k p'.1 p.2 = .error .indexError := by
  obtain ⟨f, w⟩ := encodeHclkSat_spec h
  have hat := w.at_
  rw [← List.append_nil (sb 22 _)] at hat
  obtain ⟨r, _⟩ := stepS f hat
  have hp := w.pos
  rw [sb_length] at hp
  cases n with
  | none =>
    simp only
    unfold decodeHclkSat
    rw [r]; rfl
  | some n' =>
    simp only
    by_cases c : k < n'
    · rw [if_pos c]
      refine ⟨_, ?_, quant_Quant (by norm_num) f⟩
      unfold decodeHclkSat
      rw [r, Py.okBind]
      simp only
      rw [if_pos c, hp]
      rfl
    · rw [if_neg c]
      unfold decodeHclkSat
      rw [r, Py.okBind]
      simp only
      rw [if_neg c]

/-! ## Where the round trip fails -/

/-- GLONASS: the encoder writes the satellite on six bits, the decoder reads five: R02 comes back
as R01 -/
theorem glonass_misread : ∃ (e : Enc) (p p' : Pos), e.msgtype = 42 ∧
    encodeSat e (prn2sat .glo 2) p = .ok p' ∧
    decodeSat e.msgtype .glo p'.1 p.2 = .ok (p.2 + 5, prn2sat .glo 1) ∧ p'.2 = p.2 + 6 :=
  ⟨{ msgtype := 42 }, (List.replicate 8 false, 0), ([false, false, false, false, true, false, false, false], 6),
    rfl, by decide +kernel, by decide +kernel, rfl⟩

/-- the BeiDou orbit message (63) is handed to another decoder -/
theorem number_63_lost (d : Dec) (b : BitBuf) (h : readU b 24 12 = .ok 63) : decode d b = .ok none := by
  unfold decode
  rw [h, Py.okBind]
  rfl

/-- QZSS satellites from J208 on (number 16 and higher) do not fit -/
theorem qzs_overflow (e : Enc) (p : Pos) (h : e.msgtype ≠ 4076) :
    encodeSat e (prn2sat .qzs 208) p = .error .bitstruct := by
  unfold encodeSat
  simp only
  rw [if_neg h]
  have : (sat2prn (prn2sat .qzs 208)) = (.qzs, 208) := by decide
  rw [this]
  simp only [if_true]
  unfold putU
  rw [if_neg (by decide)]
  unfold writeU
  rw [if_neg (by decide)]

/-! ## A concrete message meeting the hypotheses -/

def exEnc : Enc :=
  { msgtype := 1057, tow := 345600, udi := fun _ => 2, datum := 0, iodssr := 3, pid := 7, sid := 1
    satN := [5, 40, 9]
    iode := [(5, 17), (9, 200), (40, 1)]
    dorb := [(5, (some (123 / 1000), none, some (-2 / 10))), (9, (some 1, some 2, some 3)), (40, (some 0, some 0, some 0))]
    ddorb := none }

example : orbSys exEnc.msgtype = some .gps ∧ 36 ≤ (List.replicate 400 false).length :=
  ⟨by decide, by rw [List.length_replicate]; omega⟩

/-- it encodes: two GPS satellites of 135 bits each after a 56-bit header -/
example : ∃ p, encode (fun _ => (0, 0)) exEnc (List.replicate 400 false) = .ok p ∧ p.2 = 362 := by
  have h : (match encode (fun _ => (0, 0)) exEnc (List.replicate 400 false) with
    | .ok p => decide (p.2 = 362) | _ => false) = true := by decide +kernel
  revert h
  cases encode (fun _ => (0, 0)) exEnc (List.replicate 400 false) with
  | error => intro h; cases h
  | ok p => intro h; exact ⟨p, rfl, of_decide_eq_true h⟩

end Verif.C33
