import Verif.Lemmas.Wr
import Verif.Props.C01
/-!
Bit layout of the RTCM SSR records: what the encoder writes, what the decoder reads.
-/

namespace Verif.RtcmSsr
open Verif.Sat Verif.Time Verif.Sval Verif.RtcmTypes

abbrev ub (n : Nat) (v : Int) : List Bool := natToBits n v.toNat
abbrev sb (n : Nat) (v : Int) : List Bool := natToBits n (ofSigned n v)
def FitU (n : Nat) (v : Int) : Prop := 0 ≤ v ∧ v < 2 ^ n
def FitS (n : Nat) (v : Int) : Prop := 0 < n ∧ -(2 ^ (n - 1) : Int) ≤ v ∧ v < 2 ^ (n - 1)

theorem putU_spec {p p' : Pos} {n : Nat} {v : Int} (h : putU p n v = .ok p') :
    FitU n v ∧ Wr p p' (ub n v) := ⟨⟨(putU_wr h).1, (putU_wr h).2.1⟩, (putU_wr h).2.2⟩

theorem putS_spec {p p' : Pos} {n : Nat} {v : Int} (h : putS p n v = .ok p') :
    FitS n v ∧ Wr p p' (sb n v) :=
  ⟨⟨(putS_wr h).1, (putS_wr h).2.1, (putS_wr h).2.2.1⟩, (putS_wr h).2.2.2⟩

theorem stepU {b : BitBuf} {i n : Nat} {v : Int} {m : List Bool} (hv : FitU n v)
    (h : At b i (ub n v ++ m)) : readU b i n = .ok v.toNat ∧ At b (i + n) m := At.stepI h hv.1 hv.2

theorem stepS {b : BitBuf} {i n : Nat} {v : Int} {m : List Bool} (hv : FitS n v)
    (h : At b i (sb n v ++ m)) : readS b i n = .ok v ∧ At b (i + n) m := At.stepS h hv.1 hv.2.1 hv.2.2

@[simp] theorem ub_length (n v) : (ub n v).length = n := natToBits_length _ _
@[simp] theorem sb_length (n v) : (sb n v).length = n := natToBits_length _ _

/-! ### header -/

def dtBits (sub : Sub) (e : Enc) : List Bool :=
  if sub = .orbit ∨ sub = .combined then ub 1 e.datum else []

def headBits (e : Enc) (sub : Sub) (sys : Sys) : List Bool :=
  ub (if e.msgtype = 4076 ∨ sys ≠ .glo then 20 else 17) e.tow ++ (ub 4 (e.udi sub.sc) ++
    (ub 1 e.mi.toNat ++ (dtBits sub e ++ (ub 4 e.iodssr ++ (ub 16 e.pid ++ (ub 4 e.sid ++
      ub 6 (own sys e.satN).length))))))

structure HeadFit (e : Enc) (sub : Sub) (sys : Sys) : Prop where
  tow : FitU (if e.msgtype = 4076 ∨ sys ≠ .glo then 20 else 17) e.tow
  udi : FitU 4 (e.udi sub.sc)
  datum : sub = .orbit ∨ sub = .combined → FitU 1 e.datum
  iodssr : FitU 4 e.iodssr
  pid : FitU 16 e.pid
  sid : FitU 4 e.sid
  nsat : FitU 6 (own sys e.satN).length

theorem encodeHead_spec {e : Enc} {sub : Sub} {sys : Sys} {p p' : Pos} (hle : p.2 ≤ p.1.length)
    (h : encodeHead e sub sys p = .ok p') : HeadFit e sub sys ∧ Wr p p' (headBits e sub sys) := by
  unfold encodeHead at h
  obtain ⟨p1, h1, h⟩ := Py.bind_ok.1 h
  obtain ⟨p2, h2, h⟩ := Py.bind_ok.1 h
  obtain ⟨p3, h3, h⟩ := Py.bind_ok.1 h
  have s1 := putU_spec h1
  have s2 := putU_spec h2
  have s3 := putU_spec h3
  have key : ∃ p4, (sub = .orbit ∨ sub = .combined → FitU 1 e.datum) ∧ Wr p3 p4 (dtBits sub e) ∧
      (do let p ← putU p4 4 e.iodssr
          let p ← putU p 16 e.pid
          let p ← putU p 4 e.sid
          putU p 6 (own sys e.satN).length) = Except.ok p' := by
    by_cases c : sub = .orbit ∨ sub = .combined
    · rw [if_pos c] at h
      obtain ⟨p4, h4, h⟩ := Py.bind_ok.1 h
      have s4 := putU_spec h4
      refine ⟨p4, fun _ => s4.1, ?_, h⟩
      unfold dtBits; rw [if_pos c]; exact s4.2
    · rw [if_neg c] at h
      refine ⟨p3, fun h => absurd h c, ?_, h⟩
      unfold dtBits; rw [if_neg c]; exact Wr.nil s3.2.le
  obtain ⟨p4, f4, w4, h⟩ := key
  obtain ⟨p5, h5, h⟩ := Py.bind_ok.1 h
  obtain ⟨p6, h6, h⟩ := Py.bind_ok.1 h
  obtain ⟨p7, h7, h8⟩ := Py.bind_ok.1 h
  have s5 := putU_spec h5
  have s6 := putU_spec h6
  have s7 := putU_spec h7
  have s8 := putU_spec h8
  exact ⟨⟨s1.1, s2.1, f4, s5.1, s6.1, s7.1, s8.1⟩,
    s1.2.trans (s2.2.trans (s3.2.trans (w4.trans (s5.2.trans (s6.2.trans (s7.2.trans s8.2))))))⟩

/-- the decoder state after the header of a message that does not use GLONASS time -/
def headState (d : Dec) (e : Enc) (sub : Sub) : Dec :=
  { d with
    tow := e.tow.toNat
    time := gpst2time d.week e.tow
    datum := if sub = .orbit ∨ sub = .combined then e.datum.toNat else d.datum
    pid := e.pid.toNat
    sid := e.sid.toNat }

theorem decodeHead_spec {e : Enc} {sub : Sub} {sys : Sys} (hg : sys ≠ .glo) (f : HeadFit e sub sys)
    {b : BitBuf} {i : Nat} {m : List Bool} (h : At b i (headBits e sub sys ++ m)) (d : Dec) :
    decodeHead d sub sys b i = .ok (headState d e sub,
      ⟨(e.udi sub.sc).toNat, e.mi, e.iodssr.toNat, (own sys e.satN).length⟩,
      i + (headBits e sub sys).length) ∧ At b (i + (headBits e sub sys).length) m := by
  have hm := h.tail
  refine ⟨?_, hm⟩
  have hl : (headBits e sub sys).length = 55 + (dtBits sub e).length := by
    unfold headBits
    rw [if_pos (Or.inr hg)]
    simp only [List.length_append, ub_length]
    omega
  have ft := f.tow
  rw [if_pos (Or.inr hg)] at ft
  rw [hl]
  unfold headBits at h
  rw [if_pos (Or.inr hg)] at h
  simp only [List.append_assoc] at h
  obtain ⟨r1, h⟩ := stepU ft h
  obtain ⟨r2, h⟩ := stepU f.udi h
  obtain ⟨r3, h⟩ := stepU (by unfold FitU; cases e.mi <;> simp) h
  have htow : ((e.tow.toNat : Nat) : ℚ) = ((e.tow : Int) : ℚ) := by
    have := Int.toNat_of_nonneg ft.1
    exact_mod_cast this
  unfold decodeHead decodeHeadTime
  rw [if_neg (fun c => hg c.1), r1]
  simp only [Py.okBind, pure, Except.pure]
  rw [r2]
  simp only [Py.okBind]
  rw [r3]
  simp only [Py.okBind, Int.toNat_natCast]
  have hb : (e.mi.toNat == 1) = e.mi := by cases e.mi <;> rfl
  by_cases c : sub = .orbit ∨ sub = .combined
  · unfold dtBits at h ⊢
    rw [if_pos c] at h ⊢
    obtain ⟨r4, h⟩ := stepU (f.datum c) h
    obtain ⟨r5, h⟩ := stepU f.iodssr h
    obtain ⟨r6, h⟩ := stepU f.pid h
    obtain ⟨r7, h⟩ := stepU f.sid h
    obtain ⟨r8, h⟩ := stepU f.nsat h
    simp only [Nat.add_assoc] at r4 r5 r6 r7 r8 ⊢
    norm_num at r4 r5 r6 r7 r8 ⊢
    rw [if_pos c, r4]
    simp only [Py.okBind]
    rw [r5]
    simp only [Py.okBind]
    rw [r6]
    simp only [Py.okBind]
    rw [r7]
    simp only [Py.okBind]
    rw [r8]
    simp only [Py.okBind]
    unfold headState
    rw [if_pos c, htow, ← hb]
    simp
  · unfold dtBits at h ⊢
    rw [if_neg c] at h ⊢
    rw [List.nil_append] at h
    obtain ⟨r5, h⟩ := stepU f.iodssr h
    obtain ⟨r6, h⟩ := stepU f.pid h
    obtain ⟨r7, h⟩ := stepU f.sid h
    obtain ⟨r8, h⟩ := stepU f.nsat h
    simp only [Nat.add_assoc] at r5 r6 r7 r8 ⊢
    norm_num at r5 r6 r7 r8 ⊢
    rw [if_neg c]
    rw [r5]
    simp only [Py.okBind]
    rw [r6]
    simp only [Py.okBind]
    rw [r7]
    simp only [Py.okBind]
    rw [r8]
    simp only [Py.okBind]
    unfold headState
    rw [if_neg c, htow, ← hb]
    simp

/-! ### satellite number -/

def satBits (e : Enc) (sat : Int) : List Bool :=
  if e.msgtype = 4076 then ub 6 (sat2prn sat).2
  else if (sat2prn sat).1 = .qzs then ub 4 ((sat2prn sat).2 - 192)
  else ub 6 (sat2prn sat).2

def SatFit (e : Enc) (sat : Int) : Prop :=
  if e.msgtype = 4076 then FitU 6 (sat2prn sat).2
  else if (sat2prn sat).1 = .qzs then FitU 4 ((sat2prn sat).2 - 192)
  else FitU 6 (sat2prn sat).2

theorem encodeSat_spec {e : Enc} {sat : Int} {p p' : Pos} (h : encodeSat e sat p = .ok p') :
    SatFit e sat ∧ Wr p p' (satBits e sat) := by
  unfold encodeSat at h
  simp only at h
  unfold SatFit satBits
  by_cases c : e.msgtype = 4076
  · rw [if_pos c] at h
    rw [if_pos c, if_pos c]; exact putU_spec h
  · rw [if_neg c] at h
    rw [if_neg c, if_neg c]
    by_cases c' : (sat2prn sat).1 = .qzs
    · rw [if_pos c'] at h
      rw [if_pos c', if_pos c']; exact putU_spec h
    · rw [if_neg c'] at h
      rw [if_neg c', if_neg c']; exact putU_spec h

theorem sat_known {sat : Int} {sys : Sys} (h : (sat2prn sat).1 = sys) (hs : sys ≠ .none) : sat ≤ 233 := by
  by_contra c
  rw [C01.sat2prn_above sat (by omega)] at h
  exact hs h.symm

theorem prn2sat_sat2prn' {sat : Int} (h : sat ≤ 233) : prn2sat (sat2prn sat).1 (sat2prn sat).2 = sat := by
  by_cases c : 1 ≤ sat
  · exact (C01.prn2sat_sat2prn sat c h).2
  · rw [C01.sat2prn_nonpos sat (by omega)]; rfl

/-- the satellite is read back, except where the widths differ (GLONASS) and where the encoder
writes the PRN instead of the slot (SBAS, and QZSS in IGS messages) -/
theorem decodeSat_spec {e : Enc} {sat : Int} {sys : Sys} (hsys : (sat2prn sat).1 = sys)
    (hs : sys ≠ .none) (hg : sys ≠ .glo) (hb : sys ≠ .sbs) (h76 : e.msgtype ≠ 4076) (f : SatFit e sat)
    {b : BitBuf} {i : Nat} {m : List Bool} (h : At b i (satBits e sat ++ m)) :
    decodeSat e.msgtype sys b i = .ok (i + (satBits e sat).length, sat) ∧
      At b (i + (satBits e sat).length) m := by
  have hm := h.tail
  refine ⟨?_, hm⟩
  have hk := prn2sat_sat2prn' (sat_known hsys hs)
  unfold SatFit at f
  unfold satBits at h ⊢
  rw [if_neg h76] at f h ⊢
  rw [hsys] at f h ⊢
  rw [hsys] at hk
  unfold decodeSat
  simp only
  rw [if_neg h76, if_neg hg]
  by_cases c : sys = .qzs
  · rw [if_pos c] at f h ⊢
    obtain ⟨r, _⟩ := stepU f h
    rw [if_pos c, r]
    simp only [Py.okBind, pure, Except.pure, ub_length]
    unfold svid2sat
    simp only
    rw [if_pos c, Int.toNat_of_nonneg f.1, Int.sub_add_cancel, hk]
  · rw [if_neg c] at f h ⊢
    obtain ⟨r, _⟩ := stepU f h
    rw [if_neg c, r]
    simp only [Py.okBind, pure, Except.pure, ub_length]
    unfold svid2sat
    simp only
    rw [if_neg c, if_neg hb, Int.toNat_of_nonneg f.1, hk]

/-! ### orbit record -/

def iodeOf (e : Enc) (s : Int) : Int := (Dict.get? e.iode s).getD 0
def dorbOf (e : Enc) (s : Int) : Vec := (Dict.get? e.dorb s).getD (none, none, none)
def ddorbV (e : Enc) (s : Int) : Vec :=
  match e.ddorb with
  | none => (some 0, some 0, some 0)
  | some d => (Dict.get? d s).getD (none, none, none)

def orbBits (e : Enc) (s : Int) : List Bool :=
  ub (iodeLen e.msgtype (sat2prn s).1) (iodeOf e s) ++
  (sb 22 (ival (dorbOf e s).1 22 (1 / 10000)) ++ (sb 20 (ival (dorbOf e s).2.1 20 (4 / 10000)) ++
  (sb 20 (ival (dorbOf e s).2.2 20 (4 / 10000)) ++ (sb 21 (ival (ddorbV e s).1 21 (1 / 1000000)) ++
  (sb 19 (ival (ddorbV e s).2.1 19 (4 / 1000000)) ++ sb 19 (ival (ddorbV e s).2.2 19 (4 / 1000000)))))))

structure OrbFit (e : Enc) (s : Int) : Prop where
  iodeIn : (Dict.get? e.iode s).isSome
  dorbIn : (Dict.get? e.dorb s).isSome
  ddorbIn : ∀ d, e.ddorb = some d → (Dict.get? d s).isSome
  iode : FitU (iodeLen e.msgtype (sat2prn s).1) (iodeOf e s)
  x : FitS 22 (ival (dorbOf e s).1 22 (1 / 10000))
  y : FitS 20 (ival (dorbOf e s).2.1 20 (4 / 10000))
  z : FitS 20 (ival (dorbOf e s).2.2 20 (4 / 10000))
  vx : FitS 21 (ival (ddorbV e s).1 21 (1 / 1000000))
  vy : FitS 19 (ival (ddorbV e s).2.1 19 (4 / 1000000))
  vz : FitS 19 (ival (ddorbV e s).2.2 19 (4 / 1000000))

theorem encodeOrbSat_spec {e : Enc} {s : Int} {p p' : Pos} (h : encodeOrbSat e s p = .ok p') :
    OrbFit e s ∧ Wr p p' (orbBits e s) := by
  unfold encodeOrbSat at h
  obtain ⟨io, h0, h⟩ := Py.bind_ok.1 h
  obtain ⟨p1, h1, h⟩ := Py.bind_ok.1 h
  obtain ⟨o, h2, h⟩ := Py.bind_ok.1 h
  obtain ⟨p3, h3, h⟩ := Py.bind_ok.1 h
  obtain ⟨p4, h4, h⟩ := Py.bind_ok.1 h
  obtain ⟨p5, h5, h⟩ := Py.bind_ok.1 h
  obtain ⟨v, h6, h⟩ := Py.bind_ok.1 h
  obtain ⟨p7, h7, h⟩ := Py.bind_ok.1 h
  obtain ⟨p8, h8, h9⟩ := Py.bind_ok.1 h
  rw [Dict.getItem_ok_iff] at h0 h2
  have e0 : iodeOf e s = io := by unfold iodeOf; rw [h0]; rfl
  have e2 : dorbOf e s = o := by unfold dorbOf; rw [h2]; rfl
  have e6 : ddorbV e s = v ∧ ∀ d, e.ddorb = some d → (Dict.get? d s).isSome := by
    unfold ddorbOf at h6
    unfold ddorbV
    cases he : e.ddorb with
    | none => rw [he] at h6; cases h6; exact ⟨rfl, fun d h => by cases h⟩
    | some d =>
      rw [he] at h6
      simp only at h6 ⊢
      rw [Dict.getItem_ok_iff] at h6
      refine ⟨by rw [h6]; rfl, fun d' hd => ?_⟩
      cases hd
      rw [h6]; rfl
  have s1 := putU_spec h1
  have s3 := putS_spec h3
  have s4 := putS_spec h4
  have s5 := putS_spec h5
  have s7 := putS_spec h7
  have s8 := putS_spec h8
  have s9 := putS_spec h9
  rw [← e0] at s1
  rw [← e2] at s3 s4 s5
  rw [← e6.1] at s7 s8 s9
  exact ⟨⟨by rw [h0]; rfl, by rw [h2]; rfl, e6.2, s1.1, s3.1, s4.1, s5.1, s7.1, s8.1, s9.1⟩,
    s1.2.trans (s3.2.trans (s4.2.trans (s5.2.trans (s7.2.trans (s8.2.trans s9.2)))))⟩

/-- the value that comes back after quantisation to `n` bits -/
def quant (n : Nat) (scl : ℚ) (y : Val) : Val := sval (ival y n scl) n scl

def qdorb (e : Enc) (s : Int) : Vec :=
  (quant 22 (1 / 10000) (dorbOf e s).1, quant 20 (4 / 10000) (dorbOf e s).2.1,
   quant 20 (4 / 10000) (dorbOf e s).2.2)

def qddorb (e : Enc) (s : Int) : Vec :=
  (quant 21 (1 / 1000000) (ddorbV e s).1, quant 19 (4 / 1000000) (ddorbV e s).2.1,
   quant 19 (4 / 1000000) (ddorbV e s).2.2)

theorem orbBits_length (e : Enc) (s : Int) :
    (orbBits e s).length = iodeLen e.msgtype (sat2prn s).1 + 121 := by
  unfold orbBits
  simp only [List.length_append, ub_length, sb_length]

theorem decodeOrbSat_spec {e : Enc} {s : Int} {sys : Sys} (hsys : (sat2prn s).1 = sys)
    (f : OrbFit e s) {b : BitBuf} {i : Nat} {m : List Bool} (h : At b i (orbBits e s ++ m)) :
    decodeOrbSat e.msgtype sys b i = .ok (i + (orbBits e s).length, (iodeOf e s).toNat, qdorb e s, qddorb e s) ∧
      At b (i + (orbBits e s).length) m := by
  have hm := h.tail
  refine ⟨?_, hm⟩
  rw [orbBits_length]
  unfold orbBits at h
  simp only [List.append_assoc] at h
  obtain ⟨r1, h⟩ := stepU f.iode h
  obtain ⟨r2, h⟩ := stepS f.x h
  obtain ⟨r3, h⟩ := stepS f.y h
  obtain ⟨r4, h⟩ := stepS f.z h
  obtain ⟨r5, h⟩ := stepS f.vx h
  obtain ⟨r6, h⟩ := stepS f.vy h
  obtain ⟨r7, h⟩ := stepS f.vz h
  simp only [Nat.add_assoc] at r2 r3 r4 r5 r6 r7
  simp only [Nat.reduceAdd] at r2 r3 r4 r5 r6 r7
  rw [hsys] at r1 r2 r3 r4 r5 r6 r7 ⊢
  unfold decodeOrbSat
  simp only [Nat.add_assoc]
  rw [r1]
  simp only [Py.okBind]
  rw [r2]
  simp only [Py.okBind]
  rw [r3]
  simp only [Py.okBind]
  rw [r4]
  simp only [Py.okBind]
  rw [r5]
  simp only [Py.okBind]
  rw [r6]
  simp only [Py.okBind]
  rw [r7]
  rfl

/-! ### clock record -/

def dclkOf (e : Enc) (s : Int) : Val := (Dict.get? e.dclk s).getD none
def ddclkV (e : Enc) (s : Int) : Val × Val :=
  match e.ddclk with
  | none => (some 0, some 0)
  | some d => ((Dict.get? d s).getD none, (Dict.get? e.dddclk s).getD none)

def clkBits (e : Enc) (s : Int) : List Bool :=
  sb 22 (ival (dclkOf e s) 22 (1 / 10000)) ++ (sb 21 (ival (ddclkV e s).1 21 (4 / 10000)) ++
    sb 27 (ival (ddclkV e s).2 27 (4 / 1000000)))

structure ClkFit (e : Enc) (s : Int) : Prop where
  dclkIn : (Dict.get? e.dclk s).isSome
  ddclkIn : ∀ d, e.ddclk = some d → (Dict.get? d s).isSome ∧ (Dict.get? e.dddclk s).isSome
  c0 : FitS 22 (ival (dclkOf e s) 22 (1 / 10000))
  c1 : FitS 21 (ival (ddclkV e s).1 21 (4 / 10000))
  c2 : FitS 27 (ival (ddclkV e s).2 27 (4 / 1000000))

theorem encodeClkSat_spec {e : Enc} {s : Int} {p p' : Pos} (h : encodeClkSat e s p = .ok p') :
    ClkFit e s ∧ Wr p p' (clkBits e s) := by
  unfold encodeClkSat at h
  obtain ⟨c, h0, h⟩ := Py.bind_ok.1 h
  obtain ⟨v, h1, h⟩ := Py.bind_ok.1 h
  obtain ⟨p2, h2, h⟩ := Py.bind_ok.1 h
  obtain ⟨p3, h3, h4⟩ := Py.bind_ok.1 h
  rw [Dict.getItem_ok_iff] at h0
  have e0 : dclkOf e s = c := by unfold dclkOf; rw [h0]; rfl
  have e1 : ddclkV e s = v ∧ ∀ d, e.ddclk = some d → (Dict.get? d s).isSome ∧ (Dict.get? e.dddclk s).isSome := by
    unfold ddclkOf at h1
    unfold ddclkV
    cases he : e.ddclk with
    | none => rw [he] at h1; cases h1; exact ⟨rfl, fun d h => by cases h⟩
    | some d =>
      rw [he] at h1
      simp only at h1 ⊢
      obtain ⟨a, ha, h1⟩ := Py.bind_ok.1 h1
      obtain ⟨a', ha', h1⟩ := Py.bind_ok.1 h1
      rw [Dict.getItem_ok_iff] at ha ha'
      cases h1
      refine ⟨by rw [ha, ha']; rfl, fun d' hd => ?_⟩
      cases hd
      rw [ha, ha']; exact ⟨rfl, rfl⟩
  have s2 := putS_spec h2
  have s3 := putS_spec h3
  have s4 := putS_spec h4
  rw [← e0] at s2
  rw [← e1.1] at s3 s4
  exact ⟨⟨by rw [h0]; rfl, e1.2, s2.1, s3.1, s4.1⟩, s2.2.trans (s3.2.trans s4.2)⟩

def qclk (e : Enc) (s : Int) : Vec :=
  (quant 22 (1 / 10000) (dclkOf e s), quant 21 (4 / 10000) (ddclkV e s).1,
   quant 27 (4 / 1000000) (ddclkV e s).2)

theorem decodeClkSat_spec {e : Enc} {s : Int} (f : ClkFit e s) {b : BitBuf} {i : Nat} {m : List Bool}
    (h : At b i (clkBits e s ++ m)) :
    decodeClkSat b i = .ok (i + (clkBits e s).length, qclk e s) ∧
      At b (i + (clkBits e s).length) m := by
  have hm := h.tail
  refine ⟨?_, hm⟩
  have hl : (clkBits e s).length = 70 := by
    unfold clkBits; simp only [List.length_append, sb_length]
  rw [hl]
  unfold clkBits at h
  simp only [List.append_assoc] at h
  obtain ⟨r1, h⟩ := stepS f.c0 h
  obtain ⟨r2, h⟩ := stepS f.c1 h
  obtain ⟨r3, h⟩ := stepS f.c2 h
  simp only [Nat.add_assoc] at r2 r3
  simp only [Nat.reduceAdd] at r2 r3
  unfold decodeClkSat
  rw [r1]
  simp only [Py.okBind]
  rw [r2]
  simp only [Py.okBind]
  rw [r3]
  rfl

/-! ### high-rate clock record -/

def hclkOf (e : Enc) (s : Int) : Val :=
  match e.hclk with
  | none => some 0
  | some d => (Dict.get? d s).getD none

theorem encodeHclkSat_spec {e : Enc} {s : Int} {p p' : Pos} (h : encodeHclkSat e s p = .ok p') :
    FitS 22 (ival (hclkOf e s) 22 (1 / 10000)) ∧ Wr p p' (sb 22 (ival (hclkOf e s) 22 (1 / 10000))) := by
  unfold encodeHclkSat at h
  unfold hclkOf
  cases he : e.hclk with
  | none =>
    rw [he] at h
    exact putS_spec h
  | some d =>
    rw [he] at h
    simp only at h ⊢
    obtain ⟨c, h0, h⟩ := Py.bind_ok.1 h
    rw [Dict.getItem_ok_iff] at h0
    rw [h0]
    exact putS_spec h

end Verif.RtcmSsr
