import Verif.Lemmas.RtcmLoc
import Mathlib.Tactic.Linarith
import Mathlib.Tactic.Ring
import Mathlib.Tactic.FieldSimp
/-!
# C84 RTCM messages with local corrections: grid definition and troposphere
-/

namespace Verif.C84
open Verif.Sat Verif.Time Verif.Sval Verif.RtcmTypes Verif.RtcmSsr Verif.RtcmLoc
open Verif.C33 (Quant quant_Quant)

/-! ## Specification -/

/-- `z` is what remains of `y` in an `n`-bit field that counts units from the value `off` -/
def Rec (n : Nat) (unit off : ℚ) (y z : Val) : Prop :=
  Quant n unit (y.map fun x => x - off) (z.map fun x => x - off)

/-- the mapping function and the polynomial terms of a network before and after -/
structure TropRec (a b : Net) : Prop where
  maph : ∀ v, a.maph = some v → ∃ w, b.maph = some w ∧ Rec 11 (25 / 100000000) (118 / 100000) v.1 w.1 ∧
    Rec 9 (5 / 1000000) (298 / 100000) v.2.1 w.2.1 ∧ Rec 9 (2 / 10000) (682 / 10000) v.2.2 w.2.2
  mapw : ∀ v, a.mapw = some v → ∃ w, b.mapw = some w ∧ Rec 13 (1 / 1000000) (104 / 1000000) v.1 w.1 ∧
    Rec 6 (25 / 1000000) (15 / 10000) v.2.1 w.2.1 ∧ Rec 5 (2 / 1000) (48 / 1000) v.2.2 w.2.2
  ct : ∀ v, a.ct = some v → ∃ w, b.ct = some w ∧
    Rec 13 (1 / 10000) (23 / 10) v.1.1 w.1.1 ∧ Rec 15 (1 / 100000) 0 v.1.2.1 w.1.2.1 ∧
    Rec 15 (1 / 100000) 0 v.1.2.2 w.1.2.2 ∧ Rec 13 (1 / 10000) (252 / 1000) v.2.1 w.2.1 ∧
    Rec 15 (1 / 100000) 0 v.2.2.1 w.2.2.1 ∧ Rec 15 (1 / 100000) 0 v.2.2.2 w.2.2.2

/-- the residuals of the grid points: absent when the field has no bits, zero below `ofst` -/
def ResRec (n ofst ng : Nat) (r r' : Option (List Val)) : Prop :=
  if n = 0 then r' = none
  else ∃ l', r' = some l' ∧ l'.length = ofst + ng ∧ (∀ k < ofst, l'[k]? = some (some 0)) ∧
    ∀ k, ofst ≤ k → k < ofst + ng → ∃ l y z, r = some l ∧ l[k]? = some y ∧ l'[k]? = some z ∧
      Quant n (1 / 10000) y z

/-- two coordinates that differ by less than `c` units -/
def Near (c : Nat) (unit : ℚ) (y z : Val) : Prop :=
  ∃ a b, y = some a ∧ z = some b ∧ |b - a| < c * unit

/-- a multiple of the unit, counted from `off` -/
def Mult (unit off : ℚ) (y : Val) : Prop := ∃ m : Int, y = some (m * unit + off)

/-- consecutive points are less than 4.096° (latitude) and 8.192° (longitude) apart towards south
and west -/
def StepsH : List Row → Prop
  | r :: r' :: l => (∀ a b, r.lat = some a → r'.lat = some b → -(4096 / 1000 : ℚ) < b - a) ∧
      (∀ a b, r.lon = some a → r'.lon = some b → -(8192 / 1000 : ℚ) < b - a) ∧ StepsH (r' :: l)
  | _ => True

/-- consecutive points do not go down by 3200 m or more -/
def StepsV : List Row → Prop
  | r :: r' :: l => (∀ a b, r.alt = some a → r'.alt = some b → -(3200 : ℚ) < b - a) ∧ StepsV (r' :: l)
  | _ => True

/-- the reference point is a position on the earth -/
def Earth (r : Row) : Prop :=
  (∀ a, r.lat = some a → (-90 : ℚ) ≤ a) ∧ ∀ a, r.lon = some a → (-180 : ℚ) ≤ a

/-! ## Troposphere -/

theorem vq_Rec {n : Nat} {scl off : ℚ} {y : Val} (hs : 0 < scl) (hf : FitV n scl off y) :
    Rec n scl off y (vq n scl off y) := by
  unfold Rec vq
  have e : ((quant n scl (y.map fun y => y - off)).map fun z => z + off).map (fun x => x - off) =
      quant n scl (y.map fun y => y - off) := by
    cases quant n scl (y.map fun y => y - off) with
    | none => rfl
    | some z => simp
  rw [e]
  exact quant_Quant hs hf

theorem flat_length {n : Nat} (hn : n > 0) (r : Option (List Val)) (k c : Nat) :
    ((List.range' k c).flatMap (resQ n r)) =
      (List.range' k c).map fun j => quant n (1 / 10000) (((r.getD [])[j]?).getD none) := by
  induction c generalizing k with
  | zero => rfl
  | succ c ih =>
    rw [List.range'_succ, List.flatMap_cons, List.map_cons, ih]
    unfold resQ
    rw [if_pos hn]
    rfl

theorem res_rec {n : Nat} {r : Option (List Val)} {ofst ng : Nat}
    (h : ∀ j, ofst ≤ j → j < ofst + ng → ResFit n r j) :
    ResRec n ofst ng r (resArray n ofst ((List.range' ofst ng).flatMap (resQ n r))) := by
  unfold ResRec resArray
  by_cases c : n = 0
  · rw [if_pos c, if_neg (by omega : ¬ n > 0)]
  · have hn : n > 0 := by omega
    rw [if_neg c, if_pos hn, flat_length hn]
    refine ⟨_, rfl, by simp, ?_, ?_⟩
    · intro k hk
      rw [List.getElem?_append_left (by simpa using hk), List.getElem?_replicate, if_pos hk]
    · intro k h1 h2
      obtain ⟨l, y, e1, e2, e3⟩ := h k h1 h2 hn
      refine ⟨l, y, quant n (1 / 10000) y, e1, e2, ?_, quant_Quant (by norm_num) e3⟩
      rw [List.getElem?_append_right (by simpa using h1), List.length_replicate, List.getElem?_map,
        List.getElem?_range' (by omega)]
      simp only [Option.map_some, Nat.one_mul, Nat.add_sub_cancel' h1]
      subst e1
      simp only [Option.getD_some, e2]

/-- A tropospheric message with residuals written by the encoder is read back by the decoder: every
value of the network is the nearest representable one. -/
theorem trop_round_trip {e : LEnc} {p p' : Pos} (h : encodeTrop e p = .ok p') (net : Net)
    (hn : e.lc[e.gid]? = some net) (hr : net.flgTrop % 2 = 1) (s : St) (net0 : Net)
    (h0 : s.lc[e.gid]? = some net0) :
    ∃ s' net', decodeTrop s p'.1 p.2 = .ok (s', p'.2) ∧ s'.lc = s.lc.set e.gid net' ∧
      net.maph ≠ none ∧ net.mapw ≠ none ∧ net.ct ≠ none ∧ TropRec net net' ∧
      ResRec e.nlen net.ofst net.ng net.dth net'.dth ∧ ResRec e.mlen net.ofst net.ng net.dtw net'.dtw ∧
      net'.ng = net.ng ∧ net'.ofst = net.ofst ∧
      (s'.d.tow : Int) = e.h.tow ∧ s'.d.time = gpst2time s.d.week e.h.tow ∧ (s'.d.pid : Int) = e.h.pid ∧
      (s'.d.sid : Int) = e.h.sid ∧ s'.d.iodssr = e.h.iodssr := by
  obtain ⟨net1, ah, bh, ch, aw, bw, cw, hh, w, e1, e2, e3, e4, f0, f, fr, wr⟩ := encodeTrop_spec h
  rw [hn] at e1
  cases e1
  have hd := decodeTrop_spec (b := p'.1) (i := p.2) f0 f s net0 h0 fr wr.at_
  rw [if_pos hr] at hd
  have hpos := wr.pos
  rw [if_pos hr] at hpos
  rw [← hpos] at hd
  have ft := f0.tow
  rw [if_pos (Or.inr (by decide))] at ft
  refine ⟨_, _, hd, rfl, by rw [e2]; simp, by rw [e3]; simp, by rw [e4]; simp, ⟨?_, ?_, ?_⟩,
    res_rec fun j a b => ((fr hr).2 j a b).1, res_rec fun j a b => ((fr hr).2 j a b).2, rfl, rfl, ?_⟩
  · intro v hv
    rw [e2] at hv
    cases hv
    exact ⟨_, rfl, vq_Rec (by norm_num) f.ah, vq_Rec (by norm_num) f.bh, vq_Rec (by norm_num) f.ch⟩
  · intro v hv
    rw [e3] at hv
    cases hv
    exact ⟨_, rfl, vq_Rec (by norm_num) f.aw, vq_Rec (by norm_num) f.bw, vq_Rec (by norm_num) f.cw⟩
  · intro v hv
    rw [e4] at hv
    cases hv
    exact ⟨_, rfl, vq_Rec (by norm_num) f.h0, vq_Rec (by norm_num) f.h1, vq_Rec (by norm_num) f.h2,
      vq_Rec (by norm_num) f.w0, vq_Rec (by norm_num) f.w1, vq_Rec (by norm_num) f.w2⟩
  · simp only [RtcmLoc.headState, if_pos (Or.inr (by decide) : e.h.msgtype = 4076 ∨ Sys.none ≠ Sys.glo)]
    exact ⟨Int.toNat_of_nonneg ft.1, (by trivial), Int.toNat_of_nonneg f0.pid.1, Int.toNat_of_nonneg f0.sid.1,
      Int.toNat_of_nonneg f0.iodssr.1⟩

/-- What the message leaves alone: the flags that say which corrections are available, the
satellites and the ionospheric corrections, the other networks, the grid table. -/
theorem trop_keeps {s s' : St} {b : BitBuf} {i j : Nat} (h : decodeTrop s b i = .ok (s', j)) :
    s'.lc.length = s.lc.length ∧ s'.grid = s.grid ∧
    ∃ gid, ∀ k : Nat, (k ≠ gid → s'.lc[k]? = s.lc[k]?) ∧ ∀ net : Net, s.lc[k]? = some net → ∃ net' : Net, s'.lc[k]? = some net' ∧
      net'.flgTrop = net.flgTrop ∧ net'.flgStec = net.flgStec ∧ net'.satN = net.satN ∧ net'.ci = net.ci ∧
      net'.stype = net.stype ∧ net'.dstec = net.dstec := by
  unfold decodeTrop at h
  obtain ⟨⟨d, iod, i1⟩, _, h⟩ := Py.bind_ok.1 h
  dsimp only at h
  obtain ⟨gid, _, h⟩ := Py.bind_ok.1 h
  obtain ⟨rmi, _, h⟩ := Py.bind_ok.1 h
  iterate 12
    obtain ⟨⟨_, _⟩, _, h⟩ := Py.bind_ok.1 h
    dsimp only at h
  by_cases c : rmi = 1
  · rw [if_pos c] at h
    obtain ⟨_, _, h⟩ := Py.bind_ok.1 h
    obtain ⟨_, _, h⟩ := Py.bind_ok.1 h
    obtain ⟨_, _, h⟩ := Py.bind_ok.1 h
    obtain ⟨_, _, h⟩ := Py.bind_ok.1 h
    obtain ⟨⟨_, _, _⟩, _, h⟩ := Py.bind_ok.1 h
    dsimp only at h
    obtain ⟨n0, hn0, h⟩ := Py.bind_ok.1 h
    rw [pyGet_ok] at hn0
    cases h
    refine ⟨by simp, rfl, gid, fun k => ⟨fun hk => ?_, fun net hn => ?_⟩⟩
    · exact List.getElem?_set_ne (fun e => hk e.symm)
    · by_cases ek : k = gid
      · subst ek
        rw [hn] at hn0
        cases hn0
        refine ⟨_, List.getElem?_set_self (List.getElem?_eq_some_iff.1 hn).1, rfl, rfl, rfl, rfl, rfl, rfl⟩
      · refine ⟨net, ?_, rfl, rfl, rfl, rfl, rfl, rfl⟩
        rw [← hn]
        exact List.getElem?_set_ne (fun e => ek e.symm)
  · rw [if_neg c] at h
    obtain ⟨_, _, h⟩ := Py.bind_ok.1 h
    cases h

/-- A tropospheric message without residuals, as the encoder writes it, cannot be decoded. -/
theorem trop_no_residual {e : LEnc} {p p' : Pos} (h : encodeTrop e p = .ok p') (net : Net)
    (hn : e.lc[e.gid]? = some net) (hr : net.flgTrop % 2 = 0) (s : St) (net0 : Net)
    (h0 : s.lc[e.gid]? = some net0) : decodeTrop s p'.1 p.2 = .error .unboundLocal := by
  obtain ⟨net1, ah, bh, ch, aw, bw, cw, hh, w, e1, e2, e3, e4, f0, f, fr, wr⟩ := encodeTrop_spec h
  rw [hn] at e1
  cases e1
  have hd := decodeTrop_spec (b := p'.1) (i := p.2) f0 f s net0 h0 fr wr.at_
  rw [if_neg (by omega : ¬ net.flgTrop % 2 = 1)] at hd
  exact hd

/-- Only the networks of the decoder's table can be used, though the field allows 1024 numbers:
49 bits of header come before the network number. -/
theorem trop_networks {s s' : St} {b : BitBuf} {i j gid : Nat} (hg : readU b (i + 49) 10 = .ok gid)
    (h : decodeTrop s b i = .ok (s', j)) : gid < s.lc.length := by
  unfold decodeTrop RtcmLoc.decodeHead decodeHeadTime at h
  rw [if_neg (fun h : Sys.none = Sys.glo ∧ s.d.msgtype ≠ 4076 => by cases h.1)] at h
  obtain ⟨⟨d, iod, i1⟩, h1, h⟩ := Py.bind_ok.1 h
  obtain ⟨⟨d1, i2⟩, h2, h1⟩ := Py.bind_ok.1 h1
  obtain ⟨tow, _, h2⟩ := Py.bind_ok.1 h2
  cases h2
  dsimp only at h1 h
  iterate 5 obtain ⟨_, _, h1⟩ := Py.bind_ok.1 h1
  cases h1
  obtain ⟨gid', hg', h⟩ := Py.bind_ok.1 h
  rw [show i + 20 + 29 = i + 49 by omega, hg] at hg'
  cases hg'
  obtain ⟨rmi, _, h⟩ := Py.bind_ok.1 h
  iterate 12
    obtain ⟨⟨_, _⟩, _, h⟩ := Py.bind_ok.1 h
    dsimp only at h
  by_cases c : rmi = 1
  · rw [if_pos c] at h
    obtain ⟨_, _, h⟩ := Py.bind_ok.1 h
    obtain ⟨_, _, h⟩ := Py.bind_ok.1 h
    obtain ⟨_, _, h⟩ := Py.bind_ok.1 h
    obtain ⟨_, _, h⟩ := Py.bind_ok.1 h
    obtain ⟨⟨_, _, _⟩, _, h⟩ := Py.bind_ok.1 h
    dsimp only at h
    obtain ⟨n0, hn0, h⟩ := Py.bind_ok.1 h
    rw [pyGet_ok] at hn0
    exact (List.getElem?_eq_some_iff.1 hn0).1
  · rw [if_neg c] at h
    obtain ⟨_, _, h⟩ := Py.bind_ok.1 h
    cases h

/-! ## Grid definition -/

theorem pyTrunc_close (x : ℚ) : |(pyTrunc x : ℚ) - x| < 1 := by
  unfold pyTrunc
  by_cases c : 0 ≤ x
  · rw [if_pos c]
    have h1 := Int.floor_le x
    have h2 := Int.lt_floor_add_one x
    rw [abs_lt]; constructor <;> linarith
  · rw [if_neg c]
    have h1 := Int.floor_le (-x)
    have h2 := Int.lt_floor_add_one (-x)
    rw [abs_lt]; push_cast; constructor <;> linarith

theorem pyTrunc_int (m : Int) : pyTrunc (m : ℚ) = m := by
  unfold pyTrunc
  split
  · exact Int.floor_intCast m
  · rw [← Int.cast_neg, Int.floor_intCast]; omega

/-- truncation goes towards zero -/
theorem pyTrunc_gt {x : ℚ} {m : Int} (hm : 0 < m) (h : -(m : ℚ) < x) : -m < pyTrunc x := by
  unfold pyTrunc
  by_cases c0 : 0 ≤ x
  · rw [if_pos c0]
    have h1 : 0 ≤ ⌊x⌋ := Int.floor_nonneg.2 c0
    omega
  · rw [if_neg c0]
    have h1 := Int.floor_le (-x)
    have : ((-m : Int) : ℚ) < ((-⌊-x⌋ : Int) : ℚ) := by push_cast; linarith
    exact_mod_cast this

/-- a field that is not at its lower limit is read back -/
theorem sval_some {u : Int} {n : Nat} {scl : ℚ} (h : -(2 ^ (n - 1) : Int) < u) :
    sval u n scl = some (u * scl) := by
  unfold sval
  rw [if_neg (by omega)]

/-- the differences of a list of coordinates stay above a limit -/
def Above (lim : ℚ) : List Val → Prop
  | y :: y' :: l => (∀ a b, y = some a → y' = some b → lim < b - a) ∧ Above lim (y' :: l)
  | _ => True

theorem axis_near {n : Nat} {scl : ℚ} (hs : 0 < scl) :
    ∀ (l : List Val) (c : Nat) (A B : ℚ), |A - B| < c * scl → (∀ y ∈ l, ∃ a, y = some a) →
      Above (-(((2 ^ (n - 1) : Int) : ℚ) * scl)) (some B :: l) → ∀ (j : Nat) (y : Val), l[j]? = some y →
      ∃ z, (axis n scl (some A) (some B) l)[j]? = some z ∧ Near (c + j + 1) scl y z
  | [], _, _, _, _, _, _, j, y, h => by simp at h
  | y :: l, c, A, B, hc, hsome, hab, j, y', hy => by
    obtain ⟨Y, rfl⟩ := hsome y (by simp)
    have hD := hab.1 B Y rfl rfl
    have hx : -(((2 ^ (n - 1) : Int)) : ℚ) < (Y - B) / scl := by
      rw [lt_div_iff₀ hs]
      linarith
    have hu := pyTrunc_gt (by positivity) hx
    have hcl := pyTrunc_close ((Y - B) / scl)
    have e1 : tq (vsub (some Y) (some B)) scl = pyTrunc ((Y - B) / scl) := rfl
    have e2 : vadd (some A) (sval (tq (vsub (some Y) (some B)) scl) n scl) =
        some (A + (pyTrunc ((Y - B) / scl) : ℚ) * scl) := by
      rw [e1, sval_some hu]; rfl
    have hnew : |A + (pyTrunc ((Y - B) / scl) : ℚ) * scl - Y| < ((c + 1 : Nat) : ℚ) * scl := by
      have e3 : A + (pyTrunc ((Y - B) / scl) : ℚ) * scl - Y =
          (A - B) + ((pyTrunc ((Y - B) / scl) : ℚ) - (Y - B) / scl) * scl := by
        field_simp
        ring
      have h4 : |((pyTrunc ((Y - B) / scl) : ℚ) - (Y - B) / scl) * scl| < scl := by
        rw [abs_mul, abs_of_pos hs]
        nlinarith
      have h5 := abs_add_le (A - B) (((pyTrunc ((Y - B) / scl) : ℚ) - (Y - B) / scl) * scl)
      rw [e3]
      push_cast
      nlinarith
    simp only [axis, e2]
    cases j with
    | zero =>
      simp only [List.getElem?_cons_zero, Option.some.injEq] at hy ⊢
      subst hy
      exact ⟨_, rfl, Y, _, rfl, rfl, hnew⟩
    | succ j =>
      simp only [List.getElem?_cons_succ] at hy ⊢
      obtain ⟨z, hz, hn⟩ := axis_near hs l (c + 1) _ Y hnew (fun y h => hsome y (by simp [h])) hab.2 j y' hy
      refine ⟨z, hz, ?_⟩
      rwa [show c + 1 + j + 1 = c + (j + 1) + 1 by omega] at hn

theorem axis_exact {n : Nat} {scl off : ℚ} (hs : 0 < scl) :
    ∀ (l : List Val) (B : ℚ), Mult scl off (some B) → (∀ y ∈ l, Mult scl off y) →
      Above (-(((2 ^ (n - 1) : Int) : ℚ) * scl)) (some B :: l) → axis n scl (some B) (some B) l = l
  | [], _, _, _, _ => rfl
  | y :: l, B, hB, hm, hab => by
    obtain ⟨m', e'⟩ := hm y (by simp)
    subst e'
    obtain ⟨m, e⟩ := hB
    simp only [Option.some.injEq] at e
    subst e
    have hD := hab.1 _ _ rfl rfl
    have hq : (m' * scl + off - (m * scl + off)) / scl = ((m' - m : Int) : ℚ) := by
      push_cast
      field_simp
      ring
    have hx : -(((2 ^ (n - 1) : Int)) : ℚ) < (m' * scl + off - (m * scl + off)) / scl := by
      rw [lt_div_iff₀ hs]
      linarith
    have hu := pyTrunc_gt (by positivity) hx
    have e1 : tq (vsub (some (m' * scl + off)) (some (m * scl + off))) scl = m' - m := by
      show pyTrunc ((m' * scl + off - (m * scl + off)) / scl) = m' - m
      rw [hq, pyTrunc_int]
    rw [hq, pyTrunc_int] at hu
    have e2 : vadd (some (m * scl + off)) (sval (m' - m) n scl) = some (m' * scl + off) := by
      rw [sval_some hu]
      show some _ = some _
      congr 1
      push_cast
      ring
    simp only [axis, e1, e2]
    rw [axis_exact hs l _ ⟨m', rfl⟩ (fun y h => hm y (by simp [h])) hab.2]

theorem above_lat : ∀ (l : List Row) (r : Row), StepsH (r :: l) →
    Above (-(((2 ^ (13 - 1) : Int) : ℚ) * (1 / 1000))) (r.lat :: l.map (·.lat))
  | [], _, _ => trivial
  | r' :: l, r, h => ⟨fun a b h1 h2 => by
      have := h.1 a b h1 h2
      norm_num at this ⊢
      linarith, above_lat l r' h.2.2⟩

theorem above_lon : ∀ (l : List Row) (r : Row), StepsH (r :: l) →
    Above (-(((2 ^ (14 - 1) : Int) : ℚ) * (1 / 1000))) (r.lon :: l.map (·.lon))
  | [], _, _ => trivial
  | r' :: l, r, h => ⟨fun a b h1 h2 => by
      have := h.2.1 a b h1 h2
      norm_num at this ⊢
      linarith, above_lon l r' h.2.2⟩

theorem above_alt : ∀ (l : List Row) (r : Row), StepsV (r :: l) →
    Above (-(((2 ^ (9 - 1) : Int) : ℚ) * (25 / 2))) (r.alt :: l.map (·.alt))
  | [], _, _ => trivial
  | r' :: l, r, h => ⟨fun a b h1 h2 => by
      have := h.1 a b h1 h2
      norm_num at this ⊢
      linarith, above_alt l r' h.2⟩

theorem vsub_some {a b : Val} (h : ∃ x, vsub a b = some x) : (∃ x, a = some x) ∧ ∃ x, b = some x := by
  cases a <;> cases b <;> simp [vsub] at h ⊢

theorem rel0_some : ∀ (l : List Row) (r : Row), Rel0Fit l r →
    (∀ y ∈ l.map (·.lat), ∃ a, y = some a) ∧ (∀ y ∈ l.map (·.lon), ∃ a, y = some a) ∧
      (∀ y ∈ l.map (·.alt), ∃ a, y = some a)
  | [], _, _ => by simp
  | r' :: l, r, h => by
    obtain ⟨i1, i2, i3⟩ := rel0_some l r' h.2.2.2
    have a1 := (vsub_some h.1.lat).1
    have a2 := (vsub_some h.1.lon).1
    have a3 := (vsub_some h.2.1).1
    simp only [List.map_cons, List.mem_cons, forall_eq_or_imp]
    exact ⟨⟨a1, i1⟩, ⟨a2, i2⟩, a3, i3⟩

theorem rel1_some : ∀ (l : List Row) (r : Row), Rel1Fit l r →
    (∀ y ∈ l.map (·.lat), ∃ a, y = some a) ∧ (∀ y ∈ l.map (·.lon), ∃ a, y = some a)
  | [], _, _ => by simp
  | r' :: l, r, h => by
    obtain ⟨i1, i2⟩ := rel1_some l r' h.2
    have a1 := (vsub_some h.1.lat).1
    have a2 := (vsub_some h.1.lon).1
    simp only [List.map_cons, List.mem_cons, forall_eq_or_imp]
    exact ⟨⟨a1, i1⟩, ⟨a2, i2⟩⟩

/-- the rows of the network that is sent -/
def sent (e : LEnc) : List Row := e.grid.filter fun r => r.nid = (e.gid : Int)

/-- the head of the grid message -/
theorem grid_head {e : LEnc} {p q : Pos} {f : Pos → Py Pos}
    (h : (do
      let p ← putU p 16 e.h.pid
      let p ← putU p 1 e.h.mi.toNat
      let p ← putU p 10 e.gid
      let p ← putU p 3 e.gtype
      f p) = .ok q) :
    ∃ p4, f p4 = .ok q ∧ FitU 16 e.h.pid ∧ FitU 10 (e.gid : Int) ∧ FitU 3 (e.gtype : Int) ∧
      Wr p p4 (ub 16 e.h.pid ++ (ub 1 e.h.mi.toNat ++ (ub 10 e.gid ++ ub 3 e.gtype))) := by
  obtain ⟨p1, h1, h⟩ := Py.bind_ok.1 h
  obtain ⟨p2, h2, h⟩ := Py.bind_ok.1 h
  obtain ⟨p3, h3, h⟩ := Py.bind_ok.1 h
  obtain ⟨p4, h4, h⟩ := Py.bind_ok.1 h
  have s1 := putU_spec h1
  have s2 := putU_spec h2
  have s3 := putU_spec h3
  have s4 := putU_spec h4
  exact ⟨p4, h, s1.1, s3.1, s4.1, s1.2.trans (s2.2.trans (s3.2.trans s4.2))⟩

theorem earth_lat {a : ℚ} (h : -90 ≤ a) : -(2 ^ (18 - 1) : Int) < tq (some a) (1 / 1000) := by
  refine pyTrunc_gt (by positivity) ?_
  norm_num
  linarith

theorem earth_lon {a : ℚ} (h : -180 ≤ a) : -(2 ^ (19 - 1) : Int) < tq (some a) (1 / 1000) := by
  refine pyTrunc_gt (by positivity) ?_
  norm_num
  linarith

theorem first_near {a scl : ℚ} (hs : 0 < scl) : |(tq (some a) scl : ℚ) * scl - a| < (1 : Nat) * scl := by
  have hc := pyTrunc_close (a / scl)
  have e : (tq (some a) scl : ℚ) * scl - a = ((pyTrunc (a / scl) : ℚ) - a / scl) * scl := by
    show (pyTrunc (a / scl) : ℚ) * scl - a = _
    field_simp
  rw [e, abs_mul, abs_of_pos hs]
  push_cast
  nlinarith

/-- what the decoder reconstructs from a grid message of type 0 -/
theorem grid0_rows {e : LEnc} {p p' : Pos} (h : encodeGrid e p = .ok p') (ht : e.gtype = 0) (s : St) :
    ∃ r l s' ds, sent e = r :: l ∧ Rel0Fit l r ∧ (∃ a, r.lat = some a) ∧ (∃ a, r.lon = some a) ∧
      (∃ a, r.alt = some a) ∧ FitU 10 (tq (r.alt.map fun z => z + 1000) (25 / 2)) ∧
      decodeGrid s p'.1 p.2 = .ok (s', p'.2) ∧ s'.inet = e.gid ∧ s'.ofst = e.ofst ∧ s'.lc = s.lc ∧
      (let lat := sval (tq r.lat (1 / 1000)) 18 (1 / 1000)
       let lon := sval (tq r.lon (1 / 1000)) 19 (1 / 1000)
       let alt := (sval (tq (r.alt.map fun z => z + 1000) (25 / 2)) 10 (25 / 2)).map fun z => z - 1000
       s'.pos0 = (lat, lon, alt) ∧ s'.dpos = ds ∧ ds.length = l.length ∧
       s'.grid = mkRows e.gid e.ofst (lat :: axis 13 (1 / 1000) lat r.lat (l.map (·.lat)))
        (lon :: axis 14 (1 / 1000) lon r.lon (l.map (·.lon)))
        (alt :: axis 9 (25 / 2) alt r.alt (l.map (·.alt)))) := by
  unfold encodeGrid at h
  obtain ⟨p4, h, f1, f3, f4, w⟩ := grid_head h
  rw [if_pos ht] at h
  unfold sent
  cases hrows : e.grid.filter (fun r => r.nid = (e.gid : Int)) with
  | nil => rw [hrows] at h; cases h
  | cons r l =>
    rw [hrows] at h
    dsimp only at h
    obtain ⟨a, ha, h⟩ := Py.bind_ok.1 h
    obtain ⟨c, hc, h⟩ := Py.bind_ok.1 h
    obtain ⟨t, ht', h⟩ := Py.bind_ok.1 h
    obtain ⟨q1, k1, h⟩ := Py.bind_ok.1 h
    obtain ⟨q2, k2, h⟩ := Py.bind_ok.1 h
    obtain ⟨q3, k3, h⟩ := Py.bind_ok.1 h
    obtain ⟨q4, k4, h⟩ := Py.bind_ok.1 h
    obtain ⟨q5, k5, h⟩ := Py.bind_ok.1 h
    obtain ⟨a1, a2⟩ := truncDiv_ok ha
    obtain ⟨c1, c2⟩ := truncDiv_ok hc
    obtain ⟨t1, t2⟩ := truncDiv_ok ht'
    have s1 := putS_spec k1
    have s2 := putS_spec k2
    have s3 := putU_spec k3
    have s4 := putU_spec k4
    have s5 := putU_spec k5
    have s6 := putRel0_spec l r s5.2.le h
    rw [a2] at s1
    rw [c2] at s2
    rw [t2] at s3
    have wr := w.trans (s1.2.trans (s2.2.trans (s3.2.trans (s4.2.trans (s5.2.trans s6.2)))))
    have hat := wr.at_
    have hpos := wr.pos
    rw [← List.append_nil (rel0Bits l r)] at hat
    simp only [List.append_assoc] at hat
    obtain ⟨r1, hat⟩ := stepU f1 hat
    obtain ⟨r2, hat⟩ := stepU (by unfold FitU; cases e.h.mi <;> simp : FitU 1 (e.h.mi.toNat : Int)) hat
    obtain ⟨r3, hat⟩ := stepU f3 hat
    obtain ⟨r4, hat⟩ := stepU f4 hat
    obtain ⟨r5, hat⟩ := stepS s1.1 hat
    obtain ⟨r6, hat⟩ := stepS s2.1 hat
    obtain ⟨r7, hat⟩ := stepU s3.1 hat
    obtain ⟨r8, hat⟩ := stepU s4.1 hat
    obtain ⟨r9, hat⟩ := stepU s5.1 hat
    simp only [Int.toNat_natCast] at r3 r4 r8 r9
    obtain ⟨ds, hd, hl⟩ := rdRel0_spec (gid := e.gid) l r e.ofst
      (sval (tq r.lat (1 / 1000)) 18 (1 / 1000)) (sval (tq r.lon (1 / 1000)) 19 (1 / 1000))
      ((sval (tq (r.alt.map fun z => z + 1000) (25 / 2)) 10 (25 / 2)).map fun z => z - 1000) _ s6.1 hat
    have hcast : (((tq (r.alt.map fun z => z + 1000) (25 / 2)).toNat : Nat) : Int) =
        tq (r.alt.map fun z => z + 1000) (25 / 2) := Int.toNat_of_nonneg s3.1.1
    have hdec : ∃ d : Dec, decodeGrid s p'.1 p.2 = .ok ({ s with
        d := d, gid := e.gid, gtype := e.gtype, inet := e.gid
        grid := ⟨e.gid, e.ofst, sval (tq r.lat (1 / 1000)) 18 (1 / 1000),
            sval (tq r.lon (1 / 1000)) 19 (1 / 1000),
            (sval (tq (r.alt.map fun z => z + 1000) (25 / 2)) 10 (25 / 2)).map fun z => z - 1000⟩ ::
          mkRows e.gid (e.ofst + 1)
            (axis 13 (1 / 1000) (sval (tq r.lat (1 / 1000)) 18 (1 / 1000)) r.lat (l.map (·.lat)))
            (axis 14 (1 / 1000) (sval (tq r.lon (1 / 1000)) 19 (1 / 1000)) r.lon (l.map (·.lon)))
            (axis 9 (25 / 2)
              ((sval (tq (r.alt.map fun z => z + 1000) (25 / 2)) 10 (25 / 2)).map fun z => z - 1000)
              r.alt (l.map (·.alt)))
        dpos := ds
        pos0 := (sval (tq r.lat (1 / 1000)) 18 (1 / 1000), sval (tq r.lon (1 / 1000)) 19 (1 / 1000),
            (sval (tq (r.alt.map fun z => z + 1000) (25 / 2)) 10 (25 / 2)).map fun z => z - 1000)
        ofst := e.ofst }, p'.2) := by
      refine ⟨{ s.d with pid := e.h.pid.toNat, mi := e.h.mi.toNat == 1 }, ?_⟩
      unfold decodeGrid
      rw [r1]
      simp only [Py.okBind]
      rw [r2]
      simp only [Py.okBind]
      rw [show p.2 + 17 = p.2 + 16 + 1 by omega, r3]
      simp only [Py.okBind]
      rw [show p.2 + 27 = p.2 + 16 + 1 + 10 by omega, r4]
      simp only [Py.okBind]
      rw [if_pos ht, show p.2 + 30 = p.2 + 16 + 1 + 10 + 3 by omega, r5]
      simp only [Py.okBind]
      rw [r6]
      simp only [Py.okBind]
      rw [show ∀ x : Nat, x + 37 = x + 18 + 19 from fun x => by omega, r7]
      simp only [Py.okBind]
      rw [show ∀ x : Nat, x + 47 = x + 18 + 19 + 10 from fun x => by omega, r8]
      simp only [Py.okBind]
      rw [show ∀ x : Nat, x + 59 = x + 18 + 19 + 10 + 12 from fun x => by omega, r9]
      simp only [Py.okBind]
      rw [show ∀ x : Nat, x + 67 = x + 18 + 19 + 10 + 12 + 8 from fun x => by omega]
      simp only [hcast]
      rw [hd]
      simp only [Py.okBind, pure, Except.pure, Int.toNat_natCast]
      congr 2
      rw [hpos]
      simp only [List.length_append, ub_length, sb_length]
      omega
    obtain ⟨d, hdec⟩ := hdec
    refine ⟨r, l, _, ds, rfl, s6.1, a1, c1, ?_, s3.1, hdec, rfl, rfl, rfl, rfl, rfl, hl, rfl⟩
    obtain ⟨x, hx⟩ := t1
    cases ha' : r.alt with
    | none => rw [ha'] at hx; cases hx
    | some y => exact ⟨y, rfl⟩

/-- A grid definition of type 0 is read back: as many points, numbered from the offset on, and the
`k`-th point (from 0) less than `k + 1` units (0.001 degree, 12.5 m) from where it was: the encoder
cuts off every difference and the errors add up. -/
theorem grid_round_trip {e : LEnc} {p p' : Pos} (h : encodeGrid e p = .ok p') (ht : e.gtype = 0)
    (hH : StepsH (sent e)) (hV : StepsV (sent e)) (hE : ∀ r, (sent e)[0]? = some r → Earth r) (s : St) :
    ∃ s', decodeGrid s p'.1 p.2 = .ok (s', p'.2) ∧ s'.inet = e.gid ∧ s'.ofst = e.ofst ∧ s'.lc = s.lc ∧
      s'.grid.length = (sent e).length ∧ s'.dpos.length + 1 = (sent e).length ∧
      ∀ (k : Nat) (r : Row), (sent e)[k]? = some r → ∃ r' : Row, s'.grid[k]? = some r' ∧
        r'.nid = (e.gid : Int) ∧ r'.gid = (e.ofst : Int) + k ∧
        Near (k + 1) (1 / 1000) r.lat r'.lat ∧ Near (k + 1) (1 / 1000) r.lon r'.lon ∧
        Near (k + 1) (25 / 2) r.alt r'.alt := by
  obtain ⟨r, l, s', ds, er, hf, ⟨a, ha⟩, ⟨c, hc⟩, ⟨t, ht'⟩, f10, hd, i1, i2, i3, hz⟩ := grid0_rows h ht s
  obtain ⟨_, j2, j3, hg⟩ := hz
  rw [er] at hH hV hE ⊢
  have he := hE r rfl
  obtain ⟨m1, m2, m3⟩ := rel0_some l r hf
  have bl := above_lat l r hH
  have bo := above_lon l r hH
  have bt := above_alt l r hV
  rw [ha, sval_some (earth_lat (he.1 a ha))] at hg
  rw [hc, sval_some (earth_lon (he.2 c hc))] at hg
  have f10' := f10
  rw [ht'] at hg f10' bt
  simp only [Option.map_some] at hg f10'
  have hu : -(2 ^ (10 - 1) : Int) < tq (some (t + 1000)) (25 / 2) := by
    have := f10'.1
    norm_num
    omega
  rw [sval_some hu] at hg
  rw [ha] at bl
  rw [hc] at bo
  simp only [Option.map_some] at hg
  have n1 := first_near (a := a) (scl := 1 / 1000) (by norm_num)
  have n2 := first_near (a := c) (scl := 1 / 1000) (by norm_num)
  have n3 : |(tq (some (t + 1000)) (25 / 2) : ℚ) * (25 / 2) - 1000 - t| < (1 : Nat) * (25 / 2 : ℚ) := by
    have := first_near (a := t + 1000) (scl := 25 / 2) (by norm_num)
    rwa [show (tq (some (t + 1000)) (25 / 2) : ℚ) * (25 / 2) - 1000 - t =
      (tq (some (t + 1000)) (25 / 2) : ℚ) * (25 / 2) - (t + 1000) by ring]
  refine ⟨s', hd, i1, i2, i3, ?_, by rw [j2, List.length_cons, j3], ?_⟩
  · rw [hg, mkRows_length]
    · simp [axis_length]
    · simp [axis_length]
    · simp [axis_length]
  · intro k x hx
    cases k with
    | zero =>
      simp only [List.getElem?_cons_zero, Option.some.injEq] at hx
      subst hx
      refine ⟨_, by rw [hg]; exact mkRows_get _ _ _ _ _ 0 _ _ _ rfl rfl rfl, rfl, by push_cast; rfl, ?_, ?_, ?_⟩
      · exact ⟨a, _, ha, rfl, n1⟩
      · exact ⟨c, _, hc, rfl, n2⟩
      · exact ⟨t, _, ht', rfl, n3⟩
    | succ k =>
      simp only [List.getElem?_cons_succ] at hx
      obtain ⟨z1, e1, q1⟩ := axis_near (n := 13) (by norm_num) (l.map (·.lat)) 1 _ a n1 m1 bl k x.lat
        (by rw [List.getElem?_map, hx]; rfl)
      obtain ⟨z2, e2, q2⟩ := axis_near (n := 14) (by norm_num) (l.map (·.lon)) 1 _ c n2 m2 bo k x.lon
        (by rw [List.getElem?_map, hx]; rfl)
      obtain ⟨z3, e3, q3⟩ := axis_near (n := 9) (by norm_num) (l.map (·.alt)) 1 _ t n3 m3 bt k x.alt
        (by rw [List.getElem?_map, hx]; rfl)
      rw [show 1 + k + 1 = k + 1 + 1 by omega] at q1 q2 q3
      refine ⟨⟨e.gid, ((e.ofst + (k + 1) : Nat) : Int), z1, z2, z3⟩, ?_, rfl, ?_, q1, q2, q3⟩
      · rw [hg]
        exact mkRows_get _ _ _ _ _ (k + 1) _ _ _ e1 e2 e3
      · push_cast; rfl

/-- Points on the lattice of the message (multiples of 0.001 degree, 12.5 m from -1000 m on) are
read back exactly. -/
theorem grid_exact {e : LEnc} {p p' : Pos} (h : encodeGrid e p = .ok p') (ht : e.gtype = 0)
    (hH : StepsH (sent e)) (hV : StepsV (sent e)) (hE : ∀ r, (sent e)[0]? = some r → Earth r)
    (hM : ∀ r ∈ sent e, Mult (1 / 1000) 0 r.lat ∧ Mult (1 / 1000) 0 r.lon ∧ Mult (25 / 2) (-1000) r.alt)
    (s : St) :
    ∃ s', decodeGrid s p'.1 p.2 = .ok (s', p'.2) ∧
      ∀ (k : Nat) (r : Row), (sent e)[k]? = some r →
        s'.grid[k]? = some (⟨e.gid, (e.ofst + k : Nat), r.lat, r.lon, r.alt⟩ : Row) := by
  obtain ⟨r, l, s', ds, er, hf, ⟨a, ha⟩, ⟨c, hc⟩, ⟨t, ht'⟩, f10, hd, i1, i2, i3, hz⟩ := grid0_rows h ht s
  obtain ⟨_, j2, j3, hg⟩ := hz
  rw [er] at hH hV hE hM ⊢
  have he := hE r rfl
  have bl := above_lat l r hH
  have bo := above_lon l r hH
  have bt := above_alt l r hV
  obtain ⟨M1, M2, M3⟩ := hM r (by simp)
  rw [ha] at bl M1
  rw [hc] at bo M2
  rw [ht'] at bt M3
  have mm : ∀ (b scl : ℚ), 0 < scl → Mult scl 0 (some b) → (tq (some b) scl : ℚ) * scl = b := by
    rintro b scl hs ⟨m, hm⟩
    simp only [add_zero, Option.some.injEq] at hm
    show (pyTrunc (b / scl) : ℚ) * scl = b
    rw [hm, mul_div_assoc, div_self hs.ne', mul_one, pyTrunc_int]
  have g1 : sval (tq r.lat (1 / 1000)) 18 (1 / 1000) = some a := by
    rw [ha, sval_some (earth_lat (he.1 a ha)), mm a _ (by norm_num) M1]
  have g2 : sval (tq r.lon (1 / 1000)) 19 (1 / 1000) = some c := by
    rw [hc, sval_some (earth_lon (he.2 c hc)), mm c _ (by norm_num) M2]
  have g3 : ((sval (tq (r.alt.map fun z => z + 1000) (25 / 2)) 10 (25 / 2)).map fun z => z - 1000) = some t := by
    rw [ht'] at f10 ⊢
    simp only [Option.map_some] at f10 ⊢
    have hu : -(2 ^ (10 - 1) : Int) < tq (some (t + 1000)) (25 / 2) := by
      have := f10.1
      norm_num
      omega
    rw [sval_some hu, mm (t + 1000) _ (by norm_num)]
    · simp
    · obtain ⟨m, hm⟩ := M3
      simp only [Option.some.injEq] at hm
      exact ⟨m, by rw [hm]; congr 1; ring⟩
  rw [g1, g2, g3, ha, hc, ht'] at hg
  rw [axis_exact (off := 0) (by norm_num) (l.map (·.lat)) a M1 ?_ bl,
    axis_exact (off := 0) (by norm_num) (l.map (·.lon)) c M2 ?_ bo,
    axis_exact (off := -1000) (by norm_num) (l.map (·.alt)) t M3 ?_ bt] at hg
  · refine ⟨s', hd, ?_⟩
    intro k x hx
    rw [hg]
    apply mkRows_get
    · rw [← ha, ← List.map_cons (f := fun r : Row => r.lat), List.getElem?_map, hx]; rfl
    · rw [← hc, ← List.map_cons (f := fun r : Row => r.lon), List.getElem?_map, hx]; rfl
    · rw [← ht', ← List.map_cons (f := fun r : Row => r.alt), List.getElem?_map, hx]; rfl
  · intro y hy
    obtain ⟨x, hx, rfl⟩ := List.mem_map.1 hy
    exact (hM x (by simp [hx])).2.2
  · intro y hy
    obtain ⟨x, hx, rfl⟩ := List.mem_map.1 hy
    exact (hM x (by simp [hx])).2.1
  · intro y hy
    obtain ⟨x, hx, rfl⟩ := List.mem_map.1 hy
    exact (hM x (by simp [hx])).1

/-- what the decoder finds in a grid message of type 1 -/
theorem grid1_bits {e : LEnc} {p p' : Pos} (h : encodeGrid e p = .ok p') (ht : e.gtype = 1) :
    ∃ r l, sent e = r :: l ∧ Rel1Fit l r ∧ (∃ a, r.lat = some a) ∧ (∃ a, r.lon = some a) ∧
      FitU 16 e.h.pid ∧ FitU 10 (e.gid : Int) ∧ FitU 3 (e.gtype : Int) ∧
      FitS 18 (tq r.lat (1 / 1000)) ∧ FitS 19 (tq r.lon (1 / 1000)) ∧ FitU 12 (e.ofst : Int) ∧
      FitU 8 (l.length : Int) ∧
      Wr p p' (ub 16 e.h.pid ++ (ub 1 e.h.mi.toNat ++ (ub 10 e.gid ++ (ub 3 e.gtype ++
        (sb 18 (tq r.lat (1 / 1000)) ++ (sb 19 (tq r.lon (1 / 1000)) ++ (ub 12 e.ofst ++
          (ub 8 l.length ++ rel1Bits l r)))))))) := by
  unfold encodeGrid at h
  obtain ⟨p4, h, f1, f3, f4, w⟩ := grid_head h
  rw [if_neg (by omega : ¬ e.gtype = 0), if_pos ht] at h
  unfold sent
  cases hrows : e.grid.filter (fun r => r.nid = (e.gid : Int)) with
  | nil => rw [hrows] at h; cases h
  | cons r l =>
    rw [hrows] at h
    dsimp only at h
    obtain ⟨a, ha, h⟩ := Py.bind_ok.1 h
    obtain ⟨c, hc, h⟩ := Py.bind_ok.1 h
    obtain ⟨q1, k1, h⟩ := Py.bind_ok.1 h
    obtain ⟨q2, k2, h⟩ := Py.bind_ok.1 h
    obtain ⟨q4, k4, h⟩ := Py.bind_ok.1 h
    obtain ⟨q5, k5, h⟩ := Py.bind_ok.1 h
    obtain ⟨a1, a2⟩ := truncDiv_ok ha
    obtain ⟨c1, c2⟩ := truncDiv_ok hc
    have s1 := putS_spec k1
    have s2 := putS_spec k2
    have s4 := putU_spec k4
    have s5 := putU_spec k5
    have s6 := putRel1_spec l r s5.2.le h
    rw [a2] at s1
    rw [c2] at s2
    have wr := w.trans (s1.2.trans (s2.2.trans (s4.2.trans (s5.2.trans s6.2))))
    simp only [List.append_assoc] at wr
    exact ⟨r, l, rfl, s6.1, a1, c1, f1, f3, f4, s1.1, s2.1, s4.1, s5.1, wr⟩

/-- the decoder up to the points of a grid of type 1 -/
theorem grid1_read {e : LEnc} {p p' : Pos} {r : Row} {l : List Row} (ht : e.gtype = 1)
    (f1 : FitU 16 e.h.pid) (f2 : FitU 10 (e.gid : Int)) (f3 : FitU 3 (e.gtype : Int))
    (f4 : FitS 18 (tq r.lat (1 / 1000))) (f5 : FitS 19 (tq r.lon (1 / 1000))) (f6 : FitU 12 (e.ofst : Int))
    (f7 : FitU 8 (l.length : Int))
    (hat : At p'.1 p.2 (ub 16 e.h.pid ++ (ub 1 e.h.mi.toNat ++ (ub 10 e.gid ++ (ub 3 e.gtype ++
        (sb 18 (tq r.lat (1 / 1000)) ++ (sb 19 (tq r.lon (1 / 1000)) ++ (ub 12 e.ofst ++
          (ub 8 l.length ++ rel1Bits l r))))))))) (s : St) :
    At p'.1 (p.2 + 87) (rel1Bits l r) ∧
    decodeGrid s p'.1 p.2 = (do
      let (rs, ds, i) ← rdRel1 e.gid e.ofst p'.1 l.length 0 (sval (tq r.lat (1 / 1000)) 18 (1 / 1000))
        (sval (tq r.lon (1 / 1000)) 19 (1 / 1000)) (List.replicate l.length (some 0, some 0, some 0)) (p.2 + 87)
      pure ({ s with
        d := { s.d with pid := e.h.pid.toNat, mi := e.h.mi.toNat == 1 }, gid := e.gid, gtype := e.gtype
        inet := e.gid
        grid := ⟨e.gid, e.ofst, sval (tq r.lat (1 / 1000)) 18 (1 / 1000),
          sval (tq r.lon (1 / 1000)) 19 (1 / 1000), some 0⟩ :: rs
        dpos := ds
        pos0 := (sval (tq r.lat (1 / 1000)) 18 (1 / 1000), sval (tq r.lon (1 / 1000)) 19 (1 / 1000), some 0)
        ofst := e.ofst }, i)) := by
  obtain ⟨r1, hat⟩ := stepU f1 hat
  obtain ⟨r2, hat⟩ := stepU (by unfold FitU; cases e.h.mi <;> simp : FitU 1 (e.h.mi.toNat : Int)) hat
  obtain ⟨r3, hat⟩ := stepU f2 hat
  obtain ⟨r4, hat⟩ := stepU f3 hat
  obtain ⟨r5, hat⟩ := stepS f4 hat
  obtain ⟨r6, hat⟩ := stepS f5 hat
  obtain ⟨r8, hat⟩ := stepU f6 hat
  obtain ⟨r9, hat⟩ := stepU f7 hat
  simp only [Int.toNat_natCast] at r3 r4 r8 r9
  refine ⟨hat, ?_⟩
  unfold decodeGrid
  rw [r1]
  simp only [Py.okBind]
  rw [r2]
  simp only [Py.okBind]
  rw [show p.2 + 17 = p.2 + 16 + 1 by omega, r3]
  simp only [Py.okBind]
  rw [show p.2 + 27 = p.2 + 16 + 1 + 10 by omega, r4]
  simp only [Py.okBind]
  rw [if_neg (by omega : ¬ e.gtype = 0), if_pos ht, show p.2 + 30 = p.2 + 16 + 1 + 10 + 3 by omega, r5]
  simp only [Py.okBind]
  rw [r6]
  simp only [Py.okBind]
  rw [show ∀ x : Nat, x + 37 = x + 18 + 19 from fun x => by omega, r8]
  simp only [Py.okBind]
  rw [show ∀ x : Nat, x + 49 = x + 18 + 19 + 12 from fun x => by omega, r9]
  simp only [Py.okBind, Int.toNat_natCast]

/-- A grid definition of type 1 is read back when the offset is not larger than the number of
relative points; the heights are lost, the first point has the number `ofst`, but the others are
numbered from 0 on. -/
theorem grid1_round_trip {e : LEnc} {p p' : Pos} (h : encodeGrid e p = .ok p') (ht : e.gtype = 1)
    (hH : StepsH (sent e)) (hE : ∀ r, (sent e)[0]? = some r → Earth r) (ho : e.ofst < (sent e).length) (s : St) :
    ∃ s', decodeGrid s p'.1 p.2 = .ok (s', p'.2) ∧ s'.inet = e.gid ∧ s'.ofst = e.ofst ∧ s'.lc = s.lc ∧
      s'.grid.length = (sent e).length ∧ s'.dpos.length + 1 = (sent e).length ∧
      ∀ (k : Nat) (r : Row), (sent e)[k]? = some r → ∃ r' : Row, s'.grid[k]? = some r' ∧
        r'.nid = (e.gid : Int) ∧ r'.gid = (if k = 0 then (e.ofst : Int) else (k : Int) - 1) ∧
        Near (k + 1) (1 / 1000) r.lat r'.lat ∧ Near (k + 1) (1 / 1000) r.lon r'.lon ∧ r'.alt = some 0 := by
  obtain ⟨r, l, er, hf, ⟨a, ha⟩, ⟨c, hc⟩, f1, f2, f3, f4, f5, f6, f7, wr⟩ := grid1_bits h ht
  obtain ⟨hat, hd⟩ := grid1_read (p' := p') ht f1 f2 f3 f4 f5 f6 f7 wr.at_ s
  have hpos := wr.pos
  simp only [List.length_append, ub_length, sb_length] at hpos
  rw [er] at hH hE ho ⊢
  rw [List.length_cons] at ho
  rw [← List.append_nil (rel1Bits l r)] at hat
  obtain ⟨ds, hr, hl⟩ := rdRel1_spec (gid := e.gid) (ofst := e.ofst) l r 0
    (sval (tq r.lat (1 / 1000)) 18 (1 / 1000)) (sval (tq r.lon (1 / 1000)) 19 (1 / 1000))
    (List.replicate l.length (some 0, some 0, some 0)) _ hf hat
    (by rw [List.length_replicate]; omega) (by rw [List.length_replicate]; omega)
  rw [hr] at hd
  simp only [Py.okBind, pure, Except.pure] at hd
  rw [show p.2 + 87 + (rel1Bits l r).length = p'.2 by omega] at hd
  have he := hE r rfl
  obtain ⟨m1, m2⟩ := rel1_some l r hf
  have bl := above_lat l r hH
  have bo := above_lon l r hH
  rw [ha] at bl
  rw [hc] at bo
  have n1 := first_near (a := a) (scl := 1 / 1000) (by norm_num)
  have n2 := first_near (a := c) (scl := 1 / 1000) (by norm_num)
  have g1 : sval (tq r.lat (1 / 1000)) 18 (1 / 1000) = some ((tq (some a) (1 / 1000) : ℚ) * (1 / 1000)) := by
    rw [ha, sval_some (earth_lat (he.1 a ha))]
  have g2 : sval (tq r.lon (1 / 1000)) 19 (1 / 1000) = some ((tq (some c) (1 / 1000) : ℚ) * (1 / 1000)) := by
    rw [hc, sval_some (earth_lon (he.2 c hc))]
  rw [g1, g2] at hd
  refine ⟨_, hd, rfl, rfl, rfl, ?_, ?_, ?_⟩
  · show (_ :: mkRows _ _ _ _ _).length = _
    rw [List.length_cons, mkRows_length]
    · simp [axis_length]
    · simp [axis_length]
    · simp [axis_length]
  · show ds.length + 1 = _
    rw [hl, List.length_replicate, List.length_cons]
  · intro k x hx
    cases k with
    | zero =>
      simp only [List.getElem?_cons_zero, Option.some.injEq] at hx
      subst hx
      exact ⟨_, rfl, rfl, rfl, ⟨a, _, ha, rfl, n1⟩, ⟨c, _, hc, rfl, n2⟩, rfl⟩
    | succ k =>
      simp only [List.getElem?_cons_succ] at hx
      obtain ⟨z1, e1, q1⟩ := axis_near (n := 13) (by norm_num) (l.map (·.lat)) 1 _ a n1 m1 bl k x.lat
        (by rw [List.getElem?_map, hx]; rfl)
      obtain ⟨z2, e2, q2⟩ := axis_near (n := 14) (by norm_num) (l.map (·.lon)) 1 _ c n2 m2 bo k x.lon
        (by rw [List.getElem?_map, hx]; rfl)
      rw [show 1 + k + 1 = k + 1 + 1 by omega] at q1 q2
      refine ⟨⟨e.gid, ((0 + k : Nat) : Int), z1, z2, some 0⟩, ?_, rfl, ?_, q1, q2, rfl⟩
      · rw [List.getElem?_cons_succ, ha, hc]
        refine mkRows_get _ _ _ _ _ k _ _ _ e1 e2 ?_
        rw [List.getElem?_replicate, if_pos (List.getElem?_eq_some_iff.1 hx).1]
      · rw [if_neg (by omega : ¬ k + 1 = 0)]
        push_cast
        omega

/-- With a larger offset a grid definition of type 1 cannot be decoded. -/
theorem grid1_offset {e : LEnc} {p p' : Pos} (h : encodeGrid e p = .ok p') (ht : e.gtype = 1)
    (h2 : 2 ≤ (sent e).length) (ho : (sent e).length ≤ e.ofst) (s : St) :
    decodeGrid s p'.1 p.2 = .error .indexError := by
  obtain ⟨r, l, er, hf, ⟨a, ha⟩, ⟨c, hc⟩, f1, f2, f3, f4, f5, f6, f7, wr⟩ := grid1_bits h ht
  obtain ⟨hat, hd⟩ := grid1_read (p' := p') ht f1 f2 f3 f4 f5 f6 f7 wr.at_ s
  rw [hd]
  rw [er] at h2 ho
  cases l with
  | nil => simp at h2
  | cons r' l =>
    rw [List.length_cons, List.length_cons] at ho
    unfold rel1Bits at hat
    obtain ⟨r1, hat⟩ := stepS hf.1.fa hat
    obtain ⟨r2, hat⟩ := stepS hf.1.fc hat
    rw [List.length_cons]
    unfold rdRel1
    rw [r1]
    simp only [Py.okBind]
    rw [r2]
    simp only [Py.okBind]
    unfold setRow
    rw [if_neg (by omega), if_neg (by rw [List.length_replicate]; push_cast; omega)]
    rfl

/-- No grid definition of type 2 can be decoded. -/
theorem grid2_raises {s : St} {b : BitBuf} {i : Nat} (hl : i + 99 ≤ b.length)
    (ht : readU b (i + 27) 3 = .ok 2) : decodeGrid s b i = .error .typeError := by
  have rd : ∀ k n, k + n ≤ i + 99 → ∃ v, readU b k n = .ok v := by
    intro k n hk
    unfold readU
    rw [if_pos (by omega)]
    exact ⟨_, rfl⟩
  obtain ⟨v1, h1⟩ := rd i 16 (by omega)
  obtain ⟨v2, h2⟩ := rd (i + 16) 1 (by omega)
  obtain ⟨v3, h3⟩ := rd (i + 17) 10 (by omega)
  obtain ⟨v4, h4⟩ := rd (i + 30) 69 (by omega)
  unfold decodeGrid
  rw [h1]
  simp only [Py.okBind]
  rw [h2]
  simp only [Py.okBind]
  rw [h3]
  simp only [Py.okBind]
  rw [ht]
  simp only [Py.okBind]
  rw [if_neg (by omega), if_neg (by omega), if_pos (by trivial), h4]
  rfl

/-! ## Examples -/

def exNet : Net :=
  { flgTrop := 3, ng := 2, ofst := 1
    maph := some (some (119 / 100000), some (298 / 100000), some (7 / 100)), mapw := some (some (1 / 10000), none, some (5 / 100))
    ct := some ((some (231 / 100), some (1 / 1000), some (-2 / 1000)), (some (1 / 10), some 0, none))
    dth := some [some 5, some (3 / 10000), some (-4 / 10000)], dtw := none }

def exEnc : LEnc := { h := { msgtype := 95, tow := 3600, pid := 7, iodssr := 2 }, gid := 1, nlen := 5, lc := [{}, exNet] }

/-- a message that meets the hypotheses of `trop_round_trip`, and what comes back -/
example : ((encodeTrop exEnc (List.replicate 300 false, 12)).toOption.bind fun p =>
    (decodeTrop {} p.1 12).toOption.bind fun r => r.1.lc[1]?.map fun n => (n.dth.getD [], n.dtw.isNone, n.flgTrop, r.2)) =
    some ([some (0 : ℚ), some (3 / 10000), some (-4 / 10000)], true, 0, 253) := by decide +kernel

example : ((encodeTrop exEnc (List.replicate 300 false, 12)).toOption.bind fun p =>
    (decodeTrop {} p.1 12).toOption.bind fun r => r.1.lc[1]?.bind fun n => n.ct.map fun c =>
      [c.1.1, c.1.2.1, c.1.2.2, c.2.1, c.2.2.1, c.2.2.2]) =
    some [some (231 / 100 : ℚ), some (1 / 1000), some (-2 / 1000), some (1 / 10), some 0, none] := by decide +kernel

/-- without residuals: `trop_no_residual` -/
example : ((encodeTrop { exEnc with lc := [{}, { exNet with flgTrop := 2 }] } (List.replicate 300 false, 12)).toOption.map
    fun p => (decodeTrop {} p.1 12).toOption.isSome) = some false := by decide +kernel

def exRows : List Row :=
  [⟨3, 1, some 35, some 139, some 0⟩, ⟨3, 2, some (352 / 10), some (1391 / 10), some 25⟩,
   ⟨2, 1, some 0, some 0, some 0⟩, ⟨3, 3, some (35 - 5 / 10000), some (1391 / 10), some 0⟩]

def exGrid : LEnc := { h := { msgtype := 61, pid := 7 }, gid := 3, gtype := 0, ofst := 1, grid := exRows }

/-- a grid that meets the hypotheses of `grid_round_trip`; the third point is 0.0005 degree off -/
example : ((encodeGrid exGrid (List.replicate 300 false, 0)).toOption.bind fun p =>
    (decodeGrid {} p.1 0).toOption.map fun r => (r.1.grid, r.2)) =
    some ([⟨3, 1, some 35, some 139, some 0⟩, ⟨3, 2, some (352 / 10), some (1391 / 10), some 25⟩,
      ⟨3, 3, some 35, some (1391 / 10), some 0⟩], 169) := by decide +kernel

/-- the hypotheses hold of it -/
example : StepsH (sent exGrid) ∧ StepsV (sent exGrid) ∧ ∀ r, (sent exGrid)[0]? = some r → Earth r := by
  have e : sent exGrid = [⟨3, 1, some 35, some 139, some 0⟩, ⟨3, 2, some (352 / 10), some (1391 / 10), some 25⟩,
    ⟨3, 3, some (35 - 5 / 10000), some (1391 / 10), some 0⟩] := by decide +kernel
  rw [e]
  refine ⟨⟨?_, ?_, ?_, ?_, trivial⟩, ⟨?_, ?_, trivial⟩, ?_⟩
  · rintro a b h1 h2; cases h1; cases h2; norm_num
  · rintro a b h1 h2; cases h1; cases h2; norm_num
  · rintro a b h1 h2; cases h1; cases h2; norm_num
  · rintro a b h1 h2; cases h1; cases h2; norm_num
  · rintro a b h1 h2; cases h1; cases h2; norm_num
  · rintro a b h1 h2; cases h1; cases h2; norm_num
  · rintro r hr
    cases hr
    constructor
    · rintro a h1; cases h1; norm_num
    · rintro a h1; cases h1; norm_num

/-- the same grid as type 1: two points get the number 1, and 0 appears -/
example : ((encodeGrid { exGrid with gtype := 1 } (List.replicate 300 false, 0)).toOption.bind fun p =>
    (decodeGrid {} p.1 0).toOption.map fun r => r.1.grid.map (·.gid)) = some [1, 0, 1] := by decide +kernel

/-- an offset of 3 with three points: `grid1_offset` -/
example : ((encodeGrid { exGrid with gtype := 1, ofst := 3 } (List.replicate 300 false, 0)).toOption.map fun p =>
    (decodeGrid {} p.1 0).toOption.isSome) = some false := by decide +kernel

/-- a message of type 2: `grid2_raises` -/
example : (encodeGrid { exGrid with gtype := 2, dlat := some (1 / 10), dlon := some (1 / 10), nrow := 3, ncol := 2 }
    (List.replicate 300 false, 0)).toOption.map (fun p => (readU p.1 27 3, (decodeGrid {} p.1 0).toOption.isSome)) =
    some (.ok 2, false) := by decide +kernel

end Verif.C84
