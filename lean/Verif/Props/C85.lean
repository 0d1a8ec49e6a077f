import Verif.Lemmas.RtcmIono
import Verif.Props.C84
import Mathlib.Data.List.Sort
/-!
# C85 RTCM regional ionospheric correction: encoder and decoder
-/

namespace Verif.C85
open Verif.Sat Verif.Time Verif.Sval Verif.RtcmTypes Verif.RtcmSsr Verif.RtcmLoc
open Verif.C33 (Quant quant_Quant)

/-! ## Specification -/

/-- the constellation of each message -/
def sysOf : List (Nat × Sys) := [(96, .gps), (97, .glo), (98, .gal), (99, .bds), (100, .qzs)]

/-- the satellites of the message, in the order in which their corrections were entered -/
def listed (e : LEnc) (sys : Sys) : List Int := e.order.filter fun s => (sat2prn s).1 = sys

/-- coefficients before and after; gradients only when the message carries them -/
def CoefRec (pgi : Prop) (c c' : List Val) : Prop :=
  ∃ y0 z0, c[0]? = some y0 ∧ Quant 17 (1 / 100) y0 z0 ∧
    ((¬ pgi ∧ c' = [z0]) ∨ (pgi ∧ ∃ y1 y2 z1 z2, c[1]? = some y1 ∧ c[2]? = some y2 ∧
      Quant 18 (1 / 1000) y1 z1 ∧ Quant 18 (1 / 1000) y2 z2 ∧ c' = [z0, z1, z2]))

/-- the slant delay residual of a satellite at grid point `j`: the residual `v` itself, or with the
second-order terms if the first of the three is not zero -/
def Resid (grid : List Row) (c d : List Val) (j : Nat) (y : ℚ) : Prop :=
  ∃ v, d[j]? = some (some v) ∧
    (((c[3]? = some none ∨ c[3]? = some (some 0)) ∧ y = v) ∨
     (∃ c3 c4 c5 r r0 la lo la0 lo0, c.drop 3 = [some c3, some c4, some c5] ∧ c3 ≠ 0 ∧
       grid[j]? = some r ∧ grid[0]? = some r0 ∧ r.lat = some la ∧ r.lon = some lo ∧ r0.lat = some la0 ∧
       r0.lon = some lo0 ∧
       y = v + ((la - la0) * (lo - lo0) * c3 + (la - la0) ^ 2 * c4 + (lo - lo0) ^ 2 * c5)))

/-- `z` is `y` cut off to a multiple of the unit, towards zero -/
def Cut (n : Nat) (unit y : ℚ) (z : Val) : Prop :=
  ∃ u : Int, |(u : ℚ) * unit - y| < unit ∧ |(u : ℚ) * unit| ≤ |y| ∧
    z = if u = -2 ^ (n - 1) then none else some (u * unit)

/-! ## Values -/

theorem vq_Quant {n : Nat} {scl : ℚ} {y : Val} (hs : 0 < scl) (hf : FitV n scl 0 y) :
    Quant n scl y (vq n scl 0 y) := by
  have h := C84.vq_Rec hs hf
  unfold C84.Rec at h
  have e : ∀ v : Val, (v.map fun x => x - 0) = v := by intro v; cases v <;> simp
  rwa [e, e] at h

theorem coef_rec {cs : Dict Int (List Val)} {pgi : Bool} {s : Int} (f : PolyFit cs pgi s) :
    ∃ c, Dict.get? cs s = some c ∧ CoefRec (pgi = true) c (polyQ cs pgi s) := by
  obtain ⟨c, hc, l0, l3⟩ := f.len
  have get : ∀ k, k < c.length → c[k]? = some (coef cs s k) := by
    intro k hk
    rw [List.getElem?_eq_getElem hk, coef_eq hc (List.getElem?_eq_getElem hk)]
  refine ⟨c, hc, coef cs s 0, vq 17 (1 / 100) 0 (coef cs s 0), get 0 l0, vq_Quant (by norm_num) f.c0, ?_⟩
  cases pgi with
  | false => exact Or.inl ⟨by simp, rfl⟩
  | true =>
    have l3' := l3 rfl
    exact Or.inr ⟨rfl, coef cs s 1, coef cs s 2, _, _, get 1 (by omega), get 2 (by omega),
      vq_Quant (by norm_num) (f.c1 rfl), vq_Quant (by norm_num) (f.c2 rfl), rfl⟩

theorem resid_spec {grid : List Row} {c d : List Val} {j : Nat} {y : ℚ}
    (h : resOf grid c d j = .ok (some y)) : Resid grid c d j y := by
  unfold resOf at h
  obtain ⟨v, hv, h⟩ := Py.bind_ok.1 h
  obtain ⟨c3, hc3, h⟩ := Py.bind_ok.1 h
  rw [pyGet_ok] at hv hc3
  cases c3 with
  | none =>
    dsimp only at h
    cases h
    exact ⟨y, hv, Or.inl ⟨Or.inl hc3, rfl⟩⟩
  | some x =>
    dsimp only at h
    by_cases c0 : x ≠ 0
    · rw [if_pos c0] at h
      obtain ⟨r, hr, h⟩ := Py.bind_ok.1 h
      obtain ⟨r0, hr0, h⟩ := Py.bind_ok.1 h
      rw [pyGet_ok] at hr hr0
      have hhead : (c.drop 3)[0]? = some (some x) := by rw [List.getElem?_drop]; exact hc3
      split at h
      · rename_i a b f hd
        rw [hd] at hhead
        simp only [List.getElem?_cons_zero, Option.some.injEq] at hhead
        subst hhead
        have key : ∀ {A A0 O O0 B F V : Val}, vadd V (vadd (vadd (vmul (vmul (vsub A A0) (vsub O O0)) (some x))
              (vmul (vmul (vsub A A0) (vsub A A0)) B)) (vmul (vmul (vsub O O0) (vsub O O0)) F)) = some y →
            ∃ la la0 lo lo0 c4 c5 v : ℚ, A = some la ∧ A0 = some la0 ∧ O = some lo ∧ O0 = some lo0 ∧
              B = some c4 ∧ F = some c5 ∧ V = some v ∧
              v + ((la - la0) * (lo - lo0) * x + (la - la0) * (la - la0) * c4 + (lo - lo0) * (lo - lo0) * c5) = y := by
          intro A A0 O O0 B F V hk
          cases A <;> cases A0 <;> cases O <;> cases O0 <;> cases B <;> cases F <;> cases V <;>
            simp [vadd, vsub, vmul] at hk
          exact ⟨_, _, _, _, _, _, _, rfl, rfl, rfl, rfl, rfl, rfl, rfl, hk⟩
        obtain ⟨la, la0, lo, lo0, c4, c5, w, hla, hla0, hlo, hlo0, rfl, rfl, hw, hy⟩ := key (Except.ok.inj h)
        rw [hw] at hv
        refine ⟨w, hv, Or.inr ⟨x, c4, c5, r, r0, la, lo, la0, lo0, hd, c0, hr, hr0, hla, hlo, hla0, hlo0, ?_⟩⟩
        rw [← hy]
        ring
      · cases h
    · rw [if_neg c0] at h
      cases h
      have : x = 0 := not_not.1 c0
      subst this
      exact ⟨y, hv, Or.inl ⟨Or.inr hc3, rfl⟩⟩

theorem trunc_abs (x : ℚ) : |(pyTrunc x : ℚ)| ≤ |x| := by
  unfold pyTrunc
  by_cases c : 0 ≤ x
  · rw [if_pos c, abs_of_nonneg c]
    have : (0 : Int) ≤ ⌊x⌋ := Int.floor_nonneg.2 c
    rw [abs_of_nonneg (by exact_mod_cast this)]
    exact Int.floor_le x
  · rw [if_neg c, abs_of_neg (not_le.1 c)]
    have h0 : (0 : Int) ≤ ⌊-x⌋ := Int.floor_nonneg.2 (by linarith [not_le.1 c])
    push_cast
    rw [abs_neg, abs_of_nonneg (by exact_mod_cast h0)]
    exact Int.floor_le (-x)

theorem cut_spec {n : Nat} {unit y : ℚ} (hu : 0 < unit) : Cut n unit y (sval (tq (some y) unit) n unit) := by
  refine ⟨pyTrunc (y / unit), ?_, ?_, rfl⟩
  · have hc := C84.pyTrunc_close (y / unit)
    have e : (pyTrunc (y / unit) : ℚ) * unit - y = ((pyTrunc (y / unit) : ℚ) - y / unit) * unit := by field_simp
    rw [e, abs_mul, abs_of_pos hu]
    nlinarith
  · have h := trunc_abs (y / unit)
    rw [abs_mul, abs_of_pos hu]
    rw [abs_div, abs_of_pos hu, le_div_iff₀ hu] at h
    exact h

theorem maxStype_spec {d : Option (Dict Int Nat)} : ∀ (l : List Int) (m r : Nat), maxStype d l m = .ok r →
    (0 < r ↔ 0 < m ∨ ∃ s ∈ l, ∃ ds t, d = some ds ∧ Dict.get? ds s = some t ∧ 0 < t)
  | [], m, r, h => by cases h; simp
  | s :: l, m, r, h => by
    unfold maxStype at h
    obtain ⟨d', hd, h⟩ := Py.bind_ok.1 h
    obtain ⟨t, ht, h⟩ := Py.bind_ok.1 h
    rw [Dict.getItem_ok_iff] at ht
    have e : d = some d' := by
      cases d with
      | none => cases hd
      | some x => cases hd; rfl
    rw [maxStype_spec l _ r h]
    constructor
    · rintro (h1 | ⟨s', hs', h2⟩)
      · by_cases c : m < t
        · rw [if_pos c] at h1
          exact Or.inr ⟨s, by simp, d', t, e, ht, h1⟩
        · rw [if_neg c] at h1
          exact Or.inl h1
      · exact Or.inr ⟨s', by simp [hs'], h2⟩
    · rintro (h1 | ⟨s', hs', ds, t', h2, h3, h4⟩)
      · left; split <;> omega
      · rcases List.mem_cons.1 hs' with rfl | hs'
        · rw [e] at h2
          cases h2
          rw [ht] at h3
          cases h3
          left; split <;> omega
        · exact Or.inr ⟨s', hs', ds, t', h2, h3, h4⟩

/-! ## The message -/

def resHead (net : Net) : List Bool := ub 12 net.ofst ++ (ub 12 net.ng ++ (ub 5 18 ++ ub 3 1))

theorem encodeIono_spec {e : LEnc} {p p' : Pos} {sys : Sys} (hm : 96 ≤ e.h.msgtype ∧ e.h.msgtype ≤ 100)
    (hs : sys = ionoSys e.h.msgtype) (h : encodeIono e p = .ok p') :
    ∃ net0 net cs st mask, e.lc[e.inet]? = some net0 ∧ e.lc[e.gid]? = some net ∧ net.ci = some cs ∧
      HeadFit e.h .stec sys ∧ FitU 10 (e.gid : Int) ∧ maxStype net.stype (listed e sys) 0 = .ok st ∧
      Mask.encodeMask ((listed e sys).map sat2svid) 64 = .ok mask ∧ FitU 64 (mask : Int) ∧
      (net0.flgStec / 2 % 2 = 1 → ∀ s ∈ listed e sys, PolyFit cs (decide (st > 0)) s) ∧
      (net0.flgStec % 2 = 1 → FitU 12 (net.ofst : Int) ∧ FitU 12 (net.ng : Int) ∧
        ∀ s ∈ listed e sys, SatFit (e.grid.filter fun r => r.nid = (e.inet : Int)) net s) ∧
      Wr p p' (headBits e.h .stec sys ++ (ub 10 e.gid ++ (ub 1 (net0.flgStec / 2 % 2 : Nat) ++
        (ub 1 (net0.flgStec % 2 : Nat) ++ (ub 64 mask ++
        ((if net0.flgStec / 2 % 2 = 1 then ub 1 (decide (st > 0)).toNat ++
            (listed e sys).flatMap (polyBits cs (decide (st > 0))) else []) ++
        (if net0.flgStec % 2 = 1 then resHead net ++ (listed e sys).flatMap
            (satBits (e.grid.filter fun r => r.nid = (e.inet : Int)) (net.ci.getD []) (net.dstec.getD []) net.ng
              net.ofst) else []))))))) := by
  have e76 : ¬ e.h.msgtype = 4076 := by omega
  unfold encodeIono encSys at h
  rw [if_neg e76, getSsrSys_iono hm, ← hs] at h
  simp only [Py.okBind] at h
  obtain ⟨p0, h0, h⟩ := Py.bind_ok.1 h
  obtain ⟨net0, hn0, h⟩ := Py.bind_ok.1 h
  obtain ⟨p1, h1, h⟩ := Py.bind_ok.1 h
  obtain ⟨p2, h2, h⟩ := Py.bind_ok.1 h
  obtain ⟨p3, h3, h⟩ := Py.bind_ok.1 h
  obtain ⟨net, hn, h⟩ := Py.bind_ok.1 h
  obtain ⟨cs, hcs, h⟩ := Py.bind_ok.1 h
  obtain ⟨st, hst, h⟩ := Py.bind_ok.1 h
  obtain ⟨mask, hmask, h⟩ := Py.bind_ok.1 h
  obtain ⟨p4, h4, h⟩ := Py.bind_ok.1 h
  obtain ⟨p5, h5, h⟩ : ∃ p5, (if net0.flgStec / 2 % 2 = 1 then do
        let p ← putU p4 1 (decide (st > 0)).toNat
        encodeLoop (putPoly net.ci (decide (st > 0))) (own sys e.order) p
      else .ok p4) = .ok p5 ∧ (if net0.flgStec % 2 = 1 then do
        let _ ← pyGet (e.grid.filter fun r : Row => r.nid = (e.inet : Int)) 0
        let p ← putU p5 12 net.ofst
        let p ← putU p 12 net.ng
        let p ← putU p 5 18
        let p ← putU p 3 1
        encodeLoop (putSatRes (e.grid.filter fun r => r.nid = (e.inet : Int)) net) (own sys e.order) p
      else .ok p5) = .ok p' := by
    by_cases c : net0.flgStec / 2 % 2 = 1
    · rw [if_pos c] at h ⊢
      obtain ⟨q, k1, h⟩ := Py.bind_ok.1 h
      obtain ⟨p5, k2, h⟩ := Py.bind_ok.1 h
      exact ⟨p5, Py.bind_ok.2 ⟨q, k1, k2⟩, h⟩
    · rw [if_neg c] at h ⊢
      exact ⟨p4, rfl, h⟩
  have eci : net.ci = some cs := by
    cases hci : net.ci with
    | none => rw [hci] at hcs; cases hcs
    | some x => rw [hci] at hcs; cases hcs; rfl
  have s0 := encodeHead_spec h0
  have s1 := putU_spec h1
  have s2 := putU_spec h2
  have s3 := putU_spec h3
  have s4 := putU_spec h4
  have key5 : (net0.flgStec / 2 % 2 = 1 → ∀ s ∈ listed e sys, PolyFit cs (decide (st > 0)) s) ∧
      Wr p4 p5 (if net0.flgStec / 2 % 2 = 1 then ub 1 (decide (st > 0)).toNat ++
            (listed e sys).flatMap (polyBits cs (decide (st > 0))) else []) := by
    by_cases c : net0.flgStec / 2 % 2 = 1
    · rw [if_pos c] at h5 ⊢
      obtain ⟨q, k1, k2⟩ := Py.bind_ok.1 h5
      have t1 := putU_spec k1
      rw [eci] at k2
      have t2 := loop_wr (fun s p p' hp => putPoly_spec s p p' hp) _ _ _ t1.2.le k2
      exact ⟨fun _ => t2.1, t1.2.trans t2.2⟩
    · rw [if_neg c] at h5 ⊢
      cases h5
      exact ⟨fun h => absurd h c, Wr.nil s4.2.le⟩
  have key6 : (net0.flgStec % 2 = 1 → FitU 12 (net.ofst : Int) ∧ FitU 12 (net.ng : Int) ∧
        ∀ s ∈ listed e sys, SatFit (e.grid.filter fun r => r.nid = (e.inet : Int)) net s) ∧
      Wr p5 p' (if net0.flgStec % 2 = 1 then resHead net ++ (listed e sys).flatMap
            (satBits (e.grid.filter fun r => r.nid = (e.inet : Int)) (net.ci.getD []) (net.dstec.getD []) net.ng
              net.ofst) else []) := by
    by_cases c : net0.flgStec % 2 = 1
    · rw [if_pos c] at h ⊢
      obtain ⟨_, _, h⟩ := Py.bind_ok.1 h
      obtain ⟨q1, k1, h⟩ := Py.bind_ok.1 h
      obtain ⟨q2, k2, h⟩ := Py.bind_ok.1 h
      obtain ⟨q3, k3, h⟩ := Py.bind_ok.1 h
      obtain ⟨q4, k4, h⟩ := Py.bind_ok.1 h
      have t1 := putU_spec k1
      have t2 := putU_spec k2
      have t3 := putU_spec k3
      have t4 := putU_spec k4
      have t5 := satLoop_wr _ _ _ t4.2.le h
      exact ⟨fun _ => ⟨t1.1, t2.1, t5.1⟩, (t1.2.trans (t2.2.trans (t3.2.trans t4.2))).trans t5.2⟩
    · rw [if_neg c] at h ⊢
      cases h
      exact ⟨fun h => absurd h c, Wr.nil key5.2.le⟩
  exact ⟨net0, net, cs, st, mask, pyGet_ok.1 hn0, pyGet_ok.1 hn, eci, s0.1, s1.1, hst, hmask, s4.1, key5.1, key6.1,
    s0.2.trans (s1.2.trans (s2.2.trans (s3.2.trans (s4.2.trans (key5.2.trans key6.2)))))⟩

theorem bit_fit (n : Nat) : FitU 1 ((n % 2 : Nat) : Int) := by unfold FitU; omega

/-- what the coefficients of the decoded network look like -/
def PolyRec (l l' : List Int) (pgi : Prop) (net net' : Net) : Prop :=
  ∃ ci st cs', net.ci = some ci ∧ net'.ci = some cs' ∧ net'.stype = some st ∧
    (∀ s, s ∉ l' → Dict.get? cs' s = none ∧ Dict.get? st s = none) ∧
    ∀ (k : Nat) (s s' : Int), l[k]? = some s → l'[k]? = some s' → ∃ c c' t, Dict.get? ci s = some c ∧
      Dict.get? cs' s' = some c' ∧ CoefRec pgi c c' ∧ Dict.get? st s' = some t ∧ (pgi → t = 1) ∧ (¬ pgi → t = 0)

/-- what the residuals of the decoded network look like -/
def ResidRec (grid : List Row) (l l' : List Int) (net net' : Net) : Prop :=
  ∃ ci ds', net.ci = some ci ∧ net'.dstec = some ds' ∧ (∀ s, s ∉ l' → Dict.get? ds' s = none) ∧
    net'.ng = net.ng ∧ net'.ofst = net.ofst ∧
    ∀ (k : Nat) (s s' : Int), l[k]? = some s → l'[k]? = some s' → ∃ c d', Dict.get? ci s = some c ∧
      Dict.get? ds' s' = some d' ∧ d'.length = net.ofst + net.ng ∧ (∀ j, j < net.ofst → d'[j]? = some (some 0)) ∧
      ∀ j, net.ofst ≤ j → j < net.ofst + net.ng → ∃ ds d y z, net.dstec = some ds ∧ Dict.get? ds s = some d ∧
        Resid grid c d j y ∧ d'[j]? = some z ∧ Cut 18 (2 / 1000) y z

/-- the decoder takes the `k`-th record of the message for the `k`-th satellite of the mask -/
theorem poly_rec {l l' : List Int} (hn : l'.Nodup) {net net' : Net}
    {cs : Dict Int (List Val)} {pgi : Bool} (hci : net.ci = some cs) (hf : ∀ s ∈ l, PolyFit cs pgi s)
    (h1 : net'.ci = some (fill l' (l.map (polyQ cs pgi)) []))
    (h2 : net'.stype = some (fill l' (l.map fun _ => pgi.toNat) [])) :
    PolyRec l l' (pgi = true) net net' := by
  refine ⟨cs, _, _, hci, h1, h2, fun s hs => ⟨?_, ?_⟩, ?_⟩
  · rw [fill_other _ _ _ _ hs]; rfl
  · rw [fill_other _ _ _ _ hs]; rfl
  · intro k s s' hk hk'
    have hmem := List.mem_of_getElem? hk
    obtain ⟨c, hc, hr⟩ := coef_rec (hf s hmem)
    refine ⟨c, polyQ cs pgi s, pgi.toNat, hc, ?_, hr, ?_, ?_, ?_⟩
    · exact fill_get _ _ _ hn k s' _ hk' (by rw [List.getElem?_map, hk]; rfl)
    · exact fill_get _ _ _ hn k s' _ hk' (by rw [List.getElem?_map, hk]; rfl)
    · rintro rfl; rfl
    · intro h; cases pgi with
      | false => rfl
      | true => exact absurd rfl h

theorem satQ_length (grid : List Row) (cs ds : Dict Int (List Val)) (ng ofst : Nat) (s : Int) :
    (satQ grid cs ds ng ofst s).length = ofst + ng := by
  unfold satQ
  rw [List.length_append, List.length_replicate, List.length_map, List.length_range']

theorem resid_rec {grid : List Row} {l l' : List Int} (hn : l'.Nodup) {net net' : Net}
    (hci : net.ci ≠ none) (hf : ∀ s ∈ l, SatFit grid net s)
    (h1 : net'.dstec = some (fill l' (l.map (satQ grid (net.ci.getD []) (net.dstec.getD []) net.ng net.ofst)) []))
    (h2 : net'.ng = net.ng) (h3 : net'.ofst = net.ofst) : ResidRec grid l l' net net' := by
  obtain ⟨cs, hcs⟩ := Option.ne_none_iff_exists'.1 hci
  refine ⟨cs, _, hcs, h1, fun s hs => ?_, h2, h3, ?_⟩
  · rw [fill_other _ _ _ _ hs]; rfl
  · intro k s s' hk hk'
    have f := hf s (List.mem_of_getElem? hk)
    obtain ⟨cs', e1, c, hc⟩ := f.ci
    rw [hcs] at e1
    cases e1
    have hg := fill_get l' (l.map (satQ grid (net.ci.getD []) (net.dstec.getD []) net.ng net.ofst)) [] hn k s' _
      hk' (by rw [List.getElem?_map, hk]; rfl)
    refine ⟨c, _, hc, hg, satQ_length .., ?_, ?_⟩
    · intro j hj
      unfold satQ
      rw [List.getElem?_append_left (by rw [List.length_replicate]; exact hj), List.getElem?_replicate, if_pos hj]
    · intro j hj1 hj2
      obtain ⟨ds, e2, d, hd⟩ := f.ds (by omega)
      obtain ⟨⟨y, hy⟩, _⟩ := f.res j hj1 hj2
      have e3 : entry (net.ci.getD []) s = c := by unfold entry; rw [hcs, Option.getD_some, hc, Option.getD_some]
      have e4 : entry (net.dstec.getD []) s = d := by unfold entry; rw [e2, Option.getD_some, hd, Option.getD_some]
      rw [e3, e4] at hy
      refine ⟨ds, d, y, _, e2, hd, resid_spec hy, ?_, cut_spec (n := 18) (unit := 2 / 1000) (y := y) (by norm_num)⟩
      unfold satQ
      rw [List.getElem?_append_right (by rw [List.length_replicate]; exact hj1), List.length_replicate,
        List.getElem?_map, List.getElem?_range' (by omega), e3, e4]
      have : net.ofst + 1 * (j - net.ofst) = j := by omega
      rw [this, Option.map_some]
      unfold resV
      rw [hy]

/-- **Round trip of the ionospheric correction.**  Whatever the encoder accepts, the decoder reads
to the last bit.  The satellites come out in ascending order; the records stay in the order of the
encoder, so the `k`-th record goes to the `k`-th satellite of the ascending list. -/
theorem iono_round_trip {e : LEnc} {p p' : Pos} (h : encodeIono e p = .ok p') {sys : Sys}
    (hsys : (e.h.msgtype, sys) ∈ sysOf) (hn : e.order.Nodup) (h1 : ∀ x ∈ e.order, 1 ≤ x) {net0 net : Net}
    (e0 : e.lc[e.inet]? = some net0) (e1 : e.lc[e.gid]? = some net) (s : St)
    (hm : s.d.msgtype = e.h.msgtype) {old : Net} (hold : s.lc[e.gid]? = some old) :
    ∃ (s' : St) (net' : Net) (l' : List Int), decodeIono s p'.1 p.2 = .ok (s', p'.2) ∧
      s'.lc = s.lc.set e.gid net' ∧ l'.Perm (listed e sys) ∧ l'.Pairwise (· < ·) ∧ net'.satN = l' ∧
      (net0.flgStec / 2 % 2 = 1 → PolyRec (listed e sys) l'
        (∃ x ∈ listed e sys, ∃ ds t, net.stype = some ds ∧ Dict.get? ds x = some t ∧ 0 < t) net net') ∧
      (net0.flgStec / 2 % 2 = 0 → net'.ci = old.ci ∧ net'.stype = old.stype) ∧
      (net0.flgStec % 2 = 1 → ResidRec (e.grid.filter fun r => r.nid = (e.inet : Int)) (listed e sys) l' net net') ∧
      (net0.flgStec % 2 = 0 → net'.dstec = old.dstec ∧ net'.ng = old.ng ∧ net'.ofst = old.ofst) ∧
      net'.flgStec = old.flgStec ∧ net'.flgTrop = old.flgTrop ∧ net'.ct = old.ct ∧ net'.maph = old.maph ∧
      net'.mapw = old.mapw ∧ net'.dth = old.dth ∧ net'.dtw = old.dtw ∧ s'.grid = s.grid ∧
      (s'.d.pid : Int) = e.h.pid ∧ (s'.d.sid : Int) = e.h.sid ∧
      (sys ≠ .glo → (s'.d.tow : Int) = e.h.tow ∧ s'.d.time = gpst2time s.d.week e.h.tow) ∧
      (sys = .glo → (s'.d.tod : Int) = e.h.tow) := by
  have hr : 96 ≤ e.h.msgtype ∧ e.h.msgtype ≤ 100 ∧ sys = ionoSys e.h.msgtype := by
    unfold sysOf at hsys
    simp only [List.mem_cons, Prod.mk.injEq, List.not_mem_nil, or_false] at hsys
    rcases hsys with ⟨a, b⟩ | ⟨a, b⟩ | ⟨a, b⟩ | ⟨a, b⟩ | ⟨a, b⟩ <;> rw [a, b] <;> simp [ionoSys]
  obtain ⟨net0', net1, cs, st, mask, k0, k1, hci, f0, fg, hst, hmask, fm, fp, fr, wr⟩ :=
    encodeIono_spec ⟨hr.1, hr.2.1⟩ hr.2.2 h
  rw [e0] at k0
  rw [e1] at k1
  cases k0
  cases k1
  have hl : ∀ x ∈ listed e sys, 1 ≤ x ∧ (sat2prn x).1 = ionoSys e.h.msgtype := by
    intro x hx
    unfold listed at hx
    rw [List.mem_filter] at hx
    exact ⟨h1 x hx.1, by rw [← hr.2.2]; simpa using hx.2⟩
  have hnl : (listed e sys).Nodup := hn.filter _
  obtain ⟨_, hperm, hasc⟩ := sats_spec hl hnl hmask
  rw [← hr.2.2] at hperm hasc
  have hmt := maxStype_spec _ _ _ hst
  simp only [Nat.lt_irrefl, false_or] at hmt
  generalize hl' : ((Mask.decodeMask mask 64 1).1.map fun v : Nat => svid2sat sys v) = l' at hperm hasc
  have hlen := hperm.length_eq.symm
  have hnd : l'.Nodup := hasc.imp fun h => ne_of_lt h
  have hpg : (∃ x ∈ listed e sys, ∃ ds t, net.stype = some ds ∧ Dict.get? ds x = some t ∧ 0 < t) =
      (decide (st > 0) = true) := by
    rw [decide_eq_true_iff]
    exact propext hmt.symm
  rw [hpg]
  generalize decide (st > 0) = pgi at *
  have hat := wr.at_
  have hpos := wr.pos
  have hget := getSsrSys_iono ⟨hr.1, hr.2.1⟩ s.d.sysref
  rw [← hr.2.2, ← hm] at hget
  obtain ⟨r0, hat⟩ := decodeHead_spec (d := s.d) (fun _ => hm) f0 hat
  rw [List.length_append, ← Nat.add_assoc] at hpos
  generalize p.2 + (headBits e.h .stec sys).length = i at *
  obtain ⟨r1, hat⟩ := stepU fg hat
  obtain ⟨r2, hat⟩ := stepU (bit_fit _) hat
  obtain ⟨r3, hat⟩ := stepU (bit_fit _) hat
  obtain ⟨r4, hat⟩ := stepU fm hat
  simp only [Nat.add_assoc, Nat.reduceAdd, Int.toNat_natCast] at r1 r2 r3 r4 hat
  generalize d0 : decodeIono s p'.1 p.2 = D
  unfold decodeIono at d0
  rw [hget] at d0
  simp only [Py.okBind] at d0
  rw [r0] at d0
  simp only [Py.okBind] at d0
  rw [r1] at d0
  simp only [Py.okBind] at d0
  rw [r2] at d0
  simp only [Py.okBind] at d0
  rw [r3] at d0
  simp only [Py.okBind] at d0
  rw [r4] at d0
  simp only [Py.okBind] at d0
  rw [pyGet_ok.2 hold] at d0
  simp only [Py.okBind] at d0
  rw [hl'] at d0
  have hgid : ((e.gid : Int)).toNat = e.gid := Int.toNat_natCast _
  have tail : ∀ (net' : Net) (s' : St), D = .ok (s', p'.2) → s'.lc = s.lc.set e.gid net' →
      s'.d = RtcmLoc.headState s.d e.h sys → s'.grid = s.grid → net'.satN = l' →
      (net0.flgStec / 2 % 2 = 1 → PolyRec (listed e sys) l' (pgi = true) net net') →
      (net0.flgStec / 2 % 2 = 0 → net'.ci = old.ci ∧ net'.stype = old.stype) →
      (net0.flgStec % 2 = 1 → ResidRec (e.grid.filter fun r => r.nid = (e.inet : Int)) (listed e sys) l' net net') →
      (net0.flgStec % 2 = 0 → net'.dstec = old.dstec ∧ net'.ng = old.ng ∧ net'.ofst = old.ofst) →
      (net'.flgStec = old.flgStec ∧ net'.flgTrop = old.flgTrop ∧ net'.ct = old.ct ∧ net'.maph = old.maph ∧
        net'.mapw = old.mapw ∧ net'.dth = old.dth ∧ net'.dtw = old.dtw) →
      ∃ (s' : St) (net' : Net) (l' : List Int), D = .ok (s', p'.2) ∧
      s'.lc = s.lc.set e.gid net' ∧ l'.Perm (listed e sys) ∧ l'.Pairwise (· < ·) ∧ net'.satN = l' ∧
      (net0.flgStec / 2 % 2 = 1 → PolyRec (listed e sys) l' (pgi = true) net net') ∧
      (net0.flgStec / 2 % 2 = 0 → net'.ci = old.ci ∧ net'.stype = old.stype) ∧
      (net0.flgStec % 2 = 1 → ResidRec (e.grid.filter fun r => r.nid = (e.inet : Int)) (listed e sys) l' net net') ∧
      (net0.flgStec % 2 = 0 → net'.dstec = old.dstec ∧ net'.ng = old.ng ∧ net'.ofst = old.ofst) ∧
      net'.flgStec = old.flgStec ∧ net'.flgTrop = old.flgTrop ∧ net'.ct = old.ct ∧ net'.maph = old.maph ∧
      net'.mapw = old.mapw ∧ net'.dth = old.dth ∧ net'.dtw = old.dtw ∧ s'.grid = s.grid ∧
      (s'.d.pid : Int) = e.h.pid ∧ (s'.d.sid : Int) = e.h.sid ∧
      (sys ≠ .glo → (s'.d.tow : Int) = e.h.tow ∧ s'.d.time = gpst2time s.d.week e.h.tow) ∧
      (sys = .glo → (s'.d.tod : Int) = e.h.tow) := by
    intro net' s' q1 q2 q3 q4 q5 q6 q7 q8 q9 ⟨q10, q11, q12, q13, q14, q15, q16⟩
    have ft := f0.tow
    have hne : ¬ e.h.msgtype = 4076 := by have := hr.2.1; omega
    refine ⟨s', net', l', q1, q2, hperm, hasc, q5, q6, q7, q8, q9, q10, q11, q12, q13, q14, q15, q16, q4, ?_⟩
    rw [q3]
    unfold RtcmLoc.headState
    by_cases c : sys = .glo
    · have c' : ¬ (e.h.msgtype = 4076 ∨ sys ≠ .glo) := by
        rintro (h | h)
        · exact hne h
        · exact h c
      rw [if_neg c'] at ft ⊢
      exact ⟨Int.toNat_of_nonneg f0.pid.1, Int.toNat_of_nonneg f0.sid.1, fun h => absurd c h,
        fun _ => Int.toNat_of_nonneg ft.1⟩
    · rw [if_pos (Or.inr c)] at ft ⊢
      exact ⟨Int.toNat_of_nonneg f0.pid.1, Int.toNat_of_nonneg f0.sid.1,
        fun _ => ⟨Int.toNat_of_nonneg ft.1, rfl⟩, fun h => absurd h c⟩
  have hbit : ∀ n : Nat, n % 2 = 0 ∨ n % 2 = 1 := fun n => by omega
  have hpg1 : FitU 1 (pgi.toNat : Int) := by unfold FitU; cases pgi <;> simp
  have hpg2 : (pgi.toNat == 1) = pgi := by cases pgi <;> rfl
  have hcn : net.ci ≠ none := by rw [hci]; simp
  have scl : (2 : ℚ) ^ (1 : Nat) / 1000 = 2 / 1000 := by norm_num
  have u18 : FitU 5 (18 : Int) := by unfold FitU; omega
  have u1 : FitU 3 (1 : Int) := by unfold FitU; omega
  have rd : net0.flgStec % 2 = 1 → ∀ j, At p'.1 j (resHead net ++ (listed e sys).flatMap
        (satBits (e.grid.filter fun r : Row => r.nid = (e.inet : Int)) (net.ci.getD []) (net.dstec.getD []) net.ng
          net.ofst)) → readU p'.1 j 12 = .ok net.ofst ∧ readU p'.1 (j + 12) 12 = .ok net.ng ∧
      readU p'.1 (j + 24) 5 = .ok 18 ∧ readU p'.1 (j + 29) 3 = .ok 1 ∧
      rdSatRes 18 (2 / 1000) net.ofst net.ng p'.1 l' [] (j + 32) =
        .ok (fill l' ((listed e sys).map (satQ (e.grid.filter fun r : Row => r.nid = (e.inet : Int))
          (net.ci.getD []) (net.dstec.getD []) net.ng net.ofst)) [],
          j + 32 + ((listed e sys).flatMap (satBits (e.grid.filter fun r : Row => r.nid = (e.inet : Int))
            (net.ci.getD []) (net.dstec.getD []) net.ng net.ofst)).length) := by
    intro hr1 j hj
    obtain ⟨fo, fn, fs⟩ := fr hr1
    unfold resHead at hj
    simp only [List.append_assoc] at hj
    obtain ⟨t1, hj⟩ := stepU fo hj
    obtain ⟨t2, hj⟩ := stepU fn hj
    obtain ⟨t3, hj⟩ := stepU u18 hj
    obtain ⟨t4, hj⟩ := stepU u1 hj
    rw [← List.append_nil (List.flatMap _ _)] at hj
    have t5 := rdSatRes_spec _ l' hlen fs [] _ hj
    simp only [Nat.add_assoc, Nat.reduceAdd, Int.toNat_natCast] at t1 t2 t3 t4 t5 ⊢
    exact ⟨t1, t2, t3, t4, t5⟩
  have rl : (resHead net).length = 32 := by
    unfold resHead; simp only [List.length_append, ub_length]
  rcases hbit (net0.flgStec / 2) with cp | cp <;> rcases hbit net0.flgStec with cr | cr
  · rw [if_neg (by omega), if_neg (by omega)] at hpos
    rw [if_neg (by omega)] at d0
    simp only [Py.okBind, pure, Except.pure] at d0
    rw [if_neg (by omega)] at d0
    simp only [List.length_append, ub_length, List.length_nil] at hpos
    refine tail _ _ (d0.symm.trans (congrArg (fun j => Except.ok (_, j)) ?_)) rfl rfl rfl rfl (fun h => by omega)
      (fun _ => ⟨rfl, rfl⟩) (fun h => by omega) (fun _ => ⟨rfl, rfl, rfl⟩) ⟨rfl, rfl, rfl, rfl, rfl, rfl, rfl⟩
    omega
  · rw [if_neg (by omega), if_pos cr] at hpos hat
    rw [List.nil_append] at hat
    rw [if_neg (by omega)] at d0
    simp only [Py.okBind, pure, Except.pure] at d0
    rw [if_pos cr] at d0
    obtain ⟨t1, t2, t3, t4, t5⟩ := rd cr _ hat
    rw [t1] at d0
    simp only [Py.okBind, pure, Except.pure, hpg2] at d0
    rw [t2] at d0
    simp only [Py.okBind, pure, Except.pure, hpg2] at d0
    rw [t3] at d0
    simp only [Py.okBind, pure, Except.pure, hpg2] at d0
    rw [if_pos (by omega)] at d0
    rw [t4] at d0
    simp only [Py.okBind, pure, Except.pure, hpg2] at d0
    rw [scl] at d0
    rw [t5] at d0
    simp only [Py.okBind, pure, Except.pure, hpg2] at d0
    simp only [List.length_append, ub_length, List.length_nil, rl] at hpos
    refine tail _ _ (d0.symm.trans (congrArg (fun j => Except.ok (_, j)) ?_)) rfl rfl rfl rfl (fun h => by omega)
      (fun _ => ⟨rfl, rfl⟩) (fun h => resid_rec hnd hcn (fr h).2.2 rfl rfl rfl) (fun h => by omega)
      ⟨rfl, rfl, rfl, rfl, rfl, rfl, rfl⟩
    omega
  · rw [if_pos cp, if_neg (by omega)] at hpos hat
    rw [if_pos cp] at d0
    rw [List.append_nil] at hpos
    rw [List.append_assoc] at hat
    obtain ⟨g1, hat⟩ := stepU hpg1 hat
    obtain ⟨g2, hat⟩ := rdPoly_spec _ l' hlen (fp cp) [] [] _ hat
    rw [Int.toNat_natCast] at g1
    rw [g1] at d0
    simp only [Py.okBind, pure, Except.pure, hpg2] at d0
    rw [g2] at d0
    simp only [Py.okBind, pure, Except.pure, hpg2] at d0
    rw [if_neg (by omega)] at d0
    simp only [List.length_append, ub_length, List.length_nil] at hpos
    refine tail _ _ (d0.symm.trans (congrArg (fun j => Except.ok (_, j)) ?_)) rfl rfl rfl rfl
      (fun h => poly_rec hnd hci (fp h) rfl rfl)
      (fun h => by omega) (fun h => by omega) (fun _ => ⟨rfl, rfl, rfl⟩) ⟨rfl, rfl, rfl, rfl, rfl, rfl, rfl⟩
    omega
  · rw [if_pos cp, if_pos cr] at hpos hat
    rw [if_pos cp] at d0
    rw [List.append_assoc] at hat
    obtain ⟨g1, hat⟩ := stepU hpg1 hat
    obtain ⟨g2, hat⟩ := rdPoly_spec _ l' hlen (fp cp) [] [] _ hat
    rw [Int.toNat_natCast] at g1
    rw [g1] at d0
    simp only [Py.okBind, pure, Except.pure, hpg2] at d0
    rw [g2] at d0
    simp only [Py.okBind, pure, Except.pure, hpg2] at d0
    rw [if_pos cr] at d0
    obtain ⟨t1, t2, t3, t4, t5⟩ := rd cr _ hat
    rw [t1] at d0
    simp only [Py.okBind, pure, Except.pure, hpg2] at d0
    rw [t2] at d0
    simp only [Py.okBind, pure, Except.pure, hpg2] at d0
    rw [t3] at d0
    simp only [Py.okBind, pure, Except.pure, hpg2] at d0
    rw [if_pos (by omega)] at d0
    rw [t4] at d0
    simp only [Py.okBind, pure, Except.pure, hpg2] at d0
    rw [scl] at d0
    rw [t5] at d0
    simp only [Py.okBind, pure, Except.pure, hpg2] at d0
    simp only [List.length_append, ub_length, rl] at hpos
    refine tail _ _ (d0.symm.trans (congrArg (fun j => Except.ok (_, j)) ?_)) rfl rfl rfl rfl
      (fun h => poly_rec hnd hci (fp h) rfl rfl)
      (fun h => by omega) (fun h => resid_rec hnd hcn (fr h).2.2 rfl rfl rfl) (fun h => by omega)
      ⟨rfl, rfl, rfl, rfl, rfl, rfl, rfl⟩
    omega

/-- Corollary: if the corrections were entered in ascending order of the satellites, every satellite
keeps its own record. -/
theorem iono_sorted {e : LEnc} {p p' : Pos} (h : encodeIono e p = .ok p') {sys : Sys}
    (hsys : (e.h.msgtype, sys) ∈ sysOf) (hasc : e.order.Pairwise (· < ·)) (h1 : ∀ x ∈ e.order, 1 ≤ x)
    {net0 net : Net} (e0 : e.lc[e.inet]? = some net0) (e1 : e.lc[e.gid]? = some net) (s : St)
    (hm : s.d.msgtype = e.h.msgtype) {old : Net} (hold : s.lc[e.gid]? = some old) :
    ∃ (s' : St) (net' : Net), decodeIono s p'.1 p.2 = .ok (s', p'.2) ∧ s'.lc[e.gid]? = some net' ∧
      net'.satN = listed e sys ∧
      (net0.flgStec / 2 % 2 = 1 → PolyRec (listed e sys) (listed e sys)
        (∃ x ∈ listed e sys, ∃ ds t, net.stype = some ds ∧ Dict.get? ds x = some t ∧ 0 < t) net net') ∧
      (net0.flgStec % 2 = 1 →
        ResidRec (e.grid.filter fun r => r.nid = (e.inet : Int)) (listed e sys) (listed e sys) net net') := by
  obtain ⟨s', net', l', a1, a2, a3, a4, a5, a6, _, a8, _⟩ :=
    iono_round_trip h hsys (hasc.imp fun h => ne_of_lt h) h1 e0 e1 s hm hold
  have e : l' = listed e sys := by
    have h2 : (listed e sys).Pairwise (· < ·) := hasc.filter _
    exact a3.eq_of_pairwise (fun a b _ _ h1 h2 => absurd (lt_trans h1 h2) (lt_irrefl a)) a4 h2
  rw [e] at a5 a6 a8
  refine ⟨s', net', a1, ?_, a5, a6, a8⟩
  have := (List.getElem?_eq_some_iff.1 hold).1
  rw [a2, List.getElem?_set_self this]

/-- A message with residuals at some point can only be written if every satellite has at least four
coefficients; so a network that came out of the decoder, with one or three coefficients, cannot be
encoded again. -/
theorem iono_four {e : LEnc} {p p' : Pos} (h : encodeIono e p = .ok p') {sys : Sys}
    (hsys : (e.h.msgtype, sys) ∈ sysOf) {net0 net : Net}
    (e0 : e.lc[e.inet]? = some net0) (e1 : e.lc[e.gid]? = some net) (hr : net0.flgStec % 2 = 1)
    (hg : 0 < net.ng) : ∀ x ∈ listed e sys, ∃ ci c, net.ci = some ci ∧ Dict.get? ci x = some c ∧ 4 ≤ c.length := by
  have hr' : 96 ≤ e.h.msgtype ∧ e.h.msgtype ≤ 100 ∧ sys = ionoSys e.h.msgtype := by
    unfold sysOf at hsys
    simp only [List.mem_cons, Prod.mk.injEq, List.not_mem_nil, or_false] at hsys
    rcases hsys with ⟨a, b⟩ | ⟨a, b⟩ | ⟨a, b⟩ | ⟨a, b⟩ | ⟨a, b⟩ <;> rw [a, b] <;> simp [ionoSys]
  obtain ⟨net0', net1, cs, st, mask, k0, k1, hci, f0, fg, hst, hmask, fm, fp, fr, wr⟩ :=
    encodeIono_spec ⟨hr'.1, hr'.2.1⟩ hr'.2.2 h
  rw [e0] at k0
  rw [e1] at k1
  cases k0
  cases k1
  intro x hx
  have f := (fr hr).2.2 x hx
  obtain ⟨cs', e2, c, hc⟩ := f.ci
  obtain ⟨⟨y, hy⟩, _⟩ := f.res net.ofst le_rfl (by omega)
  have e3 : entry (net.ci.getD []) x = c := by unfold entry; rw [e2, Option.getD_some, hc, Option.getD_some]
  rw [e3] at hy
  refine ⟨cs', c, e2, hc, ?_⟩
  obtain ⟨v, _, h3 | ⟨c3, c4, c5, _, _, _, _, _, _, hd, _⟩⟩ := resid_spec hy
  · rcases h3.1 with h3 | h3
    · exact (List.getElem?_eq_some_iff.1 h3).1
    · exact (List.getElem?_eq_some_iff.1 h3).1
  · have := congrArg List.length hd
    rw [List.length_drop] at this
    simp at this
    omega

/-- Grid numbers up to 1023 fit into the message; one that the decoder has no network for raises. -/
theorem iono_networks {e : LEnc} {p p' : Pos} (h : encodeIono e p = .ok p') {sys : Sys}
    (hsys : (e.h.msgtype, sys) ∈ sysOf) (s : St) (hm : s.d.msgtype = e.h.msgtype)
    (hl : s.lc.length ≤ e.gid) : decodeIono s p'.1 p.2 = .error .indexError := by
  have hr' : 96 ≤ e.h.msgtype ∧ e.h.msgtype ≤ 100 ∧ sys = ionoSys e.h.msgtype := by
    unfold sysOf at hsys
    simp only [List.mem_cons, Prod.mk.injEq, List.not_mem_nil, or_false] at hsys
    rcases hsys with ⟨a, b⟩ | ⟨a, b⟩ | ⟨a, b⟩ | ⟨a, b⟩ | ⟨a, b⟩ <;> rw [a, b] <;> simp [ionoSys]
  obtain ⟨net0', net1, cs, st, mask, k0, k1, hci, f0, fg, hst, hmask, fm, fp, fr, wr⟩ :=
    encodeIono_spec ⟨hr'.1, hr'.2.1⟩ hr'.2.2 h
  have hat := wr.at_
  have hget := getSsrSys_iono ⟨hr'.1, hr'.2.1⟩ s.d.sysref
  rw [← hr'.2.2, ← hm] at hget
  obtain ⟨r0, hat⟩ := decodeHead_spec (d := s.d) (fun _ => hm) f0 hat
  generalize p.2 + (headBits e.h .stec sys).length = i at *
  obtain ⟨r1, hat⟩ := stepU fg hat
  obtain ⟨r2, hat⟩ := stepU (bit_fit _) hat
  obtain ⟨r3, hat⟩ := stepU (bit_fit _) hat
  obtain ⟨r4, hat⟩ := stepU fm hat
  simp only [Nat.add_assoc, Nat.reduceAdd, Int.toNat_natCast] at r1 r2 r3 r4 hat
  have hno : pyGet s.lc e.gid = .error .indexError := by
    unfold pyGet
    rw [List.getElem?_eq_none hl]
  unfold decodeIono
  rw [hget]
  simp only [Py.okBind]
  rw [r0]
  simp only [Py.okBind]
  rw [r1]
  simp only [Py.okBind]
  rw [r2]
  simp only [Py.okBind]
  rw [r3]
  simp only [Py.okBind]
  rw [r4]
  simp only [Py.okBind]
  rw [hno]
  rfl

/-! ## Concrete cases -/

def exCi (a b : Int) : Dict Int (List Val) :=
  [(a, [some 5, some (1 / 1000), some (2 / 1000), some 0, some 7, some 8]),
   (b, [some (-3), some (4 / 1000), none, some (1 / 100), some 0, some 0])]

def exNet (a b : Int) : Net :=
  { flgStec := 3, ng := 2, ofst := 0, ci := some (exCi a b), stype := some [(a, 0), (b, 1)],
    dstec := some [(a, [some (1 / 100), some (3 / 1000)]), (b, [some (-5 / 1000), some 1])] }

def exEnc (a b : Int) : LEnc :=
  { h := { msgtype := 96, tow := 1000, pid := 7 }, gid := 1, inet := 1, lc := [{}, exNet a b], order := [a, b],
    grid := [⟨1, 1, some 35, some 139, some 0⟩, ⟨1, 2, some 36, some 141, some 0⟩] }

def exDec : St := { d := { msgtype := 96 } }

/-- two satellites in ascending order: the values of `iono_sorted`; the second residual of the second
satellite gets `1·2·0.01`, those of the first nothing, though it has second-order terms 7 and 8 -/
example : ((encodeIono (exEnc 3 9) (List.replicate 400 false, 12)).toOption.bind fun p =>
    (decodeIono exDec p.1 12).toOption.bind fun r => r.1.lc[1]?.map fun n =>
      (n.satN, n.ci.getD [])) =
    some ([3, 9], [(9, [some (-3 : ℚ), some (4 / 1000), none]), (3, [some 5, some (1 / 1000), some (2 / 1000)])]) := by decide +kernel

example : ((encodeIono (exEnc 3 9) (List.replicate 400 false, 12)).toOption.bind fun p =>
    (decodeIono exDec p.1 12).toOption.bind fun r => r.1.lc[1]?.map fun n => n.dstec.getD []) =
    some [(9, [some (-4 / 1000 : ℚ), some (102 / 100)]), (3, [some (1 / 100), some (2 / 1000)])] := by decide +kernel

/-- the same in descending order: each satellite gets the values of the other one -/
example : ((encodeIono (exEnc 9 3) (List.replicate 400 false, 12)).toOption.bind fun p =>
    (decodeIono exDec p.1 12).toOption.bind fun r => r.1.lc[1]?.map fun n => (n.satN, n.ci.getD [])) =
    some ([3, 9], [(9, [some (-3 : ℚ), some (4 / 1000), none]), (3, [some 5, some (1 / 1000), some (2 / 1000)])]) := by
  decide +kernel

/-- a satellite with three coefficients: `iono_four` -/
example : (encodeIono { exEnc 3 9 with lc := [{}, { exNet 3 9 with
      ci := some [(3, [some 5, some 0, some 0]), (9, [some 5, some 0, some 0])] }] }
    (List.replicate 400 false, 12)).toOption.isSome = false := by decide +kernel

/-- polynomial only, no gradients -/
example : ((encodeIono { exEnc 3 9 with lc := [{}, { exNet 3 9 with flgStec := 2, stype := some [(3, 0), (9, 0)] }] }
    (List.replicate 400 false, 12)).toOption.bind fun p =>
    (decodeIono exDec p.1 12).toOption.bind fun r => r.1.lc[1]?.map fun n => (n.ci.getD [], n.dstec.isNone)) =
    some ([(9, [some (-3 : ℚ)]), (3, [some 5])], true) := by decide +kernel

end Verif.C85
