import Verif.Model.Antenna
import Verif.Lemmas.Post
/-!
C105: antenna corrections.
-/

namespace Verif.C105
open Verif.Antenna Verif.Sat Verif.Sig

/-! ### interpolation of the variation -/

/-- the points are in strictly increasing order -/
def Inc : List (ℝ × ℝ) → Prop
  | p :: q :: l => p.1 < q.1 ∧ Inc (q :: l)
  | _ => True

theorem inc_le : ∀ (l : List (ℝ × ℝ)) (p : ℝ × ℝ), Inc (p :: l) → ∀ q ∈ l, p.1 < q.1
  | [], _, _, _, h => by simp at h
  | q :: l, p, hi, r, hr => by
    rcases List.mem_cons.1 hr with rfl | hr
    · exact hi.1
    · exact lt_trans hi.1 (inc_le l q hi.2 r hr)

/-- between neighbours the interpolation is the straight line -/
theorem interp_line : ∀ (u : List (ℝ × ℝ)) (p q : ℝ × ℝ) (v : List (ℝ × ℝ)) (x : ℝ), Inc (u ++ p :: q :: v) → p.1 ≤ x → x < q.1 →
    interpFrom x (u ++ p :: q :: v) = p.2 + (q.2 - p.2) / (q.1 - p.1) * (x - p.1)
  | [], p, q, v, x, _, _, h2 => by simp [interpFrom, h2]
  | [a], p, q, v, x, hi, h1, h2 => by
    simp only [List.cons_append, List.nil_append, interpFrom]
    rw [if_neg (not_lt.2 h1), if_pos h2]
  | a :: b :: u, p, q, v, x, hi, h1, h2 => by
    have hb : b.1 < p.1 := by
      refine inc_le (u ++ p :: q :: v) b hi.2 p (by simp)
    have := interp_line (b :: u) p q v x hi.2 h1 h2
    simp only [List.cons_append, interpFrom] at this ⊢
    rw [if_neg (by linarith)]
    exact this

/-- at and beyond the last point the last value -/
theorem interp_last : ∀ (u : List (ℝ × ℝ)) (p : ℝ × ℝ) (x : ℝ), Inc (u ++ [p]) → p.1 ≤ x → interpFrom x (u ++ [p]) = p.2
  | [], p, x, _, _ => rfl
  | [a], p, x, _, h => by
    simp only [List.cons_append, List.nil_append, interpFrom]
    rw [if_neg (not_lt.2 h)]
  | a :: b :: u, p, x, hi, h => by
    have hb : b.1 < p.1 := inc_le (u ++ [p]) b hi.2 p (by simp)
    have := interp_last (b :: u) p x hi.2 h
    simp only [List.cons_append, interpFrom] at this ⊢
    rw [if_neg (by linarith)]
    exact this

/-- the value never leaves the range of the table -/
theorem interp_range (lo hi : ℝ) : ∀ (l : List (ℝ × ℝ)) (p : ℝ × ℝ) (x : ℝ), Inc (p :: l) → p.1 ≤ x →
    (∀ q ∈ p :: l, lo ≤ q.2 ∧ q.2 ≤ hi) → lo ≤ interpFrom x (p :: l) ∧ interpFrom x (p :: l) ≤ hi
  | [], p, x, _, _, h => h p (by simp)
  | q :: l, p, x, hi', hx, h => by
    simp only [interpFrom]
    split_ifs with c
    · have hp := h p (by simp)
      have hq := h q (by simp)
      have hd : 0 < q.1 - p.1 := by linarith [hi'.1]
      set t := (x - p.1) / (q.1 - p.1) with ht
      have e : (q.2 - p.2) / (q.1 - p.1) * (x - p.1) = (q.2 - p.2) * t := by rw [ht]; ring
      have t0 : 0 ≤ t := div_nonneg (by linarith) hd.le
      have t1 : t ≤ 1 := (div_le_one hd).2 (by linarith)
      rw [e]
      constructor <;> nlinarith
    · exact interp_range lo hi l q x hi'.2 (not_lt.1 c) (fun r hr => h r (by simp [hr]))

/-- the number of angles, and the angles, if the range is a multiple of the step -/
theorem grid_eq (a : Ant) (m : Nat) (hd : 0 < a.dzen) (h : a.zen1 = a.zen0 + m * a.dzen) :
    grid a = (List.range (m + 1)).map fun k : Nat => a.zen0 + k * a.dzen := by
  unfold grid arange
  have : (a.zen1 + a.dzen - a.zen0) / a.dzen = ((m + 1 : Nat) : ℝ) := by
    rw [h]; push_cast; field_simp; ring
  rw [this, Int.ceil_natCast, Int.toNat_natCast]

/-- the points of the variation -/
def pts (z d : ℝ) : Nat → List ℝ → List (ℝ × ℝ)
  | _, [] => []
  | k, v :: l => (z + k * d, v) :: pts z d (k + 1) l

theorem pts_eq (z d : ℝ) : ∀ (l : List ℝ) (k : Nat),
    ((List.range' k l.length).map fun k : Nat => z + k * d).zip l = pts z d k l
  | [], k => by simp [pts]
  | v :: l, k => by simp [pts, List.range'_succ, pts_eq z d l (k + 1)]

theorem pts_inc (z d : ℝ) (hd : 0 < d) : ∀ (l : List ℝ) (k : Nat), Inc (pts z d k l)
  | [], _ => trivial
  | [_], _ => trivial
  | _ :: w :: l, k => by
    refine ⟨?_, pts_inc z d hd (w :: l) (k + 1)⟩
    push_cast; nlinarith

theorem pts_split (z d : ℝ) : ∀ (u : List ℝ) (v : List ℝ) (k : Nat), pts z d k (u ++ v) = pts z d k u ++ pts z d (k + u.length) v
  | [], v, k => by simp [pts]
  | a :: u, v, k => by simp [pts, pts_split z d u v (k + 1), Nat.add_assoc, Nat.add_comm 1]

/-- the antenna has a table for the signal with one value for each angle of its grid -/
structure Table (a : Ant) (var : List ℝ) : Prop where
  step : 0 < a.dzen
  start : a.zen1 = a.zen0 + (var.length - 1 : Nat) * a.dzen
  some : var ≠ []

theorem interp_table {a : Ant} {var : List ℝ} (h : Table a var) (x : ℝ) :
    ∃ v l, var = v :: l ∧ interp x (grid a) var = .ok (if x < a.zen0 then v else interpFrom x (pts a.zen0 a.dzen 0 var)) := by
  obtain ⟨v, l, rfl⟩ := List.exists_cons_of_ne_nil h.some
  refine ⟨v, l, rfl, ?_⟩
  have hg : grid a = (List.range' 0 (v :: l).length).map fun k : Nat => a.zen0 + k * a.dzen := by
    rw [grid_eq a _ h.step h.start, List.range_eq_range']
    simp
  unfold interp
  rw [if_neg (by rw [hg]; simp [List.range'_succ]), hg, pts_eq]
  simp only [pts, Nat.cast_zero, zero_mul, add_zero]

/-- the variation at an angle between the angles k and k+1 of the grid -/
theorem variation_between {a : Ant} {var : List ℝ} (h : Table a var) (x : ℝ) (k : Nat) (hk : k + 1 < var.length)
    (h1 : a.zen0 + k * a.dzen ≤ x) (h2 : x < a.zen0 + (k + 1) * a.dzen) :
    interp x (grid a) var = .ok (var[k] + (var[k + 1] - var[k]) * ((x - (a.zen0 + k * a.dzen)) / a.dzen)) := by
  obtain ⟨v, l, e, hi⟩ := interp_table h x
  have hx : ¬ x < a.zen0 := by
    have : 0 ≤ (k : ℝ) * a.dzen := mul_nonneg (Nat.cast_nonneg k) h.step.le
    linarith
  rw [hi, if_neg hx]
  have hs : var = var.take k ++ var[k] :: var[k + 1] :: var.drop (k + 2) := by
    rw [List.getElem_cons_drop, List.getElem_cons_drop, List.take_append_drop]
  have hl : (var.take k).length = k := by simp; omega
  have hp : pts a.zen0 a.dzen 0 var = pts a.zen0 a.dzen 0 (var.take k) ++
      (a.zen0 + k * a.dzen, var[k]) :: (a.zen0 + ((k + 1 : Nat) : ℝ) * a.dzen, var[k + 1]) :: pts a.zen0 a.dzen (k + 2) (var.drop (k + 2)) := by
    conv_lhs => rw [hs, pts_split, hl]
    simp [pts]
  have hinc := pts_inc a.zen0 a.dzen h.step var 0
  rw [hp] at hinc ⊢
  rw [interp_line _ _ _ _ x hinc h1 (by push_cast; exact h2)]
  congr 1
  have hd := h.step.ne'
  have : (a.zen0 + ((k + 1 : Nat) : ℝ) * a.dzen - (a.zen0 + k * a.dzen)) = a.dzen := by push_cast; ring
  simp only [this]
  field_simp

/-- beyond the grid the first or the last value -/
theorem variation_outside {a : Ant} {var : List ℝ} (h : Table a var) (x : ℝ) :
    (x < a.zen0 → interp x (grid a) var = .ok (var.head h.some)) ∧ (a.zen1 ≤ x → interp x (grid a) var = .ok (var.getLast h.some)) := by
  obtain ⟨v, l, e, hi⟩ := interp_table h x
  refine ⟨fun hx => by rw [hi, if_pos hx]; simp [e], fun hx => ?_⟩
  have h0 : ¬ x < a.zen0 := by
    have := h.start
    have : 0 ≤ ((var.length - 1 : Nat) : ℝ) * a.dzen := mul_nonneg (Nat.cast_nonneg _) h.step.le
    linarith
  rw [hi, if_neg h0]
  have hs : var = var.dropLast ++ [var.getLast h.some] := (List.dropLast_append_getLast h.some).symm
  have hp : pts a.zen0 a.dzen 0 var = pts a.zen0 a.dzen 0 var.dropLast ++ [(a.zen1, var.getLast h.some)] := by
    conv_lhs => rw [hs, pts_split]
    simp [pts, h.start]
  have hinc := pts_inc a.zen0 a.dzen h.step var 0
  rw [hp] at hinc ⊢
  rw [interp_last _ _ x hinc hx]

/-! ### signals -/

/-- a signal is reduced to its band -/
theorem phase_band (sys : Sys) (t : Typ) (n : Int) (h : n ∈ uSIG) (hn : n ≠ -1) : phase ⟨sys, t, n⟩ = .ok ⟨sys, .L, n / 100 * 100⟩ := by
  have key : ∀ sys ∈ [Sys.none, .gps, .gal, .qzs, .bds, .glo, .sbs, .irn], ∀ n ∈ uSIG, n ≠ -1 →
      toAtt ⟨sys, .L, n⟩ [] = .ok ⟨sys, .L, n / 100 * 100⟩ := by decide +kernel
  exact key sys (by cases sys <;> simp) n h hn

/-- the substitute for a band an antenna of a receiver has no offset for: constellation, band, band of GPS taken instead -/
def rxRules : List ((Sys × Int) × Int) :=
  [((.gps, 5), 2), ((.glo, 1), 1), ((.glo, 2), 2), ((.glo, 3), 2), ((.gal, 1), 1), ((.gal, 5), 2), ((.gal, 6), 2), ((.gal, 7), 2), ((.gal, 8), 2),
   ((.bds, 1), 1), ((.bds, 2), 1), ((.bds, 5), 2), ((.bds, 6), 2), ((.bds, 7), 2), ((.bds, 8), 2), ((.qzs, 1), 1), ((.qzs, 2), 2), ((.qzs, 5), 2),
   ((.qzs, 6), 2), ((.irn, 5), 2), ((.sbs, 1), 1), ((.sbs, 5), 2)]

/-- a receiving antenna: the band of the signal itself if the antenna has it; otherwise a GPS band after the table above; if there is no
rule the band stays -/
theorem rx_signal (a : Ant) (sys : Sys) (t : Typ) (n : Int) (h : n ∈ uSIG) (hn : n ≠ -1) :
    substRx a ⟨sys, t, n⟩ = .ok (
      if (a.off ⟨sys, .L, n / 100 * 100⟩).isSome then ⟨sys, .L, n / 100 * 100⟩
      else match rxRules.lookup (sys, n / 100) with
        | some b => ⟨.gps, .L, b * 100⟩
        | none => ⟨sys, .L, n / 100 * 100⟩) := by
  have key : ∀ sys ∈ [Sys.none, .gps, .gal, .qzs, .bds, .glo, .sbs, .irn], ∀ n ∈ uSIG, n ≠ -1 →
      otherRx ⟨sys, .L, n / 100 * 100⟩ = (match rxRules.lookup (sys, n / 100) with
        | some b => ⟨.gps, .L, b * 100⟩
        | none => ⟨sys, .L, n / 100 * 100⟩) := by decide +kernel
  have k := key sys (by cases sys <;> simp) n h hn
  simp only [substRx, phase_band sys t n h hn, Py.okBind]
  by_cases c : (a.off ⟨sys, .L, n / 100 * 100⟩).isSome
  · rw [if_pos c, if_pos c]; rfl
  · rw [if_neg c, if_neg c, k]; rfl

/-- a transmitting antenna: the band itself, or another one of the same constellation -/
theorem tx_signal (a : Ant) (sys : Sys) (t : Typ) (n : Int) (h : n ∈ uSIG) (hn : n ≠ -1) :
    ∃ s, substTx a ⟨sys, t, n⟩ = .ok s ∧ s.sys = sys ∧
      ((a.off ⟨sys, .L, n / 100 * 100⟩).isSome → s = ⟨sys, .L, n / 100 * 100⟩) ∧
      (s ≠ ⟨sys, .L, n / 100 * 100⟩ → (sys, n / 100, s.sig) ∈ [(Sys.gps, 5, 200), (.glo, 3, 200), (.bds, 8, 500)]) := by
  simp only [substTx, phase_band sys t n h hn, Py.okBind]
  by_cases c : (a.off ⟨sys, .L, n / 100 * 100⟩).isSome
  · exact ⟨_, by rw [if_pos c]; rfl, rfl, fun _ => rfl, fun c' => absurd rfl c'⟩
  · refine ⟨_, by rw [if_neg c]; rfl, ?_, fun c' => absurd c' c, ?_⟩
    · unfold otherTx; split_ifs <;> simp_all
    · unfold otherTx
      cases sys <;> simp <;> split_ifs <;> simp_all <;> omega

/-! ### receiving antenna -/

/-- the correction: offset along the direction, and variation, in metres; NaN without offset or variation -/
theorem receiver (a : Ant) (e : V3) (s s' : Sig) (hs : substRx a s = .ok s') :
    (∀ off var v, a.off s' = some off → a.var s' = some var → interp (zenith (e 2)) (grid a) var = .ok v →
      rxOne a e s = .ok (some ((v - (off 0 * e 0 + off 1 * e 1 + off 2 * e 2)) / 1000))) ∧
    ((a.off s' = none ∨ a.var s' = none) → rxOne a e s = .ok none) := by
  constructor
  · intro off var v h1 h2 h3
    simp only [rxOne, hs, Py.okBind, h1, h2, h3, dot]
    show Except.ok _ = _
    congr 2
    ring
  · intro h
    simp only [rxOne, hs, Py.okBind]
    rcases h with h | h
    · rw [h]; rfl
    · rw [h]; cases a.off s' <;> rfl

/-! ### transmitting antenna -/

/-- without antenna no corrections -/
theorem no_antenna (A : Fin 3 → V3) (e : V3) (sigs : List Sig) (ref : Option (List (ℝ × Sig))) (l : List (ℝ × Sig)) :
    antModelTx none A e sigs ref = .ok none ∧ apc2com none A l = .ok none := ⟨rfl, rfl⟩

/-- the correction of a signal with respect to the reference -/
theorem transmitter (a : Ant) (A : Fin 3 → V3) (e o : V3) (s s' : Sig) (off : V3) (var : List ℝ) (v : ℝ) (hs : substTx a s = .ok s')
    (h1 : a.off s' = some off) (h2 : a.var s' = some var) (h3 : interp (zenith (dot (A 2) (-e))) (grid a) var = .ok v) :
    txOne a A e (some o) s = .ok (some ((dot (toEcef A off) e - dot (toEcef A o) e + v) / 1000)) := by
  simp only [txOne, hs, Py.okBind, h1, h2, h3, Option.map_some]
  show Except.ok _ = _
  congr 2
  simp only [dot, toEcef, Pi.neg_apply]
  ring

/-- a signal without offset raises an exception; without variation, or with an unknown reference, it is NaN -/
theorem transmitter_missing (a : Ant) (A : Fin 3 → V3) (e : V3) (o : Option V3) (s s' : Sig) (hs : substTx a s = .ok s') :
    (a.off s' = none → txOne a A e o s = .error .keyError) ∧
    (∀ off, a.off s' = some off → a.var s' = none → txOne a A e o s = .ok none) ∧
    (∀ off var v, a.off s' = some off → a.var s' = some var → interp (zenith (dot (A 2) (-e))) (grid a) var = .ok v →
      txOne a A e none s = .ok none) := by
  refine ⟨fun h => ?_, fun off h1 h2 => ?_, fun off var v h1 h2 h3 => ?_⟩
  · simp only [txOne, hs, Py.okBind, h]
  · simp only [txOne, hs, Py.okBind, h1, h2]; rfl
  · simp only [txOne, hs, Py.okBind, h1, h2, h3]; rfl

/-- the offset of one reference signal -/
theorem one_reference (a : Ant) (f : ℝ) (s s' : Sig) (off : V3) (hs : substTx a s = .ok s') (h : a.off s' = some off) :
    refOff a (some [(f, s)]) = .ok (some off) := by
  simp only [refOff, List.map_cons, List.map_nil, weights, Py.okBind, List.zip_cons_cons, List.zip_nil_left, List.foldlM_cons, List.foldlM_nil,
    addRef, hs, h, Option.map_some]
  show Except.ok _ = _
  congr 2
  funext k
  simp

/-- the offset of two reference signals: without first-order ionosphere -/
theorem two_references (a : Ant) (f g : ℝ) (s t s' t' : Sig) (o p : V3) (hf : f ^ 2 - g ^ 2 ≠ 0) (hs : substTx a s = .ok s')
    (ht : substTx a t = .ok t') (h1 : a.off s' = some o) (h2 : a.off t' = some p) :
    ∃ r, refOff a (some [(f, s), (g, t)]) = .ok (some r) ∧ ∀ k, (f ^ 2 - g ^ 2) * r k = f ^ 2 * o k - g ^ 2 * p k := by
  refine ⟨fun k => 0 + f ^ 2 / (f ^ 2 - g ^ 2) * o k + -g ^ 2 / (f ^ 2 - g ^ 2) * p k, ?_, ?_⟩
  · simp only [refOff, List.map_cons, List.map_nil, weights, if_neg hf, Py.okBind, List.zip_cons_cons, List.zip_nil_left, List.foldlM_cons,
      List.foldlM_nil, addRef, hs, ht, h1, h2, Option.map_some]
    rfl
  · intro k
    field_simp
    ring

/-- a signal that is itself the reference has no correction but the variation -/
theorem own_reference (a : Ant) (A : Fin 3 → V3) (e : V3) (f : ℝ) (s s' : Sig) (off : V3) (var : List ℝ) (v : ℝ) (hs : substTx a s = .ok s')
    (h1 : a.off s' = some off) (h2 : a.var s' = some var) (h3 : interp (zenith (dot (A 2) (-e))) (grid a) var = .ok v) :
    antModelTx (some a) A e [s] (some [(f, s)]) = .ok (some [some (v / 1000)]) := by
  have e1 := one_reference a f s s' off hs h1
  have e2 := transmitter a A e off s s' off var v hs h1 h2 h3
  simp only [antModelTx, e1, Py.okBind, List.mapM_cons, List.mapM_nil, e2, sub_self, zero_add]
  rfl

/-- **ionosphere-free reference**: the combination of the corrections of the two reference signals has the variations only -/
theorem free_reference (a : Ant) (A : Fin 3 → V3) (e : V3) (f g : ℝ) (s t s' t' : Sig) (o p : V3) (vs vt : List ℝ) (x y : ℝ)
    (hf : f ^ 2 - g ^ 2 ≠ 0) (hs : substTx a s = .ok s') (ht : substTx a t = .ok t') (h1 : a.off s' = some o) (h2 : a.off t' = some p)
    (h3 : a.var s' = some vs) (h4 : a.var t' = some vt) (h5 : interp (zenith (dot (A 2) (-e))) (grid a) vs = .ok x)
    (h6 : interp (zenith (dot (A 2) (-e))) (grid a) vt = .ok y) :
    ∃ d d', antModelTx (some a) A e [s, t] (some [(f, s), (g, t)]) = .ok (some [some d, some d']) ∧
      f ^ 2 * d - g ^ 2 * d' = (f ^ 2 * x - g ^ 2 * y) / 1000 := by
  obtain ⟨r, e1, hr⟩ := two_references a f g s t s' t' o p hf hs ht h1 h2
  have e2 := transmitter a A e r s s' o vs x hs h1 h3 h5
  have e3 := transmitter a A e r t t' p vt y ht h2 h4 h6
  refine ⟨_, _, by simp only [antModelTx, e1, Py.okBind, List.mapM_cons, List.mapM_nil, e2, e3]; rfl, ?_⟩
  have r0 := hr 0
  have r1 := hr 1
  have r2 := hr 2
  simp only [dot, toEcef]
  linear_combination (A 0 0 * e 0 + A 0 1 * e 1 + A 0 2 * e 2) * (-r0 / 1000) + (A 1 0 * e 0 + A 1 1 * e 1 + A 1 2 * e 2) * (-r1 / 1000) +
    (A 2 0 * e 0 + A 2 1 * e 1 + A 2 2 * e 2) * (-r2 / 1000)

/-- **the shift of the position and the reference agree**: the offset of the reference that `antModelTx` subtracts is, along the
direction, the shift from antenna to centre of mass by `apc2com` -/
theorem shift_agrees (a : Ant) (A : Fin 3 → V3) (e : V3) (f g : ℝ) (s t s' t' : Sig) (o p : V3) (hf : f ^ 2 - g ^ 2 ≠ 0)
    (hs : substTx a s = .ok s') (ht : substTx a t = .ok t') (h1 : a.off s' = some o) (h2 : a.off t' = some p) :
    ∃ r dr, refOff a (some [(f, s), (g, t)]) = .ok (some r) ∧ apc2com (some a) A [(f, s), (g, t)] = .ok (some dr) ∧
      dot dr e = -(dot (toEcef A r) e) / 1000 := by
  obtain ⟨r, e1, hr⟩ := two_references a f g s t s' t' o p hf hs ht h1 h2
  refine ⟨r, fun k => 0 - toEcef A (fun j => f ^ 2 / (f ^ 2 - g ^ 2) * o j * (1 / 1000)) k -
    toEcef A (fun j => -g ^ 2 / (f ^ 2 - g ^ 2) * p j * (1 / 1000)) k, e1, ?_, ?_⟩
  · simp only [apc2com, List.length_cons, List.length_nil, List.map_cons, List.map_nil, weights, if_neg hf, Py.okBind, List.zip_cons_cons,
      List.zip_nil_left, List.foldlM_cons, List.foldlM_nil, comOne, hs, ht, h1, h2]
    rfl
  · have hk : ∀ k, r k = f ^ 2 / (f ^ 2 - g ^ 2) * o k + -g ^ 2 / (f ^ 2 - g ^ 2) * p k := by
      intro k
      have := hr k
      field_simp
      linarith
    simp only [dot, toEcef, hk]
    ring

/-- a shift needs one or two signals -/
theorem shift_count (a : Ant) (A : Fin 3 → V3) (l : List (ℝ × Sig)) (h : l.length = 0 ∨ 3 ≤ l.length) : apc2com (some a) A l = .ok none := by
  simp only [apc2com, if_neg (show ¬ (l.length = 1 ∨ l.length = 2) by omega)]

/-! ### attitude -/

theorem norm_pos {v : V3} (h : v ≠ 0) : 0 < norm3 v := by
  unfold norm3
  apply Real.sqrt_pos.2
  by_contra c
  apply h
  simp only [dot] at c
  have h0 : v 0 = 0 := by nlinarith [sq_nonneg (v 0), sq_nonneg (v 1), sq_nonneg (v 2)]
  have h1 : v 1 = 0 := by nlinarith [sq_nonneg (v 0), sq_nonneg (v 1), sq_nonneg (v 2)]
  have h2 : v 2 = 0 := by nlinarith [sq_nonneg (v 0), sq_nonneg (v 1), sq_nonneg (v 2)]
  funext k
  fin_cases k <;> simp [h0, h1, h2]

theorem unit_dot {v : V3} (h : v ≠ 0) (w : V3) : dot (unit3 v) w * norm3 v = dot v w := by
  have := (norm_pos h).ne'
  simp only [dot, unit3]
  field_simp

theorem norm_sq {v : V3} : norm3 v * norm3 v = dot v v := by
  unfold norm3
  apply Real.mul_self_sqrt
  simp only [dot]
  nlinarith [sq_nonneg (v 0), sq_nonneg (v 1), sq_nonneg (v 2)]

theorem unit_one {v : V3} (h : v ≠ 0) : dot (unit3 v) (unit3 v) = 1 := by
  have hp := (norm_pos h).ne'
  have h1 := norm_sq (v := v)
  simp only [dot] at h1
  simp only [dot, unit3]
  field_simp
  linarith

/-- **attitude**: if Earth, satellite and Sun are not on a line, the axes are orthonormal and right-handed, the z axis points to the centre of
the Earth, the y axis is perpendicular to the direction of the Sun, and the Sun is on the side of positive x -/
theorem attitude (rs rsun : V3) (h1 : (fun k => -rs k) ≠ (0 : V3)) (h2 : (fun k => rsun k - rs k) ≠ (0 : V3))
    (h3 : cross (unit3 fun k => -rs k) (unit3 fun k => rsun k - rs k) ≠ 0) :
    let A := orb2ecef rs rsun
    (∀ i j, dot (A i) (A j) = if i = j then 1 else 0) ∧ cross (A 0) (A 1) = A 2 ∧ (∀ k, A 2 k * norm3 (fun k => -rs k) = -rs k) ∧
      dot (A 1) (fun k => rsun k - rs k) = 0 ∧ 0 < dot (A 0) (fun k => rsun k - rs k) := by
  have hs := norm_pos h2
  have e2 := unit_dot h2
  have z1 := unit_one h1
  have zr : ∀ k, unit3 (fun k => -rs k) k * norm3 (fun k => -rs k) = -rs k := fun k => by
    have := (norm_pos h1).ne'
    simp only [unit3]; field_simp
  have sr : ∀ w : V3, dot w (fun k => rsun k - rs k) = dot w (unit3 fun k => rsun k - rs k) * norm3 (fun k => rsun k - rs k) := fun w => by
    have := hs.ne'
    simp only [dot, unit3]; field_simp
  simp only [orb2ecef]
  generalize unit3 (fun k => -rs k) = z at *
  generalize unit3 (fun k => rsun k - rs k) = t at *
  have y1 := unit_one h3
  have yp := norm_pos h3
  have yn := norm_sq (v := cross z t)
  have yz : ∀ w, dot (unit3 (cross z t)) w * norm3 (cross z t) = dot (cross z t) w := unit_dot h3
  generalize norm3 (cross z t) = n at *
  generalize unit3 (cross z t) = y at *
  have hz : dot y z = 0 := by
    have := yz z
    have h0 : dot (cross z t) z = 0 := by simp [dot, cross]; ring
    rw [h0] at this
    rcases mul_eq_zero.1 this with h | h
    · exact h
    · exact absurd h yp.ne'
  have ht : dot y t = 0 := by
    have := yz t
    have h0 : dot (cross z t) t = 0 := by simp [dot, cross]; ring
    rw [h0] at this
    rcases mul_eq_zero.1 this with h | h
    · exact h
    · exact absurd h yp.ne'
  have hx : dot (cross y z) t = n := by
    have := yz (cross z t)
    rw [← yn] at this
    have h0 : dot y (cross z t) = n := mul_right_cancel₀ yp.ne' this
    rw [← h0]
    simp [dot, cross]; ring
  have xx : dot (cross y z) (cross y z) = 1 := by
    have : dot (cross y z) (cross y z) = dot y y * dot z z - dot y z * dot y z := by simp [dot, cross]; ring
    rw [this, y1, z1, hz]; ring
  have xy : dot (cross y z) y = 0 := by simp [dot, cross]; ring
  have xz : dot (cross y z) z = 0 := by simp [dot, cross]; ring
  have comm : ∀ a b : V3, dot a b = dot b a := fun a b => by simp only [dot]; ring
  refine ⟨?_, ?_, fun k => by simpa using zr k, ?_, ?_⟩
  · intro i j
    fin_cases i <;> fin_cases j <;> simp [xx, xy, xz, y1, z1, hz, comm y (cross y z), comm z (cross y z), comm z y]
  · have e : cross (cross y z) y = fun k => dot y y * z k - dot y z * y k := by
      funext k
      fin_cases k <;> simp [dot, cross] <;> ring
    simp only [Matrix.cons_val_zero, Matrix.cons_val_one, Matrix.cons_val]
    rw [e, y1, hz]
    funext k
    simp
  · simp only [Matrix.cons_val_one, Matrix.cons_val_zero]
    rw [sr, ht, zero_mul]
  · simp only [Matrix.cons_val_zero]
    rw [sr, hx]
    positivity

example : cross (unit3 fun k => -(![1, 0, 0] : V3) k) (unit3 fun k => (![0, 1, 0] : V3) k - (![1, 0, 0] : V3) k) ≠ 0 := by
  intro h
  have := congrFun h 2
  have hn : norm3 (fun k => (![0, 1, 0] : V3) k - (![1, 0, 0] : V3) k) ≠ 0 := by
    simp [norm3, dot]
  have hm : norm3 (fun k => -(![1, 0, 0] : V3) k) ≠ 0 := by simp [norm3, dot]
  simp [cross, unit3] at this
  tauto

/-! ### example -/

/-- an antenna with L1 and L2 of GPS -/
noncomputable def exAnt : Ant :=
  ⟨0, 90, 45, fun s => if s = ⟨.gps, .L, 100⟩ ∨ s = ⟨.gps, .L, 200⟩ then some ![1, 2, 80] else none,
    fun s => if s = ⟨.gps, .L, 100⟩ ∨ s = ⟨.gps, .L, 200⟩ then some [0, -1, 3] else none⟩

example : Table exAnt [0, -1, 3] := ⟨by norm_num [exAnt], by norm_num [exAnt], by simp⟩

/-- Galileo E5a is corrected with GPS L2 -/
example : substRx exAnt ⟨.gal, .C, 517⟩ = .ok ⟨.gps, .L, 200⟩ := by
  simp only [substRx, phase_band .gal .C 517 (by decide) (by decide), Py.okBind]
  rw [if_neg (by simp [exAnt])]
  rfl

example : (154 : ℝ) ^ 2 - 120 ^ 2 ≠ 0 := by norm_num

end Verif.C105
