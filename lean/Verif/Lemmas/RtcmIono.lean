import Verif.Lemmas.RtcmLoc
import Verif.Props.C10
import Mathlib.Data.List.Perm.Basic
/-!
Bit layout of the RTCM regional ionospheric correction.
-/

namespace Verif.RtcmLoc
open Verif.Sat Verif.Time Verif.Sval Verif.RtcmTypes Verif.RtcmSsr

/-! ### satellites -/

/-- the constellation of messages 96 to 100 -/
def ionoSys (m : Nat) : Sys :=
  if m = 96 then .gps else if m = 97 then .glo else if m = 98 then .gal else if m = 99 then .bds else .qzs

theorem getSsrSys_iono {m : Nat} (h : 96 ≤ m ∧ m ≤ 100) (r : Sys) : getSsrSys r m = .ok (ionoSys m) := by
  have : m = 96 ∨ m = 97 ∨ m = 98 ∨ m = 99 ∨ m = 100 := by omega
  rcases this with rfl | rfl | rfl | rfl | rfl <;> rfl

theorem ionoSys_cases (m : Nat) : ionoSys m = .gps ∨ ionoSys m = .glo ∨ ionoSys m = .gal ∨ ionoSys m = .bds ∨
    ionoSys m = .qzs := by
  unfold ionoSys
  split
  · simp
  · split
    · simp
    · split
      · simp
      · split <;> simp

theorem svid2sat_add (m : Nat) (v : Int) :
    svid2sat (ionoSys m) v = svid2sat (ionoSys m) 0 + v := by
  rcases ionoSys_cases m with e | e | e | e | e <;> rw [e] <;>
    simp [svid2sat, prn2sat, galMin, qzsMin, bdsMin, gloMin] <;> omega

theorem svid_spec {m : Nat} {s : Int} (hs : 1 ≤ s) (h : (sat2prn s).1 = ionoSys m) :
    ∃ v : Nat, sat2svid s = v ∧ 1 ≤ v ∧ v < 1 + 64 ∧ svid2sat (ionoSys m) v = s := by
  unfold sat2svid svid2sat
  have hm := ionoSys_cases m
  have hc := C01.sat2prn_cases s
  generalize ionoSys m = y at *
  rcases hc with ⟨_, e⟩ | ⟨_, _, e⟩ | ⟨_, _, e⟩ | ⟨_, _, e⟩ | ⟨_, _, e⟩ | ⟨_, _, e⟩ | ⟨_, _, e⟩ | ⟨_, e⟩ <;>
    rw [e] at h ⊢ <;> simp only at h <;> subst h
  · exact ⟨s.toNat, by simp; omega, by omega, by omega, by simp [prn2sat]; omega⟩
  · exact ⟨(s - 32).toNat, by simp; omega, by omega, by omega, by simp [prn2sat, galMin]; omega⟩
  · exact ⟨(s - 68).toNat, by simp; omega, by omega, by omega, by simp [prn2sat, qzsMin]; omega⟩
  · exact ⟨(s - 85).toNat, by simp; omega, by omega, by omega, by simp [prn2sat, bdsMin]; omega⟩
  · exact ⟨(s - 148).toNat, by simp; omega, by omega, by omega, by simp [prn2sat, gloMin]; omega⟩
  · simp at hm
  · simp at hm
  · simp at hm

/-- the satellites the decoder finds in the mask: those of the encoder in ascending order -/
theorem sats_spec {m : Nat} {l : List Int} (hl : ∀ s ∈ l, 1 ≤ s ∧ (sat2prn s).1 = ionoSys m) (hn : l.Nodup)
    {mask : Nat} (h : Mask.encodeMask (l.map sat2svid) 64 = .ok mask) :
    mask < 2 ^ 64 ∧ ((Mask.decodeMask mask 64 1).1.map fun v : Nat => svid2sat (ionoSys m) v).Perm l ∧
      ((Mask.decodeMask mask 64 1).1.map fun v : Nat => svid2sat (ionoSys m) v).Pairwise (· < ·) := by
  have hv : ∀ p ∈ l.map (fun s => (sat2svid s).toNat), 1 ≤ p ∧ p < 1 + 64 := by
    intro p hp
    obtain ⟨s, hs, rfl⟩ := List.mem_map.1 hp
    obtain ⟨v, e, h1, h2, _⟩ := svid_spec (hl s hs).1 (hl s hs).2
    rw [e]
    simp only [Int.toNat_natCast]
    exact ⟨h1, h2⟩
  obtain ⟨d, hd, hlt, hp, hmem⟩ := C10.decode_encode _ 64 1 hv
  have e : ((l.map fun s => (sat2svid s).toNat).map fun p : Nat => (p : Int)) = l.map sat2svid := by
    rw [List.map_map]
    refine List.map_congr_left fun s hs => ?_
    obtain ⟨v, e, h1, h2, _⟩ := svid_spec (hl s hs).1 (hl s hs).2
    simp only [Function.comp_apply, e, Int.toNat_natCast]
  rw [e] at hd
  have e2 : d = mask := by
    have := hd.symm.trans h
    simpa using this
  subst e2
  have hpw : ((Mask.decodeMask d 64 1).1.map fun v : Nat => svid2sat (ionoSys m) v).Pairwise (· < ·) := by
    rw [List.pairwise_map]
    refine hp.imp ?_
    intro a b hab
    rw [svid2sat_add m a, svid2sat_add m b]
    omega
  refine ⟨hlt, ?_, hpw⟩
  refine (List.perm_ext_iff_of_nodup (hpw.imp fun h => ne_of_lt h) hn).2 fun s => ?_
  simp only [List.mem_map]
  constructor
  · rintro ⟨v, hv', rfl⟩
    obtain ⟨s, hs, e3⟩ := List.mem_map.1 ((hmem v).1 hv')
    obtain ⟨w, e4, _, _, h4⟩ := svid_spec (hl s hs).1 (hl s hs).2
    rw [e4, Int.toNat_natCast] at e3
    rw [← e3, h4]
    exact hs
  · intro hs
    obtain ⟨w, e4, _, _, h4⟩ := svid_spec (hl s hs).1 (hl s hs).2
    exact ⟨w, (hmem w).2 (List.mem_map.2 ⟨s, hs, by rw [e4, Int.toNat_natCast]⟩), h4⟩

/-! ### dictionaries filled in a loop -/

/-- `for k: d[keys[k]] = vals[k]` -/
def fill {α : Type} : List Int → List α → Dict Int α → Dict Int α
  | s :: l, v :: vs, d => fill l vs (d.set s v)
  | _, _, d => d

theorem fill_other {α : Type} : ∀ (l : List Int) (vs : List α) (d : Dict Int α) (s : Int), s ∉ l →
    Dict.get? (fill l vs d) s = Dict.get? d s
  | [], _, _, _, _ => by unfold fill; rfl
  | _ :: _, [], _, _, _ => rfl
  | a :: l, v :: vs, d, s, h => by
    simp only [List.mem_cons, not_or] at h
    rw [fill, fill_other l vs _ s h.2, Dict.get?_set, if_neg h.1]

theorem fill_get {α : Type} : ∀ (l : List Int) (vs : List α) (d : Dict Int α), l.Nodup →
    ∀ (k : Nat) (s : Int) (v : α), l[k]? = some s → vs[k]? = some v → Dict.get? (fill l vs d) s = some v
  | [], _, _, _, _, _, _, h, _ => by simp at h
  | _ :: _, [], _, _, _, _, _, _, h => by simp at h
  | a :: l, x :: vs, d, hn, 0, s, v, h1, h2 => by
    simp only [List.getElem?_cons_zero, Option.some.injEq] at h1 h2
    subst h1 h2
    rw [List.nodup_cons] at hn
    rw [fill, fill_other l vs _ a hn.1, Dict.get?_set, if_pos rfl]
  | a :: l, x :: vs, d, hn, k + 1, s, v, h1, h2 => by
    rw [List.getElem?_cons_succ] at h1 h2
    rw [List.nodup_cons] at hn
    rw [fill]
    exact fill_get l vs _ hn.2 k s v h1 h2

/-! ### polynomial part -/

/-- coefficient `k` of a satellite -/
def coef (cs : Dict Int (List Val)) (s : Int) (k : Nat) : Val := (((Dict.get? cs s).getD [])[k]?).getD none

def polyBits (cs : Dict Int (List Val)) (pgi : Bool) (s : Int) : List Bool :=
  vb 17 (1 / 100) 0 (coef cs s 0) ++
    if pgi then vb 18 (1 / 1000) 0 (coef cs s 1) ++ vb 18 (1 / 1000) 0 (coef cs s 2) else []

structure PolyFit (cs : Dict Int (List Val)) (pgi : Bool) (s : Int) : Prop where
  len : ∃ c, Dict.get? cs s = some c ∧ 1 ≤ c.length ∧ (pgi = true → 3 ≤ c.length)
  c0 : FitV 17 (1 / 100) 0 (coef cs s 0)
  c1 : pgi = true → FitV 18 (1 / 1000) 0 (coef cs s 1)
  c2 : pgi = true → FitV 18 (1 / 1000) 0 (coef cs s 2)

theorem coef_eq {cs : Dict Int (List Val)} {s : Int} {c : List Val} {k : Nat} {y : Val}
    (h : Dict.get? cs s = some c) (hk : c[k]? = some y) : coef cs s k = y := by
  unfold coef
  rw [h, Option.getD_some, hk, Option.getD_some]

theorem putPoly_spec {cs : Dict Int (List Val)} {pgi : Bool} (s : Int) (p p' : Pos)
    (h : putPoly (some cs) pgi s p = .ok p') : PolyFit cs pgi s ∧ Wr p p' (polyBits cs pgi s) := by
  unfold putPoly at h
  obtain ⟨d, hd, h⟩ := Py.bind_ok.1 h
  cases hd
  obtain ⟨c, hc, h⟩ := Py.bind_ok.1 h
  rw [Dict.getItem_ok_iff] at hc
  obtain ⟨y0, h0, h⟩ := Py.bind_ok.1 h
  rw [pyGet_ok] at h0
  obtain ⟨p1, h1, h⟩ := Py.bind_ok.1 h
  have s1 := putV_spec h1
  have l0 := (List.getElem?_eq_some_iff.1 h0).1
  rw [← coef_eq hc h0] at s1
  cases pgi with
  | false =>
    simp only [Bool.false_eq_true, if_false] at h
    cases h
    refine ⟨⟨⟨c, hc, l0, (fun h => by cases h)⟩, s1.1, (fun h => by cases h), (fun h => by cases h)⟩, ?_⟩
    unfold polyBits
    rw [if_neg (by simp), List.append_nil]
    exact s1.2
  | true =>
    rw [if_pos rfl] at h
    obtain ⟨y1, k1, h⟩ := Py.bind_ok.1 h
    obtain ⟨y2, k2, h⟩ := Py.bind_ok.1 h
    obtain ⟨p2, h2, h3⟩ := Py.bind_ok.1 h
    rw [pyGet_ok] at k1 k2
    have l2 := (List.getElem?_eq_some_iff.1 k2).1
    have s2 := putV_spec h2
    have s3 := putV_spec h3
    rw [← coef_eq hc k1] at s2
    rw [← coef_eq hc k2] at s3
    refine ⟨⟨⟨c, hc, l0, fun _ => l2⟩, s1.1, fun _ => s2.1, fun _ => s3.1⟩, ?_⟩
    unfold polyBits
    rw [if_pos rfl]
    exact s1.2.trans (s2.2.trans s3.2)

/-- the coefficients read back -/
def polyQ (cs : Dict Int (List Val)) (pgi : Bool) (s : Int) : List Val :=
  if pgi then [vq 17 (1 / 100) 0 (coef cs s 0), vq 18 (1 / 1000) 0 (coef cs s 1), vq 18 (1 / 1000) 0 (coef cs s 2)]
  else [vq 17 (1 / 100) 0 (coef cs s 0)]

theorem rdPoly_spec {cs : Dict Int (List Val)} {pgi : Bool} {b : BitBuf} {t : List Bool} :
    ∀ (l l' : List Int), l.length = l'.length → (∀ s ∈ l, PolyFit cs pgi s) →
    ∀ (ci : Dict Int (List Val)) (st : Dict Int Nat) (i : Nat), At b i (l.flatMap (polyBits cs pgi) ++ t) →
      rdPoly pgi b l' ci st i = .ok (fill l' (l.map (polyQ cs pgi)) ci,
        fill l' (l.map fun _ => pgi.toNat) st, i + (l.flatMap (polyBits cs pgi)).length) ∧
      At b (i + (l.flatMap (polyBits cs pgi)).length) t
  | [], [], _, _, ci, st, i, h => ⟨rfl, h.tail⟩
  | s :: l, s' :: l', hl, hf, ci, st, i, h => by
    have hend := h.tail
    refine ⟨?_, hend⟩
    simp only [List.length_cons, Nat.add_right_cancel_iff] at hl
    have f := hf s (by simp)
    have hf' : ∀ s ∈ l, PolyFit cs pgi s := fun x hx => hf x (by simp [hx])
    rw [List.flatMap_cons] at h ⊢
    unfold rdPoly
    cases pgi with
    | false =>
      unfold polyBits at h
      rw [if_neg (by simp), List.append_nil, List.append_assoc] at h
      obtain ⟨r1, h⟩ := stepV f.c0 h
      have ih := (rdPoly_spec l l' hl hf' (ci.set s' (polyQ cs false s)) (st.set s' 0) _ h).1
      rw [r1]
      simp only [Py.okBind, Bool.false_eq_true, if_false]
      simp only [polyQ, Bool.false_eq_true, if_false] at ih
      rw [ih]
      have e : (polyBits cs false s).length = 17 := by
        unfold polyBits; rw [if_neg (by simp), List.append_nil, sb_length]
      simp only [List.map_cons, fill, List.length_append, e, Nat.add_assoc, Bool.toNat_false, polyQ,
        Bool.false_eq_true, if_false]
    | true =>
      unfold polyBits at h
      rw [if_pos rfl] at h
      simp only [List.append_assoc] at h
      obtain ⟨r1, h⟩ := stepV f.c0 h
      obtain ⟨r2, h⟩ := stepV (f.c1 rfl) h
      obtain ⟨r3, h⟩ := stepV (f.c2 rfl) h
      have ih := (rdPoly_spec l l' hl hf' (ci.set s' (polyQ cs true s)) (st.set s' 1) _ h).1
      rw [r1]
      simp only [Py.okBind, if_true]
      rw [r2]
      simp only [Py.okBind]
      rw [r3]
      simp only [Py.okBind]
      simp only [polyQ, if_true] at ih
      rw [ih]
      have e : (polyBits cs true s).length = 53 := by
        unfold polyBits; rw [if_pos rfl]; simp only [List.length_append, sb_length]
      simp only [List.map_cons, fill, List.length_append, e, Nat.add_assoc, Bool.toNat_true, polyQ, if_true]
      congr 3
      omega

/-! ### residual part -/

/-- value written for a satellite at point `j` -/
def resV (grid : List Row) (c d : List Val) (j : Nat) : Val :=
  match resOf grid c d j with
  | .ok y => y
  | .error _ => none

def stecBits (grid : List Row) (c d : List Val) : Nat → Nat → List Bool
  | 0, _ => []
  | n + 1, j => sb 18 (tq (resV grid c d j) (2 / 1000)) ++ stecBits grid c d n (j + 1)

def StecFit (grid : List Row) (c d : List Val) (j : Nat) : Prop :=
  (∃ y, resOf grid c d j = .ok (some y)) ∧ FitS 18 (tq (resV grid c d j) (2 / 1000))

theorem putStecRes_spec {grid : List Row} {c d : List Val} : ∀ (n j : Nat) {p p' : Pos}, p.2 ≤ p.1.length →
    putStecRes grid c d n j p = .ok p' →
    (∀ k, j ≤ k → k < j + n → StecFit grid c d k) ∧ Wr p p' (stecBits grid c d n j)
  | 0, j, p, p', hp, h => by
    cases h
    exact ⟨fun k _ _ => absurd ‹k < j + 0› (by omega), Wr.nil hp⟩
  | n + 1, j, p, p', hp, h => by
    unfold putStecRes at h
    obtain ⟨y, hy, h⟩ := Py.bind_ok.1 h
    obtain ⟨u, hu, h⟩ := Py.bind_ok.1 h
    obtain ⟨p1, h1, h⟩ := Py.bind_ok.1 h
    obtain ⟨⟨a, ha⟩, u2⟩ := truncDiv_ok hu
    have s1 := putS_spec h1
    have e : resV grid c d j = y := by unfold resV; rw [hy]
    rw [u2, ← e] at s1
    have s2 := putStecRes_spec n (j + 1) s1.2.le h
    refine ⟨fun k h1 h2 => ?_, s1.2.trans s2.2⟩
    by_cases ek : k = j
    · subst ek
      exact ⟨⟨a, by rw [hy, ha]⟩, s1.1⟩
    · exact s2.1 k (by omega) (by omega)

theorem rdStecRes_spec {grid : List Row} {c d : List Val} {b : BitBuf} {t : List Bool} : ∀ (n j i : Nat),
    (∀ k, j ≤ k → k < j + n → StecFit grid c d k) → At b i (stecBits grid c d n j ++ t) →
    rdStecRes 18 (2 / 1000) b n i = .ok ((List.range' j n).map fun k => sval (tq (resV grid c d k) (2 / 1000)) 18 (2 / 1000),
      i + (stecBits grid c d n j).length)
  | 0, j, i, _, _ => rfl
  | n + 1, j, i, hf, h => by
    unfold rdStecRes
    unfold stecBits at h
    rw [List.append_assoc] at h
    obtain ⟨r1, h⟩ := stepS (hf j (by omega) (by omega)).2 h
    have ih := rdStecRes_spec n (j + 1) (i + 18) (fun k h1 h2 => hf k (by omega) (by omega)) h
    rw [if_neg (by omega), r1]
    simp only [Py.okBind]
    rw [ih]
    simp only [Py.okBind, pure, Except.pure, List.range'_succ, List.map_cons, stecBits, List.length_append,
      sb_length, Nat.add_assoc]

def entry (ds : Dict Int (List Val)) (s : Int) : List Val := (Dict.get? ds s).getD []

def satBits (grid : List Row) (cs ds : Dict Int (List Val)) (ng ofst : Nat) (s : Int) : List Bool :=
  stecBits grid (entry cs s) (entry ds s) ng ofst

structure SatFit (grid : List Row) (net : Net) (s : Int) : Prop where
  ci : ∃ cs, net.ci = some cs ∧ ∃ c, Dict.get? cs s = some c
  ds : 0 < net.ng → ∃ ds, net.dstec = some ds ∧ ∃ d, Dict.get? ds s = some d
  res : ∀ k, net.ofst ≤ k → k < net.ofst + net.ng →
    StecFit grid (entry (net.ci.getD []) s) (entry (net.dstec.getD []) s) k

theorem putSatRes_spec {grid : List Row} {net : Net} (s : Int) (p p' : Pos) (hp : p.2 ≤ p.1.length)
    (h : putSatRes grid net s p = .ok p') : SatFit grid net s ∧
      Wr p p' (satBits grid (net.ci.getD []) (net.dstec.getD []) net.ng net.ofst s) := by
  unfold putSatRes at h
  obtain ⟨cs, hcs, h⟩ := Py.bind_ok.1 h
  obtain ⟨c, hc, h⟩ := Py.bind_ok.1 h
  rw [Dict.getItem_ok_iff] at hc
  have e1 : net.ci = some cs := by
    cases hci : net.ci with
    | none => rw [hci] at hcs; cases hcs
    | some x => rw [hci] at hcs; cases hcs; rfl
  by_cases c0 : net.ng = 0
  · rw [if_pos c0] at h
    cases h
    refine ⟨⟨⟨cs, e1, c, hc⟩, fun h => by omega, fun k h1 h2 => by omega⟩, ?_⟩
    unfold satBits
    rw [c0]
    exact Wr.nil hp
  · rw [if_neg c0] at h
    obtain ⟨ds, hds, h⟩ := Py.bind_ok.1 h
    obtain ⟨d, hd, h⟩ := Py.bind_ok.1 h
    rw [Dict.getItem_ok_iff] at hd
    have e2 : net.dstec = some ds := by
      cases hci : net.dstec with
      | none => rw [hci] at hds; cases hds
      | some x => rw [hci] at hds; cases hds; rfl
    have s1 := putStecRes_spec net.ng net.ofst hp h
    have e3 : entry (net.ci.getD []) s = c := by unfold entry; rw [e1, Option.getD_some, hc, Option.getD_some]
    have e4 : entry (net.dstec.getD []) s = d := by unfold entry; rw [e2, Option.getD_some, hd, Option.getD_some]
    refine ⟨⟨⟨cs, e1, c, hc⟩, fun _ => ⟨ds, e2, d, hd⟩, ?_⟩, ?_⟩
    · rw [e3, e4]; exact s1.1
    · unfold satBits; rw [e3, e4]; exact s1.2

/-- the loop over the satellites, whose writer needs the position to lie in the buffer -/
theorem satLoop_wr {grid : List Row} {net : Net} : ∀ (l : List Int) (p p' : Pos), p.2 ≤ p.1.length →
    encodeLoop (putSatRes grid net) l p = .ok p' → (∀ s ∈ l, SatFit grid net s) ∧
      Wr p p' (l.flatMap (satBits grid (net.ci.getD []) (net.dstec.getD []) net.ng net.ofst))
  | [], p, p', hp, h => by
    unfold encodeLoop at h
    rw [List.foldlM_nil] at h
    cases h
    exact ⟨by simp, Wr.nil hp⟩
  | s :: l, p, p', hp, h => by
    unfold encodeLoop at h
    rw [List.foldlM_cons] at h
    obtain ⟨q, h1, h2⟩ := Py.bind_ok.1 h
    obtain ⟨a, b⟩ := putSatRes_spec s p q hp h1
    obtain ⟨c, d⟩ := satLoop_wr l q p' b.le h2
    refine ⟨?_, ?_⟩
    · intro x hx
      rcases List.mem_cons.1 hx with e | e
      · rw [e]; exact a
      · exact c x e
    · rw [List.flatMap_cons]; exact b.trans d

/-- the residuals read back -/
def satQ (grid : List Row) (cs ds : Dict Int (List Val)) (ng ofst : Nat) (s : Int) : List Val :=
  List.replicate ofst (some 0) ++ (List.range' ofst ng).map fun k =>
    sval (tq (resV grid (entry cs s) (entry ds s) k) (2 / 1000)) 18 (2 / 1000)

theorem rdSatRes_spec {grid : List Row} {net : Net} {b : BitBuf} {t : List Bool} :
    ∀ (l l' : List Int), l.length = l'.length → (∀ s ∈ l, SatFit grid net s) →
    ∀ (ds : Dict Int (List Val)) (i : Nat),
      At b i (l.flatMap (satBits grid (net.ci.getD []) (net.dstec.getD []) net.ng net.ofst) ++ t) →
      rdSatRes 18 (2 / 1000) net.ofst net.ng b l' ds i =
        .ok (fill l' (l.map (satQ grid (net.ci.getD []) (net.dstec.getD []) net.ng net.ofst)) ds,
        i + (l.flatMap (satBits grid (net.ci.getD []) (net.dstec.getD []) net.ng net.ofst)).length)
  | [], [], _, _, ds, i, h => rfl
  | s :: l, s' :: l', hl, hf, ds, i, h => by
    simp only [List.length_cons, Nat.add_right_cancel_iff] at hl
    have f := hf s (by simp)
    rw [List.flatMap_cons, List.append_assoc] at h
    have r1 := rdStecRes_spec net.ng net.ofst i f.res h
    have ih := rdSatRes_spec l l' hl (fun x hx => hf x (by simp [hx]))
      (ds.set s' (satQ grid (net.ci.getD []) (net.dstec.getD []) net.ng net.ofst s)) _ h.tail
    unfold rdSatRes
    rw [r1]
    simp only [Py.okBind]
    refine ih.trans ?_
    rw [List.map_cons, fill, List.flatMap_cons, List.length_append, ← Nat.add_assoc]

end Verif.RtcmLoc
