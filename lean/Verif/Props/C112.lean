import Verif.Model.BasePair
import Verif.Lemmas.Post
import Mathlib.Data.List.Basic
import Mathlib.Data.List.Nodup
import Mathlib.Data.Finset.Card
import Mathlib.Tactic.Ring
/-!
# C112 Pairing of the observations of base and rover
-/
namespace Verif.C112
open Verif Verif.BasePair

/-! ## Sorting -/

def Lt (a b : Nat × Nat) : Prop := a.1 < b.1 ∨ (a.1 = b.1 ∧ a.2 < b.2)

theorem Lt.trans {a b c : Nat × Nat} (h : Lt a b) (k : Lt b c) : Lt a c := by
  unfold Lt at *; omega

theorem mem_ins (x y : Nat × Nat) (l : List (Nat × Nat)) : y ∈ ins x l ↔ y = x ∨ y ∈ l := by
  induction l with
  | nil => simp [ins]
  | cons a l ih =>
    unfold ins
    split
    · simp
    · simp only [List.mem_cons, ih]
      tauto

theorem ins_sorted {x : Nat × Nat} {l : List (Nat × Nat)} (h : l.Pairwise Lt) (hx : x ∉ l) : (ins x l).Pairwise Lt := by
  induction l with
  | nil => simp [ins]
  | cons a l ih =>
    have hp := List.pairwise_cons.mp h
    have hxa : x ≠ a := fun e => hx (by simp [e])
    unfold ins
    split
    · rename_i hle
      have hlt : Lt x a := by
        simp only [le, Bool.or_eq_true, Bool.and_eq_true, decide_eq_true_eq] at hle
        unfold Lt
        have : ¬ (x.1 = a.1 ∧ x.2 = a.2) := fun e => hxa (Prod.ext e.1 e.2)
        omega
      refine List.pairwise_cons.mpr ⟨fun b hb => ?_, h⟩
      rcases List.mem_cons.mp hb with rfl | hb
      · exact hlt
      · exact hlt.trans (hp.1 b hb)
    · rename_i hle
      have hlt : Lt a x := by
        simp only [le, Bool.or_eq_true, Bool.and_eq_true, decide_eq_true_eq] at hle
        unfold Lt
        omega
      refine List.pairwise_cons.mpr ⟨fun b hb => ?_, ih hp.2 fun e => hx (List.mem_cons_of_mem _ e)⟩
      rcases (mem_ins x b l).mp hb with rfl | hb
      · exact hlt
      · exact hp.1 b hb

theorem mem_sort (y : Nat × Nat) (l : List (Nat × Nat)) : y ∈ sortP l ↔ y ∈ l := by
  induction l with
  | nil => simp [sortP]
  | cons a l ih => simp [sortP, mem_ins, ih]

theorem length_ins (x : Nat × Nat) (l : List (Nat × Nat)) : (ins x l).length = l.length + 1 := by
  induction l with
  | nil => rfl
  | cons a l ih =>
    unfold ins
    split
    · rfl
    · simp [ih]

theorem length_sort (l : List (Nat × Nat)) : (sortP l).length = l.length := by
  induction l with
  | nil => rfl
  | cons a l ih => simp [sortP, length_ins, ih]

theorem sort_sorted {l : List (Nat × Nat)} (h : l.Nodup) : (sortP l).Pairwise Lt := by
  induction l with
  | nil => exact List.Pairwise.nil
  | cons a l ih =>
    have := List.nodup_cons.mp h
    exact ins_sorted (ih this.2) fun e => this.1 ((mem_sort _ _).mp e)

/-! ## Elements equal to the next one -/

theorem adj_sub : ∀ l : List (Nat × Nat), (adj l).Sublist l
  | [] => by simp [adj]
  | [a] => by simp [adj]
  | a :: b :: l => by
    unfold adj
    split
    · exact (adj_sub (b :: l)).cons₂ a
    · exact (adj_sub (b :: l)).cons a

theorem mem_adj : ∀ {l : List (Nat × Nat)}, l.Pairwise Lt → ∀ x, x ∈ adj l ↔ x ∈ l ∧ ∃ y ∈ l, y.1 = x.1 ∧ x.2 < y.2
  | [], _, x => by simp [adj]
  | [a], _, x => by
    simp only [adj, List.not_mem_nil, List.mem_singleton, false_iff]
    rintro ⟨rfl, y, rfl, -, h⟩
    omega
  | a :: b :: l, h, x => by
    have hp := List.pairwise_cons.mp h
    have hq := List.pairwise_cons.mp hp.2
    have ih := mem_adj hp.2 x
    have hab := hp.1 b (by simp)
    have key : (x ∈ a :: b :: l ∧ ∃ y ∈ a :: b :: l, y.1 = x.1 ∧ x.2 < y.2) ↔
        (x = a ∧ a.1 = b.1) ∨ (x ∈ b :: l ∧ ∃ y ∈ b :: l, y.1 = x.1 ∧ x.2 < y.2) := by
      constructor
      · rintro ⟨hx, y, hy, e, hl⟩
        rcases List.mem_cons.mp hx with rfl | hx'
        · left
          refine ⟨rfl, ?_⟩
          rcases List.mem_cons.mp hy with rfl | hy
          · omega
          · rcases List.mem_cons.mp hy with rfl | hy
            · exact e.symm
            · have := hq.1 y hy
              unfold Lt at this hab
              omega
        · right
          refine ⟨hx', y, ?_, e, hl⟩
          rcases List.mem_cons.mp hy with rfl | hy
          · have := hp.1 x hx'
            unfold Lt at this
            omega
          · exact hy
      · rintro (⟨rfl, e⟩ | ⟨hx, y, hy, e, hl⟩)
        · refine ⟨by simp, b, by simp, e.symm, ?_⟩
          unfold Lt at hab
          omega
        · exact ⟨List.mem_cons_of_mem _ hx, y, List.mem_cons_of_mem _ hy, e, hl⟩
    rw [key]
    unfold adj
    split
    · rename_i e
      rw [List.mem_cons, ih]
      simp only [e, and_true]
    · rename_i e
      rw [ih]
      simp [e]

theorem adj_count : ∀ {l : List (Nat × Nat)}, l.Pairwise Lt → (adj l).length + (l.map Prod.fst).toFinset.card = l.length
  | [], _ => by simp [adj]
  | [a], _ => by simp [adj]
  | a :: b :: l, h => by
    have hp := List.pairwise_cons.mp h
    have hq := List.pairwise_cons.mp hp.2
    have ih := adj_count hp.2
    have hab := hp.1 b (by simp)
    rw [List.map_cons, List.toFinset_cons]
    unfold adj
    split
    · rename_i e
      have hm : a.1 ∈ ((b :: l).map Prod.fst).toFinset := by simp [e]
      rw [Finset.insert_eq_of_mem hm]
      simp only [List.length_cons] at ih ⊢
      omega
    · rename_i e
      have hm : a.1 ∉ ((b :: l).map Prod.fst).toFinset := by
        intro hm
        obtain ⟨y, hy, e'⟩ := List.mem_map.mp (List.mem_toFinset.mp hm)
        rcases List.mem_cons.mp hy with rfl | hy
        · exact e e'.symm
        · have := hq.1 y hy
          unfold Lt at this hab
          omega
      rw [Finset.card_insert_of_notMem hm]
      simp only [List.length_cons] at ih ⊢
      omega

/-! ## Common elements -/

theorem zip_nodup {α : Type} (l : List α) : l.zipIdx.Nodup := by
  have h : (l.zipIdx.map Prod.snd).Nodup := by
    rw [List.zipIdx_map_snd]
    exact List.nodup_range'
  exact List.Nodup.of_map _ h

theorem mem_isect (a b : List Nat) (x : Nat × Nat) : x ∈ isect a b ↔ (a ++ b)[x.2]? = some x.1 ∧ ∃ j, x.2 < j ∧ (a ++ b)[j]? = some x.1 := by
  unfold isect
  rw [mem_adj (sort_sorted (zip_nodup _))]
  simp only [mem_sort, List.mem_zipIdx_iff_getElem?]
  constructor
  · rintro ⟨h, y, hy, e, hl⟩
    exact ⟨h, y.2, hl, e ▸ hy⟩
  · rintro ⟨h, j, hl, hj⟩
    exact ⟨h, (x.1, j), hj, rfl, hl⟩

/-- specification: `r` lists the common elements of `a` and `b` in ascending order, each with its position in `a` -/
structure Common (a b : List Nat) (r : List (Nat × Nat)) : Prop where
  asc : (r.map Prod.fst).Pairwise (· < ·)
  mem : ∀ v i, (v, i) ∈ r ↔ a[i]? = some v ∧ v ∈ b

theorem nodup_get {l : List Nat} (h : l.Nodup) {i j v : Nat} (hi : l[i]? = some v) (hj : l[j]? = some v) : i = j := by
  obtain ⟨hi', e⟩ := List.getElem?_eq_some_iff.mp hi
  obtain ⟨hj', e'⟩ := List.getElem?_eq_some_iff.mp hj
  exact (List.Nodup.getElem_inj_iff h).mp (e.trans e'.symm)

theorem common {a b : List Nat} (ha : a.Nodup) (hb : b.Nodup) : Common a b (isect a b) := by
  have hm : ∀ v i, (v, i) ∈ isect a b ↔ a[i]? = some v ∧ v ∈ b := by
    intro v i
    rw [mem_isect]
    constructor
    · rintro ⟨h, j, hl, hj⟩
      rw [List.getElem?_append] at h hj
      by_cases h1 : i < a.length
      · rw [if_pos h1] at h
        by_cases h2 : j < a.length
        · rw [if_pos h2] at hj
          have := nodup_get ha h hj
          omega
        · rw [if_neg h2] at hj
          exact ⟨h, List.mem_of_getElem? hj⟩
      · have h2 : ¬ j < a.length := by omega
        rw [if_neg h1] at h
        rw [if_neg h2] at hj
        have := nodup_get hb h hj
        omega
    · rintro ⟨h, hv⟩
      have hi : i < a.length := (List.getElem?_eq_some_iff.mp h).1
      obtain ⟨j, hj⟩ := List.mem_iff_getElem?.mp hv
      refine ⟨by rw [List.getElem?_append, if_pos hi]; exact h, a.length + j, by omega, ?_⟩
      rw [List.getElem?_append_right (by omega)]
      simpa using hj
  refine ⟨?_, hm⟩
  rw [List.pairwise_map]
  have hs : (isect a b).Pairwise Lt := (sort_sorted (zip_nodup (a ++ b))).sublist (adj_sub _)
  refine hs.imp_of_mem fun {x y} hx hy hl => ?_
  rcases hl with hl | ⟨e, hl⟩
  · exact hl
  · have h1 := ((hm x.1 x.2).mp hx).1
    have h2 := ((hm y.1 y.2).mp hy).1
    rw [← e] at h2
    have := nodup_get ha h1 h2
    omega

/-- number of elements found, for all lists -/
theorem isect_count (a b : List Nat) : (isect a b).length + (a ++ b).toFinset.card = a.length + b.length := by
  have h := adj_count (sort_sorted (zip_nodup (a ++ b)))
  have e : ((sortP (a ++ b).zipIdx).map Prod.fst).toFinset = (a ++ b).toFinset := by
    ext v
    simp only [List.mem_toFinset, List.mem_map]
    constructor
    · rintro ⟨y, hy, rfl⟩
      exact List.mem_of_getElem? (List.mem_zipIdx_iff_getElem?.mp ((mem_sort _ _).mp hy))
    · intro hv
      obtain ⟨j, hj⟩ := List.mem_iff_getElem?.mp hv
      exact ⟨(v, j), (mem_sort _ _).mpr (List.mem_zipIdx_iff_getElem?.mpr hj), rfl⟩
  rw [e, length_sort, List.length_zipIdx, List.length_append] at h
  exact h

/-! ## Rows -/

theorem asc_eq : ∀ {l m : List Nat}, l.Pairwise (· < ·) → m.Pairwise (· < ·) → (∀ v, v ∈ l ↔ v ∈ m) → l = m
  | [], [], _, _, _ => rfl
  | [], b :: m, _, _, h => absurd ((h b).mpr (by simp)) (by simp)
  | a :: l, [], _, _, h => absurd ((h a).mp (by simp)) (by simp)
  | a :: l, b :: m, hl, hm, h => by
    have pl := List.pairwise_cons.mp hl
    have pm := List.pairwise_cons.mp hm
    have e : a = b := by
      rcases List.mem_cons.mp ((h a).mp (by simp)) with e | ha
      · exact e
      · rcases List.mem_cons.mp ((h b).mpr (by simp)) with e | hb
        · exact e.symm
        · have := pm.1 a ha
          have := pl.1 b hb
          omega
    subst e
    rw [asc_eq pl.2 pm.2 fun v => ?_]
    constructor
    · intro hv
      rcases List.mem_cons.mp ((h v).mp (List.mem_cons_of_mem _ hv)) with e | hv'
      · have := pl.1 v hv
        omega
      · exact hv'
    · intro hv
      rcases List.mem_cons.mp ((h v).mpr (List.mem_cons_of_mem _ hv)) with e | hv'
      · have := pm.1 v hv
        omega
      · exact hv'

theorem mapM_ok {α β : Type} {f : α → Py β} {g : α → β} : ∀ {l : List α}, (∀ a ∈ l, f a = .ok (g a)) → l.mapM f = .ok (l.map g)
  | [], _ => rfl
  | a :: l, h => by
    rw [List.mapM_cons, h a (by simp), Py.okBind, mapM_ok fun b hb => h b (List.mem_cons_of_mem _ hb), Py.okBind]
    rfl

theorem take_ok {x : List Row} {idx : List Nat} (h : ∀ i ∈ idx, i < x.length) : take x idx = .ok (idx.map fun i => x.getD i []) := by
  refine mapM_ok fun i hi => ?_
  have := h i hi
  simp [pyGet, this]

theorem sat_ok {x : List Nat} {idx : List Nat} (h : ∀ i ∈ idx, i < x.length) :
    (idx.mapM fun i => pyGet x i) = .ok (idx.map fun i => x.getD i 0) := by
  refine mapM_ok fun i hi => ?_
  have := h i hi
  simp [pyGet, this]

theorem bc_ok {α : Type} {n : Nat} {l : List α} (h : l.length = n) : bc n l = .ok l := by simp [bc, h]

theorem subRow_ok {a b : Row} (h : a.length = b.length) : subRow a b = .ok (List.zipWith (· - ·) a b) := by
  unfold subRow
  split
  · rename_i h1
    obtain ⟨x, rfl⟩ := List.length_eq_one_iff.mp h1
    obtain ⟨y, rfl⟩ := List.length_eq_one_iff.mp (h.symm.trans h1)
    rfl
  · rw [bc_ok h.symm]
    rfl

theorem sub_ok {a b : List Row} {c : Nat} (h : a.length = b.length) (ha : ∀ r ∈ a, r.length = c) (hb : ∀ r ∈ b, r.length = c) :
    sub a b = .ok (List.zipWith (fun r s => List.zipWith (· - ·) r s) a b) := by
  unfold sub
  split
  · rename_i h1
    obtain ⟨x, rfl⟩ := List.length_eq_one_iff.mp h1
    obtain ⟨y, rfl⟩ := List.length_eq_one_iff.mp (h.symm.trans h1)
    rw [mapM_ok (g := fun s => List.zipWith (· - ·) x s)]
    · rfl
    · intro s hs
      have : s = y := by simpa using hs
      subst this
      exact subRow_ok ((ha x (by simp)).trans (hb s (by simp)).symm)
  · rw [bc_ok h.symm, Py.okBind, mapM_ok (g := fun p => List.zipWith (· - ·) p.1 p.2)]
    · rw [List.zip, List.map_zipWith]
    · intro p hp
      have := List.of_mem_zip hp
      exact subRow_ok ((ha _ this.1).trans (hb _ this.2).symm)

/-! ## Base and rover -/

/-- observations in which each satellite has one row with `c` signals -/
structure Good (o : Obs) (c : Nat) : Prop where
  one : o.sat.Nodup
  rowsL : o.L.length = o.sat.length
  rowsP : o.P.length = o.sat.length
  colsL : ∀ r ∈ o.L, r.length = c
  colsP : ∀ r ∈ o.P, r.length = c

/-- specification: row `k` belongs to satellite `v`, which has row `i` of the rover and row `j` of the base -/
structure Pair (obs obsb : Obs) (yr er : List Row) (out : Out) (k v i j : Nat) : Prop where
  rover : obs.sat[i]? = some v
  base : obsb.sat[j]? = some v
  sat : out.sat[k]? = some v
  idx : out.iu[k]? = some i
  y : out.y[k]? = yr[j]?
  e : out.e[k]? = er[j]?
  L : ∀ a b, obs.L[i]? = some a → obsb.L[j]? = some b → out.L[k]? = some (List.zipWith (· - ·) a b)
  P : ∀ a b, obs.P[i]? = some a → obsb.P[j]? = some b → out.P[k]? = some (List.zipWith (· - ·) a b)

theorem getD_mem {x : List Row} {i : Nat} (h : i < x.length) : x.getD i [] ∈ x := by
  simp [h]

theorem lt_of_get {l : List Nat} {i v : Nat} (h : l[i]? = some v) : i < l.length := (List.getElem?_eq_some_iff.mp h).1

/-- **pairing**: the satellites accepted at both stations, in ascending order, each with the residuals, unit vectors and
differences of its own rows -/
theorem pairing {edU edR : List Nat} {obs obsb : Obs} {yr er : List Row} {c : Nat} (hu : Good obs c) (hr : Good obsb c)
    (hy : yr.length = obsb.sat.length) (he : er.length = obsb.sat.length) (hU : edU.Nodup) (hR : edR.Nodup)
    (sU : ∀ v ∈ edU, v ∈ obs.sat) (sR : ∀ v ∈ edR, v ∈ obsb.sat) :
    ∃ out, base edU edR obs obsb yr er = .ok out ∧ out.sat.Pairwise (· < ·) ∧ (∀ v, v ∈ out.sat ↔ v ∈ edU ∧ v ∈ edR) ∧
      out.y.length = out.sat.length ∧ out.e.length = out.sat.length ∧ out.iu.length = out.sat.length ∧
      out.L.length = out.sat.length ∧ out.P.length = out.sat.length ∧
      ∀ k < out.sat.length, ∃ v i j, Pair obs obsb yr er out k v i j := by
  have cS := common hU hR
  generalize hS : (isect edU edR).map Prod.fst = S at cS
  have hSasc : S.Pairwise (· < ·) := hS ▸ cS.asc
  have hSmem : ∀ v, v ∈ S ↔ v ∈ edU ∧ v ∈ edR := by
    intro v
    rw [← hS, List.mem_map]
    constructor
    · rintro ⟨⟨v', i⟩, h, rfl⟩
      have := (cS.mem v' i).mp h
      exact ⟨List.mem_of_getElem? this.1, this.2⟩
    · rintro ⟨h1, h2⟩
      obtain ⟨i, hi⟩ := List.mem_iff_getElem?.mp h1
      exact ⟨(v, i), (cS.mem v i).mpr ⟨hi, h2⟩, rfl⟩
  have hSn : S.Nodup := hSasc.imp fun h => Nat.ne_of_lt h
  have fstEq : ∀ {a : List Nat}, a.Nodup → (∀ v ∈ S, v ∈ a) → (isect a S).map Prod.fst = S := by
    intro a ha hs
    have hc := common ha hSn
    refine asc_eq hc.asc hSasc fun v => ?_
    rw [List.mem_map]
    constructor
    · rintro ⟨⟨v', i⟩, h, rfl⟩
      exact ((hc.mem v' i).mp h).2
    · intro hv
      obtain ⟨i, hi⟩ := List.mem_iff_getElem?.mp (hs v hv)
      exact ⟨(v, i), (hc.mem v i).mpr ⟨hi, hv⟩, rfl⟩
  have eR := fstEq hr.one fun v hv => sR v ((hSmem v).mp hv).2
  have eU := fstEq hu.one fun v hv => sU v ((hSmem v).mp hv).1
  have cR := (common hr.one hSn).mem
  have cU := (common hu.one hSn).mem
  generalize hRR : isect obsb.sat S = R at eR cR
  generalize hUU : isect obs.sat S = U at eU cU
  have lR : R.length = S.length := by rw [← eR, List.length_map]
  have lU : U.length = S.length := by rw [← eU, List.length_map]
  have bR : ∀ i ∈ R.map Prod.snd, i < obsb.sat.length := by
    intro i hi
    obtain ⟨⟨v, i'⟩, h, rfl⟩ := List.mem_map.mp hi
    exact lt_of_get ((cR v i').mp h).1
  have bU : ∀ i ∈ U.map Prod.snd, i < obs.sat.length := by
    intro i hi
    obtain ⟨⟨v, i'⟩, h, rfl⟩ := List.mem_map.mp hi
    exact lt_of_get ((cU v i').mp h).1
  have eSat : (U.map Prod.snd).map (fun i => obs.sat.getD i 0) = S := by
    rw [← eU, List.map_map]
    refine List.map_congr_left fun p hp => ?_
    have := ((cU p.1 p.2).mp hp).1
    simp [List.getD, this]
  have hsub : ∀ {x z : List Row}, x.length = obs.sat.length → z.length = obsb.sat.length → (∀ r ∈ x, r.length = c) → (∀ r ∈ z, r.length = c) →
      sub ((U.map Prod.snd).map fun i => x.getD i []) ((R.map Prod.snd).map fun i => z.getD i []) =
        .ok (List.zipWith (fun r s => List.zipWith (· - ·) r s) ((U.map Prod.snd).map fun i => x.getD i [])
          ((R.map Prod.snd).map fun i => z.getD i [])) := by
    intro x z hx hz cx cz
    refine sub_ok (c := c) (by simp [lR, lU]) ?_ ?_
    · intro r hr
      obtain ⟨i, hi, rfl⟩ := List.mem_map.mp hr
      exact cx _ (getD_mem (hx ▸ bU i hi))
    · intro r hr
      obtain ⟨i, hi, rfl⟩ := List.mem_map.mp hr
      exact cz _ (getD_mem (hz ▸ bR i hi))
  refine ⟨⟨(R.map Prod.snd).map fun i => yr.getD i [], (R.map Prod.snd).map fun i => er.getD i [], U.map Prod.snd, S,
    List.zipWith (fun r s => List.zipWith (· - ·) r s) ((U.map Prod.snd).map fun i => obs.L.getD i []) ((R.map Prod.snd).map fun i => obsb.L.getD i []),
    List.zipWith (fun r s => List.zipWith (· - ·) r s) ((U.map Prod.snd).map fun i => obs.P.getD i []) ((R.map Prod.snd).map fun i => obsb.P.getD i [])⟩,
    ?_, hSasc, hSmem, by simp [lR], by simp [lR], by simp [lU], by simp [lR, lU], by simp [lR, lU], ?_⟩
  · unfold base
    simp only [hS, hRR, hUU]
    rw [take_ok (x := yr) (hy ▸ bR), Py.okBind, bc_ok (by simp [lR, lU]), Py.okBind, take_ok (x := er) (he ▸ bR), Py.okBind,
      bc_ok (by simp [lR, lU]), Py.okBind, sat_ok bU, Py.okBind, take_ok (x := obs.L) (hu.rowsL ▸ bU), Py.okBind,
      take_ok (x := obsb.L) (hr.rowsL ▸ bR), Py.okBind, hsub hu.rowsL hr.rowsL hu.colsL hr.colsL, Py.okBind,
      take_ok (x := obs.P) (hu.rowsP ▸ bU), Py.okBind, take_ok (x := obsb.P) (hr.rowsP ▸ bR), Py.okBind,
      hsub hu.rowsP hr.rowsP hu.colsP hr.colsP, Py.okBind, eSat]
    rfl
  · intro k hk
    have kR : k < R.length := by simpa [lR] using hk
    have kU : k < U.length := by simpa [lU] using hk
    have gR : R[k]? = some R[k] := List.getElem?_eq_getElem kR
    have gU : U[k]? = some U[k] := List.getElem?_eq_getElem kU
    have e1 : S[k]? = some R[k].1 := by rw [← eR, List.getElem?_map, gR]; rfl
    have e2 : S[k]? = some U[k].1 := by
      conv_lhs => rw [← eU]
      rw [List.getElem?_map, gU]; rfl
    have ev : R[k].1 = U[k].1 := by
      have := e1.symm.trans e2
      exact Option.some.inj this
    have mR := ((cR _ _).mp (List.getElem_mem kR)).1
    have mU := ((cU _ _).mp (List.getElem_mem kU)).1
    have hj := lt_of_get mR
    have hi := lt_of_get mU
    refine ⟨U[k].1, U[k].2, R[k].2, mU, ev ▸ mR, e2, ?_, ?_, ?_, ?_, ?_⟩
    · simp [gU]
    · have : R[k].2 < yr.length := hy ▸ hj
      simp [gR, this]
    · have : R[k].2 < er.length := he ▸ hj
      simp [gR, this]
    · intro a b ha hb
      simp [List.getElem?_zipWith, gR, gU, List.getD, ha, hb]
    · intro a b ha hb
      simp [List.getElem?_zipWith, gR, gU, List.getD, ha, hb]

/-- **the rows of the update**: the residuals of the rover above those of the base, row `k` and row `k + ns` of the same
satellite -/
theorem update_rows {edU edR : List Nat} {obs obsb : Obs} {yr er yu eu : List Row} {c : Nat} (hu : Good obs c) (hr : Good obsb c)
    (hy : yr.length = obsb.sat.length) (he : er.length = obsb.sat.length) (hU : edU.Nodup) (hR : edR.Nodup)
    (sU : ∀ v ∈ edU, v ∈ obs.sat) (sR : ∀ v ∈ edR, v ∈ obsb.sat) (hyu : yu.length = obs.sat.length) (heu : eu.length = obs.sat.length) :
    ∃ (sat : List Nat) (y e : List Row), (base edU edR obs obsb yr er).bind (fun o => rows o obs yu eu) = .ok (sat, y, e) ∧ sat.Pairwise (· < ·) ∧
      (∀ v, v ∈ sat ↔ v ∈ edU ∧ v ∈ edR) ∧ y.length = 2 * sat.length ∧ e.length = 2 * sat.length ∧
      ∀ k v : Nat, sat[k]? = some v → ∃ i j : Nat, obs.sat[i]? = some v ∧ obsb.sat[j]? = some v ∧ y[k]? = yu[i]? ∧ y[k + sat.length]? = yr[j]? ∧
        e[k]? = eu[i]? ∧ e[k + sat.length]? = er[j]? := by
  obtain ⟨out, hb, hasc, hmem, ly, le, li, -, -, hp⟩ := pairing hu hr hy he hU hR sU sR
  have bi : ∀ i ∈ out.iu, i < obs.sat.length := by
    intro i hi
    obtain ⟨k, hk⟩ := List.mem_iff_getElem?.mp hi
    have hkl : k < out.sat.length := li ▸ lt_of_get hk
    obtain ⟨v, i', j, h⟩ := hp k hkl
    have : i' = i := Option.some.inj (h.idx.symm.trans hk)
    exact this ▸ lt_of_get h.rover
  have es : out.iu.map (fun i => obs.sat.getD i 0) = out.sat := by
    refine List.ext_getElem? fun k => ?_
    by_cases hk : k < out.sat.length
    · obtain ⟨v, i, j, h⟩ := hp k hk
      rw [List.getElem?_map, h.idx, h.sat]
      simp [List.getD, h.rover]
    · rw [List.getElem?_eq_none (by simp; omega), List.getElem?_eq_none (by omega)]
  refine ⟨out.sat, out.iu.map (fun i => yu.getD i []) ++ out.y, out.iu.map (fun i => eu.getD i []) ++ out.e, ?_, hasc, hmem,
    by simp [li, ly]; omega, by simp [li, le]; omega, ?_⟩
  · rw [hb]
    change rows out obs yu eu = _
    unfold rows
    rw [sat_ok bi, Py.okBind, take_ok (hyu ▸ bi), Py.okBind, take_ok (heu ▸ bi), Py.okBind, es]
    rfl
  · intro k v hk
    have hkl := lt_of_get hk
    obtain ⟨v', i, j, h⟩ := hp k hkl
    have : v' = v := Option.some.inj (h.sat.symm.trans hk)
    subst this
    have hi := lt_of_get h.rover
    refine ⟨i, j, h.rover, h.base, ?_, ?_, ?_, ?_⟩
    · rw [List.getElem?_append_left (by simpa [li] using hkl), List.getElem?_map, h.idx]
      simp [hyu, hi]
    · rw [List.getElem?_append_right (by simp [li])]
      simpa [li] using h.y
    · rw [List.getElem?_append_left (by simpa [li] using hkl), List.getElem?_map, h.idx]
      simp [heu, hi]
    · rw [List.getElem?_append_right (by simp [li])]
      simpa [li] using h.e

theorem card_lt {l : List Nat} (h : ¬ l.Nodup) : l.toFinset.card < l.length := by
  refine lt_of_le_of_ne (List.toFinset_card_le l) fun e => h ?_
  exact Multiset.coe_nodup.mp (Multiset.toFinset_card_eq_card_iff_nodup.mp e)

/-- **a satellite listed twice** at the base makes the whole epoch fail, whichever satellite it is -/
theorem repeated_base {edU edR : List Nat} {obs obsb : Obs} {yr er : List Row} (hu : obs.sat.Nodup) (hr : ¬ obsb.sat.Nodup)
    (hy : yr.length = obsb.sat.length) (hU : edU.Nodup) (hR : edR.Nodup)
    (sU : ∀ v ∈ edU, v ∈ obs.sat) (sR : ∀ v ∈ edR, v ∈ obsb.sat) (hne : ∃ v, v ∈ edU ∧ v ∈ edR) :
    base edU edR obs obsb yr er = .error .valueError := by
  have cS := common hU hR
  generalize hS : (isect edU edR).map Prod.fst = S at cS
  have hSmem : ∀ v, v ∈ S ↔ v ∈ edU ∧ v ∈ edR := by
    intro v
    rw [← hS, List.mem_map]
    constructor
    · rintro ⟨⟨v', i⟩, h, rfl⟩
      have := (cS.mem v' i).mp h
      exact ⟨List.mem_of_getElem? this.1, this.2⟩
    · rintro ⟨h1, h2⟩
      obtain ⟨i, hi⟩ := List.mem_iff_getElem?.mp h1
      exact ⟨(v, i), (cS.mem v i).mpr ⟨hi, h2⟩, rfl⟩
  have hSn : S.Nodup := hS ▸ cS.asc.imp fun h => Nat.ne_of_lt h
  have hS0 : 0 < S.length := by
    obtain ⟨v, hv⟩ := hne
    exact List.length_pos_of_mem ((hSmem v).mpr hv)
  have cnt : ∀ a : List Nat, (∀ v ∈ S, v ∈ a) → (isect a S).length + a.toFinset.card = a.length + S.length := by
    intro a ha
    rw [← isect_count a S, List.toFinset_append, Finset.union_eq_left.mpr]
    intro v hv
    simpa using ha v (by simpa using hv)
  have c1 := cnt obsb.sat fun v hv => sR v ((hSmem v).mp hv).2
  have c2 := cnt obs.sat fun v hv => sU v ((hSmem v).mp hv).1
  rw [List.toFinset_card_of_nodup hu] at c2
  have c3 := card_lt hr
  have bR : ∀ i ∈ (isect obsb.sat S).map Prod.snd, i < yr.length := by
    intro i hi
    obtain ⟨⟨v, i'⟩, h, rfl⟩ := List.mem_map.mp hi
    obtain ⟨h1, j, hl, h2⟩ := (mem_isect _ _ _).mp h
    rw [hy]
    by_contra hc
    simp only at h1 h2 hl hc
    rw [List.getElem?_append_right (by omega)] at h1 h2
    have := nodup_get hSn h1 h2
    omega
  unfold base
  simp only [hS]
  rw [take_ok bR, Py.okBind]
  have : bc ((isect obs.sat S).map Prod.snd).length (((isect obsb.sat S).map Prod.snd).map fun i => yr.getD i []) = .error .valueError := by
    unfold bc
    rw [if_neg (by simp; omega)]
    split
    · rename_i a e
      have := congrArg List.length e
      simp at this
      omega
    · rfl
  rw [this]
  rfl

/-- the station lists of an epoch: satellites 3, 9, 20 and 31 at the rover, 31, 9, 5 and 3 at the base -/
def rover0 : Obs := ⟨[3, 9, 20, 31], [[30], [90], [200], [310]], [[3], [9], [20], [31]]⟩
def base0 : Obs := ⟨[31, 9, 5, 3], [[1], [2], [3], [4]], [[5], [6], [7], [8]]⟩

example : (base [3, 9, 31] [3, 5, 9, 31] rover0 base0 [[11], [12], [13], [14]] [[21], [22], [23], [24]]).toOption.map
    (fun o => (o.sat, o.iu, o.y, o.L)) = some ([3, 9, 31], [0, 1, 3], [[14], [12], [11]], [[26], [88], [309]]) := by decide +kernel
example : Good rover0 1 ∧ Good base0 1 := by
  constructor <;> exact ⟨by decide, rfl, rfl, by decide, by decide⟩
/-- a repeated satellite that was rejected: the base row of satellite 7 would be paired -/
example : isect [7, 9, 7] [9] = [(7, 0), (9, 1)] := by decide +kernel
example : (base [3, 9] [3, 9] rover0 ⟨[3, 7, 7, 9], [[1], [2], [3], [4]], [[5], [6], [7], [8]]⟩ [[11], [12], [13], [14]] [[21], [22], [23], [24]]) =
    .error .valueError :=
  repeated_base (by decide) (by decide) rfl (by decide) (by decide) (by decide) (by decide) ⟨3, by decide⟩

end Verif.C112
