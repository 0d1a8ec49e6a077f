import Verif.Props.C21
import Verif.Lemmas.Read
/-!
# C66 The navigation data OSNMA verifies tags against

Specification: of the words of a satellite received up to some point, the latest one of each type 1..10.
-/

namespace Verif.C66
open Verif.Osnma Verif.C21
variable {PK : Type}

/-- type of a word -/
def wtype (w : BitBuf) : Nat := bitsToNat (w.take 6)

/-- the latest word of type `m`, zeros if there is none -/
def latest (m : Nat) : List BitBuf → BitBuf
  | [] => List.replicate 128 false
  | ws@(_ :: _) => ((ws.filter fun w => wtype w = m).getLast?).getD (List.replicate 128 false)

/-- the words of types 1 to 10 -/
def content (ws : List BitBuf) : BitBuf := (List.range 10).flatMap fun i => latest (i + 1) ws

/-- the words of a satellite in a history, with their times -/
def wordsOf (sat : Int) (h : List (Op PK)) : List (BitBuf × Nat) :=
  h.filterMap fun o => match o with
    | .nav w prn tow => if Sat.prn2sat .gal prn = sat then some (w, tow) else none
    | _ => none

/-- a word at the start of a sub-frame -/
def first (e : BitBuf × Nat) : Bool := e.2 % 30 = 1

/-! ## Helpers -/

theorem latest_eq (m : Nat) (ws : List BitBuf) :
    latest m ws = ((ws.filter fun w => wtype w = m).getLast?).getD (List.replicate 128 false) := by
  cases ws <;> rfl

theorem latest_snoc (m : Nat) (ws : List BitBuf) (w : BitBuf) :
    latest m (ws ++ [w]) = if wtype w = m then w else latest m ws := by
  rw [latest_eq, latest_eq, List.filter_append]
  by_cases h : wtype w = m
  · rw [if_pos h]
    have : List.filter (fun w => decide (wtype w = m)) [w] = [w] := by simp [h]
    rw [this, List.getLast?_concat]
    rfl
  · rw [if_neg h]
    have : List.filter (fun w => decide (wtype w = m)) [w] = [] := by simp [h]
    rw [this, List.append_nil]

theorem latest_length (m : Nat) (ws : List BitBuf) (h : ∀ w ∈ ws, w.length = 128) : (latest m ws).length = 128 := by
  rw [latest_eq]
  cases hl : (ws.filter fun w => wtype w = m).getLast? with
  | none => rfl
  | some w =>
    exact h w (List.mem_of_mem_filter (List.mem_of_getLast? hl))

theorem setSlice_word (f : Nat → BitBuf) (w : BitBuf) (hf : ∀ i, (f i).length = 128) (hw : w.length = 128) :
    ∀ (n k a : Nat), k < n → setSlice ((List.range' a n).flatMap f) (k * 16) (k * 16 + 16) w =
      (List.range' a n).flatMap fun i => if i = a + k then w else f i := by
  intro n
  induction n with
  | zero => intro k a h; omega
  | succ n ih =>
    intro k a h
    rw [List.range'_succ, List.flatMap_cons, List.flatMap_cons]
    cases k with
    | zero =>
      unfold setSlice
      rw [if_pos (by omega)]
      rw [show 8 * (0 * 16) = 0 from rfl, List.take_zero, List.nil_append, show 8 * (0 * 16 + 16) = 128 from rfl]
      rw [List.drop_left' (hf a)]
      congr 1
      refine List.flatMap_congr fun i hi => ?_
      have := (List.mem_range'_1.1 hi).1
      rw [if_neg (by omega)]
    | succ k =>
      rw [if_neg (by omega)]
      have e := ih k (a + 1) (by omega)
      have e2 : (fun i => if i = a + (k + 1) then w else f i) = fun i => if i = a + 1 + k then w else f i := by
        funext i; congr 1; rw [eq_iff_iff]; omega
      rw [e2, ← e]
      unfold setSlice
      have h1 : 8 * ((k + 1) * 16) = (f a).length + 8 * (k * 16) := by rw [hf]; omega
      have h2 : 8 * ((k + 1) * 16 + 16) = (f a).length + 8 * (k * 16 + 16) := by rw [hf]; omega
      rw [h1, h2, List.take_length_add_append, List.drop_length_add_append]
      simp only [List.append_assoc]

theorem content_snoc (ws : List BitBuf) (w : BitBuf) (h : ∀ w ∈ ws, w.length = 128) (hw : w.length = 128) :
    content (ws ++ [w]) = if 0 < wtype w ∧ wtype w ≤ 10 then
      setSlice (content ws) ((wtype w - 1) * 16) ((wtype w - 1) * 16 + 16) w else content ws := by
  unfold content
  simp only [latest_snoc]
  split
  · rename_i hm
    rw [List.range_eq_range', setSlice_word (fun i => latest (i + 1) ws) w (fun i => latest_length _ _ h) hw 10 (wtype w - 1) 0
      (by omega)]
    refine List.flatMap_congr fun i hi => ?_
    congr 1
    rw [eq_iff_iff]
    omega
  · rename_i hm
    refine List.flatMap_congr fun i hi => ?_
    have := List.mem_range.1 hi
    rw [if_neg (by omega)]

theorem content_nil : content [] = zeros 160 := by decide +kernel

/-- the words before the `n`-th last start of a sub-frame, from the end -/
def cut : Nat → List (BitBuf × Nat) → List (BitBuf × Nat)
  | 0, l => l
  | _ + 1, [] => []
  | n + 1, e :: l => if first e then cut n l else cut (n + 1) l

/-- the words before the `n`-th last start of a sub-frame -/
def before (n : Nat) (ws : List (BitBuf × Nat)) : List BitBuf := ((cut n ws.reverse).reverse).map (·.1)

theorem before_snoc (n : Nat) (ws : List (BitBuf × Nat)) (e : BitBuf × Nat) :
    before (n + 1) (ws ++ [e]) = if first e then before n ws else before (n + 1) ws := by
  unfold before
  rw [List.reverse_append]
  show List.map _ (cut (n + 1) (e :: ws.reverse)).reverse = _
  rw [cut]
  split <;> rfl

theorem before_zero (ws : List (BitBuf × Nat)) : before 0 ws = ws.map (·.1) := by
  unfold before cut; rw [List.reverse_reverse]

theorem cut_subset : ∀ (l : List (BitBuf × Nat)) (n : Nat), ∀ e ∈ cut n l, e ∈ l := by
  intro l
  induction l with
  | nil => intro n e he; cases n <;> exact he
  | cons a l ih =>
    intro n e he
    cases n with
    | zero => exact he
    | succ n =>
      unfold cut at he
      split at he
      · exact List.mem_cons_of_mem _ (ih n e he)
      · exact List.mem_cons_of_mem _ (ih _ e he)

/-- the three buffers of a satellite -/
structure Stored (s : St PK) (sat : Int) (ws : List (BitBuf × Nat)) : Prop where
  now : s.subfrm.get? sat = if ws = [] then none else some (content (before 2 ws))
  prev : s.subfrmP.get? sat = if ws = [] then none else some (content (before 1 ws))
  next : s.subfrmN.get? sat = if ws = [] then none else some (content (before 0 ws))

theorem Stored.congr {s t : St PK} {sat : Int} {ws : List (BitBuf × Nat)} (h : Stored s sat ws) (h1 : t.subfrm = s.subfrm)
    (h2 : t.subfrmP = s.subfrmP) (h3 : t.subfrmN = s.subfrmN) : Stored t sat ws :=
  ⟨by rw [h1]; exact h.now, by rw [h2]; exact h.prev, by rw [h3]; exact h.next⟩

theorem tag_frame (p : Prim PK) {s u : St PK} {nma : BitBuf} {wn tow prn : Nat} {r : Bool}
    (h : decode p s nma wn tow prn = .ok (u, r)) : u.subfrm = s.subfrm ∧ u.subfrmP = s.subfrmP ∧ u.subfrmN = s.subfrmN := by
  obtain ⟨t0, h0, hu | ⟨hc, h⟩⟩ := decode_inv p h
  all_goals
    have e := storePage_erase h0
    have e1 := congrArg St.subfrm e
    have e2 := congrArg St.subfrmP e
    have e3 := congrArg St.subfrmN e
    have k0 : t0.subfrm = s.subfrm ∧ t0.subfrmP = s.subfrmP ∧ t0.subfrmN = s.subfrmN := ⟨e1, e2, e3⟩
  · subst hu; exact k0
  · obtain ⟨t1, t2, h1, h2, hr⟩ := subframe_inv p h
    have f := subframe1_erase p h1
    have f1 := congrArg St.subfrm f
    have f2 := congrArg St.subfrmP f
    have f3 := congrArg St.subfrmN f
    have k1 : t1.subfrm = s.subfrm ∧ t1.subfrmP = s.subfrmP ∧ t1.subfrmN = s.subfrmN :=
      ⟨Eq.trans f1 k0.1, Eq.trans f2 k0.2.1, Eq.trans f3 k0.2.2⟩
    have k2 : t2.subfrm = s.subfrm ∧ t2.subfrmP = s.subfrmP ∧ t2.subfrmN = s.subfrmN := by
      rcases (rootStage_cases p t1).out t2 h2 with rfl | ⟨rfl, _⟩ <;> exact k1
    rcases hr with hr | ⟨t3, t4, h3, h4, hr⟩
    · cases hr; exact k2
    · have k3 : t3.subfrm = s.subfrm ∧ t3.subfrmP = s.subfrmP ∧ t3.subfrmN = s.subfrmN := by
        obtain ⟨lt, lk, _, _, rfl⟩ := (decodeMack_eq t2 prn).out t3 h3; exact k2
      have k4 : t4.subfrm = s.subfrm ∧ t4.subfrmP = s.subfrmP ∧ t4.subfrmN = s.subfrmN := by
        rcases (chainStage_cases p t3 _).out t4 h4 with ⟨rfl, _⟩ | rfl | ⟨rfl, _⟩ <;> exact k3
      rcases hr with hr | ⟨_, ha⟩
      · cases hr; exact k4
      · obtain ⟨sf, he, _⟩ := (authStage_erase p t4 _ prn).out _ ha
        have g1 := congrArg St.subfrm he
        have g2 := congrArg St.subfrmP he
        have g3 := congrArg St.subfrmN he
        exact ⟨Eq.trans g1 k4.1, Eq.trans g2 k4.2.1, Eq.trans g3 k4.2.2⟩

theorem readU_type {w : BitBuf} (hw : w.length = 128) : readU w 0 6 = .ok (wtype w) := by
  unfold readU
  rw [if_pos (by omega)]
  rfl

/-- one stored word: effect on the buffers of every satellite -/
theorem save_step (s : St PK) (w : BitBuf) (prn tow : Nat) (sat : Int) (ws : List (BitBuf × Nat)) (hw : w.length = 128)
    (hws : ∀ e ∈ ws, e.1.length = 128) (h : Stored s sat ws) :
    (Sat.prn2sat .gal prn = sat → ∃ t, saveGalInav s w prn tow = .ok t ∧ Stored t sat (ws ++ [(w, tow)])) ∧
    (Sat.prn2sat .gal prn ≠ sat → ∀ t, saveGalInav s w prn tow = .ok t → Stored t sat ws) := by
  constructor
  · intro hsat
    unfold saveGalInav
    rw [readU_type hw, Py.okBind]
    simp only [hsat]
    obtain ⟨s1, hs1, b0, b1, b2, g0, g1, g2⟩ : ∃ s1 : St PK, (if s.subfrm.mem sat then s else
        { s with subfrm := s.subfrm.set sat (zeros 160), subfrmN := s.subfrmN.set sat (zeros 160),
                 subfrmP := s.subfrmP.set sat (zeros 160) }) = s1 ∧
        s1.subfrm.get? sat = some (content (before 2 ws)) ∧ s1.subfrmP.get? sat = some (content (before 1 ws)) ∧
        s1.subfrmN.get? sat = some (content (before 0 ws)) ∧ True ∧ True ∧ True := by
      refine ⟨_, rfl, ?_⟩
      by_cases he : ws = []
      · have hn := h.now
        rw [if_pos he] at hn
        rw [if_neg (by unfold Dict.mem; rw [hn]; simp)]
        subst he
        have e : ∀ n, content (before n []) = zeros 160 := by
          intro n; cases n <;> exact content_nil
        simp only [Dict.get?_set_self, e, and_self]
      · have hn := h.now
        have hp := h.prev
        have hx := h.next
        rw [if_neg he] at hn hp hx
        rw [if_pos (by unfold Dict.mem; rw [hn]; rfl)]
        exact ⟨hn, hp, hx, trivial, trivial, trivial⟩
    rw [hs1]
    obtain ⟨s2, hs2, c0, c1, c2⟩ : ∃ s2 : St PK, (if tow % 30 = 1 then do
          let bp ← s1.subfrmP.getItem sat
          let bn ← s1.subfrmN.getItem sat
          pure { s1 with subfrm := s1.subfrm.set sat bp, subfrmP := s1.subfrmP.set sat bn }
        else pure s1 : Py (St PK)) = .ok s2 ∧ s2.subfrm.get? sat = some (content (before 2 (ws ++ [(w, tow)]))) ∧
        s2.subfrmP.get? sat = some (content (before 1 (ws ++ [(w, tow)]))) ∧
        s2.subfrmN.get? sat = some (content (before 0 ws)) := by
      rw [before_snoc, before_snoc]
      by_cases hf : tow % 30 = 1
      · rw [if_pos hf, (Dict.getItem_ok_iff _ _ _).2 b1, Py.okBind, (Dict.getItem_ok_iff _ _ _).2 b2, Py.okBind]
        have hf' : first (w, tow) = true := by unfold first; simpa using hf
        rw [if_pos hf', if_pos hf']
        refine ⟨_, rfl, ?_, ?_, b2⟩
        · exact Dict.get?_set_self ..
        · exact Dict.get?_set_self ..
      · rw [if_neg hf]
        have hf' : ¬ first (w, tow) = true := by unfold first; simpa using hf
        rw [if_neg hf', if_neg hf']
        exact ⟨s1, rfl, b0, b1, b2⟩
    rw [hs2, Py.okBind]
    have hne : ws ++ [(w, tow)] ≠ [] := by simp
    have hbz : before 0 (ws ++ [(w, tow)]) = before 0 ws ++ [w] := by
      rw [before_zero, before_zero, List.map_append]; rfl
    have hlen : ∀ x ∈ before 0 ws, x.length = 128 := by
      rw [before_zero]
      intro x hx
      obtain ⟨e, he, rfl⟩ := List.mem_map.1 hx
      exact hws e he
    have hcs := content_snoc (before 0 ws) w hlen hw
    by_cases hm : wtype w > 0 ∧ wtype w ≤ 10
    · rw [if_pos hm] at hcs
      rw [if_pos hm, (Dict.getItem_ok_iff _ _ _).2 c2, Py.okBind]
      refine ⟨_, rfl, ?_, ?_, ?_⟩
      · rw [if_neg hne]; exact c0
      · rw [if_neg hne]; exact c1
      · rw [if_neg hne, hbz, hcs]; exact Dict.get?_set_self ..
    · rw [if_neg hm] at hcs
      rw [if_neg hm]
      refine ⟨_, rfl, ?_, ?_, ?_⟩
      · rw [if_neg hne]; exact c0
      · rw [if_neg hne]; exact c1
      · rw [if_neg hne, hbz, hcs]; exact c2
  · intro hsat t ht
    have hs' : sat ≠ Sat.prn2sat .gal prn := fun e => hsat e.symm
    unfold saveGalInav at ht
    rw [readU_type hw, Py.okBind] at ht
    dsimp only at ht
    generalize hs1 : (if s.subfrm.mem (Sat.prn2sat .gal prn) then s else
        { s with subfrm := s.subfrm.set (Sat.prn2sat .gal prn) (zeros 160), subfrmN := s.subfrmN.set (Sat.prn2sat .gal prn) (zeros 160),
                 subfrmP := s.subfrmP.set (Sat.prn2sat .gal prn) (zeros 160) }) = s1 at ht
    have e1 : s1.subfrm.get? sat = s.subfrm.get? sat ∧ s1.subfrmP.get? sat = s.subfrmP.get? sat ∧
        s1.subfrmN.get? sat = s.subfrmN.get? sat := by
      subst hs1
      split
      · exact ⟨rfl, rfl, rfl⟩
      · exact ⟨Dict.get?_set_ne _ _ hs', Dict.get?_set_ne _ _ hs', Dict.get?_set_ne _ _ hs'⟩
    obtain ⟨s2, hs2, ht⟩ := Py.bind_ok.1 ht
    have e2 : s2.subfrm.get? sat = s.subfrm.get? sat ∧ s2.subfrmP.get? sat = s.subfrmP.get? sat ∧
        s2.subfrmN.get? sat = s.subfrmN.get? sat := by
      split at hs2
      · obtain ⟨bp, _, hs2⟩ := Py.bind_ok.1 hs2
        obtain ⟨bn, _, hs2⟩ := Py.bind_ok.1 hs2
        rw [Py.pure_ok] at hs2
        subst hs2
        exact ⟨(Dict.get?_set_ne _ _ hs').trans e1.1, (Dict.get?_set_ne _ _ hs').trans e1.2.1, e1.2.2⟩
      · rw [Py.pure_ok] at hs2
        subst hs2
        exact e1
    have e3 : t.subfrm.get? sat = s.subfrm.get? sat ∧ t.subfrmP.get? sat = s.subfrmP.get? sat ∧
        t.subfrmN.get? sat = s.subfrmN.get? sat := by
      split at ht
      · obtain ⟨bn, _, ht⟩ := Py.bind_ok.1 ht
        rw [Py.pure_ok] at ht
        subst ht
        exact ⟨e2.1, e2.2.1, (Dict.get?_set_ne _ _ hs').trans e2.2.2⟩
      · rw [Py.pure_ok] at ht
        subst ht
        exact e2
    exact ⟨by rw [e3.1]; exact h.now, by rw [e3.2.1]; exact h.prev, by rw [e3.2.2]; exact h.next⟩

theorem words_stored (p : Prim PK) (s0 : St PK) (h1 : s0.subfrm = []) (h2 : s0.subfrmP = []) (h3 : s0.subfrmN = []) (sat : Int) :
    ∀ h s, run p s0 h = .ok s → (∀ w prn tow, Op.nav w prn tow ∈ h → w.length = 128) →
      Stored s sat (wordsOf sat h) ∧ ∀ e ∈ wordsOf sat h, e.1.length = 128 := by
  refine run_induction p s0 _ ?_ ?_
  · intro _
    refine ⟨⟨?_, ?_, ?_⟩, fun e he => by cases he⟩
    · rw [h1]; rfl
    · rw [h2]; rfl
    · rw [h3]; rfl
  · intro h s o t hr hi hs hw
    obtain ⟨hst, hl⟩ := hi fun w prn tow hm => hw w prn tow (List.mem_append_left _ hm)
    have app : wordsOf sat (h ++ [o]) = wordsOf sat h ++ wordsOf sat [o] := List.filterMap_append
    cases o with
    | page nma wn tow prn =>
      simp only [step] at hs
      obtain ⟨⟨u, r⟩, hd, hs⟩ := Py.bind_ok.1 hs
      rw [Py.pure_ok] at hs
      subst hs
      obtain ⟨g1, g2, g3⟩ := tag_frame p hd
      rw [app, show wordsOf sat [Op.page nma wn tow prn] = [] from rfl, List.append_nil]
      exact ⟨hst.congr g1 g2 g3, hl⟩
    | nav w prn tow =>
      have hwl := hw w prn tow (by simp)
      have hs' : saveGalInav s w prn tow = .ok t := hs
      obtain ⟨q1, q2⟩ := save_step s w prn tow sat (wordsOf sat h) hwl hl hst
      by_cases hsat : Sat.prn2sat .gal prn = sat
      · obtain ⟨t', ht', hst'⟩ := q1 hsat
        have : t' = t := by rw [ht'] at hs'; cases hs'; rfl
        subst this
        have e : wordsOf sat [Op.nav (PK := PK) w prn tow] = [(w, tow)] := by
          unfold wordsOf; simp [hsat]
        rw [app, e]
        refine ⟨hst', fun x hx => ?_⟩
        rcases List.mem_append.1 hx with hx | hx
        · exact hl x hx
        · rw [List.mem_singleton] at hx; subst hx; exact hwl
      · have e : wordsOf sat [Op.nav (PK := PK) w prn tow] = [] := by
          unfold wordsOf; simp [hsat]
        rw [app, e, List.append_nil]
        exact ⟨q2 hsat t hs', hl⟩
    | setPrn a =>
      simp only [step] at hs; rw [Py.pure_ok] at hs; subst hs
      rw [app, show wordsOf sat [Op.setPrn (PK := PK) a] = [] from rfl, List.append_nil]
      exact ⟨hst.congr rfl rfl rfl, hl⟩
    | setSlow b =>
      simp only [step] at hs; rw [Py.pure_ok] at hs; subst hs
      rw [app, show wordsOf sat [Op.setSlow (PK := PK) b] = [] from rfl, List.append_nil]
      exact ⟨hst.congr rfl rfl rfl, hl⟩
    | loadKey pk i =>
      simp only [step] at hs; rw [Py.pure_ok] at hs; subst hs
      rw [app, show wordsOf sat [Op.loadKey pk i] = [] from rfl, List.append_nil]
      exact ⟨hst.congr rfl rfl rfl, hl⟩

theorem cut_skip (l r : List (BitBuf × Nat)) (n : Nat) (h : ∀ e ∈ l, first e = false) : cut (n + 1) (l ++ r) = cut (n + 1) r := by
  induction l with
  | nil => rfl
  | cons a l ih =>
    rw [List.cons_append, cut, if_neg (by rw [h a (by simp)]; simp)]
    exact ih fun e he => h e (List.mem_cons_of_mem _ he)

theorem before_two {A B C : List (BitBuf × Nat)} {x y : BitBuf × Nat} (hx : first x = true) (hy : first y = true)
    (hB : ∀ e ∈ B, first e = false) (hC : ∀ e ∈ C, first e = false) : before 2 (A ++ x :: (B ++ y :: C)) = A.map (·.1) := by
  unfold before
  simp only [List.reverse_append, List.reverse_cons, List.append_assoc]
  rw [cut_skip _ _ 1 (by simpa using hC)]
  simp only [List.cons_append, List.nil_append]
  rw [cut, if_pos hy, cut_skip _ _ 0 (by simpa using hB)]
  show List.map _ (cut (0 + 1) (x :: A.reverse)).reverse = _
  rw [cut, if_pos hx]
  simp only [cut, List.reverse_reverse]

/-- **Buffer.** The data held for verification are, for each word type, the latest word received before the start of the
previous sub-frame; zeros for types not received by then. -/
theorem buffer (p : Prim PK) (s0 s : St PK) (h : List (Op PK)) (sat : Int) (A B C : List (BitBuf × Nat)) (x y : BitBuf × Nat)
    (h1 : s0.subfrm = []) (h2 : s0.subfrmP = []) (h3 : s0.subfrmN = []) (hr : run p s0 h = .ok s)
    (hw : ∀ w prn tow, Op.nav w prn tow ∈ h → w.length = 128) (hs : wordsOf sat h = A ++ x :: (B ++ y :: C))
    (hx : first x = true) (hy : first y = true) (hB : ∀ e ∈ B, first e = false) (hC : ∀ e ∈ C, first e = false) :
    s.subfrm.get? sat = some (content (A.map (·.1))) := by
  have := ((words_stored p s0 h1 h2 h3 sat h s hr hw).1).now
  rw [hs, if_neg (by simp), before_two hx hy hB hC] at this
  exact this

/-- Until a satellite has started two sub-frames the buffer is empty (or does not exist). -/
theorem buffer_empty (p : Prim PK) (s0 s : St PK) (h : List (Op PK)) (sat : Int) (A C : List (BitBuf × Nat)) (x : BitBuf × Nat)
    (h1 : s0.subfrm = []) (h2 : s0.subfrmP = []) (h3 : s0.subfrmN = []) (hr : run p s0 h = .ok s)
    (hw : ∀ w prn tow, Op.nav w prn tow ∈ h → w.length = 128)
    (hs : wordsOf sat h = C ∨ wordsOf sat h = A ++ x :: C) (hA : ∀ e ∈ A, first e = false) (hC : ∀ e ∈ C, first e = false) :
    s.subfrm.get? sat = none ∨ s.subfrm.get? sat = some (content []) := by
  have hn := ((words_stored p s0 h1 h2 h3 sat h s hr hw).1).now
  by_cases he : wordsOf sat h = []
  · rw [if_pos he] at hn; exact .inl hn
  rw [if_neg he] at hn
  right
  rw [hn]
  congr 2
  unfold before
  have e0 : cut 2 ([] : List (BitBuf × Nat)) = [] := rfl
  rcases hs with hs | hs <;> rw [hs]
  · have := cut_skip C.reverse [] 1 (by simpa using hC)
    rw [List.append_nil, e0] at this
    rw [this]; rfl
  · simp only [List.reverse_append, List.reverse_cons, List.append_assoc]
    rw [cut_skip _ _ 1 (by simpa using hC)]
    simp only [List.singleton_append]
    rw [cut]
    split
    · have := cut_skip A.reverse [] 0 (by simpa using hA)
      rw [List.append_nil, show cut 1 ([] : List (BitBuf × Nat)) = [] from rfl] at this
      rw [this]; rfl
    · have := cut_skip A.reverse [] 1 (by simpa using hA)
      rw [List.append_nil, e0] at this
      rw [this]; rfl

/-! ## The data of a tag -/

theorem flat_seg (f : Nat → BitBuf) (hf : ∀ i, (f i).length = 128) : ∀ (n a i j m : Nat), i < n → j + m ≤ 128 →
    seg ((List.range' a n).flatMap f) (128 * i + j) m = seg (f (a + i)) j m := by
  intro n
  induction n with
  | zero => intro a i j m h; omega
  | succ n ih =>
    intro a i j m h hj
    rw [List.range'_succ, List.flatMap_cons]
    unfold seg
    cases i with
    | zero =>
      rw [Nat.mul_zero, Nat.zero_add, Nat.add_zero, List.drop_append_of_le_length (by rw [hf]; omega),
        List.take_append_of_le_length (by rw [List.length_drop, hf]; omega)]
      rfl
    | succ i =>
      have e : 128 * (i + 1) + j = (f a).length + (128 * i + j) := by rw [hf]; omega
      rw [e, List.drop_length_add_append]
      have := ih (a + 1) i j m (by omega) hj
      unfold seg at this
      rw [this, show a + 1 + i = a + (i + 1) by omega]

theorem content_seg {ws : List BitBuf} (h : ∀ w ∈ ws, w.length = 128) {i j n : Nat} (hi : i < 10) (hj : j + n ≤ 128) :
    seg (content ws) (128 * i + j) n = seg (latest (i + 1) ws) j n := by
  unfold content
  rw [List.range_eq_range', flat_seg _ (fun i => latest_length _ _ h) 10 0 i j n hi hj, Nat.zero_add]

theorem content_length {ws : List BitBuf} (h : ∀ w ∈ ws, w.length = 128) : (content ws).length = 1280 := by
  unfold content
  rw [List.length_flatMap]
  have : (List.map (fun a => (latest (a + 1) ws).length) (List.range 10)) = List.map (fun _ => 128) (List.range 10) :=
    List.map_congr_left fun a _ => latest_length _ _ h
  rw [this]
  rfl

/-- a word of the type has been received exactly when the latest one has that type -/
theorem latest_type {ws : List BitBuf} {m : Nat} (hm : 0 < m) : wtype (latest m ws) = m ↔ ∃ w ∈ ws, wtype w = m := by
  rw [latest_eq]
  cases hl : (ws.filter fun w => wtype w = m).getLast? with
  | none =>
    rw [List.getLast?_eq_none_iff, List.filter_eq_nil_iff] at hl
    constructor
    · intro h
      have h0 : wtype (List.replicate 128 false) = 0 := by decide
      rw [Option.getD_none, h0] at h
      omega
    · rintro ⟨w, hw, e⟩
      exact absurd e (by simpa using hl w hw)
  | some w =>
    have := List.mem_filter.1 (List.mem_of_getLast? hl)
    have hw : wtype w = m := by simpa using this.2
    exact ⟨fun _ => ⟨w, this.1, hw⟩, fun _ => hw⟩

/-- issue number of words 1 to 4 -/
def issue (w : BitBuf) : Nat := bitsAt w 6 10

/-- the five words of ephemeris, clock and status data -/
def ephData (ws : List BitBuf) : BitBuf :=
  seg (latest 1 ws) 6 120 ++ seg (latest 2 ws) 6 120 ++ seg (latest 3 ws) 6 122 ++ seg (latest 4 ws) 6 120 ++
    seg (latest 5 ws) 6 67 ++ List.replicate 3 false

/-- the words with the UTC data -/
def utcData (ws : List BitBuf) : BitBuf := seg (latest 6 ws) 6 99 ++ seg (latest 10 ws) 86 42 ++ List.replicate 3 false

/-- words 1 to 5 have been received and the latest ones of types 1 to 4 carry the same issue number -/
def Complete (ws : List BitBuf) : Prop :=
  (∀ m, 1 ≤ m → m ≤ 5 → ∃ w ∈ ws, wtype w = m) ∧ ∀ m, 2 ≤ m → m ≤ 4 → issue (latest m ws) = issue (latest 1 ws)

theorem types_eq (b : BitBuf) : ∀ n k, (k + n) * 128 ≤ b.length →
    typesOk b n k = .ok (decide (∀ i, k ≤ i → i < k + n → bitsAt b (i * 128) 6 = i + 1)) := by
  intro n
  induction n with
  | zero =>
    intro k _
    unfold typesOk
    rw [decide_eq_true]
    · rfl
    · intro i h1 h2; omega
  | succ n ih =>
    intro k h
    unfold typesOk
    rw [readU_at (by omega), Py.okBind]
    by_cases hk : bitsAt b (k * 128) 6 = k + 1
    · rw [if_neg (by simpa using hk), ih (k + 1) (by omega)]
      congr 1
      rw [decide_eq_decide]
      constructor
      · intro h i h1 h2
        rcases Nat.eq_or_lt_of_le h1 with rfl | h3
        · exact hk
        · exact h i h3 (by omega)
      · intro h i h1 h2
        exact h i (by omega) (by omega)
    · rw [if_pos hk, decide_eq_false]
      · rfl
      · intro h; exact hk (h k (le_refl _) (by omega))

theorem iods_eq (b : BitBuf) (d : Nat) : ∀ n k, (k + n) * 128 ≤ b.length →
    iodOk b d n k = .ok (decide (∀ i, k ≤ i → i < k + n → bitsAt b (6 + i * 128) 10 = d)) := by
  intro n
  induction n with
  | zero =>
    intro k _
    unfold iodOk
    rw [decide_eq_true]
    · rfl
    · intro i h1 h2; omega
  | succ n ih =>
    intro k h
    unfold iodOk
    rw [readU_at (by omega), Py.okBind]
    by_cases hk : bitsAt b (6 + k * 128) 10 = d
    · rw [if_neg (by simpa using hk), ih (k + 1) (by omega)]
      congr 1
      rw [decide_eq_decide]
      constructor
      · intro h i h1 h2
        rcases Nat.eq_or_lt_of_le h1 with rfl | h3
        · exact hk
        · exact h i h3 (by omega)
      · intro h i h1 h2
        exact h i (by omega) (by omega)
    · rw [if_pos hk, decide_eq_false]
      · rfl
      · intro h; exact hk (h k (le_refl _) (by omega))

theorem nav_loop (b : BitBuf) (hb : b.length = 1280) : navLoop b [120, 120, 122, 120, 67] 0 0 (zeros 69) =
    .ok (seg b 6 120 ++ seg b 134 120 ++ seg b 262 122 ++ seg b 390 120 ++ seg b 518 67 ++ List.replicate 3 false) := by
  simp only [navLoop]
  have l1 : (seg b 6 120).length = 120 := seg_length (by omega)
  have l2 : (seg b 134 120).length = 120 := seg_length (by omega)
  have l3 : (seg b 262 122).length = 122 := seg_length (by omega)
  have l4 : (seg b 390 120).length = 120 := seg_length (by omega)
  have e1 := fillCopy b [] 552 6 0 120 rfl (by omega) (by omega)
  have e2 := fillCopy b ([] ++ seg b 6 120) 432 134 120 120 (by rw [List.nil_append, l1]) (by omega) (by omega)
  have e3 := fillCopy b ([] ++ seg b 6 120 ++ seg b 134 120) 312 262 240 122
    (by rw [List.length_append, List.nil_append, l1, l2]) (by omega) (by omega)
  have e4 := fillCopy b ([] ++ seg b 6 120 ++ seg b 134 120 ++ seg b 262 122) 190 390 362 120
    (by rw [List.length_append, List.length_append, List.nil_append, l1, l2, l3]) (by omega) (by omega)
  have e5 := fillCopy b ([] ++ seg b 6 120 ++ seg b 134 120 ++ seg b 262 122 ++ seg b 390 120) 70 518 482 67
    (by rw [List.length_append, List.length_append, List.length_append, List.nil_append, l1, l2, l3, l4]) (by omega) (by omega)
  refine (congrArg (· >>= _) e1).trans ?_
  rw [Py.okBind]
  refine (congrArg (· >>= _) e2).trans ?_
  rw [Py.okBind]
  refine (congrArg (· >>= _) e3).trans ?_
  rw [Py.okBind]
  refine (congrArg (· >>= _) e4).trans ?_
  rw [Py.okBind]
  refine (congrArg (· >>= _) e5).trans ?_
  rfl

/-- **Ephemeris data.** A tag on a satellite is checked against words 1 to 5 of its buffer if all five have been received
and the first four carry one issue number, otherwise against nothing. -/
theorem eph_data (s : St PK) (prn : Nat) (ws : List BitBuf) (h1 : 1 ≤ prn) (h2 : prn ≤ 36)
    (hl : ∀ w ∈ ws, w.length = 128) (hs : s.subfrm.get? (Sat.prn2sat .gal prn) = some (content ws)) :
    (Complete ws → genInav s prn = .ok (some (ephData ws))) ∧ (¬ Complete ws → genInav s prn = .ok none) := by
  have hb := content_length hl
  have hty : ∀ i, i < 5 → bitsAt (content ws) (i * 128) 6 = wtype (latest (i + 1) ws) := by
    intro i hi
    have := content_seg hl (i := i) (j := 0) (n := 6) (by omega) (by omega)
    rw [Nat.add_zero, Nat.mul_comm] at this
    exact congrArg bitsToNat this
  have his : ∀ i, i < 5 → bitsAt (content ws) (6 + i * 128) 10 = issue (latest (i + 1) ws) := by
    intro i hi
    have := content_seg hl (i := i) (j := 6) (n := 10) (by omega) (by omega)
    rw [show 128 * i + 6 = 6 + i * 128 by omega] at this
    exact congrArg bitsToNat this
  unfold genInav
  rw [if_neg (by omega), hs]
  dsimp only
  rw [types_eq _ 5 0 (by omega), Py.okBind]
  by_cases hT : ∀ m, 1 ≤ m → m ≤ 5 → ∃ w ∈ ws, wtype w = m
  case neg =>
    refine ⟨fun h => absurd h.1 hT, fun _ => ?_⟩
    rw [if_pos]
    · rfl
    · rw [decide_eq_true_eq]
      intro hc
      refine hT fun m hm1 hm2 => ?_
      have := hc (m - 1) (by omega) (by omega)
      rw [hty _ (by omega), show m - 1 + 1 = m by omega] at this
      exact (latest_type (by omega)).1 this
  rw [if_neg]
  case hnc =>
    rw [decide_eq_true_eq]
    intro hc
    refine hc fun i _ hi => ?_
    rw [hty i (by omega)]
    exact (latest_type (by omega)).2 (hT (i + 1) (by omega) (by omega))
  rw [readU_at (by omega), Py.okBind, iods_eq _ _ 3 1 (by omega), Py.okBind]
  have h0 : bitsAt (content ws) 6 10 = issue (latest 1 ws) := his 0 (by omega)
  by_cases hI : ∀ m, 2 ≤ m → m ≤ 4 → issue (latest m ws) = issue (latest 1 ws)
  case neg =>
    refine ⟨fun h => absurd h.2 hI, fun _ => ?_⟩
    rw [if_pos]
    · rfl
    · rw [decide_eq_true_eq]
      intro hc
      refine hI fun m hm1 hm2 => ?_
      have := hc (m - 1) (by omega) (by omega)
      rw [his _ (by omega), show m - 1 + 1 = m by omega, h0] at this
      exact this
  rw [if_neg]
  case hnc =>
    rw [decide_eq_true_eq]
    intro hc
    refine hc fun i h1 hi => ?_
    rw [his i (by omega), h0]
    exact hI (i + 1) (by omega) (by omega)
  refine ⟨fun _ => ?_, fun h => absurd ⟨hT, hI⟩ h⟩
  rw [nav_loop _ hb, Py.okBind]
  have p1 := content_seg hl (i := 0) (j := 6) (n := 120) (by omega) (by omega)
  have p2 := content_seg hl (i := 1) (j := 6) (n := 120) (by omega) (by omega)
  have p3 := content_seg hl (i := 2) (j := 6) (n := 122) (by omega) (by omega)
  have p4 := content_seg hl (i := 3) (j := 6) (n := 120) (by omega) (by omega)
  have p5 := content_seg hl (i := 4) (j := 6) (n := 67) (by omega) (by omega)
  have e : seg (content ws) 6 120 ++ seg (content ws) 134 120 ++ seg (content ws) 262 122 ++ seg (content ws) 390 120 ++
      seg (content ws) 518 67 ++ List.replicate 3 false = ephData ws := by
    unfold ephData
    rw [← p1, ← p2, ← p3, ← p4, ← p5]
  rw [e]
  rfl

/-- **UTC data**: words 6 and 10 of the transmitting satellite, if both have been received. -/
theorem utc_data (s : St PK) (a : Nat) (ws : List BitBuf) (ha : s.prnA = some a)
    (hl : ∀ w ∈ ws, w.length = 128) (hs : s.subfrm.get? (Sat.prn2sat .gal a) = some (content ws)) :
    genUtc s = .ok (if (∃ w ∈ ws, wtype w = 6) ∧ (∃ w ∈ ws, wtype w = 10) then some (utcData ws) else none) := by
  have hb := content_length hl
  have hga : getPrnA s = .ok a := by unfold getPrnA; rw [ha]
  have w6 : slice (content ws) 80 96 = latest 6 ws := by
    have := content_seg hl (i := 5) (j := 0) (n := 128) (by omega) (by omega)
    refine Eq.trans this ?_
    unfold seg
    rw [List.drop_zero, List.take_of_length_le (by rw [latest_length _ _ hl])]
  have w10 : slice (content ws) 144 160 = latest 10 ws := by
    have := content_seg hl (i := 9) (j := 0) (n := 128) (by omega) (by omega)
    refine Eq.trans this ?_
    unfold seg
    rw [List.drop_zero, List.take_of_length_le (by rw [latest_length _ _ hl])]
  unfold genUtc
  rw [hga, Py.okBind, hs]
  dsimp only
  rw [w6, w10, readU_type (latest_length _ _ hl), Py.okBind, readU_type (latest_length _ _ hl), Py.okBind]
  have q6 := latest_type (ws := ws) (m := 6) (by omega)
  have q10 := latest_type (ws := ws) (m := 10) (by omega)
  by_cases h6 : wtype (latest 6 ws) = 6
  case neg => rw [if_pos (Or.inl h6), if_neg (fun h => h6 (q6.2 h.1))]; rfl
  by_cases h10 : wtype (latest 10 ws) = 10
  case neg => rw [if_pos (Or.inr h10), if_neg (fun h => h10 (q10.2 h.2))]; rfl
  rw [if_neg (by omega), if_pos ⟨q6.1 h6, q10.1 h10⟩]
  have l6 := latest_length 6 _ hl
  have l10 := latest_length 10 _ hl
  have e1 := fillCopy (latest 6 ws) [] 144 6 0 99 rfl (by omega) (by omega)
  have s6 : (seg (latest 6 ws) 6 99).length = 99 := seg_length (by omega)
  have e2 := fillCopy (latest 10 ws) ([] ++ seg (latest 6 ws) 6 99) 45 86 99 42
    (by rw [List.nil_append, s6]) (by omega) (by omega)
  refine (congrArg (· >>= _) e1).trans ?_
  rw [Py.okBind]
  refine (congrArg (· >>= _) e2).trans ?_
  rfl

/-- **Pages.** A page of 240 bits gives the 128 bits of the navigation word and the 40 bits of the OSNMA field. -/
theorem page_split (b : BitBuf) (hb : b.length = 240) :
    loadGalInav b = .ok (seg b 2 112 ++ seg b 122 16, seg b 138 40) := by
  unfold loadGalInav
  rw [readU_at (b := b) (k := 0) (n := 1) (by omega), Py.okBind, readU_at (b := b) (k := 1) (n := 1) (by omega), Py.okBind,
    readU_at (b := b) (k := 120) (n := 1) (by omega), Py.okBind, readU_at (b := b) (k := 121) (n := 1) (by omega), Py.okBind]
  have l1 : (seg b 2 112).length = 112 := seg_length (by omega)
  have e1 := fillCopy b [] 128 2 0 112 rfl (by omega) (by omega)
  have e2 := fillCopy b ([] ++ seg b 2 112) 16 122 112 16 (by rw [List.nil_append, l1]) (by omega) (by omega)
  have e3 := fillCopy b [] 40 138 0 40 rfl (by omega) (by omega)
  refine (congrArg (· >>= _) e1).trans ?_
  rw [Py.okBind]
  refine (congrArg (· >>= _) e2).trans ?_
  rw [Py.okBind]
  refine (congrArg (· >>= _) e3).trans ?_
  rw [Py.okBind]
  simp only [pure, Except.pure]
  congr 2
  · simp [seg]
  · simp [seg]

/-! ## Cases -/

/-- a word of a type, issue number and filling -/
def word (m d v : Nat) : BitBuf := natToBits 6 m ++ natToBits 10 d ++ natToBits 112 v

/-- words 1 to 6 and 10 in the first sub-frame, others afterwards -/
def demo : List (BitBuf × Nat) := [(word 1 7 11, 1), (word 2 7 12, 3), (word 3 7 13, 5), (word 4 7 14, 7), (word 5 0 15, 9),
  (word 6 0 16, 11), (word 10 0 17, 13)]

/-- sent by satellite 3 -/
def demoOps : List (Op Unit) := (demo ++ [(word 2 8 21, 31), (word 1 8 22, 33), (word 2 9 31, 61), (word 4 9 32, 63)]).map
  fun (e : BitBuf × Nat) => Op.nav e.1 3 e.2

example : ∃ s, run demoPrim ({} : St Unit) demoOps = .ok s ∧
    s.subfrm.get? (Sat.prn2sat .gal 3) = some (content (demo.map (·.1))) ∧ Complete (demo.map (·.1)) ∧
    genInav s 3 = .ok (some (ephData (demo.map (·.1)))) := by
  cases hr : run demoPrim ({} : St Unit) demoOps with
  | error e =>
    have : (match run demoPrim ({} : St Unit) demoOps with | .ok _ => true | .error _ => false) = true := by decide +kernel
    rw [hr] at this; cases this
  | ok s =>
    have hb := buffer demoPrim ({} : St Unit) s demoOps (Sat.prn2sat .gal 3) demo [(word 1 8 22, 33)] [(word 4 9 32, 63)] (word 2 8 21, 31)
      (word 2 9 31, 61) rfl rfl rfl hr (by
        intro w prn tow h
        obtain ⟨e, he, h2⟩ := List.mem_map.1 h
        cases h2
        clear h
        revert he
        revert e
        decide +kernel) (by decide +kernel) rfl rfl (by decide +kernel) (by decide +kernel)
    have hc : Complete (demo.map (·.1)) := by
      constructor
      · intro m h1 h2
        obtain rfl | rfl | rfl | rfl | rfl : m = 1 ∨ m = 2 ∨ m = 3 ∨ m = 4 ∨ m = 5 := by omega
        all_goals decide +kernel
      · intro m h1 h2
        obtain rfl | rfl | rfl : m = 2 ∨ m = 3 ∨ m = 4 := by omega
        all_goals decide +kernel
    refine ⟨s, rfl, hb, hc, ?_⟩
    exact (eph_data s 3 _ (by omega) (by omega) (by decide +kernel) hb).1 hc

end Verif.C66
