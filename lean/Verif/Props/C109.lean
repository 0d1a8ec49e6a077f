import Verif.Model.RnxEnc
import Verif.Props.C03
import Verif.Props.C69
/-!
C109: observation records as written are read back.
-/

namespace Verif.C109
open Verif.Sat Verif.Sig Verif.Time Verif.Rinex

/-! ### Specification -/

/-- what a reader gets from the text of a value -/
def back (num : Line → Py ℚ) (txt : ℚ → Line) (v : ℚ) : Py ℚ :=
  if v = 0 then .ok 0 else if strip (txt v) = [] then .ok 0 else num (strip (txt v))

/-- the text of a value fills its 14 columns -/
def Fits (txt : ℚ → Line) (v : ℚ) : Prop := v = 0 ∨ (txt v).length = 14

instance (txt : ℚ → Line) (v : ℚ) : Decidable (Fits txt v) := by unfold Fits; infer_instance

/-- all values of a signal fill their columns, and the loss-of-lock flag has one digit -/
def CellFits (txt : ℚ → Line) (o : Cell) : Prop :=
  Fits txt o.p ∧ Fits txt o.l ∧ Fits txt o.d ∧ Fits txt o.s ∧ o.lli ≤ 9

instance (txt : ℚ → Line) (o : Cell) : Decidable (CellFits txt o) := by unfold CellFits; infer_instance

/-- number of columns of a signal -/
def width (hd hs : Bool) : Nat := 2 + hd.toNat + hs.toNat

/-! ### Lemmas -/

theorem slice_at : ∀ (bs : List Line) (pre : Line) (k : Nat) (hk : k < bs.length), (∀ b ∈ bs, b.length = 16) →
    slice (pre ++ bs.flatten) (16 * k + pre.length) (16 * k + pre.length + 14) = bs[k].take 14 ∧
    (pre ++ bs.flatten)[16 * k + pre.length + 14]? = bs[k][14]?
  | [], _, k, hk, _ => absurd hk (by simp)
  | b :: bs, pre, 0, _, h => by
    have hb := h b (by simp)
    constructor
    · simp [slice, List.take_append, hb]
    · rw [List.flatten_cons, List.getElem?_append_right (by omega), List.getElem?_append_left (by omega)]
      simp
  | b :: bs, pre, k + 1, hk, h => by
    have hb := h b (by simp)
    have := slice_at bs (pre ++ b) k (by simpa using hk) fun x hx => h x (by simp [hx])
    rw [List.length_append, hb] at this
    have e : 16 * (k + 1) + pre.length = 16 * k + (pre.length + 16) := by omega
    rw [e]
    simpa using this

theorem flat_at {α : Type} (f : α → List Line) (w : Nat) (hf : ∀ a, (f a).length = w) (j : Nat) (hj : j < w) :
    ∀ (l : List α) (k : Nat) (hk : k < l.length), (l.flatMap f)[w * k + j]? = (f l[k])[j]?
  | [], k, hk => absurd hk (by simp)
  | a :: l, 0, _ => by
    rw [List.flatMap_cons, List.getElem?_append_left (by rw [hf]; omega)]
    simp
  | a :: l, k + 1, hk => by
    have := flat_at f w hf j hj l k (by simpa using hk)
    rw [List.flatMap_cons, List.getElem?_append_right (by rw [hf, Nat.mul_succ]; omega), hf]
    have e : w * (k + 1) + j - w = w * k + j := by rw [Nat.mul_succ]; omega
    rw [e, this]
    simp

/-- the blocks of 16 characters of a signal -/
def blocks (txt : ℚ → Line) (hd hs : Bool) (o : Cell) : List Line :=
  [pad 14 (sval txt o.p) ++ pad 2 [],
    pad 14 (sval txt o.l) ++ (if o.l = 0 then pad 2 [] else ralign 1 ' ' o.lli ++ ralign 1 ' ' (ssi o.s))]
    ++ (if hd then [pad 14 (sval txt o.d) ++ pad 2 []] else [])
    ++ (if hs then [pad 14 (sval txt o.s) ++ pad 2 []] else [])

theorem blocks_flat (txt : ℚ → Line) (hd hs : Bool) (o : Cell) : (blocks txt hd hs o).flatten = cellText txt hd hs o := by
  cases hd <;> cases hs <;> simp [blocks, cellText]

theorem blocks_length (txt : ℚ → Line) (hd hs : Bool) (o : Cell) : (blocks txt hd hs o).length = width hd hs := by
  cases hd <;> cases hs <;> simp [blocks, width]

theorem text_len {txt : ℚ → Line} {v : ℚ} (h : Fits txt v) : (pad 14 (sval txt v)).length = 14 := by
  unfold sval
  rcases h with h | h
  · simp [h, pad]
  · split
    · simp [pad]
    · simp [pad, h]

theorem text_strip {txt : ℚ → Line} {v : ℚ} (h : Fits txt v) :
    strip (pad 14 (sval txt v)) = if v = 0 then [] else strip (txt v) := by
  unfold sval
  split
  · decide
  · rename_i hv
    rcases h with h | h
    · exact absurd h hv
    · simp [pad, h]

/-- The signal strength indicator is one digit, from 1 to 9. -/
theorem strength (s : ℚ) : 1 ≤ ssi s ∧ ssi s ≤ 9 := by
  unfold ssi
  omega

theorem digit_one : ∀ n : Fin 10, ralign 1 ' ' n.val = [digit n.val] ∧ (digit n.val = '1' ↔ n.val = 1) := by decide

theorem blocks_16 {txt : ℚ → Line} {hd hs : Bool} {o : Cell} (h : CellFits txt o) : ∀ b ∈ blocks txt hd hs o, b.length = 16 := by
  obtain ⟨h1, h2, h3, h4, h5⟩ := h
  have e2 : (pad 2 []).length = 2 := by decide
  have e3 := (digit_one ⟨o.lli, by omega⟩).1
  have e4 := (digit_one ⟨ssi o.s, by have := (strength o.s).2; omega⟩).1
  simp only at e3 e4
  intro b hb
  simp only [blocks, List.mem_append, List.mem_cons, List.not_mem_nil, or_false] at hb
  rcases hb with ((hb | hb) | hb) | hb
  · rw [hb, List.length_append, text_len h1, e2]
  · rw [hb, List.length_append, text_len h2]
    split
    · rw [e2]
    · rw [e3, e4]; rfl
  · split at hb
    · simp only [List.mem_cons, List.not_mem_nil, or_false] at hb
      rw [hb, List.length_append, text_len h3, e2]
    · simp at hb
  · split at hb
    · simp only [List.mem_cons, List.not_mem_nil, or_false] at hb
      rw [hb, List.length_append, text_len h4, e2]
    · simp at hb

theorem back_of {num : Line → Py ℚ} {txt : ℚ → Line} {v : ℚ} (h : Fits txt v) (tail : Line) :
    (if strip ((pad 14 (sval txt v) ++ tail).take 14) = [] then Except.ok 0
      else num (strip ((pad 14 (sval txt v) ++ tail).take 14))) = back num txt v := by
  have hl := text_len h
  rw [List.take_append_of_le_length (by omega), List.take_of_length_le (by omega), text_strip h, back]
  by_cases hv : v = 0 <;> simp [hv]

/-- blocks of a whole line -/
theorem line_blocks (txt : ℚ → Line) (hd hs : Bool) (os : List Cell) :
    os.flatMap (cellText txt hd hs) = (os.flatMap (blocks txt hd hs)).flatten := by
  induction os with
  | nil => rfl
  | cons o os ih => rw [List.flatMap_cons, List.flatMap_cons, List.flatten_append, ih, blocks_flat]

theorem block_read (num : Line → Py ℚ) {txt : ℚ → Line} {hd hs : Bool} {os : List Cell} (hf : ∀ o ∈ os, CellFits txt o) (pre : Line)
    (hp : pre.length = 3) (k : Nat) (hk : k < os.length) (j : Nat) (hj : j < width hd hs) (b : Line)
    (hb : (blocks txt hd hs os[k])[j]? = some b) :
    field num (pre ++ os.flatMap (cellText txt hd hs)) (width hd hs * k + j) =
        (if strip (b.take 14) = [] then .ok 0 else num (strip (b.take 14))) ∧
      lliAt (pre ++ os.flatMap (cellText txt hd hs)) (width hd hs * k + j) = if b[14]? = some '1' then 1 else 0 := by
  have h1 := flat_at (blocks txt hd hs) (width hd hs) (blocks_length txt hd hs) j hj os k hk
  rw [hb] at h1
  obtain ⟨hlt, he⟩ := List.getElem?_eq_some_iff.1 h1
  have h2 := slice_at (os.flatMap (blocks txt hd hs)) pre (width hd hs * k + j) hlt (by
    intro x hx
    obtain ⟨o, ho, hx⟩ := List.mem_flatMap.1 hx
    exact blocks_16 (hf o ho) x hx)
  rw [hp, he] at h2
  rw [line_blocks]
  unfold field lliAt
  rw [show 16 * (width hd hs * k + j) + 17 = 16 * (width hd hs * k + j) + 3 + 14 from rfl, h2.1, h2.2]
  exact ⟨rfl, rfl⟩

/-- designation of a satellite -/
def idOf (sat : Int) : Line := (sat2id sat).getD []

theorem id_table : ∀ s : Fin 233, (sat2id ((s.val + 1 : Nat) : Int)).isSome = true ∧ (idOf ((s.val + 1 : Nat) : Int)).length = 3 ∧
    (pyInt (strip (slice (idOf ((s.val + 1 : Nat) : Int)) 1 3))).toOption.isSome = true ∧
    satOf (char2sys ((idOf ((s.val + 1 : Nat) : Int)).headD ' '))
      ((pyInt (strip (slice (idOf ((s.val + 1 : Nat) : Int)) 1 3))).toOption.getD 0) = ((s.val + 1 : Nat) : Int) ∧
    char2sys ((idOf ((s.val + 1 : Nat) : Int)).headD ' ') = (sat2prn ((s.val + 1 : Nat) : Int)).1 := by
  decide +kernel

theorem id_facts (sat : Int) (h1 : 1 ≤ sat) (h2 : sat ≤ 233) : sat2id sat = some (idOf sat) ∧ (idOf sat).length = 3 ∧
    (∃ p, pyInt (strip (slice (idOf sat) 1 3)) = .ok p ∧ satOf (char2sys ((idOf sat).headD ' ')) p = sat) ∧
    char2sys ((idOf sat).headD ' ') = (sat2prn sat).1 := by
  obtain ⟨n, rfl⟩ : ∃ n : Nat, sat = ((n + 1 : Nat) : Int) := ⟨(sat - 1).toNat, by omega⟩
  obtain ⟨a, b, c, d, e⟩ := id_table ⟨n, by omega⟩
  simp only at a b c d e
  refine ⟨?_, b, ?_, e⟩
  · unfold idOf
    cases h : sat2id ((n + 1 : Nat) : Int) with
    | none => rw [h] at a; cases a
    | some x => rfl
  · cases h : pyInt (strip (slice (idOf ((n + 1 : Nat) : Int)) 1 3)) with
    | error x => rw [h] at c; cases c
    | ok p => rw [h] at d; exact ⟨p, rfl, d⟩

/-- the text written for a satellite -/
theorem sat_text {txt : ℚ → Line} {tab : Tab} {sat : Int} (h1 : 1 ≤ sat) (h2 : sat ≤ 233) {os : List Cell} {d : Dict Typ (List Sig)}
    (hd : tab.get? (sat2prn sat).1 = some d) :
    satText txt tab sat os = .ok (idOf sat ++ os.flatMap (cellText txt (d.mem .D) (d.mem .S))) := by
  obtain ⟨a, b, -, -⟩ := id_facts sat h1 h2
  have hp : pad 3 (idOf sat) = idOf sat := by simp [pad, b]
  unfold satText
  rw [a]
  simp only [hp, hd]
  by_cases ho : os = []
  · rw [if_pos ho, ho]; simp
  · rw [if_neg ho]

/-! ### The property -/

/-- Signal `k` of a satellite occupies `width` columns: pseudorange, phase, and Doppler and strength if they are written.  The
reader gets from each of them the number written, zero for a missing one; of the loss-of-lock flag it only gets whether it is 1, and
nothing when the phase is missing. -/
theorem columns_read (num : Line → Py ℚ) (txt : ℚ → Line) (tab : Tab) (sat : Int) (h1 : 1 ≤ sat) (h2 : sat ≤ 233) (os : List Cell)
    (d : Dict Typ (List Sig)) (htab : tab.get? (sat2prn sat).1 = some d) (hf : ∀ o ∈ os, CellFits txt o) :
    ∃ line, satText txt tab sat os = .ok line ∧ ∀ k (hk : k < os.length),
      let w := width (d.mem .D) (d.mem .S)
      field num line (w * k) = back num txt os[k].p ∧
      field num line (w * k + 1) = back num txt os[k].l ∧
      lliAt line (w * k + 1) = (if os[k].l ≠ 0 ∧ os[k].lli = 1 then 1 else 0) ∧
      (d.mem .D = true → field num line (w * k + 2) = back num txt os[k].d) ∧
      (d.mem .S = true → field num line (w * k + 2 + (d.mem .D).toNat) = back num txt os[k].s) := by
  refine ⟨_, sat_text h1 h2 htab, fun k hk => ?_⟩
  have hl := (id_facts sat h1 h2).2.1
  have hc := hf os[k] (List.getElem_mem _)
  obtain ⟨c1, c2, c3, c4, c5⟩ := id hc
  generalize d.mem .D = hd
  generalize d.mem .S = hs
  have hw : 2 ≤ width hd hs := by unfold width; omega
  intro w
  refine ⟨?_, ?_, ?_, ?_, ?_⟩
  · have := (block_read (hd := hd) (hs := hs) num hf (idOf sat) hl k hk 0 (by omega) _ rfl).1
    rw [Nat.add_zero] at this
    rw [this, back_of c1]
  · rw [(block_read num hf (idOf sat) hl k hk 1 (by omega) _ rfl).1, back_of c2]
  · rw [(block_read num hf (idOf sat) hl k hk 1 (by omega) _ rfl).2]
    have e3 := digit_one ⟨os[k].lli, by omega⟩
    simp only at e3
    rw [List.getElem?_append_right (by rw [text_len c2]), text_len c2, Nat.sub_self]
    by_cases hz : os[k].l = 0
    · simp [hz, pad]
    · rw [if_neg hz, e3.1]
      simp [hz, e3.2]
  · intro h
    have hj : 2 < width hd hs := by unfold width; rw [h, Bool.toNat_true]; omega
    rw [(block_read num hf (idOf sat) hl k hk 2 hj (pad 14 (sval txt os[k].d) ++ pad 2 []) (by
      rw [h]; simp [blocks])).1, back_of c3]
  · intro h
    have hj : 2 + hd.toNat < width hd hs := by unfold width; rw [h]; simp
    rw [Nat.add_assoc, (block_read num hf (idOf sat) hl k hk (2 + hd.toNat) hj (pad 14 (sval txt os[k].s) ++ pad 2 []) (by
      rw [h]; cases hd <;> simp [blocks])).1, back_of c4]

theorem field_any (num : Line → Py ℚ) {txt : ℚ → Line} {hd hs : Bool} {os : List Cell} (hf : ∀ o ∈ os, CellFits txt o) (pre : Line)
    (hp : pre.length = 3)
    (hn : ∀ o ∈ os, ∀ v ∈ [o.p, o.l, o.d, o.s], ∃ x, back num txt v = .ok x) (i : Nat) :
    ∃ x, field num (pre ++ os.flatMap (cellText txt hd hs)) i = .ok x := by
  have h16 : ∀ b ∈ os.flatMap (blocks txt hd hs), b.length = 16 := by
    intro x hx
    obtain ⟨o, ho, hx⟩ := List.mem_flatMap.1 hx
    exact blocks_16 (hf o ho) x hx
  rw [line_blocks]
  by_cases hi : i < (os.flatMap (blocks txt hd hs)).length
  · have h2 := (slice_at _ pre i hi h16).1
    rw [hp] at h2
    unfold field
    rw [show 16 * i + 17 = 16 * i + 3 + 14 from rfl, h2]
    obtain ⟨o, ho, hb⟩ := List.mem_flatMap.1 (List.getElem_mem hi)
    have hn := hn o ho
    obtain ⟨c1, c2, c3, c4, c5⟩ := hf o ho
    generalize (os.flatMap (blocks txt hd hs))[i] = b at hb
    simp only [blocks, List.mem_append, List.mem_cons, List.not_mem_nil, or_false] at hb
    simp only [List.mem_cons, List.not_mem_nil, or_false, forall_eq_or_imp, forall_eq] at hn
    obtain ⟨n1, n2, n3, n4⟩ := hn
    rcases hb with ((hb | hb) | hb) | hb
    · rw [hb, back_of c1]; exact n1
    · rw [hb, back_of c2]; exact n2
    · split at hb
      · simp only [List.mem_cons, List.not_mem_nil, or_false] at hb
        rw [hb, back_of c3]; exact n3
      · simp at hb
    · split at hb
      · simp only [List.mem_cons, List.not_mem_nil, or_false] at hb
        rw [hb, back_of c4]; exact n4
      · simp at hb
  · have hlen : ∀ bs : List Line, (∀ b ∈ bs, b.length = 16) → bs.flatten.length = 16 * bs.length := by
      intro bs
      induction bs with
      | nil => simp
      | cons b bs ih =>
        intro h
        rw [List.flatten_cons, List.length_append, ih fun x hx => h x (by simp [hx]), h b (by simp), List.length_cons]
        omega
    have : slice (pre ++ (os.flatMap (blocks txt hd hs)).flatten) (16 * i + 3) (16 * i + 17) = [] := by
      unfold slice
      rw [List.drop_eq_nil_iff, List.length_take, List.length_append, hlen _ h16, hp]
      omega
    unfold field
    rw [this]
    exact ⟨0, rfl⟩

/-- A file written for an epoch is read back with the same satellites in the same order and nothing left over, as long as the values
fit their columns, their texts are numbers, and the header and the user's selection name the constellations. -/
theorem satellites_read (num : Line → Py ℚ) (txt fsec : ℚ → Line) (tab : Tab) (t : GTime) (rows : List (Int × List Cell))
    (hs : ∀ r ∈ rows, 1 ≤ r.1 ∧ r.1 ≤ 233 ∧ tab.mem (sat2prn r.1).1 = true)
    (hf : ∀ r ∈ rows, ∀ o ∈ r.2, CellFits txt o)
    (hn : ∀ r ∈ rows, ∀ o ∈ r.2, ∀ v ∈ [o.p, o.l, o.d, o.s], ∃ x, back num txt v = .ok x)
    (map : Dict Sys (Dict Nat Sig)) (sel : Tab) (hsel : C69.Filed sel)
    (hm : ∀ r ∈ rows, map.mem (sat2prn r.1).1 = true ∧ sel.mem (sat2prn r.1).1 = true) (rest : List Line) :
    ∃ lines, obsBody txt fsec tab (some t) rows = .ok (epochText fsec t rows.length :: lines) ∧
      ∃ rs, satLoop num map sel rows.length (lines ++ rest) = .ok (rs, rest) ∧ rs.map (·.1) = rows.map (·.1) := by
  have key : ∀ r ∈ rows, ∃ line, satText txt tab r.1 r.2 = .ok line ∧
      ∃ x, satLine num map sel line = .ok (some (r.1, x)) := by
    intro r hr
    obtain ⟨h1, h2, h3⟩ := hs r hr
    obtain ⟨d, hd⟩ := Option.isSome_iff_exists.1 h3
    obtain ⟨-, hl, ⟨p, hp, hsat⟩, hsys⟩ := id_facts r.1 h1 h2
    refine ⟨_, sat_text h1 h2 hd, ?_⟩
    set body := r.2.flatMap (cellText txt (d.mem .D) (d.mem .S)) with hbody
    have hsl : slice (idOf r.1 ++ body) 1 3 = slice (idOf r.1) 1 3 := by
      unfold slice
      rw [List.take_append_of_le_length (by omega)]
    have hhead : C69.lineSys (idOf r.1 ++ body) = (sat2prn r.1).1 := by
      rw [← hsys]
      unfold C69.lineSys
      cases hi : idOf r.1 with
      | nil => rw [hi] at hl; simp at hl
      | cons c x => rfl
    have htk : C69.Taken map sel (idOf r.1 ++ body) := by
      unfold C69.Taken
      rw [hhead]
      exact hm r hr
    refine ⟨C69.rowOf num map sel (idOf r.1 ++ body),
      (C69.sat_line num map sel hsel _ _).2 ⟨⟨?_, fun _ => ⟨⟨p, ?_⟩, fun i _ s _ _ => ?_⟩⟩, ?_⟩⟩
    · intro h
      have := congrArg List.length h
      rw [List.length_append, hl] at this
      simp at this
    · rw [hsl, hp]
    · exact field_any num (hf r hr) _ hl (hn r hr) i
    · rw [if_pos htk, hhead]
      unfold C69.linePrn
      rw [hsl, hp, ← hsys]
      show _ = some (satOf _ p, _)
      rw [hsat]
  have main : ∀ rows : List (Int × List Cell), (∀ r ∈ rows, ∃ line, satText txt tab r.1 r.2 = .ok line ∧
      ∃ x, satLine num map sel line = .ok (some (r.1, x))) →
      ∃ lines, rows.mapM (fun r => satText txt tab r.1 r.2) = .ok lines ∧
        ∃ rs, satLoop num map sel rows.length (lines ++ rest) = .ok (rs, rest) ∧ rs.map (·.1) = rows.map (·.1) := by
    intro rows
    induction rows with
    | nil => intro _; exact ⟨[], rfl, [], rfl, rfl⟩
    | cons r rows ih =>
      intro h
      obtain ⟨line, e1, x, e2⟩ := h r (by simp)
      obtain ⟨lines, e3, rs, e4, e5⟩ := ih fun q hq => h q (by simp [hq])
      refine ⟨line :: lines, ?_, (r.1, x) :: rs, ?_, by simp [e5]⟩
      · rw [List.mapM_cons, e1]
        show (do let bs ← rows.mapM _; pure (line :: bs) : Py _) = _
        rw [e3]; rfl
      · show (do
          let r ← satLine num map sel line
          let (q, z) ← satLoop num map sel rows.length (lines ++ rest)
          pure (r.toList ++ q, z) : Py _) = _
        rw [e2, e4]; rfl
  obtain ⟨lines, e1, e2⟩ := main rows key
  refine ⟨lines, ?_, e2⟩
  unfold obsBody
  simp only [e1]
  rfl

theorem two_digits : ∀ n : Fin 100, (ralign 2 '0' n.val).length = 2 ∧ pyInt (strip (ralign 2 '0' n.val)) = .ok (n.val : Int) := by
  decide +kernel

theorem four_digits : ∀ n : Fin 130, (ralign 4 ' ' (1970 + n.val)).length = 4 ∧
    pyInt (strip (ralign 4 ' ' (1970 + n.val))) = .ok ((1970 + n.val : Nat) : Int) := by
  decide +kernel

theorem three_digits : ∀ n : Fin 1000, (ralign 3 ' ' n.val).length = 3 ∧ pyInt (strip (ralign 3 ' ' n.val)) = .ok (n.val : Int) := by
  decide +kernel

theorem slice_mid (a b c : Line) (x y : Nat) (h1 : a.length = x) (h2 : x + b.length = y) : slice (a ++ b ++ c) x y = b := by
  subst h1; subst h2
  simp [slice, List.take_append]

theorem epoch_tot (e : Epoch) (h1 : 1970 ≤ e.year) (h2 : e.year ≤ 2099) (h3 : 1 ≤ e.mon) (h4 : e.mon ≤ 12) :
    ((epoch2time e).time : ℚ) + (epoch2time e).sec =
      (C03.dayNumber e.year e.mon e.day * 86400 + e.hour * 3600 + e.min * 60 : Int) + e.sec := by
  rw [C03.epoch2time_time _ h1 h2 h3 h4]
  have : (epoch2time e).sec = e.sec - truncQ e.sec := by
    unfold epoch2time
    rw [if_neg (by omega)]
  rw [this]
  push_cast
  ring

/-- The epoch line is read back: the number of satellites, and the time up to the rounding of the seconds in the text, also when they
round up to 60. -/
theorem epoch_read (num : Line → Py ℚ) (fsec : ℚ → Line) (t : GTime) (h0 : 0 ≤ t.time)
    (h1 : t.time < C03.dayNumber 2100 1 1 * 86400) (hs0 : 0 ≤ t.sec) (hs1 : t.sec < 1) (n : Nat) (hn : n ≤ 999)
    (hl : (fsec (time2epoch t).sec).length = 10) (s : ℚ) (hs : num (fsec (time2epoch t).sec) = .ok s) :
    ∃ t', epochLine num (epochText fsec t n) = .ok (n, t') ∧
      (t'.time : ℚ) + t'.sec = t.time + t.sec + (s - (time2epoch t).sec) := by
  obtain ⟨hv, hrt⟩ := C03.epoch2time_time2epoch t h0 h1 hs0 hs1
  obtain ⟨v1, v2, v3, v4, v5, v6, v7, v8, v9, v10, v11, v12⟩ := id hv
  have hday : (time2epoch t).day ≤ 31 := by
    have : C03.monthLen (time2epoch t).year (time2epoch t).mon.toNat ≤ 31 := by
      unfold C03.monthLen
      repeat' split
      all_goals omega
    omega
  have ey := four_digits ⟨((time2epoch t).year - 1970).toNat, by omega⟩
  have eo := two_digits ⟨(time2epoch t).mon.toNat, by omega⟩
  have ed := two_digits ⟨(time2epoch t).day.toNat, by omega⟩
  have eh := two_digits ⟨(time2epoch t).hour.toNat, by omega⟩
  have em := two_digits ⟨(time2epoch t).min.toNat, by omega⟩
  have en := three_digits ⟨n, by omega⟩
  simp only at ey eo ed eh em en
  have hy' : 1970 + ((time2epoch t).year - 1970).toNat = (time2epoch t).year.toNat := by omega
  rw [hy'] at ey
  rw [Int.toNat_of_nonneg (by omega)] at ey eo ed eh em
  have hcat : ∀ (Y O D H M S N : Line), Y.length = 4 → O.length = 2 → D.length = 2 → H.length = 2 → M.length = 2 → S.length = 10 →
      N.length = 3 → ∃ l, "> ".toList ++ Y ++ [' '] ++ O ++ [' '] ++ D ++ [' '] ++ H ++ [' '] ++ M ++ [' '] ++ S ++ "  0".toList ++ N = l ∧
        slice l 32 35 = N ∧ slice l 2 6 = Y ∧ slice l 7 9 = O ∧ slice l 10 12 = D ∧ slice l 13 15 = H ∧ slice l 16 18 = M ∧
        slice l 19 29 = S := by
    intro Y O D H M S N y o d h m s n
    match Y, y, O, o, D, d, H, h, M, m, S, s, N, n with
    | [_, _, _, _], _, [_, _], _, [_, _], _, [_, _], _, [_, _], _, [_, _, _, _, _, _, _, _, _, _], _, [_, _, _], _ =>
      exact ⟨_, rfl, rfl, rfl, rfl, rfl, rfl, rfl, rfl⟩
  obtain ⟨l, e0, e1, e2, e3, e4, e5, e6, e7⟩ := hcat _ _ _ _ _ _ _ ey.1 eo.1 ed.1 eh.1 em.1 hl en.1
  refine ⟨epoch2time { time2epoch t with sec := s }, ?_, ?_⟩
  · unfold epochText epochLine
    simp only
    rw [e0, e1, e2, e3, e4, e5, e6, e7, ey.2, eo.2, ed.2, eh.2, em.2, en.2, hs]
    rfl
  · have hq := epoch_tot { time2epoch t with sec := s } v1 v2 v3 v4
    refine hq.trans ?_
    have hb := epoch_tot (time2epoch t) v1 v2 v3 v4
    rw [hrt] at hb
    rw [hb]
    simp only
    ring

/-- Observations without the attribute `time`, as the RINEX reader returns them, cannot be written. -/
theorem no_time (txt fsec : ℚ → Line) (tab : Tab) (rows : List (Int × List Cell)) :
    obsBody txt fsec tab Option.none rows = .error .attributeError := rfl

/-- A satellite of a constellation that is not selected for writing stops the writing. -/
theorem not_selected (txt : ℚ → Line) (tab : Tab) (sat : Int) (h1 : 1 ≤ sat) (h2 : sat ≤ 233) (os : List Cell) (ho : os ≠ [])
    (ht : tab.get? (sat2prn sat).1 = Option.none) : satText txt tab sat os = .error .keyError := by
  unfold satText
  rw [(id_facts sat h1 h2).1]
  simp only [if_neg ho, ht]

/-- The text of one value that needs more than its 14 columns moves all the following ones: every column before it is read
unchanged, the reader gets its first 14 characters in its own column, and the next column begins with its last characters. -/
theorem too_wide (bs cs : List Line) (pre b : Line) (hp : pre.length = 3) (hb : ∀ x ∈ bs, x.length = 16) (hw : 14 ≤ b.length) :
    let line := pre ++ bs.flatten ++ b ++ cs.flatten
    slice line (16 * bs.length + 3) (16 * bs.length + 17) = b.take 14 ∧
    slice line (16 * bs.length + 19) (16 * bs.length + 33) = (((b ++ cs.flatten).drop 16).take 14) := by
  have hl : (pre ++ bs.flatten).length = 16 * bs.length + 3 := by
    have : bs.flatten.length = 16 * bs.length := by
      induction bs with
      | nil => simp
      | cons x bs ih =>
        rw [List.flatten_cons, List.length_append, ih fun y hy => hb y (by simp [hy]), hb x (by simp), List.length_cons]
        omega
    rw [List.length_append, hp, this]; omega
  intro line
  have e : line = (pre ++ bs.flatten) ++ (b ++ cs.flatten) := by simp [line]
  rw [e]
  generalize pre ++ bs.flatten = q at hl
  constructor
  · unfold slice
    rw [List.drop_take, List.drop_append_of_le_length (by omega), ← hl, List.drop_length, List.nil_append, hl,
      show 16 * bs.length + 17 - (16 * bs.length + 3) = 14 by omega, List.take_append_of_le_length hw]
  · unfold slice
    rw [List.drop_take, show 16 * bs.length + 33 - (16 * bs.length + 19) = 14 by omega, show 16 * bs.length + 19 = q.length + 16 by omega,
      ← List.drop_drop, List.drop_append_of_le_length (by omega), List.drop_length, List.nil_append]

/-! ### Cases -/

/-- a format for whole numbers below 10^10 -/
def txt0 (v : ℚ) : Line := ralign 10 ' ' v.num.toNat ++ ".000".toList

example : satText txt0 [(.gps, [(.C, []), (.L, []), (.S, [])])] 3 [⟨20000000, 105000000, 0, 45, 1⟩, ⟨0, 0, 0, 30, 0⟩] =
    .ok "G03  20000000.000   105000000.00017        45.000                                          30.000  ".toList ∧
    CellFits txt0 ⟨20000000, 105000000, 0, 45, 1⟩ := by decide +kernel

example : epochText (fun _ => "00.0000000".toList) ⟨1700000000, 0⟩ 12 = "> 2023 11 14 22 13 00.0000000  0 12".toList := by decide +kernel

/-- a loss-of-lock flag of 3 is read as 0 -/
example : lliAt "G03  20000000.000   105000000.00037".toList 1 = 0 ∧ lliAt "G03  20000000.000   105000000.00017".toList 1 = 1 := by
  decide +kernel

end Verif.C109
