import Verif.Model.Sinca
/-!
# C19 SINCA run-length compressed text expands to the original

Specification: the compressed text is a sequence of items, each a plain character, a character with
a one-digit repeat escape `c|h`, or a character with a two-digit escape `c/hh`.
-/

namespace Verif.C19
open Verif.Sinca

def hexDigit (n : Nat) : Char := ['0', '1', '2', '3', '4', '5', '6', '7', '8', '9', 'A', 'B', 'C', 'D',
  'E', 'F'].getD n '0'

inductive Item where
  | lit (c : Char)
  | one (c : Char) (n : Fin 16)
  | two (c : Char) (n : Fin 256)

/-- an escape character never stands for itself -/
def Item.plain : Item → Prop
  | .lit c | .one c _ | .two c _ => c ≠ '|' ∧ c ≠ '/'

/-- compressed form -/
def Item.text : Item → List Char
  | .lit c => [c]
  | .one c n => [c, '|', hexDigit n]
  | .two c n => [c, '/', hexDigit (n / 16), hexDigit (n % 16)]

/-- what the item stands for -/
def Item.meaning : Item → List Char
  | .lit c => [c]
  | .one c n => List.replicate n c
  | .two c n => List.replicate n c

/-! ## One pass -/

/-- a text cut at the escapes of one pass -/
inductive Seg where
  | plain (t : List Char)
  | esc (c : Char) (h : List Char) (n : Nat)

def Seg.text (key : Char) : Seg → List Char
  | .plain t => t
  | .esc c h _ => c :: key :: h
def Seg.out : Seg → List Char
  | .plain t => t
  | .esc c _ n => List.replicate n c
def Seg.ok (key : Char) (k : Nat) : Seg → Prop
  | .plain t => key ∉ t
  | .esc c h n => c ≠ key ∧ key ∉ h ∧ h.length + 1 = k ∧ int16 h = .ok (n : Int)

theorem find_none (key : Char) (s : List Char) (h : key ∉ s) : find key s = none := by
  induction s with
  | nil => rfl
  | cons c s ih =>
    unfold find
    rw [if_neg (fun e => h (by simp [e])), ih (fun x => h (by simp [x]))]; rfl

theorem find_at (key : Char) (a b : List Char) (h : key ∉ a) : find key (a ++ key :: b) = some a.length := by
  induction a with
  | nil => simp [find]
  | cons c a ih =>
    rw [List.cons_append]
    unfold find
    rw [if_neg (fun e => h (by simp [e])), ih (fun x => h (by simp [x]))]; rfl

theorem isPrefixOf_append (p t : List Char) : p.isPrefixOf (p ++ t) = true := by
  induction p with
  | nil => rfl
  | cons c p ih => simp [List.isPrefixOf, ih]

theorem replace1_at (key c : Char) (h r a t : List Char) (hc : c ≠ key) (ha : key ∉ a) :
    replace1 (c :: key :: h) r (a ++ (c :: key :: h) ++ t) = a ++ r ++ t := by
  induction a with
  | nil =>
    rw [List.nil_append, List.cons_append, replace1]
    rw [if_pos (by have := isPrefixOf_append (c :: key :: h) t; simpa using this)]
    have : (c :: (key :: h ++ t)).drop (c :: key :: h).length = t := by
      have := List.drop_left (l₁ := c :: key :: h) (l₂ := t)
      simpa using this
    rw [this]; rfl
  | cons x a ih =>
    rw [List.cons_append, List.cons_append, replace1, if_neg, ih (fun e => ha (by simp [e]))]
    · rfl
    · cases a with
      | nil => simp [List.isPrefixOf, Ne.symm hc]
      | cons y a =>
        have : key ≠ y := fun e => ha (by simp [e])
        simp [List.isPrefixOf, this]

theorem loop_segs (key : Char) (k : Nat) (hk : k = if key = '|' then 2 else 3) :
    ∀ (segs : List Seg) (pre : List Char) (fuel : Nat), key ∉ pre → (∀ s ∈ segs, s.ok key k) →
      segs.length < fuel →
      loop key fuel (pre ++ (segs.map (Seg.text key)).flatten) = some (.ok (pre ++ (segs.map Seg.out).flatten))
  | [], pre, 0, _, _, hf => absurd hf (by simp)
  | [], pre, fuel + 1, hp, _, _ => by
    simp only [List.map_nil, List.flatten_nil, List.append_nil]
    unfold loop
    rw [find_none key pre hp]
  | .plain t :: segs, pre, fuel, hp, hs, hf => by
    have h1 : key ∉ t := hs (.plain t) (by simp)
    have := loop_segs key k hk segs (pre ++ t) fuel (by simp [hp, h1]) (fun s h => hs s (by simp [h]))
      (by simp at hf; omega)
    simpa [Seg.text, Seg.out] using this
  | .esc c h n :: segs, pre, 0, _, _, hf => absurd hf (by simp)
  | .esc c h n :: segs, pre, fuel + 1, hp, hs, hf => by
    obtain ⟨h1, h2, h3, h4⟩ := hs (.esc c h n) (by simp)
    have ih := loop_segs key k hk segs (pre ++ List.replicate n c) fuel
      (by simp only [List.mem_append, List.mem_replicate, not_or, not_and]
          exact ⟨hp, fun _ e => h1 e.symm⟩)
      (fun s hm => hs s (by simp [hm])) (by simp at hf; omega)
    have hsp : ((Seg.esc c h n :: segs).map (Seg.text key)).flatten =
        [c] ++ key :: (h ++ (segs.map (Seg.text key)).flatten) := by simp [Seg.text]
    generalize hrest : (segs.map (Seg.text key)).flatten = rest at *
    rw [hsp]
    have hfind : find key (pre ++ ([c] ++ key :: (h ++ rest))) = some (pre.length + 1) := by
      have := find_at key (pre ++ [c]) (h ++ rest) (by
        simp only [List.mem_append, List.mem_singleton, not_or]; exact ⟨hp, fun e => h1 e.symm⟩)
      simpa using this
    unfold loop
    rw [hfind]
    have hget : pyGetI (pre ++ ([c] ++ key :: (h ++ rest))) (((pre.length + 1 : Nat) : Int) - 1) = .ok c := by
      unfold pyGetI
      rw [if_pos (by omega)]
      have : ((((pre.length + 1 : Nat) : Int) - 1)).toNat = pre.length := by omega
      rw [this]
      unfold pyGet
      simp
    have hsl1 : slice (pre ++ ([c] ++ key :: (h ++ rest))) ((pre.length + 1 + 1 : Nat) : Int)
        (pre.length + 1 + k) = h := by
      unfold slice
      have e1 : (if ((pre.length + 1 + 1 : Nat) : Int) < 0 then
          (((pre.length + 1 + 1 : Nat) : Int) + (pre ++ ([c] ++ key :: (h ++ rest))).length).toNat
          else (((pre.length + 1 + 1 : Nat) : Int)).toNat) = (pre ++ [c, key]).length := by
        rw [if_neg (by omega), Int.toNat_natCast]; simp
      have e2 : pre ++ ([c] ++ key :: (h ++ rest)) = ((pre ++ [c, key]) ++ h) ++ rest := by simp
      have e3 : pre.length + 1 + k = ((pre ++ [c, key]) ++ h).length := by simp; omega
      rw [e1, e2, e3, List.take_left, List.drop_left]
    have hsl2 : slice (pre ++ ([c] ++ key :: (h ++ rest))) (((pre.length + 1 : Nat) : Int) - 1)
        (pre.length + 1 + k) = c :: key :: h := by
      unfold slice
      have e1 : (if ((pre.length + 1 : Nat) : Int) - 1 < 0 then
          (((pre.length + 1 : Nat) : Int) - 1 + (pre ++ ([c] ++ key :: (h ++ rest))).length).toNat
          else (((pre.length + 1 : Nat) : Int) - 1).toNat) = pre.length := by
        rw [if_neg (by omega)]; omega
      have e2 : pre ++ ([c] ++ key :: (h ++ rest)) = (pre ++ (c :: key :: h)) ++ rest := by simp
      have e3 : pre.length + 1 + k = (pre ++ (c :: key :: h)).length := by simp; omega
      rw [e1, e2, e3, List.take_left, List.drop_left]
    simp only [hget]
    rw [← hk, hsl1, h4, hsl2]
    simp only [Int.toNat_natCast]
    have e4 : pre ++ ([c] ++ key :: (h ++ rest)) = pre ++ (c :: key :: h) ++ rest := by simp
    rw [e4, replace1_at key c h _ pre rest h1 hp, ih]
    simp [Seg.out]

/-! ## Both passes -/

theorem hexDigit_val : ∀ n : Fin 16, hexVal? (hexDigit n) = some n.val := by decide
theorem hexDigit_plain : ∀ n : Fin 16, hexDigit n ≠ '|' ∧ hexDigit n ≠ '/' := by decide

theorem int16_one (n : Fin 16) : int16 [hexDigit n] = .ok (n.val : Int) := by
  unfold int16; simp only [hexDigit_val n]

theorem int16_two (n : Fin 256) : int16 [hexDigit (n / 16), hexDigit (n % 16)] = .ok (n.val : Int) := by
  have h1 := hexDigit_val ⟨n.val / 16, by omega⟩
  have h2 := hexDigit_val ⟨n.val % 16, by omega⟩
  simp only at h1 h2
  unfold int16
  simp only [h1, h2]
  congr 1
  omega

def seg1 : Item → Seg
  | .lit c => .plain [c]
  | .one c n => .esc c [hexDigit n] n
  | .two c n => .plain [c, '/', hexDigit (n / 16), hexDigit (n % 16)]
def seg2 : Item → Seg
  | .lit c => .plain [c]
  | .one c n => .plain (List.replicate n c)
  | .two c n => .esc c [hexDigit (n / 16), hexDigit (n % 16)] n

theorem seg1_ok (it : Item) (h : it.plain) : (seg1 it).ok '|' 2 := by
  cases it with
  | lit c => simp only [seg1, Seg.ok, List.mem_singleton]; exact fun e => h.1 e.symm
  | one c n =>
    refine ⟨h.1, ?_, rfl, int16_one n⟩
    simp only [List.mem_singleton]; exact fun e => (hexDigit_plain n).1 e.symm
  | two c n =>
    have h1 := (hexDigit_plain ⟨n.val / 16, by omega⟩).1
    have h2 := (hexDigit_plain ⟨n.val % 16, by omega⟩).1
    simp only [seg1, Seg.ok, List.mem_cons, List.not_mem_nil, not_or, or_false]
    exact ⟨fun e => h.1 e.symm, by decide, fun e => h1 e.symm, fun e => h2 e.symm⟩

theorem seg2_ok (it : Item) (h : it.plain) : (seg2 it).ok '/' 3 := by
  cases it with
  | lit c => simp only [seg2, Seg.ok, List.mem_singleton]; exact fun e => h.2 e.symm
  | one c n =>
    simp only [seg2, Seg.ok, List.mem_replicate, not_and]
    exact fun _ e => h.2 e.symm
  | two c n =>
    have h1 := (hexDigit_plain ⟨n.val / 16, by omega⟩).2
    have h2 := (hexDigit_plain ⟨n.val % 16, by omega⟩).2
    refine ⟨h.2, ?_, rfl, int16_two n⟩
    simp only [List.mem_cons, List.not_mem_nil, not_or, or_false]
    exact ⟨fun e => h1 e.symm, fun e => h2 e.symm⟩

/-- Whatever mixture of plain characters and repeat escapes a text is written with, expanding it
gives exactly the text; the expansion ends after at most one iteration per item in each pass. -/
theorem expand_items (items : List Item) (h : ∀ it ∈ items, it.plain) (fuel : Nat)
    (hf : items.length < fuel) :
    expand fuel (items.map Item.text).flatten = some (.ok (items.map Item.meaning).flatten) := by
  have p1 := loop_segs '|' 2 rfl (items.map seg1) [] fuel (by simp)
    (by intro s hs; obtain ⟨it, hi, rfl⟩ := List.mem_map.1 hs; exact seg1_ok it (h it hi)) (by simpa using hf)
  have p2 := loop_segs '/' 3 rfl (items.map seg2) [] fuel (by simp)
    (by intro s hs; obtain ⟨it, hi, rfl⟩ := List.mem_map.1 hs; exact seg2_ok it (h it hi)) (by simpa using hf)
  simp only [List.nil_append, List.map_map] at p1 p2
  have e1 : items.map Item.text = items.map (Seg.text '|' ∘ seg1) :=
    List.map_congr_left fun it _ => by cases it <;> rfl
  have e2 : items.map (Seg.out ∘ seg1) = items.map (Seg.text '/' ∘ seg2) :=
    List.map_congr_left fun it _ => by cases it <;> rfl
  have e3 : items.map (Seg.out ∘ seg2) = items.map Item.meaning :=
    List.map_congr_left fun it _ => by cases it <;> rfl
  unfold expand
  rw [e1, p1]
  simp only
  rw [e2, p2, e3]

example : expand 5 ['A', '|', '3', '0', '/', '1', 'F', 'F', '|', '2'] =
    some (.ok (['A', 'A', 'A'] ++ List.replicate 31 '0' ++ ['F', 'F'])) := by
  have := expand_items [.one 'A' 3, .two '0' 31, .one 'F' 2]
    (by simp [Item.plain]) 5 (by decide)
  exact this

/-! ## A whole line -/

theorem split_none (sep : Char) (a : List Char) (h : sep ∉ a) : split sep a = [a] := by
  induction a with
  | nil => rfl
  | cons c a ih =>
    unfold split
    rw [if_neg (fun e => h (by simp [e])), ih (fun x => h (by simp [x]))]

theorem split_at (sep : Char) (a b : List Char) (h : sep ∉ a) :
    split sep (a ++ sep :: b) = a :: split sep b := by
  induction a with
  | nil => simp [split]
  | cons c a ih =>
    rw [List.cons_append, split, if_neg (fun e => h (by simp [e])), ih (fun x => h (by simp [x]))]

/-- hexadecimal text of a byte string -/
def hexText (bs : List (Fin 256)) : List Char :=
  (bs.map fun b : Fin 256 => [hexDigit (b / 16), hexDigit (b % 16)]).flatten

theorem unhex_hexText (bs : List (Fin 256)) : unhexlify (hexText bs) = .ok (bs.map (·.val)) := by
  induction bs with
  | nil => rfl
  | cons b bs ih =>
    have h1 := hexDigit_val ⟨b.val / 16, by omega⟩
    have h2 := hexDigit_val ⟨b.val % 16, by omega⟩
    simp only at h1 h2
    have e : hexText (b :: bs) = hexDigit (b / 16) :: hexDigit (b % 16) :: hexText bs := by
      simp [hexText]
    rw [e]
    unfold unhexlify
    simp only [h1, h2, ih]
    have : 16 * (b.val / 16) + b.val % 16 = b.val := by omega
    rw [this]; rfl

theorem hexDigit_sep : ∀ n : Fin 16, hexDigit n ≠ ',' ∧ hexDigit n ≠ '*' := by decide

theorem hexText_sep (bs : List (Fin 256)) (c : Char) (hc : c ∈ hexText bs) : c ≠ ',' ∧ c ≠ '*' := by
  unfold hexText at hc
  simp only [List.mem_flatten, List.mem_map] at hc
  obtain ⟨l, ⟨b, _, rfl⟩, hc⟩ := hc
  simp only [List.mem_cons, List.not_mem_nil, or_false] at hc
  rcases hc with rfl | rfl
  · exact hexDigit_sep ⟨b.val / 16, by omega⟩
  · exact hexDigit_sep ⟨b.val % 16, by omega⟩

/-- no item stands for nothing, so its character occurs in what it stands for -/
def Item.nonempty : Item → Prop
  | .lit _ => True
  | .one _ n => 0 < n.val
  | .two _ n => 0 < n.val

theorem text_no_comma (it : Item) (h : it.nonempty) (hm : ',' ∉ it.meaning) : ',' ∉ it.text := by
  cases it with
  | lit c => exact hm
  | one c n =>
    have hc : ',' ≠ c := fun e => hm (by
      simp only [Item.meaning, List.mem_replicate]; exact ⟨Nat.pos_iff_ne_zero.1 h, e⟩)
    simp only [Item.text, List.mem_cons, List.not_mem_nil, or_false, not_or]
    exact ⟨hc, by decide, fun e => (hexDigit_sep n).1 e.symm⟩
  | two c n =>
    have hc : ',' ≠ c := fun e => hm (by
      simp only [Item.meaning, List.mem_replicate]; exact ⟨Nat.pos_iff_ne_zero.1 h, e⟩)
    have h1 := (hexDigit_sep ⟨n.val / 16, by omega⟩).1
    have h2 := (hexDigit_sep ⟨n.val % 16, by omega⟩).1
    simp only [Item.text, List.mem_cons, List.not_mem_nil, or_false, not_or]
    exact ⟨hc, by decide, fun e => h1 e.symm, fun e => h2 e.symm⟩

/-- A line with week and time-of-week fields, a byte string in hexadecimal compressed in any way,
and a trailer after `*`, decodes to the week's time and exactly the byte string. -/
theorem decode_line (w t tail : List Char) (week tow : Int) (bs : List (Fin 256)) (items : List Item)
    (hw : Sat.pyInt w = .ok week) (ht : Sat.pyInt t = .ok tow) (hwc : ',' ∉ w) (htc : ',' ∉ t)
    (htail : ∀ c ∈ tail, c ≠ ',' ∧ c ≠ '|' ∧ c ≠ '/')
    (hp : ∀ it ∈ items, it.plain ∧ it.nonempty)
    (hm : (items.map Item.meaning).flatten = hexText bs) (fuel : Nat)
    (hf : items.length + tail.length + 1 < fuel) :
    decodeSincaLine fuel (['*', 'M', 'S', 'G'] ++ ',' :: (w ++ ',' :: (t ++ ',' ::
      ((items.map Item.text).flatten ++ '*' :: tail)))) =
    some (.ok (some (Time.gpst2time week tow, bs.map (·.val)))) := by
  have hcomma : ',' ∉ (items.map Item.text).flatten ++ '*' :: tail := by
    simp only [List.mem_append, List.mem_cons, not_or, List.mem_flatten, List.mem_map, not_exists, not_and]
    refine ⟨?_, by decide, fun h => (htail _ h).1 rfl⟩
    rintro l ⟨it, hit, rfl⟩
    refine text_no_comma it (hp it hit).2 fun hc => ?_
    have : ',' ∈ hexText bs := by
      rw [← hm]; exact List.mem_flatten.2 ⟨_, List.mem_map.2 ⟨it, hit, rfl⟩, hc⟩
    exact (hexText_sep bs _ this).1 rfl
  have hsplit : split ',' (['*', 'M', 'S', 'G'] ++ ',' :: (w ++ ',' :: (t ++ ',' ::
      ((items.map Item.text).flatten ++ '*' :: tail)))) =
      [['*', 'M', 'S', 'G'], w, t, (items.map Item.text).flatten ++ '*' :: tail] := by
    rw [split_at _ _ _ (by decide), split_at _ _ _ hwc, split_at _ _ _ htc, split_none _ _ hcomma]
  have hlits : ∀ l : List Char, ((l.map Item.lit).map Item.text).flatten = l ∧
      ((l.map Item.lit).map Item.meaning).flatten = l := by
    intro l
    induction l with
    | nil => exact ⟨rfl, rfl⟩
    | cons c l ih => simp only [List.map_cons, List.flatten_cons, ih.1, ih.2]; exact ⟨rfl, rfl⟩
  have hexp : expand fuel ((items.map Item.text).flatten ++ '*' :: tail) =
      some (.ok (hexText bs ++ '*' :: tail)) := by
    have := expand_items (items ++ ('*' :: tail).map Item.lit) (by
      intro it hit
      rcases List.mem_append.1 hit with h | h
      · exact (hp it h).1
      · obtain ⟨c, hc, rfl⟩ := List.mem_map.1 h
        rcases List.mem_cons.1 hc with rfl | hc
        · exact ⟨by decide, by decide⟩
        · exact (htail c hc).2) fuel (by simp; omega)
    rw [List.map_append, List.map_append, List.flatten_append, List.flatten_append, (hlits _).1,
      (hlits _).2, hm] at this
    exact this
  unfold decodeSincaLine
  have hs4 : slice (['*', 'M', 'S', 'G'] ++ ',' :: (w ++ ',' :: (t ++ ',' ::
      ((items.map Item.text).flatten ++ '*' :: tail)))) 0 4 = ['*', 'M', 'S', 'G'] := by
    simp [slice]
  rw [if_neg (by rw [hs4]; simp), hsplit]
  simp only [List.getElem?_cons_succ, List.getElem?_cons_zero, hw, ht, hexp]
  rw [split_at _ _ _ (fun h => (hexText_sep bs _ h).2 rfl)]
  simp only [List.headD_cons, unhex_hexText]

/-- a line that satisfies the hypotheses -/
example : decodeSincaLine 20 "*MSG,2245,345600,53|4C/1A1*7F".toList =
    some (.ok (some (Time.gpst2time 2245 345600,
      [0x53, 0x33, 0x3C] ++ List.replicate 12 0xCC ++ [0xC1]))) := by decide +kernel

/-- lines of another kind are ignored -/
theorem other_line (line : List Char) (h : line.take 4 ≠ ['*', 'M', 'S', 'G']) (fuel : Nat) :
    decodeSincaLine fuel line = some (.ok none) := by
  unfold decodeSincaLine
  rw [if_pos (by simpa [slice] using h)]

/-! ## Every text has a compressed form -/

/-- length of the leading run of `c`, at most `k` -/
def run (c : Char) : Nat → List Char → Nat
  | 0, _ => 0
  | _, [] => 0
  | k + 1, x :: s => if x = c then run c k s + 1 else 0

theorem run_le (c : Char) (k : Nat) (s : List Char) : run c k s ≤ k := by
  induction k generalizing s with
  | zero => simp [run]
  | succ k ih =>
    cases s with
    | nil => simp [run]
    | cons x s =>
      unfold run
      split
      · have := ih s; omega
      · omega

theorem run_spec (c : Char) (k : Nat) (s : List Char) :
    s = List.replicate (run c k s) c ++ s.drop (run c k s) := by
  induction k generalizing s with
  | zero => simp [run]
  | succ k ih =>
    cases s with
    | nil => simp [run]
    | cons x s =>
      unfold run
      by_cases h : x = c
      · rw [if_pos h, List.replicate_succ, List.drop_succ_cons, List.cons_append, ← ih s, h]
      · rw [if_neg h]; simp

/-- a run-length compressor: runs of 4 to 15 with the one-digit escape, longer ones (up to 255 at a
time) with the two-digit escape -/
def compress : List Char → List Item
  | [] => []
  | c :: s =>
    let n := run c 254 s
    if n < 3 then .lit c :: compress s
    else if h : n + 1 < 16 then .one c ⟨n + 1, h⟩ :: compress (s.drop n)
    else .two c ⟨n + 1, by have := run_le c 254 s; omega⟩ :: compress (s.drop n)
termination_by s => s.length
decreasing_by all_goals simp <;> omega

theorem compress_meaning (s : List Char) : ((compress s).map Item.meaning).flatten = s := by
  induction hn : s.length using Nat.strongRecOn generalizing s with
  | _ n ih =>
    cases s with
    | nil => simp [compress]
    | cons c s =>
      have hr := run_spec c 254 s
      have hd : ∀ k, (s.drop k).length < n := fun k => by
        rw [← hn]; simp only [List.length_drop, List.length_cons]; omega
      rw [compress]
      split
      · rw [List.map_cons, List.flatten_cons, ih s.length (by rw [← hn]; simp) s rfl]; rfl
      · split
        · rw [List.map_cons, List.flatten_cons, ih _ (hd _) _ rfl]
          show List.replicate (run c 254 s + 1) c ++ _ = c :: s
          rw [List.replicate_succ, List.cons_append, ← hr]
        · rw [List.map_cons, List.flatten_cons, ih _ (hd _) _ rfl]
          show List.replicate (run c 254 s + 1) c ++ _ = c :: s
          rw [List.replicate_succ, List.cons_append, ← hr]

theorem compress_plain (s : List Char) (h : '|' ∉ s ∧ '/' ∉ s) : ∀ it ∈ compress s, it.plain := by
  induction hn : s.length using Nat.strongRecOn generalizing s with
  | _ n ih =>
    cases s with
    | nil => simp [compress]
    | cons c s =>
      have hc : c ≠ '|' ∧ c ≠ '/' := ⟨fun e => h.1 (by simp [e]), fun e => h.2 (by simp [e])⟩
      have hd : ∀ k, (s.drop k).length < n := fun k => by
        rw [← hn]; simp only [List.length_drop, List.length_cons]; omega
      have hk : ∀ k, '|' ∉ s.drop k ∧ '/' ∉ s.drop k := fun k =>
        ⟨fun e => h.1 (by simp [List.mem_of_mem_drop e]), fun e => h.2 (by simp [List.mem_of_mem_drop e])⟩
      rw [compress]
      split
      · intro it hit
        rcases List.mem_cons.1 hit with rfl | hit
        · exact hc
        · exact ih s.length (by rw [← hn]; simp) s (by simpa using hk 0) rfl it hit
      · split
        · intro it hit
          rcases List.mem_cons.1 hit with rfl | hit
          · exact hc
          · exact ih _ (hd _) _ (hk _) rfl it hit
        · intro it hit
          rcases List.mem_cons.1 hit with rfl | hit
          · exact hc
          · exact ih _ (hd _) _ (hk _) rfl it hit

/-- Round trip: every text without escape characters is the expansion of its compressed form. -/
theorem expand_compress (s : List Char) (h : '|' ∉ s ∧ '/' ∉ s) (fuel : Nat)
    (hf : (compress s).length < fuel) :
    expand fuel ((compress s).map Item.text).flatten = some (.ok s) := by
  rw [expand_items _ (compress_plain s h) fuel hf, compress_meaning]

example : ((compress "AAAABBBBBBBBBBBBBBBBBBBBC00".toList).map Item.text).flatten =
    "A|4B/14C00".toList := by decide +kernel

/-! ## Malformed text -/

/-- Two characters after an escape: two digits are the count; white space before or after a single
digit and a sign before it are accepted as well (a minus sign removes the character); everything
else raises. -/
theorem count_text (a b : Char) :
    int16 [a, b] =
      match hexVal? a, hexVal? b with
      | some x, some y => .ok (16 * x + y)
      | none, some y =>
        if a ∈ [' ', '\t', '\n', '\x0b', '\x0c', '\r', '\x1c', '\x1d', '\x1e', '\x1f', '+'] then .ok y
        else if a = '-' then .ok (-y) else .error .valueError
      | some x, none =>
        if b ∈ [' ', '\t', '\n', '\x0b', '\x0c', '\r', '\x1c', '\x1d', '\x1e', '\x1f'] then .ok x else .error .valueError
      | none, none => .error .valueError := by
  have key : ∀ c : Char, isBlank c = true ↔ c ∈ [' ', '\t', '\n', '\x0b', '\x0c', '\r', '\x1c', '\x1d', '\x1e', '\x1f'] := by
    intro c
    have inj : ∀ d : Char, c = d ↔ c.toNat = d.toNat := fun d => ⟨fun e => by rw [e], fun e => Char.toNat_inj.1 e⟩
    unfold isBlank
    simp only [List.mem_cons, List.not_mem_nil, or_false, inj, Bool.or_eq_true, Bool.and_eq_true, beq_iff_eq, decide_eq_true_eq,
      show ' '.toNat = 32 from rfl, show '\t'.toNat = 9 from rfl, show '\n'.toNat = 10 from rfl, show '\x0b'.toNat = 11 from rfl,
      show '\x0c'.toNat = 12 from rfl, show '\r'.toNat = 13 from rfl, show '\x1c'.toNat = 28 from rfl, show '\x1d'.toNat = 29 from rfl,
      show '\x1e'.toNat = 30 from rfl, show '\x1f'.toNat = 31 from rfl]
    omega
  unfold int16
  simp only
  cases hexVal? a with
  | some x =>
    cases hexVal? b with
    | some y => rfl
    | none =>
      simp only
      by_cases h : isBlank b = true
      · rw [if_pos h, if_pos ((key b).1 h)]
      · rw [if_neg h, if_neg (fun e => h ((key b).2 e))]
  | none =>
    cases hexVal? b with
    | none => rfl
    | some y =>
      simp only
      by_cases h : isBlank a = true
      · have := (key a).1 h
        rw [if_pos (.inl h), if_pos]
        simp only [List.mem_cons, List.not_mem_nil, or_false] at this ⊢
        tauto
      · by_cases h2 : a = '+'
        · rw [if_pos (.inr h2), if_pos (by rw [h2]; decide)]
        · have h3 : ¬ a ∈ [' ', '\t', '\n', '\x0b', '\x0c', '\r', '\x1c', '\x1d', '\x1e', '\x1f', '+'] := ?_
          · rw [if_neg (fun e => e.elim h h2), if_neg h3]
          intro e
          refine h ((key a).2 ?_)
          simp only [List.mem_cons, List.not_mem_nil, or_false] at e ⊢
          tauto

example : int16 ['-', '5'] = .ok (-5) ∧ int16 [' ', 'A'] = .ok 10 ∧ int16 ['7', 'g'] = .error .valueError := by decide +kernel

/-- A text that begins with a zero repeat escape makes the decoder loop for ever. -/
theorem leading_zero_diverges (x : Char) (rest : List Char) (fuel : Nat) :
    expand fuel ('|' :: '0' :: x :: rest) = none := by
  have : loop '|' fuel ('|' :: '0' :: x :: rest) = none := by
    induction fuel with
    | zero => rfl
    | succ fuel ih =>
      unfold loop
      have h1 : find '|' ('|' :: '0' :: x :: rest) = some 0 := by simp [find]
      rw [h1]
      have h2 : ∃ c, pyGetI ('|' :: '0' :: x :: rest) (((0 : Nat) : Int) - 1) = .ok c := by
        unfold pyGetI
        rw [if_neg (by decide), if_pos (by simp; omega)]
        unfold pyGet
        have : ((((0 : Nat) : Int) - 1) + (('|' :: '0' :: x :: rest).length : Int)).toNat <
            ('|' :: '0' :: x :: rest).length := by simp
        rw [List.getElem?_eq_getElem this]
        exact ⟨_, rfl⟩
      obtain ⟨c, hc⟩ := h2
      simp only [hc]
      have h3 : slice ('|' :: '0' :: x :: rest) ((0 + 1 : Nat) : Int) (0 + if True then 2 else 3) = ['0'] := by
        simp [slice]
      have h4 : slice ('|' :: '0' :: x :: rest) (((0 : Nat) : Int) - 1) (0 + if True then 2 else 3) = [] := by
        unfold slice
        simp only [if_true, Nat.zero_add]
        rw [if_pos (by decide), List.drop_eq_nil_iff]
        simp
        omega
      rw [h3, h4]
      have h5 : int16 ['0'] = .ok 0 := by decide
      simp only [h5]
      have h6 : replace1 [] (List.replicate (0 : Int).toNat c) ('|' :: '0' :: x :: rest) = '|' :: '0' :: x :: rest := by
        simp [replace1]
      rw [h6]; exact ih
  unfold expand
  rw [this]

end Verif.C19
