import Verif.Props.C70
/-!
# C71 QZSS NMA: which navigation messages are loaded

`load_navmsg_*` is given the recorded messages of one satellite in the order of the file.
-/

namespace Verif.C71
open Verif.Qznma Verif.Sat
variable {PK : Type}

/-! ## Specification -/

/-- a type of navigation message, sent in `n` parts of `blk` bits -/
structure Kind where
  blk : Nat
  n : Nat
  /-- the part a message carries, from 0 -/
  idx : BitBuf → Option Nat
  /-- its contents -/
  cont : BitBuf → BitBuf
  /-- whether a set of parts may be complete with this message -/
  last : BitBuf → Bool
  /-- the issue of a consistent set of parts -/
  issue : BitBuf → Option Nat
  /-- the time of week of a set of parts -/
  tow : BitBuf → Nat

/-- the latest message received for part `i`, zeros if there was none -/
def latest (K : Kind) (ms : List BitBuf) (i : Nat) : BitBuf :=
  ((ms.reverse.find? fun m => K.idx m = some i).map K.cont).getD (List.replicate K.blk false)

/-- the parts side by side -/
def assembly (K : Kind) (ms : List BitBuf) : BitBuf := (List.range K.n).flatMap (latest K ms)

/-- the issue of the message complete after the messages `ms ++ [m]` -/
def complete (K : Kind) (ms : List BitBuf) (m : BitBuf) : Option Nat :=
  if K.idx m = none ∨ K.last m = false then none else K.issue (assembly K (ms ++ [m]))

/-- the first complete message of an issue, `ms` having been received before -/
def firstOf (K : Kind) (issue : Nat) : List BitBuf → List BitBuf → Option BitBuf
  | _, [] => none
  | ms, m :: rest =>
    if complete K ms m = some issue then some (assembly K (ms ++ [m])) else firstOf K issue (ms ++ [m]) rest

/-- three LNAV sub-frames: numbers 1, 2, 3 and equal issues (the low byte of the clock issue) -/
def lnavIssue (b : BitBuf) : Option Nat :=
  if bitsAt b 53 3 = 1 ∧ bitsAt b 373 3 = 2 ∧ bitsAt b 693 3 = 3 ∧
    bitsAt b 930 8 = bitsAt b 386 8 ∧ bitsAt b 226 8 = bitsAt b 386 8 then some (bitsAt b 386 8) else none

def lnav : Kind where
  blk := 320
  n := 3
  idx m := if bitsAt m 53 3 = 1 ∨ bitsAt m 53 3 = 2 ∨ bitsAt m 53 3 = 3 then some (bitsAt m 53 3 - 1) else none
  cont m := m.take 320
  last _ := true
  issue := lnavIssue
  tow b := bitsAt b 34 17 * 6

/-- CNAV message types with clock parameters -/
def clockType (t : Nat) : Prop :=
  t = 30 ∨ t = 31 ∨ t = 32 ∨ t = 33 ∨ t = 35 ∨ t = 36 ∨ t = 37 ∨ t = 61

instance (t : Nat) : Decidable (clockType t) := by unfold clockType; infer_instance

/-- CNAV messages of type 10, 11 and one with clock parameters, of equal reference times -/
def cnavIssue (b : BitBuf) : Option Nat :=
  if bitsAt b 14 6 = 10 ∧ bitsAt b 318 6 = 11 ∧ clockType (bitsAt b 622 6) ∧
    bitsAt b 342 11 = bitsAt b 70 11 ∧ bitsAt b 668 11 = bitsAt b 70 11 then some (bitsAt b 70 11) else none

def cnav : Kind where
  blk := 304
  n := 3
  idx m := if bitsAt m 14 6 = 10 then some 0 else if bitsAt m 14 6 = 11 then some 1
    else if clockType (bitsAt m 14 6) then some 2 else none
  cont m := m.take 304
  last _ := true
  issue := cnavIssue
  tow b := bitsAt b 20 17 * 6

/-- four F/NAV pages of types 1 to 4 and equal issues -/
def fnavIssue (b : BitBuf) : Option Nat :=
  if bitsAt b 0 6 = 1 ∧ bitsAt b 248 6 = 2 ∧ bitsAt b 496 6 = 3 ∧ bitsAt b 744 6 = 4 ∧
    bitsAt b 254 10 = bitsAt b 12 10 ∧ bitsAt b 502 10 = bitsAt b 12 10 ∧
    bitsAt b 750 10 = bitsAt b 12 10 then some (bitsAt b 12 10) else none

/-- a page of type 0 takes the place of page 4 -/
def fnav : Kind where
  blk := 248
  n := 4
  idx m := if bitsAt m 0 6 = 0 then some 3 else if bitsAt m 0 6 ≤ 4 then some (bitsAt m 0 6 - 1) else none
  cont m := m.take 248
  last _ := true
  issue := fnavIssue
  tow b := bitsAt b 167 20

/-- five I/NAV words of types 1 to 5, the first four of equal issues -/
def inavIssue (b : BitBuf) : Option Nat :=
  if bitsAt b 0 6 = 1 ∧ bitsAt b 128 6 = 2 ∧ bitsAt b 256 6 = 3 ∧ bitsAt b 384 6 = 4 ∧
    bitsAt b 512 6 = 5 ∧ bitsAt b 134 10 = bitsAt b 6 10 ∧ bitsAt b 262 10 = bitsAt b 6 10 ∧
    bitsAt b 390 10 = bitsAt b 6 10 then some (bitsAt b 6 10) else none

/-- the data of a word are 112 bits of the even and 16 of the odd page; a set is taken when its
fifth word arrives -/
def inav : Kind where
  blk := 128
  n := 5
  idx m := if 1 ≤ bitsAt m 2 6 ∧ bitsAt m 2 6 ≤ 5 then some (bitsAt m 2 6 - 1) else none
  cont m := (m.drop 2).take 112 ++ (m.drop 122).take 16
  last m := bitsAt m 2 6 = 5
  issue := inavIssue
  tow b := bitsAt b 597 20

/-- the messages have their full length; LNAV sub-frame number 0 does not occur -/
def Full (mt : Nat) (m : BitBuf) : Prop :=
  if mt = 1 then 320 ≤ m.length ∧ bitsAt m 53 3 ≠ 0 else if mt = 2 then 304 ≤ m.length
  else if mt = 4 then 248 ≤ m.length else 138 ≤ m.length

def kind (mt : Nat) : Kind := if mt = 1 then lnav else if mt = 2 then cnav else if mt = 4 then fnav else inav

/-- an issue already there is not replaced: for LNAV and CNAV if it is there under any type, for
F/NAV and I/NAV if it is there under the same type -/
def blocked (st : Store) (sat : Int) (mt issue : Nat) : Bool :=
  if mt = 1 ∨ mt = 2 then ((st.get? sat).bind fun d => d.get? issue).isSome
  else (lookup st sat issue mt).isSome

/-- the contents of an entry: time of week and parts -/
def data (m : NavMsg) : Nat × BitBuf := (m.tow, m.msg)

/-! ## Proofs -/

/-- all messages fit the parts of the kind -/
def Fits (K : Kind) (ms : List BitBuf) : Prop :=
  ∀ m ∈ ms, ∀ i, K.idx m = some i → (K.cont m).length = K.blk ∧ i < K.n

theorem latest_length {K : Kind} {ms : List BitBuf} (h : Fits K ms) (i : Nat) :
    (latest K ms i).length = K.blk := by
  unfold latest
  cases hf : ms.reverse.find? fun m => K.idx m = some i with
  | none => simp
  | some m =>
    have h1 := List.find?_some hf
    have h2 := List.mem_of_find?_eq_some hf
    exact (h m (List.mem_reverse.1 h2) i (by simpa using h1)).1

theorem blocks_length {α : Type} {blk : Nat} {f : Nat → List α} (hf : ∀ i, (f i).length = blk) (n : Nat) :
    ((List.range n).flatMap f).length = n * blk := by
  induction n with
  | zero => simp
  | succ n ih =>
    rw [List.range_succ, List.flatMap_append, List.length_append, ih, Nat.succ_mul]
    simp [hf]

theorem blocks_get {α : Type} {blk : Nat} {f : Nat → List α} (hf : ∀ i, (f i).length = blk) (n : Nat) :
    ∀ q, q < n * blk → ((List.range n).flatMap f)[q]? = (f (q / blk))[q % blk]? := by
  induction n with
  | zero => intro q h; omega
  | succ n ih =>
    intro q h
    have hb : 0 < blk := by
      rcases Nat.eq_zero_or_pos blk with e | e
      · rw [e] at h; omega
      · exact e
    rw [List.range_succ, List.flatMap_append]
    by_cases hq : q < n * blk
    · rw [List.getElem?_append_left (by rw [blocks_length hf]; exact hq), ih q hq]
    · rw [List.getElem?_append_right (by rw [blocks_length hf]; omega), blocks_length hf]
      rw [Nat.succ_mul] at h
      have e1 : q / blk = n := Nat.div_eq_of_lt_le (by omega) (by rw [Nat.succ_mul]; omega)
      have e2 : q % blk = q - n * blk := by
        have := Nat.div_add_mod q blk
        rw [e1, Nat.mul_comm] at this
        omega
      rw [e1, e2]; simp

theorem latest_snoc (K : Kind) (ms : List BitBuf) (m : BitBuf) (i : Nat) :
    latest K (ms ++ [m]) i = if K.idx m = some i then K.cont m else latest K ms i := by
  unfold latest
  rw [List.reverse_append, List.reverse_singleton, List.singleton_append, List.find?_cons]
  by_cases h : K.idx m = some i
  · rw [if_pos h, decide_eq_true h]; rfl
  · rw [if_neg h, decide_eq_false h]

theorem assembly_length {K : Kind} {ms : List BitBuf} (h : Fits K ms) :
    (assembly K ms).length = K.n * K.blk := blocks_length (latest_length h) K.n

theorem assembly_skip {K : Kind} (ms : List BitBuf) {m : BitBuf} (h : K.idx m = none) :
    assembly K (ms ++ [m]) = assembly K ms := by
  unfold assembly
  congr 1
  funext i
  rw [latest_snoc, if_neg (by rw [h]; simp)]

theorem Fits.left {K : Kind} {a b : List BitBuf} (h : Fits K (a ++ b)) : Fits K a :=
  fun m hm => h m (List.mem_append_left _ hm)

theorem assembly_snoc {K : Kind} {ms : List BitBuf} {m : BitBuf} (h : Fits K (ms ++ [m])) {i : Nat}
    (hi : K.idx m = some i) :
    assembly K (ms ++ [m]) = splice (assembly K ms) (i * K.blk) (K.cont m) := by
  obtain ⟨h1, h2⟩ := h m (by simp) i hi
  have hl := assembly_length h.left
  have hb : i * K.blk + K.blk ≤ K.n * K.blk := by
    rw [← Nat.succ_mul]; exact Nat.mul_le_mul_right _ h2
  refine List.ext_getElem? fun q => ?_
  rw [splice_getElem? _ _ _ (by rw [h1, hl]; exact hb), h1]
  by_cases hq : q < K.n * K.blk
  · have hpos : 0 < K.blk := by
      rcases Nat.eq_zero_or_pos K.blk with e | e
      · rw [e] at hq; omega
      · exact e
    unfold assembly
    rw [blocks_get (latest_length h) K.n q hq, blocks_get (latest_length h.left) K.n q hq, latest_snoc, hi]
    have hd := Nat.div_add_mod q K.blk
    have hm := Nat.mod_lt q hpos
    by_cases c : i * K.blk ≤ q ∧ q < i * K.blk + K.blk
    · have e1 : q / K.blk = i := Nat.div_eq_of_lt_le (by omega) (by rw [Nat.succ_mul]; omega)
      rw [if_pos c, if_pos (by rw [e1])]
      congr 1
      rw [e1, Nat.mul_comm] at hd
      omega
    · have e1 : i ≠ q / K.blk := fun e => by
        rw [e, Nat.mul_comm] at c
        omega
      rw [if_neg c, if_neg (by simpa using e1)]
  · rw [List.getElem?_eq_none (by rw [assembly_length h]; omega), if_neg (by omega),
      List.getElem?_eq_none (by omega)]

/-! ### Storing -/

/-- what storing a message under an issue does to the entries of its satellite and type -/
structure Stored (st t : Store) (sat : Int) (mt iode : Nat) (d : Nat × BitBuf) : Prop where
  val : ∀ i, (lookup t sat i mt).map data = if i = iode ∧ blocked st sat mt iode = false then some d
    else (lookup st sat i mt).map data
  blk : ∀ i, blocked t sat mt i = (blocked st sat mt i || decide (i = iode))
  some : (t.get? sat).isSome
  other : ∀ i ty, ty ≠ mt → lookup t sat i ty = lookup st sat i ty

theorem first_stored {st : Store} {sat : Int} {mt : Nat} (hm : mt = 1 ∨ mt = 2) (m : NavMsg)
    (h : (st.get? sat).isSome) : ∃ t, storeFirst st sat mt m = .ok t ∧ Stored st t sat mt m.iodn (data m) := by
  obtain ⟨d, hd⟩ := Option.isSome_iff_exists.1 h
  unfold storeFirst
  rw [(Dict.getItem_ok_iff ..).2 hd, Py.okBind]
  have hb : ∀ i, blocked st sat mt i = (d.get? i).isSome := fun i => by
    unfold blocked; rw [if_pos hm, hd]; rfl
  by_cases hc : d.mem m.iodn = true
  · rw [if_pos hc]
    have hc' : blocked st sat mt m.iodn = true := by rw [hb]; exact hc
    refine ⟨st, rfl, fun i => ?_, fun i => ?_, h, fun _ _ _ => rfl⟩
    · rw [if_neg (by rw [hc']; simp)]
    · by_cases hi : i = m.iodn
      · subst hi; rw [hc']; rfl
      · simp [hi]
  · rw [if_neg hc]
    have hn : d.get? m.iodn = none := C25.dict_none hc
    refine ⟨_, rfl, fun i => ?_, fun i => ?_, by rw [Dict.get?_set_self]; rfl, fun i ty hty => ?_⟩
    rotate_left 2
    · rw [C25.lookup_set, if_pos rfl, Dict.get?_set]
      unfold lookup
      rw [hd]
      show _ = (d.get? i).bind _
      by_cases hi : i = m.iodn
      · rw [if_pos hi, hi, hn]
        show Dict.get? [(mt, m)] ty = none
        simp [Dict.get?, Ne.symm hty]
      · rw [if_neg hi]
    · rw [C25.lookup_set, if_pos rfl, Dict.get?_set, hb, hn]
      by_cases hi : i = m.iodn
      · rw [if_pos hi, if_pos ⟨hi, rfl⟩]
        simp [Dict.get?]
      · rw [if_neg hi, if_neg (fun x => hi x.1)]
        unfold lookup; rw [hd]; rfl
    · rw [hb]
      unfold blocked
      rw [if_pos hm, Dict.get?_set_self]
      show ((d.set m.iodn [(mt, m)]).get? i).isSome = _
      rw [Dict.get?_set]
      by_cases hi : i = m.iodn
      · rw [if_pos hi]; simp [hi]
      · rw [if_neg hi]; simp [hi]

theorem add_stored {st : Store} {sat : Int} {mt : Nat} (hm : ¬ (mt = 1 ∨ mt = 2)) (m : NavMsg)
    (h : (st.get? sat).isSome) : ∃ t, storeAdd st sat mt m = .ok t ∧ Stored st t sat mt m.iodn (data m) := by
  obtain ⟨d, hd⟩ := Option.isSome_iff_exists.1 h
  unfold storeAdd
  rw [(Dict.getItem_ok_iff ..).2 hd, Py.okBind]
  have hl : ∀ i, lookup st sat i mt = (d.get? i).bind fun e => e.get? mt := fun i => by
    unfold lookup; rw [hd]; rfl
  have hb : ∀ t : Store, ∀ i, blocked t sat mt i = (lookup t sat i mt).isSome := fun t i => by
    unfold blocked; rw [if_neg hm]
  have key : ∀ i, lookup (st.set sat (d.set m.iodn (if ((d.get? m.iodn).getD []).mem mt = true then
      (d.get? m.iodn).getD [] else ((d.get? m.iodn).getD []).set mt m))) sat i mt =
      if i = m.iodn ∧ blocked st sat mt m.iodn = false then some m else lookup st sat i mt := fun i => by
    rw [C25.lookup_set, if_pos rfl, Dict.get?_set, hb, hl]
    by_cases hi : i = m.iodn
    · subst hi
      rw [if_pos rfl, hl]
      cases hg : d.get? m.iodn with
      | none => simp [Dict.mem, Dict.get?_nil]
      | some e =>
        show (if e.mem mt = true then e else e.set mt m).get? mt = if (m.iodn = m.iodn ∧ (e.get? mt).isSome = false) then _ else e.get? mt
        by_cases he : e.mem mt = true
        · have he' : (e.get? mt).isSome = true := he
          rw [if_pos he, if_neg (by rw [he']; simp)]
        · have he' : (e.get? mt).isSome = false := by
            rw [Bool.not_eq_true] at he; exact he
          rw [if_neg he, if_pos ⟨rfl, he'⟩, Dict.get?_set_self]
    · rw [if_neg hi, if_neg (fun x => hi x.1), hl]
  refine ⟨_, rfl, fun i => ?_, fun i => ?_, by rw [Dict.get?_set_self]; rfl, fun i ty hty => ?_⟩
  rotate_left 2
  · rw [C25.lookup_set, if_pos rfl, Dict.get?_set]
    unfold lookup
    rw [hd]
    show _ = (d.get? i).bind _
    by_cases hi : i = m.iodn
    · rw [if_pos hi, hi]
      cases hg : d.get? m.iodn with
      | none => simp [Dict.mem, Dict.get?_nil, Dict.get?_set, hty]
      | some e =>
        show (if e.mem mt = true then e else e.set mt m).get? ty = e.get? ty
        split
        · rfl
        · rw [Dict.get?_set_ne _ _ hty]
    · rw [if_neg hi]
  · rw [key]
    split <;> rfl
  · rw [hb, key, hb, hb]
    by_cases hi : i = m.iodn
    · subst hi
      cases hc : (lookup st sat m.iodn mt) with
      | none =>
        rw [if_pos ⟨rfl, rfl⟩]; simp
      | some x =>
        rw [if_neg (by simp)]; simp
    · rw [if_neg (fun x => hi x.1)]; simp [hi]

/-! ### Scanning -/

/-- one message: the assembly is updated and a complete one is stored -/
def Steps (K : Kind) (sat : Int) (mt : Nat) (f : Store × BitBuf → BitBuf → Py (Store × BitBuf))
    (ok : BitBuf → Prop) : Prop :=
  ∀ st ms m, (st.get? sat).isSome → (∀ x ∈ ms ++ [m], ok x) → ∃ t,
    f (st, assembly K ms) m = .ok (t, assembly K (ms ++ [m])) ∧
    match complete K ms m with
    | none => t = st
    | some iode => Stored st t sat mt iode (K.tow (assembly K (ms ++ [m])), assembly K (ms ++ [m]))

theorem scan {K : Kind} {sat : Int} {mt : Nat} {f : Store × BitBuf → BitBuf → Py (Store × BitBuf)}
    {ok : BitBuf → Prop} (hs : Steps K sat mt f ok) : ∀ (rest ms : List BitBuf) (st : Store),
    (st.get? sat).isSome → (∀ x ∈ ms ++ rest, ok x) →
    ∃ t, rest.foldlM f (st, assembly K ms) = .ok (t, assembly K (ms ++ rest)) ∧
      (∀ i ty, ty ≠ mt → lookup t sat i ty = lookup st sat i ty) ∧
      ∀ i, (lookup t sat i mt).map data = if blocked st sat mt i = true then
        (lookup st sat i mt).map data else
          (((firstOf K i ms rest).map fun b => (K.tow b, b)).or ((lookup st sat i mt).map data)) := by
  intro rest
  induction rest with
  | nil =>
    intro ms st _ _
    refine ⟨st, by rw [List.append_nil]; rfl, fun _ _ _ => rfl, fun i => ?_⟩
    rw [firstOf]
    simp
  | cons m rest ih =>
    intro ms st h hok
    obtain ⟨t, h1, h2⟩ := hs st ms m h (fun x hx => hok x (by
      rw [List.mem_append] at hx ⊢
      rcases hx with hx | hx
      · exact Or.inl hx
      · exact Or.inr (List.mem_cons.2 (Or.inl (List.mem_singleton.1 hx)))))
    rw [List.foldlM_cons, h1, Py.okBind]
    have ht : (t.get? sat).isSome := by
      cases hc : complete K ms m with
      | none => rw [hc] at h2; rw [h2]; exact h
      | some iode => rw [hc] at h2; exact h2.some
    obtain ⟨u, g1, g3, g2⟩ := ih (ms ++ [m]) t ht (by rw [List.append_assoc]; exact hok)
    rw [List.append_assoc] at g1
    refine ⟨u, g1, fun i ty hty => ?_, fun i => ?_⟩
    · rw [g3 i ty hty]
      cases hc : complete K ms m with
      | none => rw [hc] at h2; rw [h2]
      | some iode => rw [hc] at h2; exact h2.other i ty hty
    rw [g2 i, firstOf]
    cases hc : complete K ms m with
    | none =>
      rw [hc] at h2
      rw [h2]
      simp
    | some iode =>
      rw [hc] at h2
      rw [h2.blk, h2.val]
      by_cases hi : i = iode
      · subst hi
        by_cases hb : blocked st sat mt i = true
        · simp [hb]
        · rw [Bool.not_eq_true] at hb
          simp [hb]
      · have hi' : ¬ iode = i := fun e => hi e.symm
        simp [hi, hi']

/-! ### The four message types -/

theorem chk_lnav {b : BitBuf} (h : b.length = 960) : chkGpsLnav b =
    .ok ((lnavIssue b).map fun i => { navid := 1, iodn := i, tow := bitsAt b 34 17 * 6, msg := b }) := by
  unfold chkGpsLnav lnavIssue
  rw [readU_at (by omega), Py.okBind, readU_at (by omega), Py.okBind, readU_at (by omega), Py.okBind]
  by_cases c1 : bitsAt b 53 3 = 1 ∧ bitsAt b 373 3 = 2 ∧ bitsAt b 693 3 = 3
  · rw [if_neg (by show ¬ (bitsAt b 53 3 ≠ 1 ∨ bitsAt b 373 3 ≠ 2 ∨ bitsAt b 693 3 ≠ 3); omega)]
    rw [readU_at (by omega), Py.okBind, readU_at (by omega), Py.okBind, readU_at (by omega), Py.okBind,
      readU_at (by omega), Py.okBind]
    have hl : bitsAt b 226 8 < 256 := C70.bitsAt_lt (by omega)
    rw [C25.low8 hl]
    by_cases c2 : bitsAt b 930 8 = bitsAt b 386 8 ∧ bitsAt b 226 8 = bitsAt b 386 8
    · rw [if_neg (by show ¬ (bitsAt b 386 8 ≠ bitsAt b 930 8 ∨ bitsAt b 386 8 ≠ bitsAt b 226 8); omega)]
      rw [readU_at (by omega), Py.okBind, readU_at (by omega), Py.okBind, readU_at (by omega), Py.okBind]
      rw [if_pos ⟨c1.1, c1.2.1, c1.2.2, c2⟩]
      rfl
    · rw [if_pos (by show bitsAt b 386 8 ≠ bitsAt b 930 8 ∨ bitsAt b 386 8 ≠ bitsAt b 226 8; omega)]
      rw [if_neg (by omega)]
      rfl
  · rw [if_pos (by show bitsAt b 53 3 ≠ 1 ∨ bitsAt b 373 3 ≠ 2 ∨ bitsAt b 693 3 ≠ 3; omega), if_neg (by omega)]
    rfl

theorem lnav_fits {ms : List BitBuf} (h : ∀ x ∈ ms, Full 1 x) : Fits lnav ms := by
  intro m hm i hi
  have := h m hm
  unfold Full at this
  rw [if_pos rfl] at this
  dsimp only [lnav] at hi ⊢
  split at hi
  · cases hi
    refine ⟨by rw [List.length_take]; omega, by omega⟩
  · cases hi

theorem lnav_steps (sat : Int) : Steps lnav sat 1 (loadLnavMsg sat) (Full 1) := by
  intro st ms m hs hok
  have hf := lnav_fits hok
  have hm := hok m (by simp)
  unfold Full at hm
  rw [if_pos rfl] at hm
  have hlt : bitsAt m 53 3 < 8 := C70.bitsAt_lt (by omega)
  unfold loadLnavMsg
  dsimp only
  rw [readU_at (by omega), Py.okBind]
  by_cases c : bitsAt m 53 3 > 3
  · have hi : lnav.idx m = none := by
      dsimp only [lnav]; rw [if_neg (by omega)]
    rw [if_pos c]
    refine ⟨st, by rw [assembly_skip ms hi]; rfl, ?_⟩
    unfold complete
    rw [if_pos (Or.inl hi)]
  · have hi : lnav.idx m = some (bitsAt m 53 3 - 1) := by
      dsimp only [lnav]; rw [if_pos (by omega)]
    rw [if_neg c, if_neg hm.2, C70.slice_eq (by rw [List.length_take]; omega)]
    have ha := assembly_snoc hf hi
    rw [show 8 * ((bitsAt m 53 3 - 1) * 40) = (bitsAt m 53 3 - 1) * lnav.blk by
        show _ = (bitsAt m 53 3 - 1) * 320; omega, show m.take 320 = lnav.cont m from rfl, ← ha,
      chk_lnav (by rw [assembly_length hf]; rfl), Py.okBind]
    unfold complete
    rw [if_neg (by rw [hi]; simp [lnav])]
    show ∃ t, _ ∧ match lnavIssue (assembly lnav (ms ++ [m])) with | none => t = st | some iode => _
    cases lnavIssue (assembly lnav (ms ++ [m])) with
    | none => exact ⟨st, rfl, rfl⟩
    | some iode =>
      obtain ⟨t, h1, h2⟩ := first_stored (mt := 1) (Or.inl rfl) (⟨1, iode, bitsAt (assembly lnav (ms ++ [m])) 34 17 * 6, assembly lnav (ms ++ [m])⟩ : NavMsg) hs
      refine ⟨t, ?_, h2⟩
      show storeFirst st sat 1 _ >>= _ = _
      rw [h1]; rfl

theorem clock_mem {t : Nat} (h : t < 64) : cnavMtT.get? t = if t = 10 then some 1
    else if t = 11 then some 2 else if clockType t then some 3 else none := by
  have : ∀ t : Fin 64, cnavMtT.get? t.1 = if t.1 = 10 then some 1 else if t.1 = 11 then some 2
      else if clockType t.1 then some 3 else none := by decide
  exact this ⟨t, h⟩

theorem cnav_fits {ms : List BitBuf} (h : ∀ x ∈ ms, Full 2 x) : Fits cnav ms := by
  intro m hm i hi
  have := h m hm
  unfold Full at this
  rw [if_neg (by decide), if_pos rfl] at this
  have hl : (cnav.cont m).length = cnav.blk := by
    show (m.take 304).length = 304
    rw [List.length_take]; omega
  refine ⟨hl, ?_⟩
  show i < 3
  dsimp only [cnav] at hi
  split at hi
  · cases hi; omega
  · split at hi
    · cases hi; omega
    · split at hi
      · cases hi; omega
      · cases hi

/-- reading in the contents of a part -/
theorem assembly_read {K : Kind} {ms : List BitBuf} (h : Fits K ms) {i k n : Nat} (hi : i < K.n)
    (hk : k + n ≤ K.blk) : bitsAt (assembly K ms) (i * K.blk + k) n = bitsAt (latest K ms i) k n := by
  unfold bitsAt
  congr 1
  refine List.ext_getElem? fun q => ?_
  simp only [List.getElem?_take, List.getElem?_drop]
  split
  · rename_i hq
    have hb : i * K.blk + K.blk ≤ K.n * K.blk := by
      rw [← Nat.succ_mul]; exact Nat.mul_le_mul_right _ hi
    unfold assembly
    rw [blocks_get (latest_length h) K.n _ (by omega)]
    have e1 : (i * K.blk + k + q) / K.blk = i := Nat.div_eq_of_lt_le (by omega) (by rw [Nat.succ_mul]; omega)
    have e2 := Nat.div_add_mod (i * K.blk + k + q) K.blk
    rw [e1, Nat.mul_comm] at e2
    rw [e1, show (i * K.blk + k + q) % K.blk = k + q by omega]
  · rfl

theorem take_read {m : BitBuf} {k n l : Nat} (h : k + n ≤ l) : bitsAt (m.take l) k n = bitsAt m k n := by
  unfold bitsAt
  congr 1
  refine List.ext_getElem? fun q => ?_
  simp only [List.getElem?_take, List.getElem?_drop]
  split
  · rw [if_pos (by omega)]
  · rfl

theorem third_clock {ms : List BitBuf} (h : ∀ x ∈ ms, Full 2 x) :
    clockType (bitsAt (assembly cnav ms) 622 6) ∨ bitsAt (assembly cnav ms) 622 6 = 0 := by
  rw [show (622 : Nat) = 2 * cnav.blk + 14 from rfl, assembly_read (cnav_fits h) (by decide) (by decide)]
  unfold latest
  cases hf : ms.reverse.find? fun m => cnav.idx m = some 2 with
  | none =>
    right
    decide
  | some m =>
    left
    have h1 := List.find?_some hf
    rw [decide_eq_true_iff] at h1
    show clockType (bitsAt (m.take 304) 14 6)
    rw [take_read (by omega)]
    dsimp only [cnav] at h1
    split at h1
    · cases h1
    · split at h1
      · cases h1
      · split at h1
        · assumption
        · cases h1

theorem chk_cnav {b : BitBuf} (h : b.length = 912) (hc : clockType (bitsAt b 622 6) ∨ bitsAt b 622 6 = 0) :
    chkGpsCnav b =
    .ok ((cnavIssue b).map fun i => { navid := 2, iodn := i, tow := bitsAt b 20 17 * 6, msg := b }) := by
  unfold chkGpsCnav cnavIssue
  rw [readU_at (by omega), Py.okBind, readU_at (by omega), Py.okBind, readU_at (by omega), Py.okBind]
  have hm : cnavMtT.mem (bitsAt b 622 6) = true ↔ clockType (bitsAt b 622 6) := by
    unfold Dict.mem
    rw [clock_mem (C70.bitsAt_lt (by omega))]
    rcases hc with hc | hc
    · rw [if_neg (by unfold clockType at hc; omega), if_neg (by unfold clockType at hc; omega), if_pos hc]
      simp [hc]
    · rw [hc]; decide
  by_cases c1 : bitsAt b 14 6 = 10 ∧ bitsAt b 318 6 = 11 ∧ clockType (bitsAt b 622 6)
  · rw [if_neg (by
      show ¬ (bitsAt b 14 6 ≠ 10 ∨ bitsAt b 318 6 ≠ 11 ∨ ¬ cnavMtT.mem (bitsAt b 622 6) = true)
      rw [hm]
      rintro (x | x | x)
      · exact x c1.1
      · exact x c1.2.1
      · exact x c1.2.2)]
    rw [readU_at (by omega), Py.okBind, readU_at (by omega), Py.okBind, readU_at (by omega), Py.okBind,
      readU_at (by omega), Py.okBind]
    by_cases c2 : bitsAt b 342 11 = bitsAt b 70 11 ∧ bitsAt b 668 11 = bitsAt b 70 11
    · rw [if_neg (by show ¬ (bitsAt b 70 11 ≠ bitsAt b 342 11 ∨ bitsAt b 70 11 ≠ bitsAt b 668 11); omega)]
      rw [if_pos ⟨c1.1, c1.2.1, c1.2.2, c2⟩]
      rfl
    · rw [if_pos (by show bitsAt b 70 11 ≠ bitsAt b 342 11 ∨ bitsAt b 70 11 ≠ bitsAt b 668 11; omega)]
      rw [if_neg (fun x => c2 x.2.2.2)]
      rfl
  · rw [if_pos (by
      show bitsAt b 14 6 ≠ 10 ∨ bitsAt b 318 6 ≠ 11 ∨ ¬ cnavMtT.mem (bitsAt b 622 6) = true
      rw [hm]
      by_contra hx
      push Not at hx
      exact c1 hx), if_neg (fun x => c1 ⟨x.1, x.2.1, x.2.2.1⟩)]
    rfl

theorem cnav_steps (sat : Int) : Steps cnav sat 2 (loadCnavMsg sat) (Full 2) := by
  intro st ms m hs hok
  have hf := cnav_fits hok
  have hm := hok m (by simp)
  unfold Full at hm
  rw [if_neg (by decide), if_pos rfl] at hm
  have hlt : bitsAt m 14 6 < 64 := C70.bitsAt_lt (by omega)
  unfold loadCnavMsg
  dsimp only
  rw [readU_at (by omega), Py.okBind, readU_at (by omega), Py.okBind]
  have hidx : (cnavMtT.get? (bitsAt m 14 6)) = (cnav.idx m).map (· + 1) := by
    rw [clock_mem hlt]
    dsimp only [cnav]
    split
    · rfl
    · split
      · rfl
      · split <;> rfl
  rw [hidx]
  cases hi : cnav.idx m with
  | none =>
    refine ⟨st, by rw [assembly_skip ms hi]; rfl, ?_⟩
    unfold complete
    rw [if_pos (Or.inl hi)]
  | some i =>
    dsimp only [Option.map_some]
    rw [C70.slice_eq (by rw [List.length_take]; omega)]
    have ha := assembly_snoc hf hi
    rw [show 8 * ((i + 1 - 1) * 38) = i * cnav.blk by
        show _ = i * 304; omega, show m.take 304 = cnav.cont m from rfl, ← ha,
      chk_cnav (by rw [assembly_length hf]; rfl) (third_clock hok), Py.okBind]
    unfold complete
    rw [if_neg (by rw [hi]; simp [cnav])]
    show ∃ t, _ ∧ match cnavIssue (assembly cnav (ms ++ [m])) with | none => t = st | some iode => _
    cases cnavIssue (assembly cnav (ms ++ [m])) with
    | none => exact ⟨st, rfl, rfl⟩
    | some iode =>
      obtain ⟨t, h1, h2⟩ := first_stored (mt := 2) (Or.inr rfl) (⟨2, iode, bitsAt (assembly cnav (ms ++ [m])) 20 17 * 6, assembly cnav (ms ++ [m])⟩ : NavMsg) hs
      refine ⟨t, ?_, h2⟩
      show storeFirst st sat 2 _ >>= _ = _
      rw [h1]; rfl

theorem fnav_fits {ms : List BitBuf} (h : ∀ x ∈ ms, Full 4 x) : Fits fnav ms := by
  intro m hm i hi
  have := h m hm
  unfold Full at this
  rw [if_neg (by decide), if_neg (by decide), if_pos rfl] at this
  have hl : (fnav.cont m).length = fnav.blk := by
    show (m.take 248).length = 248
    rw [List.length_take]; omega
  refine ⟨hl, ?_⟩
  show i < 4
  dsimp only [fnav] at hi
  split at hi
  · cases hi; omega
  · split at hi
    · cases hi; omega
    · cases hi

theorem fnav_steps (sat : Int) : Steps fnav sat 4 (loadFnavMsg sat) (Full 4) := by
  intro st ms m hs hok
  have hf := fnav_fits hok
  have hm := hok m (by simp)
  unfold Full at hm
  rw [if_neg (by decide), if_neg (by decide), if_pos rfl] at hm
  unfold loadFnavMsg
  dsimp only
  rw [readU_at (by omega), Py.okBind]
  by_cases c : bitsAt m 0 6 > 4
  · have hi : fnav.idx m = none := by
      dsimp only [fnav]; rw [if_neg (by omega), if_neg (by omega)]
    rw [if_pos c]
    refine ⟨st, by rw [assembly_skip ms hi]; rfl, ?_⟩
    unfold complete
    rw [if_pos (Or.inl hi)]
  · obtain ⟨i, hi, hj⟩ : ∃ i, fnav.idx m = some i ∧
        8 * (if bitsAt m 0 6 = 0 then 93 else (bitsAt m 0 6 - 1) * 31) = i * fnav.blk := by
      by_cases c0 : bitsAt m 0 6 = 0
      · refine ⟨3, by dsimp only [fnav]; rw [if_pos c0], by rw [if_pos c0]; rfl⟩
      · refine ⟨bitsAt m 0 6 - 1, by dsimp only [fnav]; rw [if_neg c0, if_pos (by omega)], ?_⟩
        rw [if_neg c0]
        show _ = (bitsAt m 0 6 - 1) * 248
        omega
    have ha := assembly_snoc hf hi
    rw [if_neg c, if_neg (by omega), C70.slice_eq (by rw [List.length_take]; omega),
      show m.take 248 = fnav.cont m from rfl, hj, ← ha]
    have hl : (assembly fnav (ms ++ [m])).length = 992 := by rw [assembly_length hf]; rfl
    unfold complete
    rw [if_neg (by rw [hi]; simp [fnav])]
    show ∃ t, _ ∧ match fnavIssue (assembly fnav (ms ++ [m])) with
      | none => t = st
      | some iode => Stored st t sat 4 iode (bitsAt (assembly fnav (ms ++ [m])) 167 20, assembly fnav (ms ++ [m]))
    generalize assembly fnav (ms ++ [m]) = b at hl
    repeat rw [readU_at (b := b) (by omega), Py.okBind]
    unfold fnavIssue
    by_cases c1 : bitsAt b 0 6 = 1 ∧ bitsAt b 248 6 = 2 ∧ bitsAt b 496 6 = 3 ∧ bitsAt b 744 6 = 4
    · by_cases c2 : bitsAt b 254 10 = bitsAt b 12 10 ∧ bitsAt b 502 10 = bitsAt b 12 10 ∧
        bitsAt b 750 10 = bitsAt b 12 10
      · rw [if_neg (by
          show ¬ (bitsAt b 0 6 ≠ 1 ∨ bitsAt b 248 6 ≠ 2 ∨ bitsAt b 496 6 ≠ 3 ∨ bitsAt b 744 6 ≠ 4); omega),
          if_neg (by
          show ¬ (bitsAt b 12 10 ≠ bitsAt b 254 10 ∨ bitsAt b 12 10 ≠ bitsAt b 502 10 ∨
            bitsAt b 12 10 ≠ bitsAt b 750 10); omega),
          if_pos ⟨c1.1, c1.2.1, c1.2.2.1, c1.2.2.2, c2⟩]
        obtain ⟨t, h1, h2⟩ := add_stored (mt := 4) (by decide) (⟨4, bitsAt b 12 10, bitsAt b 167 20, b⟩ : NavMsg) hs
        refine ⟨t, ?_, h2⟩
        show storeAdd st sat 4 _ >>= _ = _
        rw [h1]; rfl
      · rw [if_neg (by
          show ¬ (bitsAt b 0 6 ≠ 1 ∨ bitsAt b 248 6 ≠ 2 ∨ bitsAt b 496 6 ≠ 3 ∨ bitsAt b 744 6 ≠ 4); omega),
          if_pos (by
          show bitsAt b 12 10 ≠ bitsAt b 254 10 ∨ bitsAt b 12 10 ≠ bitsAt b 502 10 ∨
            bitsAt b 12 10 ≠ bitsAt b 750 10; omega), if_neg (fun x => c2 x.2.2.2.2)]
        exact ⟨st, rfl, rfl⟩
    · rw [if_pos (by
          show bitsAt b 0 6 ≠ 1 ∨ bitsAt b 248 6 ≠ 2 ∨ bitsAt b 496 6 ≠ 3 ∨ bitsAt b 744 6 ≠ 4; omega),
        if_neg (fun x => c1 ⟨x.1, x.2.1, x.2.2.1, x.2.2.2.1⟩)]
      exact ⟨st, rfl, rfl⟩

theorem inav_fits {ms : List BitBuf} (h : ∀ x ∈ ms, Full 5 x) : Fits inav ms := by
  intro m hm i hi
  have := h m hm
  unfold Full at this
  rw [if_neg (by decide), if_neg (by decide), if_neg (by decide)] at this
  have hl : (inav.cont m).length = inav.blk := by
    show ((m.drop 2).take 112 ++ (m.drop 122).take 16).length = 128
    rw [List.length_append, List.length_take, List.length_take, List.length_drop, List.length_drop]; omega
  refine ⟨hl, ?_⟩
  show i < 5
  dsimp only [inav] at hi
  split at hi
  · cases hi; omega
  · cases hi

/-- the two copies of a word put its 128 bits side by side -/
theorem two_copies {m b : BitBuf} {j : Nat} (hm : 138 ≤ m.length) (hb : j + 128 ≤ b.length) :
    ∃ b1, CopyBuff.copyBuff m b 2 j 112 = .ok b1 ∧
      CopyBuff.copyBuff m b1 122 (j + 112) 16 = .ok (splice b j ((m.drop 2).take 112 ++ (m.drop 122).take 16)) := by
  obtain ⟨b1, h1, g1, -⟩ := C08.copyBuff_bits m b 2 j 112 (by omega) (by omega)
  obtain ⟨b2, h2, g2, -⟩ := C08.copyBuff_bits m b1 122 (j + 112) 16 (by omega) (by omega)
  obtain ⟨-, k1⟩ := C55.copyBuff_all (by omega) h1
  obtain ⟨-, k2⟩ := C55.copyBuff_all (by omega) h2
  refine ⟨b1, h1, ?_⟩
  rw [h2]
  congr 1
  refine List.ext_getElem? fun q => ?_
  have hlen : ((m.drop 2).take 112 ++ (m.drop 122).take 16).length = 128 := by
    rw [List.length_append, List.length_take, List.length_take, List.length_drop, List.length_drop]; omega
  rw [k2, k1, splice_getElem? _ _ _ (by rw [hlen]; exact hb), hlen]
  have hg : ∀ x, x < m.length → some (m.getD x false) = m[x]? := fun x hx => by
    rw [List.getD_eq_getElem?_getD, List.getElem?_eq_getElem hx]; rfl
  by_cases c1 : j + 112 ≤ q ∧ q < j + 112 + 16
  · rw [if_pos c1, if_pos (by omega), hg _ (by omega), List.getElem?_append_right (by
      rw [List.length_take, List.length_drop]; omega), List.length_take, List.length_drop,
      List.getElem?_take, if_pos (by omega), List.getElem?_drop]
    congr 1
    omega
  · rw [if_neg c1]
    by_cases c2 : j ≤ q ∧ q < j + 112
    · rw [if_pos c2, if_pos (by omega), hg _ (by omega), List.getElem?_append_left (by
        rw [List.length_take, List.length_drop]; omega), List.getElem?_take, if_pos (by omega),
        List.getElem?_drop]
    · rw [if_neg c2, if_neg (by omega)]

theorem inav_steps (sat : Int) : Steps inav sat 5 (loadInavMsg sat) (Full 5) := by
  intro st ms m hs hok
  have hf := inav_fits hok
  have hm := hok m (by simp)
  unfold Full at hm
  rw [if_neg (by decide), if_neg (by decide), if_neg (by decide)] at hm
  unfold loadInavMsg
  dsimp only
  rw [readU_at (by omega), Py.okBind, readU_at (by omega), Py.okBind]
  by_cases c : bitsAt m 2 6 = 0 ∨ bitsAt m 2 6 > 5
  · have hi : inav.idx m = none := by
      dsimp only [inav]; rw [if_neg (by omega)]
    rw [if_pos c]
    refine ⟨st, by rw [assembly_skip ms hi]; rfl, ?_⟩
    unfold complete
    rw [if_pos (Or.inl hi)]
  · have hi : inav.idx m = some (bitsAt m 2 6 - 1) := by
      dsimp only [inav]; rw [if_pos (by omega)]
    have ha := assembly_snoc hf hi
    have hl0 : (assembly inav ms).length = 640 := by rw [assembly_length hf.left]; rfl
    obtain ⟨b1, k1, k2⟩ := two_copies (b := assembly inav ms) (j := (bitsAt m 2 6 - 1) * 16 * 8) hm (by omega)
    rw [show splice (assembly inav ms) ((bitsAt m 2 6 - 1) * 16 * 8)
        ((m.drop 2).take 112 ++ (m.drop 122).take 16) = assembly inav (ms ++ [m]) by
      rw [ha, Nat.mul_assoc]; rfl] at k2
    rw [if_neg c, k1, Py.okBind, k2, Py.okBind]
    have hl : (assembly inav (ms ++ [m])).length = 640 := by rw [assembly_length hf]; rfl
    unfold complete
    rw [hi]
    show ∃ t, _ ∧ match (if some (bitsAt m 2 6 - 1) = none ∨ decide (bitsAt m 2 6 = 5) = false then none else
      inavIssue (assembly inav (ms ++ [m]))) with
      | none => t = st
      | some iode => Stored st t sat 5 iode (bitsAt (assembly inav (ms ++ [m])) 597 20, assembly inav (ms ++ [m]))
    generalize assembly inav (ms ++ [m]) = b at hl
    repeat rw [readU_at (b := b) (by omega), Py.okBind]
    unfold inavIssue
    by_cases c0 : bitsAt m 2 6 = 5
    · rw [if_neg (c := some (bitsAt m 2 6 - 1) = none ∨ _) (by simp [c0])]
      by_cases c1 : bitsAt b 0 6 = 1 ∧ bitsAt b 128 6 = 2 ∧ bitsAt b 256 6 = 3 ∧ bitsAt b 384 6 = 4 ∧
        bitsAt b 512 6 = 5
      · by_cases c2 : bitsAt b 134 10 = bitsAt b 6 10 ∧ bitsAt b 262 10 = bitsAt b 6 10 ∧
          bitsAt b 390 10 = bitsAt b 6 10
        · rw [if_neg (by
            show ¬ (bitsAt m 2 6 ≠ 5 ∨ bitsAt b 0 6 ≠ 1 ∨ bitsAt b 128 6 ≠ 2 ∨ bitsAt b 256 6 ≠ 3 ∨
              bitsAt b 384 6 ≠ 4 ∨ bitsAt b 512 6 ≠ 5); omega),
            if_neg (by
            show ¬ (bitsAt b 6 10 ≠ bitsAt b 134 10 ∨ bitsAt b 6 10 ≠ bitsAt b 262 10 ∨
              bitsAt b 6 10 ≠ bitsAt b 390 10); omega),
            if_pos ⟨c1.1, c1.2.1, c1.2.2.1, c1.2.2.2.1, c1.2.2.2.2, c2⟩]
          obtain ⟨t, h1, h2⟩ := add_stored (mt := 5) (by decide) (⟨5, bitsAt b 6 10, bitsAt b 597 20, b⟩ : NavMsg) hs
          refine ⟨t, ?_, h2⟩
          show storeAdd st sat 5 _ >>= _ = _
          rw [h1]; rfl
        · rw [if_neg (by
            show ¬ (bitsAt m 2 6 ≠ 5 ∨ bitsAt b 0 6 ≠ 1 ∨ bitsAt b 128 6 ≠ 2 ∨ bitsAt b 256 6 ≠ 3 ∨
              bitsAt b 384 6 ≠ 4 ∨ bitsAt b 512 6 ≠ 5); omega),
            if_pos (by
            show bitsAt b 6 10 ≠ bitsAt b 134 10 ∨ bitsAt b 6 10 ≠ bitsAt b 262 10 ∨
              bitsAt b 6 10 ≠ bitsAt b 390 10; omega), if_neg (fun x => c2 x.2.2.2.2.2)]
          exact ⟨st, rfl, rfl⟩
      · rw [if_pos (by
            show bitsAt m 2 6 ≠ 5 ∨ bitsAt b 0 6 ≠ 1 ∨ bitsAt b 128 6 ≠ 2 ∨ bitsAt b 256 6 ≠ 3 ∨
              bitsAt b 384 6 ≠ 4 ∨ bitsAt b 512 6 ≠ 5; omega),
          if_neg (fun x => c1 ⟨x.1, x.2.1, x.2.2.1, x.2.2.2.1, x.2.2.2.2.1⟩)]
        exact ⟨st, rfl, rfl⟩
    · rw [if_pos (c := some (bitsAt m 2 6 - 1) = none ∨ _) (by simp [c0]), if_pos (Or.inl c0)]
      exact ⟨st, rfl, rfl⟩

/-! ## Loading -/

theorem assembly_nil (K : Kind) : assembly K [] = List.replicate (K.n * K.blk) false := by
  have hl : Fits K [] := fun m hm => absurd hm (by simp)
  refine List.ext_getElem? fun q => ?_
  by_cases hq : q < K.n * K.blk
  · unfold assembly
    rw [blocks_get (latest_length hl) K.n q hq]
    have hp : 0 < K.blk := by
      rcases Nat.eq_zero_or_pos K.blk with e | e
      · rw [e] at hq; omega
      · exact e
    show (List.replicate K.blk false)[q % K.blk]? = _
    rw [List.getElem?_replicate, if_pos (Nat.mod_lt q hp), List.getElem?_replicate, if_pos hq]
  · rw [List.getElem?_eq_none (by rw [assembly_length hl]; omega),
      List.getElem?_eq_none (by rw [List.length_replicate]; omega)]

theorem ensure_blocked (st : Store) (sat : Int) (mt i : Nat) :
    blocked (ensureSat st sat) sat mt i = blocked st sat mt i := by
  unfold blocked
  rw [C25.lookup_ensure]
  unfold ensureSat
  by_cases h : st.mem sat = true
  · rw [if_pos h]
  · rw [if_neg h, Dict.get?_set_self, C25.dict_none h]
    rfl

theorem ensure_some (st : Store) (sat : Int) : ((ensureSat st sat).get? sat).isSome := by
  unfold ensureSat
  by_cases h : st.mem sat = true
  · rw [if_pos h]; exact h
  · rw [if_neg h, Dict.get?_set_self]; rfl

theorem free_none {st : Store} {sat : Int} {mt i : Nat} (h : blocked st sat mt i = false) :
    lookup st sat i mt = none := by
  unfold blocked at h
  split at h
  · unfold lookup
    cases hd : st.get? sat with
    | none => rfl
    | some d =>
      rw [hd] at h
      cases he : d.get? i with
      | none => show (d.get? i).bind _ = none; rw [he]; rfl
      | some e =>
        rw [show (some d).bind (fun d => d.get? i) = d.get? i from rfl, he] at h
        cases h
  · simpa using h

/-- **loading**: the messages of one satellite are scanned in order.  An issue not yet stored gets
the first set of parts of that issue which was complete, each part in its latest version then; an
issue stored before keeps its contents; nothing else changes. -/
theorem load (p : Prim PK) (s : St PK) {mt : Nat} (hm : mt = 1 ∨ mt = 2 ∨ mt = 4 ∨ mt = 5) (prn : Int)
    {msgs : List BitBuf} (hf : ∀ m ∈ msgs, Full mt m) :
    ∃ t, C25.step p s (.load mt prn msgs) = .ok { s with navmsg := t } ∧
      (∀ sat i ty, sat ≠ C25.loadSat mt prn ∨ ty ≠ mt → lookup t sat i ty = lookup s.navmsg sat i ty) ∧
      ∀ i, (lookup t (C25.loadSat mt prn) i mt).map data =
        if blocked s.navmsg (C25.loadSat mt prn) mt i = true then
          (lookup s.navmsg (C25.loadSat mt prn) i mt).map data
        else (firstOf (kind mt) i [] msgs).map fun b => ((kind mt).tow b, b) := by
  have main : ∀ (K : Kind) (f : Store × BitBuf → BitBuf → Py (Store × BitBuf)) (z : Nat),
      Steps K (C25.loadSat mt prn) mt f (Full mt) → K.n * K.blk = 8 * z → ∃ t b,
      msgs.foldlM f (ensureSat s.navmsg (C25.loadSat mt prn), zeros z) = .ok (t, b) ∧
      (∀ i ty, ty ≠ mt → lookup t (C25.loadSat mt prn) i ty = lookup s.navmsg (C25.loadSat mt prn) i ty) ∧
      ∀ i, (lookup t (C25.loadSat mt prn) i mt).map data =
        if blocked s.navmsg (C25.loadSat mt prn) mt i = true then
          (lookup s.navmsg (C25.loadSat mt prn) i mt).map data
        else (firstOf K i [] msgs).map fun b => (K.tow b, b) := by
    intro K f z hs hz
    obtain ⟨t, h1, h2, h3⟩ := scan hs msgs [] _ (ensure_some s.navmsg (C25.loadSat mt prn)) hf
    rw [assembly_nil, hz] at h1
    refine ⟨t, _, h1, fun i ty hty => ?_, fun i => ?_⟩
    · rw [h2 i ty hty, C25.lookup_ensure]
    · rw [h3 i, ensure_blocked, C25.lookup_ensure]
      by_cases hb : blocked s.navmsg (C25.loadSat mt prn) mt i = true
      · rw [if_pos hb, if_pos hb]
      · rw [if_neg hb, if_neg hb, free_none (by simpa using hb)]
        simp
  have fin : ∀ t, C25.step p s (.load mt prn msgs) = .ok { s with navmsg := t } →
      (∀ i ty, ty ≠ mt → lookup t (C25.loadSat mt prn) i ty = lookup s.navmsg (C25.loadSat mt prn) i ty) →
      ∀ sat i ty, sat ≠ C25.loadSat mt prn ∨ ty ≠ mt → lookup t sat i ty = lookup s.navmsg sat i ty := by
    intro t ht h2 sat i ty hc
    by_cases hsat : sat = C25.loadSat mt prn
    · rw [hsat]
      exact h2 i ty (hc.resolve_left fun x => x hsat)
    · exact C25.load_local ht hsat i ty
  rcases hm with rfl | rfl | rfl | rfl
  · obtain ⟨t, b, h1, h2, h3⟩ := main lnav _ 120 (lnav_steps _) rfl
    have hst : C25.step p s (.load 1 prn msgs) = .ok { s with navmsg := t } := by
      show (loadLnav s.navmsg prn msgs >>= _) = _
      unfold loadLnav
      dsimp only
      rw [show prn2sat .gps prn = C25.loadSat 1 prn from rfl, h1]
      rfl
    exact ⟨t, hst, fin t hst h2, h3⟩
  · obtain ⟨t, b, h1, h2, h3⟩ := main cnav _ 114 (cnav_steps _) rfl
    have hst : C25.step p s (.load 2 prn msgs) = .ok { s with navmsg := t } := by
      show (loadCnav s.navmsg prn msgs >>= _) = _
      unfold loadCnav
      dsimp only
      rw [show prn2sat .gps prn = C25.loadSat 2 prn from rfl, h1]
      rfl
    exact ⟨t, hst, fin t hst h2, h3⟩
  · obtain ⟨t, b, h1, h2, h3⟩ := main fnav _ 124 (fnav_steps _) rfl
    have hst : C25.step p s (.load 4 prn msgs) = .ok { s with navmsg := t } := by
      show (loadFnav s.navmsg prn msgs >>= _) = _
      unfold loadFnav
      dsimp only
      rw [show prn2sat .gal prn = C25.loadSat 4 prn from rfl, h1]
      rfl
    exact ⟨t, hst, fin t hst h2, h3⟩
  · obtain ⟨t, b, h1, h2, h3⟩ := main inav _ 80 (inav_steps _) rfl
    have hst : C25.step p s (.load 5 prn msgs) = .ok { s with navmsg := t } := by
      show (loadInav s.navmsg prn msgs >>= _) = _
      unfold loadInav
      dsimp only
      rw [show prn2sat .gal prn = C25.loadSat 5 prn from rfl, h1]
      rfl
    exact ⟨t, hst, fin t hst h2, h3⟩

/-! ## Sets of parts in a row -/

/-- all parts in a row, in any order and however often, are side by side whatever came before -/
theorem whole (K : Kind) (ms : List BitBuf) {l : List BitBuf} {f : Nat → BitBuf}
    (hi : ∀ i, i < K.n → f i ∈ l ∧ K.idx (f i) = some i) (hl : ∀ x ∈ l, ∃ i, i < K.n ∧ x = f i) :
    assembly K (ms ++ l) = (List.range K.n).flatMap fun i => K.cont (f i) := by
  unfold assembly
  rw [List.flatMap_def, List.flatMap_def]
  congr 1
  refine List.map_congr_left fun i h => ?_
  have h := List.mem_range.1 h
  unfold latest
  rw [List.reverse_append, List.find?_append]
  cases hf : l.reverse.find? fun m => K.idx m = some i with
  | none =>
    rw [List.find?_eq_none] at hf
    exact absurd (by simpa using (hi i h).2) (hf (f i) (List.mem_reverse.2 (hi i h).1))
  | some x =>
    obtain ⟨j, hj, e⟩ := hl x (List.mem_reverse.1 (List.mem_of_find?_eq_some hf))
    have h2 : K.idx x = some i := by simpa using List.find?_some hf
    rw [e, (hi j hj).2] at h2
    cases h2
    rw [e]; rfl

/-- **a set of parts**: three LNAV sub-frames, three CNAV messages, four F/NAV pages or five I/NAV words
(the fifth last) of one issue, after whatever other messages, are complete under that issue -/
theorem complete_set (K : Kind) (ms : List BitBuf) {l : List BitBuf} {m : BitBuf} {f : Nat → BitBuf}
    (hi : ∀ i, i < K.n → f i ∈ l ++ [m] ∧ K.idx (f i) = some i) (hl : ∀ x ∈ l ++ [m], ∃ i, i < K.n ∧ x = f i)
    (hm : K.last m = true) :
    complete K (ms ++ l) m = K.issue ((List.range K.n).flatMap fun i => K.cont (f i)) := by
  unfold complete
  rw [List.append_assoc, whole K ms hi hl, if_neg]
  rintro (h | h)
  · obtain ⟨i, hn, e⟩ := hl m (by simp)
    rw [e, (hi i hn).2] at h
    cases h
  · rw [hm] at h; cases h

/-- the first of an issue, found -/
theorem firstOf_found {K : Kind} {issue : Nat} : ∀ (pre ms : List BitBuf) (m : BitBuf) (post : List BitBuf),
    firstOf K issue ms pre = none → complete K (ms ++ pre) m = some issue →
    firstOf K issue ms (pre ++ m :: post) = some (assembly K (ms ++ pre ++ [m])) := by
  intro pre
  induction pre with
  | nil =>
    intro ms m post _ h
    rw [List.append_nil] at h ⊢
    rw [List.nil_append, firstOf, if_pos h]
  | cons x pre ih =>
    intro ms m post hn h
    rw [firstOf] at hn
    rw [List.cons_append, firstOf]
    split at hn
    · cases hn
    · rename_i hx
      rw [if_neg hx, ih (ms ++ [x]) m post hn (by rw [List.append_assoc]; exact h)]
      simp

/-! ## Non-vacuity -/

/-- an LNAV sub-frame with a given number, issue and filling -/
def sub (k iode : Nat) (x : Bool) : BitBuf :=
  let b := List.replicate 320 x
  let b := splice b 53 (natToBits 3 k)
  if k = 1 then splice b 226 (natToBits 8 iode) else if k = 2 then splice b 66 (natToBits 8 iode)
  else splice b 290 (natToBits 8 iode)

set_option maxRecDepth 4000 in
example : lnav.idx (sub 1 77 true) = some 0 ∧ lnav.idx (sub 2 77 true) = some 1 ∧
    lnav.idx (sub 3 77 true) = some 2 := by decide +kernel

set_option maxRecDepth 8000 in
/-- sub-frames of issue 77: the first complete set is the one with the third -/
example : firstOf lnav 77 [] [sub 1 77 true, sub 2 77 true, sub 3 77 true, sub 1 77 false] =
    some (sub 1 77 true ++ sub 2 77 true ++ sub 3 77 true) := by decide +kernel

set_option maxRecDepth 8000 in
/-- sub-frames of two transmissions with the same issue number are combined -/
example : firstOf lnav 77 [] [sub 1 77 true, sub 2 77 true, sub 1 78 false, sub 2 78 false, sub 2 77 false,
    sub 1 77 false, sub 3 77 true] = some (sub 1 77 false ++ sub 2 77 false ++ sub 3 77 true) := by
  decide +kernel

set_option maxRecDepth 8000 in
/-- without one of them there is none -/
example : firstOf lnav 77 [] [sub 1 77 true, sub 2 77 true, sub 3 78 true] = none := by decide +kernel

set_option maxRecDepth 8000 in
example : ∀ m ∈ [sub 1 77 true, sub 2 77 true, sub 3 77 true], Full 1 m := by
  have h : ∀ m ∈ [sub 1 77 true, sub 2 77 true, sub 3 77 true], 320 ≤ m.length ∧ bitsAt m 53 3 ≠ 0 := by
    decide +kernel
  intro m hm
  unfold Full
  rw [if_pos rfl]
  exact h m hm

/-- an F/NAV page -/
def fpage (k iod : Nat) : BitBuf :=
  splice (splice (List.replicate 248 false) 0 (natToBits 6 k)) (if k = 1 then 12 else 6) (natToBits 10 iod)

set_option maxRecDepth 8000 in
/-- a page of type 0 displaces page 4 -/
example : firstOf fnav 500 [] [fpage 1 500, fpage 4 500, fpage 2 500, fpage 3 500] =
      some (fpage 1 500 ++ fpage 2 500 ++ fpage 3 500 ++ fpage 4 500) ∧
    firstOf fnav 500 [] [fpage 1 500, fpage 4 500, fpage 0 500, fpage 2 500, fpage 3 500] = none := by
  decide +kernel

/-- an LNAV issue blocks the CNAV message of the same number -/
example : blocked [(5, [(77, [(1, ⟨1, 77, 0, []⟩)])])] 5 2 77 = true ∧
    blocked [(5, [(77, [(1, ⟨1, 77, 0, []⟩)])])] 5 4 77 = false := by decide

end Verif.C71
