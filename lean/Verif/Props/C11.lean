import Verif.Lemmas.Cssr
import Mathlib.Data.List.Nodup
/-!
# C11 Compact SSR mask message gives a consistent satellite/signal list

A mask message is described by its content: a header and one `Entry` per constellation (the
satellite mask, the signal mask and, when sent, one cell mask per masked satellite, all as the
transmitted bits).  `MaskMsg.bits` is the transmitted layout.  The theorem says what the decoder
object holds after reading such a message from any position of any buffer in any state.
-/

namespace Verif.C11
open Verif.Sat Verif.Sig Verif.Mask Verif.Time Verif.Cssr

/-- one constellation of a mask message -/
structure Entry where
  gnss : Nat
  sv : List Bool
  sg : List Bool
  cells : Option (List (List Bool))
  nm : Nat

/-- the mask message -/
structure MaskMsg where
  tow : Nat
  udi : Nat
  mi : Nat
  iod : Nat
  entries : List Entry

/-- number of masked satellites and signals -/
def Entry.nsat (e : Entry) : Nat := e.sv.count true
def Entry.nsig (e : Entry) : Nat := e.sg.count true

/-- transmitted bits of a constellation -/
def Entry.bits (has : Bool) (e : Entry) : List Bool :=
  natToBits 4 e.gnss ++ (e.sv ++ (e.sg ++ ([e.cells.isSome] ++ ((e.cells.getD []).flatten ++
    (if has then natToBits 3 e.nm else [])))))

/-- transmitted bits of the whole message after the message header; HAS has no time/IOD fields
(they are in its own header) -/
def MaskMsg.bits (has : Bool) (m : MaskMsg) : List Bool :=
  (if has then [] else natToBits 20 m.tow ++ (natToBits 4 m.udi ++ (natToBits 1 m.mi ++
    natToBits 4 m.iod))) ++
  (natToBits 4 m.entries.length ++ (m.entries.map (Entry.bits has)).flatten)

/-- message length in bits; HAS ends with six reserved bits that are skipped -/
def MaskMsg.size (has : Bool) (m : MaskMsg) : Nat := (m.bits has).length + if has then 6 else 0

/-- a signal number the library knows for the constellation -/
def knownSig (sys : Sys) (k : Nat) : Prop := ∃ r, ssig2rsig sys .L k = .ok r

/-- well-formed constellation part -/
structure Entry.Valid (e : Entry) : Prop where
  gnss : e.gnss < 16
  sv : e.sv.length = 40
  sg : e.sg.length = 16
  nm : e.nm < 8
  known : ∀ k ∈ positions 0 e.sg, knownSig (gnss2sys e.gnss) k
  cells : ∀ cs, e.cells = some cs →
    cs.length = e.nsat ∧ (∀ c ∈ cs, c.length = e.nsig) ∧ (e.nsig = 0 → cs = [])

structure MaskMsg.Valid (m : MaskMsg) : Prop where
  tow : m.tow < 2 ^ 20
  udi : m.udi < 16
  mi : m.mi < 2
  iod : m.iod < 16
  n : m.entries.length < 16
  entries : ∀ e ∈ m.entries, e.Valid

/-- PRN of a mask position -/
def prnOf (gnss p : Nat) : Nat := if gnss = 4 then p + 192 else if gnss = 7 then p + 18 else p

/-- satellite numbers announced by the satellite mask -/
def Entry.sats (e : Entry) : List Int :=
  (positions 1 e.sv).map fun p => prn2sat (gnss2sys e.gnss) (prnOf e.gnss p : Nat)

/-- signals announced by the signal mask -/
def Entry.sigs (e : Entry) : List Sig :=
  (positions 0 e.sg).map fun k =>
    match ssig2rsig (gnss2sys e.gnss) .L k with | .ok r => r | .error _ => ⟨.none, .L, 0⟩

/-- the satellites of a constellation, each with its own signal list -/
def Entry.rows (e : Entry) : List (Int × List Sig) :=
  match e.cells with
  | Option.none => e.sats.map fun s => (s, e.sigs)
  | some cs => List.zipWith (fun s c => (s, pick c e.sigs)) e.sats cs

theorem positions_length (l : List Bool) (o : Nat) : (positions o l).length = l.count true := by
  induction l generalizing o with
  | nil => rfl
  | cons b l ih => cases b <;> simp [positions, ih]

theorem Entry.sats_length (e : Entry) : e.sats.length = e.nsat := by
  simp [Entry.sats, positions_length, Entry.nsat]

theorem Entry.sigs_length (e : Entry) : e.sigs.length = e.nsig := by
  simp [Entry.sigs, positions_length, Entry.nsig]

theorem Entry.rows_length {e : Entry} (h : e.Valid) : e.rows.length = e.nsat := by
  unfold Entry.rows
  split
  · simp [Entry.sats_length]
  · rename_i cs hcs
    simp [Entry.sats_length, (h.cells cs hcs).1]

/-- effect of one satellite row on the object -/
def addRow (e : Entry) (s : St) (r : Int × List Sig) : St :=
  { s with sysN := s.sysN ++ [gnss2sys e.gnss], satN := s.satN ++ [r.1],
           gnssN := s.gnssN ++ [e.gnss], nsigN := s.nsigN ++ [r.2.length],
           nsigTotal := s.nsigTotal + r.2.length, sigN := Dict.set s.sigN r.1 r.2 }

theorem addRows_eq (e : Entry) (rows : List (Int × List Sig)) (s : St) :
    rows.foldl (addRow e) s =
      { s with sysN := s.sysN ++ rows.map (fun _ => gnss2sys e.gnss),
               satN := s.satN ++ rows.map (·.1),
               gnssN := s.gnssN ++ rows.map (fun _ => e.gnss),
               nsigN := s.nsigN ++ rows.map (·.2.length),
               nsigTotal := s.nsigTotal + (rows.map (·.2.length)).sum,
               sigN := rows.foldl (fun d r => Dict.set d r.1 r.2) s.sigN } := by
  induction rows generalizing s with
  | nil => simp
  | cons r rows ih =>
    rw [List.foldl_cons, ih]
    simp [addRow, Nat.add_assoc]

theorem mapM_sigs {e : Entry} (h : e.Valid) :
    (positions 0 e.sg).mapM (ssig2rsig (gnss2sys e.gnss) .L) = .ok e.sigs := by
  have key : ∀ l : List Nat, (∀ k ∈ l, knownSig (gnss2sys e.gnss) k) →
      l.mapM (ssig2rsig (gnss2sys e.gnss) .L) = .ok (l.map fun k =>
        match ssig2rsig (gnss2sys e.gnss) .L k with | .ok r => r | .error _ => ⟨.none, .L, 0⟩) := by
    intro l
    induction l with
    | nil => intro _; rfl
    | cons k l ih =>
      intro hk
      obtain ⟨r, hr⟩ := hk k (by simp)
      rw [List.mapM_cons, hr, ih (fun k' hk' => hk k' (by simp [hk'])), List.map_cons, hr]
      rfl
  exact key _ h.known

theorem maskSat_row {e : Entry} (h : e.Valid) (vc : List Nat)
    (hvc : ∀ cs, e.cells = some cs → vc = cs.map bitsToNat) (s : St) (k : Nat) (hk : k < e.nsat) :
    ∃ hr : k < e.rows.length,
    maskSat e.gnss (gnss2sys e.gnss) (positions 1 e.sv) (if e.cells.isSome then 1 else 0) vc e.nsig
      e.sigs s k = .ok (addRow e s e.rows[k]) := by
  have hrl := Entry.rows_length h
  refine ⟨by omega, ?_⟩
  have hkp : k < (positions 1 e.sv).length := by rw [positions_length]; exact hk
  have hp : pyGet (positions 1 e.sv) k = .ok (positions 1 e.sv)[k] := by
    simp [pyGet, List.getElem?_eq_getElem hkp]
  have hks : k < e.sats.length := by rw [Entry.sats_length]; exact hk
  have hsat : e.sats[k] = prn2sat (gnss2sys e.gnss) (prnOf e.gnss (positions 1 e.sv)[k] : Nat) := by
    simp [Entry.sats]
  unfold maskSat
  rw [hp]
  cases hc : e.cells with
  | none =>
    have hrow : e.rows[k] = (e.sats[k], e.sigs) := by simp [Entry.rows, hc]
    rw [hrow, hsat]
    simp [bind, Except.bind, pure, Except.pure, addRow, prnOf, Entry.sigs_length]
  | some cs =>
    obtain ⟨h1, h2, h3⟩ := h.cells cs hc
    have hkc : k < cs.length := by omega
    have hrow : e.rows[k] = (e.sats[k], pick cs[k] e.sigs) := by simp [Entry.rows, hc]
    have hv : pyGet vc k = .ok (bitsToNat cs[k]) := by
      rw [hvc cs hc]
      simp [pyGet, List.getElem?_eq_getElem hkc]
    have hlen : cs[k].length = e.nsig := h2 _ (List.getElem_mem _)
    have hd := decodeMask_bits cs[k] 0
    rw [hlen] at hd
    have hm := mapM_pick cs[k] e.sigs (by rw [hlen, Entry.sigs_length]) []
    have hpl := pick_length cs[k] e.sigs (by rw [hlen, Entry.sigs_length])
    simp only [List.length_nil, List.nil_append] at hm
    rw [hrow, hsat]
    simp only [bind, Except.bind, pure, Except.pure, Option.isSome_some, if_true, hv, hd, hm,
      addRow, hpl, prnOf]

theorem maskSat_loop {e : Entry} (h : e.Valid) (vc : List Nat)
    (hvc : ∀ cs, e.cells = some cs → vc = cs.map bitsToNat) (s : St) :
    (List.range e.nsat).foldlM (maskSat e.gnss (gnss2sys e.gnss) (positions 1 e.sv)
      (if e.cells.isSome then 1 else 0) vc e.nsig e.sigs) s = .ok (e.rows.foldl (addRow e) s) := by
  have hrl := Entry.rows_length h
  have key : ∀ m, m ≤ e.nsat → (List.range m).foldlM (maskSat e.gnss (gnss2sys e.gnss)
      (positions 1 e.sv) (if e.cells.isSome then 1 else 0) vc e.nsig e.sigs) s
        = .ok ((e.rows.take m).foldl (addRow e) s) := by
    intro m
    induction m with
    | zero => intro _; rfl
    | succ m ih =>
      intro hm
      obtain ⟨hr, he⟩ := maskSat_row h vc hvc ((e.rows.take m).foldl (addRow e) s) m (by omega)
      rw [List.range_succ, List.foldlM_append, ih (by omega),
        List.take_succ_eq_append_getElem hr, List.foldl_append]
      simp only [bind, Except.bind, List.foldlM_cons, List.foldlM_nil, he]
      rfl
  have := key e.nsat (Nat.le_refl _)
  rwa [← hrl, List.take_length, hrl] at this

/-- state after one constellation -/
def addEntry (s : St) (e : Entry) : St :=
  { s with gnssIdx := s.gnssIdx ++ [gnss2sys e.gnss],
           nsatG := s.nsatG.set e.gnss e.nsat,
           nsatN := s.nsatN + e.nsat,
           nsigMax := max s.nsigMax e.nsig,
           nmIdx := if s.cfg.has then s.nmIdx.set e.gnss e.nm else s.nmIdx,
           sysN := s.sysN ++ e.rows.map (fun _ => gnss2sys e.gnss),
           satN := s.satN ++ e.rows.map (·.1),
           gnssN := s.gnssN ++ e.rows.map (fun _ => e.gnss),
           nsigN := s.nsigN ++ e.rows.map (·.2.length),
           nsigTotal := s.nsigTotal + (e.rows.map (·.2.length)).sum,
           sigN := e.rows.foldl (fun d r => Dict.set d r.1 r.2) s.sigN }

theorem maskGnss_entry {e : Entry} (h : e.Valid) {msg : BitBuf} {i : Nat} {rest : List Bool} {s : St}
    (hat : At msg i (e.bits s.cfg.has ++ rest)) :
    maskGnss msg (s, i) = .ok (addEntry s e, i + (e.bits s.cfg.has).length) ∧
    At msg (i + (e.bits s.cfg.has).length) rest := by
  refine ⟨?_, hat.tail⟩
  have hat := hat.head
  unfold Entry.bits at hat
  obtain ⟨r1, a1⟩ := hat.step h.gnss
  obtain ⟨r2, a2⟩ := a1.stepBits h.sv
  obtain ⟨r3, a3⟩ := a2.stepBits h.sg
  obtain ⟨r4, a4⟩ := a3.stepBits (n := 1) rfl
  have hd1 := decodeMask_bits e.sv 1
  have hd2 := decodeMask_bits e.sg 0
  rw [h.sv] at hd1
  rw [h.sg] at hd2
  have hn1 : (positions 1 e.sv).length = e.nsat := positions_length _ _
  have hn2 : (positions 0 e.sg).length = e.nsig := positions_length _ _
  rw [hn1] at hd1
  rw [hn2] at hd2
  have hcma : bitsToNat [e.cells.isSome] = if e.cells.isSome then 1 else 0 := by
    cases e.cells <;> rfl
  rw [hcma] at r4
  have hvc : (if (if e.cells.isSome then 1 else 0) = 1 then
      readMany msg (i + 61) e.nsig e.nsat else pure []) =
        .ok ((e.cells.getD []).map bitsToNat) := by
    cases hc : e.cells with
    | none => rfl
    | some cs =>
      obtain ⟨h1, h2, h3⟩ := h.cells cs hc
      simp only [hc, Option.getD_some] at a4
      have := readMany_bits (i := i + 61) h2 a4.head h3
      rw [h1] at this
      simpa using this
  have hflat : (e.cells.getD []).flatten.length = if e.cells.isSome then e.nsig * e.nsat else 0 := by
    cases hc : e.cells with
    | none => rfl
    | some cs =>
      obtain ⟨h1, h2, h3⟩ := h.cells cs hc
      simp only [Option.getD_some, Option.isSome_some, if_true, List.length_flatten]
      have : cs.map List.length = List.replicate cs.length e.nsig := by
        apply List.eq_replicate_iff.2
        refine ⟨by simp, ?_⟩
        intro b hb
        obtain ⟨c, hc', rfl⟩ := List.mem_map.1 hb
        exact h2 c hc'
      rw [this, List.sum_replicate, h1]
      simp [Nat.mul_comm]
  have hi : (if (if e.cells.isSome then 1 else 0) = 1 then i + 61 + e.nsig * e.nsat else i + 61) =
      i + 61 + (e.cells.getD []).flatten.length := by
    rw [hflat]; cases e.cells <;> simp
  have hloop := maskSat_loop h ((e.cells.getD []).map bitsToNat)
    (by intro cs hcs; rw [hcs]; rfl)
  unfold maskGnss
  have hi2 : i + 4 + 40 = i + 44 := rfl
  have hi3 : i + 4 + 40 + 16 = i + 60 := rfl
  have hi4 : i + 4 + 40 + 16 + 1 = i + 61 := rfl
  rw [hi2] at r3
  rw [hi3] at r4
  rw [hi4] at a4
  simp only [bind, Except.bind, r1, r2, r3, r4, hd1, hd2]
  simp only [hvc, hi, mapM_sigs h, hloop, addRows_eq]
  have a5 := a4.tail
  have hlen : (e.bits s.cfg.has).length = 61 + (e.cells.getD []).flatten.length +
      (if s.cfg.has then 3 else 0) := by
    simp only [Entry.bits, List.length_append, natToBits_length, h.sv, h.sg, List.length_singleton]
    split <;> simp <;> omega
  cases hhas : s.cfg.has with
  | false =>
    simp only [hhas, Bool.false_eq_true, if_false, pure, Except.pure]
    rw [hhas] at hlen
    rw [hlen]
    simp [addEntry, hhas, Nat.add_assoc]
  | true =>
    rw [hhas] at a5 hlen
    simp only [if_true] at a5 hlen
    have r5 := a5.readU h.nm
    simp only [hhas, if_true, r5, pure, Except.pure]
    rw [hlen]
    simp [addEntry, hhas, Nat.add_assoc]

theorem addEntry_has (s : St) (e : Entry) : (addEntry s e).cfg = s.cfg := rfl

theorem entries_loop {msg : BitBuf} : ∀ (es : List Entry), (∀ e ∈ es, e.Valid) →
    ∀ (l : List Nat), l.length = es.length → ∀ (s : St) (i : Nat) (rest : List Bool),
    At msg i ((es.map (Entry.bits s.cfg.has)).flatten ++ rest) →
    l.foldlM (fun si _ => maskGnss msg si) (s, i) =
      .ok (es.foldl addEntry s, i + ((es.map (Entry.bits s.cfg.has)).flatten).length) ∧
    At msg (i + ((es.map (Entry.bits s.cfg.has)).flatten).length) rest
  | [], _, l, hl, s, i, rest, hat => by
    have : l = [] := List.length_eq_zero_iff.1 hl
    subst this
    exact ⟨rfl, by simpa using hat⟩
  | e :: es, hv, l, hl, s, i, rest, hat => by
    cases l with
    | nil => simp at hl
    | cons a l =>
      rw [List.map_cons, List.flatten_cons, List.append_assoc] at hat
      obtain ⟨h1, h2⟩ := maskGnss_entry (hv e (by simp)) hat
      have ih := entries_loop es (fun e' he' => hv e' (by simp [he'])) l (by simpa using hl)
        (addEntry s e) (i + (e.bits s.cfg.has).length) rest (by rw [addEntry_has]; exact h2)
      rw [addEntry_has] at ih
      rw [List.foldlM_cons, h1]
      simp only [bind, Except.bind, List.foldl_cons, List.map_cons, List.flatten_cons,
        List.length_append]
      rw [← Nat.add_assoc]
      exact ih

/-- all satellites of the message with their signals, in transmission order -/
def MaskMsg.rows (m : MaskMsg) : List (Int × List Sig) := (m.entries.map Entry.rows).flatten

/-- number of satellites of each constellation code -/
theorem foldl_addEntry (es : List Entry) (s : St) :
    (es.foldl addEntry s).satN = s.satN ++ (es.map fun e => e.rows.map (·.1)).flatten ∧
    (es.foldl addEntry s).sysN = s.sysN ++ (es.map fun e => e.rows.map fun _ => gnss2sys e.gnss).flatten ∧
    (es.foldl addEntry s).gnssN = s.gnssN ++ (es.map fun e => e.rows.map fun _ => e.gnss).flatten ∧
    (es.foldl addEntry s).nsigN = s.nsigN ++ (es.map fun e => e.rows.map (·.2.length)).flatten ∧
    (es.foldl addEntry s).nsigTotal = s.nsigTotal + ((es.map fun e => e.rows.map (·.2.length)).flatten).sum ∧
    (es.foldl addEntry s).nsatN = s.nsatN + (es.map Entry.nsat).sum ∧
    (es.foldl addEntry s).gnssIdx = s.gnssIdx ++ es.map (fun e => gnss2sys e.gnss) ∧
    (es.foldl addEntry s).sigN = ((es.map Entry.rows).flatten).foldl (fun d r => Dict.set d r.1 r.2) s.sigN := by
  induction es generalizing s with
  | nil => simp
  | cons e es ih =>
    obtain ⟨h1, h2, h3, h4, h5, h6, h7, h8⟩ := ih (addEntry s e)
    simp only [List.foldl_cons]
    refine ⟨?_, ?_, ?_, ?_, ?_, ?_, ?_, ?_⟩
    · rw [h1]; simp [addEntry]
    · rw [h2]; simp [addEntry]
    · rw [h3]; simp [addEntry]
    · rw [h4]; simp [addEntry]
    · rw [h5]; simp [addEntry]; omega
    · rw [h6]; simp [addEntry]; omega
    · rw [h7]; simp [addEntry]
    · rw [h8]; simp [addEntry]

/-- fields of the object a mask message does not depend on are untouched by the entries -/
theorem foldl_addEntry_frame (es : List Entry) (s : St) :
    (es.foldl addEntry s).cfg = s.cfg ∧ (es.foldl addEntry s).lc = s.lc ∧
    (es.foldl addEntry s).iodssr = s.iodssr ∧ (es.foldl addEntry s).iodssrP = s.iodssrP ∧
    (es.foldl addEntry s).satNP = s.satNP ∧ (es.foldl addEntry s).sigNP = s.sigNP ∧
    (es.foldl addEntry s).ngnss = s.ngnss ∧ (es.foldl addEntry s).time = s.time := by
  induction es generalizing s with
  | nil => simp
  | cons e es ih => simpa [addEntry] using ih (addEntry s e)

/-- last row of a satellite -/
def lastRow (rows : List (Int × List Sig)) (sat : Int) : Option (List Sig) :=
  (rows.reverse.find? (fun r => r.1 = sat)).map (·.2)

theorem get?_foldl_set (rows : List (Int × List Sig)) (d : Dict Int (List Sig)) (sat : Int) :
    Dict.get? (rows.foldl (fun d r => Dict.set d r.1 r.2) d) sat =
      (lastRow rows sat).or (Dict.get? d sat) := by
  induction rows generalizing d with
  | nil => simp [lastRow]
  | cons r rows ih =>
    rw [List.foldl_cons, ih]
    unfold lastRow
    simp only [List.reverse_cons, List.find?_append]
    cases hf : rows.reverse.find? (fun r => r.1 = sat) with
    | some x => simp
    | none =>
      by_cases hr : r.1 = sat
      · subst hr; simp
      · have hne : sat ≠ r.1 := fun e => hr e.symm
        simp [hr, Dict.get?_set_ne _ _ hne]

theorem lastRow_of_nodup {rows : List (Int × List Sig)} (hn : (rows.map (·.1)).Nodup)
    {r : Int × List Sig} (hr : r ∈ rows) : lastRow rows r.1 = some r.2 := by
  unfold lastRow
  cases hf : rows.reverse.find? (fun x => x.1 = r.1) with
  | none =>
    have := List.find?_eq_none.1 hf r (by simpa using hr)
    simp at this
  | some x =>
    have hx : x ∈ rows := by simpa using List.mem_of_find?_eq_some hf
    have he : x.1 = r.1 := by simpa using List.find?_some hf
    have : x = r := by
      obtain ⟨a, ha, rfl⟩ := List.mem_iff_getElem.1 hx
      obtain ⟨b, hb, rfl⟩ := List.mem_iff_getElem.1 hr
      have h2 : (rows.map (·.1))[a]'(by simpa using ha) = (rows.map (·.1))[b]'(by simpa using hb) := by
        simpa using he
      have := (List.Nodup.getElem_inj_iff hn).1 h2
      subst this; rfl
    rw [this]; rfl

/-- issue number announced by the message: HAS carries it in its own header -/
def newIod (s : St) (m : MaskMsg) : Int := if s.cfg.has then s.iodssr else m.iod

/-- what the header does: fields other than the time are kept, the cursor is on the body -/
theorem head_spec {s : St} {m : MaskMsg} (hm : m.Valid) {msg : BitBuf} {i : Nat}
    {rest : List Bool}
    (hat : At msg i ((if s.cfg.has then [] else natToBits 20 m.tow ++ (natToBits 4 m.udi ++
      (natToBits 1 m.mi ++ natToBits 4 m.iod))) ++ rest)) :
    ∃ s1 h, decodeHead s msg i true = .ok (s1, h, i + if s.cfg.has then 0 else 29) ∧
      h.iodssr = newIod s m ∧
      s1 = { s with tow := s1.tow, tow0 := s1.tow0, time := s1.time } ∧
      At msg (i + if s.cfg.has then 0 else 29) rest := by
  unfold decodeHead newIod
  cases hh : s.cfg.has with
  | true =>
    simp only [hh, if_true, List.nil_append] at hat
    simp only [if_true, decodeHeadHas, bind, Except.bind, pure, Except.pure]
    refine ⟨_, _, rfl, ?_, ?_, hat⟩
    · split
      · split <;> rfl
      · rfl
    · split
      · split <;> rfl
      · rfl
  | false =>
    simp only [hh, Bool.false_eq_true, if_false, List.append_assoc] at hat
    obtain ⟨r1, a1⟩ := hat.step hm.tow
    obtain ⟨r2, a2⟩ := a1.step hm.udi
    obtain ⟨r3, a3⟩ := a2.step hm.mi
    obtain ⟨r4, a4⟩ := a3.step hm.iod
    simp only [Bool.false_eq_true, if_false, decodeHeadClas, bind, Except.bind, pure, Except.pure,
      if_true, r1, r2, r3]
    have e5 : i + 20 + 4 + 1 = i + 20 + 5 := rfl
    rw [e5] at r4
    simp only [r4]
    refine ⟨_, _, rfl, rfl, ?_, a4⟩
    split <;> rfl

theorem rfl_cursor {s : St} {a b : Nat} (h : a = b) :
    (Except.ok (s, (a : Int)) : Py (St × Int)) = .ok (s, (b : Int)) := by rw [h]

/-- A well-formed mask message read at any position of any buffer, in any decoder state:
* the reader advances by exactly the length of the message;
* the satellite list is the announced satellites in order, and the counts agree;
* every satellite has the signals of its cell mask, or of the signal mask if none was sent;
* the previous satellite and signal lists are replaced exactly when the issue number changes. -/
theorem mask_decodes (s : St) (m : MaskMsg) (hm : m.Valid) (msg : BitBuf) (i : Nat)
    (hlc : s.lc ≠ []) (hat : At msg i (m.bits s.cfg.has)) :
    ∃ s' : St, decodeCssrMask s msg i = .ok (s', ((i + m.size s.cfg.has : Nat) : Int)) ∧
      s'.satN = m.rows.map (·.1) ∧
      s'.nsatN = s'.satN.length ∧
      s'.nsigN = m.rows.map (·.2.length) ∧
      s'.nsigTotal = s'.nsigN.sum ∧
      s'.sysN = (m.entries.map fun e => List.replicate e.nsat (gnss2sys e.gnss)).flatten ∧
      s'.gnssN = (m.entries.map fun e => List.replicate e.nsat e.gnss).flatten ∧
      s'.gnssIdx = m.entries.map (fun e => gnss2sys e.gnss) ∧
      s'.ngnss = m.entries.length ∧
      (∀ sat, Dict.get? s'.sigN sat = lastRow m.rows sat) ∧
      s'.iodssr = newIod s m ∧
      (s'.satNP, s'.sigNP, s'.iodssrP) =
        (if s.iodssr = newIod s m then (s.satNP, s.sigNP, s.iodssrP)
          else (s.satN, s.sigN, s.iodssr)) ∧
      (∀ k, (s'.lc[k]?).map LC.cstat = if k = 0 then (s.lc[0]?).map (fun l => l.cstat ||| 1)
        else (s.lc[k]?).map LC.cstat) := by
  unfold MaskMsg.bits at hat
  obtain ⟨s1, h, hh, hiod, hs1, hat1⟩ := head_spec hm hat
  have hcfg : s1.cfg = s.cfg := by rw [hs1]
  have hlc1 : s1.lc = s.lc := by rw [hs1]
  have hio1 : s1.iodssr = s.iodssr := by rw [hs1]
  have hsn1 : s1.satN = s.satN := by rw [hs1]
  have hsg1 : s1.sigN = s.sigN := by rw [hs1]
  have hnp1 : s1.satNP = s.satNP := by rw [hs1]
  have hgp1 : s1.sigNP = s.sigNP := by rw [hs1]
  have hip1 : s1.iodssrP = s.iodssrP := by rw [hs1]
  obtain ⟨r2, a2⟩ := hat1.step hm.n
  obtain ⟨l0, lrest, hl⟩ := List.exists_cons_of_ne_nil hlc
  set i1 := i + if s.cfg.has then 0 else 29 with hi1
  let s2 : St := { s1 with ngnss := m.entries.length, flgNet := false }
  let s3 : St := if s2.iodssr ≠ h.iodssr then
      { s2 with satNP := s2.satN, iodssrP := s2.iodssr, sigNP := s2.sigN } else s2
  let s4 : St := { s3 with
    iodssr := h.iodssr, nsatN := 0, nsigN := [], sysN := [], gnssN := [], satN := [],
    nsigTotal := 0, sigN := [], nsigMax := 0, nmIdx := List.replicate 16 0, dcm := Option.none,
    gnssIdx := [], nsatG := List.replicate 16 0 }
  have h4cfg : s4.cfg = s.cfg := by
    show s3.cfg = s.cfg
    simp only [s3]; split <;> exact hcfg
  have h4lc : s4.lc = s.lc := by
    show s3.lc = s.lc
    simp only [s3]; split <;> exact hlc1
  have h4n : s4.ngnss = m.entries.length := by
    show s3.ngnss = _
    simp only [s3]; split <;> rfl
  have h4p : (s4.satNP, s4.sigNP, s4.iodssrP) = (if s.iodssr = newIod s m then
      (s.satNP, s.sigNP, s.iodssrP) else (s.satN, s.sigN, s.iodssr)) := by
    show (s3.satNP, s3.sigNP, s3.iodssrP) = _
    simp only [s3, s2, hio1, hiod]
    by_cases hne : s.iodssr = newIod s m
    · simp [hne, hnp1, hgp1, hip1]
    · simp [hne, hsn1, hsg1]
  obtain ⟨hloop, a3⟩ := entries_loop (msg := msg) m.entries hm.entries (List.range m.entries.length)
    (by simp) s4 (i1 + 4) [] (by rw [h4cfg, List.append_nil]; exact a2)
  obtain ⟨f1, f2, f3, f4, f5, f6, f7, f8⟩ := foldl_addEntry m.entries s4
  obtain ⟨g1, g2, g3, g4, g5, g6, g7, g8⟩ := foldl_addEntry_frame m.entries s4
  have hdec : decodeCssrMask s msg i = (do
      let (s', i) ← (List.range m.entries.length).foldlM (fun si _ => maskGnss msg si) (s4, i1 + 4)
      let i := if s'.cfg.has then i + 6 else i
      let s' ← modLC s' 0 fun l => { l with cstat := l.cstat ||| 1 <<< CType.mask.num }
      let s' ← modLC s' 0 fun l => l.setT0 0 .mask s'.time
      pure (s', (i : Int))) := by
    unfold decodeCssrMask
    simp only [bind, Except.bind, hh, r2]
    rfl
  rw [hdec, hloop]
  simp only [bind, Except.bind, pure, Except.pure]
  rw [g1, h4cfg]
  have hm1 : ∀ (t : St) (f : LC → LC), t.lc = l0 :: lrest →
      modLC t 0 f = .ok { t with lc := f l0 :: lrest } := by
    intro t f ht
    simp [modLC, ht]
  have hm2 : ∀ (t : St) (f : LC → LC) (x : LC), t.lc = x :: lrest →
      modLC t 0 f = .ok { t with lc := f x :: lrest } := by
    intro t f x ht
    simp [modLC, ht]
  rw [hm1 _ _ (by rw [g2, h4lc, hl])]
  simp only
  rw [hm2 _ _ _ rfl]
  simp only
  refine ⟨_, rfl_cursor ?_, ?_, ?_, ?_, ?_, ?_, ?_, ?_, ?_, ?_, ?_, ?_, ?_⟩
  · simp only [MaskMsg.size, MaskMsg.bits, List.length_append, natToBits_length, hi1]
    cases s.cfg.has <;> simp <;> omega
  · simp only [f1]
    simp [s4, MaskMsg.rows, List.map_flatten, List.map_map, Function.comp_def]
  · simp only [f6, f1]
    simp only [s4, List.nil_append, Nat.zero_add, List.length_flatten, List.map_map]
    congr 1
    apply List.map_congr_left
    intro e he
    simp [Entry.rows_length (hm.entries e he)]
  · simp only [f4]
    simp [s4, MaskMsg.rows, List.map_flatten, List.map_map, Function.comp_def]
  · simp only [f5, f4]
    simp [s4]
  · simp only [f2]
    simp only [s4, List.nil_append]
    congr 1
    apply List.map_congr_left
    intro e he
    simp [Entry.rows_length (hm.entries e he)]
  · simp only [f3]
    simp only [s4, List.nil_append]
    congr 1
    apply List.map_congr_left
    intro e he
    simp [Entry.rows_length (hm.entries e he)]
  · simp only [f7]
    simp [s4]
  · simp only [g7, h4n]
  · intro sat
    simp only [f8]
    rw [get?_foldl_set]
    simp [s4, MaskMsg.rows]
  · simp only [g3]
    exact hiod
  · simp only [g4, g5, g6]
    exact h4p
  · intro k
    cases k with
    | zero => simp [hl, LC.setT0, CType.num]
    | succ k => simp [hl]

/-! ## Converse: only well-formed messages are accepted -/

theorem readMany_ok {msg : BitBuf} {i n cnt : Nat} {vs : List Nat}
    (hi : i ≤ msg.length) (h : readMany msg i n cnt = .ok vs) :
    ∃ cs : List (List Bool), cs.length = cnt ∧ (∀ c ∈ cs, c.length = n) ∧ (n = 0 → cs = []) ∧
      At msg i cs.flatten := by
  unfold readMany at h
  split at h
  · cases h
  · rename_i hz
    have key : ∀ m vs, (List.range m).mapM (fun k => readU msg (i + n * k) n) = .ok vs →
        ∃ cs : List (List Bool), cs.length = m ∧ (∀ c ∈ cs, c.length = n) ∧ At msg i cs.flatten := by
      intro m
      induction m with
      | zero => intro vs _; exact ⟨[], rfl, by simp, At.nil hi⟩
      | succ m ih =>
        intro vs h
        rw [List.range_succ, List.mapM_append, Py.bind_ok] at h
        obtain ⟨v1, h1, h⟩ := h
        rw [Py.bind_ok] at h
        obtain ⟨v2, h2, h⟩ := h
        obtain ⟨cs, hc1, hc2, hc3⟩ := ih v1 h1
        rw [List.mapM_cons, Py.bind_ok] at h2
        obtain ⟨v3, h3, _⟩ := h2
        obtain ⟨l, hl1, _, hl3⟩ := At.bits_of_readU h3
        refine ⟨cs ++ [l], by simp [hc1], ?_, ?_⟩
        · intro c hc
          rcases List.mem_append.1 hc with hc | hc
          · exact hc2 c hc
          · rw [List.mem_singleton.1 hc]; exact hl1
        · rw [List.flatten_append, List.flatten_singleton]
          refine hc3.append ?_
          have : cs.flatten.length = n * m := by
            rw [List.length_flatten]
            have : cs.map List.length = List.replicate m n := by
              apply List.eq_replicate_iff.2
              refine ⟨by simp [hc1], ?_⟩
              intro b hb
              obtain ⟨c, hc', rfl⟩ := List.mem_map.1 hb
              exact hc2 c hc'
            rw [this, List.sum_replicate]; simp [Nat.mul_comm]
          rw [this]; exact hl3
    obtain ⟨cs, h1, h2, h3⟩ := key cnt vs h
    refine ⟨cs, h1, h2, ?_, h3⟩
    intro hn
    have : cnt = 0 := by
      by_contra hc; exact hz ⟨hn, hc⟩
    exact List.length_eq_zero_iff.1 (by omega)

theorem mapM_known {sys : Sys} {l : List Nat} {r : List Sig}
    (h : l.mapM (ssig2rsig sys .L) = .ok r) : ∀ k ∈ l, knownSig sys k := by
  induction l generalizing r with
  | nil => simp
  | cons a l ih =>
    rw [List.mapM_cons, Py.bind_ok] at h
    obtain ⟨x, hx, h⟩ := h
    rw [Py.bind_ok] at h
    obtain ⟨y, hy, _⟩ := h
    intro k hk
    rcases List.mem_cons.1 hk with rfl | hk
    · exact ⟨x, hx⟩
    · exact ih hy k hk

theorem maskGnss_complete {msg : BitBuf} {s : St} {i : Nat} {r : St × Nat}
    (h : maskGnss msg (s, i) = .ok r) :
    ∃ e : Entry, e.Valid ∧ At msg i (e.bits s.cfg.has) := by
  unfold maskGnss at h
  simp only [Py.bind_ok] at h
  obtain ⟨gnss, r1, svm, r2, sgm, r3, cma, r4, h⟩ := h
  obtain ⟨a1, hg⟩ := At.of_readU r1
  obtain ⟨sv, hsv, rfl, a2⟩ := At.bits_of_readU r2
  obtain ⟨sg, hsg, rfl, a3⟩ := At.bits_of_readU r3
  obtain ⟨cb, hcb, rfl, a4⟩ := At.bits_of_readU r4
  obtain ⟨c, rfl⟩ : ∃ c, cb = [c] := by
    match cb, hcb with
    | [c], _ => exact ⟨c, rfl⟩
  have hd1 := decodeMask_bits sv 1
  have hd2 := decodeMask_bits sg 0
  rw [hsv] at hd1
  rw [hsg] at hd2
  rw [positions_length] at hd1 hd2
  simp only [hd1, hd2] at h
  obtain ⟨vc, hvc, sigR, hsig, s2, hloop, hend⟩ := h
  have hle : i + 61 ≤ msg.length := by
    have := a4.le
    simp only [List.length_singleton] at this; omega
  have hcm : bitsToNat [c] = if c then 1 else 0 := by cases c <;> rfl
  rw [hcm] at hvc hloop hend
  obtain ⟨cells, hcsome, hcells, hcat⟩ : ∃ cells : Option (List (List Bool)),
      cells.isSome = c ∧
      (∀ cs, cells = some cs → cs.length = sv.count true ∧ (∀ c ∈ cs, c.length = sg.count true) ∧
        (sg.count true = 0 → cs = [])) ∧
      At msg (i + 61) (cells.getD []).flatten := by
    cases c with
    | false => exact ⟨Option.none, rfl, by simp, At.nil hle⟩
    | true =>
      simp only [if_true] at hvc
      obtain ⟨cs, h1, h2, h3, h4⟩ := readMany_ok hle hvc
      refine ⟨some cs, rfl, ?_, h4⟩
      intro cs' hcs'
      cases hcs'
      exact ⟨h1, h2, h3⟩
  subst hcsome
  let e0 : Entry := ⟨gnss, sv, sg, cells, 0⟩
  have he0 : e0.Valid := ⟨hg, hsv, hsg, (by decide : (0 : Nat) < 8), mapM_known hsig, hcells⟩
  -- the cell masks read are those of `e0`
  have hvc' : ∀ cs, cells = some cs → vc = cs.map bitsToNat := by
    intro cs hcs
    subst hcs
    obtain ⟨h1, h2, h3⟩ := hcells cs rfl
    have := readMany_bits (i := i + 61) h2 (by simpa using hcat) h3
    rw [h1] at this
    simp only [Option.isSome_some, if_true] at hvc
    rw [this] at hvc
    exact (Except.ok.inj hvc).symm
  have hl := maskSat_loop he0 vc hvc'
  have hsR : sigR = e0.sigs := by
    have := mapM_sigs he0
    simp only [e0] at this
    rw [this] at hsig
    exact (Except.ok.inj hsig).symm
  subst hsR
  have hl2 := hl { s with gnssIdx := s.gnssIdx ++ [gnss2sys gnss],
                          nsatG := s.nsatG.set gnss (sv.count true),
                          nsatN := s.nsatN + sv.count true,
                          nsigMax := max s.nsigMax (sg.count true) }
  have hs2 : s2.cfg = s.cfg := by
    have e : (Except.ok s2 : Py St) = _ := hloop.symm.trans hl2
    rw [addRows_eq] at e
    cases e; rfl
  have hflat : (cells.getD []).flatten.length = if cells.isSome then sg.count true * sv.count true else 0 := by
    cases cells with
    | none => rfl
    | some cs =>
      obtain ⟨h1, h2, h3⟩ := hcells cs rfl
      simp only [Option.getD_some, Option.isSome_some, if_true, List.length_flatten]
      have : cs.map List.length = List.replicate cs.length (sg.count true) := by
        apply List.eq_replicate_iff.2
        refine ⟨by simp, ?_⟩
        intro b hb
        obtain ⟨c, hc', rfl⟩ := List.mem_map.1 hb
        exact h2 c hc'
      rw [this, List.sum_replicate, h1]
      simp [Nat.mul_comm]
  rw [hs2] at hend
  have hnm : ∃ nm, nm < 8 ∧ At msg (i + 61 + (cells.getD []).flatten.length)
      (if s.cfg.has then natToBits 3 nm else []) := by
    have hcle := hcat.le
    cases hh : s.cfg.has with
    | false => exact ⟨0, by decide, At.nil hcle⟩
    | true =>
      rw [hh] at hend
      simp only [if_true, Py.bind_ok] at hend
      obtain ⟨nm, hnm, _⟩ := hend
      obtain ⟨an, hn⟩ := At.of_readU hnm
      refine ⟨nm, hn, ?_⟩
      rw [hflat]
      cases cells <;> simpa using an
  obtain ⟨nm, hnm, anm⟩ := hnm
  refine ⟨⟨gnss, sv, sg, cells, nm⟩, ⟨hg, hsv, hsg, hnm, he0.known, hcells⟩, ?_⟩
  unfold Entry.bits
  simp only
  refine a1.append ?_
  rw [natToBits_length]
  refine a2.append ?_
  rw [hsv]
  refine a3.append ?_
  rw [hsg]
  refine a4.append ?_
  exact hcat.append anm

theorem entries_complete {msg : BitBuf} : ∀ (l : List Nat) (s : St) (i : Nat) (r : St × Nat),
    i ≤ msg.length → l.foldlM (fun si _ => maskGnss msg si) (s, i) = .ok r →
    ∃ es : List Entry, es.length = l.length ∧ (∀ e ∈ es, e.Valid) ∧
      At msg i (es.map (Entry.bits s.cfg.has)).flatten
  | [], s, i, r, hi, _ => ⟨[], rfl, by simp, At.nil hi⟩
  | a :: l, s, i, r, hi, h => by
    rw [List.foldlM_cons, Py.bind_ok] at h
    obtain ⟨r1, h1, h⟩ := h
    obtain ⟨e, he, hat⟩ := maskGnss_complete h1
    obtain ⟨h2, h3⟩ := maskGnss_entry he (rest := []) (by rw [List.append_nil]; exact hat)
    rw [h1] at h2
    cases h2
    obtain ⟨es, g1, g2, g3⟩ := entries_complete l _ _ r hat.le h
    rw [addEntry_has] at g3
    refine ⟨e :: es, by simp [g1], ?_, ?_⟩
    · intro e' he'
      rcases List.mem_cons.1 he' with rfl | h'
      · exact he
      · exact g2 e' h'
    · rw [List.map_cons, List.flatten_cons]
      exact hat.append g3

/-- Every mask message the decoder accepts is a well-formed message located at the cursor; in
particular the decoder never reads past the end of the buffer. -/
theorem accepted_is_message (s : St) (msg : BitBuf) (i : Nat) (hi : i ≤ msg.length) {r : St × Int}
    (h : decodeCssrMask s msg i = .ok r) :
    ∃ m : MaskMsg, m.Valid ∧ At msg i (m.bits s.cfg.has) := by
  unfold decodeCssrMask at h
  rw [Py.bind_ok] at h
  obtain ⟨⟨s1, hd, i1⟩, hh, h⟩ := h
  simp only [Py.bind_ok] at h
  obtain ⟨n, rn, r2, hl, _⟩ := h
  obtain ⟨an, hn⟩ := At.of_readU rn
  have head : ∃ tow udi mi iod, tow < 2 ^ 20 ∧ udi < 16 ∧ mi < 2 ∧ iod < 16 ∧ s1.cfg = s.cfg ∧
      At msg i (if s.cfg.has then [] else natToBits 20 tow ++ (natToBits 4 udi ++
        (natToBits 1 mi ++ natToBits 4 iod))) ∧ i1 = i + if s.cfg.has then 0 else 29 := by
    unfold decodeHead at hh
    cases hc : s.cfg.has with
    | true =>
      rw [hc] at hh
      simp only [if_true, decodeHeadHas, bind, Except.bind, pure, Except.pure] at hh
      refine ⟨0, 0, 0, 0, by decide, by decide, by decide, by decide, ?_, At.nil hi, ?_⟩
      · cases hh
        split
        · split <;> rfl
        · rfl
      · cases hh; rfl
    | false =>
      rw [hc] at hh
      simp only [Bool.false_eq_true, if_false, decodeHeadClas, if_true, Py.bind_ok] at hh
      obtain ⟨⟨s3, i3⟩, ⟨tow, rt, h3⟩, udi, ru, mi, rm, iod, ri, h4⟩ := hh
      cases h3
      cases h4
      obtain ⟨at1, ht⟩ := At.of_readU rt
      obtain ⟨at2, hu⟩ := At.of_readU ru
      obtain ⟨at3, hm⟩ := At.of_readU rm
      obtain ⟨at4, ho⟩ := At.of_readU ri
      refine ⟨tow, udi, mi, iod, ht, hu, hm, ho, ?_, ?_, rfl⟩
      · split <;> rfl
      · refine at1.append ?_
        rw [natToBits_length]
        refine at2.append ?_
        rw [natToBits_length]
        refine at3.append ?_
        rw [natToBits_length]
        exact at4
  obtain ⟨tow, udi, mi, iod, h1, h2, h3, h4, hcfg, ah, hi1⟩ := head
  have hle : i1 + 4 ≤ msg.length := by
    have := an.le
    rwa [natToBits_length] at this
  obtain ⟨es, g1, g2, g3⟩ := entries_complete _ _ _ _ hle hl
  rw [List.length_range] at g1
  refine ⟨⟨tow, udi, mi, iod, es⟩, ⟨h1, h2, h3, h4, by simp only [g1]; exact hn, g2⟩, ?_⟩
  unfold MaskMsg.bits
  refine ah.append ?_
  have hlen : (if s.cfg.has then [] else natToBits 20 tow ++ (natToBits 4 udi ++
        (natToBits 1 mi ++ natToBits 4 iod))).length = if s.cfg.has then 0 else 29 := by
    split <;> simp
  rw [hlen, ← hi1]
  simp only [g1]
  refine an.append ?_
  rw [natToBits_length]
  have hcf : ∀ b : Bool, b = s.cfg.has → At msg (i1 + 4) (es.map (Entry.bits b)).flatten →
      At msg (i1 + 4) (es.map (Entry.bits s.cfg.has)).flatten := by
    intro b hb; rw [hb]; exact id
  refine hcf _ ?_ g3
  simp only
  split <;> exact congrArg Cfg.has hcfg

/-- Hence after any accepted message, whatever the bits and the history, the counts agree and
every listed satellite has a signal list. -/
theorem accepted_consistent (s : St) (msg : BitBuf) (i : Nat) (hi : i ≤ msg.length)
    (hlc : s.lc ≠ []) {s' : St} {j : Int} (h : decodeCssrMask s msg i = .ok (s', j)) :
    s'.nsatN = s'.satN.length ∧ s'.sysN.length = s'.nsatN ∧ s'.gnssN.length = s'.nsatN ∧
    s'.nsigN.length = s'.nsatN ∧ s'.nsigTotal = s'.nsigN.sum ∧
    (∀ sys ∈ s'.sysN, sys ∈ s'.gnssIdx) ∧
    (∀ sat, sat ∈ s'.satN ↔ (Dict.get? s'.sigN sat).isSome) ∧
    ((s'.satN).Nodup → ∀ (k : Nat) sat, s'.satN[k]? = some sat →
      (Dict.get? s'.sigN sat).map List.length = s'.nsigN[k]?) := by
  obtain ⟨m, hm, hat⟩ := accepted_is_message s msg i hi h
  obtain ⟨t, ht, c1, c2, c3, c4, c5, c6, c7, c8, c9, _⟩ := mask_decodes s m hm msg i hlc hat
  rw [h] at ht
  cases ht
  have hrl : m.rows.length = (m.entries.map Entry.nsat).sum := by
    unfold MaskMsg.rows
    rw [List.length_flatten, List.map_map]
    congr 1
    apply List.map_congr_left
    intro e he
    exact Entry.rows_length (hm.entries e he)
  have hn : s'.nsatN = m.rows.length := by rw [c2, c1, List.length_map]
  refine ⟨c2, ?_, ?_, ?_, c4, ?_, ?_, ?_⟩
  · rw [c5, List.length_flatten, List.map_map, hn, hrl]
    congr 1
    apply List.map_congr_left
    intro e _; simp
  · rw [c6, List.length_flatten, List.map_map, hn, hrl]
    congr 1
    apply List.map_congr_left
    intro e _; simp
  · rw [c3, hn, List.length_map]
  · intro sys hsys
    rw [c5] at hsys
    obtain ⟨l, hl, hs⟩ := List.mem_flatten.1 hsys
    obtain ⟨e, he, rfl⟩ := List.mem_map.1 hl
    rw [c7, (List.mem_replicate.1 hs).2]
    exact List.mem_map.2 ⟨e, he, rfl⟩
  · intro sat
    rw [c1, c9]
    unfold lastRow
    simp [List.find?_isSome]
  · intro hnd k sat hk
    rw [c1] at hk hnd
    rw [c9, c3]
    rw [List.getElem?_map] at hk ⊢
    cases hr : m.rows[k]? with
    | none => rw [hr] at hk; cases hk
    | some r =>
      rw [hr] at hk
      cases hk
      rw [lastRow_of_nodup hnd (List.mem_of_getElem? hr)]
      rfl

/-! ## Which constellation a listed satellite belongs to -/

/-- number of mask positions of each constellation code that the library has satellite numbers for -/
def slots : Nat → Nat
  | 0 => 32 | 1 => 32 | 2 => 36 | 3 => 40 | 4 => 17 | 7 => 40 | _ => 0

/-- Positions within the library's numbering: the listed satellite is the announced one. -/
theorem sat_announced (gnss p : Nat) (h1 : 1 ≤ p) (h2 : p ≤ slots gnss) :
    sat2prn (prn2sat (gnss2sys gnss) (prnOf gnss p : Nat)) = (gnss2sys gnss, (prnOf gnss p : Int)) := by
  have hg : gnss = 0 ∨ gnss = 1 ∨ gnss = 2 ∨ gnss = 3 ∨ gnss = 4 ∨ gnss = 7 := by
    by_contra hc
    have : slots gnss = 0 := by
      unfold slots; split <;> simp_all
    omega
  have key : ∀ g : Fin 8, ∀ q : Fin 41, 1 ≤ q.1 → q.1 ≤ slots g.1 →
      sat2prn (prn2sat (gnss2sys g.1) (prnOf g.1 q.1 : Nat)) = (gnss2sys g.1, (prnOf g.1 q.1 : Int)) := by
    decide +kernel
  have hp : p ≤ 40 := by
    rcases hg with rfl | rfl | rfl | rfl | rfl | rfl <;> simp only [slots] at h2 <;> omega
  exact key ⟨gnss, by omega⟩ ⟨p, by omega⟩ h1 h2

/-- Disagreement: a mask position beyond those (40 are transmitted) yields a satellite of another
constellation, and every SBAS position does: the PRN offset 119 is never added. -/
theorem foreign_satellite (gnss p : Nat) (h1 : slots gnss < p) (h2 : p ≤ 40) (hg : gnss < 16) :
    (sat2prn (prn2sat (gnss2sys gnss) (prnOf gnss p : Nat))).1 ≠ gnss2sys gnss := by
  have key : ∀ g : Fin 16, ∀ q : Fin 41, slots g.1 < q.1 →
      (sat2prn (prn2sat (gnss2sys g.1) (prnOf g.1 q.1 : Nat))).1 ≠ gnss2sys g.1 := by
    decide +kernel
  exact key ⟨gnss, hg⟩ ⟨p, by omega⟩ h1

/-- the signal names of the Compact SSR signal mask, by position -/
def sigNames : Sys → List String
  | .gps => ["L1C", "L1P", "L1W", "L1S", "L1L", "L1X", "L2S", "L2L", "L2X", "L2P", "L2W", "L5I",
      "L5Q", "L5X"]
  | .glo => ["L1C", "L1P", "L2C", "L2P", "L4A", "L4B", "L4X", "L6A", "L6B", "L6X", "L3I", "L3Q", "L3X"]
  | .gal => ["L1B", "L1C", "L1X", "L5I", "L5Q", "L5X", "L7I", "L7Q", "L7X", "L8I", "L8Q", "L8X",
      "L6B", "L6C", "L6X"]
  | .bds => ["L2I", "L2Q", "L2X", "L6I", "L6Q", "L6X", "L7I", "L7Q", "L7X", "L1D", "L1P", "L1X",
      "L5D", "L5P", "L5X"]
  | .qzs => ["L1C", "L1S", "L1L", "L1X", "L2S", "L2L", "L2X", "L5I", "L5Q", "L5X", "L6D", "L6P",
      "L6E", "L1E"]
  | .sbs => ["L1C", "L5I", "L5Q", "L5X"]
  | _ => []

/-- Every constellation code and signal position decodes to the signal of that name, with one
exception: QZSS position 2 (`L1L`) is decoded as `L1C`. -/
theorem signal_names (gnss k : Nat) :
    match (sigNames (gnss2sys gnss))[k]? with
    | Option.none => ssig2rsig (gnss2sys gnss) .L k = .error .keyError
    | some name => ∃ r, ssig2rsig (gnss2sys gnss) .L k = .ok r ∧ r.sys = gnss2sys gnss ∧ r.typ = .L ∧
        str r = (if gnss = 4 ∧ k = 2 then "L1C".toList else name.toList) := by
  by_cases hg : gnss < 8
  · by_cases hk : k < 16
    · have key : ∀ g : Fin 8, ∀ q : Fin 16,
          (match (sigNames (gnss2sys g.1))[q.1]? with
          | Option.none => decide (ssig2rsig (gnss2sys g.1) .L q.1 = .error .keyError)
          | some name => match ssig2rsig (gnss2sys g.1) .L q.1 with
            | .ok r => decide (r.sys = gnss2sys g.1 ∧ r.typ = .L ∧
                str r = (if g.1 = 4 ∧ q.1 = 2 then "L1C".toList else name.toList))
            | .error _ => false) = true := by
        decide +kernel
      have h := key ⟨gnss, hg⟩ ⟨k, hk⟩
      simp only at h
      split at h
      · exact of_decide_eq_true h
      · split at h
        · rename_i r hr
          exact ⟨r, hr, of_decide_eq_true h⟩
        · cases h
    · have key : ∀ g : Fin 8, (sigNames (gnss2sys g.1)).length ≤ 16 ∧
          ∀ t, sigTbl (gnss2sys g.1) = some t → ∀ p ∈ t, p.1 < 16 := by
        decide +kernel
      obtain ⟨h1, h2⟩ := key ⟨gnss, hg⟩
      simp only at h1 h2
      rw [List.getElem?_eq_none (by omega)]
      simp only [ssig2rsig]
      split
      · rfl
      · rename_i t ht
        have : Dict.get? t k = Option.none := by
          unfold Dict.get?
          rw [List.find?_eq_none.2]
          · rfl
          · intro p hp hpk
            have := h2 t ht p hp
            have : p.1 = k := by simpa using hpk
            omega
        rw [this]
  · have : gnss2sys gnss = .none := by
      unfold gnss2sys; split <;> first | omega | rfl
    rw [this]
    simp [sigNames, ssig2rsig, sigTbl]

/-- the mask of one GPS satellite (PRN 3) with signals L1C, L2W and one Galileo satellite (PRN 36)
with L1C, L5Q and a cell mask selecting only L5Q -/
def demo : MaskMsg :=
  ⟨1234, 0, 0, 5,
   [⟨0, [false, false, true] ++ List.replicate 37 false,
      [true, false, false, false, false, false, false, false, false, false, true, false, false,
        false, false, false], Option.none, 0⟩,
    ⟨2, List.replicate 35 false ++ [true, false, false, false, false],
      [false, true, false, false, true, false, false, false, false, false, false, false, false,
        false, false, false], some [[false, true]], 0⟩]⟩

example : demo.Valid ∧ demo.rows.map (·.1) = [3, 68] ∧
    demo.rows.map (·.2) = [[⟨.gps, .L, 103⟩, ⟨.gps, .L, 223⟩], [⟨.gal, .L, 517⟩]] := by
  refine ⟨⟨by decide, by decide, by decide, by decide, by decide, ?_⟩, by decide, by decide⟩
  intro e he
  simp only [demo, List.mem_cons, List.not_mem_nil, or_false] at he
  rcases he with rfl | rfl
  · refine ⟨by decide, by decide, by decide, by decide, ?_, by simp⟩
    intro k hk
    have : k = 0 ∨ k = 10 := by
      have h : positions 0 [true, false, false, false, false, false, false, false, false, false,
        true, false, false, false, false, false] = [0, 10] := by decide
      rw [h] at hk; simpa using hk
    rcases this with rfl | rfl
    · exact ⟨⟨.gps, .L, 103⟩, by decide⟩
    · exact ⟨⟨.gps, .L, 223⟩, by decide⟩
  · refine ⟨by decide, by decide, by decide, by decide, ?_, ?_⟩
    · intro k hk
      have : k = 1 ∨ k = 4 := by
        have h : positions 0 [false, true, false, false, true, false, false, false, false, false,
          false, false, false, false, false, false] = [1, 4] := by decide
        rw [h] at hk; simpa using hk
      rcases this with rfl | rfl
      · exact ⟨⟨.gal, .L, 103⟩, by decide⟩
      · exact ⟨⟨.gal, .L, 517⟩, by decide⟩
    · intro cs hcs
      cases hcs
      decide

end Verif.C11
