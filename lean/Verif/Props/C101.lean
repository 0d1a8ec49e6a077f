import Verif.Model.RtcmAnt
import Verif.Props.C98
/-!
C101: RTCM messages of satellite antennas, extended phase biases and ionosphere maps.
-/

namespace Verif.C101
open Verif.RtcmAnt Verif.RtcmInteg Verif.Sat Verif.Sval Verif.Mask Verif.Time Verif.C98
open Verif.RtcmSsr (Dec decodeHeadTime svid2sat)
open Verif.Cssr (positions)

local macro "norm" " at " h:ident : tactic =>
  `(tactic| simp only [List.map_cons, List.map_nil, F.fmt, F.val, List.sum_cons, List.sum_nil, Nat.add_zero, Nat.add_assoc, Nat.reduceAdd] at $h:ident)

/-! ### satellite antennas: specification -/

/-- an n-bit number of millimetres in metres; the lowest number means that there is no value -/
def metres (n : Nat) (v : Int) : Val := if v = -2 ^ (n - 1) then none else some ((v : ℚ) / 1000)

/-- corrections of one frequency: at nadir, and by angle -/
structure FreqC where
  nadir : Option Int
  angles : List Int

structure SatC where
  single : Nat
  mask : List Bool
  freqs : List (Nat × FreqC)

/-- `ext`: largest angle and range extension, in messages with corrections by angle -/
structure MsgC where
  pid : Nat
  iod : Nat
  pci : Nat
  gdi : Nat
  ext : Option (Nat × Nat)
  single : Nat
  mask : List Bool
  sats : List (Nat × SatC)

def FreqC.Fit (e : Option (Nat × Nat)) (c : FreqC) : Prop :=
  (∀ v ∈ c.nadir, (F.s 12 v).Fit) ∧
  ∀ x ∈ e, c.angles.length = x.2 + 1 ∧ ∀ v ∈ c.angles, (F.s (3 + x.2) v).Fit

def SatC.Fit (e : Option (Nat × Nat)) (c : SatC) : Prop :=
  c.single < 2 ^ 1 ∧ c.mask.length = 6 ∧ c.freqs.map Prod.fst = positions 0 c.mask ∧ ∀ x ∈ c.freqs, x.2.Fit e

def MsgC.Fit (c : MsgC) : Prop :=
  c.pid < 2 ^ 16 ∧ c.iod < 2 ^ 6 ∧ c.pci < 2 ^ 1 ∧ c.gdi < 2 ^ 1 ∧ (∀ x ∈ c.ext, x.1 < 2 ^ 5 ∧ x.2 < 2 ^ 4) ∧ c.single < 2 ^ 1 ∧
  c.mask.length = 64 ∧ SatsOf c.mask c.sats (SatC.Fit c.ext)

/-- a flag, and the correction if there is one -/
def nadirBits : Option Int → List Bool
  | none => fb [.u 1 0]
  | some v => fb [.u 1 1, .s 12 v]

/-- the corrections by angle, in messages that have them -/
def angleBits (l : List Int) : Option (Nat × Nat) → List Bool
  | none => []
  | some (_, x) => cat (fun v => fb [.s (3 + x) v]) l

def extBits : Option (Nat × Nat) → List Bool
  | none => []
  | some (a, x) => fb [.u 5 a, .u 4 x]

def FreqC.bits (e : Option (Nat × Nat)) (c : FreqC) : List Bool :=
  nadirBits c.nadir ++ angleBits c.angles e

def SatC.bits (e : Option (Nat × Nat)) (c : SatC) : List Bool :=
  fb [.u 1 c.single, .m 6 c.mask] ++ cat (fun x => x.2.bits e) c.freqs

def MsgC.bits (c : MsgC) : List Bool :=
  fb [.u 16 c.pid, .u 6 c.iod, .u 1 c.pci, .u 1 c.gdi, .u 1 (if c.ext.isSome then 1 else 0)] ++
  (extBits c.ext ++
  (fb [.u 1 c.single, .m 64 c.mask] ++ cat (fun x => x.2.bits c.ext) c.sats))

def FreqC.val (e : Option (Nat × Nat)) (c : FreqC) : Corr :=
  ⟨c.nadir.map (metres 12), e.map fun x => c.angles.map (metres (3 + x.2))⟩

def SatC.val (e : Option (Nat × Nat)) (c : SatC) : List (Nat × Corr) := c.freqs.map fun x => (x.1, x.2.val e)

def MsgC.val (sys : Sys) (c : MsgC) : List (Int × List (Nat × Corr)) := c.sats.map fun x => (number sys x.1, x.2.val c.ext)

/-! ### satellite antennas: proofs -/

theorem metres_eq (n : Nat) (v : Int) : sval v n (1 / 1000) = metres n v := by
  unfold sval metres; split_ifs <;> simp [div_eq_mul_inv]

theorem nadir_rd {b : BitBuf} (v : Option Int) (h : ∀ x ∈ v, (F.s 12 x).Fit) :
    Rd b (nadir b) (nadirBits v) (v.map (metres 12)) := by
  intro i hat
  cases v with
  | none =>
    obtain ⟨e1, -⟩ := flds_at [.u 1 0] (m := []) (by simp [F.Fit]) (by simpa [nadirBits] using hat)
    norm at e1
    simp only [nadir, us, List.map_cons, List.map_nil, e1, Py.okBind, el, List.getD_cons_zero]
    rfl
  | some v =>
    have hv := h v rfl
    obtain ⟨e1, r1⟩ := flds_at [.u 1 1] (m := fb [.s 12 v]) (by simp [F.Fit]) (by simpa [fb, nadirBits] using hat)
    obtain ⟨e2, -⟩ := flds_at [.s 12 v] (m := []) (by simpa using hv) (by simpa using r1)
    norm at e1; norm at e2
    simp only [nadir, us, List.map_cons, List.map_nil, e1, Py.okBind, el, List.getD_cons_zero, e2, metres_eq]
    simp only [Nat.cast_one, if_true, Option.map_some, nadirBits, fb, F.bits, List.flatMap_cons, List.flatMap_nil, List.length_append,
      natToBits_length, List.length_nil]
    rfl

theorem angle_rd {b : BitBuf} (n : Nat) (v : Int) (h : (F.s n v).Fit) : Rd b (angle n b) (fb [.s n v]) (metres n v) := by
  intro i hat
  obtain ⟨e1, -⟩ := flds_at [.s n v] (m := []) (by simpa using h) (by simpa using hat)
  norm at e1
  simp only [angle, e1, Py.okBind, el, List.getD_cons_zero, metres_eq]
  simp only [fb, F.bits, List.flatMap_cons, List.flatMap_nil, List.length_append, natToBits_length, List.length_nil]
  rfl

theorem angles_rd {b : BitBuf} (e : Option (Nat × Nat)) (l : List Int)
    (h : ∀ x ∈ e, l.length = x.2 + 1 ∧ ∀ v ∈ l, (F.s (3 + x.2) v).Fit) :
    Rd b (angles (e.map Prod.snd) b) (angleBits l e) (e.map fun x => l.map (metres (3 + x.2))) := by
  intro i hat
  cases e with
  | none => rfl
  | some x =>
    obtain ⟨h1, h2⟩ := h x rfl
    have := rows_rd (b := b) (f := angle (3 + x.2) b) (bits := fun v => fb [.s (3 + x.2) v]) (val := metres (3 + x.2)) (l := l)
      (fun v hv => angle_rd _ v (h2 v hv)) i hat
    rw [h1] at this
    simp only [angles, Option.map_some, this, Py.okBind]
    rfl

theorem freq_rd {b : BitBuf} (e : Option (Nat × Nat)) (k : Nat) (c : FreqC) (h : c.Fit e) :
    Rd b (antFreq (e.map Prod.snd) b k) (c.bits e) (c.val e) := by
  intro i hat
  have h1 := nadir_rd (b := b) c.nadir h.1 i hat.head
  have h2 := angles_rd (b := b) e c.angles h.2 _ hat.tail
  simp only [antFreq, h1, Py.okBind, h2, FreqC.bits, List.length_append, Nat.add_assoc]
  rfl

theorem sat_rd {b : BitBuf} (e : Option (Nat × Nat)) (c : SatC) (h : c.Fit e) :
    Rd b (antSat (e.map Prod.snd) b) (c.bits e) (c.val e) := by
  intro i hat
  obtain ⟨f1, f2, f3, f4⟩ := h
  have hl : (c.bits e).length = 7 + (cat (fun x => FreqC.bits e x.2) c.freqs).length := by
    simp [SatC.bits, fb, F.bits, f2]; omega
  obtain ⟨e1, r1⟩ := flds_at [.u 1 c.single, .m 6 c.mask] (by simp [F.Fit]; exact ⟨by simpa using f1, f2⟩) hat
  norm at e1; norm at r1
  have e2 := each_rd (b := b) (f := antFreq (e.map Prod.snd) b) (bits := FreqC.bits e) (l := c.freqs)
    (val := fun x => x.2.val e) (fun x hx => freq_rd e x.1 x.2 (f4 x hx)) _ r1
  simp only [antSat, us, List.map_cons, List.map_nil, e1, Py.okBind, el, List.getD_cons_zero, List.getD_cons_succ, maskOf_bits f2,
    ← f3, e2, hl, Nat.add_assoc]
  rfl

theorem ext_rd {b : BitBuf} (e : Option (Nat × Nat)) (h : ∀ x ∈ e, x.1 < 2 ^ 5 ∧ x.2 < 2 ^ 4) :
    Rd b (antExt e.isSome b) (extBits e) (e.map Prod.snd) := by
  intro i hat
  cases e with
  | none => rfl
  | some x =>
    obtain ⟨h1, h2⟩ := h x rfl
    obtain ⟨e1, -⟩ := flds_at [.u 5 x.1, .u 4 x.2] (m := []) (by simp [F.Fit]; omega) (by simpa [extBits] using hat)
    norm at e1
    simp only [antExt, Option.isSome_some, if_true, us, List.map_cons, List.map_nil, e1, Py.okBind, el, List.getD_cons_zero,
      List.getD_cons_succ, Int.toNat_natCast, extBits, fb, F.bits, List.flatMap_cons, List.flatMap_nil, List.length_append,
      natToBits_length, List.length_nil, Option.map_some]
    rfl

/-- **satellite antennas** are read as sent, by satellite and frequency, wherever the message lies -/
theorem satellite_antennas {sys : Sys} (hs : sys ≠ .sbs) {c : MsgC} (hc : c.Fit) {b : BitBuf} :
    Rd b (decodeSatant sys b) c.bits (c.val sys) := by
  intro i hat
  obtain ⟨f1, f2, f3, f4, f5, f6, f7, f8⟩ := hc
  obtain ⟨e1, r1⟩ := flds_at [.u 16 c.pid, .u 6 c.iod, .u 1 c.pci, .u 1 c.gdi, .u 1 (if c.ext.isSome then 1 else 0)]
    (by
      intro x hx
      simp only [List.mem_cons, List.not_mem_nil, or_false] at hx
      rcases hx with rfl | rfl | rfl | rfl | rfl
      · exact f1
      · exact f2
      · exact f3
      · exact f4
      · simp only [F.Fit]; split <;> omega) hat
  norm at e1; norm at r1
  have e2 := ext_rd (b := b) c.ext f5 _ r1.head
  obtain ⟨e3, r3⟩ := flds_at [.u 1 c.single, .m 64 c.mask] (by simp [F.Fit]; exact ⟨by simpa using f6, f7⟩) r1.tail
  norm at e3; norm at r3
  have e4 := sats_rd hs (fun x => sat_rd (b := b) c.ext x) f8 _ r3
  have hb : decide (((if c.ext.isSome then 1 else 0 : Nat) : Int) = 1) = c.ext.isSome := by
    cases c.ext <;> rfl
  have hl : c.bits.length = 25 + ((extBits c.ext).length + (65 + (cat (fun x => SatC.bits c.ext x.2) c.sats).length)) := by
    simp [MsgC.bits, fb, F.bits, f7]; omega
  simp only [decodeSatant, us, List.map_cons, List.map_nil, e1, Py.okBind, el, List.getD_cons_zero, List.getD_cons_succ, hb, e2, e3,
    maskOf_bits f7, Nat.add_assoc, e4, hl]
  rfl

/-- the constellation of a message type -/
theorem types : antSys 80 = .ok .gps ∧ antSys 81 = .ok .glo ∧ antSys 82 = .ok .gal ∧ antSys 83 = .ok .bds ∧ antSys 84 = .ok .qzs :=
  ⟨rfl, rfl, rfl, rfl, rfl⟩

/-- what is known about a frequency of a satellite -/
def look (a : Dict Int (Dict Nat Corr)) (s : Int) (f : Nat) : Option Corr := (a.get? s).bind (Dict.get? · f)

theorem freqs_get : ∀ (l : List (Nat × Corr)) (d : Dict Nat Corr) (f : Nat), (l.map Prod.fst).Nodup →
    (l.foldl (fun d y => d.set y.1 y.2) d).get? f = ((l.find? fun x => x.1 = f).map (·.2)).or (d.get? f)
  | [], d, f, _ => by simp
  | x :: l, d, f, h => by
    rw [List.map_cons, List.nodup_cons] at h
    rw [List.foldl_cons, freqs_get l _ f h.2]
    by_cases e : x.1 = f
    · subst e
      have : l.find? (fun y => y.1 = x.1) = none := List.find?_eq_none.2 fun y hy => by
        have : y.1 ≠ x.1 := fun e => h.1 (e ▸ List.mem_map_of_mem hy)
        simpa using this
      rw [this]
      simp
    · rw [Dict.get?_set_ne _ _ (fun h => e h.symm), List.find?_cons]
      simp [e]

/-- **storing**: the frequencies of a message are replaced; everything else is kept, also other frequencies of the same satellite -/
theorem stored : ∀ (l : List (Int × List (Nat × Corr))) (a : Dict Int (Dict Nat Corr)) (s : Int) (f : Nat), (l.map Prod.fst).Nodup →
    (∀ x ∈ l, (x.2.map Prod.fst).Nodup) →
    look (store a l) s f = (((l.find? fun x => x.1 = s).bind fun x => (x.2.find? fun y => y.1 = f).map (·.2))).or (look a s f)
  | [], a, s, f, _, _ => by simp [store]
  | x :: l, a, s, f, h, h2 => by
    rw [List.map_cons, List.nodup_cons] at h
    have ih := stored l (a.set x.1 (x.2.foldl (fun d y => d.set y.1 y.2) ((a.get? x.1).getD []))) s f h.2
      (fun y hy => h2 y (.tail _ hy))
    change look (store _ l) s f = _
    rw [ih]
    by_cases e : x.1 = s
    · subst e
      have : l.find? (fun y => y.1 = x.1) = none := List.find?_eq_none.2 fun y hy => by
        have : y.1 ≠ x.1 := fun e => h.1 (e ▸ List.mem_map_of_mem hy)
        simpa using this
      rw [this, look, Dict.get?_set_self]
      simp only [Option.bind_none, Option.none_or, Option.bind_some, freqs_get _ _ _ (h2 x (.head _)), List.find?_cons, decide_true]
      congr 1
      unfold look
      cases a.get? x.1 <;> rfl
    · rw [look, Dict.get?_set_ne _ _ (fun h => e h.symm), List.find?_cons]
      simp [e, look]

/-- there is no check of the number: bit 33 of a GPS mask is stored as the first Galileo satellite -/
theorem beyond : number .gps 33 = number .gal 1 := by decide

/-! ### extended phase biases -/

theorem read_any {b : BitBuf} {i n : Nat} (h : i + n ≤ b.length) : readU b i n = .ok (bitsToNat ((b.drop i).take n)) :=
  (At.of_le h).readU_bits (by rw [List.length_take, List.length_drop]; omega)

theorem flds_ok {b : BitBuf} : ∀ (l : List Nat) (i : Nat), i + l.sum ≤ b.length → ∃ v, flds b i (us l) = .ok v
  | [], _, _ => ⟨[], rfl⟩
  | n :: l, i, h => by
    have h : i + (n + l.sum) ≤ b.length := by simpa using h
    obtain ⟨v, hv⟩ := flds_ok (b := b) l (i + n) (by omega)
    have hr := read_any (b := b) (i := i) (n := n) (by omega)
    have e : flds b i (us (n :: l)) = ((readU b i n).map Int.ofNat >>= fun x => flds b (i + n) (us l) >>= fun r => .ok (x :: r)) := rfl
    rw [e, hr]
    refine ⟨(bitsToNat ((b.drop i).take n) : Int) :: v, ?_⟩
    rw [show (Except.map Int.ofNat (Except.ok (bitsToNat ((b.drop i).take n))) : Py Int) = .ok (bitsToNat ((b.drop i).take n) : Int) from rfl,
      Py.okBind, hv, Py.okBind]

theorem time_ok (d : Dec) (sys : Sys) (b : BitBuf) (i : Nat) (h : i + 20 ≤ b.length) :
    ∃ d' j, decodeHeadTime d sys b i = .ok (d', j) ∧ j ≤ i + 20 := by
  have h17 := read_any (b := b) (i := i) (n := 17) (by omega)
  have h20 := read_any (b := b) (i := i) (n := 20) (by omega)
  unfold decodeHeadTime
  split
  · rw [h17]
    exact ⟨_, _, rfl, by omega⟩
  · rw [h20]
    exact ⟨_, _, rfl, by omega⟩

theorem headEx_err (d : Dec) (sys : Sys) (b : BitBuf) (i : Nat) :
    ∃ e, headEx d sys b i = .error e ∧ (i + 44 ≤ b.length → e = .unboundLocal) := by
  unfold headEx
  cases h1 : decodeHeadTime d sys b i with
  | error e =>
    refine ⟨e, rfl, fun h => ?_⟩
    obtain ⟨d', j, h2, _⟩ := time_ok d sys b i (by omega)
    rw [h1] at h2; cases h2
  | ok x =>
    obtain ⟨d', j⟩ := x
    rw [Py.okBind]
    change ∃ e, (flds b j (us [4, 16, 4]) >>= fun _ => .error .unboundLocal) = .error e ∧ _
    cases h3 : flds b j (us [4, 16, 4]) with
    | error e =>
      refine ⟨e, rfl, fun h => ?_⟩
      obtain ⟨d'', j', h2, h4⟩ := time_ok d sys b i (by omega)
      rw [h1] at h2
      cases h2
      obtain ⟨v, hv⟩ := flds_ok (b := b) [4, 16, 4] j (by simp; omega)
      rw [h3] at hv; cases hv
    | ok v => exact ⟨_, rfl, fun _ => rfl⟩

/-- **extended phase biases are never decoded**: a complete header raises an exception, whatever follows -/
theorem extended_biases (d : Dec) (x : Nat) (pb : List (Int × List Nat)) (sys : Sys) (b : BitBuf) (i : Nat) :
    (∀ r, decodePbiasEx d x pb sys b i ≠ .ok r) ∧
    (i + 44 ≤ b.length → decodePbiasEx d x pb sys b i = .error .unboundLocal) := by
  obtain ⟨e, h1, h2⟩ := headEx_err d sys b i
  have : decodePbiasEx d x pb sys b i = .error e := by
    unfold decodePbiasEx
    rw [h1, Py.errBind]
  rw [this]
  refine ⟨fun r h => ?_, fun h => ?_⟩
  · cases h
  · rw [h2 h]

/-! ### ionosphere maps -/

/-- header of a map; `layers`: the number in the message, which is one less than the number of layers -/
structure MapC where
  tow : Nat
  udi : Nat
  mi : Nat
  iod : Nat
  pid : Nat
  sid : Nat
  quality : Nat
  layers : Nat

def MapC.Fit (c : MapC) : Prop :=
  c.tow < 2 ^ 20 ∧ c.udi < 2 ^ 4 ∧ c.mi < 2 ^ 1 ∧ c.iod < 2 ^ 4 ∧ c.pid < 2 ^ 16 ∧ c.sid < 2 ^ 4 ∧ c.quality < 2 ^ 9 ∧ c.layers < 2 ^ 2

def MapC.bits (c : MapC) : List Bool :=
  fb [.u 20 c.tow] ++ (fb [.u 4 c.udi, .u 1 c.mi, .u 4 c.iod, .u 16 c.pid, .u 4 c.sid] ++ fb [.u 9 c.quality, .u 2 c.layers])

theorem map_head {c : MapC} (hc : c.Fit) {d : Dec} {t0 : Dict Int T0} {b : BitBuf} {i : Nat} (hat : At b i c.bits) :
    decodeVtec d t0 b i = (layers c.layers b (i + 60) >>= fun j =>
      setT0 (t0.set 10 (.time (gpst2time d.week c.tow))) 0 10 (gpst2time d.week c.tow) >>= fun t =>
        .ok ({ d with tow := c.tow, time := gpst2time d.week c.tow, pid := c.pid, sid := c.sid }, (c.iod : Int), t, j)) := by
  obtain ⟨f1, f2, f3, f4, f5, f6, f7, f8⟩ := hc
  have hat1 : At b i (natToBits 20 c.tow ++
      (fb [.u 4 c.udi, .u 1 c.mi, .u 4 c.iod, .u 16 c.pid, .u 4 c.sid] ++ fb [.u 9 c.quality, .u 2 c.layers])) := by
    simpa [MapC.bits, fb, F.bits] using hat
  obtain ⟨e0, r0⟩ := hat1.step f1
  obtain ⟨e1, r1⟩ := flds_at [.u 4 c.udi, .u 1 c.mi, .u 4 c.iod, .u 16 c.pid, .u 4 c.sid]
    (by simp [F.Fit]; refine ⟨f2, ?_, f4, f5, f6⟩; simpa using f3) r0
  obtain ⟨e2, -⟩ := flds_at [.u 9 c.quality, .u 2 c.layers] (m := []) (by simp [F.Fit]; exact ⟨f7, f8⟩) (by simpa using r1)
  norm at e1; norm at e2
  have e3 : decodeHeadTime d .none b i = .ok ({ d with tow := c.tow, time := gpst2time d.week c.tow }, i + 20) := by
    unfold decodeHeadTime
    rw [if_neg (by simp), e0]
    rfl
  simp only [decodeVtec, e3, Py.okBind, us, List.map_cons, List.map_nil, e1, Nat.add_assoc, Nat.reduceAdd, e2, el, List.getD_cons_zero,
    List.getD_cons_succ, Int.toNat_natCast]
  rfl

/-- **a map of more than one layer raises an exception** -/
theorem map_fails {c : MapC} (hc : c.Fit) (hl : 0 < c.layers) (d : Dec) (t0 : Dict Int T0) {b : BitBuf} {i : Nat} (hat : At b i c.bits)
    (hlen : i + 92 ≤ b.length) : decodeVtec d t0 b i = .error .typeError := by
  rw [map_head hc hat, layers, if_neg (by omega)]
  obtain ⟨v, hv⟩ := flds_ok (b := b) [8, 4, 4] (i + 60) (by simp; omega)
  have hr := read_any (b := b) (i := i + 60 + 16) (n := 16) (by omega)
  have hs : ∃ w, flds b (i + 60 + 16) [(16, true)] = .ok w := by
    unfold flds
    rw [if_pos rfl]
    unfold readS
    rw [hr]
    exact ⟨_, rfl⟩
  obtain ⟨w, hw⟩ := hs
  rw [hv, Py.okBind, hw]
  rfl

/-- **a map of one layer**: nothing of the layer is read; the time is stored under key 10, which is the number of satellite G10 -/
theorem map_one {c : MapC} (hc : c.Fit) (hl : c.layers = 0) (d : Dec) {t0 : Dict Int T0} (h0 : ∀ t, t0.get? 0 ≠ some (.time t))
    {b : BitBuf} {i : Nat} (hat : At b i c.bits) :
    ∃ d' t, decodeVtec d t0 b i = .ok (d', (c.iod : Int), t, i + c.bits.length) ∧ d'.time = gpst2time d.week c.tow ∧
      t.get? 10 = some (.time (gpst2time d.week c.tow)) ∧ ∀ s, s ≠ 0 → s ≠ 10 → t.get? s = t0.get? s := by
  have hb : c.bits.length = 60 := by simp [MapC.bits, fb, F.bits]
  rw [map_head hc hat, layers, if_pos (by simp [hl]), hb]
  change ∃ d' t, (setT0 _ 0 10 _ >>= fun t => _) = _ ∧ _
  have key : ∃ r, setT0 (t0.set 10 (.time (gpst2time d.week c.tow))) 0 10 (gpst2time d.week c.tow) =
      .ok ((t0.set 10 (.time (gpst2time d.week c.tow))).set 0 (.row r)) := by
    unfold setT0
    rw [Dict.get?_set_ne _ _ (by decide)]
    cases h : t0.get? 0 with
    | none => exact ⟨_, rfl⟩
    | some x =>
      cases x with
      | row r => exact ⟨_, rfl⟩
      | time t => exact absurd h (h0 t)
  obtain ⟨r, hr⟩ := key
  rw [hr, Py.okBind]
  refine ⟨_, _, rfl, rfl, ?_, fun s h1 h2 => ?_⟩
  · rw [Dict.get?_set_ne _ _ (by decide), Dict.get?_set_self]
  · rw [Dict.get?_set_ne _ _ h1, Dict.get?_set_ne _ _ h2]

/-- **then every correction of satellite G10 raises an exception**; other satellites go on -/
theorem satellite_ten {t : Dict Int T0} {x : GTime} (h : t.get? 10 = some (.time x)) (c : Nat) (y : GTime) :
    setT0 t (prn2sat .gps 10) c y = .error .typeError := by
  have : prn2sat .gps 10 = 10 := by decide
  rw [this]
  unfold setT0
  rw [h]

theorem satellite_other {t : Dict Int T0} {s : Int} (h : ∀ x, t.get? s ≠ some (.time x)) (c : Nat) (y : GTime) :
    ∃ t' r, setT0 t s c y = .ok t' ∧ t'.get? s = some (.row r) ∧ r.get? c = some y ∧ ∀ s', s' ≠ s → t'.get? s' = t.get? s' := by
  unfold setT0
  cases e : t.get? s with
  | none => exact ⟨_, _, rfl, Dict.get?_set_self _ _ _, Dict.get?_set_self _ _ _, fun s' h => Dict.get?_set_ne _ _ h⟩
  | some x =>
    cases x with
    | row r => exact ⟨_, _, rfl, Dict.get?_set_self _ _ _, Dict.get?_set_self _ _ _, fun s' h => Dict.get?_set_ne _ _ h⟩
    | time t => exact absurd e (h t)

/-! ### examples -/

def exMsg : MsgC where
  pid := 5
  iod := 3
  pci := 1
  gdi := 0
  ext := some (14, 2)
  single := 1
  mask := [false, true] ++ List.replicate 62 false
  sats := [(2, ⟨1, [true, false, true, false, false, false], [(0, ⟨some 1250, [1, -2, -16]⟩), (2, ⟨none, [0, 15, 3]⟩)]⟩)]

example : exMsg.Fit := by
  unfold MsgC.Fit SatsOf SatC.Fit FreqC.Fit exMsg
  simp only [F.Fit]
  decide +kernel

/-- the lowest number is "no value" -/
example : exMsg.val .gps = [(2, [(0, ⟨some (some (5 / 4)), some [some (1 / 1000), some (-2 / 1000), none]⟩),
    (2, ⟨none, some [some 0, some (15 / 1000), some (3 / 1000)]⟩)])] := by decide +kernel

example : (decodeSatant .gps (exMsg.bits ++ [true]) 0).toOption.map (·.1) = some (exMsg.val .gps) := by decide +kernel

def exMap : MapC := ⟨1000, 2, 0, 7, 100, 1, 3, 0⟩

example : exMap.Fit := by unfold MapC.Fit exMap; decide

example : (decodeVtec { week := 2300 } [] exMap.bits 0).toOption.map (fun r => (r.2.2.1.get? 10).isSome) = some true := by decide +kernel

end Verif.C101
