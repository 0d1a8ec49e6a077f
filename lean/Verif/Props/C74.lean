import Verif.Model.RtcmSta
import Verif.Lemmas.Read
import Verif.Lemmas.At
import Mathlib.Tactic.Linarith
/-!
# C74 RTCM station messages

Identity, position, antenna and receiver descriptions, GLONASS biases and text messages.
-/

namespace Verif.C74
open Verif.RtcmSta

/-! ## Specification -/

/-- a field of `w` bits -/
abbrev u (w v : Nat) : List Bool := natToBits w v
/-- a field in two's complement -/
abbrev sg (w : Nat) (v : Int) : List Bool := natToBits w (ofSigned w v)
/-- a text: its number of bytes and the bytes -/
def bytes (t : List Nat) : List Bool := t.flatMap (natToBits 8)
def txt (t : List Nat) : List Bool := u 8 t.length ++ bytes t

def IsText (t : List Nat) : Prop := t.length < 256 ∧ ∀ x ∈ t, x < 256

instance (t : List Nat) : Decidable (IsText t) := inferInstanceAs (Decidable (_ ∧ _))

/-- the 36 bits before the data: frame header and message number -/
abbrev start : Nat := 36

/-- what an antenna or receiver message tells -/
structure Ant where
  refid : Nat
  desc : List Nat
  id : Nat
  serial : List Nat := []
  rcv : List Nat := []
  firm : List Nat := []
  rserial : List Nat := []

structure Ant.Ok (a : Ant) : Prop where
  refid : a.refid < 2 ^ 12
  desc : IsText a.desc
  id : a.id < 2 ^ 8
  serial : IsText a.serial
  rcv : IsText a.rcv
  firm : IsText a.firm
  rserial : IsText a.rserial

/-- message 1007: antenna descriptor -/
def m1007 (a : Ant) : List Bool := u 12 a.refid ++ txt a.desc ++ u 8 a.id
/-- message 1008: with the serial number -/
def m1008 (a : Ant) : List Bool := m1007 a ++ txt a.serial
/-- message 1033: with the receiver -/
def m1033 (a : Ant) : List Bool := m1008 a ++ (txt a.rcv ++ (txt a.firm ++ txt a.rserial))

/-- what a position message tells; coordinates in units of 0.1 mm -/
structure Pos where
  refid : Nat
  itrf : Nat
  /-- GPS, GLONASS, Galileo available -/
  gnss : Nat
  /-- not a physical station -/
  virtual : Bool
  osc : Nat
  quarter : Nat
  x : Int
  y : Int
  z : Int
  height : Nat := 0
  physid : Nat := 0

def InS (w : Nat) (v : Int) : Prop := -(2 ^ (w - 1) : Int) ≤ v ∧ v < 2 ^ (w - 1)

instance (w : Nat) (v : Int) : Decidable (InS w v) := inferInstanceAs (Decidable (_ ∧ _))

structure Pos.Ok (p : Pos) : Prop where
  refid : p.refid < 2 ^ 12
  itrf : p.itrf < 2 ^ 6
  gnss : p.gnss < 2 ^ 3
  osc : p.osc < 2 ^ 2
  quarter : p.quarter < 2 ^ 2
  x : InS 38 p.x
  y : InS 38 p.y
  z : InS 38 p.z
  height : p.height < 2 ^ 16
  physid : p.physid < 2 ^ 12

/-- message 1005; the oscillator indicator and a reserved bit follow x, the quarter-cycle indicator y -/
def m1005 (p : Pos) : List Bool :=
  u 12 p.refid ++ (u 6 p.itrf ++ (u 3 p.gnss ++ (u 1 p.virtual.toNat ++ (sg 38 p.x ++ (u 2 p.osc ++ (sg 38 p.y ++
    (u 2 p.quarter ++ sg 38 p.z)))))))
/-- message 1006: with the antenna height -/
def m1006 (p : Pos) : List Bool := m1005 p ++ u 16 p.height
/-- message 1032: physical reference station -/
def m1032 (p : Pos) : List Bool :=
  u 12 p.physid ++ (u 12 p.refid ++ (u 6 p.itrf ++ (sg 38 p.x ++ (sg 38 p.y ++ sg 38 p.z))))

/-- the position in metres -/
def Pos.metres (p : Pos) : ℚ × ℚ × ℚ := (p.x / 10000, p.y / 10000, p.z / 10000)

/-- message 1230: the biases that are given, in the order L1 C/A, L1 P, L2 C/A, L2 P -/
def m1230 (refid ind rsv : Nat) (v : List (Option Int)) : List Bool :=
  u 12 refid ++ (u 1 ind ++ (u 3 rsv ++ (v.map (·.isSome) ++ v.flatMap fun o => o.elim [] (sg 16))))

/-- message 1029 -/
def m1029 (refid mjd sod nch : Nat) (t : List Nat) : List Bool :=
  u 12 refid ++ (u 16 mjd ++ (u 17 sod ++ (u 7 nch ++ txt t)))

/-! ## Texts -/

theorem bytes_length (t : List Nat) : (bytes t).length = 8 * t.length := by
  induction t with
  | nil => rfl
  | cons a t ih =>
    show (natToBits 8 a ++ bytes t).length = _
    rw [List.length_append, natToBits_length, ih, List.length_cons]
    omega

theorem txt_length (t : List Nat) : (txt t).length = 8 + 8 * t.length := by
  show (natToBits 8 t.length ++ bytes t).length = _
  rw [List.length_append, natToBits_length, bytes_length]

theorem slice_bytes {b : BitBuf} : ∀ (t : List Nat) (j : Nat), At b (8 * j) (bytes t) → (∀ x ∈ t, x < 256) →
    slice b j t.length = t := by
  intro t
  induction t with
  | nil => intro j _ _; rfl
  | cons a t ih =>
    intro j h ht
    have h' : At b (8 * j) (natToBits 8 a ++ bytes t) := h
    obtain ⟨hr, hA⟩ := h'.step (ht a (by simp))
    have hle := h'.head.le
    rw [natToBits_length] at hle
    have hi := ih (j + 1) (by rwa [show 8 * (j + 1) = 8 * j + 8 by omega]) fun x hx => ht x (List.mem_cons_of_mem _ hx)
    unfold readU at hr
    rw [if_pos hle] at hr
    have hr' := Except.ok.inj hr
    have e : slice b j (a :: t).length = a :: slice b (j + 1) t.length := by
      unfold slice
      rw [List.length_cons, List.range_succ_eq_map, List.filterMap_cons, if_pos (show 8 * (j + 0) + 8 ≤ b.length from hle)]
      show bitsToNat ((b.drop (8 * j)).take 8) :: _ = _
      rw [hr', List.filterMap_map]
      congr 1
      refine List.filterMap_congr fun k _ => ?_
      show (if 8 * (j + (k + 1)) + 8 ≤ b.length then some (bitsToNat ((b.drop (8 * (j + (k + 1)))).take 8)) else none) = _
      rw [show j + (k + 1) = j + 1 + k by omega]
    rw [e, hi]

theorem readText_at {text : List Nat → Py String} {b : BitBuf} {j : Nat} {t : List Nat} {m : List Bool}
    (h : At b (8 * j) (txt t ++ m)) (ht : IsText t) {r : String} (hr : text t = .ok r) :
    readText text b (8 * j) j = .ok (r, 8 * (j + 1 + t.length), j + 1 + t.length) ∧
      At b (8 * (j + 1 + t.length)) m := by
  have h' : At b (8 * j) (natToBits 8 t.length ++ (bytes t ++ m)) := by rw [← List.append_assoc]; exact h
  obtain ⟨h1, h2⟩ := h'.step ht.1
  rw [show 8 * j + 8 = 8 * (j + 1) by omega] at h2
  have h3 := h2.tail' (bytes_length t)
  unfold readText
  rw [h1, Py.okBind]
  dsimp only
  rw [slice_bytes t (j + 1) h2.head ht.2, hr, Py.okBind]
  rw [show 8 * (j + 1) + 8 * t.length = 8 * (j + 1 + t.length) by omega] at h3
  refine ⟨?_, h3⟩
  show Except.ok (r, 8 * j + 8 + 8 * t.length, j + 1 + t.length) = _
  rw [show 8 * j + 8 + 8 * t.length = 8 * (j + 1 + t.length) by omega]

/-! ## Descriptions -/

/-- the attributes after an antenna descriptor -/
def antHead (s : Sta) (a : Ant) (d : String) : Sta :=
  { s with refid := some a.refid, antDesc := some d, antId := some a.id }

theorem ant_head {text : List Nat → Py String} {b : BitBuf} {a : Ant} {m : List Bool} (h : At b start (m1007 a ++ m))
    (ha : a.Ok) {d : String} (hd : text a.desc = .ok d) (mt : Nat) (s : Sta) :
    At b (8 * (8 + a.desc.length)) m ∧ decodeAntDesc text mt s b start = (do
      let (i, j, s) ← (if mt = 1008 ∨ mt = 1033 then do
          let (t, i, j) ← readText text b (8 * (8 + a.desc.length)) (8 + a.desc.length)
          pure (i, j, { antHead s a d with antSerial := some t })
        else pure (8 * (8 + a.desc.length), 8 + a.desc.length, antHead s a d) : Py (Nat × Nat × Sta))
      if mt = 1033 then do
        let (t, i, j) ← readText text b i j
        let (f, i, j) ← readText text b i j
        let (r, i, _) ← readText text b i j
        return (i, { s with rcvType := some t, firmVer := some f, rcvSerial := some r })
      else return (i, s)) := by
  have h' : At b 36 (natToBits 12 a.refid ++ (natToBits 8 a.desc.length ++ (bytes a.desc ++ (natToBits 8 a.id ++ m)))) := by
    have := h
    unfold m1007 txt at this
    simpa only [List.append_assoc] using this
  obtain ⟨h1, h2⟩ := h'.step ha.refid
  obtain ⟨h3, h4⟩ := h2.step ha.desc.1
  have h5 := h4.tail' (bytes_length a.desc)
  obtain ⟨h6, h7⟩ := h5.step ha.id
  have e : 36 + 12 + 8 + 8 * a.desc.length + 8 = 8 * (8 + a.desc.length) := by omega
  rw [e] at h7
  refine ⟨h7, ?_⟩
  unfold decodeAntDesc
  dsimp only
  rw [h1, Py.okBind, h3, Py.okBind, slice_bytes a.desc 7 h4.head ha.desc.2, hd, Py.okBind, h6, Py.okBind,
    show 7 + (a.desc.length + 1) = 8 + a.desc.length by omega, show 36 + 20 + 8 * a.desc.length + 8 = 8 * (8 + a.desc.length) by omega]
  rfl

/-- **1007** gives station, descriptor and setup number and leaves the other attributes -/
theorem desc_1007 {text : List Nat → Py String} {b : BitBuf} {a : Ant} (h : At b start (m1007 a)) (ha : a.Ok)
    {d : String} (hd : text a.desc = .ok d) (s : Sta) :
    decodeAntDesc text 1007 s b start = .ok (start + (m1007 a).length,
      { s with refid := some a.refid, antDesc := some d, antId := some a.id }) := by
  rw [(ant_head (m := []) (by rwa [List.append_nil]) ha hd 1007 s).2]
  rw [if_neg (by decide)]
  dsimp only [bind, Except.bind, pure, Except.pure]
  rw [if_neg (by decide)]
  have : start + (m1007 a).length = 8 * (8 + a.desc.length) := by
    unfold m1007
    rw [List.length_append, List.length_append, natToBits_length, natToBits_length, txt_length]
    show 36 + _ = _
    omega
  rw [this]
  rfl

/-- **1008** gives the serial number of the antenna besides -/
theorem desc_1008 {text : List Nat → Py String} {b : BitBuf} {a : Ant} (h : At b start (m1008 a)) (ha : a.Ok)
    {d sn : String} (hd : text a.desc = .ok d) (hs : text a.serial = .ok sn) (s : Sta) :
    decodeAntDesc text 1008 s b start = .ok (start + (m1008 a).length,
      { s with refid := some a.refid, antDesc := some d, antId := some a.id, antSerial := some sn }) := by
  obtain ⟨hA, e⟩ := ant_head h ha hd 1008 s
  obtain ⟨h1, -⟩ := readText_at (m := []) (by rwa [List.append_nil]) ha.serial hs
  rw [e, if_pos (by decide), h1, Py.okBind]
  dsimp only [pure, Except.pure]
  rw [Py.okBind]
  dsimp only
  rw [if_neg (by decide)]
  have : start + (m1008 a).length = 8 * (8 + a.desc.length + 1 + a.serial.length) := by
    unfold m1008 m1007
    rw [List.length_append, List.length_append, List.length_append, natToBits_length, natToBits_length, txt_length, txt_length]
    show 36 + _ = _
    omega
  rw [this]
  rfl

/-- **1033** gives the receiver type, firmware and serial number besides -/
theorem desc_1033 {text : List Nat → Py String} {b : BitBuf} {a : Ant} (h : At b start (m1033 a)) (ha : a.Ok)
    {d sn rt fw rs : String} (hd : text a.desc = .ok d) (hs : text a.serial = .ok sn) (ht : text a.rcv = .ok rt)
    (hf : text a.firm = .ok fw) (hr : text a.rserial = .ok rs) (s : Sta) :
    decodeAntDesc text 1033 s b start = .ok (start + (m1033 a).length,
      { s with
        refid := some a.refid, antDesc := some d, antId := some a.id, antSerial := some sn, rcvType := some rt,
        firmVer := some fw, rcvSerial := some rs }) := by
  have h' : At b start (m1007 a ++ (txt a.serial ++ (txt a.rcv ++ (txt a.firm ++ txt a.rserial)))) := by
    have := h
    unfold m1033 m1008 at this
    rwa [List.append_assoc] at this
  obtain ⟨hA, e⟩ := ant_head h' ha hd 1033 s
  obtain ⟨h1, hA⟩ := readText_at hA ha.serial hs
  obtain ⟨h2, hA⟩ := readText_at hA ha.rcv ht
  obtain ⟨h3, hA⟩ := readText_at hA ha.firm hf
  obtain ⟨h4, -⟩ := readText_at (m := []) (by rwa [List.append_nil]) ha.rserial hr
  rw [e, if_pos (by decide), h1, Py.okBind]
  dsimp only [pure, Except.pure]
  rw [Py.okBind]
  dsimp only
  rw [if_pos (by decide)]
  show (do
    let (t, i, j) ← readText text b (8 * (8 + a.desc.length + 1 + a.serial.length)) (8 + a.desc.length + 1 + a.serial.length)
    let (f, i, j) ← readText text b i j
    let (r, i, _) ← readText text b i j
    return (i, { (antHead s a d) with
      antSerial := some sn, rcvType := some t, firmVer := some f, rcvSerial := some r }) : Py (Nat × Sta)) = _
  rw [h2, Py.okBind]
  dsimp only
  rw [h3, Py.okBind]
  dsimp only
  rw [h4, Py.okBind]
  have : start + (m1033 a).length = 8 * (8 + a.desc.length + 1 + a.serial.length + 1 + a.rcv.length + 1 + a.firm.length + 1 + a.rserial.length) := by
    unfold m1033 m1008 m1007
    repeat rw [List.length_append]
    rw [natToBits_length, natToBits_length, txt_length, txt_length, txt_length, txt_length, txt_length]
    show 36 + _ = _
    omega
  rw [this]
  rfl

/-- **1029** gives the text -/
theorem text_1029 {text : List Nat → Py String} {b : BitBuf} {refid mjd sod nch : Nat} {t : List Nat}
    (h : At b start (m1029 refid mjd sod nch t)) (h1 : refid < 2 ^ 12) (h2 : mjd < 2 ^ 16) (h3 : sod < 2 ^ 17)
    (h4 : nch < 2 ^ 7) (ht : IsText t) {r : String} (hr : text t = .ok r) (s : Sta) :
    decodeUnicode text s b start = .ok { s with ustr := some r } := by
  have h' : At b 36 (natToBits 12 refid ++ (natToBits 16 mjd ++ (natToBits 17 sod ++ (natToBits 7 nch ++
    (natToBits 8 t.length ++ bytes t))))) := h
  obtain ⟨e1, h'⟩ := h'.step h1
  obtain ⟨e2, h'⟩ := h'.step h2
  obtain ⟨e3, h'⟩ := h'.step h3
  obtain ⟨e4, h'⟩ := h'.step h4
  obtain ⟨e5, h'⟩ := h'.step ht.1
  unfold decodeUnicode
  rw [e1, Py.okBind, e2, Py.okBind, e3, Py.okBind, e4, Py.okBind, e5, Py.okBind]
  rw [show (start + 60) / 8 = 12 from rfl, slice_bytes t 12 h' ht.2, hr]
  rfl

/-! ## Positions -/

theorem mm (x : Int) : (x : ℚ) * (1 / 10 ^ 4) = x / 10000 := by ring

theorem ind_step {b : BitBuf} {i g : Nat} {v : Bool} {m : List Bool} (h : At b i (u 3 g ++ (u 1 v.toNat ++ m))) (hg : g < 2 ^ 3) :
    ∃ n, readU b i 4 = .ok n ∧ n &&& 1 = v.toNat ∧ At b (i + 4) m := by
  have h' : At b i ((natToBits 3 g ++ natToBits 1 v.toNat) ++ m) := by rw [List.append_assoc]; exact h
  obtain ⟨e, hA⟩ := h'.stepBits (n := 4) (by rw [List.length_append, natToBits_length, natToBits_length])
  refine ⟨_, e, ?_, hA⟩
  rw [bitsToNat_append, bitsToNat_natToBits, bitsToNat_natToBits, natToBits_length, Nat.and_one_is_mod]
  have : v.toNat ≤ 1 := by cases v <;> decide
  omega

theorem pos_any {b : BitBuf} {i : Nat} {p : Pos} {m : List Bool} (h : At b i (m1005 p ++ m)) (hp : p.Ok) :
    readU b i 12 = .ok p.refid ∧ (∃ n, readU b (i + 18) 4 = .ok n ∧ n &&& 1 = p.virtual.toNat) ∧
      readS b (i + 18 + 4) 38 = .ok p.x ∧ readS b (i + 18 + 4 + 38 + 2) 38 = .ok p.y ∧
      readS b (i + 18 + 4 + 38 + 2 + 38 + 2) 38 = .ok p.z ∧ At b (i + 18 + 4 + 38 + 2 + 38 + 2 + 38) m := by
  have h' : At b i (natToBits 12 p.refid ++ (natToBits 6 p.itrf ++ (u 3 p.gnss ++ (u 1 p.virtual.toNat ++
      (natToBits 38 (ofSigned 38 p.x) ++ (natToBits 2 p.osc ++ (natToBits 38 (ofSigned 38 p.y) ++
        (natToBits 2 p.quarter ++ (natToBits 38 (ofSigned 38 p.z) ++ m)))))))) ) := by
    have := h
    unfold m1005 at this
    simpa only [List.append_assoc] using this
  obtain ⟨e1, h'⟩ := h'.step hp.refid
  obtain ⟨-, h'⟩ := h'.step hp.itrf
  rw [show i + 12 + 6 = i + 18 by omega] at h'
  obtain ⟨n, e2, e3, h'⟩ := ind_step h' hp.gnss
  obtain ⟨e4, h'⟩ := h'.stepS (by decide) hp.x.1 hp.x.2
  obtain ⟨-, h'⟩ := h'.step hp.osc
  obtain ⟨e5, h'⟩ := h'.stepS (by decide) hp.y.1 hp.y.2
  obtain ⟨-, h'⟩ := h'.step hp.quarter
  obtain ⟨e6, h'⟩ := h'.stepS (by decide) hp.z.1 hp.z.2
  exact ⟨e1, ⟨n, e2, e3⟩, e4, e5, e6, h'⟩

/-- **1005** gives station, kind and position -/
theorem pos_1005 {b : BitBuf} {i : Nat} {p : Pos} (h : At b i (m1005 p)) (hp : p.Ok) (s : Sta) :
    decodeStaPos 1005 s b i = .ok (i + 140, { s with
      refid := some p.refid, sti := some p.virtual.toNat, posArp := some p.metres }) := by
  obtain ⟨e1, ⟨n, e2, e3⟩, e4, e5, e6, -⟩ := pos_any (m := []) (by rwa [List.append_nil]) hp
  unfold decodeStaPos
  rw [if_neg (by decide)]
  dsimp only [bind, Except.bind, pure, Except.pure]
  rw [e1]
  dsimp only
  rw [if_pos (by decide), e2]
  dsimp only
  rw [if_pos (by decide), e4]
  dsimp only
  rw [e5]
  dsimp only
  rw [if_pos (by decide), e6]
  dsimp only
  rw [if_neg (by decide), e3, mm, mm, mm]
  rfl

/-- **1006** gives the antenna height besides -/
theorem pos_1006 {b : BitBuf} {i : Nat} {p : Pos} (h : At b i (m1006 p)) (hp : p.Ok) (s : Sta) :
    decodeStaPos 1006 s b i = .ok (i + 156, { s with
      refid := some p.refid, sti := some p.virtual.toNat, posArp := some p.metres,
      antHeight := some (p.height / 10000) }) := by
  obtain ⟨e1, ⟨n, e2, e3⟩, e4, e5, e6, hA⟩ := pos_any h hp
  have e7 := hA.readU hp.height
  unfold decodeStaPos
  rw [if_neg (by decide)]
  dsimp only [bind, Except.bind, pure, Except.pure]
  rw [e1]
  dsimp only
  rw [if_pos (by decide), e2]
  dsimp only
  rw [if_pos (by decide), e4]
  dsimp only
  rw [e5]
  dsimp only
  rw [if_pos (by decide), e6]
  dsimp only
  rw [if_pos rfl, e7, e3, mm, mm, mm]
  have hh : ((p.height : ℚ) * (1 / 10 ^ 4)) = p.height / 10000 := by ring
  dsimp only
  rw [hh]
  rfl

/-- **1032** gives the physical station -/
theorem pos_1032 {b : BitBuf} {i : Nat} {p : Pos} (h : At b i (m1032 p)) (hp : p.Ok) (s : Sta) :
    decodeStaPos 1032 s b i = .ok (i + 144, { s with
      npStaid := some p.physid, refid := some p.refid, posArp := some p.metres }) := by
  have h' : At b i (natToBits 12 p.physid ++ (natToBits 12 p.refid ++ (natToBits 6 p.itrf ++
      (natToBits 38 (ofSigned 38 p.x) ++ (natToBits 38 (ofSigned 38 p.y) ++ (natToBits 38 (ofSigned 38 p.z))))))) := h
  obtain ⟨e1, h'⟩ := h'.step hp.physid
  obtain ⟨e2, h'⟩ := h'.step hp.refid
  obtain ⟨-, h'⟩ := h'.step hp.itrf
  obtain ⟨e4, h'⟩ := h'.stepS (by decide) hp.x.1 hp.x.2
  obtain ⟨e5, h'⟩ := h'.stepS (by decide) hp.y.1 hp.y.2
  have e6 := h'.readS (by decide) hp.z.1 hp.z.2
  rw [show i + 12 + 12 + 6 = i + 12 + 18 by omega] at e4 e5 e6
  unfold decodeStaPos
  rw [if_pos rfl, e1]
  dsimp only [bind, Except.bind, pure, Except.pure]
  rw [e2]
  dsimp only [bind, Except.bind, pure, Except.pure]
  rw [if_neg (by decide)]
  dsimp only
  rw [e4]
  dsimp only
  rw [if_neg (by decide), e5]
  dsimp only
  rw [if_neg (by decide), e6]
  dsimp only
  rw [if_neg (by decide), mm, mm, mm]
  rfl

/-! ## GLONASS biases -/

theorem loop_eq {b : BitBuf} {mask : Nat} : ∀ (ks : List Nat) (v : List (Option Int)) (i : Nat), ks.length = v.length →
    (∀ p ∈ ks.zip v, ((mask >>> (3 - p.1)) &&& 1 = 1 ↔ p.2.isSome = true)) → (∀ x, some x ∈ v → InS 16 x) →
    At b i (v.flatMap fun o => o.elim [] (sg 16)) →
    biasLoop mask b ks i = .ok (i + 16 * v.countP (·.isSome), v.map fun o => o.elim 0 fun x => (x : ℚ) / 50) := by
  intro ks
  induction ks with
  | nil =>
    intro v i hl _ _ _
    cases v with
    | nil => rfl
    | cons _ _ => cases hl
  | cons k ks ih =>
    intro v i hl hm hv hA
    cases v with
    | nil => cases hl
    | cons o v =>
      have h0 := hm (k, o) (by simp)
      have hm' : ∀ p ∈ ks.zip v, ((mask >>> (3 - p.1)) &&& 1 = 1 ↔ p.2.isSome = true) := fun p hp =>
        hm p (by rw [List.zip_cons_cons]; exact List.mem_cons_of_mem _ hp)
      have hv' : ∀ x, some x ∈ v → InS 16 x := fun x hx => hv x (List.mem_cons_of_mem _ hx)
      rw [biasLoop]
      cases o with
      | none =>
        rw [if_neg (fun h => by cases h0.1 h)]
        rw [ih v i (by simpa using hl) hm' hv' hA]
        rfl
      | some x =>
        rw [if_pos (h0.2 rfl)]
        have hA' : At b i (natToBits 16 (ofSigned 16 x) ++ v.flatMap fun o => o.elim [] (sg 16)) := hA
        have hx := hv x (by simp)
        obtain ⟨e, hA'⟩ := hA'.stepS (by decide) hx.1 hx.2
        rw [e, Py.okBind, ih v (i + 16) (by simpa using hl) hm' hv' hA', Py.okBind]
        have e1 : (x : ℚ) * (2 / 100) = x / 50 := by ring
        rw [e1, List.countP_cons_of_pos rfl, show i + 16 * (v.countP (·.isSome) + 1) = i + 16 + 16 * v.countP (·.isSome) by omega]
        rfl

theorem mask_bits : ∀ a c d e : Bool, ∀ p ∈ [0, 1, 2, 3].zip [a, c, d, e],
    ((bitsToNat [a, c, d, e] >>> (3 - p.1)) &&& 1 = 1 ↔ p.2 = true) := by decide +kernel

/-- **1230** gives each bias that is present in metres, zero for the others -/
theorem bias_1230 {b : BitBuf} {i refid ind rsv : Nat} {v : List (Option Int)} (h : At b i (m1230 refid ind rsv v))
    (h1 : refid < 2 ^ 12) (h2 : ind < 2 ^ 1) (h3 : rsv < 2 ^ 3) (h4 : v.length = 4) (hv : ∀ x, some x ∈ v → InS 16 x)
    (s : Sta) :
    decodeGloBias s b i = .ok (i + (m1230 refid ind rsv v).length, { s with
      refid := some refid, gloBias := some (v.map fun o => o.elim 0 fun x => (x : ℚ) / 50) }) := by
  have hlen : ∀ v : List (Option Int), (v.flatMap fun o => o.elim [] (sg 16)).length = 16 * v.countP (·.isSome) := by
    intro v
    induction v with
    | nil => rfl
    | cons o v ih =>
      cases o with
      | none => exact ih
      | some x =>
        show (natToBits 16 (ofSigned 16 x) ++ v.flatMap fun o => o.elim [] (sg 16)).length = _
        rw [List.length_append, natToBits_length, ih, List.countP_cons_of_pos rfl]
        omega
  have h' : At b i (natToBits 12 refid ++ (natToBits 1 ind ++ (natToBits 3 rsv ++ (v.map (·.isSome) ++
    v.flatMap fun o => o.elim [] (sg 16))))) := h
  have hl : i + (m1230 refid ind rsv v).length = i + 20 + 16 * v.countP (·.isSome) := by
    unfold m1230
    repeat rw [List.length_append]
    rw [natToBits_length, natToBits_length, natToBits_length, List.length_map, h4, hlen]
    omega
  obtain ⟨e1, h'⟩ := h'.step h1
  obtain ⟨e2, h'⟩ := h'.step h2
  obtain ⟨e3, h'⟩ := h'.step h3
  obtain ⟨e4, h'⟩ := h'.stepBits (n := 4) (by rw [List.length_map, h4])
  unfold decodeGloBias
  rw [e1, Py.okBind, e2, Py.okBind, e3, Py.okBind, e4, Py.okBind]
  rw [loop_eq [0, 1, 2, 3] v _ (by rw [h4]; rfl) ?_ hv h', hl]
  · rfl
  · match v, h4 with
    | [a, c, d, e], _ =>
      intro p hp
      have := mask_bits a.isSome c.isSome d.isSome e.isSome (p.1, p.2.isSome) ?_
      · exact this
      · simp only [List.zip_cons_cons, List.zip_nil_left, List.mem_cons, List.not_mem_nil, or_false] at hp ⊢
        rcases hp with rfl | rfl | rfl | rfl <;> simp

/-! ## Text that is cut off

The last text of a message that ends too early is accepted as far as it goes. -/

theorem slice_short {b : BitBuf} {j n : Nat} {t : List Nat} (h : At b (8 * j) (bytes t)) (ht : ∀ x ∈ t, x < 256)
    (he : b.length < 8 * (j + t.length) + 8) (hn : t.length ≤ n) : slice b j n = t := by
  obtain ⟨d, rfl⟩ : ∃ d, n = t.length + d := ⟨n - t.length, by omega⟩
  have h0 := slice_bytes t j h ht
  have hle := h.le
  rw [bytes_length] at hle
  unfold slice at h0 ⊢
  rw [List.range_add, List.filterMap_append, h0, List.filterMap_map]
  have : (List.range d).filterMap ((fun k => if 8 * (j + k) + 8 ≤ b.length then
      some (bitsToNat ((b.drop (8 * (j + k))).take 8)) else none) ∘ fun x => t.length + x) = [] := by
    rw [List.filterMap_eq_nil_iff]
    intro k _
    exact if_neg (c := 8 * (j + (t.length + k)) + 8 ≤ b.length) (by omega)
  rw [this, List.append_nil]

/-- a text message that announces more bytes than it has gives the bytes there are -/
theorem text_cut {text : List Nat → Py String} {b : BitBuf} {refid mjd sod nch n : Nat} {t : List Nat}
    (h : At b start (u 12 refid ++ (u 16 mjd ++ (u 17 sod ++ (u 7 nch ++ (u 8 n ++ bytes t)))))) (h1 : refid < 2 ^ 12)
    (h2 : mjd < 2 ^ 16) (h3 : sod < 2 ^ 17) (h4 : nch < 2 ^ 7) (hn : n < 2 ^ 8) (ht : ∀ x ∈ t, x < 256)
    (hl : t.length ≤ n) (he : b.length < 8 * (12 + t.length) + 8) {r : String} (hr : text t = .ok r) (s : Sta) :
    decodeUnicode text s b start = .ok { s with ustr := some r } := by
  have h' : At b 36 (natToBits 12 refid ++ (natToBits 16 mjd ++ (natToBits 17 sod ++ (natToBits 7 nch ++
    (natToBits 8 n ++ bytes t))))) := h
  obtain ⟨e1, h'⟩ := h'.step h1
  obtain ⟨e2, h'⟩ := h'.step h2
  obtain ⟨e3, h'⟩ := h'.step h3
  obtain ⟨e4, h'⟩ := h'.step h4
  obtain ⟨e5, h'⟩ := h'.step hn
  unfold decodeUnicode
  rw [e1, Py.okBind, e2, Py.okBind, e3, Py.okBind, e4, Py.okBind, e5, Py.okBind]
  rw [show (start + 60) / 8 = 12 from rfl, slice_short (j := 12) h' ht he hl, hr]
  rfl

/-! ## Examples -/

/-- ASCII only, as a text decoder -/
def ascii (l : List Nat) : Py String := if l.all (· < 128) then .ok (String.ofList (l.map Char.ofNat)) else .error .valueError

/-- station 2003 with a descriptor, a serial number and a receiver -/
def ant : Ant := { refid := 2003, desc := [65, 68, 86], id := 1, serial := [49, 50], rcv := [82], firm := [], rserial := [55, 55] }

theorem ant_ok : ant.Ok := by
  constructor
  all_goals decide +kernel

example : decodeAntDesc ascii 1033 {} (natToBits 24 0xd30000 ++ natToBits 12 1033 ++ m1033 ant ++ [true]) 36 =
    .ok (36 + (m1033 ant).length, {
      refid := some 2003, antDesc := some "ADV", antId := some 1, antSerial := some "12", rcvType := some "R",
      firmVer := some "", rcvSerial := some "77" }) :=
  desc_1033 (a := ant) (At.intro (natToBits 24 0xd30000 ++ natToBits 12 1033) (m1033 ant) [true]) ant_ok
    (by decide +kernel) (by decide +kernel) (by decide +kernel) (by decide +kernel) (by decide +kernel) {}

/-- a station 3.9 million metres off in x, negative y -/
def pos : Pos := { refid := 5, itrf := 3, gnss := 7, virtual := true, osc := 2, quarter := 1, x := 39624000001, y := -33505000000, z := 37021100000, height := 12345, physid := 9 }

theorem pos_ok : pos.Ok := by
  constructor
  all_goals decide +kernel

example : ∃ s, decodeStaPos 1006 {} (natToBits 36 0 ++ m1006 pos ++ []) 36 = .ok (192, s) ∧ s.sti = some 1 ∧
    s.posArp = some (39624000001 / 10000, -33505000000 / 10000, 37021100000 / 10000) ∧ s.antHeight = some (12345 / 10000) :=
  ⟨_, pos_1006 (p := pos) (At.intro (natToBits 36 0) (m1006 pos) []) pos_ok {}, rfl, rfl, rfl⟩

example : ∃ s, decodeGloBias {} (natToBits 36 0 ++ m1230 5 1 0 [some (-71), none, some 100, none] ++ []) 36 = .ok (88, s) ∧
    s.gloBias = some [-71 / 50, 0, 2, 0] := by
  refine ⟨_, bias_1230 (At.intro (natToBits 36 0) (m1230 5 1 0 [some (-71), none, some 100, none]) []) (by decide)
    (by decide) (by decide) rfl ?_ {}, ?_⟩
  · intro x hx
    simp only [List.mem_cons, Option.some.injEq, reduceCtorEq, List.not_mem_nil, or_false, false_or] at hx
    rcases hx with rfl | rfl <;> decide +kernel
  · show some [((-71 : Int) : ℚ) / 50, 0, ((100 : Int) : ℚ) / 50, 0] = _
    norm_num

end Verif.C74
