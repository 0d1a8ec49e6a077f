import Verif.Model.RtcmBiasEnc
import Verif.Lemmas.RtcmLoc
import Verif.Props.C68
/-!
Bit layout of the RTCM SSR bias messages as written by the encoder.
-/

namespace Verif.RtcmBias
open Verif.Sat Verif.Time Verif.Sval Verif.RtcmTypes Verif.RtcmSsr Verif.Sig
open Verif.RtcmLoc (truncDiv tq truncDiv_ok)
open Verif.C67 (satW satAt timeW num)
open Verif.C68 (Lay nameOf sigs)

/-! ### bits at a place -/

theorem bitsAt_of {b : BitBuf} {p n : Nat} {g m : List Bool} (h : At b p (g ++ m)) (hn : g.length = n) :
    bitsAt b p n = bitsToNat g := by
  obtain ⟨_, post, hp⟩ := h
  unfold bitsAt
  rw [hp, List.append_assoc, ← hn, List.take_left]

theorem bits_ub {n : Nat} {v : Int} (h : FitU n v) : bitsToNat (ub n v) = v.toNat := by
  unfold ub
  rw [bitsToNat_natToBits]
  have h2 := h.2
  have h1 := h.1
  refine Nat.mod_eq_of_lt ?_
  have : ((v.toNat : Nat) : Int) < 2 ^ n := by rw [Int.toNat_of_nonneg h1]; exact h2
  exact_mod_cast this

theorem bits_sb {n : Nat} {v : Int} (h : FitS n v) : toSigned n (bitsToNat (sb n v)) = v := by
  unfold sb
  rw [bitsToNat_natToBits, Nat.mod_eq_of_lt (ofSigned_lt n v)]
  exact toSigned_ofSigned n v h.1 h.2.1 h.2.2

theorem uAt {b : BitBuf} {p n : Nat} {v : Int} {m : List Bool} (h : At b p (ub n v ++ m)) (hf : FitU n v) :
    bitsAt b p n = v.toNat := by rw [bitsAt_of h (ub_length ..), bits_ub hf]

theorem sAt {b : BitBuf} {p n : Nat} {v : Int} {m : List Bool} (h : At b p (sb n v ++ m)) (hf : FitS n v) :
    intAt b p n = v := by unfold intAt; rw [bitsAt_of h (sb_length ..), bits_sb hf]

/-! ### records -/

/-- a record: satellite, bits of its number, of the yaw angle and of the signals -/
structure Rec where
  sat : Int
  sn : List Bool
  yb : List Bool
  sg : List (List Bool)

def Rec.bits (r : Rec) : List Bool := r.sn ++ (ub 5 r.sg.length ++ (r.yb ++ r.sg.flatten))

structure Rec.Ok (L : Lay) (r : Rec) : Prop where
  w : r.sn.length = L.w
  y : r.yb.length = L.y
  s : ∀ g ∈ r.sg, g.length = L.s
  c : r.sg.length ≤ L.c
  n : r.sg.length < 32

theorem flatten_length {L : Lay} {l : List (List Bool)} (h : ∀ g ∈ l, g.length = L.s) :
    l.flatten.length = L.s * l.length := by
  induction l with
  | nil => simp
  | cons a l ih =>
    rw [List.flatten_cons, List.length_append, h a (by simp), ih fun g hg => h g (by simp [hg]), List.length_cons]
    ring

theorem nsig_spec {L : Lay} {r : Rec} (hr : r.Ok L) {b : BitBuf} {p : Nat} {m : List Bool}
    (h : At b p (r.bits ++ m)) : L.nsig b p = r.sg.length := by
  unfold Rec.bits at h
  simp only [List.append_assoc] at h
  have h := h.tail
  rw [hr.w] at h
  unfold Lay.nsig
  rw [uAt h ⟨by omega, by have := hr.n; norm_num; omega⟩]
  exact Int.toNat_natCast _

theorem sig_at {L : Lay} {r : Rec} (hr : r.Ok L) {b : BitBuf} {p : Nat} {m : List Bool}
    (h : At b p (r.bits ++ m)) : At b (L.sig p 0) (r.sg.flatten ++ m) ∧ L.sig p r.sg.length = p + r.bits.length := by
  have hl : r.bits.length = L.w + 5 + L.y + L.s * r.sg.length := by
    unfold Rec.bits
    simp only [List.length_append, ub_length, hr.w, hr.y, flatten_length hr.s]
    omega
  refine ⟨?_, by rw [hl]; unfold Lay.sig; omega⟩
  unfold Rec.bits at h
  simp only [List.append_assoc] at h
  have h := h.tail.tail.tail
  rw [hr.w, hr.y, ub_length] at h
  exact h

/-- the signals of one record -/
theorem sigs_spec {α : Type} (L : Lay) (h5 : 5 ≤ L.s) {b : BitBuf} {p : Nat} {m : List Bool} (t : Char) (sys : Sys)
    (sat : Int) (v : Nat → α) (w : List Bool → α)
    (hv : ∀ p g m, g.length = L.s → At b p (g ++ m) → v p = w g) :
    ∀ (l : List (List Bool)) (k : Nat), (∀ g ∈ l, g.length = L.s) → At b (L.sig p k) (l.flatten ++ m) →
    (List.range' k l.length).map (fun j => ((sat, nameOf t sys (bitsAt b (L.sig p j) 5)), v (L.sig p j))) =
      l.map fun g => ((sat, nameOf t sys (bitsToNat (g.take 5))), w g)
  | [], k, _, _ => rfl
  | g :: l, k, hl, h => by
    have hg := hl g (by simp)
    rw [List.flatten_cons, List.append_assoc] at h
    have h2 := h
    have e1 : bitsAt b (L.sig p k) 5 = bitsToNat (g.take 5) := by
      rw [← List.take_append_drop 5 g, List.append_assoc] at h2
      rw [bitsAt_of h2 (by rw [List.length_take]; omega)]
    have e2 := hv _ g _ hg h
    have h3 := h.tail
    rw [hg] at h3
    have e3 : L.sig p k + L.s = L.sig p (k + 1) := by unfold Lay.sig; rw [Nat.mul_succ]; omega
    rw [e3] at h3
    have ih := sigs_spec L h5 t sys sat v w hv l (k + 1) (fun g hg => hl g (by simp [hg])) h3
    rw [List.length_cons, List.range'_succ, List.map_cons, List.map_cons, ih, e1, e2]

/-- all records -/
theorem lay_spec {L : Lay} {b : BitBuf} : ∀ (rs : List Rec) (p : Nat), (∀ r ∈ rs, r.Ok L) →
    At b p (rs.flatMap Rec.bits) →
    L.fin b rs.length p = p + (rs.flatMap Rec.bits).length ∧
    (∀ {β : Type} (v : Nat → β) (w : Rec → β), (∀ p r m, r ∈ rs → At b p (r.bits ++ m) → v p = w r) →
      (L.recs b rs.length p).map v = rs.map w) ∧
    (∀ (mt : Nat) (sys : Sys) (t : Char), 5 ≤ L.s →
      (∀ p r m, r ∈ rs → At b p (r.bits ++ m) → satAt mt sys b p = r.sat) →
      ∀ {α : Type} (v : Nat → α) (w : List Bool → α),
      (∀ p g m, g.length = L.s → At b p (g ++ m) → v p = w g) →
      L.ents mt sys t b (L.recs b rs.length p) v =
        rs.flatMap fun r => r.sg.map fun g => ((r.sat, nameOf t sys (bitsToNat (g.take 5))), w g))
  | [], p, _, _ => ⟨rfl, fun _ _ _ => rfl, fun _ _ _ _ _ _ _ _ _ => rfl⟩
  | r :: rs, p, hr, h => by
    have o := hr r (by simp)
    rw [List.flatMap_cons] at h ⊢
    have n0 := nsig_spec o h
    obtain ⟨s0, s1⟩ := sig_at o h
    have hc : ¬ L.nsig b p > L.c := by rw [n0]; have := o.c; omega
    obtain ⟨i1, i2, i3⟩ := lay_spec (L := L) rs (p + r.bits.length) (fun r hr' => hr r (by simp [hr'])) h.tail
    rw [List.length_cons, Lay.fin, Lay.recs, if_neg hc, if_neg hc, n0, s1, List.length_append, ← Nat.add_assoc]
    refine ⟨i1, ?_, ?_⟩
    · intro β v w hv
      rw [List.map_cons, List.map_cons, hv p r _ (by simp) h, i2 v w fun p r m hr' => hv p r m (by simp [hr'])]
    · intro mt sys t h5 hs α v w hv
      rw [C68.ents_cons, C68.ents_one _ _ _ _ _ _ _ (by rw [n0]; exact o.c), List.flatMap_cons,
        i3 mt sys t h5 (fun p r m hr' => hs p r m (by simp [hr'])) v w hv, n0, hs p r _ (by simp) h,
        List.range_eq_range', sigs_spec L h5 t sys r.sat v w hv r.sg 0 o.s s0]

/-! ### encoder -/

/-- a loop of writers over any list -/
theorem fold_wr {α : Type} {f : α → Pos → Py Pos} {P : α → Prop} {bits : α → List Bool}
    (hf : ∀ a p p', p.2 ≤ p.1.length → f a p = .ok p' → P a ∧ Wr p p' (bits a)) : ∀ (l : List α) (p p' : Pos),
    p.2 ≤ p.1.length → l.foldlM (fun p a => f a p) p = .ok p' → (∀ a ∈ l, P a) ∧ Wr p p' (l.flatMap bits)
  | [], p, p', hp, h => by
    rw [List.foldlM_nil] at h
    cases h
    exact ⟨by simp, Wr.nil hp⟩
  | a :: l, p, p', hp, h => by
    rw [List.foldlM_cons] at h
    obtain ⟨q, h1, h2⟩ := Py.bind_ok.1 h
    obtain ⟨x, y⟩ := hf a p q hp h1
    obtain ⟨c, d⟩ := fold_wr hf l q p' y.le h2
    refine ⟨?_, ?_⟩
    · intro z hz
      rcases List.mem_cons.1 hz with e | e
      · rw [e]; exact x
      · exact c z e
    · rw [List.flatMap_cons]; exact y.trans d

def codeOf (g : Sig) : Nat :=
  match sig2code g with
  | .ok c => c
  | .error _ => 0

theorem table_ok : ∀ sys ∈ [Sys.gps, .glo, .gal, .qzs, .bds, .sbs], ∀ x ∈ (ssigT sys).getD [],
    x.1 < 32 ∧ nameOf 'C' sys x.1 = str ⟨sys, .C, x.2⟩ ∧ nameOf 'L' sys x.1 = str ⟨sys, .L, x.2⟩ := by
  decide +kernel

/-- the number of a signal is that of its name -/
theorem sig2code_spec {g : Sig} {c : Nat} (h : sig2code g = .ok c) :
    c < 32 ∧ nameOf 'C' g.sys c = str ⟨g.sys, .C, g.sig⟩ ∧ nameOf 'L' g.sys c = str ⟨g.sys, .L, g.sig⟩ ∧
      (c, g.sig) ∈ (ssigT g.sys).getD [] := by
  unfold sig2code at h
  cases ht : ssigT g.sys with
  | none => rw [ht] at h; cases h
  | some t =>
    rw [ht] at h
    simp only at h
    cases hf : t.reverse.find? fun x => x.2 = g.sig with
    | none => rw [hf] at h; cases h
    | some x =>
      rw [hf] at h
      cases h
      have h1 : x.2 = g.sig := by simpa using List.find?_some hf
      have h2 : x ∈ t := List.mem_reverse.1 (List.mem_of_find?_eq_some hf)
      have hs : g.sys ∈ [Sys.gps, .glo, .gal, .qzs, .bds, .sbs] := by
        cases hg : g.sys <;> first | decide | (rw [hg] at ht; cases ht)
      have := table_ok g.sys hs x (by rw [ht]; exact h2)
      rw [← h1]
      exact ⟨this.1, this.2.1, this.2.2, by rw [Option.getD_some]; exact h2⟩

def headBits (e : BEnc) (phase : Bool) (n : Nat) : List Bool :=
  ub 20 e.h.tow ++ (ub 4 (e.h.udi (if phase then .pbias else .cbias)) ++ (ub 1 e.h.mi.toNat ++ (ub 4 e.h.iodssr ++
    (ub 16 e.h.pid ++ (ub 4 e.h.sid ++ ((if phase then ub 1 e.iyaw.toNat ++ ub 4 e.iexpb else []) ++ ub 6 n))))))

structure HeadFit (e : BEnc) (phase : Bool) (n : Nat) : Prop where
  tow : FitU 20 e.h.tow
  udi : FitU 4 (e.h.udi (if phase then .pbias else .cbias))
  iodssr : FitU 4 e.h.iodssr
  pid : FitU 16 e.h.pid
  sid : FitU 4 e.h.sid
  iexpb : phase = true → FitU 4 e.iexpb
  n : FitU 6 (n : Int)

theorem biasHeadE_spec {e : BEnc} {phase : Bool} {n : Nat} {sys : Sys} {p p' : Pos} (hg : sys ≠ .glo)
    (h : biasHeadE e phase n sys p = .ok p') : HeadFit e phase n ∧ Wr p p' (headBits e phase n) := by
  unfold biasHeadE at h
  rw [if_pos (Or.inr hg)] at h
  obtain ⟨p1, h1, h⟩ := Py.bind_ok.1 h
  obtain ⟨p2, h2, h⟩ := Py.bind_ok.1 h
  obtain ⟨p3, h3, h⟩ := Py.bind_ok.1 h
  obtain ⟨p4, h4, h⟩ := Py.bind_ok.1 h
  obtain ⟨p5, h5, h⟩ := Py.bind_ok.1 h
  obtain ⟨p6, h6, h⟩ := Py.bind_ok.1 h
  have s1 := putU_spec h1
  have s2 := putU_spec h2
  have s3 := putU_spec h3
  have s4 := putU_spec h4
  have s5 := putU_spec h5
  have s6 := putU_spec h6
  cases phase with
  | false =>
    simp only [Bool.false_eq_true, if_false] at h
    obtain ⟨p7, h7, h⟩ := Py.bind_ok.1 h
    cases h7
    have s7 := putU_spec h
    refine ⟨⟨s1.1, s2.1, s4.1, s5.1, s6.1, (fun h => by cases h), s7.1⟩, ?_⟩
    exact s1.2.trans (s2.2.trans (s3.2.trans (s4.2.trans (s5.2.trans (s6.2.trans s7.2)))))
  | true =>
    simp only [if_true] at h
    obtain ⟨p7, h7, h⟩ := Py.bind_ok.1 h
    obtain ⟨p8, h8, h⟩ := Py.bind_ok.1 h
    have s7 := putU_spec h7
    have s8 := putU_spec h8
    have s9 := putU_spec h
    refine ⟨⟨s1.1, s2.1, s4.1, s5.1, s6.1, fun _ => s8.1, s9.1⟩, ?_⟩
    unfold headBits
    simp only [if_true, List.append_assoc]
    exact s1.2.trans (s2.2.trans (s3.2.trans (s4.2.trans (s5.2.trans (s6.2.trans (s7.2.trans (s8.2.trans s9.2)))))))

/-! code biases -/

def codeBits (x : Sig × Val) : List Bool := ub 5 (codeOf x.1) ++ sb 14 (tq x.2 (1 / 100))

structure CodeFit (x : Sig × Val) : Prop where
  val : ∃ y, x.2 = some y
  code : sig2code x.1 = .ok (codeOf x.1)
  fit : FitS 14 (tq x.2 (1 / 100))

theorem putCode_spec (x : Sig × Val) (p p' : Pos) (h : putCode x p = .ok p') : CodeFit x ∧ Wr p p' (codeBits x) := by
  unfold putCode at h
  obtain ⟨cb, h1, h⟩ := Py.bind_ok.1 h
  obtain ⟨c, h2, h⟩ := Py.bind_ok.1 h
  obtain ⟨p1, h3, h4⟩ := Py.bind_ok.1 h
  obtain ⟨⟨y, hy⟩, u2⟩ := truncDiv_ok h1
  have e : codeOf x.1 = c := by unfold codeOf; rw [h2]
  have s3 := putU_spec h3
  have s4 := putS_spec h4
  rw [u2] at s4
  rw [← e] at s3
  exact ⟨⟨⟨y, hy⟩, by rw [e]; exact h2, s4.1⟩, s3.2.trans s4.2⟩

def codeRec (e : BEnc) (r : Int × List (Sig × Val)) : Rec := ⟨r.1, satBits e.h r.1, [], r.2.map codeBits⟩

structure CodeSatFit (e : BEnc) (r : Int × List (Sig × Val)) : Prop where
  sat : SatFit e.h r.1
  n : r.2.length < 32
  sigs : ∀ x ∈ r.2, CodeFit x

theorem putCodeSat_spec {e : BEnc} (r : Int × List (Sig × Val)) (p p' : Pos) (h : putCodeSat e r p = .ok p') :
    CodeSatFit e r ∧ Wr p p' (codeRec e r).bits := by
  unfold putCodeSat at h
  obtain ⟨p1, h1, h⟩ := Py.bind_ok.1 h
  obtain ⟨p2, h2, h⟩ := Py.bind_ok.1 h
  have s1 := encodeSat_spec h1
  have s2 := putU_spec h2
  have s3 := fold_wr (fun x p p' _ hx => putCode_spec x p p' hx) _ _ _ s2.2.le h
  refine ⟨⟨s1.1, ?_, s3.1⟩, ?_⟩
  · have := s2.1.2
    norm_num at this
    omega
  · unfold Rec.bits codeRec
    simp only [List.length_map, List.nil_append]
    rw [← List.flatMap_def]
    exact s1.2.trans (s2.2.trans s3.2)

/-! phase biases -/

def siOf (e : BEnc) (s : Int) (g : Sig) : Bool := ((Dict.get? e.si s).bind fun r => Dict.get? r g).getD false
def diOf (e : BEnc) (s : Int) (g : Sig) : Int := ((Dict.get? e.di s).bind fun r => Dict.get? r g).getD 0

def phaseBits (e : BEnc) (s : Int) (x : Sig × Val) : List Bool :=
  ub 5 (codeOf x.1) ++ (ub 1 (siOf e s x.1).toNat ++ (ub 4 (diOf e s x.1) ++ sb 20 (ival x.2 20 (1 / 10000))))

structure PhaseFit (e : BEnc) (s : Int) (x : Sig × Val) : Prop where
  code : sig2code x.1 = .ok (codeOf x.1)
  si : (Dict.get? e.si s).isSome → ∃ r v, Dict.get? e.si s = some r ∧ Dict.get? r x.1 = some v
  di : ∃ r v, Dict.get? e.di s = some r ∧ Dict.get? r x.1 = some v
  fd : FitU 4 (diOf e s x.1)
  fit : FitS 20 (ival x.2 20 (1 / 10000))

theorem putPhase_spec {e : BEnc} {s : Int} (x : Sig × Val) (p p' : Pos) (h : putPhase e s x p = .ok p') :
    PhaseFit e s x ∧ Wr p p' (phaseBits e s x) := by
  unfold putPhase at h
  obtain ⟨c, h1, h⟩ := Py.bind_ok.1 h
  have e1 : codeOf x.1 = c := by unfold codeOf; rw [h1]
  have key : ∃ si, (((Dict.get? e.si s).isSome → ∃ r v, Dict.get? e.si s = some r ∧ Dict.get? r x.1 = some v) ∧
      siOf e s x.1 = si) ∧ (do
        let r ← Dict.getItem e.di s
        let di ← Dict.getItem r x.1
        let p ← putU p 5 c
        let p ← putU p 1 si.toNat
        let p ← putU p 4 di
        putS p 20 (ival x.2 20 (1 / 10000))) = .ok p' := by
    by_cases hm : Dict.mem e.si s = true
    · rw [if_pos hm] at h
      obtain ⟨r, h2, h⟩ := Py.bind_ok.1 h
      obtain ⟨v, h3, h⟩ := Py.bind_ok.1 h
      rw [Dict.getItem_ok_iff] at h2 h3
      refine ⟨v, ⟨fun _ => ⟨r, v, h2, h3⟩, ?_⟩, h⟩
      unfold siOf
      rw [h2, Option.bind_some, h3, Option.getD_some]
    · rw [if_neg hm] at h
      have hn : Dict.get? e.si s = none := by
        unfold Dict.mem at hm
        simpa using hm
      refine ⟨false, ⟨fun hs => ?_, ?_⟩, h⟩
      · rw [hn] at hs; cases hs
      · unfold siOf; rw [hn]; rfl
  obtain ⟨si, ⟨k1, k2⟩, h⟩ := key
  obtain ⟨r, h2, h⟩ := Py.bind_ok.1 h
  obtain ⟨di, h3, h⟩ := Py.bind_ok.1 h
  obtain ⟨p1, h4, h⟩ := Py.bind_ok.1 h
  obtain ⟨p2, h5, h⟩ := Py.bind_ok.1 h
  obtain ⟨p3, h6, h7⟩ := Py.bind_ok.1 h
  rw [Dict.getItem_ok_iff] at h2 h3
  have e3 : diOf e s x.1 = di := by unfold diOf; rw [h2, Option.bind_some, h3, Option.getD_some]
  have s4 := putU_spec h4
  have s5 := putU_spec h5
  have s6 := putU_spec h6
  have s7 := putS_spec h7
  rw [← e1] at s4
  rw [← k2] at s5
  rw [← e3] at s6
  exact ⟨⟨by rw [e1]; exact h1, k1, ⟨r, di, h2, h3⟩, s6.1, s7.1⟩, s4.2.trans (s5.2.trans (s6.2.trans s7.2))⟩

def yawOf (e : BEnc) (s : Int) : Val := (Dict.get? e.yaw s).getD none
def dyawOf (e : BEnc) (s : Int) : Val := (Dict.get? e.dyaw s).getD none

def yawBits (e : BEnc) (s : Int) : List Bool :=
  if Dict.mem e.yaw s then ub 9 (tq (yawOf e s) (1 / 256)) ++ sb 8 (tq (dyawOf e s) (1 / 8192)) else []

structure YawFit (e : BEnc) (s : Int) : Prop where
  yaw : ∃ y, Dict.get? e.yaw s = some (some y)
  dyaw : ∃ y, Dict.get? e.dyaw s = some (some y)
  f1 : FitU 9 (tq (yawOf e s) (1 / 256))
  f2 : FitS 8 (tq (dyawOf e s) (1 / 8192))

theorem putYaw_spec {e : BEnc} {s : Int} {p p' : Pos} (hp : p.2 ≤ p.1.length) (h : putYaw e s p = .ok p') :
    (Dict.mem e.yaw s = true → YawFit e s) ∧ Wr p p' (yawBits e s) := by
  unfold putYaw at h
  unfold yawBits
  by_cases hm : Dict.mem e.yaw s = true
  · rw [if_pos hm] at h ⊢
    obtain ⟨y, h1, h⟩ := Py.bind_ok.1 h
    obtain ⟨u, h2, h⟩ := Py.bind_ok.1 h
    obtain ⟨d, h3, h⟩ := Py.bind_ok.1 h
    obtain ⟨w, h4, h⟩ := Py.bind_ok.1 h
    obtain ⟨p1, h5, h6⟩ := Py.bind_ok.1 h
    rw [Dict.getItem_ok_iff] at h1 h3
    obtain ⟨⟨y1, hy1⟩, u2⟩ := truncDiv_ok h2
    obtain ⟨⟨y2, hy2⟩, u3⟩ := truncDiv_ok h4
    have e1 : yawOf e s = y := by unfold yawOf; rw [h1, Option.getD_some]
    have e2 : dyawOf e s = d := by unfold dyawOf; rw [h3, Option.getD_some]
    have s5 := putU_spec h5
    have s6 := putS_spec h6
    rw [u2, ← e1] at s5
    rw [u3, ← e2] at s6
    exact ⟨fun _ => ⟨⟨y1, by rw [h1, hy1]⟩, ⟨y2, by rw [h3, hy2]⟩, s5.1, s6.1⟩, s5.2.trans s6.2⟩
  · rw [if_neg hm] at h ⊢
    cases h
    exact ⟨fun h => absurd h hm, Wr.nil hp⟩

def phaseRec (e : BEnc) (r : Int × List (Sig × Val)) : Rec :=
  ⟨r.1, satBits e.h r.1, yawBits e r.1, r.2.map (phaseBits e r.1)⟩

structure PhaseSatFit (e : BEnc) (r : Int × List (Sig × Val)) : Prop where
  sat : SatFit e.h r.1
  n : r.2.length < 32
  yaw : Dict.mem e.yaw r.1 = true → YawFit e r.1
  sigs : ∀ x ∈ r.2, PhaseFit e r.1 x

theorem putPhaseSat_spec {e : BEnc} (r : Int × List (Sig × Val)) (p p' : Pos) (h : putPhaseSat e r p = .ok p') :
    PhaseSatFit e r ∧ Wr p p' (phaseRec e r).bits := by
  unfold putPhaseSat at h
  obtain ⟨p1, h1, h⟩ := Py.bind_ok.1 h
  obtain ⟨p2, h2, h⟩ := Py.bind_ok.1 h
  obtain ⟨p3, h3, h⟩ := Py.bind_ok.1 h
  have s1 := encodeSat_spec h1
  have s2 := putU_spec h2
  have s3 := putYaw_spec s2.2.le h3
  have s4 := fold_wr (fun x p p' _ hx => putPhase_spec x p p' hx) _ _ _ s3.2.le h
  refine ⟨⟨s1.1, ?_, s3.1, s4.1⟩, ?_⟩
  · have := s2.1.2
    norm_num at this
    omega
  · unfold Rec.bits phaseRec
    simp only [List.length_map]
    rw [← List.flatMap_def]
    exact s1.2.trans (s2.2.trans (s3.2.trans s4.2))

end Verif.RtcmBias
