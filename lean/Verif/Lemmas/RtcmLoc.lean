import Verif.Model.RtcmLoc
import Verif.Lemmas.RtcmSsr
import Verif.Props.C33
/-!
Bit layout of the RTCM messages with local corrections.
-/

namespace Verif.RtcmLoc
open Verif.Sat Verif.Time Verif.Sval Verif.RtcmTypes Verif.RtcmSsr

/-! ### header -/

def headBits (e : Enc) (sc : SC) (sys : Sys) : List Bool :=
  ub (if e.msgtype = 4076 ∨ sys ≠ .glo then 20 else 17) e.tow ++ (ub 4 (e.udi sc) ++
    (ub 1 e.mi.toNat ++ (ub 4 e.iodssr ++ (ub 16 e.pid ++ ub 4 e.sid))))

structure HeadFit (e : Enc) (sc : SC) (sys : Sys) : Prop where
  tow : FitU (if e.msgtype = 4076 ∨ sys ≠ .glo then 20 else 17) e.tow
  udi : FitU 4 (e.udi sc)
  iodssr : FitU 4 e.iodssr
  pid : FitU 16 e.pid
  sid : FitU 4 e.sid

theorem encodeHead_spec {e : Enc} {sc : SC} {sys : Sys} {p p' : Pos}
    (h : encodeHead e sc sys p = .ok p') : HeadFit e sc sys ∧ Wr p p' (headBits e sc sys) := by
  unfold encodeHead at h
  obtain ⟨p1, h1, h⟩ := Py.bind_ok.1 h
  obtain ⟨p2, h2, h⟩ := Py.bind_ok.1 h
  obtain ⟨p3, h3, h⟩ := Py.bind_ok.1 h
  obtain ⟨p4, h4, h⟩ := Py.bind_ok.1 h
  obtain ⟨p5, h5, h6⟩ := Py.bind_ok.1 h
  have s1 := putU_spec h1
  have s2 := putU_spec h2
  have s3 := putU_spec h3
  have s4 := putU_spec h4
  have s5 := putU_spec h5
  have s6 := putU_spec h6
  exact ⟨⟨s1.1, s2.1, s4.1, s5.1, s6.1⟩,
    s1.2.trans (s2.2.trans (s3.2.trans (s4.2.trans (s5.2.trans s6.2))))⟩

/-- the decoder state after the header -/
def headState (d : Dec) (e : Enc) (sys : Sys) : Dec :=
  if e.msgtype = 4076 ∨ sys ≠ .glo then
    { d with tow := e.tow.toNat, time := gpst2time d.week e.tow, pid := e.pid.toNat, sid := e.sid.toNat }
  else
    let t := utc2gpst (glo2time d.time e.tow)
    { d with
      tod := e.tow.toNat
      time := if d.workaround then timeadd t (-36) else t
      pid := e.pid.toNat
      sid := e.sid.toNat }

theorem decodeHead_spec {e : Enc} {sc : SC} {sys : Sys} {d : Dec} (hm : sys = .glo → d.msgtype = e.msgtype)
    (f : HeadFit e sc sys) {b : BitBuf} {i : Nat} {m : List Bool} (h : At b i (headBits e sc sys ++ m)) :
    decodeHead d sys b i = .ok (headState d e sys, e.iodssr.toNat, i + (headBits e sc sys).length) ∧
      At b (i + (headBits e sc sys).length) m := by
  have hend := h.tail
  refine ⟨?_, hend⟩
  have ft := f.tow
  have htow : ∀ n : Nat, FitU n e.tow → ((e.tow.toNat : Nat) : ℚ) = ((e.tow : Int) : ℚ) := by
    intro n hf
    have := Int.toNat_of_nonneg hf.1
    exact_mod_cast this
  have hb : FitU 1 (e.mi.toNat : Int) := by unfold FitU; cases e.mi <;> simp
  by_cases c : e.msgtype = 4076 ∨ sys ≠ .glo
  · have hl : (headBits e sc sys).length = 49 := by
      unfold headBits; rw [if_pos c]; simp only [List.length_append, ub_length]
    rw [hl]
    unfold headBits at h
    rw [if_pos c] at h ft
    simp only [List.append_assoc] at h
    obtain ⟨r1, h⟩ := stepU ft h
    obtain ⟨r2, h⟩ := stepU f.udi h
    obtain ⟨r3, h⟩ := stepU hb h
    obtain ⟨r4, h⟩ := stepU f.iodssr h
    obtain ⟨r5, h⟩ := stepU f.pid h
    obtain ⟨r6, h⟩ := stepU f.sid h
    have c' : ¬ (sys = .glo ∧ d.msgtype ≠ 4076) := by
      rintro ⟨a, b'⟩
      rcases c with c | c
      · rw [hm a] at b'; exact b' c
      · exact c a
    unfold decodeHead decodeHeadTime
    rw [if_neg c']
    rw [r1]
    simp only [Py.okBind, pure, Except.pure]
    rw [r2]
    simp only [Py.okBind]
    rw [r3]
    simp only [Py.okBind, Nat.add_assoc]
    simp only [Nat.add_assoc] at r4 r5 r6
    norm_num at r4 r5 r6 ⊢
    rw [r4]
    simp only [Py.okBind]
    rw [r5]
    simp only [Py.okBind]
    rw [r6]
    simp only [Py.okBind, headState, if_pos c, htow 20 ft]
  · have hl : (headBits e sc sys).length = 46 := by
      unfold headBits; rw [if_neg c]; simp only [List.length_append, ub_length]
    rw [hl]
    unfold headBits at h
    rw [if_neg c] at h ft
    simp only [List.append_assoc] at h
    obtain ⟨r1, h⟩ := stepU ft h
    obtain ⟨r2, h⟩ := stepU f.udi h
    obtain ⟨r3, h⟩ := stepU hb h
    obtain ⟨r4, h⟩ := stepU f.iodssr h
    obtain ⟨r5, h⟩ := stepU f.pid h
    obtain ⟨r6, h⟩ := stepU f.sid h
    rw [not_or, not_not] at c
    have c' : sys = .glo ∧ d.msgtype ≠ 4076 := ⟨c.2, by rw [hm c.2]; exact c.1⟩
    have c'' : ¬ (e.msgtype = 4076 ∨ sys ≠ .glo) := by
      rintro (a | a)
      · exact c.1 a
      · exact a c.2
    unfold decodeHead decodeHeadTime
    rw [if_pos c']
    rw [r1]
    simp only [Py.okBind, pure, Except.pure]
    rw [r2]
    simp only [Py.okBind]
    rw [r3]
    simp only [Py.okBind, Nat.add_assoc]
    simp only [Nat.add_assoc] at r4 r5 r6
    norm_num at r4 r5 r6 ⊢
    rw [r4]
    simp only [Py.okBind]
    rw [r5]
    simp only [Py.okBind]
    rw [r6]
    simp only [Py.okBind, headState, if_neg c'', htow 17 ft]

/-! ### a scaled field with an offset -/

abbrev vb (n : Nat) (scl off : ℚ) (y : Val) : List Bool := sb n (ival (y.map fun y => y - off) n scl)

def FitV (n : Nat) (scl off : ℚ) (y : Val) : Prop := FitS n (ival (y.map fun y => y - off) n scl)

theorem putV_spec {p p' : Pos} {n : Nat} {scl off : ℚ} {y : Val} (h : putV p n scl off y = .ok p') :
    FitV n scl off y ∧ Wr p p' (vb n scl off y) := putS_spec h

/-- what is read back -/
def vq (n : Nat) (scl off : ℚ) (y : Val) : Val := (quant n scl (y.map fun y => y - off)).map fun z => z + off

theorem stepV {b : BitBuf} {i n : Nat} {scl off : ℚ} {y : Val} {m : List Bool} (hv : FitV n scl off y)
    (h : At b i (vb n scl off y ++ m)) : rdV b i n scl off = .ok (vq n scl off y, i + n) ∧ At b (i + n) m := by
  obtain ⟨r, h⟩ := stepS hv h
  refine ⟨?_, h⟩
  unfold rdV
  rw [r]
  rfl

/-! ### the tropospheric message -/

structure TropFit (e : LEnc) (net : Net) (ah bh ch aw bw cw : Val) (hh w : Vec) : Prop where
  gid : FitU 10 (e.gid : Int)
  ah : FitV 11 (25 / 100000000) (118 / 100000) ah
  bh : FitV 9 (5 / 1000000) (298 / 100000) bh
  ch : FitV 9 (2 / 10000) (682 / 10000) ch
  aw : FitV 13 (1 / 1000000) (104 / 1000000) aw
  bw : FitV 6 (25 / 1000000) (15 / 10000) bw
  cw : FitV 5 (2 / 1000) (48 / 1000) cw
  h0 : FitV 13 (1 / 10000) (23 / 10) hh.1
  h2 : FitV 15 (1 / 100000) 0 hh.2.2
  h1 : FitV 15 (1 / 100000) 0 hh.2.1
  w0 : FitV 13 (1 / 10000) (252 / 1000) w.1
  w2 : FitV 15 (1 / 100000) 0 w.2.2
  w1 : FitV 15 (1 / 100000) 0 w.2.1

def tropBits (e : LEnc) (net : Net) (ah bh ch aw bw cw : Val) (h w : Vec) : List Bool :=
  ub 10 e.gid ++ (ub 1 (net.flgTrop % 2 : Nat) ++ (vb 11 (25 / 100000000) (118 / 100000) ah ++
  (vb 9 (5 / 1000000) (298 / 100000) bh ++ (vb 9 (2 / 10000) (682 / 10000) ch ++
  (vb 13 (1 / 1000000) (104 / 1000000) aw ++ (vb 6 (25 / 1000000) (15 / 10000) bw ++
  (vb 5 (2 / 1000) (48 / 1000) cw ++ (vb 13 (1 / 10000) (23 / 10) h.1 ++
  (vb 15 (1 / 100000) 0 h.2.2 ++ (vb 15 (1 / 100000) 0 h.2.1 ++ (vb 13 (1 / 10000) (252 / 1000) w.1 ++
  (vb 15 (1 / 100000) 0 w.2.2 ++ vb 15 (1 / 100000) 0 w.2.1))))))))))))

/-- bits of one residual, and its fit -/
def resBits (n : Nat) (r : Option (List Val)) (k : Nat) : List Bool :=
  if n > 0 then sb n (ival (((r.getD [])[k]?).getD none) n (1 / 10000)) else []

def ResFit (n : Nat) (r : Option (List Val)) (k : Nat) : Prop :=
  n > 0 → ∃ l y, r = some l ∧ l[k]? = some y ∧ FitS n (ival y n (1 / 10000))

theorem pyGet_ok {α : Type} {l : List α} {i : Nat} {a : α} : pyGet l i = .ok a ↔ l[i]? = some a := by
  unfold pyGet
  cases l[i]? <;> simp

theorem putRes_spec {n : Nat} {r : Option (List Val)} {k : Nat} {p p' : Pos} (hp : p.2 ≤ p.1.length)
    (h : putRes n r k p = .ok p') : ResFit n r k ∧ Wr p p' (resBits n r k) := by
  unfold putRes at h
  unfold ResFit resBits
  by_cases c : n > 0
  · rw [if_pos c] at h ⊢
    cases r with
    | none => cases h
    | some l =>
      dsimp only at h
      obtain ⟨y, hy, h⟩ := Py.bind_ok.1 h
      have hs := putS_spec h
      rw [pyGet_ok] at hy
      refine ⟨fun _ => ⟨l, y, rfl, hy, hs.1⟩, ?_⟩
      simp only [Option.getD_some, hy]
      exact hs.2
  · rw [if_neg c] at h ⊢
    cases h
    exact ⟨fun h => absurd h c, Wr.nil hp⟩

/-- what is read back of one residual -/
def resQ (n : Nat) (r : Option (List Val)) (k : Nat) : List Val :=
  if n > 0 then [quant n (1 / 10000) (((r.getD [])[k]?).getD none)] else []

theorem rdRes_spec {n : Nat} {r : Option (List Val)} {k : Nat} {b : BitBuf} {i : Nat} {m : List Bool}
    (f : ResFit n r k) (h : At b i (resBits n r k ++ m)) :
    rdRes n b i = .ok (resQ n r k, i + (resBits n r k).length) ∧ At b (i + (resBits n r k).length) m := by
  refine ⟨?_, h.tail⟩
  unfold rdRes resQ resBits at *
  by_cases c : n > 0
  · rw [if_pos c] at h
    rw [if_pos c, if_pos c, if_pos c, sb_length]
    obtain ⟨l, y, hr, hy, hf⟩ := f c
    rw [hr] at h ⊢
    simp only [Option.getD_some, hy] at h ⊢
    rw [(stepS hf h).1]
    rfl
  · rw [if_neg c, if_neg c, if_neg c]
    rfl

def resLoopBits (n m : Nat) (rh rw : Option (List Val)) : Nat → Nat → List Bool
  | 0, _ => []
  | c + 1, k => resBits n rh k ++ (resBits m rw k ++ resLoopBits n m rh rw c (k + 1))

theorem encodeRes_spec {n m : Nat} {rh rw : Option (List Val)} : ∀ (c k : Nat) {p p' : Pos},
    p.2 ≤ p.1.length → encodeRes n m rh rw c k p = .ok p' →
      (∀ j, k ≤ j → j < k + c → ResFit n rh j ∧ ResFit m rw j) ∧ Wr p p' (resLoopBits n m rh rw c k)
  | 0, k, p, p', hp, h => by
    cases h
    exact ⟨fun j _ _ => absurd ‹j < k + 0› (by omega), Wr.nil hp⟩
  | c + 1, k, p, p', hp, h => by
    unfold encodeRes at h
    obtain ⟨q, h1, h⟩ := Py.bind_ok.1 h
    obtain ⟨q', h2, h⟩ := Py.bind_ok.1 h
    have s1 := putRes_spec hp h1
    have s2 := putRes_spec s1.2.le h2
    have s3 := encodeRes_spec c (k + 1) s2.2.le h
    refine ⟨fun j h1 h2 => ?_, s1.2.trans (s2.2.trans s3.2)⟩
    by_cases e : j = k
    · subst e; exact ⟨s1.1, s2.1⟩
    · exact s3.1 j (by omega) (by omega)

theorem decodeRes_spec {n m : Nat} {rh rw : Option (List Val)} {b : BitBuf} {t : List Bool} :
    ∀ (c k : Nat) {i : Nat}, (∀ j, k ≤ j → j < k + c → ResFit n rh j ∧ ResFit m rw j) →
      At b i (resLoopBits n m rh rw c k ++ t) →
      decodeRes n m b c i = .ok ((List.range' k c).flatMap (resQ n rh), (List.range' k c).flatMap (resQ m rw),
        i + (resLoopBits n m rh rw c k).length)
  | 0, k, i, _, _ => rfl
  | c + 1, k, i, hf, h => by
    unfold decodeRes
    unfold resLoopBits at h ⊢
    simp only [List.append_assoc] at h
    obtain ⟨r1, h⟩ := rdRes_spec (hf k (by omega) (by omega)).1 h
    obtain ⟨r2, h⟩ := rdRes_spec (hf k (by omega) (by omega)).2 h
    have r3 := decodeRes_spec c (k + 1) (fun j h1 h2 => hf j (by omega) (by omega)) h
    rw [r1]
    simp only [Py.okBind]
    rw [r2]
    simp only [Py.okBind]
    rw [r3]
    simp only [Py.okBind, pure, Except.pure, List.range'_succ, List.flatMap_cons, List.length_append,
      Nat.add_assoc]

structure ResHeadFit (e : LEnc) (net : Net) : Prop where
  ofst : FitU 12 (net.ofst : Int)
  ng : FitU 12 (net.ng : Int)
  n : FitU 4 (e.nlen : Int)
  m : FitU 4 (e.mlen : Int)

def resPart (e : LEnc) (net : Net) : List Bool :=
  ub 12 net.ofst ++ (ub 12 net.ng ++ (ub 4 e.nlen ++ (ub 4 e.mlen ++
    resLoopBits e.nlen e.mlen net.dth net.dtw net.ng net.ofst)))

theorem encodeTrop_spec {e : LEnc} {p p' : Pos} (h : encodeTrop e p = .ok p') :
    ∃ net ah bh ch aw bw cw hh w, e.lc[e.gid]? = some net ∧ net.maph = some (ah, bh, ch) ∧
      net.mapw = some (aw, bw, cw) ∧ net.ct = some (hh, w) ∧ HeadFit e.h .trop .none ∧
      TropFit e net ah bh ch aw bw cw hh w ∧
      (net.flgTrop % 2 = 1 → ResHeadFit e net ∧
        ∀ j, net.ofst ≤ j → j < net.ofst + net.ng → ResFit e.nlen net.dth j ∧ ResFit e.mlen net.dtw j) ∧
      Wr p p' (headBits e.h .trop .none ++ (tropBits e net ah bh ch aw bw cw hh w ++
        if net.flgTrop % 2 = 1 then resPart e net else [])) := by
  unfold encodeTrop at h
  obtain ⟨p0, h0, h⟩ := Py.bind_ok.1 h
  obtain ⟨net, hn, h⟩ := Py.bind_ok.1 h
  obtain ⟨p1, h1, h⟩ := Py.bind_ok.1 h
  obtain ⟨p2, h2, h⟩ := Py.bind_ok.1 h
  obtain ⟨⟨ah, bh, ch⟩, m1, h⟩ := Py.bind_ok.1 h
  obtain ⟨⟨aw, bw, cw⟩, m2, h⟩ := Py.bind_ok.1 h
  dsimp only at h
  obtain ⟨p3, h3, h⟩ := Py.bind_ok.1 h
  obtain ⟨p4, h4, h⟩ := Py.bind_ok.1 h
  obtain ⟨p5, h5, h⟩ := Py.bind_ok.1 h
  obtain ⟨p6, h6, h⟩ := Py.bind_ok.1 h
  obtain ⟨p7, h7, h⟩ := Py.bind_ok.1 h
  obtain ⟨p8, h8, h⟩ := Py.bind_ok.1 h
  obtain ⟨⟨hh, w⟩, m3, h⟩ := Py.bind_ok.1 h
  dsimp only at h
  obtain ⟨p9, h9, h⟩ := Py.bind_ok.1 h
  obtain ⟨p10, h10, h⟩ := Py.bind_ok.1 h
  obtain ⟨p11, h11, h⟩ := Py.bind_ok.1 h
  obtain ⟨p12, h12, h⟩ := Py.bind_ok.1 h
  obtain ⟨p13, h13, h⟩ := Py.bind_ok.1 h
  obtain ⟨p14, h14, h⟩ := Py.bind_ok.1 h
  have hs : ∀ {α : Type} {o : Option α} {a : α}, getSome o = .ok a → o = some a := by
    intro α o a ho
    cases o with
    | none => cases ho
    | some x => cases ho; rfl
  have s0 := encodeHead_spec h0
  have s1 := putU_spec h1
  have s2 := putU_spec h2
  have s3 := putV_spec h3
  have s4 := putV_spec h4
  have s5 := putV_spec h5
  have s6 := putV_spec h6
  have s7 := putV_spec h7
  have s8 := putV_spec h8
  have s9 := putV_spec h9
  have s10 := putV_spec h10
  have s11 := putV_spec h11
  have s12 := putV_spec h12
  have s13 := putV_spec h13
  have s14 := putV_spec h14
  have w1 := s1.2.trans (s2.2.trans (s3.2.trans (s4.2.trans (s5.2.trans (s6.2.trans (s7.2.trans (s8.2.trans
    (s9.2.trans (s10.2.trans (s11.2.trans (s12.2.trans (s13.2.trans s14.2))))))))))))
  refine ⟨net, ah, bh, ch, aw, bw, cw, hh, w, pyGet_ok.1 hn, hs m1, hs m2, hs m3, s0.1,
    ⟨s1.1, s3.1, s4.1, s5.1, s6.1, s7.1, s8.1, s9.1, s10.1, s11.1, s12.1, s13.1, s14.1⟩, ?_, ?_⟩
  · intro c
    rw [if_pos c] at h
    obtain ⟨q1, k1, h⟩ := Py.bind_ok.1 h
    obtain ⟨q2, k2, h⟩ := Py.bind_ok.1 h
    obtain ⟨q3, k3, h⟩ := Py.bind_ok.1 h
    obtain ⟨q4, k4, h⟩ := Py.bind_ok.1 h
    have t4 := putU_spec k4
    exact ⟨⟨(putU_spec k1).1, (putU_spec k2).1, (putU_spec k3).1, t4.1⟩,
      (encodeRes_spec net.ng net.ofst t4.2.le h).1⟩
  · refine s0.2.trans (w1.trans ?_)
    by_cases c : net.flgTrop % 2 = 1
    · rw [if_pos c] at h ⊢
      obtain ⟨q1, k1, h⟩ := Py.bind_ok.1 h
      obtain ⟨q2, k2, h⟩ := Py.bind_ok.1 h
      obtain ⟨q3, k3, h⟩ := Py.bind_ok.1 h
      obtain ⟨q4, k4, h⟩ := Py.bind_ok.1 h
      have t1 := putU_spec k1
      have t2 := putU_spec k2
      have t3 := putU_spec k3
      have t4 := putU_spec k4
      exact t1.2.trans (t2.2.trans (t3.2.trans (t4.2.trans (encodeRes_spec net.ng net.ofst t4.2.le h).2)))
    · rw [if_neg c] at h ⊢
      cases h
      exact Wr.nil s14.2.le

/-- the network after the message -/
def tropNet (net0 : Net) (e : LEnc) (net : Net) (ah bh ch aw bw cw : Val) (h w : Vec) : Net :=
  { net0 with
    ct := some ((vq 13 (1 / 10000) (23 / 10) h.1, vq 15 (1 / 100000) 0 h.2.1, vq 15 (1 / 100000) 0 h.2.2),
      (vq 13 (1 / 10000) (252 / 1000) w.1, vq 15 (1 / 100000) 0 w.2.1, vq 15 (1 / 100000) 0 w.2.2))
    maph := some (vq 11 (25 / 100000000) (118 / 100000) ah, vq 9 (5 / 1000000) (298 / 100000) bh,
      vq 9 (2 / 10000) (682 / 10000) ch)
    mapw := some (vq 13 (1 / 1000000) (104 / 1000000) aw, vq 6 (25 / 1000000) (15 / 10000) bw,
      vq 5 (2 / 1000) (48 / 1000) cw)
    dth := resArray e.nlen net.ofst ((List.range' net.ofst net.ng).flatMap (resQ e.nlen net.dth))
    dtw := resArray e.mlen net.ofst ((List.range' net.ofst net.ng).flatMap (resQ e.mlen net.dtw))
    ng := net.ng
    ofst := net.ofst }

theorem decodeTrop_spec {e : LEnc} {net : Net} {ah bh ch aw bw cw : Val} {hh w : Vec}
    (f0 : HeadFit e.h .trop .none) (f : TropFit e net ah bh ch aw bw cw hh w) {b : BitBuf} {i : Nat}
    (s : St) (net0 : Net) (hn : s.lc[e.gid]? = some net0)
    (fr : net.flgTrop % 2 = 1 → ResHeadFit e net ∧
        ∀ j, net.ofst ≤ j → j < net.ofst + net.ng → ResFit e.nlen net.dth j ∧ ResFit e.mlen net.dtw j)
    (h : At b i (headBits e.h .trop .none ++ (tropBits e net ah bh ch aw bw cw hh w ++
        if net.flgTrop % 2 = 1 then resPart e net else []))) :
    decodeTrop s b i = if net.flgTrop % 2 = 1 then
      .ok ({ s with
        d := { headState s.d e.h .none with iodssr := e.h.iodssr.toNat }
        rmi := true
        lc := s.lc.set e.gid (tropNet net0 e net ah bh ch aw bw cw hh w) },
        i + (headBits e.h .trop .none ++ (tropBits e net ah bh ch aw bw cw hh w ++ resPart e net)).length)
      else .error .unboundLocal := by
  have hb : FitU 1 ((net.flgTrop % 2 : Nat) : Int) := by unfold FitU; omega
  unfold decodeTrop
  obtain ⟨r0, h⟩ := decodeHead_spec (d := s.d) (fun h => by cases h) f0 h
  have hl : (headBits e.h .trop .none).length = 49 := by
    unfold headBits; rw [if_pos (Or.inr (by decide))]; simp only [List.length_append, ub_length]
  have ht : (tropBits e net ah bh ch aw bw cw hh w).length = 150 := by
    unfold tropBits; simp only [List.length_append, ub_length, sb_length]
  rw [hl] at r0 h
  unfold tropBits at h
  simp only [List.append_assoc] at h
  obtain ⟨r1, h⟩ := stepU f.gid h
  obtain ⟨r2, h⟩ := stepU hb h
  obtain ⟨r3, h⟩ := stepV f.ah h
  obtain ⟨r4, h⟩ := stepV f.bh h
  obtain ⟨r5, h⟩ := stepV f.ch h
  obtain ⟨r6, h⟩ := stepV f.aw h
  obtain ⟨r7, h⟩ := stepV f.bw h
  obtain ⟨r8, h⟩ := stepV f.cw h
  obtain ⟨r9, h⟩ := stepV f.h0 h
  obtain ⟨r10, h⟩ := stepV f.h2 h
  obtain ⟨r11, h⟩ := stepV f.h1 h
  obtain ⟨r12, h⟩ := stepV f.w0 h
  obtain ⟨r13, h⟩ := stepV f.w2 h
  obtain ⟨r14, h⟩ := stepV f.w1 h
  rw [r0]
  simp only [Py.okBind]
  rw [r1]
  simp only [Py.okBind]
  rw [r2]
  simp only [Py.okBind, Int.toNat_natCast]
  have hadd : i + 49 + 10 + 1 = i + 49 + 11 := by omega
  rw [hadd] at r3 r4 r5 r6 r7 r8 r9 r10 r11 r12 r13 r14 h
  simp only [r3, r4, r5, r6, r7, r8, r9, r10, r11, r12, r13, r14, Py.okBind]
  have hg : pyGet s.lc e.gid = .ok net0 := pyGet_ok.2 hn
  by_cases c : net.flgTrop % 2 = 1
  · rw [if_pos c] at h ⊢
    rw [if_pos c]
    obtain ⟨fh, fl⟩ := fr c
    unfold resPart at h
    have hr : (resPart e net).length = 32 + (resLoopBits e.nlen e.mlen net.dth net.dtw net.ng net.ofst).length := by
      unfold resPart; simp only [List.length_append, ub_length]; omega
    rw [← List.append_nil (resLoopBits _ _ _ _ _ _)] at h
    obtain ⟨q1, h⟩ := stepU fh.ofst h
    obtain ⟨q2, h⟩ := stepU fh.ng h
    obtain ⟨q3, h⟩ := stepU fh.n h
    obtain ⟨q4, h⟩ := stepU fh.m h
    have q5 := decodeRes_spec net.ng net.ofst fl h
    simp only [Int.toNat_natCast] at q1 q2 q3 q4
    rw [q1]
    simp only [Py.okBind]
    rw [q2]
    simp only [Py.okBind]
    rw [show ∀ x : Nat, x + 24 = x + 12 + 12 from fun x => by omega, q3]
    simp only [Py.okBind]
    rw [show ∀ x : Nat, x + 28 = x + 12 + 12 + 4 from fun x => by omega, q4]
    simp only [Py.okBind]
    rw [show ∀ x : Nat, x + 32 = x + 12 + 12 + 4 + 4 from fun x => by omega, q5]
    simp only [Py.okBind]
    rw [hg]
    simp only [Py.okBind, pure, Except.pure, List.length_append, hl, ht, hr, tropNet]
    congr 2
    omega
  · rw [if_neg c, if_neg c, hg]
    rfl

/-! ### the grid definition -/

/-- the integer written for `int(y/scl)` -/
def tq (y : Val) (scl : ℚ) : Int :=
  match y with
  | none => 0
  | some y => pyTrunc (y / scl)

theorem truncDiv_ok {y : Val} {scl : ℚ} {u : Int} (h : truncDiv y scl = .ok u) :
    (∃ a, y = some a) ∧ u = tq y scl := by
  cases y with
  | none => cases h
  | some a => cases h; exact ⟨⟨a, rfl⟩, rfl⟩

structure RelFit (r prev : Row) : Prop where
  lat : ∃ a, vsub r.lat prev.lat = some a
  lon : ∃ a, vsub r.lon prev.lon = some a
  fa : FitS 13 (tq (vsub r.lat prev.lat) (1 / 1000))
  fc : FitS 14 (tq (vsub r.lon prev.lon) (1 / 1000))

def rel1Bits : List Row → Row → List Bool
  | [], _ => []
  | r :: l, prev => sb 13 (tq (vsub r.lat prev.lat) (1 / 1000)) ++
      (sb 14 (tq (vsub r.lon prev.lon) (1 / 1000)) ++ rel1Bits l r)

def Rel1Fit : List Row → Row → Prop
  | [], _ => True
  | r :: l, prev => RelFit r prev ∧ Rel1Fit l r

def rel0Bits : List Row → Row → List Bool
  | [], _ => []
  | r :: l, prev => sb 13 (tq (vsub r.lat prev.lat) (1 / 1000)) ++
      (sb 14 (tq (vsub r.lon prev.lon) (1 / 1000)) ++
      (sb 9 (tq (vsub r.alt prev.alt) (25 / 2)) ++ rel0Bits l r))

def Rel0Fit : List Row → Row → Prop
  | [], _ => True
  | r :: l, prev => RelFit r prev ∧ (∃ a, vsub r.alt prev.alt = some a) ∧
      FitS 9 (tq (vsub r.alt prev.alt) (25 / 2)) ∧ Rel0Fit l r

theorem putRel0_spec : ∀ (l : List Row) (prev : Row) {p p' : Pos}, p.2 ≤ p.1.length →
    putRel0 l prev p = .ok p' → Rel0Fit l prev ∧ Wr p p' (rel0Bits l prev)
  | [], prev, p, p', hp, h => by cases h; exact ⟨trivial, Wr.nil hp⟩
  | r :: l, prev, p, p', hp, h => by
    unfold putRel0 at h
    obtain ⟨a, ha, h⟩ := Py.bind_ok.1 h
    obtain ⟨c, hc, h⟩ := Py.bind_ok.1 h
    obtain ⟨t, ht, h⟩ := Py.bind_ok.1 h
    obtain ⟨p1, h1, h⟩ := Py.bind_ok.1 h
    obtain ⟨p2, h2, h⟩ := Py.bind_ok.1 h
    obtain ⟨p3, h3, h⟩ := Py.bind_ok.1 h
    obtain ⟨a1, a2⟩ := truncDiv_ok ha
    obtain ⟨c1, c2⟩ := truncDiv_ok hc
    obtain ⟨t1, t2⟩ := truncDiv_ok ht
    have s1 := putS_spec h1
    have s2 := putS_spec h2
    have s3 := putS_spec h3
    rw [a2] at s1
    rw [c2] at s2
    rw [t2] at s3
    have s4 := putRel0_spec l r s3.2.le h
    exact ⟨⟨⟨a1, c1, s1.1, s2.1⟩, t1, s3.1, s4.1⟩, s1.2.trans (s2.2.trans (s3.2.trans s4.2))⟩

theorem putRel1_spec : ∀ (l : List Row) (prev : Row) {p p' : Pos}, p.2 ≤ p.1.length →
    putRel1 l prev p = .ok p' → Rel1Fit l prev ∧ Wr p p' (rel1Bits l prev)
  | [], prev, p, p', hp, h => by cases h; exact ⟨trivial, Wr.nil hp⟩
  | r :: l, prev, p, p', hp, h => by
    unfold putRel1 at h
    obtain ⟨a, ha, h⟩ := Py.bind_ok.1 h
    obtain ⟨c, hc, h⟩ := Py.bind_ok.1 h
    obtain ⟨p1, h1, h⟩ := Py.bind_ok.1 h
    obtain ⟨p2, h2, h⟩ := Py.bind_ok.1 h
    obtain ⟨a1, a2⟩ := truncDiv_ok ha
    obtain ⟨c1, c2⟩ := truncDiv_ok hc
    have s1 := putS_spec h1
    have s2 := putS_spec h2
    rw [a2] at s1
    rw [c2] at s2
    have s4 := putRel1_spec l r s2.2.le h
    exact ⟨⟨⟨a1, c1, s1.1, s2.1⟩, s4.1⟩, s1.2.trans (s2.2.trans s4.2)⟩

/-- one coordinate of the points the decoder reconstructs -/
def axis (n : Nat) (scl : ℚ) : Val → Val → List Val → List Val
  | _, _, [] => []
  | acc, prev, y :: l => vadd acc (sval (tq (vsub y prev) scl) n scl) ::
      axis n scl (vadd acc (sval (tq (vsub y prev) scl) n scl)) y l

theorem axis_length (n : Nat) (scl : ℚ) : ∀ (l : List Val) (a p : Val), (axis n scl a p l).length = l.length
  | [], _, _ => rfl
  | y :: l, a, p => by simp only [axis, List.length_cons, axis_length n scl l]

/-- rows from the coordinates -/
def mkRows (gid : Nat) : Nat → List Val → List Val → List Val → List Row
  | k, a :: la, c :: lc, h :: lh => ⟨gid, (k : Int), a, c, h⟩ :: mkRows gid (k + 1) la lc lh
  | _, _, _, _ => []

theorem mkRows_length (gid : Nat) : ∀ (k : Nat) (la lc lh : List Val), la.length = lc.length →
    lc.length = lh.length → (mkRows gid k la lc lh).length = la.length
  | k, [], [], [], _, _ => rfl
  | k, a :: la, c :: lc, h :: lh, h1, h2 => by
    simp only [List.length_cons, Nat.add_right_cancel_iff] at h1 h2
    simp only [mkRows, List.length_cons, mkRows_length gid (k + 1) la lc lh h1 h2]

theorem mkRows_get (gid : Nat) : ∀ (k : Nat) (la lc lh : List Val) (j : Nat) (a c h : Val),
    la[j]? = some a → lc[j]? = some c → lh[j]? = some h →
    (mkRows gid k la lc lh)[j]? = some ⟨gid, ((k + j : Nat) : Int), a, c, h⟩
  | k, a :: la, c :: lc, h :: lh, 0, a', c', h', h1, h2, h3 => by
    simp only [List.getElem?_cons_zero, Option.some.injEq] at h1 h2 h3
    subst h1 h2 h3
    simp [mkRows]
  | k, a :: la, c :: lc, h :: lh, j + 1, a', c', h', h1, h2, h3 => by
    simp only [List.getElem?_cons_succ] at h1 h2 h3
    simp only [mkRows, List.getElem?_cons_succ]
    rw [mkRows_get gid (k + 1) la lc lh j a' c' h' h1 h2 h3]
    congr 3
    omega

theorem rdRel0_spec {gid : Nat} {b : BitBuf} {t : List Bool} : ∀ (l : List Row) (prev : Row) (k : Nat)
    (lat lon alt : Val) (i : Nat), Rel0Fit l prev → At b i (rel0Bits l prev ++ t) →
    ∃ ds, rdRel0 gid b l.length k lat lon alt i = .ok
      (mkRows gid (k + 1) (axis 13 (1 / 1000) lat prev.lat (l.map (·.lat)))
        (axis 14 (1 / 1000) lon prev.lon (l.map (·.lon))) (axis 9 (25 / 2) alt prev.alt (l.map (·.alt))), ds,
        i + (rel0Bits l prev).length) ∧ ds.length = l.length
  | [], prev, k, lat, lon, alt, i, _, _ => ⟨[], rfl, rfl⟩
  | r :: l, prev, k, lat, lon, alt, i, hf, h => by
    unfold rel0Bits at h
    simp only [List.append_assoc] at h
    obtain ⟨f1, _, f3, f4⟩ := hf
    obtain ⟨r1, h⟩ := stepS f1.fa h
    obtain ⟨r2, h⟩ := stepS f1.fc h
    obtain ⟨r3, h⟩ := stepS f3 h
    obtain ⟨ds, hd, hl⟩ := rdRel0_spec (gid := gid) l r (k + 1)
      (vadd lat (sval (tq (vsub r.lat prev.lat) (1 / 1000)) 13 (1 / 1000)))
      (vadd lon (sval (tq (vsub r.lon prev.lon) (1 / 1000)) 14 (1 / 1000)))
      (vadd alt (sval (tq (vsub r.alt prev.alt) (25 / 2)) 9 (25 / 2))) _ f4 h
    refine ⟨(sval (tq (vsub r.lat prev.lat) (1 / 1000)) 13 (1 / 1000),
      sval (tq (vsub r.lon prev.lon) (1 / 1000)) 14 (1 / 1000),
      sval (tq (vsub r.alt prev.alt) (25 / 2)) 9 (25 / 2)) :: ds, ?_, by rw [List.length_cons, List.length_cons, hl]⟩
    rw [List.length_cons]
    unfold rdRel0
    rw [r1]
    simp only [Py.okBind]
    rw [r2]
    simp only [Py.okBind]
    rw [show i + 27 = i + 13 + 14 by omega, r3]
    simp only [Py.okBind]
    rw [show i + 36 = i + 13 + 14 + 9 by omega, hd]
    simp only [Py.okBind, pure, Except.pure, List.map_cons, axis, mkRows]
    congr 3
    unfold rel0Bits
    simp only [List.length_append, sb_length]
    rw [rel0Bits.eq_def]
    omega

theorem setRow_ok {l : List Vec} {j : Int} {v : Vec} (h1 : -(l.length : Int) ≤ j) (h2 : j < l.length) :
    ∃ l', setRow l j v = .ok l' ∧ l'.length = l.length := by
  unfold setRow pySet
  by_cases c : 0 ≤ j
  · rw [if_pos c, if_pos (by omega : j.toNat < l.length)]
    exact ⟨_, rfl, by simp⟩
  · rw [if_neg c, if_pos (by omega : 0 ≤ j + l.length), if_pos (by omega : (j + l.length).toNat < l.length)]
    exact ⟨_, rfl, by simp⟩

theorem rdRel1_spec {gid ofst : Nat} {b : BitBuf} {t : List Bool} : ∀ (l : List Row) (prev : Row) (k : Nat)
    (lat lon : Val) (dp : List Vec) (i : Nat), Rel1Fit l prev → At b i (rel1Bits l prev ++ t) →
    ofst ≤ dp.length → k + l.length = dp.length →
    ∃ ds, rdRel1 gid ofst b l.length k lat lon dp i = .ok
      (mkRows gid k (axis 13 (1 / 1000) lat prev.lat (l.map (·.lat)))
        (axis 14 (1 / 1000) lon prev.lon (l.map (·.lon))) (List.replicate l.length (some 0)), ds,
        i + (rel1Bits l prev).length) ∧ ds.length = dp.length
  | [], prev, k, lat, lon, dp, i, _, _, _, _ => ⟨dp, rfl, rfl⟩
  | r :: l, prev, k, lat, lon, dp, i, hf, h, ho, hk => by
    unfold rel1Bits at h
    simp only [List.append_assoc] at h
    obtain ⟨f1, f4⟩ := hf
    obtain ⟨r1, h⟩ := stepS f1.fa h
    obtain ⟨r2, h⟩ := stepS f1.fc h
    rw [List.length_cons] at hk
    obtain ⟨dp', hd', hl'⟩ := setRow_ok (l := dp) (j := (k : Int) - ofst)
      (v := (sval (tq (vsub r.lat prev.lat) (1 / 1000)) 13 (1 / 1000),
        sval (tq (vsub r.lon prev.lon) (1 / 1000)) 14 (1 / 1000), some 0)) (by omega) (by omega)
    obtain ⟨ds, hd, hl⟩ := rdRel1_spec (gid := gid) (ofst := ofst) l r (k + 1)
      (vadd lat (sval (tq (vsub r.lat prev.lat) (1 / 1000)) 13 (1 / 1000)))
      (vadd lon (sval (tq (vsub r.lon prev.lon) (1 / 1000)) 14 (1 / 1000))) dp' _ f4 h (by omega) (by omega)
    refine ⟨ds, ?_, by rw [hl, hl']⟩
    rw [List.length_cons]
    unfold rdRel1
    rw [r1]
    simp only [Py.okBind]
    rw [r2]
    simp only [Py.okBind]
    rw [hd']
    simp only [Py.okBind]
    rw [show i + 27 = i + 13 + 14 by omega, hd]
    simp only [Py.okBind, pure, Except.pure, List.map_cons, axis, mkRows, List.replicate_succ]
    congr 3
    unfold rel1Bits
    simp only [List.length_append, sb_length]
    rw [rel1Bits.eq_def]
    omega

end Verif.RtcmLoc
