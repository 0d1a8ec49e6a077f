import Verif.Props.C55
import Verif.Lemmas.At
/-! What the functions of the QZNMA decoder do to the authentication record. -/

namespace Verif.Qznma
open Verif.Sat (Sys prn2sat sat2prn)
variable {PK : Type}

/-- number of good signatures recorded for a satellite and issue -/
def cntOf (v : Dict Int (Dict Nat Nat)) (sat : Int) (iode : Nat) : Nat :=
  ((v.get? sat).bind fun d => d.get? iode).getD 0

theorem cnt_bump (v : Dict Int (Dict Nat Nat)) (sat sat' : Int) (iode iode' : Nat) :
    cntOf (bump v sat iode) sat' iode' =
      cntOf v sat' iode' + if sat' = sat ∧ iode' = iode then 1 else 0 := by
  unfold cntOf bump
  simp only [Dict.get?_set]
  by_cases h1 : sat' = sat
  · subst h1
    simp only [true_and, if_true, Option.bind_some]
    rw [Dict.get?_set]
    by_cases h2 : iode' = iode
    · subst h2
      simp only [if_true, Option.getD_some]
      cases hv : v.get? sat' with
      | none => simp
      | some d =>
        simp only [Option.getD_some, Option.bind_some]
        cases d.get? iode' <;> simp
    · simp only [h2, if_false, Nat.add_zero]
      cases hv : v.get? sat' with
      | none => simp
      | some d => simp
  · simp [h1]

theorem fillU_inv {d out : BitBuf} {r i n v : Nat}
    (h : writeU (d ++ List.replicate r false) i n v = .ok out) (hi : i = d.length) (hn : n ≤ r) :
    out = (d ++ natToBits n v) ++ List.replicate (r - n) false := by
  have hv : v < 2 ^ n := by
    unfold writeU at h
    split at h
    · assumption
    · cases h
  rw [Osnma.fillU d r i n v hi hn hv] at h
  cases h; rfl

theorem fillCopy_inv {src d out : BitBuf} {r os od n : Nat}
    (h : CopyBuff.copyBuff src (d ++ List.replicate r false) os od n = .ok out) (hi : od = d.length)
    (h0 : 0 < n) (hn : n ≤ r) : os + n ≤ src.length ∧
    out = (d ++ (src.drop os).take n) ++ List.replicate (r - n) false := by
  have hb : os + n ≤ src.length := by
    by_contra hc
    rw [C08.copyBuff_raises src _ os od n h0 (by omega)] at h
    cases h
  rw [Osnma.fillCopy src d r os od n hi hn hb] at h
  cases h
  exact ⟨hb, rfl⟩

/-- number of message bits signed, and filling bits at the end -/
def msgBits (mt : Nat) : Nat := if mt = 4 then 976 else if mt = 5 then 640 else if mt = 3 then 609 else 900
def padBits (mt : Nat) : Nat := if mt = 4 then 3 else if mt = 5 then 3 else if mt = 3 then 10 else 7

theorem gnssRand_eq {npr : NavParam} {mnav r : BitBuf} (h : gnssRand npr mnav = .ok r) :
    msgBits npr.mt ≤ mnav.length ∧
    r = (natToBits 4 npr.nid ++ (natToBits 20 npr.rtow ++ (natToBits 8 npr.svid ++
      (natToBits 4 npr.mt ++ (natToBits 11 npr.iode1 ++ (natToBits 11 npr.iode2 ++
      (natToBits 11 npr.iodc ++ natToBits 8 npr.keyid))))))) ++ mnav.take (msgBits npr.mt) ++
      natToBits 16 npr.salt ++ List.replicate (padBits npr.mt) false := by
  unfold gnssRand at h
  obtain ⟨⟨blen, mlen⟩, h0, h⟩ := Py.bind_ok.1 h
  have hlen : mlen = msgBits npr.mt ∧ 8 * blen = 77 + mlen + 16 + padBits npr.mt ∧ 0 < mlen := by
    unfold gnssLen at h0
    unfold msgBits padBits
    split at h0
    · rename_i e; rw [show npr.mt = 1 from e]; cases h0; decide
    split at h0
    · rename_i e; rw [show npr.mt = 2 from e]; cases h0; decide
    split at h0
    · rename_i e; rw [show npr.mt = 3 from e]; cases h0; decide
    split at h0
    · rename_i e; rw [show npr.mt = 4 from e]; cases h0; decide
    split at h0
    · rename_i e; rw [show npr.mt = 5 from e]; cases h0; decide
    · cases h0
  obtain ⟨r1, h1, h⟩ := Py.bind_ok.1 h
  obtain ⟨r2, h2, h⟩ := Py.bind_ok.1 h
  obtain ⟨r3, h3, h⟩ := Py.bind_ok.1 h
  obtain ⟨r4, h4, h⟩ := Py.bind_ok.1 h
  obtain ⟨r5, h5, h⟩ := Py.bind_ok.1 h
  obtain ⟨r6, h6, h⟩ := Py.bind_ok.1 h
  obtain ⟨r7, h7, h⟩ := Py.bind_ok.1 h
  obtain ⟨r8, h8, h⟩ := Py.bind_ok.1 h
  obtain ⟨r9, h9, h⟩ := Py.bind_ok.1 h
  have e1 := fillU_inv (d := []) (r := 8 * blen) h1 rfl (by omega)
  rw [e1] at h2
  have e2 := fillU_inv h2 (by simp) (by omega)
  rw [e2] at h3
  have e3 := fillU_inv h3 (by simp) (by omega)
  rw [e3] at h4
  have e4 := fillU_inv h4 (by simp) (by omega)
  rw [e4] at h5
  have e5 := fillU_inv h5 (by simp) (by omega)
  rw [e5] at h6
  have e6 := fillU_inv h6 (by simp) (by omega)
  rw [e6] at h7
  have e7 := fillU_inv h7 (by simp) (by omega)
  rw [e7] at h8
  have e8 := fillU_inv h8 (by simp) (by omega)
  rw [e8] at h9
  obtain ⟨hb, e9⟩ := fillCopy_inv h9 (by simp) hlen.2.2 (by omega)
  rw [e9] at h
  have e10 := fillU_inv h (by simp; omega) (by omega)
  rw [← hlen.1]
  refine ⟨by omega, ?_⟩
  rw [e10]
  simp only [List.nil_append, List.drop_zero, List.append_assoc]
  congr 11
  omega

/-- `verify_gnss_nav`: exactly when it accepts and what it records -/
theorem verifyGnss_spec {p : Prim PK} {s t : St PK} {npr : NavParam} {mnav : BitBuf} {b : Bool}
    (h : verifyGnss p s npr mnav = .ok (t, b)) :
    ∃ r sat, gnssRand npr mnav = .ok r ∧ svid2sat npr.svid = .ok sat ∧
      t.navmsg = s.navmsg ∧ t.vcntMin = s.vcntMin ∧ t.npr = s.npr ∧
      if b then ∃ pk, getKey p s.pk npr.keyid = .ok (some pk) ∧ t.pk = some pk ∧
        p.sig pk npr.ds r = .ok true ∧ t.vstatus = bump s.vstatus sat npr.iode1
      else t.vstatus = s.vstatus ∧ ((getKey p s.pk npr.keyid = .ok none ∧ t.pk = s.pk) ∨
        ∃ pk, getKey p s.pk npr.keyid = .ok (some pk) ∧ t.pk = some pk ∧
          p.sig pk npr.ds r = .ok false) := by
  unfold verifyGnss at h
  obtain ⟨r, h1, h⟩ := Py.bind_ok.1 h
  obtain ⟨sat, h2, h⟩ := Py.bind_ok.1 h
  obtain ⟨k, h3, h⟩ := Py.bind_ok.1 h
  refine ⟨r, sat, h1, h2, ?_⟩
  cases k with
  | none =>
    rw [Py.pure_ok] at h; cases h
    exact ⟨rfl, rfl, rfl, rfl, Or.inl ⟨h3, rfl⟩⟩
  | some pk =>
    obtain ⟨v, h4, h⟩ := Py.bind_ok.1 h
    cases v with
    | false =>
      rw [if_neg (by simp), Py.pure_ok] at h; cases h
      exact ⟨rfl, rfl, rfl, rfl, Or.inr ⟨pk, h3, rfl, h4⟩⟩
    | true =>
      rw [if_pos rfl] at h
      obtain ⟨t', h5, h⟩ := Py.bind_ok.1 h
      rw [Py.pure_ok] at h; cases h
      unfold markGnss at h5
      simp only at h5
      have key : t.navmsg = s.navmsg ∧ t.vcntMin = s.vcntMin ∧ t.npr = s.npr ∧ t.pk = some pk ∧
          t.vstatus = bump s.vstatus sat npr.iode1 := by
        split at h5
        · obtain ⟨nm, h6, h5⟩ := Py.bind_ok.1 h5
          split at h5
          · obtain ⟨n, h7, h5⟩ := Py.bind_ok.1 h5
            rw [Py.pure_ok] at h5; cases h5
            exact ⟨rfl, rfl, rfl, rfl, rfl⟩
          · rw [Py.pure_ok] at h5; cases h5
            exact ⟨rfl, rfl, rfl, rfl, rfl⟩
        · rw [Py.pure_ok] at h5; cases h5
          exact ⟨rfl, rfl, rfl, rfl, rfl⟩
      exact ⟨key.1, key.2.1, key.2.2.1, pk, h3, key.2.2.2.1, h4, key.2.2.2.2⟩

/-! QZSS messages -/

def qzssPad (mode : Nat) : Nat := if mode = 1 then 4 else if mode = 2 then 172 else 167

theorem qzssRand_eq {npr : NavParam} {mnav r : BitBuf} {mode : Nat}
    (h : qzssRand npr mnav mode = .ok r)
    (hm : mnav.length = if mode = 3 then 616 else 904) :
    (mode = 1 ∨ mode = 2 ∨ mode = 3) ∧ npr.keyid < 256 ∧ npr.salt < 2 ^ 16 ∧
    r = natToBits 8 npr.keyid ++ mnav.take (msgBits mode) ++ natToBits 16 npr.salt ++
      List.replicate (qzssPad mode) false := by
  unfold qzssRand at h
  obtain ⟨⟨blen, mlen⟩, h0, h⟩ := Py.bind_ok.1 h
  have hlen : (mode = 1 ∨ mode = 2 ∨ mode = 3) ∧ mlen = msgBits mode ∧
      8 * blen = 8 + mlen + 16 + qzssPad mode ∧ 8 * ((mlen + 7) / 8) = mnav.length ∧
      mlen ≤ mnav.length ∧ mnav.length ≤ mlen + 16 := by
    rw [hm]
    unfold qzssLen at h0
    unfold msgBits qzssPad
    split at h0
    · rename_i e; rw [show mode = 1 from e]; cases h0; decide
    split at h0
    · rename_i e; rw [show mode = 2 from e]; cases h0; decide
    split at h0
    · rename_i e; rw [show mode = 3 from e]; cases h0; decide
    · cases h0
  obtain ⟨r1, h1, h⟩ := Py.bind_ok.1 h
  obtain ⟨hmode, e1, e2, e3, e4, e5⟩ := hlen
  unfold keyByte at h1
  split at h1
  · rename_i hk
    rw [Py.ok_ok] at h1
    have hs : splice (zeros blen) 0 (natToBits 8 npr.keyid) =
        natToBits 8 npr.keyid ++ List.replicate (8 * blen - 8) false := by
      have := Osnma.splice_fill [] (natToBits 8 npr.keyid) (8 * blen)
      rw [natToBits_length, List.nil_append, List.nil_append] at this
      exact this
    rw [hs] at h1
    have hslice : setSlice r1 1 ((mlen + 7) / 8) mnav = (natToBits 8 npr.keyid ++ mnav) ++
        List.replicate (8 * blen - 8 - mnav.length) false := by
      unfold setSlice
      rw [← h1, List.take_append_of_le_length (by simp), List.take_of_length_le (by simp)]
      congr 1
      rw [List.drop_append, List.drop_of_length_le (by simp), List.nil_append,
        natToBits_length, List.drop_replicate]
      congr 1
      omega
    replace h : writeU (setSlice r1 1 ((mlen + 7) / 8) mnav) (8 + mlen) 16 npr.salt = .ok r := h
    rw [hslice] at h
    unfold writeU at h
    split at h
    · rename_i hsalt
      split at h
      · cases h
        refine ⟨hmode, hk, hsalt, ?_⟩
        unfold splice
        rw [natToBits_length]
        have t1 : ((natToBits 8 npr.keyid ++ mnav) ++
            List.replicate (8 * blen - 8 - mnav.length) false).take (8 + mlen) =
            natToBits 8 npr.keyid ++ mnav.take mlen := by
          rw [List.take_append_of_le_length (by simp; omega), List.take_append,
            List.take_of_length_le (by simp), natToBits_length, Nat.add_sub_cancel_left]
        have t2 : ((natToBits 8 npr.keyid ++ mnav) ++
            List.replicate (8 * blen - 8 - mnav.length) false).drop (8 + mlen + 16) =
            List.replicate (qzssPad mode) false := by
          rw [List.drop_append, List.drop_of_length_le (by simp; omega), List.nil_append,
            List.drop_replicate]
          congr 1
          simp; omega
        rw [t1, t2, e1]
      · cases h
    · cases h
  · cases h1

theorem verifyQzss_spec {p : Prim PK} {s t : St PK} {sat : Int} {o : Option NavParam}
    {mnav : BitBuf} {mode : Nat} {b : Bool}
    (h : verifyQzss p s sat o mnav mode = .ok (t, b)) :
    ∃ npr r, o = some npr ∧ qzssRand npr mnav mode = .ok r ∧
      t.navmsg = s.navmsg ∧ t.vcntMin = s.vcntMin ∧ t.npr = s.npr ∧ t.buff = s.buff ∧
      if b then ∃ pk, getKey p s.pk npr.keyid = .ok (some pk) ∧ t.pk = some pk ∧
        p.sig pk npr.ds r = .ok true ∧ t.vstatus = bump s.vstatus sat npr.iode1
      else t.vstatus = s.vstatus ∧ ((getKey p s.pk npr.keyid = .ok none ∧ t.pk = s.pk) ∨
        ∃ pk, getKey p s.pk npr.keyid = .ok (some pk) ∧ t.pk = some pk ∧
          p.sig pk npr.ds r = .ok false) := by
  unfold verifyQzss at h
  cases o with
  | none => simp only [Py.throw_ok] at h
  | some npr =>
    simp only at h
    obtain ⟨r, h1, h⟩ := Py.bind_ok.1 h
    obtain ⟨k, h3, h⟩ := Py.bind_ok.1 h
    refine ⟨npr, r, rfl, h1, ?_⟩
    cases k with
    | none =>
      rw [Py.pure_ok] at h; cases h
      exact ⟨rfl, rfl, rfl, rfl, rfl, Or.inl ⟨h3, rfl⟩⟩
    | some pk =>
      obtain ⟨v, h4, h⟩ := Py.bind_ok.1 h
      cases v with
      | false =>
        rw [if_neg (by simp), Py.pure_ok] at h; cases h
        exact ⟨rfl, rfl, rfl, rfl, rfl, Or.inr ⟨pk, h3, rfl, h4⟩⟩
      | true =>
        rw [if_pos rfl] at h
        obtain ⟨t', h5, h⟩ := Py.bind_ok.1 h
        rw [Py.pure_ok] at h; cases h
        unfold markQzss at h5
        simp only at h5
        have key : t.navmsg = s.navmsg ∧ t.vcntMin = s.vcntMin ∧ t.npr = s.npr ∧ t.buff = s.buff ∧
            t.pk = some pk ∧ t.vstatus = bump s.vstatus sat npr.iode1 := by
          split at h5
          · obtain ⟨nm, h6, h5⟩ := Py.bind_ok.1 h5
            rw [Py.pure_ok] at h5; cases h5
            exact ⟨rfl, rfl, rfl, rfl, rfl, rfl⟩
          · rw [Py.pure_ok] at h5; cases h5
            exact ⟨rfl, rfl, rfl, rfl, rfl, rfl⟩
        exact ⟨key.1, key.2.1, key.2.2.1, key.2.2.2.1, pk, h3, key.2.2.2.2.1, h4, key.2.2.2.2.2⟩

/-! Steps that do not touch the authentication record -/

/-- authentication record, key and threshold are as before, and no signature carries an issue -/
structure Quiet (s t : St PK) : Prop where
  v : t.vstatus = s.vstatus
  k : t.pk = s.pk
  c : t.vcntMin = s.vcntMin
  n : (∀ a n, s.npr.get? a = some (some n) → n.iode1 = 0) →
    ∀ a n, t.npr.get? a = some (some n) → n.iode1 = 0

theorem Quiet.refl (s : St PK) : Quiet s s := ⟨rfl, rfl, rfl, fun h => h⟩
theorem Quiet.trans {s t u : St PK} (h1 : Quiet s t) (h2 : Quiet t u) : Quiet s u :=
  ⟨h2.v.trans h1.v, h2.k.trans h1.k, h2.c.trans h1.c, fun h => h2.n (h1.n h)⟩

theorem initSat_quiet (s : St PK) (sat : Int) : Quiet s (initSat s sat) := by
  unfold initSat
  split
  · exact Quiet.refl s
  · refine ⟨rfl, rfl, rfl, fun h a n hn => ?_⟩
    simp only [Dict.get?_set] at hn
    split at hn
    · cases hn
    · exact h a n hn

theorem genRds_spec {s t : St PK} {sat : Int} {mode : Nat} {msg : BitBuf} {o : Option NavParam}
    (h : genRds s sat mode msg = .ok (t, o)) :
    t.vstatus = s.vstatus ∧ t.pk = s.pk ∧ t.vcntMin = s.vcntMin ∧ t.npr = s.npr ∧
      ∀ n, o = some n → n.iode1 = 0 := by
  unfold genRds at h
  obtain ⟨r0, h0, h⟩ := Py.bind_ok.1 h
  obtain ⟨m0, hm0, h⟩ := Py.bind_ok.1 h
  obtain ⟨⟨rds, mask⟩, h1, h⟩ := Py.bind_ok.1 h
  simp only at h
  split at h
  · obtain ⟨a, ha, h⟩ := Py.bind_ok.1 h
    obtain ⟨b, hb, h⟩ := Py.bind_ok.1 h
    obtain ⟨c, hc, h⟩ := Py.bind_ok.1 h
    rw [Py.pure_ok] at h; cases h
    exact ⟨rfl, rfl, rfl, rfl, fun n hn => by cases hn; rfl⟩
  · rw [Py.pure_ok] at h; cases h
    exact ⟨rfl, rfl, rfl, rfl, fun n hn => by cases hn⟩

theorem rdsStep_quiet {s t : St PK} {sat : Int} {mode : Nat} {msg : BitBuf} {tow : Int}
    {clear : Bool} (h : rdsStep s sat mode msg tow clear = .ok t) : Quiet s t := by
  unfold rdsStep at h
  obtain ⟨⟨s1, o⟩, h1, h⟩ := Py.bind_ok.1 h
  obtain ⟨g1, g2, g3, g4, g5⟩ := genRds_spec h1
  obtain ⟨m, hm, h⟩ := Py.bind_ok.1 h
  have key : t.vstatus = s1.vstatus ∧ t.pk = s1.pk ∧ t.vcntMin = s1.vcntMin ∧
      t.npr = s1.npr.set sat o := by
    split at h
    · rw [Py.pure_ok] at h
      cases clear <;> cases h <;> exact ⟨rfl, rfl, rfl, rfl⟩
    · rw [Py.pure_ok] at h
      cases h; exact ⟨rfl, rfl, rfl, rfl⟩
  refine ⟨key.1.trans g1, key.2.1.trans g2, key.2.2.1.trans g3, fun hs a n hn => ?_⟩
  rw [key.2.2.2, Dict.get?_set] at hn
  split at hn
  · exact g5 n (by simpa using hn)
  · rw [g4] at hn; exact hs a n hn

theorem msg2nav_quiet {s t : St PK} {sat : Int} {i0 : Nat} {msg : BitBuf} {mode : Nat}
    (h : msg2nav s sat i0 msg mode = .ok t) : Quiet s t := by
  unfold msg2nav at h
  simp only at h
  obtain ⟨b, hb, h⟩ := Py.bind_ok.1 h
  obtain ⟨f, hf, h⟩ := Py.bind_ok.1 h
  obtain ⟨o, ho, h⟩ := Py.bind_ok.1 h
  have key : ∀ s' : St PK, s'.vstatus = s.vstatus → s'.pk = s.pk → s'.vcntMin = s.vcntMin →
      s'.npr = s.npr → Quiet s s' := fun s' a b c d => ⟨a, b, c, fun h => by rwa [d]⟩
  cases o with
  | none =>
    rw [Py.pure_ok] at h; cases h
    apply key <;> dsimp only <;> unfold ensureBuff <;> split <;> rfl
  | some nm =>
    obtain ⟨st, hst, h⟩ := Py.bind_ok.1 h
    rw [Py.pure_ok] at h; cases h
    apply key <;> dsimp only <;> unfold ensureBuff <;> split <;> rfl

end Verif.Qznma
