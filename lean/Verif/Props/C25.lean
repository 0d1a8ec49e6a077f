import Verif.Lemmas.Qznma
/-!
# C25 QZSS NMA: the signature check gates the authenticated status
-/

namespace Verif.C25
open Verif.Qznma Verif.Sat
variable {PK : Type}

/-! ## Histories -/

/-- one call of the user -/
inductive Op where
  /-- `load_navmsg_lnav/cnav/fnav/inav` with the messages of one satellite -/
  | load (mt : Nat) (prn : Int) (msgs : List BitBuf)
  /-- `decode(tow, msg, msg_n, sat, navmode)` -/
  | decode (msg msgN : Option BitBuf) (sat : Int) (navmode : Nat)

def step (p : Prim PK) (s : St PK) : Op → Py (St PK)
  | .load mt prn msgs => do
    let st ← if mt = 1 then loadLnav s.navmsg prn msgs else if mt = 2 then loadCnav s.navmsg prn msgs
      else if mt = 4 then loadFnav s.navmsg prn msgs else loadInav s.navmsg prn msgs
    return { s with navmsg := st }
  | .decode msg msgN sat navmode => decode p s msg msgN sat navmode

def run (p : Prim PK) (h : List Op) : Py (St PK) := h.foldlM (step p) {}

/-- the number of times a satellite and issue were accepted -/
def accepted (s : St PK) (sat : Int) (iode : Nat) : Nat := cntOf s.vstatus sat iode

/-! ## What an acceptance means -/

/-- satellite numbers used by the authentication records -/
def svidSat (svid : Nat) (sat : Int) : Prop :=
  (1 ≤ svid ∧ svid ≤ 63 ∧ sat = prn2sat .gps svid) ∨
  (64 ≤ svid ∧ svid ≤ 127 ∧ sat = prn2sat .gal (svid - 64)) ∨
  (128 ≤ svid ∧ svid ≤ 191 ∧ sat = prn2sat .sbs svid) ∨
  (192 ≤ svid ∧ svid ≤ 202 ∧ sat = prn2sat .qzs svid)

/-- the data of which the signature in the record at bit `i` of an L6 message must be valid: the
head of the record, the kept bits of the stored message with the time of the record, the salt -/
def signedGnss (l6 : BitBuf) (i mt : Nat) (stored : BitBuf) (rtow : Nat) : BitBuf :=
  (l6.drop i).take 77 ++ (List.range (msgBits mt)).map (C55.gnssBit mt stored rtow) ++
    (l6.drop (i + 589)).take 16 ++ List.replicate (padBits mt) false

/-- the record at bit `i` of `l6` names this satellite and issue, the message it names is stored,
and its signature is valid for that message -/
def GnssValid (p : Prim PK) (store : Store) (pk : PK) (l6 : BitBuf) (i : Nat) (sat : Int)
    (iode : Nat) : Prop :=
  ∃ svid mt rtow nm, readU l6 (i + 24) 8 = .ok svid ∧ svidSat svid sat ∧
    readU l6 (i + 36) 11 = .ok iode ∧ readU l6 (i + 32) 4 = .ok mt ∧
    (mt = 1 ∨ mt = 2 ∨ mt = 4 ∨ mt = 5) ∧ readU l6 (i + 4) 20 = .ok rtow ∧
    lookup store sat iode mt = some nm ∧
    p.sig pk ((l6.drop (i + 77)).take 512) (signedGnss l6 i mt nm.msg rtow) = .ok true

/-- the message signed by QZSS satellites themselves: the kept bits of the three collected LNAV or
CNAV messages, or of the CNAV2 message just received -/
def qzssBits (mode : Nat) (buf : BitBuf) : BitBuf :=
  let keep (o : Option Nat) : Bool := match o with | some i => buf.getD i false | none => false
  if mode = 1 then (List.range 900).map fun q => keep (C55.lnavSource true q)
  else if mode = 2 then (List.range 900).map fun q => keep (C55.cnavSource true q)
  else (List.range 609).map fun q => if q < 9 then buf.getD q false else keep (C55.cnav2Source q)

/-- the last signature `npr` received from the QZSS satellite is valid for its collected message -/
def QzssValid (p : Prim PK) (pk : PK) (npr : NavParam) (mode : Nat) (buf : BitBuf) : Prop :=
  p.sig pk npr.ds (natToBits 8 npr.keyid ++ qzssBits mode buf ++ natToBits 16 npr.salt ++
    List.replicate (qzssPad mode) false) = .ok true

/-- the key in use was read from the key directory -/
def FromDir (p : Prim PK) (pk : PK) : Prop := ∃ keyid, p.loadKey keyid = .ok (some pk)

/-- what one `decode` call, from `s` to `t`, has checked when it accepts `sat`, `iode` -/
def Checked (p : Prim PK) (s t : St PK) (msg msgN : Option BitBuf) (arg : Int) (navmode : Nat)
    (sat : Int) (iode : Nat) : Prop :=
  ∃ pk, FromDir p pk ∧ t.pk = some pk ∧
    ((∃ m u npr buf, msg = some m ∧ decodeNav p s m arg navmode = .ok u ∧ sat = arg ∧ iode = 0 ∧
        u.npr.get? arg = some (some npr) ∧
        (if navmode = 3 then buf = m else u.buff.get? arg = some buf) ∧
        QzssValid p pk npr navmode buf) ∨
     (∃ l6 i, msgN = some l6 ∧ readU l6 40 3 = .ok 3 ∧ (i = 49 ∨ i = 654) ∧
        GnssValid p t.navmsg pk l6 i sat iode))

/-! ## Proofs -/

theorem getKey_dir {p : Prim PK} {o : Option PK} {k : Nat} {pk : PK}
    (ho : ∀ pk, o = some pk → FromDir p pk) (h : getKey p o k = .ok (some pk)) : FromDir p pk := by
  unfold getKey at h
  cases o with
  | none => exact ⟨k, h⟩
  | some x => cases h; exact ho _ rfl

theorem getKey_keep {p : Prim PK} {o : Option PK} {k : Nat} {pk x : PK}
    (h : getKey p o k = .ok (some pk)) (hx : o = some x) : pk = x := by
  unfold getKey at h
  subst hx
  cases h; rfl

theorem svid2sat_spec {svid : Nat} {sat : Int} (h : svid2sat svid = .ok sat) (h0 : svid ≠ 0) :
    svidSat svid sat := by
  unfold svid2sat at h
  unfold svidSat
  split at h
  · cases h; exact Or.inl ⟨by omega, by omega, rfl⟩
  split at h
  · cases h; exact Or.inr (Or.inl ⟨by omega, by omega, rfl⟩)
  split at h
  · cases h; exact Or.inr (Or.inr (Or.inl ⟨by omega, by omega, rfl⟩))
  split at h
  · cases h; exact Or.inr (Or.inr (Or.inr ⟨by omega, by omega, rfl⟩))
  · cases h

/-- a record that is looked at names a stored message -/
theorem decodeGnssRds_spec {st : Store} {l6 mnav : BitBuf} {i : Nat} {npr : NavParam}
    (h : decodeGnssRds st l6 i = .ok (some (npr, mnav))) :
    ∃ sat nm, svid2sat npr.svid = .ok sat ∧ npr.svid ≠ 0 ∧ lookup st sat npr.iode1 npr.mt = some nm ∧
      buildMnav npr.mt nm.msg npr.rtow = .ok mnav ∧ npr.ds = (l6.drop (i + 77)).take 512 ∧
      readU l6 i 4 = .ok npr.nid ∧ readU l6 (i + 4) 20 = .ok npr.rtow ∧
      readU l6 (i + 24) 8 = .ok npr.svid ∧ readU l6 (i + 32) 4 = .ok npr.mt ∧
      readU l6 (i + 36) 11 = .ok npr.iode1 ∧ readU l6 (i + 47) 11 = .ok npr.iode2 ∧
      readU l6 (i + 58) 11 = .ok npr.iodc ∧ readU l6 (i + 69) 8 = .ok npr.keyid ∧
      readU l6 (i + 589) 16 = .ok npr.salt := by
  unfold decodeGnssRds at h
  obtain ⟨nid, h1, h⟩ := Py.bind_ok.1 h
  obtain ⟨rtow, h2, h⟩ := Py.bind_ok.1 h
  obtain ⟨svid, h3, h⟩ := Py.bind_ok.1 h
  obtain ⟨mt, h4, h⟩ := Py.bind_ok.1 h
  obtain ⟨iode1, h5, h⟩ := Py.bind_ok.1 h
  obtain ⟨iode2, h6, h⟩ := Py.bind_ok.1 h
  obtain ⟨iodc, h7, h⟩ := Py.bind_ok.1 h
  obtain ⟨keyid, h8, h⟩ := Py.bind_ok.1 h
  obtain ⟨ds, h9, h⟩ := Py.bind_ok.1 h
  obtain ⟨salt, h10, h⟩ := Py.bind_ok.1 h
  obtain ⟨sat, h11, h⟩ := Py.bind_ok.1 h
  split at h
  · rw [Py.pure_ok] at h; cases h
  · rename_i h0
    split at h
    · rw [Py.pure_ok] at h; cases h
    · rename_i nm hl
      obtain ⟨mn, hb, h⟩ := Py.bind_ok.1 h
      rw [Py.pure_ok] at h; cases h
      refine ⟨sat, nm, h11, h0, hl, hb, ?_, h1, h2, h3, h4, h5, h6, h7, h8, h10⟩
      unfold readBits at h9
      split at h9
      · cases h9; rfl
      · cases h9

theorem build_take {mt rtow : Nat} {msg mnav : BitBuf} (h : buildMnav mt msg rtow = .ok mnav)
    (hl : msgBits mt ≤ mnav.length) :
    mnav.take (msgBits mt) = (List.range (msgBits mt)).map (C55.gnssBit mt msg rtow) := by
  obtain ⟨hmt, hb⟩ := C55.build_bits mt msg mnav rtow h
  refine List.ext_getElem? fun q => ?_
  by_cases hq : q < msgBits mt
  · rw [List.getElem?_take_of_lt hq, List.getElem?_map, List.getElem?_range hq]
    refine hb q ?_
    rcases hmt with rfl | rfl | rfl | rfl
    · have : msgBits 1 = 900 := by decide
      simp only [true_or, if_true]; omega
    · have : msgBits 2 = 900 := by decide
      simp only [or_true, if_true]; omega
    · have : msgBits 4 = 976 := by decide
      simp only [Nat.reduceEqDiff, or_self, if_true, if_false]; omega
    · simp only [Nat.reduceEqDiff, or_self, if_false]
      unfold buildMnav at h
      simp only [Nat.reduceEqDiff, if_true] at h
      rw [writeU_length h] at hl
      omega
  · rw [List.getElem?_eq_none (by simp; omega), List.getElem?_eq_none (by simp; omega)]

theorem rand_signed {l6 mnav r : BitBuf} {i : Nat} {npr : NavParam} {nm : NavMsg}
    (hb : buildMnav npr.mt nm.msg npr.rtow = .ok mnav) (hr : gnssRand npr mnav = .ok r)
    (h1 : readU l6 i 4 = .ok npr.nid) (h2 : readU l6 (i + 4) 20 = .ok npr.rtow)
    (h3 : readU l6 (i + 24) 8 = .ok npr.svid) (h4 : readU l6 (i + 32) 4 = .ok npr.mt)
    (h5 : readU l6 (i + 36) 11 = .ok npr.iode1) (h6 : readU l6 (i + 47) 11 = .ok npr.iode2)
    (h7 : readU l6 (i + 58) 11 = .ok npr.iodc) (h8 : readU l6 (i + 69) 8 = .ok npr.keyid)
    (h9 : readU l6 (i + 589) 16 = .ok npr.salt) :
    r = signedGnss l6 i npr.mt nm.msg npr.rtow := by
  obtain ⟨hl, e⟩ := gnssRand_eq hr
  rw [e, build_take hb hl]
  unfold signedGnss
  have a8 := (At.of_readU h8).1
  have a7 := (At.of_readU h7).1.append (by rw [natToBits_length]; exact a8)
  have a6 := (At.of_readU h6).1.append (by rw [natToBits_length]; exact a7)
  have a5 := (At.of_readU h5).1.append (by rw [natToBits_length]; exact a6)
  have a4 := (At.of_readU h4).1.append (by rw [natToBits_length]; exact a5)
  have a3 := (At.of_readU h3).1.append (by rw [natToBits_length]; exact a4)
  have a2 := (At.of_readU h2).1.append (by rw [natToBits_length]; exact a3)
  have a1 := (At.of_readU h1).1.append (by rw [natToBits_length]; exact a2)
  obtain ⟨-, post, hp⟩ := a1
  obtain ⟨-, post', hp'⟩ := (At.of_readU h9).1
  rw [hp, hp', List.take_left' (by simp), List.take_left' (by simp)]

/-- one record of an L6 message: at most one acceptance, and only of what its signature covers -/
theorem record_sound {p : Prim PK} {s t : St PK} {l6 : BitBuf} {i : Nat}
    {r : Option (NavParam × BitBuf)} {store : Store} (h0 : decodeGnssRds store l6 i = .ok r)
    (hk : ∀ pk, s.pk = some pk → FromDir p pk) (h : verifyRec p s r = .ok t) :
    t.navmsg = s.navmsg ∧ t.vcntMin = s.vcntMin ∧ t.npr = s.npr ∧
    (∀ pk, t.pk = some pk → FromDir p pk) ∧ (∀ pk, s.pk = some pk → t.pk = some pk) ∧
    (t.vstatus = s.vstatus ∨ ∃ pk sat iode, t.pk = some pk ∧ FromDir p pk ∧
      GnssValid p store pk l6 i sat iode ∧ t.vstatus = bump s.vstatus sat iode) := by
  unfold verifyRec at h
  cases r with
  | none => cases h; exact ⟨rfl, rfl, rfl, hk, fun _ h => h, Or.inl rfl⟩
  | some x =>
    obtain ⟨npr, mnav⟩ := x
    obtain ⟨⟨t', b⟩, h1, h⟩ := Py.bind_ok.1 h
    rw [Py.pure_ok] at h; cases h
    obtain ⟨rr, sat, g1, g2, g3, g4, g5, g6⟩ := verifyGnss_spec h1
    obtain ⟨sat', nm, q1, q2, q3, q4, q5, q6, q7, q8, q9, q10, q11, q12, q13, q14⟩ :=
      decodeGnssRds_spec h0
    rw [g2] at q1; cases q1
    refine ⟨g3, g4, g5, ?_⟩
    cases b with
    | false =>
      rw [if_neg (by simp)] at g6
      obtain ⟨e, hc⟩ := g6
      rcases hc with ⟨hn, e2⟩ | ⟨pk, e1, e2, -⟩
      · exact ⟨by rw [e2]; exact hk, fun pk h => by rw [e2]; exact h, Or.inl e⟩
      · refine ⟨fun pk' h' => ?_, fun pk' h' => ?_, Or.inl e⟩
        · rw [e2] at h'; cases h'; exact getKey_dir hk e1
        · rw [e2, getKey_keep e1 h']
    | true =>
      rw [if_pos rfl] at g6
      obtain ⟨pk, e1, e2, e3, e4⟩ := g6
      refine ⟨fun pk' h' => ?_, fun pk' h' => ?_, Or.inr ⟨pk, sat, npr.iode1, e2, getKey_dir hk e1, ?_, e4⟩⟩
      · rw [e2] at h'; cases h'; exact getKey_dir hk e1
      · rw [e2, getKey_keep e1 h']
      · refine ⟨npr.svid, npr.mt, npr.rtow, nm, q8, svid2sat_spec g2 q2, q10, q9, ?_, q7, q3, ?_⟩
        · exact (C55.build_bits _ _ _ _ q4).1
        · rw [rand_signed q4 g1 q6 q7 q8 q9 q10 q11 q12 q13 q14, q5] at e3
          exact e3

theorem vendor_bits {l6 : BitBuf} {mid : Nat} (h : readU l6 40 8 = .ok mid)
    (hv : (mid >>> 5) &&& 0x7 = 3) : readU l6 40 3 = .ok 3 := by
  have hlt := readU_lt h
  have hle := readU_ok_iff.1 ⟨mid, h⟩
  unfold readU at h ⊢
  rw [if_pos hle] at h
  rw [if_pos (by omega)]
  cases h
  have h1 := bitsToNat_append (((l6.drop 40).take 8).take 3) (((l6.drop 40).take 8).drop 3)
  rw [List.take_append_drop] at h1
  have hl : (((l6.drop 40).take 8).drop 3).length = 5 := by simp; omega
  have h2 := bitsToNat_lt (((l6.drop 40).take 8).drop 3)
  rw [hl] at h1 h2
  rw [List.take_take, Nat.min_eq_left (by omega)] at h1
  have h3 : ∀ m, m < 256 → (m >>> 5) &&& 0x7 = 3 → m / 32 = 3 := by decide +kernel
  have h4 := h3 _ hlt hv
  congr 1
  omega

/-- the part of `decode` for L6 messages -/
theorem l6_sound {p : Prim PK} {s t : St PK} {l6 : BitBuf}
    (hk : ∀ pk, s.pk = some pk → FromDir p pk) (h : decodeL6 p s l6 = .ok t) :
    t.navmsg = s.navmsg ∧ t.vcntMin = s.vcntMin ∧ t.npr = s.npr ∧
    (∀ pk, t.pk = some pk → FromDir p pk) ∧ (∀ pk, s.pk = some pk → t.pk = some pk) ∧
    ∀ sat iode, cntOf s.vstatus sat iode ≤ cntOf t.vstatus sat iode ∧
      cntOf t.vstatus sat iode ≤ cntOf s.vstatus sat iode + 2 ∧
      (cntOf s.vstatus sat iode < cntOf t.vstatus sat iode → ∃ pk i, t.pk = some pk ∧ FromDir p pk ∧
        readU l6 40 3 = .ok 3 ∧ (i = 49 ∨ i = 654) ∧ GnssValid p t.navmsg pk l6 i sat iode) := by
  unfold decodeL6 at h
  obtain ⟨mid, h1, h⟩ := Py.bind_ok.1 h
  obtain ⟨x, -, h⟩ := Py.bind_ok.1 h
  split at h
  · rename_i hv
    have hvb := vendor_bits h1 hv
    obtain ⟨r1, e1, h⟩ := Py.bind_ok.1 h
    obtain ⟨r2, e2, h⟩ := Py.bind_ok.1 h
    obtain ⟨u, e3, h⟩ := Py.bind_ok.1 h
    obtain ⟨a1, a2, a3, a4, a5, a6⟩ := record_sound e1 hk e3
    obtain ⟨b1, b2, b3, b4, b5, b6⟩ := record_sound e2 a4 h
    refine ⟨b1.trans a1, b2.trans a2, b3.trans a3, b4, fun pk h => b5 pk (a5 pk h), fun sat iode => ?_⟩
    have c1 : cntOf s.vstatus sat iode ≤ cntOf u.vstatus sat iode ∧
        cntOf u.vstatus sat iode ≤ cntOf s.vstatus sat iode + 1 ∧
        (cntOf s.vstatus sat iode < cntOf u.vstatus sat iode → ∃ pk, u.pk = some pk ∧
          FromDir p pk ∧ GnssValid p s.navmsg pk l6 49 sat iode) := by
      rcases a6 with e | ⟨pk, a, i, g1, g2, g3, g4⟩
      · rw [e]; exact ⟨Nat.le_refl _, by omega, fun h => absurd h (Nat.lt_irrefl _)⟩
      · rw [g4, cnt_bump]
        split
        · rename_i hc
          obtain ⟨rfl, rfl⟩ := hc
          exact ⟨by omega, by omega, fun _ => ⟨pk, g1, g2, g3⟩⟩
        · exact ⟨by omega, by omega, fun h => by omega⟩
    have c2 : cntOf u.vstatus sat iode ≤ cntOf t.vstatus sat iode ∧
        cntOf t.vstatus sat iode ≤ cntOf u.vstatus sat iode + 1 ∧
        (cntOf u.vstatus sat iode < cntOf t.vstatus sat iode → ∃ pk, t.pk = some pk ∧
          FromDir p pk ∧ GnssValid p s.navmsg pk l6 654 sat iode) := by
      rcases b6 with e | ⟨pk, a, i, g1, g2, g3, g4⟩
      · rw [e]; exact ⟨Nat.le_refl _, by omega, fun h => absurd h (Nat.lt_irrefl _)⟩
      · rw [g4, cnt_bump]
        split
        · rename_i hc
          obtain ⟨rfl, rfl⟩ := hc
          exact ⟨by omega, by omega, fun _ => ⟨pk, g1, g2, g3⟩⟩
        · exact ⟨by omega, by omega, fun h => by omega⟩
    refine ⟨by omega, by omega, fun hlt => ?_⟩
    rw [b1, a1]
    by_cases hc : cntOf u.vstatus sat iode < cntOf t.vstatus sat iode
    · obtain ⟨pk, q1, q2, q3⟩ := c2.2.2 hc
      exact ⟨pk, 654, q1, q2, hvb, Or.inr rfl, q3⟩
    · obtain ⟨pk, q1, q2, q3⟩ := c1.2.2 (by omega)
      exact ⟨pk, 49, b5 pk q1, q2, hvb, Or.inl rfl, q3⟩
  · rw [Py.pure_ok] at h; cases h
    exact ⟨rfl, rfl, rfl, hk, fun _ h => h, fun sat iode =>
      ⟨Nat.le_refl _, by omega, fun h => absurd h (Nat.lt_irrefl _)⟩⟩

theorem take_range_map {out : BitBuf} {n m : Nat} {f : Nat → Bool} (hn : n ≤ m)
    (hm : ∀ q, q < m → out[q]? = some (f q)) : out.take n = (List.range n).map f := by
  refine List.ext_getElem? fun q => ?_
  by_cases hq : q < n
  · rw [List.getElem?_take_of_lt hq, List.getElem?_map, List.getElem?_range hq, hm q (by omega)]
    rfl
  · rw [List.getElem?_eq_none (by simp; omega), List.getElem?_eq_none (by simp; omega)]

/-- the message handed to the check is made of the kept bits -/
theorem mnavOf_bits {mode : Nat} {b mnav : BitBuf} (hm : mode = 1 ∨ mode = 2)
    (h : mnavOf mode b = .ok mnav) :
    mnav.length = 904 ∧ mnav.take (msgBits mode) = qzssBits mode b := by
  unfold mnavOf at h
  rcases hm with rfl | rfl
  · have e : lnavToMnav b true = .ok mnav := h
    have hmask := C55.lnav_masked b true
    by_cases hl : 960 ≤ b.length
    · rw [if_pos hl] at hmask
      obtain ⟨o, g, g1, g2⟩ := hmask
      rw [e] at g; cases g
      refine ⟨g1, ?_⟩
      rw [show msgBits 1 = 900 by unfold msgBits; simp]
      unfold qzssBits
      simp only [if_true]
      exact take_range_map (m := 904) (by omega) g2
    · rw [if_neg hl, e] at hmask; cases hmask
  · have e : cnavToMnav b true = .ok mnav := h
    have hmask := C55.cnav_masked b true
    by_cases hl : 896 ≤ b.length
    · rw [if_pos hl] at hmask
      obtain ⟨o, g, g1, g2⟩ := hmask
      rw [e] at g; cases g
      refine ⟨g1, ?_⟩
      rw [show msgBits 2 = 900 by unfold msgBits; simp]
      unfold qzssBits
      simp only [OfNat.ofNat_ne_one, if_false, if_true]
      exact take_range_map (m := 904) (by omega) g2
    · rw [if_neg hl, e] at hmask; cases hmask

theorem cnav2_bits {toi : Nat} {msg mnav : BitBuf} (ht : readU msg 0 9 = .ok toi)
    (h : cnav2ToMnav toi msg = .ok mnav) (hl : 628 ≤ msg.length) :
    mnav.length = 616 ∧ mnav.take (msgBits 3) = qzssBits 3 msg := by
  obtain ⟨o, g0, g1, g2, g3⟩ := C55.cnav2_masked toi msg (readU_lt ht) hl
  rw [h] at g0; cases g0
  refine ⟨g1, ?_⟩
  have h9 : mnav.take 9 = msg.take 9 := by
    rw [g2]
    obtain ⟨-, post, hp⟩ := (At.of_readU ht).1
    rw [List.drop_zero] at hp
    rw [hp, List.take_left' (natToBits_length _ _)]
  rw [show msgBits 3 = 609 by unfold msgBits; simp]
  unfold qzssBits
  simp only [OfNat.ofNat_ne_one, Nat.reduceEqDiff, if_false]
  refine take_range_map (m := 616) (by omega) fun q hq => ?_
  by_cases c : q < 9
  · rw [if_pos c]
    have := congrArg (fun l : BitBuf => l[q]?) h9
    simp only [List.getElem?_take_of_lt c] at this
    rw [this, List.getD_eq_getElem?_getD, List.getElem?_eq_getElem (show q < msg.length by omega)]
    rfl
  · rw [if_neg c]
    exact g3 q (by omega) hq

/-- no signature of a QZSS satellite carries an issue number -/
def NoIssue (s : St PK) : Prop := ∀ a n, s.npr.get? a = some (some n) → n.iode1 = 0

/-- what verifying a QZSS message does, in terms of the collected message -/
theorem qzss_sound {p : Prim PK} {s t : St PK} {sat : Int} {mode : Nat} {mnav buf : BitBuf}
    {o : Option NavParam} {b : Bool} (hk : ∀ pk, s.pk = some pk → FromDir p pk) (hn : NoIssue s)
    (ho : s.npr.get? sat = some o) (hl : mnav.length = if mode = 3 then 616 else 904)
    (hbits : mnav.take (msgBits mode) = qzssBits mode buf)
    (h : verifyQzss p s sat o mnav mode = .ok (t, b)) :
    t.navmsg = s.navmsg ∧ t.vcntMin = s.vcntMin ∧ t.npr = s.npr ∧ t.buff = s.buff ∧
    (∀ pk, t.pk = some pk → FromDir p pk) ∧ (∀ pk, s.pk = some pk → t.pk = some pk) ∧
    (t.vstatus = s.vstatus ∨ ∃ pk npr, t.pk = some pk ∧ FromDir p pk ∧
      t.npr.get? sat = some (some npr) ∧ QzssValid p pk npr mode buf ∧
      t.vstatus = bump s.vstatus sat 0) := by
  obtain ⟨npr, r, rfl, g1, g2, g3, g4, g5, g6⟩ := verifyQzss_spec h
  obtain ⟨-, -, -, e⟩ := qzssRand_eq g1 hl
  refine ⟨g2, g3, g4, g5, ?_⟩
  cases b with
  | false =>
    rw [if_neg (by simp)] at g6
    obtain ⟨e, hc⟩ := g6
    rcases hc with ⟨hn, e2⟩ | ⟨pk, e1, e2, -⟩
    · exact ⟨by rw [e2]; exact hk, fun pk h => by rw [e2]; exact h, Or.inl e⟩
    · refine ⟨fun pk' h' => ?_, fun pk' h' => ?_, Or.inl e⟩
      · rw [e2] at h'; cases h'; exact getKey_dir hk e1
      · rw [e2, getKey_keep e1 h']
  | true =>
    rw [if_pos rfl] at g6
    obtain ⟨pk, e1, e2, e3, e4⟩ := g6
    refine ⟨fun pk' h' => ?_, fun pk' h' => ?_, Or.inr ⟨pk, npr, e2, getKey_dir hk e1, ?_, ?_, ?_⟩⟩
    · rw [e2] at h'; cases h'; exact getKey_dir hk e1
    · rw [e2, getKey_keep e1 h']
    · rw [g4]; exact ho
    · unfold QzssValid
      rw [e, hbits] at e3
      exact e3
    · rw [e4, hn sat npr ho]

theorem collected_sound {p : Prim PK} {s t : St PK} {sat : Int} {mode : Nat}
    (hm : mode = 1 ∨ mode = 2) (hk : ∀ pk, s.pk = some pk → FromDir p pk) (hn : NoIssue s)
    (h : collected p s sat mode = .ok t) :
    t.vcntMin = s.vcntMin ∧ NoIssue t ∧
    (∀ pk, t.pk = some pk → FromDir p pk) ∧ (∀ pk, s.pk = some pk → t.pk = some pk) ∧
    (t.vstatus = s.vstatus ∨ ∃ pk npr buf, t.pk = some pk ∧ FromDir p pk ∧
      t.npr.get? sat = some (some npr) ∧ t.buff.get? sat = some buf ∧ QzssValid p pk npr mode buf ∧
      t.vstatus = bump s.vstatus sat 0) := by
  unfold collected at h
  obtain ⟨f, -, h⟩ := Py.bind_ok.1 h
  split at h
  · obtain ⟨b, hb, h⟩ := Py.bind_ok.1 h
    obtain ⟨mnav, hmn, h⟩ := Py.bind_ok.1 h
    obtain ⟨o, ho, h⟩ := Py.bind_ok.1 h
    obtain ⟨⟨t', v⟩, hv, h⟩ := Py.bind_ok.1 h
    rw [Py.pure_ok] at h; cases h
    obtain ⟨m1, m2⟩ := mnavOf_bits hm hmn
    rw [Dict.getItem_ok_iff] at hb ho
    have hl : mnav.length = if mode = 3 then 616 else 904 := by
      rw [m1, if_neg (by omega)]
    obtain ⟨a1, a2, a3, a4, a5, a6, a7⟩ := qzss_sound
      (s := { s with flagE := s.flagE.set sat 0 }) hk hn ho hl m2 hv
    refine ⟨a2, ?_, a5, a6, ?_⟩
    · intro a n h; rw [a3] at h; exact hn a n h
    · rcases a7 with e | ⟨pk, npr, q1, q2, q3, q4, q5⟩
      · exact Or.inl e
      · exact Or.inr ⟨pk, npr, b, q1, q2, q3, by rw [a4]; exact hb, q4, q5⟩
  · rw [Py.pure_ok] at h; cases h
    exact ⟨rfl, hn, hk, fun _ h => h, Or.inl rfl⟩

theorem lnavIn_quiet {s t : St PK} {sat : Int} {sid : Nat} {tow ki : Int} {msg : BitBuf}
    (h : lnavIn s sat sid tow ki msg = .ok t) : Quiet s t := by
  unfold lnavIn at h
  split at h
  · obtain ⟨x, -, h⟩ := Py.bind_ok.1 h
    obtain ⟨y, -, h⟩ := Py.bind_ok.1 h
    split at h
    · exact rdsStep_quiet h
    · rw [Py.pure_ok] at h; cases h; exact Quiet.refl _
  split at h
  · exact msg2nav_quiet h
  · rw [Py.pure_ok] at h; cases h; exact Quiet.refl _

theorem cnavIn_quiet {s t : St PK} {sat : Int} {sid : Nat} {tow ki : Int} {msg : BitBuf}
    (h : cnavIn s sat sid tow ki msg = .ok t) : Quiet s t := by
  unfold cnavIn at h
  split at h
  · exact rdsStep_quiet h
  split at h
  · exact msg2nav_quiet h
  · rw [Py.pure_ok] at h; cases h; exact Quiet.refl _

/-- the part of `decode` for navigation messages -/
theorem nav_sound {p : Prim PK} {s t : St PK} {msg : BitBuf} {sat : Int} {navmode : Nat}
    (hk : ∀ pk, s.pk = some pk → FromDir p pk) (hn : NoIssue s)
    (h : decodeNav p s msg sat navmode = .ok t) :
    t.vcntMin = s.vcntMin ∧ NoIssue t ∧
    (∀ pk, t.pk = some pk → FromDir p pk) ∧ (∀ pk, s.pk = some pk → t.pk = some pk) ∧
    (t.vstatus = s.vstatus ∨ ∃ pk npr buf, t.pk = some pk ∧ FromDir p pk ∧
      t.npr.get? sat = some (some npr) ∧
      (if navmode = 3 then buf = msg else t.buff.get? sat = some buf) ∧
      QzssValid p pk npr navmode buf ∧ t.vstatus = bump s.vstatus sat 0) := by
  have fin : ∀ s1 : St PK, Quiet s s1 → ∀ mode, mode = 1 ∨ mode = 2 →
      collected p s1 sat mode = .ok t →
      t.vcntMin = s.vcntMin ∧ NoIssue t ∧
      (∀ pk, t.pk = some pk → FromDir p pk) ∧ (∀ pk, s.pk = some pk → t.pk = some pk) ∧
      (t.vstatus = s.vstatus ∨ ∃ pk npr buf, t.pk = some pk ∧ FromDir p pk ∧
        t.npr.get? sat = some (some npr) ∧
        (if mode = 3 then buf = msg else t.buff.get? sat = some buf) ∧
        QzssValid p pk npr mode buf ∧ t.vstatus = bump s.vstatus sat 0) := by
    intro s1 q mode hm hc
    obtain ⟨a1, a2, a3, a4, a5⟩ := collected_sound hm (by rw [q.k]; exact hk) (q.n hn) hc
    refine ⟨a1.trans q.c, a2, a3, fun pk h => a4 pk (by rw [q.k]; exact h), ?_⟩
    rcases a5 with e | ⟨pk, npr, buf, e1, e2, e3, e4, e5, e6⟩
    · exact Or.inl (e.trans q.v)
    · exact Or.inr ⟨pk, npr, buf, e1, e2, e3, by rw [if_neg (by omega)]; exact e4, e5, by rw [e6, q.v]⟩
  have q0 := initSat_quiet s sat
  unfold decodeNav at h
  simp only at h
  split at h
  · rename_i e
    replace e : navmode = 1 := e
    subst e
    obtain ⟨x, -, h⟩ := Py.bind_ok.1 h
    obtain ⟨y, -, h⟩ := Py.bind_ok.1 h
    obtain ⟨z, -, h⟩ := Py.bind_ok.1 h
    obtain ⟨s1, h1, h⟩ := Py.bind_ok.1 h
    exact fin s1 (q0.trans (lnavIn_quiet h1)) 1 (Or.inl rfl) h
  split at h
  · rename_i _ e
    replace e : navmode = 2 := e
    subst e
    obtain ⟨x, -, h⟩ := Py.bind_ok.1 h
    obtain ⟨y, -, h⟩ := Py.bind_ok.1 h
    obtain ⟨w, -, h⟩ := Py.bind_ok.1 h
    obtain ⟨z, -, h⟩ := Py.bind_ok.1 h
    obtain ⟨s1, h1, h⟩ := Py.bind_ok.1 h
    exact fin s1 (q0.trans (cnavIn_quiet h1)) 2 (Or.inr rfl) h
  have quiet : ∀ t, Quiet s t → t.vcntMin = s.vcntMin ∧ NoIssue t ∧
      (∀ pk, t.pk = some pk → FromDir p pk) ∧ (∀ pk, s.pk = some pk → t.pk = some pk) ∧
      t.vstatus = s.vstatus := fun t q => ⟨q.c, q.n hn, by rw [q.k]; exact hk,
        fun pk h => by rw [q.k]; exact h, q.v⟩
  split at h
  · rename_i _ _ e
    replace e : navmode = 3 := e
    subst e
    obtain ⟨toi, ht, h⟩ := Py.bind_ok.1 h
    obtain ⟨y, -, h⟩ := Py.bind_ok.1 h
    obtain ⟨w, hw, h⟩ := Py.bind_ok.1 h
    obtain ⟨z, -, h⟩ := Py.bind_ok.1 h
    split at h
    · obtain ⟨a, b, c, d, e⟩ := quiet t (q0.trans (rdsStep_quiet h))
      exact ⟨a, b, c, d, Or.inl e⟩
    · obtain ⟨tp, -, h⟩ := Py.bind_ok.1 h
      split at h
      · obtain ⟨mnav, hmn, h⟩ := Py.bind_ok.1 h
        obtain ⟨o, ho, h⟩ := Py.bind_ok.1 h
        obtain ⟨⟨t', v⟩, hv, h⟩ := Py.bind_ok.1 h
        rw [Py.pure_ok] at h; cases h
        have hlen := readU_ok_iff.1 ⟨w, hw⟩
        obtain ⟨m1, m2⟩ := cnav2_bits ht hmn (by omega)
        rw [Dict.getItem_ok_iff] at ho
        obtain ⟨a1, a2, a3, a4, a5, a6, a7⟩ := qzss_sound (by rw [q0.k]; exact hk) (q0.n hn) ho
          (by rw [m1]; rfl) m2 hv
        refine ⟨a2.trans q0.c, ?_, a5, fun pk h => a6 pk (by rw [q0.k]; exact h), ?_⟩
        · intro a n h; rw [a3] at h; exact q0.n hn a n h
        · rcases a7 with e | ⟨pk, npr, q1, q2, q3, q4, q5⟩
          · exact Or.inl (e.trans q0.v)
          · exact Or.inr ⟨pk, npr, msg, q1, q2, q3, by rw [if_pos rfl], q4, by rw [q5, q0.v]⟩
      · rw [Py.pure_ok] at h; cases h
        obtain ⟨a, b, c, d, e⟩ := quiet _ q0
        exact ⟨a, b, c, d, Or.inl e⟩
  · rw [Py.pure_ok] at h; cases h
    obtain ⟨a, b, c, d, e⟩ := quiet _ q0
    exact ⟨a, b, c, d, Or.inl e⟩

/-- invariant of the object -/
structure Inv (p : Prim PK) (s : St PK) : Prop where
  key : ∀ pk, s.pk = some pk → FromDir p pk
  iss : NoIssue s
  thr : s.vcntMin = 1

theorem inv_init (p : Prim PK) : Inv p ({} : St PK) :=
  ⟨fun _ h => (by cases h), fun a n h => (by cases h), rfl⟩

/-- **one call**: it can only add acceptances, and each one means that a signature was checked with
a key of the key directory over the message of exactly that satellite -/
theorem decode_sound {p : Prim PK} {s t : St PK} (hi : Inv p s) {msg msgN : Option BitBuf}
    {arg : Int} {navmode : Nat} (h : decode p s msg msgN arg navmode = .ok t) :
    Inv p t ∧ (∀ pk, s.pk = some pk → t.pk = some pk) ∧
    ∀ sat iode, accepted s sat iode ≤ accepted t sat iode ∧
      accepted t sat iode ≤ accepted s sat iode + 3 ∧
      (accepted s sat iode < accepted t sat iode → Checked p s t msg msgN arg navmode sat iode) := by
  unfold decode at h
  obtain ⟨u, h1, h2⟩ := Py.bind_ok.1 h
  have hu : Inv p u ∧ (∀ pk, s.pk = some pk → u.pk = some pk) ∧
      ∀ sat iode, accepted s sat iode ≤ accepted u sat iode ∧
        accepted u sat iode ≤ accepted s sat iode + 1 ∧
        (accepted s sat iode < accepted u sat iode → ∃ pk m npr buf, FromDir p pk ∧
          u.pk = some pk ∧ msg = some m ∧ decodeNav p s m arg navmode = .ok u ∧ sat = arg ∧ iode = 0 ∧
          u.npr.get? arg = some (some npr) ∧
          (if navmode = 3 then buf = m else u.buff.get? arg = some buf) ∧
          QzssValid p pk npr navmode buf) := by
    cases msg with
    | none =>
      cases h1
      exact ⟨hi, fun _ h => h, fun sat iode =>
        ⟨Nat.le_refl _, by omega, fun h => absurd h (Nat.lt_irrefl _)⟩⟩
    | some m =>
      replace h1 : decodeNav p s m arg navmode = .ok u := h1
      obtain ⟨a1, a2, a3, a4, a5⟩ := nav_sound hi.key hi.iss h1
      refine ⟨⟨a3, a2, a1.trans hi.thr⟩, a4, fun sat iode => ?_⟩
      unfold accepted
      rcases a5 with e | ⟨pk, npr, buf, e1, e2, e3, e4, e5, e6⟩
      · rw [e]; exact ⟨Nat.le_refl _, by omega, fun h => absurd h (Nat.lt_irrefl _)⟩
      · rw [e6, cnt_bump]
        split
        · rename_i hc
          obtain ⟨rfl, rfl⟩ := hc
          exact ⟨by omega, by omega, fun _ => ⟨pk, m, npr, buf, e2, e1, rfl, h1, rfl, rfl, e3, e4, e5⟩⟩
        · exact ⟨by omega, by omega, fun h => by omega⟩
  obtain ⟨hu1, hu2, hu3⟩ := hu
  cases msgN with
  | none =>
    cases h2
    refine ⟨hu1, hu2, fun sat iode => ⟨(hu3 sat iode).1, by have := (hu3 sat iode).2.1; omega, fun h => ?_⟩⟩
    obtain ⟨pk, m, npr, buf, g1, g2, g3, g4, g5, g6, g7, g8, g9⟩ := (hu3 sat iode).2.2 h
    exact ⟨pk, g1, g2, Or.inl ⟨m, _, npr, buf, g3, g4, g5, g6, g7, g8, g9⟩⟩
  | some l6 =>
    replace h2 : decodeL6 p u l6 = .ok t := h2
    obtain ⟨b1, b2, b3, b4, b5, b6⟩ := l6_sound hu1.key h2
    refine ⟨⟨b4, fun a n h => hu1.iss a n (by rwa [← b3]), b2.trans hu1.thr⟩,
      fun pk h => b5 pk (hu2 pk h), fun sat iode => ?_⟩
    have c1 := hu3 sat iode
    have c2 := b6 sat iode
    unfold accepted at c1 ⊢
    refine ⟨by omega, by omega, fun h => ?_⟩
    by_cases hc : cntOf u.vstatus sat iode < cntOf t.vstatus sat iode
    · obtain ⟨pk, i, g1, g2, g3, g4, g5⟩ := c2.2.2 hc
      exact ⟨pk, g2, g1, Or.inr ⟨l6, i, rfl, g3, g4, g5⟩⟩
    · obtain ⟨pk, m, npr, buf, g1, g2, g3, g4, g5, g6, g7, g8, g9⟩ := c1.2.2 (by omega)
      exact ⟨pk, g1, b5 pk g2, Or.inl ⟨m, u, npr, buf, g3, g4, g5, g6, g7, g8, g9⟩⟩

theorem load_eq {p : Prim PK} {s t : St PK} {mt : Nat} {prn : Int} {msgs : List BitBuf}
    (h : step p s (.load mt prn msgs) = .ok t) : ∃ st, t = { s with navmsg := st } := by
  unfold step at h
  simp only at h
  repeat' split at h
  all_goals
    obtain ⟨st, -, h⟩ := Py.bind_ok.1 h
    rw [Py.pure_ok] at h
    exact ⟨st, h.symm⟩

theorem step_inv {p : Prim PK} {s t : St PK} {o : Op} (hi : Inv p s) (h : step p s o = .ok t) :
    Inv p t ∧ (∀ pk, s.pk = some pk → t.pk = some pk) ∧
    ∀ sat iode, accepted s sat iode ≤ accepted t sat iode ∧
      (accepted s sat iode < accepted t sat iode → ∃ msg msgN arg navmode,
        o = .decode msg msgN arg navmode ∧ Checked p s t msg msgN arg navmode sat iode) := by
  cases o with
  | load mt prn msgs =>
    obtain ⟨st, rfl⟩ := load_eq h
    exact ⟨⟨hi.key, hi.iss, hi.thr⟩, fun _ h => h, fun sat iode =>
      ⟨Nat.le_refl _, fun h => absurd h (Nat.lt_irrefl _)⟩⟩
  | decode msg msgN arg navmode =>
    obtain ⟨a, b, c⟩ := decode_sound hi h
    exact ⟨a, b, fun sat iode => ⟨(c sat iode).1, fun h => ⟨msg, msgN, arg, navmode, rfl, (c sat iode).2.2 h⟩⟩⟩

theorem run_snoc (p : Prim PK) {h : List Op} {o : Op} {t : St PK} (hr : run p (h ++ [o]) = .ok t) :
    ∃ s, run p h = .ok s ∧ step p s o = .ok t := by
  unfold run at hr ⊢
  rw [List.foldlM_append] at hr
  obtain ⟨s, h1, h2⟩ := Py.bind_ok.1 hr
  refine ⟨s, h1, ?_⟩
  rw [List.foldlM_cons] at h2
  obtain ⟨u, h3, h4⟩ := Py.bind_ok.1 h2
  rw [List.foldlM_nil, Py.pure_ok] at h4
  rw [h3, h4]

theorem run_inv (p : Prim PK) : ∀ (h : List Op) (t : St PK), run p h = .ok t → Inv p t := by
  intro h
  induction h using List.reverseRecOn with
  | nil =>
    intro t hr
    unfold run at hr
    rw [List.foldlM_nil, Py.pure_ok] at hr
    subst hr; exact inv_init p
  | append_singleton h o ih =>
    intro t hr
    obtain ⟨s, h1, h2⟩ := run_snoc p hr
    exact (step_inv (ih s h1) h2).1

/-- **C25**: whatever the history, a satellite and issue that are recorded as authenticated were
accepted by an earlier `decode` call that checked a signature over the message stored for exactly
that satellite and issue (or, for the signatures a QZSS satellite sends itself, over the message
collected from exactly that satellite, always recorded under issue 0) -/
theorem accepted_authentic (p : Prim PK) : ∀ (h : List Op) (t : St PK), run p h = .ok t →
    ∀ sat iode, 0 < accepted t sat iode →
      ∃ h1 h2 s u msg msgN arg navmode, h = h1 ++ (.decode msg msgN arg navmode :: h2) ∧
        run p h1 = .ok s ∧ decode p s msg msgN arg navmode = .ok u ∧
        Checked p s u msg msgN arg navmode sat iode := by
  intro h
  induction h using List.reverseRecOn with
  | nil =>
    intro t hr sat iode hp
    unfold run at hr
    rw [List.foldlM_nil, Py.pure_ok] at hr
    subst hr
    exact absurd hp (Nat.lt_irrefl 0)
  | append_singleton h o ih =>
    intro t hr sat iode hp
    obtain ⟨s, h1, h2⟩ := run_snoc p hr
    obtain ⟨-, -, hs⟩ := step_inv (run_inv p h s h1) h2
    by_cases hc : 0 < accepted s sat iode
    · obtain ⟨g1, g2, s', u', m, mn, a, nv, e, e2⟩ := ih s h1 sat iode hc
      exact ⟨g1, g2 ++ [o], s', u', m, mn, a, nv, by rw [e]; simp, e2⟩
    · obtain ⟨m, mn, a, nv, rfl, hch⟩ := (hs sat iode).2 (by have := (hs sat iode).1; omega)
      exact ⟨h, [], s, t, m, mn, a, nv, by simp, h1, h2, hch⟩

/-- every satellite counted by `count_valid_sat` was accepted -/
theorem counted_accepted (p : Prim PK) (h : List Op) (t : St PK) (hr : run p h = .ok t)
    (hc : 0 < countValidSat t) : ∃ e ∈ t.vstatus, ∃ q ∈ e.2, 1 ≤ q.2 := by
  unfold countValidSat at hc
  rw [(run_inv p h t hr).thr] at hc
  obtain ⟨e, he⟩ := List.exists_mem_of_length_pos hc
  rw [List.mem_filter, List.any_eq_true] at he
  obtain ⟨he1, q, hq1, hq2⟩ := he
  exact ⟨e, he1, q, hq1, by simpa using hq2⟩

/-- **decision**: checking a record accepts exactly when the key is available and the signature is
valid, and then the count of that satellite and issue goes up by one -/
theorem verify_decides {p : Prim PK} {s t : St PK} {npr : NavParam} {mnav : BitBuf} {b : Bool}
    (h : verifyGnss p s npr mnav = .ok (t, b)) :
    ∃ r a, gnssRand npr mnav = .ok r ∧ svid2sat npr.svid = .ok a ∧
      (b = true ↔ ∃ pk, getKey p s.pk npr.keyid = .ok (some pk) ∧ p.sig pk npr.ds r = .ok true) ∧
      ∀ sat iode, accepted t sat iode =
        accepted s sat iode + if b ∧ sat = a ∧ iode = npr.iode1 then 1 else 0 := by
  obtain ⟨r, a, h1, h2, -, -, -, h3⟩ := verifyGnss_spec h
  refine ⟨r, a, h1, h2, ?_⟩
  cases b with
  | true =>
    rw [if_pos rfl] at h3
    obtain ⟨pk, g1, g2, g3, g4⟩ := h3
    exact ⟨⟨fun _ => ⟨pk, g1, g3⟩, fun _ => rfl⟩, fun sat iode => by
      unfold accepted; rw [g4, cnt_bump]; simp⟩
  | false =>
    rw [if_neg (by simp)] at h3
    obtain ⟨g0, g⟩ := h3
    refine ⟨⟨fun h => (by cases h), fun ⟨pk, k1, k2⟩ => ?_⟩, fun sat iode => (by
      unfold accepted; rw [g0]; simp)⟩
    rcases g with ⟨k3, -⟩ | ⟨pk', k3, -, k4⟩
    · rw [k1] at k3; cases k3
    · rw [k1] at k3; cases k3; rw [k2] at k4; cases k4

/-- **key numbers are not looked at once a key is loaded**: the key of a later message with another
key number is never read -/
theorem key_number_ignored (p : Prim PK) (s : St PK) (pk : PK) (h : s.pk = some pk) (k k' : Nat) :
    getKey p s.pk k = .ok (some pk) ∧ getKey p s.pk k = getKey p s.pk k' := by
  rw [h]; exact ⟨rfl, rfl⟩

/-! ## The stored messages -/

/-- the fields of an assembled message agree: its parts have the right numbers and carry the issue -/
def Consistent (mt iode : Nat) (b : BitBuf) : Prop :=
  (mt = 1 ∧ readU b 53 3 = .ok 1 ∧ readU b 373 3 = .ok 2 ∧ readU b 693 3 = .ok 3 ∧
    readU b 226 8 = .ok iode ∧ readU b 386 8 = .ok iode ∧ readU b 930 8 = .ok iode) ∨
  (mt = 2 ∧ readU b 14 6 = .ok 10 ∧ readU b 318 6 = .ok 11 ∧
    (∃ id, readU b 622 6 = .ok id ∧ cnavMtT.mem id) ∧
    readU b 70 11 = .ok iode ∧ readU b 342 11 = .ok iode ∧ readU b 668 11 = .ok iode) ∨
  (mt = 4 ∧ (∀ k, k < 4 → readU b (248 * k) 6 = .ok (k + 1)) ∧
    readU b 12 10 = .ok iode ∧ ∀ k, 1 ≤ k → k < 4 → readU b (248 * k + 6) 10 = .ok iode) ∨
  (mt = 5 ∧ (∀ k, k < 5 → readU b (128 * k) 6 = .ok (k + 1)) ∧
    ∀ k, k < 4 → readU b (128 * k + 6) 10 = .ok iode)

theorem low8 {h l : Nat} (hl : l < 256) : (l ||| h <<< 8) &&& 0xff = l := by
  have : (l ||| h <<< 8) % 2 ^ 8 = l := by
    refine Nat.eq_of_testBit_eq fun i => ?_
    rw [Nat.testBit_mod_two_pow, Nat.testBit_or, Nat.testBit_shiftLeft]
    by_cases c : i < 8
    · simp [c, show ¬ 8 ≤ i by omega]
    · simp only [c, decide_false, Bool.false_and]
      exact (Nat.testBit_lt_two_pow (Nat.lt_of_lt_of_le hl (Nat.pow_le_pow_right (n := 2) (by omega) (show 8 ≤ i by omega)))).symm
  rw [show (0xff : Nat) = 2 ^ 8 - 1 from rfl, Nat.and_two_pow_sub_one_eq_mod]
  exact this

theorem chkLnav_ok {b : BitBuf} {m : NavMsg} (h : chkGpsLnav b = .ok (some m)) :
    m.msg = b ∧ Consistent 1 m.iodn b := by
  unfold chkGpsLnav at h
  obtain ⟨id1, h1, h⟩ := Py.bind_ok.1 h
  obtain ⟨id2, h2, h⟩ := Py.bind_ok.1 h
  obtain ⟨id3, h3, h⟩ := Py.bind_ok.1 h
  split at h
  · rw [Py.pure_ok] at h; cases h
  rename_i hid
  obtain ⟨ch, -, h⟩ := Py.bind_ok.1 h
  obtain ⟨cl, h4, h⟩ := Py.bind_ok.1 h
  obtain ⟨e1, h5, h⟩ := Py.bind_ok.1 h
  obtain ⟨e2, h6, h⟩ := Py.bind_ok.1 h
  split at h
  · rw [Py.pure_ok] at h; cases h
  rename_i hio
  obtain ⟨x, -, h⟩ := Py.bind_ok.1 h
  obtain ⟨y, -, h⟩ := Py.bind_ok.1 h
  obtain ⟨z, -, h⟩ := Py.bind_ok.1 h
  rw [Py.pure_ok] at h; cases h
  have a1 : id1 = 1 := by omega
  have a2 : id2 = 2 := by omega
  have a3 : id3 = 3 := by omega
  have a4 : e2 = e1 := by omega
  have a5 : e1 = (cl ||| ch <<< 8) &&& 0xff := by omega
  rw [low8 (readU_lt h4)] at a5
  subst a1; subst a2; subst a3; subst a4; subst a5
  exact ⟨rfl, Or.inl ⟨rfl, h1, h2, h3, h4, h5, h6⟩⟩

theorem chkCnav_ok {b : BitBuf} {m : NavMsg} (h : chkGpsCnav b = .ok (some m)) :
    m.msg = b ∧ Consistent 2 m.iodn b := by
  unfold chkGpsCnav at h
  obtain ⟨id1, h1, h⟩ := Py.bind_ok.1 h
  obtain ⟨id2, h2, h⟩ := Py.bind_ok.1 h
  obtain ⟨id3, h3, h⟩ := Py.bind_ok.1 h
  split at h
  · rw [Py.pure_ok] at h; cases h
  rename_i hid
  obtain ⟨tow, -, h⟩ := Py.bind_ok.1 h
  obtain ⟨e1, h4, h⟩ := Py.bind_ok.1 h
  obtain ⟨e2, h5, h⟩ := Py.bind_ok.1 h
  obtain ⟨e3, h6, h⟩ := Py.bind_ok.1 h
  split at h
  · rw [Py.pure_ok] at h; cases h
  rename_i hio
  rw [Py.pure_ok] at h; cases h
  push Not at hid
  have a4 : e2 = e1 := by omega
  have a5 : e3 = e1 := by omega
  obtain ⟨rfl, rfl, hm⟩ := hid
  subst a4; subst a5
  exact ⟨rfl, Or.inr (Or.inl ⟨rfl, h1, h2, ⟨id3, h3, hm⟩, h4, h5, h6⟩)⟩

theorem dict_none {κ α : Type} [DecidableEq κ] {d : Dict κ α} {k : κ} (h : ¬ d.mem k = true) :
    d.get? k = none := by
  unfold Dict.mem at h
  cases e : d.get? k with
  | none => rfl
  | some v => rw [e] at h; exact absurd rfl h

theorem lookup_set (st : Store) (sat a : Int) (d : Dict Nat (Dict Nat NavMsg)) (iode mt : Nat) :
    lookup (st.set sat d) a iode mt =
      if a = sat then (d.get? iode).bind fun e => e.get? mt else lookup st a iode mt := by
  unfold lookup
  rw [Dict.get?_set]
  split
  · rfl
  · rfl

theorem lookup_ensure (st : Store) (sat a : Int) (iode mt : Nat) :
    lookup (ensureSat st sat) a iode mt = lookup st a iode mt := by
  unfold ensureSat
  split
  · rfl
  · rename_i h
    rw [lookup_set]
    split
    · rename_i e
      subst e
      unfold lookup
      rw [dict_none h]
      rfl
    · rfl

/-- storing a message adds at most that message, and never replaces one -/
theorem storeFirst_lookup {st t : Store} {sat : Int} {mode : Nat} {m : NavMsg}
    (h : storeFirst st sat mode m = .ok t) : ∀ a iode mt nm,
      (lookup st a iode mt = some nm → lookup t a iode mt = some nm) ∧
      (lookup t a iode mt = some nm → lookup st a iode mt = some nm ∨
        (a = sat ∧ iode = m.iodn ∧ mt = mode ∧ nm = m)) := by
  unfold storeFirst at h
  obtain ⟨d, hd, h⟩ := Py.bind_ok.1 h
  rw [Dict.getItem_ok_iff] at hd
  intro a iode mt nm
  split at h
  · rw [Py.pure_ok] at h; cases h
    exact ⟨fun h => h, fun h => Or.inl h⟩
  · rename_i hm
    rw [Py.pure_ok] at h; cases h
    rw [lookup_set]
    split
    · rename_i e
      subst e
      rw [Dict.get?_set]
      have hn : d.get? m.iodn = none := dict_none hm
      have hl : lookup st a iode mt = (d.get? iode).bind fun e => e.get? mt := by
        unfold lookup; rw [hd]; rfl
      split
      · rename_i e
        subst e
        rw [hl, hn]
        refine ⟨fun h => (by cases h), fun h => Or.inr ?_⟩
        have h' : Dict.get? [(mode, m)] mt = some nm := h
        by_cases e : mode = mt
        · simp [Dict.get?, List.find?, e] at h'
          exact ⟨rfl, rfl, e.symm, h'.symm⟩
        · simp [Dict.get?, List.find?, e] at h'
      · rw [hl]; exact ⟨fun h => h, fun h => Or.inl h⟩
    · exact ⟨fun h => h, fun h => Or.inl h⟩

theorem storeAdd_lookup {st t : Store} {sat : Int} {mode : Nat} {m : NavMsg}
    (h : storeAdd st sat mode m = .ok t) : ∀ a iode mt nm,
      (lookup st a iode mt = some nm → lookup t a iode mt = some nm) ∧
      (lookup t a iode mt = some nm → lookup st a iode mt = some nm ∨
        (a = sat ∧ iode = m.iodn ∧ mt = mode ∧ nm = m)) := by
  unfold storeAdd at h
  obtain ⟨d, hd, h⟩ := Py.bind_ok.1 h
  rw [Dict.getItem_ok_iff] at hd
  rw [Py.pure_ok] at h; cases h
  intro a iode mt nm
  rw [lookup_set]
  split
  · rename_i e
    subst e
    have hl : lookup st a iode mt = (d.get? iode).bind fun e => e.get? mt := by
      unfold lookup; rw [hd]; rfl
    rw [Dict.get?_set, hl]
    split
    · rename_i e
      subst e
      cases hg : d.get? m.iodn with
      | none =>
        refine ⟨fun h => (by cases h), fun h => Or.inr ?_⟩
        replace h : (Dict.set ([] : Dict Nat NavMsg) mode m).get? mt = some nm := h
        rw [Dict.get?_set] at h
        split at h
        · rename_i e; cases h; exact ⟨rfl, rfl, e, rfl⟩
        · cases h
      | some e =>
        show (e.get? mt = some nm → (if e.mem mode = true then e else e.set mode m).get? mt = some nm) ∧
          ((if e.mem mode = true then e else e.set mode m).get? mt = some nm → e.get? mt = some nm ∨ _)
        split
        · exact ⟨fun h => h, fun h => Or.inl h⟩
        · rename_i hm
          have hn : e.get? mode = none := dict_none hm
          rw [Dict.get?_set]
          split
          · rename_i e'
            subst e'
            rw [hn]
            refine ⟨fun h => (by cases h), fun h => Or.inr ⟨rfl, rfl, rfl, ?_⟩⟩
            cases h; rfl
          · exact ⟨fun h => h, fun h => Or.inl h⟩
    · exact ⟨fun h => h, fun h => Or.inl h⟩
  · exact ⟨fun h => h, fun h => Or.inl h⟩

/-- what loading messages of `sat` does to the store -/
structure Adds (sat : Int) (st t : Store) : Prop where
  keep : ∀ a iode mt nm, lookup st a iode mt = some nm → lookup t a iode mt = some nm
  new : ∀ a iode mt nm, lookup t a iode mt = some nm → lookup st a iode mt = some nm ∨
    (a = sat ∧ Consistent mt iode nm.msg)

theorem Adds.refl (sat : Int) (st : Store) : Adds sat st st :=
  ⟨fun _ _ _ _ h => h, fun _ _ _ _ h => Or.inl h⟩

theorem Adds.trans {sat : Int} {a b c : Store} (h1 : Adds sat a b) (h2 : Adds sat b c) : Adds sat a c :=
  ⟨fun x y z n h => h2.keep x y z n (h1.keep x y z n h), fun x y z n h => by
    rcases h2.new x y z n h with h | h
    · exact h1.new x y z n h
    · exact Or.inr h⟩

theorem Adds.first {st t : Store} {sat : Int} {mode : Nat} {m : NavMsg}
    (h : storeFirst st sat mode m = .ok t) (hc : Consistent mode m.iodn m.msg) : Adds sat st t :=
  ⟨fun a i mt nm => (storeFirst_lookup h a i mt nm).1, fun a i mt nm hl => by
    rcases (storeFirst_lookup h a i mt nm).2 hl with h | ⟨rfl, rfl, rfl, rfl⟩
    · exact Or.inl h
    · exact Or.inr ⟨rfl, hc⟩⟩

theorem Adds.add {st t : Store} {sat : Int} {mode : Nat} {m : NavMsg}
    (h : storeAdd st sat mode m = .ok t) (hc : Consistent mode m.iodn m.msg) : Adds sat st t :=
  ⟨fun a i mt nm => (storeAdd_lookup h a i mt nm).1, fun a i mt nm hl => by
    rcases (storeAdd_lookup h a i mt nm).2 hl with h | ⟨rfl, rfl, rfl, rfl⟩
    · exact Or.inl h
    · exact Or.inr ⟨rfl, hc⟩⟩

theorem Adds.ensure (sat : Int) (st : Store) : Adds sat st (ensureSat st sat) :=
  ⟨fun a i mt nm h => by rw [lookup_ensure]; exact h,
   fun a i mt nm h => Or.inl (by rw [lookup_ensure] at h; exact h)⟩

theorem lnavMsg_adds {sat : Int} {a b : Store × BitBuf} {msg : BitBuf}
    (h : loadLnavMsg sat a msg = .ok b) : Adds sat a.1 b.1 := by
  unfold loadLnavMsg at h
  obtain ⟨sid, -, h⟩ := Py.bind_ok.1 h
  split at h
  · rw [Py.pure_ok] at h; cases h; exact Adds.refl _ _
  simp only at h
  obtain ⟨o, ho, h⟩ := Py.bind_ok.1 h
  cases o with
  | none => rw [Py.pure_ok] at h; cases h; exact Adds.refl _ _
  | some m =>
    obtain ⟨st, hs, h⟩ := Py.bind_ok.1 h
    rw [Py.pure_ok] at h; cases h
    obtain ⟨e, hc⟩ := chkLnav_ok ho
    exact Adds.first hs (by rw [e]; exact hc)

theorem cnavMsg_adds {sat : Int} {a b : Store × BitBuf} {msg : BitBuf}
    (h : loadCnavMsg sat a msg = .ok b) : Adds sat a.1 b.1 := by
  unfold loadCnavMsg at h
  obtain ⟨x, -, h⟩ := Py.bind_ok.1 h
  obtain ⟨mt, -, h⟩ := Py.bind_ok.1 h
  split at h
  · rw [Py.pure_ok] at h; cases h; exact Adds.refl _ _
  simp only at h
  obtain ⟨o, ho, h⟩ := Py.bind_ok.1 h
  cases o with
  | none => rw [Py.pure_ok] at h; cases h; exact Adds.refl _ _
  | some m =>
    obtain ⟨st, hs, h⟩ := Py.bind_ok.1 h
    rw [Py.pure_ok] at h; cases h
    obtain ⟨e, hc⟩ := chkCnav_ok ho
    exact Adds.first hs (by rw [e]; exact hc)

theorem fnavMsg_adds {sat : Int} {a b : Store × BitBuf} {msg : BitBuf}
    (h : loadFnavMsg sat a msg = .ok b) : Adds sat a.1 b.1 := by
  unfold loadFnavMsg at h
  obtain ⟨sid, -, h⟩ := Py.bind_ok.1 h
  split at h
  · rw [Py.pure_ok] at h; cases h; exact Adds.refl _ _
  generalize setSlice a.2 (if sid = 0 then 93 else (sid - 1) * 31) 31 (msg.take 248) = buff at h
  by_cases hlen : msg.length < 248
  · rw [if_pos hlen] at h; cases h
  rw [if_neg hlen] at h
  obtain ⟨s1, a1, h⟩ := Py.bind_ok.1 h
  obtain ⟨i1, b1, h⟩ := Py.bind_ok.1 h
  obtain ⟨x, -, h⟩ := Py.bind_ok.1 h
  obtain ⟨s2, a2, h⟩ := Py.bind_ok.1 h
  obtain ⟨i2, b2, h⟩ := Py.bind_ok.1 h
  obtain ⟨s3, a3, h⟩ := Py.bind_ok.1 h
  obtain ⟨i3, b3, h⟩ := Py.bind_ok.1 h
  obtain ⟨s4, a4, h⟩ := Py.bind_ok.1 h
  obtain ⟨i4, b4, h⟩ := Py.bind_ok.1 h
  split at h
  · rw [Py.pure_ok] at h; cases h; exact Adds.refl _ _
  rename_i hid
  split at h
  · rw [Py.pure_ok] at h; cases h; exact Adds.refl _ _
  rename_i hio
  obtain ⟨tow, -, h⟩ := Py.bind_ok.1 h
  obtain ⟨st, hs, h⟩ := Py.bind_ok.1 h
  rw [Py.pure_ok] at h; cases h
  push Not at hid hio
  obtain ⟨rfl, rfl, rfl, rfl⟩ := hid
  obtain ⟨rfl, rfl, rfl⟩ := hio
  refine Adds.add hs (Or.inr (Or.inr (Or.inl ⟨rfl, fun k hk => ?_, b1, fun k h1 hk => ?_⟩)))
  · match k, hk with
    | 0, _ => exact a1
    | 1, _ => exact a2
    | 2, _ => exact a3
    | 3, _ => exact a4
  · match k, h1, hk with
    | 1, _, _ => exact b2
    | 2, _, _ => exact b3
    | 3, _, _ => exact b4

theorem inavMsg_adds {sat : Int} {a b : Store × BitBuf} {msg : BitBuf}
    (h : loadInavMsg sat a msg = .ok b) : Adds sat a.1 b.1 := by
  unfold loadInavMsg at h
  obtain ⟨sid, -, h⟩ := Py.bind_ok.1 h
  obtain ⟨y, -, h⟩ := Py.bind_ok.1 h
  split at h
  · rw [Py.pure_ok] at h; cases h; exact Adds.refl _ _
  obtain ⟨c1, -, h⟩ := Py.bind_ok.1 h
  obtain ⟨c2, -, h⟩ := Py.bind_ok.1 h
  obtain ⟨s1, a1, h⟩ := Py.bind_ok.1 h
  obtain ⟨i1, b1, h⟩ := Py.bind_ok.1 h
  obtain ⟨s2, a2, h⟩ := Py.bind_ok.1 h
  obtain ⟨i2, b2, h⟩ := Py.bind_ok.1 h
  obtain ⟨s3, a3, h⟩ := Py.bind_ok.1 h
  obtain ⟨i3, b3, h⟩ := Py.bind_ok.1 h
  obtain ⟨s4, a4, h⟩ := Py.bind_ok.1 h
  obtain ⟨i4, b4, h⟩ := Py.bind_ok.1 h
  obtain ⟨s5, a5, h⟩ := Py.bind_ok.1 h
  obtain ⟨tow, -, h⟩ := Py.bind_ok.1 h
  split at h
  · rw [Py.pure_ok] at h; cases h; exact Adds.refl _ _
  rename_i hid
  split at h
  · rw [Py.pure_ok] at h; cases h; exact Adds.refl _ _
  rename_i hio
  obtain ⟨st, hs, h⟩ := Py.bind_ok.1 h
  rw [Py.pure_ok] at h; cases h
  push Not at hid hio
  obtain ⟨rfl, rfl, rfl, rfl, rfl, rfl⟩ := hid
  obtain ⟨rfl, rfl, rfl⟩ := hio
  refine Adds.add hs (Or.inr (Or.inr (Or.inr ⟨rfl, fun k hk => ?_, fun k hk => ?_⟩)))
  · match k, hk with
    | 0, _ => exact a1
    | 1, _ => exact a2
    | 2, _ => exact a3
    | 3, _ => exact a4
    | 4, _ => exact a5
  · match k, hk with
    | 0, _ => exact b1
    | 1, _ => exact b2
    | 2, _ => exact b3
    | 3, _ => exact b4

theorem fold_adds {sat : Int} {f : Store × BitBuf → BitBuf → Py (Store × BitBuf)}
    (hf : ∀ a b m, f a m = .ok b → Adds sat a.1 b.1) : ∀ (l : List BitBuf) (a b : Store × BitBuf),
      l.foldlM f a = .ok b → Adds sat a.1 b.1 := by
  intro l
  induction l with
  | nil => intro a b h; rw [List.foldlM_nil, Py.pure_ok] at h; cases h; exact Adds.refl _ _
  | cons m l ih =>
    intro a b h
    rw [List.foldlM_cons] at h
    obtain ⟨c, h1, h2⟩ := Py.bind_ok.1 h
    exact (hf a c m h1).trans (ih c b h2)

/-- the satellite whose messages are loaded -/
def loadSat (mt : Nat) (prn : Int) : Int :=
  if mt = 1 ∨ mt = 2 then prn2sat .gps prn else prn2sat .gal prn

/-- **loading**: entries of other satellites are untouched, nothing stored is replaced, and every
message added is complete and belongs to the issue it is stored under -/
theorem load_adds {p : Prim PK} {s t : St PK} {mt : Nat} {prn : Int} {msgs : List BitBuf}
    (h : step p s (.load mt prn msgs) = .ok t) : Adds (loadSat mt prn) s.navmsg t.navmsg := by
  unfold step at h
  unfold loadSat
  simp only at h
  split at h
  · rename_i e
    rw [if_pos (Or.inl e)]
    obtain ⟨st, h1, h⟩ := Py.bind_ok.1 h
    rw [Py.pure_ok] at h; cases h
    unfold loadLnav at h1
    obtain ⟨q, h2, h1⟩ := Py.bind_ok.1 h1
    rw [Py.pure_ok] at h1; cases h1
    exact (Adds.ensure _ _).trans (fold_adds (fun _ _ _ => lnavMsg_adds) _ _ _ h2)
  split at h
  · rename_i _ e
    rw [if_pos (Or.inr e)]
    obtain ⟨st, h1, h⟩ := Py.bind_ok.1 h
    rw [Py.pure_ok] at h; cases h
    unfold loadCnav at h1
    obtain ⟨q, h2, h1⟩ := Py.bind_ok.1 h1
    rw [Py.pure_ok] at h1; cases h1
    exact (Adds.ensure _ _).trans (fold_adds (fun _ _ _ => cnavMsg_adds) _ _ _ h2)
  rename_i n1 n2
  rw [if_neg (by omega)]
  split at h
  · obtain ⟨st, h1, h⟩ := Py.bind_ok.1 h
    rw [Py.pure_ok] at h; cases h
    unfold loadFnav at h1
    obtain ⟨q, h2, h1⟩ := Py.bind_ok.1 h1
    rw [Py.pure_ok] at h1; cases h1
    exact (Adds.ensure _ _).trans (fold_adds (fun _ _ _ => fnavMsg_adds) _ _ _ h2)
  · obtain ⟨st, h1, h⟩ := Py.bind_ok.1 h
    rw [Py.pure_ok] at h; cases h
    unfold loadInav at h1
    obtain ⟨q, h2, h1⟩ := Py.bind_ok.1 h1
    rw [Py.pure_ok] at h1; cases h1
    exact (Adds.ensure _ _).trans (fold_adds (fun _ _ _ => inavMsg_adds) _ _ _ h2)

/-- messages of other satellites are untouched -/
theorem load_local {p : Prim PK} {s t : St PK} {mt : Nat} {prn : Int} {msgs : List BitBuf}
    (h : step p s (.load mt prn msgs) = .ok t) {a : Int} (ha : a ≠ loadSat mt prn) (iode ty : Nat) :
    lookup t.navmsg a iode ty = lookup s.navmsg a iode ty := by
  have g := load_adds h
  cases h1 : lookup s.navmsg a iode ty with
  | some nm => exact g.keep _ _ _ _ h1
  | none =>
    cases h2 : lookup t.navmsg a iode ty with
    | none => rfl
    | some nm =>
      rcases g.new _ _ _ _ h2 with h | h
      · rw [h1] at h; cases h
      · exact absurd h.1 ha

/-- what a `decode` call does to the store: it may forget messages of the satellite it was called
for, and the messages it adds are consistent -/
def DecAdds (sat : Int) (st t : Store) : Prop :=
  ∀ a iode mt nm, lookup t a iode mt = some nm → lookup st a iode mt = some nm ∨
    (a = sat ∧ Consistent mt iode nm.msg)

theorem msg2nav_adds {s t : St PK} {sat : Int} {i0 : Nat} {msg : BitBuf} {mode : Nat}
    (h : msg2nav s sat i0 msg mode = .ok t) : DecAdds sat s.navmsg t.navmsg := by
  have h0 : DecAdds sat s.navmsg (ensureBuff s sat).navmsg := by
    intro a iode mt nm hl
    unfold ensureBuff at hl
    split at hl
    · exact Or.inl hl
    · rw [lookup_set] at hl
      split at hl
      · cases hl
      · exact Or.inl hl
  unfold msg2nav at h
  obtain ⟨b, -, h⟩ := Py.bind_ok.1 h
  obtain ⟨f, -, h⟩ := Py.bind_ok.1 h
  obtain ⟨o, ho, h⟩ := Py.bind_ok.1 h
  cases o with
  | none => rw [Py.pure_ok] at h; cases h; exact h0
  | some nm =>
    obtain ⟨st, hs, h⟩ := Py.bind_ok.1 h
    rw [Py.pure_ok] at h; cases h
    have hc : Consistent mode nm.iodn nm.msg := by
      unfold chkNav at ho
      split at ho
      · rename_i e
        replace e : mode = 1 := e
        subst e
        obtain ⟨e, hc⟩ := chkLnav_ok ho
        rw [e]; exact hc
      split at ho
      · rename_i e
        replace e : mode = 2 := e
        subst e
        obtain ⟨e, hc⟩ := chkCnav_ok ho
        rw [e]; exact hc
      · cases ho
    intro a iode mt m hl
    rcases (storeFirst_lookup hs a iode mt m).2 hl with h | ⟨rfl, rfl, rfl, rfl⟩
    · exact h0 a iode mt m h
    · exact Or.inr ⟨rfl, hc⟩

theorem rdsStep_nav {s t : St PK} {sat : Int} {mode : Nat} {msg : BitBuf} {tow : Int} {c : Bool}
    (h : rdsStep s sat mode msg tow c = .ok t) : t.navmsg = s.navmsg := by
  unfold rdsStep at h
  obtain ⟨⟨u, npr⟩, h1, h⟩ := Py.bind_ok.1 h
  have hu : u.navmsg = s.navmsg := by
    unfold genRds at h1
    obtain ⟨r, -, h1⟩ := Py.bind_ok.1 h1
    obtain ⟨m, -, h1⟩ := Py.bind_ok.1 h1
    obtain ⟨⟨r2, m2⟩, -, h1⟩ := Py.bind_ok.1 h1
    simp only at h1
    split at h1
    · obtain ⟨k, -, h1⟩ := Py.bind_ok.1 h1
      obtain ⟨hh, -, h1⟩ := Py.bind_ok.1 h1
      obtain ⟨l, -, h1⟩ := Py.bind_ok.1 h1
      rw [Py.pure_ok] at h1; cases h1; rfl
    · rw [Py.pure_ok] at h1; cases h1; rfl
  simp only at h
  obtain ⟨m, -, h⟩ := Py.bind_ok.1 h
  split at h
  · rw [Py.pure_ok] at h; cases h
    split
    · exact hu
    · exact hu
  · rw [Py.pure_ok] at h; cases h; exact hu

theorem verifyQzss_nav {p : Prim PK} {s t : St PK} {sat : Int} {o : Option NavParam} {mnav : BitBuf}
    {mode : Nat} {b : Bool} (h : verifyQzss p s sat o mnav mode = .ok (t, b)) :
    t.navmsg = s.navmsg := by
  obtain ⟨npr, r, -, -, g2, -⟩ := verifyQzss_spec h
  exact g2

theorem collected_nav {p : Prim PK} {s t : St PK} {sat : Int} {mode : Nat}
    (h : collected p s sat mode = .ok t) : t.navmsg = s.navmsg := by
  unfold collected at h
  obtain ⟨f, -, h⟩ := Py.bind_ok.1 h
  split at h
  · obtain ⟨b, hb, h⟩ := Py.bind_ok.1 h
    obtain ⟨mnav, hmn, h⟩ := Py.bind_ok.1 h
    obtain ⟨o, ho, h⟩ := Py.bind_ok.1 h
    obtain ⟨⟨t', v⟩, hv, h⟩ := Py.bind_ok.1 h
    rw [Py.pure_ok] at h; cases h
    exact verifyQzss_nav (s := { s with flagE := s.flagE.set sat 0 }) hv
  · rw [Py.pure_ok] at h; cases h; rfl

theorem initSat_nav (s : St PK) (sat : Int) : (initSat s sat).navmsg = s.navmsg := by
  unfold initSat; split <;> rfl

theorem decAdds_eq {sat : Int} {a b : Store} (h : b = a) : DecAdds sat a b := by
  subst h; exact fun _ _ _ _ h => Or.inl h

theorem nav_adds {p : Prim PK} {s t : St PK} {msg : BitBuf} {sat : Int} {navmode : Nat}
    (h : decodeNav p s msg sat navmode = .ok t) : DecAdds sat s.navmsg t.navmsg := by
  rw [← initSat_nav s sat]
  unfold decodeNav at h
  simp only at h
  split at h
  · obtain ⟨x, -, h⟩ := Py.bind_ok.1 h
    obtain ⟨y, -, h⟩ := Py.bind_ok.1 h
    obtain ⟨z, -, h⟩ := Py.bind_ok.1 h
    obtain ⟨s1, h1, h⟩ := Py.bind_ok.1 h
    rw [collected_nav h]
    unfold lnavIn at h1
    split at h1
    · obtain ⟨x, -, h1⟩ := Py.bind_ok.1 h1
      obtain ⟨y, -, h1⟩ := Py.bind_ok.1 h1
      split at h1
      · exact decAdds_eq (rdsStep_nav h1)
      · rw [Py.pure_ok] at h1; cases h1; exact decAdds_eq rfl
    split at h1
    · exact msg2nav_adds h1
    · rw [Py.pure_ok] at h1; cases h1; exact decAdds_eq rfl
  split at h
  · obtain ⟨x, -, h⟩ := Py.bind_ok.1 h
    obtain ⟨y, -, h⟩ := Py.bind_ok.1 h
    obtain ⟨w, -, h⟩ := Py.bind_ok.1 h
    obtain ⟨z, -, h⟩ := Py.bind_ok.1 h
    obtain ⟨s1, h1, h⟩ := Py.bind_ok.1 h
    rw [collected_nav h]
    unfold cnavIn at h1
    split at h1
    · exact decAdds_eq (rdsStep_nav h1)
    split at h1
    · exact msg2nav_adds h1
    · rw [Py.pure_ok] at h1; cases h1; exact decAdds_eq rfl
  split at h
  · obtain ⟨toi, ht, h⟩ := Py.bind_ok.1 h
    obtain ⟨y, -, h⟩ := Py.bind_ok.1 h
    obtain ⟨w, hw, h⟩ := Py.bind_ok.1 h
    obtain ⟨z, -, h⟩ := Py.bind_ok.1 h
    split at h
    · exact decAdds_eq (rdsStep_nav h)
    · obtain ⟨tp, -, h⟩ := Py.bind_ok.1 h
      split at h
      · obtain ⟨mnav, hmn, h⟩ := Py.bind_ok.1 h
        obtain ⟨o, ho, h⟩ := Py.bind_ok.1 h
        obtain ⟨⟨t', v⟩, hv, h⟩ := Py.bind_ok.1 h
        rw [Py.pure_ok] at h; cases h
        exact decAdds_eq (verifyQzss_nav hv)
      · rw [Py.pure_ok] at h; cases h; exact decAdds_eq rfl
  · rw [Py.pure_ok] at h; cases h; exact decAdds_eq rfl

theorem decode_adds {p : Prim PK} {s t : St PK} (hi : Inv p s) {msg msgN : Option BitBuf}
    {arg : Int} {navmode : Nat} (h : decode p s msg msgN arg navmode = .ok t) :
    DecAdds arg s.navmsg t.navmsg := by
  unfold decode at h
  obtain ⟨u, h1, h2⟩ := Py.bind_ok.1 h
  have hu : DecAdds arg s.navmsg u.navmsg ∧ Inv p u := by
    cases msg with
    | none => cases h1; exact ⟨decAdds_eq rfl, hi⟩
    | some m =>
      replace h1 : decodeNav p s m arg navmode = .ok u := h1
      obtain ⟨a1, a2, a3, -⟩ := nav_sound hi.key hi.iss h1
      exact ⟨nav_adds h1, a3, a2, a1.trans hi.thr⟩
  cases msgN with
  | none => cases h2; exact hu.1
  | some l6 =>
    replace h2 : decodeL6 p u l6 = .ok t := h2
    rw [(l6_sound hu.2.key h2).1]
    exact hu.1

/-- **stored messages**: after any history, a message found under a satellite, issue and type is a
complete message of that type whose parts all carry that issue -/
theorem stored_consistent (p : Prim PK) : ∀ (h : List Op) (t : St PK), run p h = .ok t →
    ∀ sat iode mt nm, lookup t.navmsg sat iode mt = some nm → Consistent mt iode nm.msg := by
  intro h
  induction h using List.reverseRecOn with
  | nil =>
    intro t hr sat iode mt nm hl
    unfold run at hr
    rw [List.foldlM_nil, Py.pure_ok] at hr
    subst hr; cases hl
  | append_singleton h o ih =>
    intro t hr sat iode mt nm hl
    obtain ⟨s, h1, h2⟩ := run_snoc p hr
    cases o with
    | load ty prn msgs =>
      rcases (load_adds h2).new _ _ _ _ hl with h | h
      · exact ih s h1 _ _ _ _ h
      · exact h.2
    | decode msg msgN arg navmode =>
      rcases decode_adds (run_inv p h s h1) h2 _ _ _ _ hl with h | h
      · exact ih s h1 _ _ _ _ h
      · exact h.2

/-! ## A concrete history -/

/-- a signature scheme of toy size: the first signature bit must be set -/
def toy : Prim Unit := ⟨fun _ => .ok (some ()), fun _ ds _ => .ok (ds.getD 0 false)⟩

/-- Galileo I/NAV word number `k` of issue 5 -/
def word (k : Nat) : BitBuf :=
  natToBits 2 0 ++ natToBits 6 k ++ natToBits 10 5 ++ List.replicate 222 true

/-- record for satellite E03 (64 + 3), type I/NAV, issue 5 -/
def record (good : Bool) : BitBuf :=
  natToBits 4 1 ++ natToBits 20 100 ++ natToBits 8 67 ++ natToBits 4 5 ++ natToBits 11 5 ++
    natToBits 11 0 ++ natToBits 11 0 ++ natToBits 8 9 ++ (good :: List.replicate 511 false) ++
    natToBits 16 77

def l6msg (good : Bool) : BitBuf :=
  List.replicate 40 false ++ natToBits 8 0x60 ++ [false] ++ record good ++ List.replicate 610 false

def hist (good : Bool) : List Op :=
  [.load 5 3 [word 1, word 2, word 3, word 4, word 5], .decode none (some (l6msg good)) 0 0]

/-- a valid signature is accepted for that satellite and issue only; an invalid one is not -/
example :
    (run toy (hist true)).map (fun s => (accepted s (prn2sat .gal 3) 5, accepted s (prn2sat .gal 3) 6,
      accepted s (prn2sat .gal 4) 5, countValidSat s)) = .ok (1, 0, 0, 1) ∧
    (run toy (hist false)).map (fun s => (accepted s (prn2sat .gal 3) 5, countValidSat s)) =
      .ok (0, 0) ∧
    (run toy (hist true)).map (fun s => ((lookup s.navmsg (prn2sat .gal 3) 5 5).isSome,
      (lookup s.navmsg (prn2sat .gal 3) 5 4).isSome)) = .ok (true, false) := by
  decide +kernel

/-- the first sub-frames of a week are collected before any signature exists, and checking them then
fails with an exception -/
def subframe (sid tow : Nat) : BitBuf :=
  natToBits 32 0 ++ natToBits 2 0 ++ natToBits 17 tow ++ natToBits 2 0 ++ natToBits 3 sid ++
    List.replicate 264 false

example :
    (run toy [.decode (some (subframe 1 1)) none (prn2sat .qzs 194) 1,
      .decode (some (subframe 2 2)) none (prn2sat .qzs 194) 1,
      .decode (some (subframe 3 3)) none (prn2sat .qzs 194) 1]).map (fun _ => ()) =
        .error .attributeError := by
  decide +kernel

end Verif.C25
