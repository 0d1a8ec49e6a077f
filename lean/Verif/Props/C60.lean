import Verif.Lemmas.Exact
import Verif.Props.C05
import Verif.Props.C11
import Mathlib.Tactic.NormNum
/-!
# C60 Contents of Compact SSR orbit, clock, bias and accuracy messages (satellite service and Galileo HAS)

Specification: the bit layout of the messages.  A body starts with a header (12 bits time, 4 bits update interval,
1 bit flag, 4 bits issue; for HAS only the 4 bits update interval), then one item per satellite of the mask in mask
order.
-/

namespace Verif.C60
open Verif.Sat Verif.Sig Verif.Mask Verif.Time Verif.Cssr

/-! ## Specification -/

/-- length of the header -/
def hdr (has : Bool) : Nat := if has then 4 else 21
/-- update interval index -/
def udiAt (has : Bool) (b : BitBuf) (i : Nat) : Nat := if has then bitsAt b i 4 else bitsAt b (i + 12) 4
/-- issue number the message belongs to: HAS messages carry it outside the body -/
def issueAt (has : Bool) (s : St) (b : BitBuf) (i : Nat) : Int := if has then s.iodssr else bitsAt b (i + 17) 4

/-- value of an `n`-bit field; the most negative value, and for HAS also the most positive one, mean "not available" -/
def num (has : Bool) (u : Int) (n : Nat) (scl : ℚ) : Val :=
  if u = -2 ^ (n - 1) ∨ (has = true ∧ u = 2 ^ (n - 1) - 1) then none else some (u * scl)

/-- bits of the ephemeris issue -/
def issueBits (sys : Sys) : Nat := if sys = .gal then 10 else 8
def orbBits (has : Bool) (sys : Sys) : Nat := issueBits sys + if has then 37 else 41
/-- radial, along-track and cross-track correction in metres; HAS corrections have the opposite sign -/
def orbVal (has : Bool) (b : BitBuf) (p : Nat) : Val × Val × Val :=
  if has then
    ((num true (intAt b p 13) 13 (25 / 10000)).map (- ·), (num true (intAt b (p + 13) 12) 12 (8 / 1000)).map (- ·),
     (num true (intAt b (p + 25) 12) 12 (8 / 1000)).map (- ·))
  else
    (num false (intAt b p 15) 15 (16 / 10000), num false (intAt b (p + 15) 13) 13 (64 / 10000),
     num false (intAt b (p + 28) 13) 13 (64 / 10000))

/-- accuracy in metres of a 3-bit class and a 3-bit value -/
def uraVal (c v : Nat) : Val :=
  if c = 7 ∧ v = 7 then some (54665 / 10000) else if c = 0 ∧ v = 0 then none
  else some ((3 ^ c * (4 + v) - 4) / 4000)

/-- epoch recorded for a satellite and a kind of correction -/
def look (t : Dict Int (Dict CType GTime)) (sat : Int) (c : CType) : Option GTime :=
  (Dict.get? t sat).bind (fun d => Dict.get? d c)

/-- the kinds of correction a satellite entry starts with -/
def kinds : List CType := [.clock, .orbit, .cbias, .pbias, .hclock]

/-- epochs after a message of kind `c` at `tm` that names the satellites `named` -/
def Epochs (t t' : Dict Int (Dict CType GTime)) (named : Int → Prop) (c : CType) (tm : GTime) : Prop :=
  (∀ sat, named sat → look t' sat c = some tm) ∧
  (∀ sat c', named sat → c' ≠ c → look t' sat c' =
    if (Dict.get? t sat).isSome then look t sat c' else if c' ∈ kinds then some ⟨0, 0⟩ else none) ∧
  (∀ sat, ¬ named sat → Dict.get? t' sat = Dict.get? t sat)

/-- running time after a header with time field `d` (seconds of the hour; HAS: taken from the page header) -/
def Stamp (has : Bool) (s : St) (d : Int) (tow : Int) (tm : GTime) : Prop :=
  tow = (if 0 ≤ s.tow0 then s.tow0 + d else s.tow) ∧
  (0 ≤ s.week → (has = true → 0 ≤ s.tow0) → -1000000000 ≤ tow ∧ tow ≤ 1000000000 →
    timediff tm ⟨0, 0⟩ = 315964800 + 604800 * s.week + tow) ∧
  (s.week < 0 ∨ (has = true ∧ s.tow0 < 0) → tm = s.time)

/-- time field of a message -/
def timeField (has : Bool) (s : St) (b : BitBuf) (i : Nat) : Int := if has then s.toh else bitsAt b i 12

/-- the lists of the mask in force belong together -/
structure MaskOk (s : St) : Prop where
  sats : s.nsatN = s.satN.length
  syss : s.sysN.length = s.nsatN
  gnss : s.gnssIdx.length = s.ngnss
  sigs : ∀ sat ∈ s.satN, ∃ g, Dict.get? s.sigN sat = some g

def cfgOf (has : Bool) : Cfg := if has then cfgHas else cfgClas

/-- the decoder with another content of one correction slot -/
def put (s : St) (inet : Nat) (l : LC) : St := { s with lc := s.lc.set inet l }

/-! ## Mask lists after a mask message -/

theorem mask_lists (s : St) (msg : BitBuf) (i : Nat) (hi : i ≤ msg.length) (hlc : s.lc ≠ []) {s' : St} {j : Int}
    (h : decodeCssrMask s msg i = .ok (s', j)) : MaskOk s' := by
  obtain ⟨h1, h2, -, -, -, -, h3, -⟩ := C11.accepted_consistent s msg i hi hlc h
  obtain ⟨m, hm, hat⟩ := C11.accepted_is_message s msg i hi h
  obtain ⟨t, ht, -, -, -, -, -, -, c7, c8, -⟩ := C11.mask_decodes s m hm msg i hlc hat
  rw [h] at ht
  cases ht
  refine ⟨h1, h2, by rw [c7, c8, List.length_map], fun sat hs => ?_⟩
  exact Option.isSome_iff_exists.1 ((h3 sat).1 hs)

/-! ## Helpers -/

theorem sval_num {has : Bool} {c : Cfg} (h : c = cfgOf has) (u : Int) (n : Nat) (scl : ℚ) :
    c.sval u n scl = num has u n scl := by
  subst h
  cases has
  · simp [Cfg.sval, cfgOf, cfgClas, num, Sval.sval]
  · simp [Cfg.sval, cfgOf, cfgHas, num, Sval.svalHas]

theorem cfgOf_has (has : Bool) : (cfgOf has).has = has := by cases has <;> rfl

theorem modLC_eq {s : St} {inet : Nat} {l : LC} (h : s.lc[inet]? = some l) (f : LC → LC) :
    modLC s inet f = .ok (put s inet (f l)) := by
  unfold modLC
  rw [h]; rfl

theorem put_get {s : St} {inet : Nat} {l : LC} (h : s.lc[inet]? = some l) (l' : LC) :
    (put s inet l').lc[inet]? = some l' := by
  obtain ⟨h1, -⟩ := List.getElem?_eq_some_iff.1 h
  simp [put, h1]

theorem put_put (s : St) (inet : Nat) (l l' : LC) : put (put s inet l) inet l' = put s inet l' := by
  simp [put]

theorem put_self {s : St} {inet : Nat} {l : LC} (h : s.lc[inet]? = some l) : put s inet l = s := by
  obtain ⟨h1, h2⟩ := List.getElem?_eq_some_iff.1 h
  subst h2
  simp [put]

theorem modLC_put {s : St} {inet : Nat} {l : LC} (h : s.lc[inet]? = some l) (l' : LC) (f : LC → LC) :
    modLC (put s inet l') inet f = .ok (put s inet (f l')) := by
  rw [modLC_eq (put_get h l'), put_put]

theorem pyGet_of {α} {l : List α} {k : Nat} {x : α} (h : l[k]? = some x) : pyGet l k = .ok x := by
  unfold pyGet; rw [h]

theorem getItem_of {κ α} [DecidableEq κ] {d : Dict κ α} {k : κ} {v : α} (h : Dict.get? d k = some v) :
    Dict.getItem d k = .ok v := (Dict.getItem_ok_iff d k v).2 h

theorem head_spec (has : Bool) (s : St) (b : BitBuf) (i : Nat) (hc : s.cfg = cfgOf has) :
    Exact b.length (i + hdr has) (decodeHead s b i) (fun r => ∃ tow tm, Stamp has s (timeField has s b i) tow tm ∧
      r.1 = { s with tow := tow, time := tm } ∧ r.2.1.udi = udiAt has b i ∧ r.2.1.iodssr = issueAt has s b i ∧
      r.2.2 = i + hdr has) := by
  unfold decodeHead
  have hb : s.cfg.has = has := by rw [hc]; exact cfgOf_has has
  rw [hb]
  cases has
  · simp only [Bool.false_eq_true, if_false]
    unfold decodeHeadClas
    simp only [Bool.false_eq_true, if_false]
    refine Exact.bind (Q := fun r : St × Nat => r.2 = i + 12 ∧ r.1 =
      { s with tow := if 0 ≤ s.tow0 then s.tow0 + bitsAt b i 12 else s.tow }) (p := i + 12)
      (Exact.bind Exact.u (Nat.le_refl _) fun d hd hl => Exact.ret hl ?_) (by unfold hdr; simp) ?_
    · subst hd
      refine ⟨rfl, ?_⟩
      by_cases h : 0 ≤ s.tow0
      · simp only [ge_iff_le, if_pos h]
      · simp only [ge_iff_le, if_neg h]
    · rintro ⟨s1, j⟩ ⟨rfl, h1⟩ -
      simp only at h1 ⊢
      refine Exact.bind Exact.u (by unfold hdr; simp) fun u hu _ => Exact.bind Exact.u (by unfold hdr; simp)
        fun mi _ _ => Exact.bind Exact.u (by unfold hdr; simp) fun iod hi hl => ?_
      subst hu hi h1
      refine Exact.ret (by unfold hdr; simpa [Nat.add_assoc] using hl) ?_
      simp only
      by_cases hw : 0 ≤ s.week
      · refine ⟨_, gpst2time s.week ((if 0 ≤ s.tow0 then s.tow0 + bitsAt b i 12 else s.tow : Int) : ℚ),
          ⟨rfl, fun _ _ h => ?_, fun h => ?_⟩, ?_, rfl, ?_, ?_⟩
        · have := (C05.week_tow_instant s.week
            ((if 0 ≤ s.tow0 then s.tow0 + bitsAt b i 12 else s.tow : Int) : ℚ) ?_).1
          · exact this
          · have e1 := h.1
            have e2 := h.2
            simp only [timeField, Bool.false_eq_true, if_false] at e1 e2
            exact ⟨by exact_mod_cast e1, by exact_mod_cast e2⟩
        · rcases h with h | h
          · omega
          · cases h.1
        · rw [if_pos hw]; rfl
        · rfl
        · rfl
      · refine ⟨_, s.time, ⟨rfl, fun h => absurd h hw, fun _ => rfl⟩, ?_, rfl, ?_, ?_⟩
        · rw [if_neg hw]; rfl
        · rfl
        · rfl
  · simp only [if_true]
    unfold decodeHeadHas
    simp only [Bool.false_eq_true, if_false]
    refine Exact.bind (Q := fun r : Nat × Nat => r = (bitsAt b i 4, i + 4)) (p := i + 4)
      (Exact.bind Exact.u (Nat.le_refl _) fun d hd hl => Exact.ret hl (by rw [hd])) (by unfold hdr; simp) ?_
    rintro _ rfl hl
    refine Exact.ret hl ?_
    simp only
    by_cases h0 : 0 ≤ s.tow0
    · by_cases hw : 0 ≤ s.week
      · refine ⟨s.tow0 + s.toh, gpst2time s.week ((s.tow0 + s.toh : Int) : ℚ),
          ⟨by rw [if_pos h0]; rfl, fun _ _ h => ?_, fun h => by omega⟩, ?_, rfl, ?_, rfl⟩
        · have := (C05.week_tow_instant s.week ((s.tow0 + s.toh : Int) : ℚ) ?_).1
          · exact this
          · exact ⟨by exact_mod_cast h.1, by exact_mod_cast h.2⟩
        · rw [if_pos h0, if_pos hw]
        · rw [if_pos h0, if_pos hw]; rfl
      · refine ⟨s.tow0 + s.toh, s.time, ⟨by rw [if_pos h0]; rfl, fun h => absurd h hw, fun _ => rfl⟩, ?_, rfl, ?_, rfl⟩
        · rw [if_pos h0, if_neg hw]
        · rw [if_pos h0, if_neg hw]; rfl
    · refine ⟨s.tow, s.time, ⟨by rw [if_neg h0], fun _ h => absurd (h rfl) h0, fun _ => rfl⟩, ?_, rfl, ?_, rfl⟩
      · rw [if_neg h0]
      · rw [if_neg h0]; rfl

/-! ### Epochs -/

theorem epochs_refl (t : Dict Int (Dict CType GTime)) (c : CType) (tm : GTime) : Epochs t t (fun _ => False) c tm :=
  ⟨fun _ h => h.elim, fun _ _ h => h.elim, fun _ _ => rfl⟩

theorem epochs_congr {t t' : Dict Int (Dict CType GTime)} {P Q : Int → Prop} {c : CType} {tm : GTime}
    (h : Epochs t t' P c tm) (e : ∀ sat, Q sat ↔ P sat) : Epochs t t' Q c tm := by
  have : Q = P := funext fun x => propext (e x)
  rw [this]; exact h

/-- table of epochs after an update, as `setT0` leaves it -/
def addT0 (q : Dict Int (Dict CType GTime)) (sat : Int) (c : CType) (tm : GTime) : Dict Int (Dict CType GTime) :=
  (LC.setT0 { t0 := q } sat c tm).t0

theorem setT0_eq (l : LC) (sat : Int) (c : CType) (tm : GTime) :
    l.setT0 sat c tm = { l with t0 := addT0 l.t0 sat c tm } := rfl

theorem epochs_set {t q : Dict Int (Dict CType GTime)} {P : Int → Prop} {c : CType} {tm : GTime}
    (h : Epochs t q P c tm) (sat : Int) :
    Epochs t (addT0 q sat c tm) (fun x => P x ∨ x = sat) c tm := by
  have hlook : ∀ x c', look (addT0 q sat c tm) x c' = if x = sat then
      (if c' = c then some tm else if (Dict.get? q sat).isSome then look q sat c'
        else if c' ∈ kinds then some ⟨0, 0⟩ else none) else look q x c' := by
    intro x c'
    unfold look addT0 LC.setT0
    simp only
    rw [Dict.get?_set]
    by_cases e : x = sat
    · rw [if_pos e, if_pos e]
      simp only [Option.bind_some]
      rw [Dict.get?_set]
      by_cases e2 : c' = c
      · rw [if_pos e2, if_pos e2]
      · rw [if_neg e2, if_neg e2]
        cases hd : Dict.get? q sat with
        | some d => simp
        | none =>
          simp only [Option.getD_none, Option.isSome_none, Bool.false_eq_true, if_false]
          cases c' <;> rfl
    · rw [if_neg e, if_neg e]
  obtain ⟨h1, h2, h3⟩ := h
  refine ⟨?_, ?_, ?_⟩
  · intro x hx
    rw [hlook]
    by_cases e : x = sat
    · rw [if_pos e, if_pos rfl]
    · rw [if_neg e]; exact h1 x (hx.resolve_right e)
  · intro x c' hx hne
    rw [hlook]
    by_cases e : x = sat
    · subst e
      rw [if_pos rfl, if_neg hne]
      by_cases hp : P x
      · have hs : (Dict.get? q x).isSome := by
          have := h1 x hp
          unfold look at this
          cases hd : Dict.get? q x with
          | some d => rfl
          | none => rw [hd] at this; cases this
        rw [if_pos hs]
        exact h2 x c' hp hne
      · have := h3 x hp
        unfold look
        rw [this]
    · rw [if_neg e]; exact h2 x c' (hx.resolve_right e) hne
  · intro x hx
    have hx1 : ¬ P x := fun h => hx (Or.inl h)
    have hx2 : x ≠ sat := fun h => hx (Or.inr h)
    rw [← h3 x hx1]
    unfold addT0 LC.setT0
    simp only
    rw [Dict.get?_set, if_neg hx2]

/-- the first `n` of a list of satellites -/
def among (f : Nat → Option Int) (n : Nat) (sat : Int) : Prop := ∃ k < n, f k = some sat

theorem among_zero (f : Nat → Option Int) (sat : Int) : among f 0 sat ↔ False := by
  unfold among; constructor
  · rintro ⟨k, h, -⟩; omega
  · exact False.elim

theorem among_succ {f : Nat → Option Int} {n : Nat} {sat : Int} (h : f n = some sat) (x : Int) :
    among f (n + 1) x ↔ among f n x ∨ x = sat := by
  constructor
  · rintro ⟨k, hk, e⟩
    rcases Nat.lt_succ_iff_lt_or_eq.1 hk with g | g
    · exact Or.inl ⟨k, g, e⟩
    · subst g; rw [h] at e; cases e; exact Or.inr rfl
  · rintro (⟨k, hk, e⟩ | e)
    · exact ⟨k, by omega, e⟩
    · subst e; exact ⟨n, by omega, h⟩

theorem among_list {l : List Int} (sat : Int) : among (fun k => l[k]?) l.length sat ↔ sat ∈ l := by
  constructor
  · rintro ⟨k, -, e⟩; exact List.mem_of_getElem? e
  · intro h
    obtain ⟨k, hk⟩ := List.mem_iff_getElem?.1 h
    exact ⟨k, (List.getElem?_eq_some_iff.1 hk).1, hk⟩

/-- contents of a table filled item by item -/
def Filled {κ α : Type} [DecidableEq κ] (d : Dict κ α) (f : Nat → Option κ) (v : Nat → α) (n : Nat) : Prop :=
  ∀ key, Dict.get? d key = (lastOf f key n).map v

theorem filled_nil {κ α : Type} [DecidableEq κ] (f : Nat → Option κ) (v : Nat → α) :
    Filled ([] : Dict κ α) f v 0 := fun _ => rfl

theorem filled_set {κ α : Type} [DecidableEq κ] {d : Dict κ α} {f : Nat → Option κ} {v : Nat → α} {n : Nat} {key : κ}
    (h : Filled d f v n) (hk : f n = some key) {x : α} (hx : x = v n) : Filled (Dict.set d key x) f v (n + 1) := by
  intro y
  rw [Dict.get?_set, lastOf, hk, h]
  by_cases e : y = key
  · rw [if_pos e, if_pos (by rw [e]), hx]; rfl
  · rw [if_neg e, if_neg (fun q => e (Option.some.inj q).symm)]

/-! ## Orbit -/

theorem orbSat_spec (has : Bool) {s : St} {inet : Nat} {l0 : LC} (hl : s.lc[inet]? = some l0)
    (hc : s.cfg = cfgOf has) (l : LC) (b : BitBuf) (p : Nat) (sat : Int) (sys : Sys) :
    Exact b.length (p + orbBits has sys) (decodeOrbSat (put s inet l) b p sat sys inet) (fun r =>
      r = (put s inet { l with iode := Dict.set l.iode sat (bitsAt b p (issueBits sys)),
                               dorb := Dict.set l.dorb sat (orbVal has b (p + issueBits sys)) }, p + orbBits has sys)) := by
  unfold decodeOrbSat
  have hcfg : (put s inet l).cfg = cfgOf has := hc
  simp only
  rw [hcfg]
  have hn : (if sys = .gal then 10 else 8) = issueBits sys := rfl
  rw [hn]
  simp only [sval_num (has := has) rfl]
  cases has
  · have e1 : (cfgOf false).dorbBlen = (15, 13, 13) := rfl
    have e2 : (cfgOf false).dorbScl = (16 / 10000, 64 / 10000, 64 / 10000) := rfl
    have e3 : (cfgOf false).has = false := rfl
    simp only [e1, e2, e3]
    refine Exact.bind Exact.u (by unfold orbBits; simp) fun u hu _ => Exact.bind Exact.s (by unfold orbBits; simp; omega)
      fun x hx _ => Exact.bind Exact.s (by unfold orbBits; simp; omega) fun y hy _ =>
      Exact.bind Exact.s (by unfold orbBits; simp; omega) fun z hz hlen => ?_
    subst hu hx hy hz
    refine Exact.step (modLC_put hl _ _) (Exact.ret (by unfold orbBits; simp; omega) ?_)
    simp only [orbVal, orbBits, Bool.false_eq_true, if_false, Nat.add_assoc]
  · have e1 : (cfgOf true).dorbBlen = (13, 12, 12) := rfl
    have e2 : (cfgOf true).dorbScl = (25 / 10000, 80 / 10000, 80 / 10000) := rfl
    have e3 : (cfgOf true).has = true := rfl
    simp only [e1, e2, e3]
    refine Exact.bind Exact.u (by unfold orbBits; simp) fun u hu _ => Exact.bind Exact.s (by unfold orbBits; simp; omega)
      fun x hx _ => Exact.bind Exact.s (by unfold orbBits; simp; omega) fun y hy _ =>
      Exact.bind Exact.s (by unfold orbBits; simp; omega) fun z hz hlen => ?_
    subst hu hx hy hz
    refine Exact.step (modLC_put hl _ _) (Exact.ret (by unfold orbBits; simp; omega) ?_)
    have e4 : (80 / 10000 : ℚ) = 8 / 1000 := by norm_num
    simp only [orbVal, orbBits, if_true, Nat.add_assoc, e4]

/-- bits of the item of the `k`-th satellite -/
def orbW (has : Bool) (s : St) (k : Nat) : Nat := orbBits has (s.sysN.getD k .none)
/-- first bit of the item of the `k`-th satellite -/
def orbPos (has : Bool) (s : St) (i k : Nat) : Nat := posOf (orbW has s) (i + hdr has) k

/-- **Orbit corrections.**  The message is accepted exactly when it is long enough.  Every satellite of the mask then
has the issue and the three corrections at its place, and their epoch; nothing else changes but the running time, the
update interval, the issue and the availability flag of orbit corrections. -/
theorem orbit_content (has : Bool) (s : St) (b : BitBuf) (i inet : Nat) (l : LC) (hc : s.cfg = cfgOf has)
    (hm : MaskOk s) (hl : s.lc[inet]? = some l) :
    Exact b.length (orbPos has s i s.nsatN) (decodeCssrOrb s b i inet) (fun r => ∃ tow tm d e q,
      Stamp has s (timeField has s b i) tow tm ∧
      r = ({ s with tow := tow, time := tm, flgNet := false,
                    udi := fun c => if c = .orbit then udiAt has b i else s.udi c,
                    iodssrC := fun c => if c = .orbit then issueAt has s b i else s.iodssrC c,
                    lc := s.lc.set inet { l with dorb := d, iode := e, t0 := q, cstat := l.cstat ||| 2 } },
            (orbPos has s i s.nsatN : Int)) ∧
      Filled d (fun k => s.satN[k]?)
        (fun k => orbVal has b (orbPos has s i k + issueBits (s.sysN.getD k .none))) s.nsatN ∧
      Filled e (fun k => s.satN[k]?) (fun k => bitsAt b (orbPos has s i k) (issueBits (s.sysN.getD k .none))) s.nsatN ∧
      Epochs l.t0 q (· ∈ s.satN) .orbit tm) := by
  unfold decodeCssrOrb
  have hmono := posOf_mono (orbW has s) (i + hdr has)
  have hle : i + hdr has ≤ orbPos has s i s.nsatN := by
    unfold orbPos
    induction s.nsatN with
    | zero => exact Nat.le_refl _
    | succ k ih => exact ih.trans (hmono k)
  refine Exact.bind (head_spec has s b i hc) hle ?_
  rintro ⟨s1, h, j⟩ ⟨tow, tm, hS, h1, h2, h3, h4⟩ hlen
  simp only at h1 h2 h3 h4 ⊢
  subst h1 h4
  set s2 : St := setUdi { s with tow := tow, time := tm, flgNet := false } .orbit h.udi with hs2
  have hl2 : s2.lc[inet]? = some l := hl
  refine Exact.step (modLC_eq hl2 _) ?_
  refine Exact.bind (Q := fun r : St × Nat => ∃ d e q, r = (put s2 inet { l with dorb := d, iode := e, t0 := q },
      orbPos has s i s.nsatN) ∧
      Filled d (fun k => s.satN[k]?)
        (fun k => orbVal has b (orbPos has s i k + issueBits (s.sysN.getD k .none))) s.nsatN ∧
      Filled e (fun k => s.satN[k]?) (fun k => bitsAt b (orbPos has s i k) (issueBits (s.sysN.getD k .none))) s.nsatN ∧
      Epochs l.t0 q (among (fun k => s.satN[k]?) s.nsatN) .orbit tm)
    (p := orbPos has s i s.nsatN) ?_ (Nat.le_refl _) ?_
  · refine Exact.range (I := fun n (r : St × Nat) => ∃ d e q, r = (put s2 inet { l with dorb := d, iode := e, t0 := q },
      orbPos has s i n) ∧
      Filled d (fun k => s.satN[k]?)
        (fun k => orbVal has b (orbPos has s i k + issueBits (s.sysN.getD k .none))) n ∧
      Filled e (fun k => s.satN[k]?) (fun k => bitsAt b (orbPos has s i k) (issueBits (s.sysN.getD k .none))) n ∧
      Epochs l.t0 q (among (fun k => s.satN[k]?) n) .orbit tm) (pos := orbPos has s i) hmono hlen ?_ ?_
    · exact ⟨[], [], l.t0, rfl, filled_nil _ _, filled_nil _ _, epochs_congr (epochs_refl _ _ _) (among_zero _)⟩
    · rintro k _ hk ⟨d, e, q, rfl, hd, he, hq⟩ hlk
      have hk1 : k < s.satN.length := by rw [← hm.sats]; exact hk
      have hk2 : k < s.sysN.length := by rw [hm.syss]; exact hk
      have g1 : s.satN[k]? = some s.satN[k] := List.getElem?_eq_getElem hk1
      have g2 : s.sysN[k]? = some s.sysN[k] := List.getElem?_eq_getElem hk2
      have g3 : s.sysN.getD k .none = s.sysN[k] := by rw [List.getD_eq_getElem?_getD, g2]; rfl
      refine Exact.step (a := s.satN[k]) (pyGet_of g1) (Exact.step (a := s.sysN[k]) (pyGet_of g2) ?_)
      refine Exact.bind (orbSat_spec has hl2 hc _ b (orbPos has s i k) s.satN[k] s.sysN[k]) ?_ ?_
      · show _ ≤ orbPos has s i k + orbW has s k
        rw [orbW, g3]
      · rintro _ rfl hle2
        have hend : orbPos has s i k + orbBits has s.sysN[k] = orbPos has s i (k + 1) := by
          show _ = orbPos has s i k + orbW has s k
          rw [orbW, g3]
        refine Exact.step (modLC_put hl2 _ _) (Exact.ret (by rw [← hend]; exact hle2) ?_)
        refine ⟨Dict.set d s.satN[k] (orbVal has b (orbPos has s i k + issueBits s.sysN[k])),
          Dict.set e s.satN[k] (bitsAt b (orbPos has s i k) (issueBits s.sysN[k])), addT0 q s.satN[k] .orbit tm,
          ?_, filled_set hd g1 ?_, filled_set he g1 ?_, epochs_congr (epochs_set hq s.satN[k]) (among_succ g1)⟩
        · rw [hend]; rfl
        · simp only [g3]
        · simp only [g3]
  · rintro _ ⟨d, e, q, rfl, hd, he, hq⟩ hle2
    refine Exact.step (modLC_put (s := setIodC s2 .orbit h.iodssr) hl2 _ _) (Exact.ret hle2 ?_)
    refine ⟨tow, tm, d, e, q, hS, ?_, hd, he, epochs_congr hq fun sat => ?_⟩
    · rw [← h2, ← h3]; rfl
    · rw [hm.sats]; exact (among_list sat).symm

/-! ## Clock -/

/-- bits of a clock item -/
def clkBits (has : Bool) : Nat := if has then 13 else 15
/-- first clock item: a HAS message first gives a 2-bit multiplier per constellation -/
def clkStart (has : Bool) (s : St) (i : Nat) : Nat := i + hdr has + if has then 2 * s.ngnss else 0
/-- multiplier of a constellation -/
def mult (s : St) (b : BitBuf) (i : Nat) (sys : Sys) : Nat :=
  match lastOf (fun k => s.gnssIdx[k]?) sys s.ngnss with
  | some k => bitsAt b (i + 4 + 2 * k) 2 + 1
  | none => 1
/-- clock correction in metres at bit `p`, `m` times the field for HAS -/
def clkNum (has : Bool) (b : BitBuf) (p m : Nat) : Val :=
  if has then (num true (intAt b p 13) 13 (25 / 10000)).map (· * (m : ℚ)) else num false (intAt b p 15) 15 (16 / 10000)
/-- the same with the multiplier of its constellation -/
def clkVal (has : Bool) (s : St) (b : BitBuf) (i p : Nat) (sat : Int) : Val :=
  clkNum has b p (mult s b i (sat2prn sat).1)
/-- first bit of the item of the `k`-th satellite -/
def clkPos (has : Bool) (s : St) (i k : Nat) : Nat := clkStart has s i + clkBits has * k

theorem dcm_spec (s : St) (b : BitBuf) (p : Nat) (hp : p ≤ b.length) (hg : s.gnssIdx.length = s.ngnss) :
    Exact b.length (p + 2 * s.ngnss) (readDcm s b p) (fun r => ∃ D, r = ({ s with dcm := some D }, p + 2 * s.ngnss) ∧
      Filled D (fun k => s.gnssIdx[k]?) (fun k => bitsAt b (p + 2 * k) 2 + 1) s.ngnss) := by
  unfold readDcm
  refine Exact.range (I := fun n (r : St × Nat) => ∃ D, r = ({ s with dcm := some D }, p + 2 * n) ∧
    Filled D (fun k => s.gnssIdx[k]?) (fun k => bitsAt b (p + 2 * k) 2 + 1) n) (pos := fun n => p + 2 * n)
    (fun k => by omega) hp ⟨[], rfl, filled_nil _ _⟩ ?_
  rintro k _ hk ⟨D, rfl, hD⟩ -
  have hk1 : k < s.gnssIdx.length := by rw [hg]; exact hk
  have g1 : s.gnssIdx[k]? = some s.gnssIdx[k] := List.getElem?_eq_getElem hk1
  refine Exact.step (a := s.gnssIdx[k]) (pyGet_of g1) ?_
  refine Exact.bind Exact.u (by show _ ≤ p + 2 * (k + 1); omega) fun m hm hl => Exact.ret (by
    show p + 2 * (k + 1) ≤ _; omega) ?_
  exact ⟨Dict.set D s.gnssIdx[k] (m + 1), rfl, filled_set hD g1 (by rw [hm])⟩

theorem clkSat_spec (has : Bool) {s : St} {inet : Nat} {l0 : LC} (hl : s.lc[inet]? = some l0)
    (hc : s.cfg = cfgOf has) (l : LC) (b : BitBuf) (p : Nat) (sat : Int) (m : Nat)
    (hm : has = true → ∃ D, s.dcm = some D ∧ Dict.get? D (sat2prn sat).1 = some m) :
    Exact b.length (p + clkBits has) (decodeClkSat (put s inet l) b p sat inet) (fun r =>
      r = (put s inet { l with dclk := Dict.set l.dclk sat (clkNum has b p m) }, p + clkBits has)) := by
  unfold decodeClkSat
  have hcfg : (put s inet l).cfg = cfgOf has := hc
  simp only
  rw [hcfg]
  simp only [sval_num (has := has) rfl]
  cases has
  · have e1 : (cfgOf false).dclkBlen = 15 := rfl
    have e2 : (cfgOf false).dclkScl = 16 / 10000 := rfl
    have e3 : (cfgOf false).has = false := rfl
    simp only [e1, e2, e3]
    refine Exact.bind Exact.s (Nat.le_refl _) fun u hu hlen => ?_
    subst hu
    simp only [Bool.false_eq_true, if_false]
    exact Exact.step rfl (Exact.step (modLC_put hl _ _) (Exact.ret hlen rfl))
  · have e1 : (cfgOf true).dclkBlen = 13 := rfl
    have e2 : (cfgOf true).dclkScl = 25 / 10000 := rfl
    have e3 : (cfgOf true).has = true := rfl
    obtain ⟨D, hD, hg⟩ := hm rfl
    have hD' : (put s inet l).dcm = some D := hD
    simp only [e1, e2, e3]
    refine Exact.bind Exact.s (Nat.le_refl _) fun u hu hlen => ?_
    subst hu
    simp only [if_true]
    rw [hD']
    refine Exact.step (a := (num true (intAt b p 13) 13 (25 / 10000)).map (· * (m : ℚ))) ?_
      (Exact.step (modLC_put hl _ _) (Exact.ret hlen rfl))
    simp only [getItem_of hg]
    rfl

/-- **Clock corrections** when a mask has been received.  For HAS, every satellite of the mask must belong to a
constellation of the mask. -/
theorem clock_content (has : Bool) (s : St) (b : BitBuf) (i inet : Nat) (l l0 : LC) (hc : s.cfg = cfgOf has)
    (hm : MaskOk s) (hl : s.lc[inet]? = some l) (hl0 : s.lc[0]? = some l0) (hmask : l0.cstat.testBit 0 = true)
    (hsys : has = true → ∀ sat ∈ s.satN, (sat2prn sat).1 ∈ s.gnssIdx) :
    Exact b.length (clkPos has s i s.nsatN) (decodeCssrClk s b i inet) (fun r => ∃ tow tm D d q,
      Stamp has s (timeField has s b i) tow tm ∧
      r = ({ s with tow := tow, time := tm, flgNet := false, dcm := if has then some D else s.dcm,
                    satNP := if has then s.satN else s.satNP,
                    udi := fun c => if c = .clock then udiAt has b i else s.udi c,
                    iodssrC := fun c => if c = .clock then issueAt has s b i else s.iodssrC c,
                    lc := s.lc.set inet { l with dclk := d, t0 := q, cstat := l.cstat ||| 4 } },
            (clkPos has s i s.nsatN : Int)) ∧
      (has = true → Filled D (fun k => s.gnssIdx[k]?) (fun k => bitsAt b (i + 4 + 2 * k) 2 + 1) s.ngnss) ∧
      Filled d (fun k => s.satN[k]?) (fun k => clkVal has s b i (clkPos has s i k) (s.satN.getD k 0)) s.nsatN ∧
      Epochs l.t0 q (· ∈ s.satN) .clock tm) := by
  unfold decodeCssrClk
  refine Exact.bind (head_spec has s b i hc) (by unfold clkPos clkStart; omega) ?_
  rintro ⟨s1, h, j⟩ ⟨tow, tm, hS, h1, h2, h3, h4⟩ hlen
  simp only at h1 h2 h3 h4 ⊢
  subst h1 h4
  refine Exact.step (a := l0) (pyGet_of hl0) ?_
  have hb : ¬ (l0.cstat &&& 1 <<< CType.mask.num ≠ 1 <<< CType.mask.num) := by
    rw [not_not]
    show l0.cstat &&& 1 = 1
    have := Nat.and_one_is_mod l0.cstat
    rw [this]
    rw [Nat.testBit_zero] at hmask
    simpa using hmask
  rw [if_neg hb]
  set s2 : St := setUdi { s with tow := tow, time := tm, flgNet := false } .clock h.udi with hs2
  have hcf : s2.cfg.has = has := by show s.cfg.has = has; rw [hc]; exact cfgOf_has has
  refine Exact.bind (Q := fun r : St × Nat => ∃ D, r = ({ s2 with dcm := if has then some D else s.dcm },
      clkStart has s i) ∧ (has = true →
        Filled D (fun k => s.gnssIdx[k]?) (fun k => bitsAt b (i + 4 + 2 * k) 2 + 1) s.ngnss)) (p := clkStart has s i)
      ?_ (by unfold clkPos; omega) ?_
  · rw [hcf]
    cases has
    · exact Exact.ret hlen ⟨[], rfl, fun h => by cases h⟩
    · refine (dcm_spec s2 b (i + hdr true) hlen hm.gnss).mono ?_
      rintro _ ⟨D, rfl, hD⟩
      exact ⟨D, rfl, fun _ => hD⟩
  rintro _ ⟨D, rfl, hD⟩ hlen2
  simp only
  set s3 : St := { s2 with dcm := if has then some D else s.dcm } with hs3
  have hl3 : s3.lc[inet]? = some l := hl
  refine Exact.step (modLC_eq hl3 _) ?_
  refine Exact.bind (Q := fun r : St × Nat => ∃ d q, r = (put s3 inet { l with dclk := d, t0 := q },
      clkPos has s i s.nsatN) ∧
      Filled d (fun k => s.satN[k]?) (fun k => clkVal has s b i (clkPos has s i k) (s.satN.getD k 0)) s.nsatN ∧
      Epochs l.t0 q (among (fun k => s.satN[k]?) s.nsatN) .clock tm)
    (p := clkPos has s i s.nsatN) ?_ (Nat.le_refl _) ?_
  · refine Exact.range (I := fun n (r : St × Nat) => ∃ d q, r = (put s3 inet { l with dclk := d, t0 := q },
      clkPos has s i n) ∧
      Filled d (fun k => s.satN[k]?) (fun k => clkVal has s b i (clkPos has s i k) (s.satN.getD k 0)) n ∧
      Epochs l.t0 q (among (fun k => s.satN[k]?) n) .clock tm) (pos := clkPos has s i)
      (fun k => by unfold clkPos; simp only [Nat.mul_add]; omega) hlen2
      ⟨[], l.t0, rfl, filled_nil _ _, epochs_congr (epochs_refl _ _ _) (among_zero _)⟩ ?_
    rintro k _ hk ⟨d, q, rfl, hd, hq⟩ hlk
    have hk1 : k < s.satN.length := by rw [← hm.sats]; exact hk
    have g1 : s.satN[k]? = some s.satN[k] := List.getElem?_eq_getElem hk1
    have g3 : s.satN.getD k 0 = s.satN[k] := by rw [List.getD_eq_getElem?_getD, g1]; rfl
    have hend : clkPos has s i k + clkBits has = clkPos has s i (k + 1) := by
      unfold clkPos; rw [Nat.mul_add, Nat.mul_one, Nat.add_assoc]
    refine Exact.step (a := s.satN[k]) (pyGet_of g1) ?_
    refine Exact.bind (clkSat_spec has hl3 hc _ b (clkPos has s i k) s.satN[k] (mult s b i (sat2prn s.satN[k]).1) ?_)
      (Nat.le_of_eq hend) ?_
    · intro ht
      refine ⟨D, by rw [hs3, if_pos ht], ?_⟩
      rw [hD ht]
      obtain ⟨n, hn⟩ := List.mem_iff_getElem?.1 (hsys ht _ (List.getElem_mem hk1))
      have hn2 : n < s.ngnss := by rw [← hm.gnss]; exact (List.getElem?_eq_some_iff.1 hn).1
      have hsm : (lastOf (fun k => s.gnssIdx[k]?) (sat2prn s.satN[k]).1 s.ngnss).isSome :=
        lastOf_isSome.2 ⟨n, hn2, hn⟩
      unfold mult
      cases hx : lastOf (fun k => s.gnssIdx[k]?) (sat2prn s.satN[k]).1 s.ngnss with
      | none => rw [hx] at hsm; cases hsm
      | some a => rfl
    · rintro _ rfl hle2
      refine Exact.step (modLC_put hl3 _ _) (Exact.ret (by rw [← hend]; exact hle2) ?_)
      refine ⟨Dict.set d s.satN[k] (clkVal has s b i (clkPos has s i k) s.satN[k]), addT0 q s.satN[k] .clock tm,
        ?_, filled_set hd g1 (by rw [g3]), epochs_congr (epochs_set hq s.satN[k]) (among_succ g1)⟩
      rw [hend]; rfl
  · rintro _ ⟨d, q, rfl, hd, hq⟩ hle2
    simp only
    have hcf3 : (put s3 inet { l with dclk := d, t0 := q }).cfg.has = has := hcf
    rw [hcf3]
    have hx : (if has = true then { put s3 inet { l with dclk := d, t0 := q } with
        satNP := (put s3 inet { l with dclk := d, t0 := q }).satN } else put s3 inet { l with dclk := d, t0 := q }) =
        put { s3 with satNP := if has then s.satN else s.satNP } inet { l with dclk := d, t0 := q } := by
      cases has <;> rfl
    rw [hx]
    refine Exact.step (modLC_put (s := setIodC { s3 with satNP := if has then s.satN else s.satNP } .clock h.iodssr)
      hl3 _ _) (Exact.ret hle2 ?_)
    refine ⟨tow, tm, D, d, q, hS, ?_, hD, hd, epochs_congr hq fun sat => ?_⟩
    · rw [← h2, ← h3]; rfl
    · rw [hm.sats]; exact (among_list sat).symm

/-- A clock message before any mask is refused; only the running time and the clock update interval change. -/
theorem clock_refused (has : Bool) (s : St) (b : BitBuf) (i inet : Nat) (l0 : LC) (hc : s.cfg = cfgOf has)
    (hl0 : s.lc[0]? = some l0) (hmask : l0.cstat.testBit 0 = false) :
    Exact b.length (i + hdr has) (decodeCssrClk s b i inet) (fun r => ∃ tow tm,
      Stamp has s (timeField has s b i) tow tm ∧
      r = ({ s with tow := tow, time := tm, flgNet := false,
                    udi := fun c => if c = .clock then udiAt has b i else s.udi c }, -1)) := by
  unfold decodeCssrClk
  refine Exact.bind (head_spec has s b i hc) (Nat.le_refl _) ?_
  rintro ⟨s1, h, j⟩ ⟨tow, tm, hS, h1, h2, h3, h4⟩ hlen
  simp only at h1 h2 h3 h4 ⊢
  subst h1 h4
  refine Exact.step (a := l0) (pyGet_of hl0) ?_
  have hb : l0.cstat &&& 1 <<< CType.mask.num ≠ 1 <<< CType.mask.num := by
    show l0.cstat &&& 1 ≠ 1
    rw [Nat.and_one_is_mod l0.cstat]
    rw [Nat.testBit_zero] at hmask
    simpa using hmask
  rw [if_pos hb]
  exact Exact.ret hlen ⟨tow, tm, hS, by rw [← h2]; rfl⟩

/-! ## Accuracy -/

theorem uraVal_eq (c v : Nat) : qualityIdx c v = uraVal c v := by
  unfold qualityIdx uraVal
  split
  · rfl
  · split
    · rfl
    · congr 1
      ring

/-- **Accuracy indices** of a message of the issue in force (another issue: see C12).  The epoch is kept with the
first slot under satellite number 0. -/
theorem ura_content (has : Bool) (s : St) (b : BitBuf) (i inet : Nat) (l l0 : LC) (hc : s.cfg = cfgOf has)
    (hm : MaskOk s) (hl : s.lc[inet]? = some l) (hl0 : s.lc[0]? = some l0)
    (hiod : issueAt has s b i = s.iodssr) :
    Exact b.length (i + hdr has + 6 * s.nsatN) (decodeCssrUra s b i inet) (fun r => ∃ tow tm d q,
      Stamp has s (timeField has s b i) tow tm ∧
      r = ({ s with tow := tow, time := tm, udi := fun c => if c = .ura then udiAt has b i else s.udi c,
                    lc := if inet = 0 then s.lc.set 0 { l with ura := d, t0 := q, cstat := l.cstat ||| 128 }
                      else (s.lc.set inet { l with ura := d, cstat := l.cstat ||| 128 }).set 0 { l0 with t0 := q } },
            ((i + hdr has + 6 * s.nsatN : Nat) : Int)) ∧
      Filled d (fun k => s.satN[k]?) (fun k => uraVal (bitsAt b (i + hdr has + 6 * k) 3)
        (bitsAt b (i + hdr has + 6 * k + 3) 3)) s.nsatN ∧
      Epochs l0.t0 q (· = 0) .ura tm) := by
  unfold decodeCssrUra
  refine Exact.bind (head_spec has s b i hc) (by omega) ?_
  rintro ⟨s1, h, j⟩ ⟨tow, tm, hS, h1, h2, h3, h4⟩ hlen
  simp only at h1 h2 h3 h4 ⊢
  subst h1 h4
  have hne : ¬ (s.iodssr ≠ h.iodssr) := by rw [h3, hiod]; exact fun h => h rfl
  simp only [if_neg hne]
  set s2 : St := setUdi { s with tow := tow, time := tm } .ura h.udi with hs2
  have hl2 : s2.lc[inet]? = some l := hl
  refine Exact.step (modLC_eq hl2 _) ?_
  refine Exact.bind (Q := fun r : St × Nat => ∃ d, r = (put s2 inet { l with ura := d }, i + hdr has + 6 * s.nsatN) ∧
      Filled d (fun k => s.satN[k]?) (fun k => uraVal (bitsAt b (i + hdr has + 6 * k) 3)
        (bitsAt b (i + hdr has + 6 * k + 3) 3)) s.nsatN)
    (p := i + hdr has + 6 * s.nsatN) ?_ (Nat.le_refl _) ?_
  · refine Exact.range (I := fun n (r : St × Nat) => ∃ d, r = (put s2 inet { l with ura := d }, i + hdr has + 6 * n) ∧
      Filled d (fun k => s.satN[k]?) (fun k => uraVal (bitsAt b (i + hdr has + 6 * k) 3)
        (bitsAt b (i + hdr has + 6 * k + 3) 3)) n) (pos := fun n => i + hdr has + 6 * n)
      (fun k => by omega) hlen ⟨[], rfl, filled_nil _ _⟩ ?_
    rintro k _ hk ⟨d, rfl, hd⟩ hlk
    have hk1 : k < s.satN.length := by rw [← hm.sats]; exact hk
    have g1 : s.satN[k]? = some s.satN[k] := List.getElem?_eq_getElem hk1
    refine Exact.step (a := s.satN[k]) (pyGet_of g1) ?_
    refine Exact.bind Exact.u (by simp only; omega) fun u hu _ => Exact.bind Exact.u (by simp only; omega) fun v hv hle => ?_
    refine Exact.step (modLC_put hl2 _ _) (Exact.ret (by simp only at hle ⊢; omega) ?_)
    exact ⟨Dict.set d s.satN[k] (qualityIdx u v), rfl, filled_set hd g1 (by rw [hu, hv, uraVal_eq])⟩
  · rintro _ ⟨d, rfl, hd⟩ hle2
    refine Exact.step (modLC_put hl2 _ _) ?_
    set s4 : St := put s2 inet { l with ura := d, cstat := l.cstat ||| 1 <<< CType.ura.num } with hs4
    have hep := epochs_set (epochs_refl l0.t0 .ura tm) 0
    by_cases e : inet = 0
    · subst e
      rw [hl] at hl0
      cases hl0
      refine Exact.step (modLC_eq (put_get hl2 _) _) (Exact.ret hle2 ?_)
      refine ⟨tow, tm, d, addT0 l.t0 0 .ura tm, hS, ?_, hd, epochs_congr hep fun x => by simp⟩
      rw [put_put, if_pos rfl, ← h2]; rfl
    · have hl4 : s4.lc[0]? = some l0 := by
        show (s.lc.set inet _)[0]? = some l0
        rw [List.getElem?_set, if_neg e]; exact hl0
      refine Exact.step (modLC_eq hl4 _) (Exact.ret hle2 ?_)
      refine ⟨tow, tm, d, addT0 l0.t0 0 .ura tm, hS, ?_, hd, epochs_congr hep fun x => by simp⟩
      rw [if_neg e, ← h2]; rfl

/-! ## Biases -/

/-- contents of a table of tables: row `k` belongs to satellite `sats k` and has `m k` entries -/
def Rows {α : Type} (C : Dict Int (Dict Sig α)) (sats : Nat → Option Int) (g : Nat → Nat → Option Sig)
    (v : Nat → Nat → α) (m : Nat → Nat) (n : Nat) : Prop :=
  ∀ sat, (lastOf sats sat n = none → Dict.get? C sat = none) ∧
    ∀ k, lastOf sats sat n = some k → ∃ d, Dict.get? C sat = some d ∧ Filled d (g k) (v k) (m k)

theorem rows_nil {α : Type} (sats : Nat → Option Int) (g : Nat → Nat → Option Sig) (v : Nat → Nat → α)
    (m : Nat → Nat) : Rows [] sats g v m 0 := fun _ => ⟨fun _ => rfl, fun _ h => by cases h⟩

theorem rows_add {α : Type} {C C' : Dict Int (Dict Sig α)} {sats : Nat → Option Int} {g : Nat → Nat → Option Sig}
    {v : Nat → Nat → α} {m : Nat → Nat} {n : Nat} {sat : Int} (h : Rows C sats g v m n) (hs : sats n = some sat)
    {d : Dict Sig α} (h1 : Dict.get? C' sat = some d) (h2 : Filled d (g n) (v n) (m n))
    (h3 : ∀ x, x ≠ sat → Dict.get? C' x = Dict.get? C x) : Rows C' sats g v m (n + 1) := by
  intro x
  rw [lastOf, hs]
  by_cases e : x = sat
  · subst e
    rw [if_pos rfl]
    exact ⟨fun h => (by cases h), fun k hk => (by cases hk; exact ⟨d, h1, h2⟩)⟩
  · rw [if_neg (fun q => e (Option.some.inj q).symm), h3 x e]
    exact h x

/-- signals of the `k`-th satellite of the mask -/
def sigsOf (s : St) (k : Nat) : List Sig := (Dict.get? s.sigN (s.satN.getD k 0)).getD []
/-- the `j`-th signal of the `k`-th satellite, as an observation of the given type -/
def sigAt (t : Typ) (s : St) (k j : Nat) : Option Sig := ((sigsOf s k)[j]?).map fun g => ⟨g.sys, t, g.sig⟩
/-- the satellites with at least one signal -/
def withSig (s : St) (k : Nat) : Option Int := if sigsOf s k = [] then none else s.satN[k]?

def cbVal (has : Bool) (b : BitBuf) (p : Nat) : Val := num has (intAt b p 11) 11 (2 / 100)
/-- bits of a phase bias without its discontinuity counter -/
def pbBits (has : Bool) : Nat := if has then 11 else 15
def pbVal (has : Bool) (b : BitBuf) (p : Nat) : Val :=
  num has (intAt b p (pbBits has)) (pbBits has) (if has then 1 / 100 else 1 / 1000)

/-- first bit of the `k`-th satellite when every signal takes `w` bits -/
def biasPos (w : Nat) (has : Bool) (s : St) (i k : Nat) : Nat :=
  posOf (fun k => w * (sigsOf s k).length) (i + hdr has) k

theorem cbSat_spec (has : Bool) {s : St} {inet : Nat} {l0 : LC} (hl : s.lc[inet]? = some l0)
    (hc : s.cfg = cfgOf has) (l : LC) (b : BitBuf) (p : Nat) (sat : Int) (g : Sig) (d : Dict Sig Val)
    (hd : Dict.get? l.cbias sat = some d) :
    Exact b.length (p + 11) (decodeCbiasSat (put s inet l) b p sat g inet) (fun r =>
      r = (put s inet { l with cbias := Dict.set l.cbias sat (Dict.set d g (cbVal has b p)) }, p + 11)) := by
  unfold decodeCbiasSat
  have hcfg : (put s inet l).cfg = cfgOf has := hc
  simp only
  rw [hcfg]
  simp only [sval_num (has := has) rfl]
  have e1 : (cfgOf has).cbBlen = 11 := by cases has <;> rfl
  have e2 : (cfgOf has).cbScl = 2 / 100 := by cases has <;> rfl
  simp only [e1, e2]
  refine Exact.bind Exact.s (Nat.le_refl _) fun u hu hlen => ?_
  subst hu
  exact Exact.step (pyGet_of (put_get hl l)) (Exact.step (getItem_of hd)
    (Exact.step (modLC_put hl _ _) (Exact.ret hlen rfl)))

theorem pbSat_spec (has : Bool) {s : St} {inet : Nat} {l0 : LC} (hl : s.lc[inet]? = some l0)
    (hc : s.cfg = cfgOf has) (l : LC) (b : BitBuf) (p : Nat) (sat : Int) (g : Sig) (d : Dict Sig Val) (e : Dict Sig Nat)
    (hd : Dict.get? l.pbias sat = some d) (he : Dict.get? l.di sat = some e) :
    Exact b.length (p + (pbBits has + 2)) (decodePbiasSat (put s inet l) b p sat g inet) (fun r =>
      r = (put s inet { l with pbias := Dict.set l.pbias sat (Dict.set d g (pbVal has b p)),
                               di := Dict.set l.di sat (Dict.set e g (bitsAt b (p + pbBits has) 2)) },
        p + (pbBits has + 2))) := by
  unfold decodePbiasSat
  have hcfg : (put s inet l).cfg = cfgOf has := hc
  simp only
  rw [hcfg]
  simp only [sval_num (has := has) rfl]
  have e1 : (cfgOf has).pbBlen = pbBits has := by cases has <;> rfl
  have e2 : (cfgOf has).pbScl = if has then 1 / 100 else 1 / 1000 := by cases has <;> rfl
  simp only [e1, e2]
  refine Exact.bind Exact.s (by omega) fun u hu _ => Exact.bind Exact.u (by omega) fun v hv hlen => ?_
  subst hu hv
  exact Exact.step (pyGet_of (put_get hl l)) (Exact.step (getItem_of hd) (Exact.step (getItem_of he)
    (Exact.step (modLC_put hl _ _) (Exact.ret (by omega) (by simp only [Nat.add_assoc]; rfl)))))

/-- the epochs of a satellite once at least one of its signals has been read -/
theorem epochs_row {t q : Dict Int (Dict CType GTime)} {P : Int → Prop} {c : CType} {tm : GTime} {sat : Int} {j : Nat}
    (h : Epochs t q (fun x => P x ∨ (x = sat ∧ 0 < j)) c tm) :
    Epochs t (addT0 q sat c tm) (fun x => P x ∨ (x = sat ∧ 0 < j + 1)) c tm := by
  refine epochs_congr (epochs_set h sat) fun x => ?_
  constructor
  · rintro (h | ⟨h, -⟩)
    · exact Or.inl (Or.inl h)
    · exact Or.inr h
  · rintro ((h | h) | h)
    · exact Or.inl h
    · exact Or.inr ⟨h.1, by omega⟩
    · exact Or.inr ⟨h, by omega⟩

theorem cbRow_spec (has : Bool) {s : St} {inet : Nat} {l0 : LC} (hl : s.lc[inet]? = some l0)
    (hc : s.cfg = cfgOf has) (l : LC) (b : BitBuf) (p : Nat) (hp : p ≤ b.length) (sat : Int) (sigs : List Sig)
    (hd : Dict.get? l.cbias sat = some []) {t : Dict Int (Dict CType GTime)} {P : Int → Prop}
    (ht : Epochs t l.t0 P .cbias s.time) :
    Exact b.length (p + 11 * sigs.length) (sigs.foldlM (fun (s, i) g => do
      let (s, i) ← decodeCbiasSat s b i sat (toTyp g .C) inet
      let s ← modLC s inet fun l => l.setT0 sat .cbias s.time
      pure (s, i)) (put s inet l, p)) (fun r => ∃ C q, r = (put s inet { l with cbias := C, t0 := q },
        p + 11 * sigs.length) ∧
      (∃ d, Dict.get? C sat = some d ∧
        Filled d (fun j => (sigs[j]?).map fun g => ⟨g.sys, .C, g.sig⟩) (fun j => cbVal has b (p + 11 * j)) sigs.length) ∧
      (∀ x, x ≠ sat → Dict.get? C x = Dict.get? l.cbias x) ∧
      Epochs t q (fun x => P x ∨ (x = sat ∧ 0 < sigs.length)) .cbias s.time) := by
  refine Exact.list (I := fun n (r : St × Nat) => ∃ C q, r = (put s inet { l with cbias := C, t0 := q }, p + 11 * n) ∧
      (∃ d, Dict.get? C sat = some d ∧
        Filled d (fun j => (sigs[j]?).map fun g => (⟨g.sys, .C, g.sig⟩ : Sig)) (fun j => cbVal has b (p + 11 * j)) n) ∧
      (∀ x, x ≠ sat → Dict.get? C x = Dict.get? l.cbias x) ∧
      Epochs t q (fun x => P x ∨ (x = sat ∧ 0 < n)) .cbias s.time) (pos := fun n => p + 11 * n)
    (fun k => by omega) hp ⟨l.cbias, l.t0, rfl, ⟨[], hd, filled_nil _ _⟩, fun _ _ => rfl,
      epochs_congr ht fun x => by simp⟩ ?_
  rintro k _ g hg ⟨C, q, rfl, ⟨d, hC, hF⟩, hK, hE⟩ -
  refine Exact.bind (cbSat_spec has hl hc _ b (p + 11 * k) sat (toTyp g .C) d hC) (by omega) ?_
  rintro _ rfl hle
  refine Exact.step (modLC_put hl _ _) (Exact.ret (by omega) ?_)
  refine ⟨Dict.set C sat (Dict.set d (toTyp g .C) (cbVal has b (p + 11 * k))), addT0 q sat .cbias s.time, rfl,
    ⟨_, Dict.get?_set_self _ _ _, filled_set hF ?_ rfl⟩, fun x hx => ?_, epochs_row hE⟩
  · simp only [hg]; rfl
  · rw [Dict.get?_set, if_neg hx]; exact hK x hx

theorem pbRow_spec (has : Bool) {s : St} {inet : Nat} {l0 : LC} (hl : s.lc[inet]? = some l0)
    (hc : s.cfg = cfgOf has) (l : LC) (b : BitBuf) (p : Nat) (hp : p ≤ b.length) (sat : Int) (sigs : List Sig)
    (hd : Dict.get? l.pbias sat = some []) (hd2 : Dict.get? l.di sat = some [])
    {t : Dict Int (Dict CType GTime)} {P : Int → Prop} (ht : Epochs t l.t0 P .pbias s.time) :
    Exact b.length (p + (pbBits has + 2) * sigs.length) (sigs.foldlM (fun (s, i) g => do
      let (s, i) ← decodePbiasSat s b i sat (toTyp g .L) inet
      let s ← modLC s inet fun l => l.setT0 sat .pbias s.time
      pure (s, i)) (put s inet l, p)) (fun r => ∃ C D q, r = (put s inet { l with pbias := C, di := D, t0 := q },
        p + (pbBits has + 2) * sigs.length) ∧
      (∃ d, Dict.get? C sat = some d ∧ Filled d (fun j => (sigs[j]?).map fun g => ⟨g.sys, .L, g.sig⟩)
        (fun j => pbVal has b (p + (pbBits has + 2) * j)) sigs.length) ∧
      (∃ d, Dict.get? D sat = some d ∧ Filled d (fun j => (sigs[j]?).map fun g => ⟨g.sys, .L, g.sig⟩)
        (fun j => bitsAt b (p + (pbBits has + 2) * j + pbBits has) 2) sigs.length) ∧
      (∀ x, x ≠ sat → Dict.get? C x = Dict.get? l.pbias x ∧ Dict.get? D x = Dict.get? l.di x) ∧
      Epochs t q (fun x => P x ∨ (x = sat ∧ 0 < sigs.length)) .pbias s.time) := by
  refine Exact.list (I := fun n (r : St × Nat) => ∃ C D q, r = (put s inet { l with pbias := C, di := D, t0 := q },
        p + (pbBits has + 2) * n) ∧
      (∃ d, Dict.get? C sat = some d ∧ Filled d (fun j => (sigs[j]?).map fun g => (⟨g.sys, .L, g.sig⟩ : Sig))
        (fun j => pbVal has b (p + (pbBits has + 2) * j)) n) ∧
      (∃ d, Dict.get? D sat = some d ∧ Filled d (fun j => (sigs[j]?).map fun g => (⟨g.sys, .L, g.sig⟩ : Sig))
        (fun j => bitsAt b (p + (pbBits has + 2) * j + pbBits has) 2) n) ∧
      (∀ x, x ≠ sat → Dict.get? C x = Dict.get? l.pbias x ∧ Dict.get? D x = Dict.get? l.di x) ∧
      Epochs t q (fun x => P x ∨ (x = sat ∧ 0 < n)) .pbias s.time) (pos := fun n => p + (pbBits has + 2) * n)
    (fun k => by rw [Nat.mul_add]; omega) hp ⟨l.pbias, l.di, l.t0, rfl, ⟨[], hd, filled_nil _ _⟩,
      ⟨[], hd2, filled_nil _ _⟩, fun _ _ => ⟨rfl, rfl⟩, epochs_congr ht fun x => by simp⟩ ?_
  rintro k _ g hg ⟨C, D, q, rfl, ⟨d, hC, hF⟩, ⟨e, hD, hG⟩, hK, hE⟩ -
  have hend : p + (pbBits has + 2) * k + (pbBits has + 2) = p + (pbBits has + 2) * (k + 1) := by ring
  refine Exact.bind (pbSat_spec has hl hc _ b (p + (pbBits has + 2) * k) sat (toTyp g .L) d e hC hD)
    (Nat.le_of_eq hend) ?_
  rintro _ rfl hle
  refine Exact.step (modLC_put hl _ _) (Exact.ret (by rw [← hend]; exact hle) ?_)
  refine ⟨Dict.set C sat (Dict.set d (toTyp g .L) (pbVal has b (p + (pbBits has + 2) * k))),
    Dict.set D sat (Dict.set e (toTyp g .L) (bitsAt b (p + (pbBits has + 2) * k + pbBits has) 2)),
    addT0 q sat .pbias s.time, by rw [hend]; rfl,
    ⟨_, Dict.get?_set_self _ _ _, filled_set hF ?_ rfl⟩, ⟨_, Dict.get?_set_self _ _ _, filled_set hG ?_ rfl⟩,
    fun x hx => ?_, epochs_row hE⟩
  · simp only [hg]; rfl
  · simp only [hg]; rfl
  · rw [Dict.get?_set, if_neg hx, Dict.get?_set, if_neg hx]; exact hK x hx

theorem biasPos_le (w : Nat) (has : Bool) (s : St) (i n : Nat) : i + hdr has ≤ biasPos w has s i n := by
  unfold biasPos
  induction n with
  | zero => exact Nat.le_refl _
  | succ k ih => exact ih.trans (posOf_mono _ _ k)

theorem sigs_of {s : St} (hm : MaskOk s) {k : Nat} {sat : Int} (g1 : s.satN[k]? = some sat) :
    Dict.get? s.sigN sat = some (sigsOf s k) := by
  obtain ⟨g, hg⟩ := hm.sigs sat (List.mem_of_getElem? g1)
  unfold sigsOf
  rw [List.getD_eq_getElem?_getD, g1, Option.getD_some, hg]; rfl

theorem withSig_row {s : St} {k : Nat} {sat : Int} (g1 : s.satN[k]? = some sat) (x : Int) :
    among (withSig s) (k + 1) x ↔ among (withSig s) k x ∨ (x = sat ∧ 0 < (sigsOf s k).length) := by
  by_cases e : sigsOf s k = []
  · have hw : withSig s k = none := by unfold withSig; rw [if_pos e]
    rw [e]
    constructor
    · rintro ⟨j, hj, h⟩
      rcases Nat.lt_succ_iff_lt_or_eq.1 hj with g | g
      · exact Or.inl ⟨j, g, h⟩
      · subst g; rw [hw] at h; cases h
    · rintro (⟨j, hj, h⟩ | ⟨-, h⟩)
      · exact ⟨j, by omega, h⟩
      · exact absurd h (by simp)
  · have hw : withSig s k = some sat := by unfold withSig; rw [if_neg e]; exact g1
    rw [among_succ hw]
    have : 0 < (sigsOf s k).length := List.length_pos_of_ne_nil e
    constructor
    · rintro (h | h)
      · exact Or.inl h
      · exact Or.inr ⟨h, this⟩
    · rintro (h | h)
      · exact Or.inl h
      · exact Or.inr h.1

/-- **Code biases**: every satellite of the mask has exactly the biases at its place, one per signal of the mask. -/
theorem cbias_content (has : Bool) (s : St) (b : BitBuf) (i inet : Nat) (l : LC) (hc : s.cfg = cfgOf has)
    (hm : MaskOk s) (hl : s.lc[inet]? = some l) :
    Exact b.length (biasPos 11 has s i s.nsatN) (decodeCssrCbias s b i inet) (fun r => ∃ tow tm C q,
      Stamp has s (timeField has s b i) tow tm ∧
      r = ({ s with tow := tow, time := tm, flgNet := false,
                    udi := fun c => if c = .cbias then udiAt has b i else s.udi c,
                    iodssrC := fun c => if c = .cbias then issueAt has s b i else s.iodssrC c,
                    lc := s.lc.set inet { l with cbias := C, t0 := q, cstat := l.cstat ||| 8 } },
            (biasPos 11 has s i s.nsatN : Int)) ∧
      Rows C (fun k => s.satN[k]?) (sigAt .C s) (fun k j => cbVal has b (biasPos 11 has s i k + 11 * j))
        (fun k => (sigsOf s k).length) s.nsatN ∧
      Epochs l.t0 q (among (withSig s) s.nsatN) .cbias tm) := by
  unfold decodeCssrCbias
  refine Exact.bind (head_spec has s b i hc) (biasPos_le 11 has s i s.nsatN) ?_
  rintro ⟨s1, h, j⟩ ⟨tow, tm, hS, h1, h2, h3, h4⟩ hlen
  simp only at h1 h2 h3 h4 ⊢
  subst h1 h4
  set s2 : St := setUdi { s with tow := tow, time := tm, flgNet := false } .cbias h.udi with hs2
  have hl2 : s2.lc[inet]? = some l := hl
  refine Exact.step (modLC_eq hl2 _) ?_
  refine Exact.bind (Q := fun r : St × Nat => ∃ C q, r = (put s2 inet { l with cbias := C, t0 := q },
      biasPos 11 has s i s.nsatN) ∧
      Rows C (fun k => s.satN[k]?) (sigAt .C s) (fun k j => cbVal has b (biasPos 11 has s i k + 11 * j))
        (fun k => (sigsOf s k).length) s.nsatN ∧
      Epochs l.t0 q (among (withSig s) s.nsatN) .cbias tm)
    (p := biasPos 11 has s i s.nsatN) ?_ (Nat.le_refl _) ?_
  · refine Exact.range (I := fun n (r : St × Nat) => ∃ C q, r = (put s2 inet { l with cbias := C, t0 := q },
      biasPos 11 has s i n) ∧
      Rows C (fun k => s.satN[k]?) (sigAt .C s) (fun k j => cbVal has b (biasPos 11 has s i k + 11 * j))
        (fun k => (sigsOf s k).length) n ∧
      Epochs l.t0 q (among (withSig s) n) .cbias tm) (pos := biasPos 11 has s i) (posOf_mono _ _) hlen
      ⟨[], l.t0, rfl, rows_nil _ _ _ _, epochs_congr (epochs_refl _ _ _) (among_zero _)⟩ ?_
    rintro k _ hk ⟨C, q, rfl, hR, hq⟩ hlk
    have hk1 : k < s.satN.length := by rw [← hm.sats]; exact hk
    have g1 : s.satN[k]? = some s.satN[k] := List.getElem?_eq_getElem hk1
    refine Exact.step (a := s.satN[k]) (pyGet_of g1) (Exact.step (modLC_put hl2 _ _) ?_)
    refine Exact.step (a := sigsOf s k) (getItem_of (sigs_of hm g1)) ?_
    refine (cbRow_spec has hl2 hc _ b (biasPos 11 has s i k) hlk s.satN[k] (sigsOf s k)
      (Dict.get?_set_self _ _ _) hq).mono ?_
    rintro _ ⟨C', q', rfl, ⟨d, hd, hF⟩, hK, hE⟩
    refine ⟨C', q', rfl, rows_add hR g1 hd hF fun x hx => ?_, epochs_congr hE (withSig_row g1)⟩
    rw [hK x hx]
    exact Dict.get?_set_ne _ _ hx
  · rintro _ ⟨C, q, rfl, hR, hq⟩ hle2
    refine Exact.step (modLC_put (s := setIodC s2 .cbias h.iodssr) hl2 _ _) (Exact.ret hle2 ?_)
    exact ⟨tow, tm, C, q, hS, by rw [← h2, ← h3]; rfl, hR, hq⟩

/-- **Phase biases** and their discontinuity counters. -/
theorem pbias_content (has : Bool) (s : St) (b : BitBuf) (i inet : Nat) (l : LC) (hc : s.cfg = cfgOf has)
    (hm : MaskOk s) (hl : s.lc[inet]? = some l) :
    Exact b.length (biasPos (pbBits has + 2) has s i s.nsatN) (decodeCssrPbias s b i inet) (fun r => ∃ tow tm C D q,
      Stamp has s (timeField has s b i) tow tm ∧
      r = ({ s with tow := tow, time := tm, flgNet := false,
                    udi := fun c => if c = .pbias then udiAt has b i else s.udi c,
                    iodssrC := fun c => if c = .pbias then issueAt has s b i else s.iodssrC c,
                    lc := s.lc.set inet { l with pbias := C, di := D, t0 := q, cstat := l.cstat ||| 16 } },
            (biasPos (pbBits has + 2) has s i s.nsatN : Int)) ∧
      Rows C (fun k => s.satN[k]?) (sigAt .L s)
        (fun k j => pbVal has b (biasPos (pbBits has + 2) has s i k + (pbBits has + 2) * j))
        (fun k => (sigsOf s k).length) s.nsatN ∧
      Rows D (fun k => s.satN[k]?) (sigAt .L s)
        (fun k j => bitsAt b (biasPos (pbBits has + 2) has s i k + (pbBits has + 2) * j + pbBits has) 2)
        (fun k => (sigsOf s k).length) s.nsatN ∧
      Epochs l.t0 q (among (withSig s) s.nsatN) .pbias tm) := by
  unfold decodeCssrPbias
  refine Exact.bind (head_spec has s b i hc) (biasPos_le _ has s i s.nsatN) ?_
  rintro ⟨s1, h, j⟩ ⟨tow, tm, hS, h1, h2, h3, h4⟩ hlen
  simp only at h1 h2 h3 h4 ⊢
  subst h1 h4
  set s2 : St := setUdi { s with tow := tow, time := tm, flgNet := false } .pbias h.udi with hs2
  have hl2 : s2.lc[inet]? = some l := hl
  refine Exact.step (modLC_eq hl2 _) ?_
  refine Exact.bind (Q := fun r : St × Nat => ∃ C D q, r = (put s2 inet { l with pbias := C, di := D, t0 := q },
      biasPos (pbBits has + 2) has s i s.nsatN) ∧
      Rows C (fun k => s.satN[k]?) (sigAt .L s)
        (fun k j => pbVal has b (biasPos (pbBits has + 2) has s i k + (pbBits has + 2) * j))
        (fun k => (sigsOf s k).length) s.nsatN ∧
      Rows D (fun k => s.satN[k]?) (sigAt .L s)
        (fun k j => bitsAt b (biasPos (pbBits has + 2) has s i k + (pbBits has + 2) * j + pbBits has) 2)
        (fun k => (sigsOf s k).length) s.nsatN ∧
      Epochs l.t0 q (among (withSig s) s.nsatN) .pbias tm)
    (p := biasPos (pbBits has + 2) has s i s.nsatN) ?_ (Nat.le_refl _) ?_
  · refine Exact.range (I := fun n (r : St × Nat) => ∃ C D q, r = (put s2 inet { l with pbias := C, di := D, t0 := q },
      biasPos (pbBits has + 2) has s i n) ∧
      Rows C (fun k => s.satN[k]?) (sigAt .L s)
        (fun k j => pbVal has b (biasPos (pbBits has + 2) has s i k + (pbBits has + 2) * j))
        (fun k => (sigsOf s k).length) n ∧
      Rows D (fun k => s.satN[k]?) (sigAt .L s)
        (fun k j => bitsAt b (biasPos (pbBits has + 2) has s i k + (pbBits has + 2) * j + pbBits has) 2)
        (fun k => (sigsOf s k).length) n ∧
      Epochs l.t0 q (among (withSig s) n) .pbias tm) (pos := biasPos (pbBits has + 2) has s i) (posOf_mono _ _) hlen
      ⟨[], [], l.t0, rfl, rows_nil _ _ _ _, rows_nil _ _ _ _, epochs_congr (epochs_refl _ _ _) (among_zero _)⟩ ?_
    rintro k _ hk ⟨C, D, q, rfl, hR, hR2, hq⟩ hlk
    have hk1 : k < s.satN.length := by rw [← hm.sats]; exact hk
    have g1 : s.satN[k]? = some s.satN[k] := List.getElem?_eq_getElem hk1
    refine Exact.step (a := s.satN[k]) (pyGet_of g1) (Exact.step (modLC_put hl2 _ _) ?_)
    refine Exact.step (a := sigsOf s k) (getItem_of (sigs_of hm g1)) ?_
    refine (pbRow_spec has hl2 hc _ b (biasPos (pbBits has + 2) has s i k) hlk s.satN[k] (sigsOf s k)
      (Dict.get?_set_self _ _ _) (Dict.get?_set_self _ _ _) hq).mono ?_
    rintro _ ⟨C', D', q', rfl, ⟨d, hd, hF⟩, ⟨e, he, hG⟩, hK, hE⟩
    refine ⟨C', D', q', rfl, rows_add hR g1 hd hF fun x hx => ?_, rows_add hR2 g1 he hG fun x hx => ?_,
      epochs_congr hE (withSig_row g1)⟩
    · rw [(hK x hx).1]
      exact Dict.get?_set_ne _ _ hx
    · rw [(hK x hx).2]
      exact Dict.get?_set_ne _ _ hx
  · rintro _ ⟨C, D, q, rfl, hR, hR2, hq⟩ hle2
    refine Exact.step (modLC_put (s := setIodC s2 .pbias h.iodssr) hl2 _ _) (Exact.ret hle2 ?_)
    exact ⟨tow, tm, C, D, q, hS, by rw [← h2, ← h3]; rfl, hR, hR2, hq⟩

/-! ## Reading the tables -/

/-- When no satellite is listed twice, the entry of the `k`-th satellite is the one at the `k`-th place. -/
theorem own_place {α : Type} {d : Dict Int α} {sats : List Int} {v : Nat → α} {n : Nat}
    (h : Filled d (fun k => sats[k]?) v n) (hn : sats.Nodup) {k : Nat} (hk : k < n) {sat : Int}
    (hs : sats[k]? = some sat) : Dict.get? d sat = some (v k) := by
  rw [h sat, lastOf_nodup hn hs hk]; rfl

/-- the same for biases -/
theorem own_row {α : Type} {C : Dict Int (Dict Sig α)} {sats : List Int} {g : Nat → Nat → Option Sig}
    {v : Nat → Nat → α} {m : Nat → Nat} {n : Nat} (h : Rows C (fun k => sats[k]?) g v m n) (hn : sats.Nodup)
    {k : Nat} (hk : k < n) {sat : Int} (hs : sats[k]? = some sat) :
    ∃ d, Dict.get? C sat = some d ∧ Filled d (g k) (v k) (m k) :=
  (h sat).2 k (lastOf_nodup hn hs hk)

/-- satellites outside the mask have no entry -/
theorem outside {α : Type} {d : Dict Int α} {sats : List Int} {v : Nat → α} {n : Nat}
    (h : Filled d (fun k => sats[k]?) v n) {sat : Int} (hs : sat ∉ sats) : Dict.get? d sat = none := by
  rw [h sat]
  cases hx : lastOf (fun k => sats[k]?) sat n with
  | none => rfl
  | some k =>
    have : (lastOf (fun k => sats[k]?) sat n).isSome := by rw [hx]; rfl
    obtain ⟨k, -, e⟩ := lastOf_isSome.1 this
    exact absurd (List.mem_of_getElem? e) hs

/-! ## Concrete cases -/

/-- a mask with GPS 1 (C1C, C2W) and Galileo 2 (C1C) -/
def demo (has : Bool) : St :=
  { cfg := cfgOf has, week := 2300, tow0 := 3600, toh := 60, iodssr := 5, ngnss := 2, nsatN := 2, satN := [1, 34],
    sysN := [.gps, .gal], nsigN := [2, 1], gnssIdx := [.gps, .gal],
    sigN := [(1, [⟨.gps, .L, 103⟩, ⟨.gps, .L, 223⟩]), (34, [⟨.gal, .L, 103⟩])], lc := [{ cstat := 1 }, {}] }

theorem demo_mask (has : Bool) : MaskOk (demo has) := by
  refine ⟨rfl, rfl, rfl, fun sat h => ?_⟩
  rcases List.mem_cons.1 h with h | h
  · subst h; exact ⟨_, rfl⟩
  · rw [List.mem_singleton.1 h]; exact ⟨_, rfl⟩

example (has : Bool) : (demo has).cfg = cfgOf has ∧ (demo has).lc[1]? = some { cstat := 0 } ∧ (demo has).lc[0]? = some { cstat := 1 } ∧
    (∀ sat ∈ (demo has).satN, (sat2prn sat).1 ∈ (demo has).gnssIdx) ∧ (demo has).satN.Nodup := by
  cases has <;> exact ⟨rfl, rfl, rfl, by decide +kernel, by decide +kernel⟩

/-- header: time 60, update interval 3, issue 5 -/
def exHead : BitBuf := natToBits 12 60 ++ natToBits 4 3 ++ natToBits 1 0 ++ natToBits 4 5

/-- read a part of the result -/
def got {α : Type} (r : Py (St × Int)) (f : LC → α) : Option α :=
  match r with
  | .ok (s, _) => (s.lc[0]?).map f
  | .error _ => none

/-- where the reader stops -/
def stop (r : Py (St × Int)) : Option Int :=
  match r with
  | .ok (_, j) => some j
  | .error _ => none

def exOrb : BitBuf := exHead ++ natToBits 8 77 ++ natToBits 15 100 ++ natToBits 13 8191 ++ natToBits 13 4096 ++
  natToBits 10 900 ++ natToBits 15 1 ++ natToBits 13 2 ++ natToBits 13 3

example : got (decodeCssrOrb (demo false) exOrb 0) LC.dorb =
    some [(34, (some (16 / 10000), some (128 / 10000), some (192 / 10000))),
          (1, (some (16 / 100), some (-64 / 10000), none))] := by decide +kernel
example : got (decodeCssrOrb (demo false) exOrb 0) LC.iode = some [(34, 900), (1, 77)] ∧
    stop (decodeCssrOrb (demo false) exOrb 0) = some (21 + 49 + 51) := by decide +kernel

def exClkHas : BitBuf := natToBits 4 3 ++ natToBits 2 1 ++ natToBits 2 0 ++ natToBits 13 4 ++ natToBits 13 4095

example : got (decodeCssrClk (demo true) exClkHas 0) LC.dclk = some [(34, none), (1, some (2 / 100))] ∧
    stop (decodeCssrClk (demo true) exClkHas 0) = some (4 + 4 + 26) := by decide +kernel

def exPb : BitBuf := exHead ++ natToBits 15 100 ++ natToBits 2 1 ++ natToBits 15 32767 ++ natToBits 2 3 ++
  natToBits 15 7 ++ natToBits 2 2

example : got (decodeCssrPbias (demo false) exPb 0) LC.pbias =
    some [(34, [(⟨.gal, .L, 103⟩, some (7 / 1000))]),
          (1, [(⟨.gps, .L, 223⟩, some (-1 / 1000)), (⟨.gps, .L, 103⟩, some (1 / 10))])] := by decide +kernel
example : got (decodeCssrPbias (demo false) exPb 0) LC.di =
    some [(34, [(⟨.gal, .L, 103⟩, 2)]), (1, [(⟨.gps, .L, 223⟩, 3), (⟨.gps, .L, 103⟩, 1)])] := by decide +kernel

def exCb : BitBuf := exHead ++ natToBits 11 100 ++ natToBits 11 2047 ++ natToBits 11 1024

example : got (decodeCssrCbias (demo false) exCb 0) LC.cbias =
    some [(34, [(⟨.gal, .C, 103⟩, none)]),
          (1, [(⟨.gps, .C, 223⟩, some (-2 / 100)), (⟨.gps, .C, 103⟩, some 2)])] := by decide +kernel

example : decodeCssrCbias (demo false) (exCb.take 53) 0 = .error .bitstruct :=
  (cbias_content false (demo false) (exCb.take 53) 0 0 { cstat := 1 } rfl (demo_mask false) rfl).err (by decide +kernel)

def exUra : BitBuf := exHead ++ natToBits 3 1 ++ natToBits 3 2 ++ natToBits 3 0 ++ natToBits 3 0

example : got (decodeCssrUra (demo false) exUra 0) LC.ura = some [(34, none), (1, some (7 / 2000))] := by decide +kernel

end Verif.C60
