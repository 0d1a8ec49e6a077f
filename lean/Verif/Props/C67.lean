import Verif.Lemmas.Exact
import Verif.Model.RtcmBias
import Verif.Props.C05
import Verif.Props.C42
/-!
# C67 Contents of RTCM and IGS SSR orbit, clock, accuracy, code bias and phase bias messages

Specification: the bit layout of the messages.  A body starts with a header (time, 4 bits update interval, 1 bit
multiple message flag, for messages with orbits 1 bit reference datum, 4 bits issue, 16 bits provider, 4 bits solution,
for phase biases 2 or 5 further bits, 6 bits number of satellites), then follow the records of the satellites.
-/

namespace Verif.C67
open Verif.Sat Verif.Sig Verif.Time Verif.RtcmTypes Verif.RtcmSsr Verif.RtcmBias

/-! ## Specification -/

/-- value of an `n`-bit field; the most negative number means "not available" -/
def num (u : Int) (n : Nat) (scl : ℚ) : Val := if u = -2 ^ (n - 1) then none else some (u * scl)

/-- GLONASS messages of RTCM (not those of IGS SSR) have shorter time and satellite fields -/
def Short (mt : Nat) (sys : Sys) : Prop := sys = .glo ∧ mt ≠ 4076
instance (mt : Nat) (sys : Sys) : Decidable (Short mt sys) := inferInstanceAs (Decidable (_ ∧ _))

def timeW (mt : Nat) (sys : Sys) : Nat := if Short mt sys then 17 else 20
/-- bits of the satellite number -/
def satW (mt : Nat) (sys : Sys) : Nat := if Short mt sys then 5 else if sys = .qzs ∧ mt ≠ 4076 then 4 else 6
/-- the satellite a record at bit `p` belongs to -/
def satAt (mt : Nat) (sys : Sys) (b : BitBuf) (p : Nat) : Int :=
  prn2sat sys ((bitsAt b p (satW mt sys) : Int) + match sys with | .qzs => 192 | .sbs => 119 | _ => 0)

/-- epoch of a message: week and seconds of the week; for GLONASS in RTCM the moment `t` nearest to the previous epoch
whose Moscow time of day is the field, to which the code adds the leap seconds a second time -/
def EpochIs (d : Dec) (sys : Sys) (b : BitBuf) (i : Nat) (e : GTime) : Prop :=
  (¬ Short d.msgtype sys → timediff e ⟨0, 0⟩ = 315964800 + 604800 * d.week + bitsAt b i 20) ∧
  (Short d.msgtype sys → d.time.Norm → bitsAt b i 17 < 86400 → ∃ t,
    (∃ k : Int, C06.instant (gpst2utc t) + 10800 = k * 86400 + bitsAt b i 17) ∧
    |timediff (gpst2utc t) (gpst2utc d.time)| ≤ 43200 ∧
    e = if d.workaround then timeadd (utc2gpst t) (-36) else utc2gpst t)

/-- length of a header; `x` is the number of bits that only some kinds have -/
def hdrW (mt : Nat) (sys : Sys) (x : Nat) : Nat := timeW mt sys + x + 35

/-- what a header leaves in the decoder: `x` bits reference datum, update interval and issue of the kinds `ks`, epoch
of the kinds `ts` -/
structure HeadAt (d : Dec) (sys : Sys) (x : Nat) (ks ts : List SC) (b : BitBuf) (i : Nat) (d' : Dec) : Prop where
  epoch : EpochIs d sys b i d'.time
  tow : d'.tow = if Short d.msgtype sys then d.tow else bitsAt b i 20
  tod : d'.tod = if Short d.msgtype sys then bitsAt b i 17 else d.tod
  udi : ∀ c, d'.udi c = if c ∈ ks then bitsAt b (i + timeW d.msgtype sys) 4 else d.udi c
  mi : d'.mi = (bitsAt b (i + timeW d.msgtype sys + 4) 1 == 1)
  datum : d'.datum = if x = 1 then bitsAt b (i + timeW d.msgtype sys + 5) 1 else d.datum
  iodssr : d'.iodssr = bitsAt b (i + timeW d.msgtype sys + x + 5) 4
  iodssrC : ∀ c, d'.iodssrC c = if c ∈ ks then (bitsAt b (i + timeW d.msgtype sys + x + 5) 4 : Int) else d.iodssrC c
  pid : d'.pid = bitsAt b (i + timeW d.msgtype sys + x + 9) 16
  sid : d'.sid = bitsAt b (i + timeW d.msgtype sys + x + 25) 4
  t0s : ∀ c, d'.t0s c = if c ∈ ts then d'.time else d.t0s c

/-- number of satellites; `y` further bits precede it in phase bias messages -/
def nsatAt (mt : Nat) (sys : Sys) (x y : Nat) (b : BitBuf) (i : Nat) : Nat :=
  bitsAt b (i + timeW mt sys + x + y + 29) 6

/-- the decoder with the header data of another one -/
def setHead (d h : Dec) : Dec :=
  { d with tow := h.tow, tod := h.tod, time := h.time, udi := h.udi, mi := h.mi, datum := h.datum, iodssr := h.iodssr,
           iodssrC := h.iodssrC, pid := h.pid, sid := h.sid, t0s := h.t0s }

/-- the value of the last entry with that key -/
def lastVal {κ α : Type} [DecidableEq κ] (l : List (κ × α)) (key : κ) : Option α :=
  (l.reverse.find? fun p => p.1 = key).map (·.2)

/-- contents of a table of the decoder -/
def look {α : Type} (d : Option (Dict Int α)) (s : Int) : Option α := d.bind fun d => Dict.get? d s

/-- the table after a message with the given entries; a message of a later epoch clears it first -/
def Upd {α : Type} (clear : Prop) (old new : Option (Dict Int α)) (l : List (Int × α)) : Prop :=
  new.isSome ∧ ∀ s, (clear → look new s = lastVal l s) ∧ (¬ clear → look new s = (lastVal l s).or (look old s))

/-- entries of `n` records of `w` bits starting at bit `p` -/
def entries {α : Type} (mt : Nat) (sys : Sys) (b : BitBuf) (p w n : Nat) (v : Nat → α) : List (Int × α) :=
  (List.range n).map fun k => (satAt mt sys b (p + w * k), v (p + w * k + satW mt sys))

/-- bits of the ephemeris issue -/
def issueW (mt : Nat) (sys : Sys) : Nat :=
  if mt = 4076 then 8 else match sys with | .gal => 10 | .sbs => 24 | _ => 8

/-- radial, along-track, cross-track correction in metres -/
def orbAt (b : BitBuf) (p : Nat) : Vec :=
  (num (intAt b p 22) 22 (1 / 10000), num (intAt b (p + 22) 20) 20 (4 / 10000), num (intAt b (p + 42) 20) 20 (4 / 10000))
/-- their rates in metres per second -/
def velAt (b : BitBuf) (p : Nat) : Vec :=
  (num (intAt b p 21) 21 (1 / 1000000), num (intAt b (p + 21) 19) 19 (4 / 1000000),
   num (intAt b (p + 40) 19) 19 (4 / 1000000))

/-- accuracy in metres of a 3-bit class and a 3-bit value -/
def uraVal (c v : Nat) : Val :=
  if c = 7 ∧ v = 7 then some (54665 / 10000) else if c = 0 ∧ v = 0 then none
  else some ((3 ^ c * (4 + v) - 4) / 4000)

/-! ## Helpers -/

theorem sval_num (u : Int) (n : Nat) (scl : ℚ) : Sval.sval u n scl = num u n scl := rfl

theorem lastVal_nil {κ α : Type} [DecidableEq κ] (key : κ) : lastVal ([] : List (κ × α)) key = none := rfl

theorem lastVal_append {κ α : Type} [DecidableEq κ] (l m : List (κ × α)) (key : κ) :
    lastVal (l ++ m) key = (lastVal m key).or (lastVal l key) := by
  unfold lastVal
  rw [List.reverse_append, List.find?_append]
  cases m.reverse.find? (fun p => p.1 = key) <;> rfl

theorem lastVal_one {κ α : Type} [DecidableEq κ] (k : κ) (v : α) (key : κ) :
    lastVal [(k, v)] key = if key = k then some v else none := by
  unfold lastVal
  by_cases h : key = k
  · subst h; simp
  · rw [if_neg h]
    have : ¬ k = key := fun e => h e.symm
    simp [this]

/-- a table filled entry by entry -/
def Fill {κ α : Type} [DecidableEq κ] (old : κ → Option α) (d : Dict κ α) (l : List (κ × α)) : Prop :=
  ∀ s, Dict.get? d s = (lastVal l s).or (old s)

theorem fill_nil {κ α : Type} [DecidableEq κ] {d : Dict κ α} : Fill (Dict.get? d) d [] := fun _ => rfl

theorem fill_set {κ α : Type} [DecidableEq κ] {old : κ → Option α} {d : Dict κ α} {l : List (κ × α)} {s : κ} {v : α}
    (h : Fill old d l) : Fill old (Dict.set d s v) (l ++ [(s, v)]) := by
  intro x
  rw [Dict.get?_set, lastVal_append, lastVal_one]
  by_cases e : x = s
  · rw [if_pos e, if_pos e]; rfl
  · rw [if_neg e, if_neg e, h x]; rfl

theorem entries_succ {α : Type} (mt : Nat) (sys : Sys) (b : BitBuf) (p w n : Nat) (v : Nat → α) :
    entries mt sys b p w (n + 1) v = entries mt sys b p w n v ++
      [(satAt mt sys b (p + w * n), v (p + w * n + satW mt sys))] := by
  unfold entries
  rw [List.range_succ, List.map_append]; rfl

theorem entries_zero {α : Type} (mt : Nat) (sys : Sys) (b : BitBuf) (p w : Nat) (v : Nat → α) :
    entries mt sys b p w 0 v = [] := rfl

theorem upd_of {α : Type} {clear : Prop} {old : Option (Dict Int α)} {d0 d : Dict Int α} {l : List (Int × α)}
    (h : Fill (Dict.get? d0) d l) (h1 : clear → d0 = []) (h2 : ¬ clear → old = some d0) : Upd clear old (some d) l := by
  refine ⟨rfl, fun s => ⟨fun hc => ?_, fun hc => ?_⟩⟩
  · change Dict.get? d s = _
    rw [h s, h1 hc]
    cases lastVal l s <;> rfl
  · change Dict.get? d s = _
    rw [h s, h2 hc]; rfl

theorem uraVal_eq (c v : Nat) : qualityIdx c v = uraVal c v := by
  unfold qualityIdx uraVal
  split_ifs
  · rfl
  · rfl
  · congr 1; ring

/-- bits of the header before the update interval -/
theorem time_spec (d : Dec) (sys : Sys) (b : BitBuf) (i : Nat) :
    Exact b.length (i + timeW d.msgtype sys) (decodeHeadTime d sys b i) (fun r => ∃ t, EpochIs d sys b i t ∧
      r = ({ d with tow := if Short d.msgtype sys then d.tow else bitsAt b i 20,
                    tod := if Short d.msgtype sys then bitsAt b i 17 else d.tod, time := t },
        i + timeW d.msgtype sys)) := by
  unfold decodeHeadTime timeW
  by_cases h : Short d.msgtype sys
  · have h' : sys = .glo ∧ d.msgtype ≠ 4076 := h
    simp only [if_pos h, if_pos h']
    refine Exact.bind Exact.u (Nat.le_refl _) fun t ht hl => Exact.ret hl ⟨if d.workaround then
      timeadd (utc2gpst (glo2time d.time (bitsAt b i 17))) (-36) else utc2gpst (glo2time d.time (bitsAt b i 17)), ?_, ?_⟩
    · refine ⟨fun hn => absurd h hn, fun _ hn hx => ⟨glo2time d.time (bitsAt b i 17), ?_, ?_, rfl⟩⟩
      · exact (C42.glo2time_spec (bitsAt b i 17 : ℚ) d.time hn (by positivity) (by exact_mod_cast hx)).1
      · exact (C42.glo2time_spec (bitsAt b i 17 : ℚ) d.time hn (by positivity) (by exact_mod_cast hx)).2
    · rw [ht]
  · have h' : ¬ (sys = .glo ∧ d.msgtype ≠ 4076) := h
    simp only [if_neg h, if_neg h']
    refine Exact.bind Exact.u (Nat.le_refl _) fun t ht hl => Exact.ret hl ⟨gpst2time d.week (bitsAt b i 20), ?_, ?_⟩
    · refine ⟨fun _ => ?_, fun hn => absurd hn h⟩
      have hb : bitsAt b i 20 < 2 ^ 20 := by
        unfold bitsAt
        exact lt_of_lt_of_le (bitsToNat_lt _) (Nat.pow_le_pow_right (by norm_num) (by simp))
      refine (C05.week_tow_instant d.week _ ⟨?_, ?_⟩).1
      · have : (0 : ℚ) ≤ (bitsAt b i 20 : ℚ) := by positivity
        linarith
      · have : (bitsAt b i 20 : ℚ) < 2 ^ 20 := by exact_mod_cast hb
        linarith
    · rw [ht]

/-- the decoder after the header fields have been read -/
def headDec (d : Dec) (sys : Sys) (x : Nat) (b : BitBuf) (i : Nat) (t : GTime) : Dec :=
  { d with tow := if Short d.msgtype sys then d.tow else bitsAt b i 20
           tod := if Short d.msgtype sys then bitsAt b i 17 else d.tod
           time := t
           datum := if x = 1 then bitsAt b (i + timeW d.msgtype sys + 5) 1 else d.datum
           pid := bitsAt b (i + timeW d.msgtype sys + x + 9) 16
           sid := bitsAt b (i + timeW d.msgtype sys + x + 25) 4 }

/-- bits of the reference datum -/
def datumW (sub : Sub) : Nat := if sub = .orbit ∨ sub = .combined then 1 else 0

theorem head_spec (d : Dec) (sub : Sub) (sys : Sys) (b : BitBuf) (i : Nat) :
    Exact b.length (i + hdrW d.msgtype sys (datumW sub)) (decodeHead d sub sys b i) (fun r => ∃ t, EpochIs d sys b i t ∧
      r = (headDec d sys (datumW sub) b i t,
        ⟨bitsAt b (i + timeW d.msgtype sys) 4, bitsAt b (i + timeW d.msgtype sys + 4) 1 == 1,
         bitsAt b (i + timeW d.msgtype sys + datumW sub + 5) 4, nsatAt d.msgtype sys (datumW sub) 0 b i⟩,
        i + hdrW d.msgtype sys (datumW sub))) := by
  unfold decodeHead
  refine Exact.bind (time_spec d sys b i) (by unfold hdrW; omega) ?_
  rintro _ ⟨t, ht, rfl⟩ -
  simp only
  generalize hw : i + timeW d.msgtype sys = w at *
  have hL : i + hdrW d.msgtype sys (datumW sub) = w + datumW sub + 35 := by unfold hdrW; omega
  have hN : nsatAt d.msgtype sys (datumW sub) 0 b i = bitsAt b (w + datumW sub + 29) 6 := by
    unfold nsatAt; rw [hw]
  rw [hL, hN]
  refine Exact.bind Exact.u (by omega) fun u hu _ => ?_
  refine Exact.bind Exact.u (by omega) fun mi hm _ => ?_
  subst hu hm
  by_cases hs : sub = .orbit ∨ sub = .combined
  · have e : datumW sub = 1 := by unfold datumW; rw [if_pos hs]
    rw [if_pos hs, e]
    refine Exact.bind Exact.u (by omega) fun dt hdt _ => Exact.step rfl ?_
    refine Exact.bind Exact.u (by omega) fun u hu _ =>
      Exact.bind Exact.u (by omega) fun u2 hu2 _ => Exact.bind Exact.u (by omega) fun u3 hu3 _ =>
      Exact.bind (Exact.u (i := w + 5 + 1 + 24) (n := 6)) (by omega) fun u4 hu4 hl => Exact.ret (by omega) ⟨t, ht, ?_⟩
    subst hdt hu hu2 hu3 hu4
    unfold headDec
    rw [hw]
    rfl
  · have e : datumW sub = 0 := by unfold datumW; rw [if_neg hs]
    rw [if_neg hs, e]
    refine Exact.step rfl ?_
    refine Exact.bind Exact.u (by omega) fun u hu _ => 
      Exact.bind Exact.u (by omega) fun u2 hu2 _ => Exact.bind Exact.u (by omega) fun u3 hu3 _ =>
      Exact.bind (Exact.u (i := w + 5 + 24) (n := 6)) (by omega) fun u4 hu4 hl => Exact.ret (by omega) ⟨t, ht, ?_⟩
    subst hu hu2 hu3 hu4
    unfold headDec
    rw [hw]
    rfl

theorem sat_spec (mt : Nat) (sys : Sys) (b : BitBuf) (p : Nat) :
    Exact b.length (p + satW mt sys) (decodeSat mt sys b p) (fun r => r = (p + satW mt sys, satAt mt sys b p)) := by
  unfold decodeSat
  have e : (if mt = 4076 then 6 else if sys = .glo then 5 else if sys = .qzs then 4 else 6) = satW mt sys := by
    unfold satW Short
    by_cases h : mt = 4076
    · simp [h]
    · cases sys <;> simp [h]
  rw [e]
  refine Exact.bind Exact.u (Nat.le_refl _) fun n hn hl => Exact.ret hl ?_
  rw [hn]
  unfold svid2sat satAt
  cases sys <;> simp

theorem issueW_eq (mt : Nat) (sys : Sys) : iodeLen mt sys = issueW mt sys := by
  unfold iodeLen issueW
  cases sys <;> rfl

theorem orbSat_spec (mt : Nat) (sys : Sys) (b : BitBuf) (p : Nat) :
    Exact b.length (p + issueW mt sys + 121) (decodeOrbSat mt sys b p) (fun r => r =
      (p + issueW mt sys + 121, bitsAt b p (issueW mt sys), orbAt b (p + issueW mt sys),
        velAt b (p + issueW mt sys + 62))) := by
  unfold decodeOrbSat
  rw [issueW_eq]
  refine Exact.bind Exact.u (by omega) fun u hu _ => ?_
  simp only
  refine Exact.bind Exact.s (by omega) fun x1 h1 _ => Exact.bind Exact.s (by omega) fun x2 h2 _ =>
    Exact.bind Exact.s (by omega) fun x3 h3 _ => Exact.bind Exact.s (by omega) fun x4 h4 _ =>
    Exact.bind Exact.s (by omega) fun x5 h5 _ => Exact.bind (Exact.s (i := p + issueW mt sys + 102) (n := 19))
    (by omega) fun x6 h6 hl => Exact.ret (by omega) ?_
  subst hu h1 h2 h3 h4 h5 h6
  rfl

theorem clkSat_spec (b : BitBuf) (p : Nat) :
    Exact b.length (p + 70) (decodeClkSat b p) (fun r => r =
      (p + 70, num (intAt b p 22) 22 (1 / 10000), num (intAt b (p + 22) 21) 21 (4 / 10000),
        num (intAt b (p + 43) 27) 27 (4 / 1000000))) := by
  unfold decodeClkSat
  refine Exact.bind Exact.s (by omega) fun x1 h1 _ => Exact.bind Exact.s (by omega) fun x2 h2 _ =>
    Exact.bind (Exact.s (i := p + 43) (n := 27)) (by omega) fun x3 h3 hl => Exact.ret (by omega) ?_
  subst h1 h2 h3
  rfl

/-! ## Orbit -/

/-- length of an orbit record -/
def orbW (mt : Nat) (sys : Sys) : Nat := satW mt sys + issueW mt sys + 121

/-- the tables are there, or the message clears them -/
def Ready (d : Dec) (sys : Sys) (b : BitBuf) (i : Nat) (c : SC) (tables : Prop) : Prop :=
  tables ∨ ∀ t, EpochIs d sys b i t → timediff t (d.t0s c) > 0

theorem orbStep_spec (sys : Sys) (b : BitBuf) (d : Dec) (p : Nat) {m1 : Dict Int Nat} {m2 m3 : Dict Int Vec}
    (h1 : d.iode = some m1) (h2 : d.dorb = some m2) (h3 : d.ddorb = some m3) :
    Exact b.length (p + orbW d.msgtype sys) (orbStep sys b (d, p)) (fun r => r =
      ({ d with iode := some (m1.set (satAt d.msgtype sys b p) (bitsAt b (p + satW d.msgtype sys) (issueW d.msgtype sys)))
                dorb := some (m2.set (satAt d.msgtype sys b p) (orbAt b (p + satW d.msgtype sys + issueW d.msgtype sys)))
                ddorb := some (m3.set (satAt d.msgtype sys b p) (velAt b (p + satW d.msgtype sys + issueW d.msgtype sys + 62)))
                satN := d.satN ++ [satAt d.msgtype sys b p] }, p + orbW d.msgtype sys)) := by
  unfold orbStep orbW
  simp only
  refine Exact.bind (sat_spec d.msgtype sys b p) (by omega) ?_
  rintro _ rfl -
  simp only
  refine Exact.bind (orbSat_spec d.msgtype sys b _) (by omega) ?_
  rintro _ rfl hl
  simp only
  rw [h1, h2, h3]
  refine Exact.step rfl (Exact.step rfl (Exact.step rfl (Exact.ret (by omega) ?_)))
  rw [Prod.mk.injEq]
  exact ⟨rfl, by omega⟩

theorem orb_loop (sys : Sys) (b : BitBuf) (d : Dec) (p n : Nat) {m1 : Dict Int Nat} {m2 m3 : Dict Int Vec}
    (h1 : d.iode = some m1) (h2 : d.dorb = some m2) (h3 : d.ddorb = some m3) (hp : p ≤ b.length) :
    Exact b.length (p + orbW d.msgtype sys * n) (times n (orbStep sys b) (d, p)) (fun r => ∃ x1 x2 x3,
      r = ({ d with iode := some x1, dorb := some x2, ddorb := some x3
                    satN := d.satN ++ (entries d.msgtype sys b p (orbW d.msgtype sys) n fun _ => ()).map Prod.fst },
        p + orbW d.msgtype sys * n) ∧
      Fill (Dict.get? m1) x1 (entries d.msgtype sys b p (orbW d.msgtype sys) n fun q => bitsAt b q (issueW d.msgtype sys)) ∧
      Fill (Dict.get? m2) x2 (entries d.msgtype sys b p (orbW d.msgtype sys) n fun q => orbAt b (q + issueW d.msgtype sys)) ∧
      Fill (Dict.get? m3) x3 (entries d.msgtype sys b p (orbW d.msgtype sys) n fun q =>
        velAt b (q + issueW d.msgtype sys + 62))) := by
  unfold times
  refine Exact.range (pos := fun n => p + orbW d.msgtype sys * n) (I := fun n r => ∃ x1 x2 x3,
      r = ({ d with iode := some x1, dorb := some x2, ddorb := some x3
                    satN := d.satN ++ (entries d.msgtype sys b p (orbW d.msgtype sys) n fun _ => ()).map Prod.fst },
        p + orbW d.msgtype sys * n) ∧
      Fill (Dict.get? m1) x1 (entries d.msgtype sys b p (orbW d.msgtype sys) n fun q => bitsAt b q (issueW d.msgtype sys)) ∧
      Fill (Dict.get? m2) x2 (entries d.msgtype sys b p (orbW d.msgtype sys) n fun q => orbAt b (q + issueW d.msgtype sys)) ∧
      Fill (Dict.get? m3) x3 (entries d.msgtype sys b p (orbW d.msgtype sys) n fun q =>
        velAt b (q + issueW d.msgtype sys + 62))) (fun k => by rw [Nat.mul_succ]; omega) (by simpa using hp) ?_ ?_
  · refine ⟨m1, m2, m3, ?_, fill_nil, fill_nil, fill_nil⟩
    rw [← h1, ← h2, ← h3, entries_zero, List.map_nil, List.append_nil, Nat.mul_zero, Nat.add_zero]
  · rintro k _ _ ⟨x1, x2, x3, rfl, f1, f2, f3⟩ hl
    refine ((orbStep_spec sys b _ _ rfl rfl rfl).cast (by simp only; rw [Nat.mul_succ]; omega)).mono ?_
    rintro _ rfl
    refine ⟨_, _, _, ?_, entries_succ .. ▸ fill_set f1, entries_succ .. ▸ fill_set f2, entries_succ .. ▸ fill_set f3⟩
    refine Prod.ext ?_ (by simp only; rw [Nat.mul_succ]; omega)
    simp only [entries_succ, List.map_append, List.append_assoc, List.map_cons, List.map_nil]

/-- **Orbit message.** -/
theorem orbit {d : Dec} {sys : Sys} {b : BitBuf} {i : Nat} (hs : getSsrSys d.sysref d.msgtype = .ok sys)
    (hr : Ready d sys b i .orbit (d.iode.isSome ∧ d.dorb.isSome ∧ d.ddorb.isSome)) :
    let n := nsatAt d.msgtype sys 1 0 b i
    let p := i + hdrW d.msgtype sys 1
    let w := orbW d.msgtype sys
    let ent := fun {α : Type} (v : Nat → α) => entries d.msgtype sys b p w n v
    Exact b.length (p + w * n) (decodeCssrOrb d b i) (fun r =>
      r.2 = p + w * n ∧ HeadAt d sys 1 [.orbit] [.orbit] b i r.1 ∧
      (let new := timediff r.1.time (d.t0s .orbit) > 0
       Upd new d.iode r.1.iode (ent fun q => bitsAt b q (issueW d.msgtype sys)) ∧
       Upd new d.dorb r.1.dorb (ent fun q => orbAt b (q + issueW d.msgtype sys)) ∧
       Upd new d.ddorb r.1.ddorb (ent fun q => velAt b (q + issueW d.msgtype sys + 62)) ∧
       r.1.satN = (if new then [] else d.satN) ++ (ent fun _ => ()).map (·.1) ∧
       r.1.sysN = (if new then [] else d.sysN) ++ List.replicate n sys ∧
       r.1.nsatN = (if new then 0 else d.nsatN) + n) ∧
      r.1 = { setHead d r.1 with iode := r.1.iode, dorb := r.1.dorb, ddorb := r.1.ddorb, satN := r.1.satN,
                                 sysN := r.1.sysN, nsatN := r.1.nsatN }) := by
  intro n p w ent
  unfold decodeCssrOrb
  refine Exact.step hs (Exact.bind (head_spec d .orbit sys b i) (Nat.le_add_right p (w * n)) ?_)
  rintro _ ⟨t, ht, rfl⟩ hl
  simp only
  by_cases hc : timediff t (d.t0s .orbit) > 0
  · have hc' : timediff (headDec d sys (datumW .orbit) b i t).time ((headDec d sys (datumW .orbit) b i t).t0s .orbit) > 0 := hc
    simp only [if_pos hc']
    refine Exact.bind (orb_loop sys b _ _ n rfl rfl rfl hl) (Nat.le_refl _) ?_
    rintro _ ⟨x1, x2, x3, rfl, f1, f2, f3⟩ hl
    refine Exact.ret hl ⟨rfl, ?_, ?_, rfl⟩
    · exact ⟨ht, rfl, rfl, fun c => by simp [headDec, datumW], rfl, rfl, rfl, fun c => by simp [headDec, datumW], rfl, rfl,
        fun c => by simp [headDec, datumW]⟩
    · refine ⟨upd_of f1 (fun _ => rfl) (absurd hc), upd_of f2 (fun _ => rfl) (absurd hc),
        upd_of f3 (fun _ => rfl) (absurd hc), ?_, ?_, ?_⟩
      · exact (congrArg (· ++ _) (if_pos hc)).symm
      · exact (congrArg (· ++ _) (if_pos hc)).symm
      · exact (congrArg (· + _) (if_pos hc)).symm
  · have hc' : ¬ timediff (headDec d sys (datumW .orbit) b i t).time ((headDec d sys (datumW .orbit) b i t).t0s .orbit) > 0 := hc
    simp only [if_neg hc']
    rcases hr with ⟨a1, a2, a3⟩ | hr
    · obtain ⟨m1, e1⟩ := Option.isSome_iff_exists.1 a1
      obtain ⟨m2, e2⟩ := Option.isSome_iff_exists.1 a2
      obtain ⟨m3, e3⟩ := Option.isSome_iff_exists.1 a3
      refine Exact.bind (orb_loop sys b _ _ n e1 e2 e3 hl) (Nat.le_refl _) ?_
      rintro _ ⟨x1, x2, x3, rfl, f1, f2, f3⟩ hl
      refine Exact.ret hl ⟨rfl, ?_, ?_, rfl⟩
      · exact ⟨ht, rfl, rfl, fun c => by simp [headDec, datumW], rfl, rfl, rfl, fun c => by simp [headDec, datumW], rfl, rfl,
          fun c => by simp [headDec, datumW]⟩
      · refine ⟨upd_of f1 (fun h => absurd h hc) (fun _ => e1), upd_of f2 (fun h => absurd h hc) (fun _ => e2),
          upd_of f3 (fun h => absurd h hc) (fun _ => e3), ?_, ?_, ?_⟩
        · exact (congrArg (· ++ _) (if_neg hc)).symm
        · exact (congrArg (· ++ _) (if_neg hc)).symm
        · exact (congrArg (· + _) (if_neg hc)).symm
    · exact absurd (hr t ht) hc

/-! ## Clock -/

/-- length of a clock record -/
def clkW (mt : Nat) (sys : Sys) : Nat := satW mt sys + 70

theorem clkStep_spec (sys : Sys) (b : BitBuf) (d : Dec) (p : Nat) {m1 : Dict Int Val} {m2 : Dict Int Val} {m3 : Dict Int Val}
    (h1 : d.dclk = some m1) (h2 : d.ddclk = some m2) (h3 : d.dddclk = some m3) :
    Exact b.length (p + clkW d.msgtype sys) (clkStep sys b (d, p)) (fun r => r =
      ({ d with dclk := some (m1.set (satAt d.msgtype sys b p) (num (intAt b (p + satW d.msgtype sys) 22) 22 (1 / 10000)))
                ddclk := some (m2.set (satAt d.msgtype sys b p) (num (intAt b ((p + satW d.msgtype sys) + 22) 21) 21 (4 / 10000)))
                dddclk := some (m3.set (satAt d.msgtype sys b p) (num (intAt b ((p + satW d.msgtype sys) + 43) 27) 27 (4 / 1000000))) }, p + clkW d.msgtype sys)) := by
  unfold clkStep clkW
  simp only
  refine Exact.bind (sat_spec d.msgtype sys b p) (by omega) ?_
  rintro _ rfl -
  simp only
  refine Exact.bind (clkSat_spec b _) (by omega) ?_
  rintro _ rfl hl
  simp only
  rw [h1, h2, h3]
  exact Exact.step rfl (Exact.step rfl (Exact.step rfl (Exact.ret (by omega) (Prod.ext rfl (by simp only; omega)))))

theorem clock_loop (sys : Sys) (b : BitBuf) (d : Dec) (p n : Nat) {m1 : Dict Int Val} {m2 : Dict Int Val} {m3 : Dict Int Val}
    (h1 : d.dclk = some m1) (h2 : d.ddclk = some m2) (h3 : d.dddclk = some m3) (hp : p ≤ b.length) :
    Exact b.length (p + clkW d.msgtype sys * n) (times n (clkStep sys b) (d, p)) (fun r => ∃ x1 x2 x3,
      r = ({ d with dclk := some x1, ddclk := some x2, dddclk := some x3 },
        p + clkW d.msgtype sys * n) ∧
      Fill (Dict.get? m1) x1 (entries d.msgtype sys b p (clkW d.msgtype sys) n fun q => num (intAt b q 22) 22 (1 / 10000)) ∧
      Fill (Dict.get? m2) x2 (entries d.msgtype sys b p (clkW d.msgtype sys) n fun q => num (intAt b (q + 22) 21) 21 (4 / 10000)) ∧
      Fill (Dict.get? m3) x3 (entries d.msgtype sys b p (clkW d.msgtype sys) n fun q => num (intAt b (q + 43) 27) 27 (4 / 1000000))) := by
  unfold times
  refine Exact.range (pos := fun n => p + clkW d.msgtype sys * n) (I := fun n r => ∃ x1 x2 x3,
      r = ({ d with dclk := some x1, ddclk := some x2, dddclk := some x3 },
        p + clkW d.msgtype sys * n) ∧
      Fill (Dict.get? m1) x1 (entries d.msgtype sys b p (clkW d.msgtype sys) n fun q => num (intAt b q 22) 22 (1 / 10000)) ∧
      Fill (Dict.get? m2) x2 (entries d.msgtype sys b p (clkW d.msgtype sys) n fun q => num (intAt b (q + 22) 21) 21 (4 / 10000)) ∧
      Fill (Dict.get? m3) x3 (entries d.msgtype sys b p (clkW d.msgtype sys) n fun q => num (intAt b (q + 43) 27) 27 (4 / 1000000)))
      (fun k => by rw [Nat.mul_succ]; omega) (by simpa using hp) ?_ ?_
  · refine ⟨m1, m2, m3, ?_, fill_nil, fill_nil, fill_nil⟩
    rw [← h1, ← h2, ← h3, Nat.mul_zero, Nat.add_zero]
  · rintro k _ _ ⟨x1, x2, x3, rfl, f1, f2, f3⟩ hl
    refine ((clkStep_spec sys b _ _ rfl rfl rfl).cast (by simp only; rw [Nat.mul_succ]; omega)).mono ?_
    rintro _ rfl
    refine ⟨_, _, _, ?_, entries_succ .. ▸ fill_set f1, entries_succ .. ▸ fill_set f2, entries_succ .. ▸ fill_set f3⟩
    refine Prod.ext ?_ (by simp only; rw [Nat.mul_succ]; omega)
    rfl

/-- **Clock message.** -/
theorem clock {d : Dec} {sys : Sys} {b : BitBuf} {i : Nat} (hs : getSsrSys d.sysref d.msgtype = .ok sys)
    (hr : Ready d sys b i .clock (d.dclk.isSome ∧ d.ddclk.isSome ∧ d.dddclk.isSome)) :
    let n := nsatAt d.msgtype sys 0 0 b i
    let p := i + hdrW d.msgtype sys 0
    let w := clkW d.msgtype sys
    let ent := fun {α : Type} (v : Nat → α) => entries d.msgtype sys b p w n v
    Exact b.length (p + w * n) (decodeCssrClk d b i) (fun r =>
      r.2 = p + w * n ∧ HeadAt d sys 0 [.clock] [.clock] b i r.1 ∧
      (let new := timediff r.1.time (d.t0s .clock) > 0
       Upd new d.dclk r.1.dclk (ent fun q => num (intAt b q 22) 22 (1 / 10000)) ∧
       Upd new d.ddclk r.1.ddclk (ent fun q => num (intAt b (q + 22) 21) 21 (4 / 10000)) ∧
       Upd new d.dddclk r.1.dddclk (ent fun q => num (intAt b (q + 43) 27) 27 (4 / 1000000))) ∧
      r.1 = { setHead d r.1 with dclk := r.1.dclk, ddclk := r.1.ddclk, dddclk := r.1.dddclk, dclkN := some n }) := by
  intro n p w ent
  unfold decodeCssrClk
  refine Exact.step hs (Exact.bind (head_spec d .clock sys b i) (Nat.le_add_right p (w * n)) ?_)
  rintro _ ⟨t, ht, rfl⟩ hl
  simp only
  by_cases hc : timediff t (d.t0s .clock) > 0
  · have hc' : timediff (headDec d sys (datumW .clock) b i t).time ((headDec d sys (datumW .clock) b i t).t0s .clock) > 0 := hc
    simp only [if_pos hc']
    refine Exact.bind (clock_loop sys b _ _ n rfl rfl rfl hl) (Nat.le_refl _) ?_
    rintro _ ⟨x1, x2, x3, rfl, f1, f2, f3⟩ hl
    refine Exact.ret hl ⟨rfl, ?_, ?_, rfl⟩
    · exact ⟨ht, rfl, rfl, fun c => by simp [headDec, datumW], rfl, rfl, rfl, fun c => by simp [headDec, datumW], rfl, rfl,
        fun c => by simp [headDec, datumW]⟩
    · exact ⟨upd_of f1 (fun _ => rfl) (absurd hc), upd_of f2 (fun _ => rfl) (absurd hc), upd_of f3 (fun _ => rfl) (absurd hc)⟩
  · have hc' : ¬ timediff (headDec d sys (datumW .clock) b i t).time ((headDec d sys (datumW .clock) b i t).t0s .clock) > 0 := hc
    simp only [if_neg hc']
    rcases hr with ⟨a1, a2, a3⟩ | hr
    · obtain ⟨m1, e1⟩ := Option.isSome_iff_exists.1 a1
      obtain ⟨m2, e2⟩ := Option.isSome_iff_exists.1 a2
      obtain ⟨m3, e3⟩ := Option.isSome_iff_exists.1 a3
      refine Exact.bind (clock_loop sys b _ _ n e1 e2 e3 hl) (Nat.le_refl _) ?_
      rintro _ ⟨x1, x2, x3, rfl, f1, f2, f3⟩ hl
      refine Exact.ret hl ⟨rfl, ?_, ?_, rfl⟩
      · exact ⟨ht, rfl, rfl, fun c => by simp [headDec, datumW], rfl, rfl, rfl, fun c => by simp [headDec, datumW], rfl, rfl,
        fun c => by simp [headDec, datumW]⟩
      · exact ⟨upd_of f1 (fun h => absurd h hc) (fun _ => e1), upd_of f2 (fun h => absurd h hc) (fun _ => e2), upd_of f3 (fun h => absurd h hc) (fun _ => e3)⟩
    · exact absurd (hr t ht) hc

/-! ## Orbit and clock -/

/-- length of a combined record -/
def combW (mt : Nat) (sys : Sys) : Nat := satW mt sys + issueW mt sys + 191

theorem combStep_spec (sys : Sys) (b : BitBuf) (d : Dec) (p : Nat) {m1 : Dict Int Nat} {m2 : Dict Int Vec} {m3 : Dict Int Vec} {m4 : Dict Int Val} {m5 : Dict Int Val} {m6 : Dict Int Val}
    (h1 : d.iode = some m1) (h2 : d.dorb = some m2) (h3 : d.ddorb = some m3) (h4 : d.dclk = some m4) (h5 : d.ddclk = some m5) (h6 : d.dddclk = some m6) :
    Exact b.length (p + combW d.msgtype sys) (combStep sys b (d, p)) (fun r => r =
      ({ d with iode := some (m1.set (satAt d.msgtype sys b p) (bitsAt b (p + satW d.msgtype sys) (issueW d.msgtype sys)))
                dorb := some (m2.set (satAt d.msgtype sys b p) (orbAt b ((p + satW d.msgtype sys) + issueW d.msgtype sys)))
                ddorb := some (m3.set (satAt d.msgtype sys b p) (velAt b ((p + satW d.msgtype sys) + issueW d.msgtype sys + 62)))
                dclk := some (m4.set (satAt d.msgtype sys b p) (num (intAt b ((p + satW d.msgtype sys) + issueW d.msgtype sys + 121) 22) 22 (1 / 10000)))
                ddclk := some (m5.set (satAt d.msgtype sys b p) (num (intAt b ((p + satW d.msgtype sys) + issueW d.msgtype sys + 121 + 22) 21) 21 (4 / 10000)))
                dddclk := some (m6.set (satAt d.msgtype sys b p) (num (intAt b ((p + satW d.msgtype sys) + issueW d.msgtype sys + 121 + 43) 27) 27 (4 / 1000000)))
                satN := d.satN ++ [satAt d.msgtype sys b p] }, p + combW d.msgtype sys)) := by
  unfold combStep combW
  simp only
  refine Exact.bind (sat_spec d.msgtype sys b p) (by omega) ?_
  rintro _ rfl -
  simp only
  refine Exact.bind (orbSat_spec d.msgtype sys b _) (by omega) ?_
  rintro _ rfl -
  simp only
  refine Exact.bind (clkSat_spec b _) (by omega) ?_
  rintro _ rfl hl
  simp only
  rw [h1, h2, h3, h4, h5, h6]
  exact Exact.step rfl (Exact.step rfl (Exact.step rfl (Exact.step rfl (Exact.step rfl (Exact.step rfl
    (Exact.ret (by omega) (Prod.ext rfl (by simp only; omega))))))))

theorem combined_loop (sys : Sys) (b : BitBuf) (d : Dec) (p n : Nat) {m1 : Dict Int Nat} {m2 : Dict Int Vec} {m3 : Dict Int Vec} {m4 : Dict Int Val} {m5 : Dict Int Val} {m6 : Dict Int Val}
    (h1 : d.iode = some m1) (h2 : d.dorb = some m2) (h3 : d.ddorb = some m3) (h4 : d.dclk = some m4) (h5 : d.ddclk = some m5) (h6 : d.dddclk = some m6) (hp : p ≤ b.length) :
    Exact b.length (p + combW d.msgtype sys * n) (times n (combStep sys b) (d, p)) (fun r => ∃ x1 x2 x3 x4 x5 x6,
      r = ({ d with iode := some x1, dorb := some x2, ddorb := some x3, dclk := some x4, ddclk := some x5, dddclk := some x6
                    satN := d.satN ++ (entries d.msgtype sys b p (combW d.msgtype sys) n fun _ => ()).map Prod.fst },
        p + combW d.msgtype sys * n) ∧
      Fill (Dict.get? m1) x1 (entries d.msgtype sys b p (combW d.msgtype sys) n fun q => bitsAt b q (issueW d.msgtype sys)) ∧
      Fill (Dict.get? m2) x2 (entries d.msgtype sys b p (combW d.msgtype sys) n fun q => orbAt b (q + issueW d.msgtype sys)) ∧
      Fill (Dict.get? m3) x3 (entries d.msgtype sys b p (combW d.msgtype sys) n fun q => velAt b (q + issueW d.msgtype sys + 62)) ∧
      Fill (Dict.get? m4) x4 (entries d.msgtype sys b p (combW d.msgtype sys) n fun q => num (intAt b (q + issueW d.msgtype sys + 121) 22) 22 (1 / 10000)) ∧
      Fill (Dict.get? m5) x5 (entries d.msgtype sys b p (combW d.msgtype sys) n fun q => num (intAt b (q + issueW d.msgtype sys + 121 + 22) 21) 21 (4 / 10000)) ∧
      Fill (Dict.get? m6) x6 (entries d.msgtype sys b p (combW d.msgtype sys) n fun q => num (intAt b (q + issueW d.msgtype sys + 121 + 43) 27) 27 (4 / 1000000))) := by
  unfold times
  refine Exact.range (pos := fun n => p + combW d.msgtype sys * n) (I := fun n r => ∃ x1 x2 x3 x4 x5 x6,
      r = ({ d with iode := some x1, dorb := some x2, ddorb := some x3, dclk := some x4, ddclk := some x5, dddclk := some x6
                    satN := d.satN ++ (entries d.msgtype sys b p (combW d.msgtype sys) n fun _ => ()).map Prod.fst },
        p + combW d.msgtype sys * n) ∧
      Fill (Dict.get? m1) x1 (entries d.msgtype sys b p (combW d.msgtype sys) n fun q => bitsAt b q (issueW d.msgtype sys)) ∧
      Fill (Dict.get? m2) x2 (entries d.msgtype sys b p (combW d.msgtype sys) n fun q => orbAt b (q + issueW d.msgtype sys)) ∧
      Fill (Dict.get? m3) x3 (entries d.msgtype sys b p (combW d.msgtype sys) n fun q => velAt b (q + issueW d.msgtype sys + 62)) ∧
      Fill (Dict.get? m4) x4 (entries d.msgtype sys b p (combW d.msgtype sys) n fun q => num (intAt b (q + issueW d.msgtype sys + 121) 22) 22 (1 / 10000)) ∧
      Fill (Dict.get? m5) x5 (entries d.msgtype sys b p (combW d.msgtype sys) n fun q => num (intAt b (q + issueW d.msgtype sys + 121 + 22) 21) 21 (4 / 10000)) ∧
      Fill (Dict.get? m6) x6 (entries d.msgtype sys b p (combW d.msgtype sys) n fun q => num (intAt b (q + issueW d.msgtype sys + 121 + 43) 27) 27 (4 / 1000000)))
      (fun k => by rw [Nat.mul_succ]; omega) (by simpa using hp) ?_ ?_
  · refine ⟨m1, m2, m3, m4, m5, m6, ?_, fill_nil, fill_nil, fill_nil, fill_nil, fill_nil, fill_nil⟩
    rw [← h1, ← h2, ← h3, ← h4, ← h5, ← h6, entries_zero, List.map_nil, List.append_nil, Nat.mul_zero, Nat.add_zero]
  · rintro k _ _ ⟨x1, x2, x3, x4, x5, x6, rfl, f1, f2, f3, f4, f5, f6⟩ hl
    refine ((combStep_spec sys b _ _ rfl rfl rfl rfl rfl rfl).cast (by simp only; rw [Nat.mul_succ]; omega)).mono ?_
    rintro _ rfl
    refine ⟨_, _, _, _, _, _, ?_, entries_succ .. ▸ fill_set f1, entries_succ .. ▸ fill_set f2, entries_succ .. ▸ fill_set f3, entries_succ .. ▸ fill_set f4, entries_succ .. ▸ fill_set f5, entries_succ .. ▸ fill_set f6⟩
    refine Prod.ext ?_ (by simp only; rw [Nat.mul_succ]; omega)
    simp only [entries_succ, List.map_append, List.append_assoc, List.map_cons, List.map_nil]

/-- **Combined orbit and clock message.** -/
theorem combined {d : Dec} {sys : Sys} {b : BitBuf} {i : Nat} (hs : getSsrSys d.sysref d.msgtype = .ok sys)
    (hr : Ready d sys b i .orbit (d.iode.isSome ∧ d.dorb.isSome ∧ d.ddorb.isSome ∧ d.dclk.isSome ∧ d.ddclk.isSome ∧ d.dddclk.isSome)) :
    let n := nsatAt d.msgtype sys 1 0 b i
    let p := i + hdrW d.msgtype sys 1
    let w := combW d.msgtype sys
    let ent := fun {α : Type} (v : Nat → α) => entries d.msgtype sys b p w n v
    Exact b.length (p + w * n) (decodeCssrComb d b i) (fun r =>
      r.2 = p + w * n ∧ HeadAt d sys 1 [.orbit, .clock] [.orbit] b i r.1 ∧
      (let new := timediff r.1.time (d.t0s .orbit) > 0
       Upd new d.iode r.1.iode (ent fun q => bitsAt b q (issueW d.msgtype sys)) ∧
       Upd new d.dorb r.1.dorb (ent fun q => orbAt b (q + issueW d.msgtype sys)) ∧
       Upd new d.ddorb r.1.ddorb (ent fun q => velAt b (q + issueW d.msgtype sys + 62)) ∧
       Upd new d.dclk r.1.dclk (ent fun q => num (intAt b (q + issueW d.msgtype sys + 121) 22) 22 (1 / 10000)) ∧
       Upd new d.ddclk r.1.ddclk (ent fun q => num (intAt b (q + issueW d.msgtype sys + 121 + 22) 21) 21 (4 / 10000)) ∧
       Upd new d.dddclk r.1.dddclk (ent fun q => num (intAt b (q + issueW d.msgtype sys + 121 + 43) 27) 27 (4 / 1000000)) ∧
       r.1.satN = (if new then [] else d.satN) ++ (ent fun _ => ()).map (·.1) ∧
       r.1.sysN = (if new then [] else d.sysN) ++ List.replicate n sys ∧
       r.1.nsatN = (if new then 0 else d.nsatN) + n) ∧
      r.1 = { setHead d r.1 with iode := r.1.iode, dorb := r.1.dorb, ddorb := r.1.ddorb, dclk := r.1.dclk, ddclk := r.1.ddclk, dddclk := r.1.dddclk,
                                 satN := r.1.satN, sysN := r.1.sysN, nsatN := r.1.nsatN, dclkN := some n }) := by
  intro n p w ent
  unfold decodeCssrComb
  refine Exact.step hs (Exact.bind (head_spec d .combined sys b i) (Nat.le_add_right p (w * n)) ?_)
  rintro _ ⟨t, ht, rfl⟩ hl
  simp only
  by_cases hc : timediff t (d.t0s .orbit) > 0
  · have hc' : timediff (headDec d sys (datumW .combined) b i t).time ((headDec d sys (datumW .combined) b i t).t0s .orbit) > 0 := hc
    simp only [if_pos hc']
    refine Exact.bind (combined_loop sys b _ _ n rfl rfl rfl rfl rfl rfl hl) (Nat.le_refl _) ?_
    rintro _ ⟨x1, x2, x3, x4, x5, x6, rfl, f1, f2, f3, f4, f5, f6⟩ hl
    refine Exact.ret hl ⟨rfl, ?_, ?_, rfl⟩
    · exact ⟨ht, rfl, rfl, fun c => by simp [headDec, datumW], rfl, rfl, rfl, fun c => by simp [headDec, datumW], rfl, rfl,
        fun c => by simp [headDec, datumW]⟩
    · refine ⟨upd_of f1 (fun _ => rfl) (absurd hc), upd_of f2 (fun _ => rfl) (absurd hc), upd_of f3 (fun _ => rfl) (absurd hc), upd_of f4 (fun _ => rfl) (absurd hc), upd_of f5 (fun _ => rfl) (absurd hc), upd_of f6 (fun _ => rfl) (absurd hc), ?_, ?_, ?_⟩
      · exact (congrArg (· ++ _) (if_pos hc)).symm
      · exact (congrArg (· ++ _) (if_pos hc)).symm
      · exact (congrArg (· + _) (if_pos hc)).symm
  · have hc' : ¬ timediff (headDec d sys (datumW .combined) b i t).time ((headDec d sys (datumW .combined) b i t).t0s .orbit) > 0 := hc
    simp only [if_neg hc']
    rcases hr with ⟨a1, a2, a3, a4, a5, a6⟩ | hr
    · obtain ⟨m1, e1⟩ := Option.isSome_iff_exists.1 a1
      obtain ⟨m2, e2⟩ := Option.isSome_iff_exists.1 a2
      obtain ⟨m3, e3⟩ := Option.isSome_iff_exists.1 a3
      obtain ⟨m4, e4⟩ := Option.isSome_iff_exists.1 a4
      obtain ⟨m5, e5⟩ := Option.isSome_iff_exists.1 a5
      obtain ⟨m6, e6⟩ := Option.isSome_iff_exists.1 a6
      refine Exact.bind (combined_loop sys b _ _ n e1 e2 e3 e4 e5 e6 hl) (Nat.le_refl _) ?_
      rintro _ ⟨x1, x2, x3, x4, x5, x6, rfl, f1, f2, f3, f4, f5, f6⟩ hl
      refine Exact.ret hl ⟨rfl, ?_, ?_, rfl⟩
      · exact ⟨ht, rfl, rfl, fun c => by simp [headDec, datumW], rfl, rfl, rfl, fun c => by simp [headDec, datumW], rfl, rfl,
        fun c => by simp [headDec, datumW]⟩
      · refine ⟨upd_of f1 (fun h => absurd h hc) (fun _ => e1), upd_of f2 (fun h => absurd h hc) (fun _ => e2), upd_of f3 (fun h => absurd h hc) (fun _ => e3), upd_of f4 (fun h => absurd h hc) (fun _ => e4), upd_of f5 (fun h => absurd h hc) (fun _ => e5), upd_of f6 (fun h => absurd h hc) (fun _ => e6), ?_, ?_, ?_⟩
        · exact (congrArg (· ++ _) (if_neg hc)).symm
        · exact (congrArg (· ++ _) (if_neg hc)).symm
        · exact (congrArg (· + _) (if_neg hc)).symm
    · exact absurd (hr t ht) hc

/-! ## Accuracy -/

/-- length of an accuracy record -/
def uraW (mt : Nat) (sys : Sys) : Nat := satW mt sys + 6

theorem uraStep_spec (sys : Sys) (b : BitBuf) (d : Dec) (p : Nat) {m1 : Dict Int Val}
    (h1 : d.ura = some m1) :
    Exact b.length (p + uraW d.msgtype sys) (uraStep sys b (d, p)) (fun r => r =
      ({ d with ura := some (m1.set (satAt d.msgtype sys b p) (uraVal (bitsAt b (p + satW d.msgtype sys) 3) (bitsAt b ((p + satW d.msgtype sys) + 3) 3))) }, p + uraW d.msgtype sys)) := by
  unfold uraStep uraW
  simp only
  refine Exact.bind (sat_spec d.msgtype sys b p) (by omega) ?_
  rintro _ rfl -
  simp only
  refine Exact.bind Exact.u (by omega) fun c hc _ => ?_
  refine Exact.bind (Exact.u (i := p + satW d.msgtype sys + 3) (n := 3)) (by omega) fun v hv hl => ?_
  subst hc hv
  rw [h1, uraVal_eq]
  exact Exact.step rfl (Exact.ret (by omega) (Prod.ext rfl (by simp only; omega)))

theorem ura_loop (sys : Sys) (b : BitBuf) (d : Dec) (p n : Nat) {m1 : Dict Int Val}
    (h1 : d.ura = some m1) (hp : p ≤ b.length) :
    Exact b.length (p + uraW d.msgtype sys * n) (times n (uraStep sys b) (d, p)) (fun r => ∃ x1,
      r = ({ d with ura := some x1 },
        p + uraW d.msgtype sys * n) ∧
      Fill (Dict.get? m1) x1 (entries d.msgtype sys b p (uraW d.msgtype sys) n fun q => uraVal (bitsAt b q 3) (bitsAt b (q + 3) 3))) := by
  unfold times
  refine Exact.range (pos := fun n => p + uraW d.msgtype sys * n) (I := fun n r => ∃ x1,
      r = ({ d with ura := some x1 },
        p + uraW d.msgtype sys * n) ∧
      Fill (Dict.get? m1) x1 (entries d.msgtype sys b p (uraW d.msgtype sys) n fun q => uraVal (bitsAt b q 3) (bitsAt b (q + 3) 3)))
      (fun k => by rw [Nat.mul_succ]; omega) (by simpa using hp) ?_ ?_
  · refine ⟨m1, ?_, fill_nil⟩
    rw [← h1, Nat.mul_zero, Nat.add_zero]
  · rintro k _ _ ⟨x1, rfl, f1⟩ hl
    refine ((uraStep_spec sys b _ _ rfl).cast (by simp only; rw [Nat.mul_succ]; omega)).mono ?_
    rintro _ rfl
    refine ⟨_, ?_, entries_succ .. ▸ fill_set f1⟩
    refine Prod.ext ?_ (by simp only; rw [Nat.mul_succ]; omega)
    rfl

/-- **User range accuracy message.** -/
theorem ura {d : Dec} {sys : Sys} {b : BitBuf} {i : Nat} (hs : getSsrSys d.sysref d.msgtype = .ok sys)
    (hr : Ready d sys b i .ura (d.ura.isSome)) :
    let n := nsatAt d.msgtype sys 0 0 b i
    let p := i + hdrW d.msgtype sys 0
    let w := uraW d.msgtype sys
    let ent := fun {α : Type} (v : Nat → α) => entries d.msgtype sys b p w n v
    Exact b.length (p + w * n) (decodeCssrUra d b i) (fun r =>
      r.2 = p + w * n ∧ HeadAt d sys 0 [.ura] [.ura] b i r.1 ∧
      (let new := timediff r.1.time (d.t0s .ura) > 0
       Upd new d.ura r.1.ura (ent fun q => uraVal (bitsAt b q 3) (bitsAt b (q + 3) 3))) ∧
      r.1 = { setHead d r.1 with ura := r.1.ura }) := by
  intro n p w ent
  unfold decodeCssrUra
  refine Exact.step hs (Exact.bind (head_spec d .ura sys b i) (Nat.le_add_right p (w * n)) ?_)
  rintro _ ⟨t, ht, rfl⟩ hl
  simp only
  by_cases hc : timediff t (d.t0s .ura) > 0
  · have hc' : timediff (headDec d sys (datumW .ura) b i t).time ((headDec d sys (datumW .ura) b i t).t0s .ura) > 0 := hc
    simp only [if_pos hc']
    refine Exact.bind (ura_loop sys b _ _ n rfl hl) (Nat.le_refl _) ?_
    rintro _ ⟨x1, rfl, f1⟩ hl
    refine Exact.ret hl ⟨rfl, ?_, ?_, rfl⟩
    · exact ⟨ht, rfl, rfl, fun c => by simp [headDec, datumW], rfl, rfl, rfl, fun c => by simp [headDec, datumW], rfl, rfl,
        fun c => by simp [headDec, datumW]⟩
    · exact upd_of f1 (fun _ => rfl) (absurd hc)
  · have hc' : ¬ timediff (headDec d sys (datumW .ura) b i t).time ((headDec d sys (datumW .ura) b i t).t0s .ura) > 0 := hc
    simp only [if_neg hc']
    rcases hr with a1 | hr
    · obtain ⟨m1, e1⟩ := Option.isSome_iff_exists.1 a1
      refine Exact.bind (ura_loop sys b _ _ n e1 hl) (Nat.le_refl _) ?_
      rintro _ ⟨x1, rfl, f1⟩ hl
      refine Exact.ret hl ⟨rfl, ?_, ?_, rfl⟩
      · exact ⟨ht, rfl, rfl, fun c => by simp [headDec, datumW], rfl, rfl, rfl, fun c => by simp [headDec, datumW], rfl, rfl,
        fun c => by simp [headDec, datumW]⟩
      · exact upd_of f1 (fun h => absurd h hc) (fun _ => e1)
    · exact absurd (hr t ht) hc

/-! ## High-rate clock -/

/-- length of a high-rate clock record -/
def hclkW (mt : Nat) (sys : Sys) : Nat := satW mt sys + 22

theorem hclkSat_spec {N k : Nat} (b : BitBuf) (p : Nat) {o : Option Nat} (hN : o = some N) (hk : k < N) :
    Exact b.length (p + 22) (decodeHclkSat o k b p) (fun r => r = (p + 22, num (intAt b p 22) 22 (1 / 10000))) := by
  unfold decodeHclkSat
  refine Exact.bind Exact.s (Nat.le_refl _) fun x1 h1 hl => ?_
  subst h1 hN
  simp only [if_pos hk]
  exact Exact.ret hl rfl

theorem hclkStep_spec (sys : Sys) (b : BitBuf) (d : Dec) (p : Nat) (k : Nat) {m1 : Dict Int Val}
    (h1 : d.hclk = some m1) {N : Nat} (hN : d.dclkN = some N) (hk : k < N) :
    Exact b.length (p + hclkW d.msgtype sys) (hclkStep sys b (d, p) k) (fun r => r =
      ({ d with hclk := some (m1.set (satAt d.msgtype sys b p) (num (intAt b (p + satW d.msgtype sys) 22) 22 (1 / 10000))) }, p + hclkW d.msgtype sys)) := by
  unfold hclkStep hclkW
  simp only
  refine Exact.bind (sat_spec d.msgtype sys b p) (by omega) ?_
  rintro _ rfl -
  simp only
  refine Exact.bind (hclkSat_spec b _ hN hk) (by omega) ?_
  rintro _ rfl hl
  simp only
  rw [h1]
  exact Exact.step rfl (Exact.ret (by omega) (Prod.ext rfl (by simp only; omega)))

theorem hrclock_loop (sys : Sys) (b : BitBuf) (d : Dec) (p n : Nat) {m1 : Dict Int Val}
    (h1 : d.hclk = some m1) {N : Nat} (hN : d.dclkN = some N) (hn : n ≤ N) (hp : p ≤ b.length) :
    Exact b.length (p + hclkW d.msgtype sys * n) ((List.range n).foldlM (hclkStep sys b) (d, p)) (fun r => ∃ x1,
      r = ({ d with hclk := some x1 },
        p + hclkW d.msgtype sys * n) ∧
      Fill (Dict.get? m1) x1 (entries d.msgtype sys b p (hclkW d.msgtype sys) n fun q => num (intAt b q 22) 22 (1 / 10000))) := by
  skip
  refine Exact.range (pos := fun n => p + hclkW d.msgtype sys * n) (I := fun n r => ∃ x1,
      r = ({ d with hclk := some x1 },
        p + hclkW d.msgtype sys * n) ∧
      Fill (Dict.get? m1) x1 (entries d.msgtype sys b p (hclkW d.msgtype sys) n fun q => num (intAt b q 22) 22 (1 / 10000)))
      (fun k => by rw [Nat.mul_succ]; omega) (by simpa using hp) ?_ ?_
  · refine ⟨m1, ?_, fill_nil⟩
    rw [← h1, Nat.mul_zero, Nat.add_zero]
  · rintro k _ hk ⟨x1, rfl, f1⟩ hl
    refine ((hclkStep_spec sys b _ _ k rfl (by exact hN) (by omega)).cast (by simp only; rw [Nat.mul_succ]; omega)).mono ?_
    rintro _ rfl
    refine ⟨_, ?_, entries_succ .. ▸ fill_set f1⟩
    refine Prod.ext ?_ (by simp only; rw [Nat.mul_succ]; omega)
    rfl

/-- **High-rate clock message: it must not hold more satellites than the last clock message.** -/
theorem hrclock {d : Dec} {sys : Sys} {b : BitBuf} {i : Nat} (hs : getSsrSys d.sysref d.msgtype = .ok sys)
    (hr : Ready d sys b i .hclock (d.hclk.isSome)) {N : Nat} (hN : d.dclkN = some N) (hn : nsatAt d.msgtype sys 0 0 b i ≤ N) :
    let n := nsatAt d.msgtype sys 0 0 b i
    let p := i + hdrW d.msgtype sys 0
    let w := hclkW d.msgtype sys
    let ent := fun {α : Type} (v : Nat → α) => entries d.msgtype sys b p w n v
    Exact b.length (p + w * n) (decodeCssrHclk d b i) (fun r =>
      r.2 = p + w * n ∧ HeadAt d sys 0 [.hclock] [.hclock] b i r.1 ∧
      (let new := timediff r.1.time (d.t0s .hclock) > 0
       Upd new d.hclk r.1.hclk (ent fun q => num (intAt b q 22) 22 (1 / 10000))) ∧
      r.1 = { setHead d r.1 with hclk := r.1.hclk }) := by
  intro n p w ent
  unfold decodeCssrHclk
  refine Exact.step hs (Exact.bind (head_spec d .clock sys b i) (Nat.le_add_right p (w * n)) ?_)
  rintro _ ⟨t, ht, rfl⟩ hl
  simp only
  by_cases hc : timediff t (d.t0s .hclock) > 0
  · have hc' : timediff (headDec d sys (datumW .clock) b i t).time ((headDec d sys (datumW .clock) b i t).t0s .hclock) > 0 := hc
    simp only [if_pos hc']
    refine Exact.bind (hrclock_loop sys b _ _ n rfl hN hn hl) (Nat.le_refl _) ?_
    rintro _ ⟨x1, rfl, f1⟩ hl
    refine Exact.ret hl ⟨rfl, ?_, ?_, rfl⟩
    · exact ⟨ht, rfl, rfl, fun c => by simp [headDec, datumW], rfl, rfl, rfl, fun c => by simp [headDec, datumW], rfl, rfl,
        fun c => by simp [headDec, datumW]⟩
    · exact upd_of f1 (fun _ => rfl) (absurd hc)
  · have hc' : ¬ timediff (headDec d sys (datumW .clock) b i t).time ((headDec d sys (datumW .clock) b i t).t0s .hclock) > 0 := hc
    simp only [if_neg hc']
    rcases hr with a1 | hr
    · obtain ⟨m1, e1⟩ := Option.isSome_iff_exists.1 a1
      refine Exact.bind (hrclock_loop sys b _ _ n e1 hN hn hl) (Nat.le_refl _) ?_
      rintro _ ⟨x1, rfl, f1⟩ hl
      refine Exact.ret hl ⟨rfl, ?_, ?_, rfl⟩
      · exact ⟨ht, rfl, rfl, fun c => by simp [headDec, datumW], rfl, rfl, rfl, fun c => by simp [headDec, datumW], rfl, rfl,
        fun c => by simp [headDec, datumW]⟩
      · exact upd_of f1 (fun h => absurd h hc) (fun _ => e1)
    · exact absurd (hr t ht) hc

/-- a high-rate clock message with more satellites than the last clock message (or before any) ends in an exception at
the first record too many -/
theorem hrclock_fails {d : Dec} {sys : Sys} {b : BitBuf} {i : Nat} (hs : getSsrSys d.sysref d.msgtype = .ok sys)
    (hr : Ready d sys b i .hclock d.hclk.isSome) (hn : d.dclkN.getD 0 < nsatAt d.msgtype sys 0 0 b i)
    (hl : i + hdrW d.msgtype sys 0 + hclkW d.msgtype sys * (d.dclkN.getD 0 + 1) ≤ b.length) :
    decodeCssrHclk d b i = .error (if d.dclkN = none then .attributeError else .indexError) := by
  unfold decodeCssrHclk
  obtain ⟨_, hh, t, ht, rfl⟩ := (head_spec d .clock sys b i).ok (by
    have : datumW .clock = 0 := rfl
    rw [this]; omega)
  rw [hs, Py.okBind, hh, Py.okBind]
  simp only
  have key : ∀ (D : Dec) (m : Dict Int Val), D.hclk = some m → D.dclkN = d.dclkN → D.msgtype = d.msgtype →
      ∀ g : Dec × Nat → Py (Dec × Nat),
      ((List.range (nsatAt d.msgtype sys 0 0 b i)).foldlM (hclkStep sys b) (D, i + hdrW d.msgtype sys 0) >>= g) =
      .error (if d.dclkN = none then .attributeError else .indexError) := by
    intro D m hm hN hmt g
    obtain ⟨r, hr⟩ : ∃ r, nsatAt d.msgtype sys 0 0 b i = d.dclkN.getD 0 + 1 + r := ⟨_, (Nat.add_sub_of_le hn).symm⟩
    rw [hr, List.range_add, List.range_succ, List.append_assoc, List.foldlM_append]
    have h0 : (List.range (d.dclkN.getD 0)).foldlM (hclkStep sys b) (D, i + hdrW d.msgtype sys 0) = .ok
        (D, i + hdrW d.msgtype sys 0) ∧ d.dclkN = none ∨ ∃ N E, d.dclkN = some N ∧ E.dclkN = d.dclkN ∧ E.msgtype = d.msgtype ∧
        (List.range (d.dclkN.getD 0)).foldlM (hclkStep sys b) (D, i + hdrW d.msgtype sys 0) =
          .ok (E, i + hdrW d.msgtype sys 0 + hclkW d.msgtype sys * N) := by
      cases hd : d.dclkN with
      | none => exact Or.inl ⟨rfl, rfl⟩
      | some N =>
        right
        rw [hd] at hl
        obtain ⟨_, e, x, rfl, -⟩ := (hrclock_loop sys b D (i + hdrW d.msgtype sys 0) N hm (hN.trans hd) (Nat.le_refl _)
          (by omega)).ok (by
            rw [hmt]
            simp only [Option.getD_some, Nat.mul_succ] at hl
            omega)
        rw [hmt] at e
        refine ⟨N, _, rfl, ?_, ?_, e⟩
        · exact hN.trans hd
        · rfl
    have h1 : ∀ (E : Dec) (q k : Nat), E.msgtype = d.msgtype → q + hclkW d.msgtype sys ≤ b.length →
        hclkStep sys b (E, q) k = match E.dclkN with
          | none => .error .attributeError
          | some n => if k < n then hclkStep sys b (E, q) k else .error .indexError := by
      intro E q k hE hq
      unfold hclkW at hq
      cases hd : E.dclkN with
      | none =>
        unfold hclkStep
        simp only
        obtain ⟨_, e, rfl⟩ := (sat_spec E.msgtype sys b q).ok (by rw [hE]; omega)
        rw [e, Py.okBind]
        simp only
        unfold decodeHclkSat
        rw [readS_at (b := b) (k := q + satW E.msgtype sys) (n := 22) (by rw [hE]; omega), hd]
        rfl
      | some n =>
        by_cases hk : k < n
        · simp only [if_pos hk]
        · simp only [if_neg hk]
          unfold hclkStep
          simp only
          obtain ⟨_, e, rfl⟩ := (sat_spec E.msgtype sys b q).ok (by rw [hE]; omega)
          rw [e, Py.okBind]
          simp only
          unfold decodeHclkSat
          rw [readS_at (b := b) (k := q + satW E.msgtype sys) (n := 22) (by rw [hE]; omega), hd]
          simp only [Py.okBind, if_neg hk]
          rfl
    rcases h0 with ⟨h0, hd⟩ | ⟨N, E, hd, hE, hEm, h0⟩
    · rw [h0, Py.okBind, List.singleton_append, List.foldlM_cons, h1 _ _ _ hmt (by rw [hd] at hl; simpa using hl), hN, hd]
      rfl
    · rw [h0, Py.okBind, List.singleton_append, List.foldlM_cons, h1 E _ _ hEm (by
        rw [hd] at hl
        simp only [Option.getD_some, Nat.mul_succ] at hl
        omega)]
      simp only [hE, hd, Option.getD_some, Nat.lt_irrefl, if_false]
      rfl
  by_cases hc : timediff t (d.t0s .hclock) > 0
  · have hc' : timediff (headDec d sys (datumW .clock) b i t).time ((headDec d sys (datumW .clock) b i t).t0s .hclock) > 0 := hc
    simp only [if_pos hc']
    refine key _ [] ?_ ?_ ?_ _ <;> rfl
  · have hc' : ¬ timediff (headDec d sys (datumW .clock) b i t).time ((headDec d sys (datumW .clock) b i t).t0s .hclock) > 0 := hc
    simp only [if_neg hc']
    rcases hr with a | hr
    · obtain ⟨m, e⟩ := Option.isSome_iff_exists.1 a
      refine key _ m ?_ ?_ ?_ _
      · exact e
      · rfl
      · rfl
    · exact absurd (hr t ht) hc

/-! ## Which message is which -/

/-- the SSR messages of RTCM: number, constellation, kind.  Number 63, the BeiDou orbit message of the test series, is
missing: it is taken for an ephemeris -/
def numbers : List (Nat × Sys × SC) :=
  [(1057, .gps), (1063, .glo), (1240, .gal), (1246, .qzs), (1252, .sbs), (1258, .bds)].flatMap (fun p =>
    [(p.1, p.2, .orbit), (p.1 + 1, p.2, .clock), (p.1 + 2, p.2, .cbias), (p.1 + 3, p.2, .oc), (p.1 + 4, p.2, .ura),
     (p.1 + 5, p.2, .hclock)]) ++
  [(1265, .gps, .pbias), (1266, .glo, .pbias), (1267, .gal, .pbias), (1268, .qzs, .pbias), (1269, .sbs, .pbias),
   (1270, .bds, .pbias)] ++
  [(41, .glo, .orbit), (42, .glo, .clock), (43, .glo, .cbias), (44, .glo, .oc), (45, .glo, .ura), (46, .glo, .hclock),
   (62, .gal, .orbit), (64, .qzs, .orbit),
   (65, .gal, .clock), (66, .bds, .clock), (67, .qzs, .clock),
   (68, .gal, .cbias), (69, .bds, .cbias), (70, .qzs, .cbias),
   (71, .gal, .oc), (72, .bds, .oc), (73, .qzs, .oc),
   (74, .gal, .ura), (75, .bds, .ura), (76, .qzs, .ura),
   (77, .gal, .hclock), (78, .bds, .hclock), (79, .qzs, .hclock),
   (85, .gps, .pbias), (86, .glo, .pbias), (87, .gal, .pbias), (88, .bds, .pbias), (89, .qzs, .pbias)]

/-- the numbers of the test series have the second layout of phase bias messages -/
def formOf (m : Nat) : Form := if m ∈ [85, 86, 87, 88, 89] then .phase2 else .phase

/-- the branch of the dispatcher for a kind -/
def branch : SC → Option Kind
  | .orbit => some .orb | .clock => some .clk | .oc => some .comb | .ura => some .ura | .hclock => some .hclk
  | .cbias => some .cbias | .pbias => some .pbias | _ => none

theorem numbers_ok : ∀ x ∈ numbers, decKind x.1 = branch x.2.2 ∧ branch x.2.2 ≠ none ∧
    getSsrSys .none x.1 = .ok x.2.1 ∧ x.1 ≠ 4076 ∧ ((if x.1 < 90 then Form.phase2 else .phase) = formOf x.1 ∨ x.2.2 ≠ .pbias) := by
  decide +kernel

theorem getSsrSys_ref (r : Sys) {m : Nat} (h : m ≠ 4076) : getSsrSys r m = getSsrSys .none m := by
  unfold getSsrSys
  rw [if_neg h, if_neg h]

/-- **RTCM numbers.** -/
theorem dispatch {m : Nat} {sys : Sys} {c : SC} (h : (m, sys, c) ∈ numbers) (d : Dec) (q : Bias) {b : BitBuf}
    (hb : 36 ≤ b.length) (hm : bitsAt b 24 12 = m) :
    RtcmBias.decode false d q b = ssrKind (formOf m) c { d with msgtype := m } q b 36 ∧
    ∀ r, getSsrSys r m = .ok sys := by
  obtain ⟨h1, h2, h3, h4, h5⟩ := numbers_ok _ h
  simp only at h1 h2 h3 h4 h5
  refine ⟨?_, fun r => (getSsrSys_ref r h4).trans h3⟩
  unfold RtcmBias.decode
  rw [readU_at (b := b) (k := 24) (n := 12) hb, hm, Py.okBind]
  simp only
  rw [h1]
  cases c
  case pbias => 
    have := h5.resolve_right (by simp)
    simp only [branch]
    rw [this]
    rfl
  all_goals first | exact absurd rfl h2 | rfl

/-- phase bias messages are passed over on request -/
theorem skipped {m : Nat} {sys : Sys} (h : (m, sys, .pbias) ∈ numbers) (d : Dec) (q : Bias) {b : BitBuf}
    (hb : 36 ≤ b.length) (hm : bitsAt b 24 12 = m) :
    RtcmBias.decode true d q b = .ok (some ({ d with msgtype := m }, q, 36)) := by
  obtain ⟨h1, -⟩ := numbers_ok _ h
  unfold RtcmBias.decode
  rw [readU_at (b := b) (k := 24) (n := 12) hb, hm, Py.okBind]
  simp only
  rw [h1]
  rfl

/-- constellations and kinds of IGS SSR: tens and ones of the sub-type -/
def igsSys : List (Nat × Sys) := [(2, .gps), (4, .glo), (6, .gal), (8, .qzs), (10, .bds), (12, .sbs)]
def igsSC : List (Nat × SC) :=
  [(1, .orbit), (2, .clock), (3, .oc), (4, .hclock), (5, .cbias), (6, .pbias), (7, .ura)]

theorem igs_ok : ∀ x ∈ igsSys, ∀ y ∈ igsSC, ∀ r : Sys, igsKind (10 * x.1 + y.1) r = .ok (x.2, some y.2) ∧
    10 * x.1 + y.1 ≠ 201 := by
  intro x hx y hy r
  have : ∀ x ∈ igsSys, ∀ y ∈ igsSC, igsKind (10 * x.1 + y.1) .none = .ok (x.2, some y.2) ∧ 10 * x.1 + y.1 ≠ 201 := by
    decide +kernel
  obtain ⟨h1, h2⟩ := this x hx y hy
  refine ⟨?_, h2⟩
  rw [← h1]
  unfold igsKind
  rw [if_neg h2, if_neg h2]

/-- **IGS SSR sub-types.** -/
theorem igs {g k : Nat} {sys : Sys} {c : SC} (hg : (g, sys) ∈ igsSys) (hk : (k, c) ∈ igsSC) (skip : Bool) (d : Dec)
    (q : Bias) {b : BitBuf} (hb : 47 ≤ b.length) (hm : bitsAt b 24 12 = 4076) (ht : bitsAt b 39 8 = 10 * g + k) :
    RtcmBias.decode skip d q b = ssrKind .phase c { d with msgtype := 4076, sysref := sys } q b 47 ∧
    getSsrSys sys 4076 = .ok sys := by
  obtain ⟨h1, h2⟩ := igs_ok _ hg _ hk d.sysref
  simp only at h1 h2
  refine ⟨?_, by unfold getSsrSys; rw [if_pos rfl]⟩
  unfold RtcmBias.decode
  rw [readU_at (b := b) (k := 24) (n := 12) (by omega), hm, Py.okBind]
  have : decKind 4076 = some .igsssr := by decide +kernel
  simp only [this]
  unfold decodeIgs
  rw [readU_at (b := b) (k := 36) (n := 3) (by omega), Py.okBind,
    readU_at (b := b) (k := 36 + 3) (n := 8) (by omega), Py.okBind, ht]
  simp only [if_neg h2]
  rw [h1, Py.okBind]

/-- **Methods.** -/
theorem methods (f : Form) (d : Dec) (q : Bias) (b : BitBuf) (i : Nat) :
    let plain := fun x : Py (Dec × Nat) => x.map fun r => some (r.1, q, r.2)
    ssrKind f .orbit d q b i = plain (decodeCssrOrb d b i) ∧ ssrKind f .clock d q b i = plain (decodeCssrClk d b i) ∧
    ssrKind f .oc d q b i = plain (decodeCssrComb d b i) ∧ ssrKind f .ura d q b i = plain (decodeCssrUra d b i) ∧
    ssrKind f .hclock d q b i = plain (decodeCssrHclk d b i) ∧
    ssrKind f .cbias d q b i = (decodeCbias d q b i).map some ∧
    ssrKind f .pbias d q b i = (decodePbias f d q b i).map some := by
  have h : ∀ x : Py (Dec × Nat), lift q x = x.map fun r => some (r.1, q, r.2) := by
    intro x; cases x <;> rfl
  exact ⟨h _, h _, h _, h _, h _, rfl, rfl⟩

/-! ## A message: IGS SSR clock of GPS satellite 5, and again with another value -/

def sample : BitBuf := List.replicate 24 false ++ natToBits 12 4076 ++ natToBits 3 1 ++ natToBits 8 22 ++ natToBits 20 345600 ++
  natToBits 4 2 ++ natToBits 1 0 ++ natToBits 4 3 ++ natToBits 16 7 ++ natToBits 4 1 ++ natToBits 6 2 ++
  (natToBits 6 5 ++ natToBits 22 1234 ++ natToBits 21 0 ++ natToBits 27 0) ++
  (natToBits 6 5 ++ natToBits 22 (2 ^ 22 - 10) ++ natToBits 21 (2 ^ 20) ++ natToBits 27 1)

example : (2, Sys.gps) ∈ igsSys ∧ (2, SC.clock) ∈ igsSC ∧ bitsAt sample 24 12 = 4076 ∧ bitsAt sample 39 8 = 10 * 2 + 2 ∧
    sample.length = 254 := by decide +kernel

/-- a new decoder with the week set is ready for the message -/
example : Ready { msgtype := 4076, sysref := .gps, week := 2300 } .gps sample 47 .clock False := by
  right
  intro t ht
  have := ht.1 (by decide)
  have hb : bitsAt sample 47 20 = 345600 := by decide +kernel
  rw [hb] at this
  change timediff t ⟨0, 0⟩ > 0
  rw [this]
  norm_num

example : nsatAt 4076 .gps 0 0 sample 47 = 2 ∧ hdrW 4076 .gps 0 = 55 ∧
    (entries 4076 .gps sample 102 (clkW 4076 .gps) 2 fun q => intAt sample q 22) = [(5, 1234), (5, -10)] ∧
    lastVal (entries 4076 .gps sample 102 (clkW 4076 .gps) 2 fun q => intAt sample q 22) 5 = some (-10) := by
  decide +kernel

end Verif.C67
