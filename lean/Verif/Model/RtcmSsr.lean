import Verif.Model.RtcmTypes
import Verif.Model.Sval
import Verif.Model.Time
/-!
Model of the RTCM SSR orbit, clock, high-rate clock and URA messages: encoder (class `rtcme`) and
decoder (class `rtcm`) of `src/cssrlib/rtcm.py`.

A byte buffer is its list of bits.  Only network 0 (`inet=0`, the only one used) is modelled; the
per-satellite reference times (`set_t0`), `cstat` and the log file are left out.  Values are exact
rationals, NaN is `none`.
-/

namespace Verif.RtcmSsr
open Verif.Sat Verif.Time Verif.Sval Verif.RtcmTypes

/-- buffer and bit position -/
abbrev Pos := BitBuf × Nat

/-- `bs.pack_into('uN', msg, i, v); i += N` -/
def putU (p : Pos) (n : Nat) (v : Int) : Py Pos :=
  if v < 0 then .error .bitstruct
  else match writeU p.1 p.2 n v.toNat with
    | .ok b => .ok (b, p.2 + n)
    | .error e => .error e

/-- `bs.pack_into('sN', msg, i, v); i += N` -/
def putS (p : Pos) (n : Nat) (v : Int) : Py Pos :=
  match writeS p.1 p.2 n v with
  | .ok b => .ok (b, p.2 + n)
  | .error e => .error e

abbrev Vec := Val × Val × Val

/-! ## Encoder -/

/-- attributes of the encoder that the modelled methods read -/
structure Enc where
  msgtype : Nat
  tow : Int := 0
  udi : SC → Int := fun _ => 0
  mi : Bool := false
  datum : Int := 0
  iodssr : Int := 0
  pid : Int := 0
  sid : Int := 0
  satN : List Int := []
  /-- `lc[0].iode` etc.; `None` entries are `none` -/
  iode : Dict Int Int := []
  dorb : Dict Int Vec := []
  ddorb : Option (Dict Int Vec) := none
  dclk : Dict Int Val := []
  ddclk : Option (Dict Int Val) := none
  dddclk : Dict Int Val := []
  hclk : Option (Dict Int Val) := none
  ura : Dict Int Val := []

/-- message sub-types whose header is modelled -/
inductive Sub where
  | orbit | clock | combined | ura
  deriving DecidableEq

/-- `rtcmUtil.sc_t`: rtcm.py lines 315-323 -/
def Sub.sc : Sub → SC
  | .orbit => .orbit | .clock => .clock | .combined => .oc | .ura => .ura

/-- the satellites of one constellation (rtcm.py lines 4545-4549, 4642-4645) -/
def own (sys : Sys) (l : List Int) : List Int := l.filter fun s => (sat2prn s).1 = sys

/-- `encode_head(msg, i, sys)`: rtcm.py lines 4511-4554, for the sub-types of `Sub` -/
def encodeHead (e : Enc) (sub : Sub) (sys : Sys) (p : Pos) : Py Pos := do
  let p ← putU p (if e.msgtype = 4076 ∨ sys ≠ .glo then 20 else 17) e.tow
  let p ← putU p 4 (e.udi sub.sc)
  let p ← putU p 1 e.mi.toNat
  let p ← if sub = .orbit ∨ sub = .combined then putU p 1 e.datum else .ok p
  let p ← putU p 4 e.iodssr
  let p ← putU p 16 e.pid
  let p ← putU p 4 e.sid
  putU p 6 (own sys e.satN).length

/-- `encode_sat(msg, i, sat)`: rtcm.py lines 4556-4574 -/
def encodeSat (e : Enc) (sat : Int) (p : Pos) : Py Pos :=
  let (sys, prn) := sat2prn sat
  if e.msgtype = 4076 then putU p 6 prn
  else if sys = .qzs then putU p 4 (prn - 192)
  else putU p 6 prn

/-- number of bits of the issue of data: rtcm.py lines 1056-1064 and 4580-4588 -/
def iodeLen (msgtype : Nat) (sys : Sys) : Nat :=
  if msgtype = 4076 then 8 else if sys = .gal then 10 else if sys = .sbs then 24 else 8

/-- rtcm.py lines 4599-4604 -/
def ddorbOf (e : Enc) (sat : Int) : Py Vec :=
  match e.ddorb with
  | none => .ok (some 0, some 0, some 0)
  | some d => Dict.getItem d sat

/-- `encode_orb_sat(msg, i, sat)`: rtcm.py lines 4576-4609 -/
def encodeOrbSat (e : Enc) (sat : Int) (p : Pos) : Py Pos := do
  let iode ← Dict.getItem e.iode sat
  let p ← putU p (iodeLen e.msgtype (sat2prn sat).1) iode
  let d ← Dict.getItem e.dorb sat
  let p ← putS p 22 (ival d.1 22 (1 / 10000))
  let p ← putS p 20 (ival d.2.1 20 (4 / 10000))
  let p ← putS p 20 (ival d.2.2 20 (4 / 10000))
  let d ← ddorbOf e sat
  let p ← putS p 21 (ival d.1 21 (1 / 1000000))
  let p ← putS p 19 (ival d.2.1 19 (4 / 1000000))
  putS p 19 (ival d.2.2 19 (4 / 1000000))

/-- rtcm.py lines 4616-4620 -/
def ddclkOf (e : Enc) (sat : Int) : Py (Val × Val) :=
  match e.ddclk with
  | none => .ok (some 0, some 0)
  | some d => do
    let a ← Dict.getItem d sat
    let b ← Dict.getItem e.dddclk sat
    pure (a, b)

/-- `encode_clk_sat(msg, i, sat)`: rtcm.py lines 4611-4624 -/
def encodeClkSat (e : Enc) (sat : Int) (p : Pos) : Py Pos := do
  let c ← Dict.getItem e.dclk sat
  let d ← ddclkOf e sat
  let p ← putS p 22 (ival c 22 (1 / 10000))
  let p ← putS p 21 (ival d.1 21 (4 / 10000))
  putS p 27 (ival d.2 27 (4 / 1000000))

/-- `encode_hclk_sat(msg, i, sat)`: rtcm.py lines 4626-4635 -/
def encodeHclkSat (e : Enc) (sat : Int) (p : Pos) : Py Pos := do
  let c ← match e.hclk with
    | none => .ok (some 0)
    | some d => Dict.getItem d sat
  putS p 22 (ival c 22 (1 / 10000))

/-- the loop `for sat in …: …` over the satellites of one constellation -/
def encodeLoop (f : Int → Pos → Py Pos) (l : List Int) (p : Pos) : Py Pos :=
  l.foldlM (fun p s => f s p) p

/-- `get_ssr_sys` on the encoder, which has no attribute `sysref` -/
def encSys (e : Enc) : Py Sys :=
  if e.msgtype = 4076 then .error .attributeError else getSsrSys .none e.msgtype

/-- `encode_cssr_orb`: rtcm.py lines 4637-4649 -/
def encodeCssrOrb (e : Enc) (p : Pos) : Py Pos := do
  let sys ← encSys e
  let p ← encodeHead e .orbit sys p
  encodeLoop (fun s p => do encodeOrbSat e s (← encodeSat e s p)) (own sys e.satN) p

/-- `encode_cssr_clk`: rtcm.py lines 4651-4663 -/
def encodeCssrClk (e : Enc) (p : Pos) : Py Pos := do
  let sys ← encSys e
  let p ← encodeHead e .clock sys p
  encodeLoop (fun s p => do encodeClkSat e s (← encodeSat e s p)) (own sys e.satN) p

/-- one URA record: rtcm.py lines 4674-4681; `qi` stands for `quality2qi` (logarithms) -/
def encodeUraSat (qi : ℚ → Int × Int) (e : Enc) (s : Int) (p : Pos) : Py Pos := do
  let p ← encodeSat e s p
  let y ← Dict.getItem e.ura s
  let c := match y with
    | none => (0, 0)
    | some y => qi y
  let p ← putU p 3 c.1
  putU p 3 c.2

/-- `encode_cssr_ura`: rtcm.py lines 4665-4683: the satellites are the keys of the dictionary -/
def encodeCssrUra (qi : ℚ → Int × Int) (e : Enc) (p : Pos) : Py Pos := do
  let sys ← encSys e
  let p ← encodeHead e .ura sys p
  encodeLoop (encodeUraSat qi e) (own sys (e.ura.map (·.1))) p

/-- `rtcme.encode(msg)` for the modelled messages: rtcm.py lines 4919-4951.  The methods for the
combined and the high-rate clock message do not exist. -/
def encode (qi : ℚ → Int × Int) (e : Enc) (b : BitBuf) : Py Pos := do
  let p ← putU (b, 24) 12 e.msgtype
  match encKind e.msgtype with
  | some .orb => encodeCssrOrb e p
  | some .clk => encodeCssrClk e p
  | some .ura => encodeCssrUra qi e p
  | some .comb => .error .attributeError
  | some .hclk => .error .attributeError
  | _ => .ok p

/-! ## Decoder -/

structure Dec where
  msgtype : Nat := 4073
  sysref : Sys := .none
  week : Int := -1
  workaround : Bool := false
  time : GTime := ⟨0, 0⟩
  tow : Nat := 0
  tod : Nat := 0
  udi : SC → Nat := fun _ => 0
  mi : Bool := false
  datum : Nat := 0
  iodssr : Int := -1
  pid : Nat := 0
  sid : Nat := 0
  satN : List Int := []
  sysN : List Sys := []
  nsatN : Nat := 0
  iode : Option (Dict Int Nat) := none
  dorb : Option (Dict Int Vec) := none
  ddorb : Option (Dict Int Vec) := none
  dclk : Option (Dict Int Val) := none
  ddclk : Option (Dict Int Val) := none
  dddclk : Option (Dict Int Val) := none
  hclk : Option (Dict Int Val) := none
  ura : Option (Dict Int Val) := none
  /-- length of the array attribute `dclk_n`, which the constructor does not create -/
  dclkN : Option Nat := none
  t0s : SC → GTime := fun _ => ⟨0, 0⟩
  iodssrC : SC → Int := fun _ => -1

/-- `d[k] = v` where `d` may be `None` -/
def setOpt {α : Type} (d : Option (Dict Int α)) (k : Int) (v : α) : Py (Option (Dict Int α)) :=
  match d with
  | none => .error .typeError
  | some d => .ok (some (d.set k v))

structure Head where
  udi : Nat
  mi : Bool
  iodssr : Nat
  nsat : Nat
  deriving DecidableEq

/-- the time part of `decode_head`: rtcm.py lines 990-1000 -/
def decodeHeadTime (d : Dec) (sys : Sys) (b : BitBuf) (i : Nat) : Py (Dec × Nat) := do
  if sys = .glo ∧ d.msgtype ≠ 4076 then
    let tod ← readU b i 17
    let t := utc2gpst (glo2time d.time tod)
    pure ({ d with tod := tod, time := if d.workaround then timeadd t (-36) else t }, i + 17)
  else
    let tow ← readU b i 20
    pure ({ d with tow := tow, time := gpst2time d.week tow }, i + 20)

/-- `decode_head(msg, i, sys)`: rtcm.py lines 987-1034, for the sub-types of `Sub` -/
def decodeHead (d : Dec) (sub : Sub) (sys : Sys) (b : BitBuf) (i : Nat) : Py (Dec × Head × Nat) := do
  let (d, i) ← decodeHeadTime d sys b i
  let udi ← readU b i 4
  let mi ← readU b (i + 4) 1
  let i := i + 5
  let (d, i) ← if sub = .orbit ∨ sub = .combined then do
      let dt ← readU b i 1
      pure ({ d with datum := dt }, i + 1)
    else pure (d, i)
  let iodssr ← readU b i 4
  let pid ← readU b (i + 4) 16
  let sid ← readU b (i + 20) 4
  let nsat ← readU b (i + 24) 6
  pure ({ d with pid := pid, sid := sid }, ⟨udi, mi == 1, iodssr, nsat⟩, i + 30)

/-- `svid2sat(sys, svid)`: rtcm.py lines 788-795 -/
def svid2sat (sys : Sys) (svid : Int) : Int :=
  let prn := if sys = .qzs then svid + 192 else if sys = .sbs then svid + 119 else svid
  prn2sat sys prn

/-- `decode_sat(msg, i, sys)`: rtcm.py lines 1036-1052 -/
def decodeSat (msgtype : Nat) (sys : Sys) (b : BitBuf) (i : Nat) : Py (Nat × Int) := do
  let blen := if msgtype = 4076 then 6 else if sys = .glo then 5 else if sys = .qzs then 4 else 6
  let svid ← readU b i blen
  pure (i + blen, svid2sat sys svid)

/-- `decode_orb_sat(msg, i, k, sys)`: rtcm.py lines 1054-1079; the values stored at index `k` -/
def decodeOrbSat (msgtype : Nat) (sys : Sys) (b : BitBuf) (i : Nat) : Py (Nat × Nat × Vec × Vec) := do
  let iode ← readU b i (iodeLen msgtype sys)
  let i := i + iodeLen msgtype sys
  let dx ← readS b i 22
  let dy ← readS b (i + 22) 20
  let dz ← readS b (i + 42) 20
  let ddx ← readS b (i + 62) 21
  let ddy ← readS b (i + 83) 19
  let ddz ← readS b (i + 102) 19
  pure (i + 121, iode,
    (sval dx 22 (1 / 10000), sval dy 20 (4 / 10000), sval dz 20 (4 / 10000)),
    (sval ddx 21 (1 / 1000000), sval ddy 19 (4 / 1000000), sval ddz 19 (4 / 1000000)))

/-- `decode_clk_sat(msg, i, k)`: rtcm.py lines 1081-1088 -/
def decodeClkSat (b : BitBuf) (i : Nat) : Py (Nat × Vec) := do
  let a ← readS b i 22
  let c ← readS b (i + 22) 21
  let e ← readS b (i + 43) 27
  pure (i + 70, sval a 22 (1 / 10000), sval c 21 (4 / 10000), sval e 27 (4 / 1000000))

/-- `decode_hclk_sat(msg, i, k)`: rtcm.py lines 1090-1095: writes into the array left by the last
clock message -/
def decodeHclkSat (dclkN : Option Nat) (k : Nat) (b : BitBuf) (i : Nat) : Py (Nat × Val) := do
  let a ← readS b i 22
  match dclkN with
  | none => .error .attributeError
  | some n => if k < n then .ok (i + 22, sval a 22 (1 / 10000)) else .error .indexError

/-- body of the satellite loop of `decode_cssr_orb`: rtcm.py lines 1119-1127 -/
def orbStep (sys : Sys) (b : BitBuf) (s : Dec × Nat) : Py (Dec × Nat) := do
  let (d, i) := s
  let (i, sat) ← decodeSat d.msgtype sys b i
  let (i, iode, o, v) ← decodeOrbSat d.msgtype sys b i
  let m1 ← setOpt d.iode sat iode
  let m2 ← setOpt d.dorb sat o
  let m3 ← setOpt d.ddorb sat v
  pure ({ d with iode := m1, dorb := m2, ddorb := m3, satN := d.satN ++ [sat] }, i)

/-- `for k in range(n)` -/
def times (n : Nat) (f : Dec × Nat → Py (Dec × Nat)) (s : Dec × Nat) : Py (Dec × Nat) :=
  (List.range n).foldlM (fun s _ => f s) s

/-- `decode_cssr_orb(msg, i)`: rtcm.py lines 1097-1136.  (`sat_n` is extended once at the end by
the satellites of the message; the model appends them one by one.) -/
def decodeCssrOrb (d : Dec) (b : BitBuf) (i : Nat) : Py (Dec × Nat) := do
  let sys ← getSsrSys d.sysref d.msgtype
  let (d, v, i) ← decodeHead d .orbit sys b i
  let d := if timediff d.time (d.t0s .orbit) > 0 then
      { d with nsatN := 0, sysN := [], satN := [], iode := some [], dorb := some [], ddorb := some [] }
    else d
  let d := { d with
    iodssr := v.iodssr
    udi := fun c => if c = .orbit then v.udi else d.udi c
    mi := v.mi }
  let (d, i) ← times v.nsat (orbStep sys b) (d, i)
  pure ({ d with
    nsatN := d.nsatN + v.nsat
    sysN := d.sysN ++ List.replicate v.nsat sys
    iodssrC := fun c => if c = .orbit then v.iodssr else d.iodssrC c
    t0s := fun c => if c = .orbit then d.time else d.t0s c }, i)

/-- body of the satellite loop of `decode_cssr_clk`: rtcm.py lines 1159-1166 -/
def clkStep (sys : Sys) (b : BitBuf) (s : Dec × Nat) : Py (Dec × Nat) := do
  let (d, i) := s
  let (i, sat) ← decodeSat d.msgtype sys b i
  let (i, v) ← decodeClkSat b i
  let m1 ← setOpt d.dclk sat v.1
  let m2 ← setOpt d.ddclk sat v.2.1
  let m3 ← setOpt d.dddclk sat v.2.2
  pure ({ d with dclk := m1, ddclk := m2, dddclk := m3 }, i)

/-- `decode_cssr_clk(msg, i)`: rtcm.py lines 1138-1172 -/
def decodeCssrClk (d : Dec) (b : BitBuf) (i : Nat) : Py (Dec × Nat) := do
  let sys ← getSsrSys d.sysref d.msgtype
  let (d, v, i) ← decodeHead d .clock sys b i
  let d := if timediff d.time (d.t0s .clock) > 0 then
      { d with dclk := some [], ddclk := some [], dddclk := some [] }
    else d
  let d := { d with
    dclkN := some v.nsat
    iodssr := v.iodssr
    udi := fun c => if c = .clock then v.udi else d.udi c
    mi := v.mi }
  let (d, i) ← times v.nsat (clkStep sys b) (d, i)
  pure ({ d with
    iodssrC := fun c => if c = .clock then v.iodssr else d.iodssrC c
    t0s := fun c => if c = .clock then d.time else d.t0s c }, i)

/-- `quality_idx(cl, val)`: cssrlib.py lines 508-516 -/
def qualityIdx (cl val : Nat) : Val :=
  if cl = 7 ∧ val = 7 then some (54665 / 10000)
  else if cl = 0 ∧ val = 0 then none
  else some ((3 ^ cl * (1 + val * (1 / 4)) - 1) / 1000)

/-- body of the satellite loop of `decode_cssr_ura`: rtcm.py lines 1365-1370 -/
def uraStep (sys : Sys) (b : BitBuf) (s : Dec × Nat) : Py (Dec × Nat) := do
  let (d, i) := s
  let (i, sat) ← decodeSat d.msgtype sys b i
  let c ← readU b i 3
  let v ← readU b (i + 3) 3
  let m ← setOpt d.ura sat (qualityIdx c v)
  pure ({ d with ura := m }, i + 6)

/-- `decode_cssr_ura(msg, i)`: rtcm.py lines 1351-1375 -/
def decodeCssrUra (d : Dec) (b : BitBuf) (i : Nat) : Py (Dec × Nat) := do
  let sys ← getSsrSys d.sysref d.msgtype
  let (d, v, i) ← decodeHead d .ura sys b i
  let d := if timediff d.time (d.t0s .ura) > 0 then { d with ura := some [] } else d
  let d := { d with
    iodssr := v.iodssr
    udi := fun c => if c = .ura then v.udi else d.udi c
    mi := v.mi }
  let (d, i) ← times v.nsat (uraStep sys b) (d, i)
  pure ({ d with
    iodssrC := fun c => if c = .ura then v.iodssr else d.iodssrC c
    t0s := fun c => if c = .ura then d.time else d.t0s c }, i)

/-- body of the satellite loop of `decode_cssr_hclk`: rtcm.py lines 1391-1395 -/
def hclkStep (sys : Sys) (b : BitBuf) (s : Dec × Nat) (k : Nat) : Py (Dec × Nat) := do
  let (d, i) := s
  let (i, sat) ← decodeSat d.msgtype sys b i
  let (i, v) ← decodeHclkSat d.dclkN k b i
  let m ← setOpt d.hclk sat v
  pure ({ d with hclk := m }, i)

/-- `decode_cssr_hclk(msg, i)`: rtcm.py lines 1377-1401 (called with the clock sub-type) -/
def decodeCssrHclk (d : Dec) (b : BitBuf) (i : Nat) : Py (Dec × Nat) := do
  let sys ← getSsrSys d.sysref d.msgtype
  let (d, v, i) ← decodeHead d .clock sys b i
  let d := if timediff d.time (d.t0s .hclock) > 0 then { d with hclk := some [] } else d
  let d := { d with
    iodssr := v.iodssr
    udi := fun c => if c = .hclock then v.udi else d.udi c
    mi := v.mi }
  let (d, i) ← (List.range v.nsat).foldlM (hclkStep sys b) (d, i)
  pure ({ d with
    iodssrC := fun c => if c = .hclock then v.iodssr else d.iodssrC c
    t0s := fun c => if c = .hclock then d.time else d.t0s c }, i)

/-- body of the satellite loop of `decode_cssr_comb`: rtcm.py lines 1323-1337 -/
def combStep (sys : Sys) (b : BitBuf) (s : Dec × Nat) : Py (Dec × Nat) := do
  let (d, i) := s
  let (i, sat) ← decodeSat d.msgtype sys b i
  let (i, iode, o, v) ← decodeOrbSat d.msgtype sys b i
  let (i, c) ← decodeClkSat b i
  let m1 ← setOpt d.iode sat iode
  let m2 ← setOpt d.dorb sat o
  let m3 ← setOpt d.ddorb sat v
  let m4 ← setOpt d.dclk sat c.1
  let m5 ← setOpt d.ddclk sat c.2.1
  let m6 ← setOpt d.dddclk sat c.2.2
  pure ({ d with iode := m1, dorb := m2, ddorb := m3, dclk := m4, ddclk := m5, dddclk := m6
                 satN := d.satN ++ [sat] }, i)

/-- `decode_cssr_comb(msg, i)`: rtcm.py lines 1294-1349 -/
def decodeCssrComb (d : Dec) (b : BitBuf) (i : Nat) : Py (Dec × Nat) := do
  let sys ← getSsrSys d.sysref d.msgtype
  let (d, v, i) ← decodeHead d .combined sys b i
  let d := { d with dclkN := some v.nsat }
  let d := if timediff d.time (d.t0s .orbit) > 0 then
      { d with nsatN := 0, sysN := [], satN := [], iode := some [], dorb := some [], ddorb := some []
               dclk := some [], ddclk := some [], dddclk := some [] }
    else d
  let d := { d with
    iodssr := v.iodssr
    udi := fun c => if c = .orbit ∨ c = .clock then v.udi else d.udi c
    mi := v.mi }
  let (d, i) ← times v.nsat (combStep sys b) (d, i)
  pure ({ d with
    nsatN := d.nsatN + v.nsat
    sysN := d.sysN ++ List.replicate v.nsat sys
    iodssrC := fun c => if c = .orbit ∨ c = .clock then v.iodssr else d.iodssrC c
    t0s := fun c => if c = .orbit then d.time else d.t0s c }, i)

/-- `rtcm.decode(msg)` for the modelled messages: rtcm.py lines 3946-4000; `none`: another method
is called -/
def decode (d : Dec) (b : BitBuf) : Py (Option (Dec × Nat)) := do
  let m ← readU b 24 12
  let d := { d with msgtype := m }
  match decKind m with
  | some .orb => some <$> decodeCssrOrb d b 36
  | some .clk => some <$> decodeCssrClk d b 36
  | some .ura => some <$> decodeCssrUra d b 36
  | some .comb => some <$> decodeCssrComb d b 36
  | some .hclk => some <$> decodeCssrHclk d b 36
  | _ => .ok none

end Verif.RtcmSsr
