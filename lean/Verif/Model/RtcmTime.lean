import Verif.Bits
import Verif.Model.Time
import Verif.Model.RtcmTypes
/-!
Model of the epoch times of RTCM messages: `decode_msm_time`, `encode_msm_time`, `decode_time`,
`decode_nrtk_time` and `decode_nrtk_residual` (`src/cssrlib/rtcm.py` lines 1479-1545, 2265-2278,
4198-4199, 4208-4225).  Numbers are exact rationals.
-/

namespace Verif.RtcmTime
open Verif.Sat Verif.Time Verif.RtcmTypes

/-- `decode_msm_time(sys, week, t)`: lines 2265-2278; `t` is the 30-bit field -/
def decodeMsmTime (sys : Sys) (week : Int) (t : Nat) : GTime × ℚ :=
  if sys = .glo then
    let dow := (t >>> 27) &&& 0x1f
    let tow : ℚ := ((t &&& 0x7ffffff : Nat) : ℚ) * (1 / 10 ^ 3)
    let time := gpst2time week (tow + dow * 86400)
    (utc2gpst (timeadd time (-10800)), tow)
  else if sys = .bds then
    let tow : ℚ := t * (1 / 10 ^ 3)
    (bdt2gpst (gpst2time week tow), tow)
  else
    let tow : ℚ := t * (1 / 10 ^ 3)
    (gpst2time week tow, tow)

/-- `round_i(v)`: lines 4198-4199 -/
def roundI (v : ℚ) : Int := truncQ (v + 1 / 2)

/-- `encode_msm_time(sys, time)`: lines 4208-4225; `a & 0x1f` and `a & 0x7ffffff` of integers are
remainders, `|` acts on non-negative numbers -/
def encodeMsmTime (sys : Sys) (time : GTime) : Int × Int :=
  if sys = .glo then
    let time := timeadd (gpst2utc time) 10800
    let (week, tow) := time2gpst time
    let dow := truncQ (tow / 86400)
    let tod := roundI ((tow - dow * 86400) * 10 ^ 3)
    (week, (((dow % 2 ^ 5).toNat <<< 27 ||| (tod % 2 ^ 27).toNat : Nat) : Int))
  else if sys = .bds then
    let (week, tow) := time2gpst (gpst2bdt time)
    (week, roundI (tow * 10 ^ 3))
  else
    let (week, tow) := time2gpst time
    (week, roundI (tow * 10 ^ 3))

/-- the attributes used: `self.week`, `self.time`, `self.workaround_sc134` -/
structure Dec where
  week : Int
  time : GTime
  workaround : Bool := false

/-- `decode_nrtk_time(msg, i)`: lines 1479-1494; `sys` is that of `nrtktype(self.msgtype)` -/
def decodeNrtkTime (d : Dec) (mt : Nat) (msg : BitBuf) (i : Nat) : Py (Nat × Sys × GTime) := do
  let sys := (nrtktype mt).1
  let sz := if sys ≠ .glo then 20 else 17
  let tow ← readU msg i sz
  let i := i + sz
  if sys = .bds then
    let week := (time2bdt (gpst2bdt (gpst2time d.week tow))).1
    return (i, sys, bdt2gpst (bdt2time week tow))
  else if sys = .glo then return (i, sys, utc2gpst (glo2time d.time tow))
  else return (i, sys, gpst2time d.week tow)

/-- `decode_time(msg)`: lines 1515-1545; `none` is `False` (the attribute `tow` is not modelled) -/
def decodeTime (d : Dec) (msg : BitBuf) : Py (Option GTime) := do
  let i := 24
  let mt ← readU msg i 12
  let i := i + 12
  if (msmtype mt).2 > 0 then
    let t ← readU msg (i + 12) 30
    return some (decodeMsmTime (msmtype mt).1 d.week t).1
  else if (ssrtype mt).2 > 0 ∨ mt = 4076 then
    let sz := if mt = 4076 ∨ (ssrtype mt).1 ≠ .glo then 20 else 17
    let tow ← readU msg i sz
    if (ssrtype mt).1 = .glo then
      let t := utc2gpst (glo2time d.time tow)
      return some (if d.workaround then timeadd t (-36) else t)
    else return some (gpst2time d.week tow)
  else if (nrtktype mt).2 > 0 then
    let (_, _, t) ← decodeNrtkTime d mt msg i
    return some t
  else return none

end Verif.RtcmTime
