import Verif.Model.Sbas
import Verif.Model.RtcmInteg
/-!
Model of the decoder of PPP via SouthPAN, class `cssr_pvs` of `src/cssrlib/cssr_pvs.py`: `slot2sat`, `adjust_time_week`, `decode_cssr_orb`,
`decode_cssr`; and of `set_time` of the base class (`src/cssrlib/cssrlib.py`).

Simplifications: floats are exact rationals, NaN is `none`; logging is left out; the attributes `tow0` and `week` before the first `set_time` are
-1; the two entries of `t0[sat]` are always equal and kept as one.
-/

namespace Verif.Pvs
open Verif.Sat Verif.Time Verif.Sval Verif.RtcmInteg
open Verif.Sbas (neg)

structure St where
  time0 : GTime := ⟨0, 0⟩
  week : Int := -1
  tow0 : ℚ := -1
  time : Option GTime := none
  satN : List Int := []
  iode : Dict Int Int := []
  dorb : Dict Int (Val × Val × Val) := []
  dclk : Dict Int Val := []
  dvel : Dict Int (Val × Val × Val) := []
  ddft : Dict Int Val := []
  t0 : Dict Int GTime := []
  cstat : Nat := 0
  iodssr : Int := -1
  iodClk : Int := -1
  iodOrb : Int := -1

/-- `set_time(t)`: cssrlib.py lines 476-482 -/
def setTime (s : St) (t : GTime) : St :=
  let w := time2gpst t
  { s with time0 := t, week := w.1, tow0 := (⌊w.2 / 86400⌋ : Int) * 86400 }

/-- `slot2sat(slot)`: cssr_pvs.py lines 69-86 -/
def slot2sat (slot : Int) : Int :=
  if slot ≥ 1 ∧ slot ≤ 32 then prn2sat .gps slot
  else if slot ≥ 38 ∧ slot ≤ 69 then prn2sat .glo (slot - 37)
  else if slot ≥ 75 ∧ slot ≤ 110 then prn2sat .gal (slot - 74)
  else if slot ≥ 120 ∧ slot ≤ 158 then prn2sat .sbs slot
  else if slot ≥ 159 ∧ slot ≤ 195 then prn2sat .bds (slot - 158)
  else 0

/-- `adjust_time_week(time, time0)`: cssr_pvs.py lines 88-94 -/
def adjustWeek (t t0 : GTime) : GTime :=
  let dt := timediff t t0
  if dt > 302400 then timeadd t (-604800) else if dt < -302400 then timeadd t 604800 else t

/-- lines 123-150 -/
def store (s : St) (slot iodn : Int) (c : List Int) (v : List Int) (t0 : Int) : St :=
  let sat := slot2sat slot
  if sat = 0 ∨ t0 % 2 = 0 then s
  else
    { s with
      satN := if sat ∈ s.satN then s.satN else s.satN ++ [sat]
      time := some (adjustWeek (gpst2time s.week (s.tow0 + t0 * 16)) s.time0)
      iode := Dict.set s.iode sat iodn
      dorb := Dict.set s.dorb sat (neg (sval (el c 0) 11 (1 / 16)), neg (sval (el c 1) 11 (1 / 16)), neg (sval (el c 2) 11 (1 / 16)))
      dclk := Dict.set s.dclk sat (sval (el c 3) 12 (1 / 32))
      dvel := Dict.set s.dvel sat (neg (sval (el v 0) 8 (1 / 2 ^ 11)), neg (sval (el v 1) 8 (1 / 2 ^ 11)), neg (sval (el v 2) 8 (1 / 2 ^ 11)))
      ddft := Dict.set s.ddft sat (sval (el v 3) 9 (1 / 2 ^ 12))
      iodssr := 0
      cstat := s.cstat ||| (1 <<< 2 ||| 1 <<< 1)
      t0 := Dict.set s.t0 sat s.time0
      iodClk := 0
      iodOrb := 0 }

/-- `decode_cssr_orb(msg, i)`: cssr_pvs.py lines 106-158 -/
def decodeOrb (s : St) (b : BitBuf) (i : Nat) : Py St := do
  let h ← flds b i [(8, false), (10, false)]
  let c ← flds b (i + 18) [(11, true), (11, true), (11, true), (12, true)]
  let v ← flds b (i + 63) [(8, true), (8, true), (8, true), (9, true), (13, false)]
  pure (store s (el h 0) (el h 1) c v (el v 4))

/-- `decode_cssr(msg, i)`: cssr_pvs.py lines 160-176 -/
def decode (s : St) (b : BitBuf) (i : Nat) : Py St := do
  let h ← flds b i [(4, false), (6, false)]
  if el h 1 = 32 then decodeOrb s b (i + 10) else pure s

end Verif.Pvs
