import Verif.Model.Time
import Verif.Model.Sat
/-!
Model of ephemeris and almanac selection (`src/cssrlib/ephemeris.py` lines 17-42 and 860-875) and
of `adjday` (`src/cssrlib/rinex.py` lines 134-141).

Only the fields of an ephemeris that the selection looks at are modelled; `tag` stands for the
rest of the object.
-/

namespace Verif.Ephsel
open Verif.Time Verif.Sat

/-- ephemeris / almanac entry; `toe` is `toa` for an almanac -/
structure Ent (α : Type) where
  sat : Int
  iode : Int
  mode : Int
  toe : GTime
  tag : α

/-- `MAXDTOE_t`: ephemeris.py lines 17-19 (no entry for `uGNSS.NONE`: `KeyError`) -/
def maxDtoe : Sys → Py ℚ
  | .gps => .ok 7201
  | .gal => .ok 14400
  | .qzs => .ok 7201
  | .bds => .ok 7201
  | .irn => .ok 7201
  | .glo => .ok 1800
  | .sbs => .ok 360
  | .none => .error .keyError

variable {α : Type}

/-- the loop of `findeph`: lines 28-40; `best` is `eph`, `tmin` the running minimum -/
def findLoop (t : GTime) (sat iode mode : Int) (tmax : ℚ) :
    List (Ent α) → (tmin : ℚ) → (best : Option (Ent α)) → Option (Ent α)
  | [], _, best => best
  | e :: es, tmin, best =>
    if e.sat ≠ sat ∨ (iode ≥ 0 ∧ iode ≠ e.iode) then findLoop t sat iode mode tmax es tmin best
    else if e.mode ≠ mode then findLoop t sat iode mode tmax es tmin best
    else
      let dt := |timediff t e.toe|
      if dt > tmax ∨ e.mode ≠ mode then findLoop t sat iode mode tmax es tmin best
      else if iode ≥ 0 then some e
      else if dt ≤ tmin then findLoop t sat iode mode tmax es dt (some e)
      else findLoop t sat iode mode tmax es tmin best

/-- `findeph(nav, t, sat, iode, mode)`: lines 22-42 -/
def findeph (nav : List (Ent α)) (t : GTime) (sat : Int) (iode : Int := -1) (mode : Int := 0) :
    Py (Option (Ent α)) := do
  let tmax ← maxDtoe (sat2prn sat).1
  return findLoop t sat iode mode tmax nav (tmax + 1) none

/-- the loop of `findalm`: lines 865-873; `none` is infinity -/
def almLoop (t : GTime) (sat : Int) (tmax : Option ℚ) :
    List (Ent α) → (tmin : Option ℚ) → (best : Option (Ent α)) → Option (Ent α)
  | [], _, best => best
  | e :: es, tmin, best =>
    if e.sat ≠ sat then almLoop t sat tmax es tmin best
    else
      let dt := |timediff t e.toe|
      if tmax.any (fun m => decide (dt > m)) then almLoop t sat tmax es tmin best
      else if tmin.all (fun m => decide (dt ≤ m)) then almLoop t sat tmax es (some dt) (some e)
      else almLoop t sat tmax es tmin best

/-- `findalm(alm_t, t, sat, tmax)`: lines 860-875; the default limit is infinite -/
def findalm (alm : List (Ent α)) (t : GTime) (sat : Int) (tmax : Option ℚ := none) : Option (Ent α) :=
  almLoop t sat tmax alm (tmax.map (· + 1)) none

/-- `adjday(t, t0)`: rinex.py lines 134-141 -/
def adjday (t t0 : GTime) : GTime :=
  let tt := timediff t t0
  if tt < -43200 then timeadd t 86400
  else if tt > 43200 then timeadd t (-86400)
  else t

end Verif.Ephsel
