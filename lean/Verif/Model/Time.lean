import Verif.Py
import Mathlib.Data.Rat.Floor
/-!
Model of the time functions of `src/cssrlib/gnss.py` (lines 640-1192).

Simplifications: floating-point seconds are exact rationals; `int(a/b)` of two
integers (a float division followed by truncation) is exact truncated division.
-/

namespace Verif.Time

/-- `gtime_t`: gnss.py lines 642-651. -/
structure GTime where
  time : Int := 0
  sec : ℚ := 0
  deriving DecidableEq

/-- `gtime_t.__gt__`: gnss.py lines 649-651. -/
def GTime.gt (a b : GTime) : Bool := a.time > b.time || (a.time == b.time && a.sec > b.sec)

/-- Python `int(x)` of a float: truncation toward zero. -/
def truncQ (x : ℚ) : Int := if 0 ≤ x then ⌊x⌋ else ⌈x⌉

/-- An epoch `[year, month, day, hour, minute, second]`. -/
structure Epoch where
  year : Int
  mon : Int
  day : Int
  hour : Int
  min : Int
  sec : ℚ
  deriving DecidableEq

/-- `doy` table of `epoch2time`: gnss.py line 961. -/
def doyTbl : List Int := [1, 32, 60, 91, 121, 152, 182, 213, 244, 274, 305, 335]

/-- `epoch2time(ep)`: gnss.py lines 959-975. -/
def epoch2time (ep : Epoch) : GTime :=
  if ep.year < 1970 ∨ ep.year > 2099 ∨ ep.mon < 1 ∨ ep.mon > 12 then {}
  else
    let days := (ep.year - 1970) * 365 + (ep.year - 1969) / 4
      + doyTbl.getD (ep.mon - 1).toNat 0 + ep.day - 2
    let days := if ep.year % 4 = 0 ∧ ep.mon ≥ 3 then days + 1 else days
    let sec := truncQ ep.sec
    { time := days * 86400 + ep.hour * 3600 + ep.min * 60 + sec, sec := ep.sec - sec }

/-- `mday` table of `time2epoch`: gnss.py lines 1124-1126. -/
def mdayTbl : List Int :=
  [31, 28, 31, 30, 31, 30, 31, 31, 30, 31, 30, 31, 31, 28, 31, 30, 31,
   30, 31, 31, 30, 31, 30, 31, 31, 29, 31, 30, 31, 30, 31, 31, 30, 31,
   30, 31, 31, 28, 31, 30, 31, 30, 31, 31, 30, 31, 30, 31]

/-- the `for mon in range(48)` loop with `break` (gnss.py lines 1131-1135); the result is the
pair `(mon, day)` after the loop; when no `break` occurs `mon` keeps its last value. -/
def monLoop : List Int → (mon : Int) → (day : Int) → Int × Int
  | [], mon, day => (mon - 1, day)
  | m :: ms, mon, day => if day ≥ m then monLoop ms (mon + 1) (day - m) else (mon, day)

/-- `time2epoch(t)`: gnss.py lines 1122-1143. -/
def time2epoch (t : GTime) : Epoch :=
  let days := t.time.tdiv 86400
  let sec := t.time - days * 86400
  let (mon, day) := monLoop mdayTbl 0 (days.fmod 1461)
  { year := 1970 + days.fdiv 1461 * 4 + mon.fdiv 12
    mon := mon.fmod 12 + 1
    day := day + 1
    hour := sec.fdiv 3600
    min := (sec.fmod 3600).fdiv 60
    sec := (sec.fmod 60 : Int) + t.sec }

/-- `timeadd(t, sec)`: gnss.py lines 1038-1045. -/
def timeadd (t : GTime) (s : ℚ) : GTime :=
  let x := t.sec + s
  { time := t.time + ⌊x⌋, sec := x - ⌊x⌋ }

/-- `timediff(t1, t2)`: gnss.py lines 1048-1052. -/
def timediff (t1 t2 : GTime) : ℚ := ((t1.time - t2.time : Int) : ℚ) + (t1.sec - t2.sec)

/-- time origins `gpst0`, `gst0`, `bdt0`: gnss.py lines 14-16 -/
def gpst0 : Epoch := ⟨1980, 1, 6, 0, 0, 0⟩
def gst0 : Epoch := ⟨1999, 8, 22, 0, 0, 0⟩
def bdt0 : Epoch := ⟨2006, 1, 1, 0, 0, 0⟩

/-- common body of `gpst2time`, `gst2time`, `bdt2time`: gnss.py lines 1055-1062, 1074-1081,
1093-1100 (the three functions differ only in the origin). -/
def wk2time (t0 : Epoch) (week : Int) (tow : ℚ) : GTime :=
  let t := epoch2time t0
  let tow := if tow < -1000000000 ∨ tow > 1000000000 then 0 else tow
  { time := t.time + (86400 * 7 * week + truncQ tow), sec := tow - truncQ tow }

/-- common body of `time2gpst`, `time2gst`, `time2bdt`: gnss.py lines 1065-1071, 1084-1090,
1113-1119. -/
def time2wk (t0 : Epoch) (t : GTime) : Int × ℚ :=
  let sec := t.time - (epoch2time t0).time
  let week := sec.tdiv (86400 * 7)
  (week, ((sec - week * 86400 * 7 : Int) : ℚ) + t.sec)

def gpst2time := wk2time gpst0
def gst2time := wk2time gst0
def bdt2time := wk2time bdt0
def time2gpst := time2wk gpst0
def time2gst := time2wk gst0
def time2bdt := time2wk bdt0

/-- `bdt2gpst`: gnss.py lines 1103-1105 -/
def bdt2gpst (t : GTime) : GTime := timeadd t 14
/-- `gpst2bdt`: gnss.py lines 1108-1110 -/
def gpst2bdt (t : GTime) : GTime := timeadd t (-14)

/-- `leaps_`: gnss.py lines 979-996 (epoch, utc-gpst). -/
def leaps : List (Epoch × Int) :=
  [(⟨2017, 1, 1, 0, 0, 0⟩, -18), (⟨2015, 7, 1, 0, 0, 0⟩, -17), (⟨2012, 7, 1, 0, 0, 0⟩, -16),
   (⟨2009, 1, 1, 0, 0, 0⟩, -15), (⟨2006, 1, 1, 0, 0, 0⟩, -14), (⟨1999, 1, 1, 0, 0, 0⟩, -13),
   (⟨1997, 7, 1, 0, 0, 0⟩, -12), (⟨1996, 1, 1, 0, 0, 0⟩, -11), (⟨1994, 7, 1, 0, 0, 0⟩, -10),
   (⟨1993, 7, 1, 0, 0, 0⟩, -9), (⟨1992, 7, 1, 0, 0, 0⟩, -8), (⟨1991, 1, 1, 0, 0, 0⟩, -7),
   (⟨1990, 1, 1, 0, 0, 0⟩, -6), (⟨1988, 1, 1, 0, 0, 0⟩, -5), (⟨1985, 7, 1, 0, 0, 0⟩, -4),
   (⟨1983, 7, 1, 0, 0, 0⟩, -3), (⟨1982, 7, 1, 0, 0, 0⟩, -2), (⟨1981, 7, 1, 0, 0, 0⟩, -1)]

/-- the loop of `gpst2utc` (gnss.py lines 1023-1027) over the remaining table -/
def gpst2utcLoop (t : GTime) : List (Epoch × Int) → GTime
  | [] => t
  | (e, k) :: r =>
    let tu := timeadd t k
    if timediff tu (epoch2time e) ≥ 0 then tu else gpst2utcLoop t r

/-- `gpst2utc(t)`: gnss.py lines 1021-1027 -/
def gpst2utc (t : GTime) : GTime := gpst2utcLoop t leaps

/-- the loop of `utc2gpst` (gnss.py lines 1032-1035) over the remaining table -/
def utc2gpstLoop (t : GTime) : List (Epoch × Int) → GTime
  | [] => t
  | (e, k) :: r =>
    if timediff t (epoch2time e) ≥ 0 then timeadd t (-k) else utc2gpstLoop t r

/-- `utc2gpst(t)`: gnss.py lines 1030-1035 -/
def utc2gpst (t : GTime) : GTime := utc2gpstLoop t leaps

/-- `adjtime(t, tref, dt)`: gnss.py lines 1173-1180 -/
def adjtime (t tref : GTime) (dt : ℚ := 604800) : GTime :=
  let tt := timediff t tref
  if tt < -dt / 2 then timeadd t dt
  else if tt > dt / 2 then timeadd t (-dt)
  else t

/-- `time2doy(t)`: gnss.py lines 1146-1151 -/
def time2doy (t : GTime) : ℚ :=
  let ep := time2epoch t
  timediff t (epoch2time ⟨ep.year, 1, 1, 0, 0, 0⟩) / 86400 + 1

/-- `tod2tow(tod, time0)`: gnss.py lines 1183-1192 -/
def tod2tow (tod : ℚ) (time0 : GTime) : GTime :=
  let (week, tow0) := time2gpst time0
  let towRef := (⌊tow0 / 86400⌋ : ℚ) * 86400
  adjtime (gpst2time week (towRef + tod)) time0 86400

/-- `glo2time(tref, tod)`: gnss.py lines 1007-1018; `x % 86400.0` is `x - 86400⌊x/86400⌋` -/
def glo2time (tref : GTime) (tod : ℚ) : GTime :=
  let time := timeadd (gpst2utc tref) 10800
  let (week, tow) := time2gpst time
  let todP := tow - 86400 * ⌊tow / 86400⌋
  let tow := tow - todP
  let tod := if tod < todP - 43200 then tod + 86400
    else if tod > todP + 43200 then tod - 86400 else tod
  utc2gpst (timeadd (gpst2time week (tow + tod)) (-10800))

end Verif.Time
