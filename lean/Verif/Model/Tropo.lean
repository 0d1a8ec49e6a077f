import Mathlib.Analysis.SpecialFunctions.Trigonometric.Basic
import Mathlib.Analysis.SpecialFunctions.Pow.Real
import Mathlib.Algebra.Order.Floor.Ring
/-!
Model of tropospheric delays: `interpc`, `tropmapf`, `tropmodel`, `meteo`, `mapf`, `mapfParam`, `tropmapfNiell`, `tropmodelSaast`,
`meteoHpf`, `tropmapfHpf`, `tropmodelHpf`, `tropmapfSBAS`, `atmosParam`, `tropheightCorr`, `tropmodelSBAS` (lines 1509-1735 of
`src/cssrlib/gnss.py`).

Real numbers are exact.  The day of year (`time2doy`) is an argument.  Powers of negative numbers, which are nan in numpy, are total
here; the theorems exclude them.
-/

noncomputable section

namespace Verif.Tropo
open Real

/-- `int(x)`: towards zero -/
def trunc (x : ℝ) : ℤ := if 0 ≤ x then ⌊x⌋ else ⌈x⌉

/-- `interpc(coef, lat)`: lines 1509-1518; the columns of `coef` -/
def interpc {n : Nat} (coef : List (Fin n → ℝ)) (lat : ℝ) : Fin n → ℝ :=
  let i := trunc (lat / 15)
  let m := coef.length - 1
  let col := fun k : Nat => coef.getD k (fun _ => 0)
  if i < 1 then col 0
  else if i > m then col m
  else
    let d := lat / 15 - i
    fun r => col (i.toNat - 1) r * (1 - d) + col i.toNat r * d

/-- `meteo`: lines 1551-1556; pressure, temperature, humidity -/
def meteo (hgt humi : ℝ) : ℝ × ℝ × ℝ :=
  let pres := 101325 / 100 * (1 - 22557 / 10 ^ 9 * hgt) ^ (52568 / 10000 : ℝ)
  let temp := 15 - 65 / 10 ^ 4 * hgt + 27316 / 100
  (pres, temp, 6108 / 1000 * humi * exp ((1715 / 100 * temp - 4684) / (temp - 3845 / 100)))

/-- `mapf`: lines 1559-1561 -/
def mapf (sE a b c : ℝ) : ℝ := (1 + a / (1 + b / (1 + c))) / (sE + a / (sE + b / (sE + c)))

/-- the columns of the table of `mapfParam`: lines 1568-1578 -/
def niell : List (Fin 9 → ℝ) := [
  ![12769934 / 10 ^ 10, 29153695 / 10 ^ 10, 62610505 / 10 ^ 9, 0, 0, 0, 58021897 / 10 ^ 11, 14275268 / 10 ^ 10, 43472961 / 10 ^ 9],
  ![12683230 / 10 ^ 10, 29152299 / 10 ^ 10, 62837393 / 10 ^ 9, 12709626 / 10 ^ 12, 21414979 / 10 ^ 12, 90128400 / 10 ^ 12,
    56794847 / 10 ^ 11, 15138625 / 10 ^ 10, 46729510 / 10 ^ 9],
  ![12465397 / 10 ^ 10, 29288445 / 10 ^ 10, 63721774 / 10 ^ 9, 26523662 / 10 ^ 12, 30160779 / 10 ^ 12, 43497037 / 10 ^ 12,
    58118019 / 10 ^ 11, 14572752 / 10 ^ 10, 43908931 / 10 ^ 9],
  ![12196049 / 10 ^ 10, 29022565 / 10 ^ 10, 63824265 / 10 ^ 9, 34000452 / 10 ^ 12, 72562722 / 10 ^ 12, 84795348 / 10 ^ 11,
    59727542 / 10 ^ 11, 15007428 / 10 ^ 10, 44626982 / 10 ^ 9],
  ![12045996 / 10 ^ 10, 29024912 / 10 ^ 10, 64258455 / 10 ^ 9, 41202191 / 10 ^ 12, 11723375 / 10 ^ 11, 17037206 / 10 ^ 10,
    61641693 / 10 ^ 11, 17599082 / 10 ^ 10, 54736038 / 10 ^ 9]]

/-- `mapfParam`: lines 1564-1588; `[ah, bh, ch]`, `[aw, bw, cw]` -/
def mapfParam (doy lat : ℝ) : (ℝ × ℝ × ℝ) × (ℝ × ℝ × ℝ) :=
  let y := (doy - 28) / (36525 / 100)
  let y := if lat < 0 then y + 1 / 2 else y
  let cosy := cos (2 * π * y)
  let c := interpc niell |lat * (180 / π)|
  ((c 0 - c 3 * cosy, c 1 - c 4 * cosy, c 2 - c 5 * cosy), (c 6, c 7, c 8))

/-- `tropmapfNiell`: lines 1591-1609 -/
def tropmapfNiell (doy lat hgt el : ℝ) : ℝ × ℝ :=
  if hgt < -1000 ∨ hgt > 20000 ∨ el ≤ 0 then (0, 0)
  else
    let (ah, aw) := mapfParam doy lat
    let sE := sin el
    let dm := (1 / sE - mapf sE (253 / 10 ^ 7) (549 / 10 ^ 5) (114 / 10 ^ 5)) * hgt * (1 / 10 ^ 3)
    (mapf sE ah.1 ah.2.1 ah.2.2 + dm, mapf sE aw.1 aw.2.1 aw.2.2)

/-- `tropmodelSaast`: lines 1612-1621; hydrostatic, wet, zenith angle -/
def tropmodelSaast (lat hgt el humi : ℝ) : ℝ × ℝ × ℝ :=
  let (pres, temp, e) := meteo hgt humi
  let z := π / 2 - el
  (22768 / 10 ^ 7 * pres / (1 - 266 / 10 ^ 5 * cos (2 * lat) - 28 / 10 ^ 8 * hgt), 2277 / 10 ^ 6 * (1255 / temp + 5 / 100) * e, z)

/-- `tropmapfHpf`: lines 1634-1642 -/
def tropmapfHpf (el : ℝ) : ℝ × ℝ :=
  (1 / sin (sqrt (el ^ 2 + (π / 72) ^ 2)), 1 / sin (sqrt (el ^ 2 + (π / 120) ^ 2)))

/-- `meteoHpf`, `tropmodelHpf`: lines 1624-1655 -/
def tropmodelHpf : ℝ × ℝ :=
  let pres : ℝ := 1010
  let temp : ℝ := 2911 / 10
  let e : ℝ := 104 / 10
  (776 / 10 ^ 7 * (-(6133768 / 10 ^ 4) / temp + 14898 / 100) * pres / 5, 776 / 10 ^ 7 * 11000 * 4810 * e / temp ^ 2 / 5)

/-- `tropmapfSBAS`: lines 1658-1666, and lines 1730-1731 -/
def mapSbas (el : ℝ) : ℝ := 1001 / 1000 / sqrt (2001 / 10 ^ 6 + sin el ^ 2)
def tropmapfSBAS (el : ℝ) : ℝ × ℝ := (mapSbas el, mapSbas el)

/-- the rows of the tables of `atmosParam`, means and variations: lines 1673-1688 -/
def atmos : List (Fin 10 → ℝ) := [
  ![101325 / 100, 29965 / 100, 2631 / 100, 630 / 10 ^ 5, 277 / 100, 0, 0, 0, 0, 0],
  ![101725 / 100, 29415 / 100, 2179 / 100, 605 / 10 ^ 5, 315 / 100, -375 / 100, 7, 885 / 100, 25 / 10 ^ 5, 33 / 100],
  ![101575 / 100, 28315 / 100, 1166 / 100, 558 / 10 ^ 5, 257 / 100, -225 / 100, 11, 724 / 100, 32 / 10 ^ 5, 46 / 100],
  ![101175 / 100, 27215 / 100, 678 / 100, 539 / 10 ^ 5, 181 / 100, -175 / 100, 15, 536 / 100, 81 / 10 ^ 5, 74 / 100],
  ![101300 / 100, 26365 / 100, 411 / 100, 453 / 10 ^ 5, 155 / 100, -50 / 100, 145 / 10, 339 / 100, 62 / 10 ^ 5, 30 / 100]]

structure Atmos where
  pres : ℝ
  temp : ℝ
  e : ℝ
  beta : ℝ
  lam : ℝ

/-- `atmosParam`: lines 1669-1697; latitude in degrees -/
def atmosParam (doy lat : ℝ) : Atmos :=
  let dmin : ℝ := if lat ≥ 0 then 28 else 211
  let y := (doy - dmin) / (36525 / 100)
  let cosy := cos (2 * π * y)
  let c := interpc atmos |lat|
  ⟨c 0 - c 5 * cosy, c 1 - c 6 * cosy, c 2 - c 7 * cosy, c 3 - c 8 * cosy, c 4 - c 9 * cosy⟩

/-- `tropheightCorr`: lines 1700-1709 -/
def tropheightCorr (temp beta lam hgt : ℝ) : ℝ × ℝ :=
  let p1 := 1 - beta * hgt / temp
  let p2 := 980665 / 10 ^ 5 / (287054 / 1000 * beta)
  (p1 ^ p2, p1 ^ ((lam + 1) * p2 - 1))

/-- zenith delays at height zero: lines 1721-1724 -/
def zhyd (a : Atmos) : ℝ := 77604 / 10 ^ 9 * (287054 / 1000) * a.pres / (9784 / 1000)
def zwet (a : Atmos) : ℝ :=
  382 / 1000 * (287054 / 1000) * a.e / ((9784 / 1000 * (a.lam + 1) - a.beta * (287054 / 1000)) * a.temp)

/-- gnss.py line 39 -/
def r2d : ℝ := 5729577951308232 / 10 ^ 14

/-- `tropmodelSBAS`: lines 1712-1735 -/
def tropmodelSBAS (doy lat hgt el : ℝ) : ℝ × ℝ :=
  let a := atmosParam doy (lat * r2d)
  let (sfh, sfw) := tropheightCorr a.temp a.beta a.lam hgt
  let mf := mapSbas el
  (sfh * zhyd a * mf, sfw * zwet a * mf)

inductive Model where
  | saast
  | hopf
  | sbas
  | none
  deriving DecidableEq

/-- `tropmapf`: lines 1521-1533 -/
def tropmapf (doy lat hgt el : ℝ) : Model → ℝ × ℝ
  | .saast => tropmapfNiell doy lat hgt el
  | .hopf => tropmapfHpf el
  | .sbas => tropmapfSBAS el
  | .none => (0, 0)

/-- `tropmodel`: lines 1536-1548; the two delays -/
def tropmodel (doy lat hgt : ℝ) (el : ℝ := π / 2) (humi : ℝ := 7 / 10) : Model → ℝ × ℝ
  | .saast => let (h, w, _) := tropmodelSaast lat hgt el humi; (h, w)
  | .hopf => tropmodelHpf
  | .sbas => tropmodelSBAS doy lat hgt el
  | .none => (0, 0)

end Verif.Tropo
