import Verif.Model.Peph
/-!
Model of satellite position, velocity and clock from precise tables: `peph2pos`, the clock of `pephpos` and the error of the clocks
(`src/cssrlib/peph.py`).

Numbers are real.  Missing values (NaN) are not modelled.  The flag `var` is left out of `peph2pos`: the clock errors are a function of
their own.
-/

namespace Verif.Peph2
open Verif.Time Verif.Peph

/-- clock between two epochs; `t0`, `t1`: request minus epoch.  Lines 361-378.  The test for NaN in line 374 is always true. -/
noncomputable def clkVal (t0 t1 c0 c1 : ℝ) : ℝ :=
  if t0 ≤ 0 then c0 else if t1 ≥ 0 then c1 else (c1 * t0 - c0 * t1) / (t0 - t1)

/-- `rCST.CLIGHT` -/
def clight : ℝ := 299792458

/-- `EXTERR_CLK`: line 22 -/
noncomputable def exterrClk : ℝ := 1 / 1000

/-- standard deviation of a clock that is not zero, `std`: lines 366-377, and 408-425 of `pephclk`; `s0`, `s1`: errors of the table -/
noncomputable def clkStd (t0 t1 s0 s1 : ℝ) : ℝ :=
  if t0 ≤ 0 then s0 * clight - exterrClk * t0
  else if t1 ≥ 0 then s1 * clight - exterrClk * t1
  else if t0 < -t1 then s0 + exterrClk * |t0| else s1 + exterrClk * |t1|

/-- `pephpos(time, sat, nav)`, position and clock: lines 307-383.  The epochs are searched once in the code. -/
noncomputable def posClk (ne : Nat) (tab : List PosEp) (sat : Int) (time : GTime) : Py (Option ((Fin 3 → ℝ) × ℝ)) := do
  match ← pephpos ne tab time sat with
  | none => return none
  | some r =>
    match ← pephSearch ne (tab.map (·.time)) time with
    | none => return none
    | some (index, _) =>
      let p0 ← pyGet tab index
      let p1 ← pyGet tab (index + 1)
      return some (r, clkVal (timediff time p0.time : ℚ) (timediff time p1.time : ℚ) (p0.clk sat) (p1.clk sat))

/-- `pephrel(rs)`: lines 431-433 -/
noncomputable def pephrel (r v : Fin 3 → ℝ) : ℝ := -2 * (r 0 * v 0 + r 1 * v 1 + r 2 * v 2) / clight ^ 2

/-- the clock of the clock table if there is one (`nav.nc >= 2`): lines 448-451 and 462-465; the outer `none` leaves `peph2pos` -/
def clkOf (clk : Option (GTime → Py (Option ℝ))) (time : GTime) (d : ℝ) : Py (Option ℝ) :=
  match clk with
  | none => .ok (some d)
  | some f => f time

structure Out where
  pos : Fin 3 → ℝ
  vel : Fin 3 → ℝ
  clk : ℝ
  drift : ℝ

/-- lines 467-483 -/
noncomputable def combine (r r' : Fin 3 → ℝ) (c c' : ℝ) : Out :=
  let v : Fin 3 → ℝ := fun a => (r' a - r a) / (1 / 1000)
  if c ≠ 0 then ⟨r, v, c + pephrel r v, (c' - c) / (1 / 1000)⟩ else ⟨r, v, c, 0⟩

/-- `peph2pos(time, sat, nav)`: lines 435-488.  After the second position the code tests the first one again (line 457), so `None` is
subtracted in line 471 (line 464 comes before). -/
noncomputable def peph2pos (pos : GTime → Py (Option ((Fin 3 → ℝ) × ℝ))) (clk : Option (GTime → Py (Option ℝ))) (time : GTime) :
    Py (Option Out) := do
  match ← pos time with
  | none => return none
  | some (rss, dtss) =>
    match ← clkOf clk time dtss with
    | none => return none
    | some dtss =>
      let timeTt := timeadd time (1 / 1000)
      let second ← pos timeTt
      match ← clkOf clk timeTt (second.elim 0 Prod.snd) with
      | none => return none
      | some dtst =>
        match second with
        | none => .error .typeError
        | some (rst, _) => return some (combine rss rst dtss dtst)

end Verif.Peph2
