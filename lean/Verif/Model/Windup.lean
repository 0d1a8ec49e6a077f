import Mathlib.LinearAlgebra.CrossProduct
import Mathlib.Analysis.SpecialFunctions.Trigonometric.Inverse
/-!
Model of the phase wind-up correction (`windupcorr`, `src/cssrlib/ppp.py` lines 277-312) from line
279 on.  The rows of the local frame of the receiver (`xyz2enu`, line 297) and the direction the
satellite is oriented by (`ess`: sun or inertial velocity) are arguments.

Real numbers are exact.  When `ds` or `dr` vanishes numpy divides zero by zero; `min(1.0, nan)` is
`1.0` in Python, so the angle is zero.
-/

namespace Verif.Windup
open Matrix

abbrev V3 := Fin 3 → ℝ

/-- `np.linalg.norm` -/
noncomputable def norm3 (v : V3) : ℝ := Real.sqrt (v ⬝ᵥ v)

/-- `vnorm` -/
noncomputable def unit (v : V3) : V3 := (norm3 v)⁻¹ • v

/-- lines 282-288 and 291-294: axes `exs`, `eys`, `ezs` of the satellite at `rs` from the direction `ess` -/
noncomputable def satFrame (rs ess : V3) : V3 × V3 × V3 :=
  let ezs := unit (-rs)
  let eys := unit (ezs ⨯₃ ess)
  (eys ⨯₃ ezs, eys, ezs)

/-- line 303: effective dipole of the satellite -/
def dipS (ek exs eys : V3) : V3 := exs - (ek ⬝ᵥ exs) • ek - ek ⨯₃ eys

/-- line 304: effective dipole of the receiver -/
def dipR (ek exr eyr : V3) : V3 := exr - (ek ⬝ᵥ exr) • ek + ek ⨯₃ eyr

/-- lines 305-306 -/
noncomputable def cosine (ds dr : V3) : ℝ :=
  if norm3 ds * norm3 dr = 0 then 1 else max (-1) (min 1 ((ds ⬝ᵥ dr) / (norm3 ds * norm3 dr)))

/-- lines 305-310: the geometric angle in cycles -/
noncomputable def angle (ek ds dr : V3) : ℝ :=
  let ph := Real.arccos (cosine ds dr) / (2 * Real.pi)
  if ek ⬝ᵥ (ds ⨯₃ dr) < 0 then -ph else ph

/-- one set of unit vectors -/
structure Geom where
  ek : V3
  exs : V3
  eys : V3
  exr : V3
  eyr : V3

noncomputable def Geom.ph (g : Geom) : ℝ := angle g.ek (dipS g.ek g.exs g.eys) (dipR g.ek g.exr g.eyr)

/-- `windupcorr`: line 311; `phw` is the previous correction -/
noncomputable def windup (g : Geom) (phw : ℝ) : ℝ := g.ph + ⌊phw - g.ph + 1 / 2⌋

/-- `windupcorr(time, rs, vs, rr, rsun, phw)` with the direction `ess` and the local east and north `exr`, `eyr` -/
noncomputable def windupcorr (rs rr ess exr eyr : V3) (phw : ℝ) : ℝ :=
  let (exs, eys, _) := satFrame rs ess
  windup ⟨unit (rr - rs), exs, eys, exr, eyr⟩ phw

end Verif.Windup
