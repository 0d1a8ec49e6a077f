import Verif.Model.Par
/-!
# Model of `resamb_lambda` (`pppssr.py`)

Real numbers for floats; the float state and its covariance are arrays of `nx` entries, of which the
first `na` are not ambiguities.  The list of single-difference pairs (`ddidx`, see `Model/Ddamb`) is
an argument; its indices are not below `na`.  `restamb` (same file) is not repeated here.
-/

namespace Verif.Lambda
open Matrix

/-- one run of `resamb_lambda` -/
structure AmbIn (na nx nb : Nat) where
  x : Nat → ℝ
  P : Nat → Nat → ℝ
  /-- columns of `ix` -/
  i0 : Nat → Nat
  i1 : Nat → Nat
  thresar : ℝ

variable {na nx nb : Nat}

/-- `y`: line 1126 -/
def AmbIn.y (s : AmbIn na nx nb) (k : Nat) : ℝ := s.x (s.i0 k) - s.x (s.i1 k)

/-- `DP`: line 1127 -/
def AmbIn.dp (s : AmbIn na nx nb) (k j : Nat) : ℝ := s.P (s.i0 k) (na + j) - s.P (s.i1 k) (na + j)

/-- `Qb`: line 1128 -/
def AmbIn.qb (s : AmbIn na nx nb) (k l : Nat) : ℝ := s.dp k (s.i0 l - na) - s.dp k (s.i1 l - na)

/-- `Qab`: line 1129 -/
def AmbIn.qab (s : AmbIn na nx nb) (a k : Nat) : ℝ := s.P a (s.i0 k) - s.P a (s.i1 k)

/-- what is used of the result of `mlambda` -/
structure MlOut (nb : Nat) where
  b : Fin nb → ℝ
  s0 : ℝ
  s1 : ℝ
  nfix : Nat

/-- the outcome: a fixed solution (`nav.xa`, `nav.Pa`, the double differences) or none (`nb = 0`) -/
inductive AmbRes (na nb : Nat) where
  | fixed (xa : Fin na → ℝ) (Pa : Matrix (Fin na) (Fin na) ℝ) (b : Fin nb → ℝ)
  | none

open Classical in
/-- the decision and the update: lines 1133-1155 -/
noncomputable def accept (s : AmbIn na nx nb) (parmode : Nat) (m : MlOut nb) : AmbRes na nb :=
  if 0 < m.nfix ∧ (parmode = 2 ∨ m.s0 ≤ 0 ∨ s.thresar ≤ m.s1 / m.s0) then
    let Qab : Matrix (Fin na) (Fin nb) ℝ := Matrix.of fun a k => s.qab a k
    let Qb : Matrix (Fin nb) (Fin nb) ℝ := Matrix.of fun k l => s.qb k l
    let K := Qab * Qb⁻¹
    .fixed (fun a : Fin na => s.x a - (K *ᵥ (fun k : Fin nb => s.y k - m.b k)) a)
      ((Matrix.of fun i j : Fin na => s.P i j) - K * Qabᵀ) m.b
  else .none

/-- first column and first two distances of a list of two candidates -/
def firstTwo : List ((Fin nb → ℝ) × ℝ) → Nat → Option (MlOut nb)
  | [p, q], nfix => some { b := p.1, s0 := p.2, s1 := q.2, nfix := nfix }
  | _, _ => Option.none

/-- `resamb_lambda(sat, parmode, P0)`: lines 1113-1155 for at least one double difference (otherwise
-1 is returned) and `parmode` 1 or 2; `none` while a search has not ended -/
noncomputable def resamb (sr : List ℝ → ℝ) (s : AmbIn na nx nb) (parmode : Nat) (P0 : ℝ) (fuel : Nat) :
    Py (Option (AmbRes na nb)) :=
  if parmode = 2 then
    match mlambdaPar sr nb s.y s.qb P0 2 fuel with
    | .error e => .error e
    | .ok r => .ok (r.bind fun
      | .fixed nfix cands => (firstTwo cands nfix).map (accept s parmode)
      | .unfixed z => some (accept s parmode { b := z, s0 := 0, s1 := 0, nfix := 0 }))
  else
    match mlambda nb s.y s.qb 2 fuel with
    | .error e => .error e
    | .ok r => .ok (r.bind fun cands => (firstTwo cands nb).map (accept s parmode))

end Verif.Lambda
