import Verif.Py
import Verif.Model.Time
/-!
Model of the carrier smoothing of pseudoranges, `stdpos.csmooth`
(`src/cssrlib/pntpos.py` lines 186-212).  Exact rationals.  The four dictionaries of the object are
the state; a call returns the new state together with its value or exception, so that what was
stored before an exception stays.
-/

namespace Verif.Cs
open Verif.Time

/-- `cs_cnt`, `Lp_`, `Ps_`, `cs_t0` -/
structure St where
  cnt : Dict Nat Nat := []
  lp : Dict Nat ℚ := []
  ps : Dict Nat ℚ := []
  t0 : Dict Nat GTime := []

/-- the optional arguments `ns`, `dt_th`, `cs_th` -/
structure Par where
  ns : Nat := 100
  dt : ℚ := 1
  cs : ℚ := 10

/-- one call: epoch, satellite, code and phase (in metres) -/
structure Call where
  t : GTime
  sat : Nat
  P : ℚ
  L : ℚ

/-- lines 209-212 -/
def finish (o : Par) (s : St) (c : Call) : St × Py ℚ :=
  match s.cnt.get? c.sat, s.ps.get? c.sat with
  | some n, some p =>
    ({ s with cnt := s.cnt.set c.sat (min (n + 1) o.ns)
              lp := s.lp.set c.sat c.L
              t0 := s.t0.set c.sat c.t }, .ok p)
  | _, _ => (s, .error .keyError)

/-- lines 196-208 -/
def smooth (o : Par) (s : St) (c : Call) : St × Py ℚ :=
  match s.cnt.get? c.sat with
  | none => (s, .error .keyError)
  | some n =>
    if n = 1 then finish o { s with ps := s.ps.set c.sat c.P } c
    else
      match s.ps.get? c.sat, s.lp.get? c.sat with
      | some p, some l =>
        let pp := p + (c.L - l)
        if |c.P - pp| < o.cs then
          if n = 0 then (s, .error .zeroDivision)
          else
            let alp : ℚ := 1 / n
            finish o { s with ps := s.ps.set c.sat (alp * c.P + (1 - alp) * pp) } c
        else
          finish o { s with cnt := s.cnt.set c.sat 1, ps := s.ps.set c.sat c.P } c
      | _, _ => (s, .error .keyError)

/-- `csmooth(obs, sat, Pm, Lm, ns, dt_th, cs_th)`: lines 186-212 -/
def csmooth (o : Par) (s : St) (c : Call) : St × Py ℚ :=
  if c.P = 0 ∨ c.L = 0 then ({ s with cnt := s.cnt.set c.sat 1 }, .ok c.P)
  else if ¬ s.cnt.mem c.sat then smooth o { s with cnt := s.cnt.set c.sat 1 } c
  else
    match s.t0.get? c.sat with
    | none => (s, .error .keyError)
    | some t =>
      if timediff c.t t > o.dt then smooth o { s with cnt := s.cnt.set c.sat 1 } c
      else smooth o s c

/-- a history of calls: the state and the results, in order -/
def run (o : Par) : List Call → St × List (Py ℚ)
  | [] => ({}, [])
  | c :: h =>   -- most recent call first
    let r := run o h
    let x := csmooth o r.1 c
    (x.1, x.2 :: r.2)

end Verif.Cs
