import Verif.Py
/-!
Model of one epoch of the positioning: `pppos.process` in `src/cssrlib/pppssr.py`, lines 1385-1537, with `valpos` (lines
229-243), and of the stored result: `process.save_output` in `src/cssrlib/utils.py`, lines 126-140.

The stages are arbitrary functions (`Stages`); they are modelled in `Verif.Eph`, `Verif.Edit`, `Verif.Ud`, `Verif.Sd`,
`Verif.Resamb`.  Of the measurement model only the differences formed matter here (they mark satellites as used).  Not
modelled: position of the sun, log output, the state left behind by an exception.
-/

namespace Verif.Proc

/-- the part of `nav` read and written here: filter state with covariance `x`, fixed solution `xa`, status, time of solution,
number of satellites used, counters, results of editing, outage counters, marks of use -/
structure Nav (X A E : Type) where
  x : X
  xa : A
  smode : Int
  t : Int
  ns : Nat
  nsat : Nat × Nat × Nat
  edt : E
  outc : Nat → Nat → Int
  vsat : Nat → Nat → Bool

structure Obs where
  t : Int
  sat : List Nat
  base : Bool := false

/-- the stages: satellite positions (`satposs`: number of satellites with position), editing and selection (`qcedit`,
`base_process`: flags and satellites left), time update (`udstate`), differences formed (`zdres`, `sdres`: the pairs of
satellites and the column), update (`kfupdate`), ambiguity resolution (`resamb_lambda`: `none` when not resolved), hold -/
structure Stages (X A E : Type) where
  satposs : Nav X A E → Obs → Py Nat
  select : Nav X A E → Obs → Py (E × List Nat)
  udstate : Nav X A E → Obs → Py (X × (Nat → Nat → Int))
  float : Nav X A E → Obs → X → List Nat → Py (List (Nat × Nat × Nat))
  fixed : Nav X A E → Obs → A → List Nat → Py (List (Nat × Nat × Nat))
  update : Nav X A E → Obs → X → List Nat → Py X
  resolve : Nav X A E → List Nat → Py (Option A)
  hold : Nav X A E → A → Py X

variable {X A E : Type}

/-- lines 970-971: the satellites of phase differences are marked -/
def mark (nf : Nat) (rows : List (Nat × Nat × Nat)) (vsat : Nat → Nat → Bool) : Nat → Nat → Bool := fun s f =>
  vsat s f || rows.any fun r => r.2.2 < nf && r.2.2 == f && (r.1 == s || r.2.1 == s)

/-- `valpos(v, R)`: lines 229-243 -/
def valpos : Bool := true

/-- lines 1498-1509: one satellite -/
def count (nf : Nat) (n : Nav X A E) (s : Nat) : Nav X A E :=
  (List.range nf).foldl (fun n f =>
    if n.vsat s f = false then n
    else
      let n := { n with outc := fun s' f' => if s' = s ∧ f' = f then 0 else n.outc s' f' }
      if f = 0 then { n with ns := n.ns + 1 } else n) n

/-- lines 1496-1511 -/
def accept (nf : Nat) (n : Nav X A E) (sat : List Nat) (xp : X) : Nav X A E :=
  if valpos then sat.foldl (count nf) { n with x := xp, ns := 0 } else { n with smode := 0 }

/-- lines 1513-1530: ambiguities -/
def ambiguities (S : Stages X A E) (nf : Nat) (armode : Int) (n : Nav X A E) (o : Obs) (sat : List Nat) : Py (Nav X A E) :=
  let n := { n with smode := 5 }
  if 0 < armode then do
    let r ← S.resolve n sat
    match r with
    | none => pure n
    | some xa => do
      let n := { n with xa := xa }
      let rows ← S.fixed n o xa sat
      let n := { n with vsat := mark nf rows n.vsat }
      if valpos then do
        let x ← if armode = 3 then S.hold n xa else pure n.x
        pure { n with x := x, smode := 4 }
      else pure n
  else pure n

/-- `process`: lines 1385-1537; the value returned is `none` or 0 -/
def process (S : Stages X A E) (nf : Nat) (armode : Int) (n : Nav X A E) (o : Obs) : Py (Nav X A E × Option Int) :=
  if o.sat = [] then .ok (n, none)
  else do
    let n := { n with nsat := (o.sat.length, n.nsat.2) }
    let k ← S.satposs n o
    let n := { n with nsat := (n.nsat.1, k, n.nsat.2.2) }
    if k < 6 then pure (n, none)
    else do
      let (edt, sat) ← S.select n o
      let n := { n with edt := edt, nsat := (n.nsat.1, n.nsat.2.1, sat.length) }
      if sat.length < 6 then pure (n, none)
      else do
        let (x, outc) ← S.udstate n o
        let n := { n with x := x, outc := outc }
        let rows ← S.float n o n.x sat
        let n := { n with vsat := mark nf rows n.vsat }
        let xp ← S.update n o n.x sat
        let rows ← S.float n o xp sat
        let n := { n with vsat := mark nf rows n.vsat }
        let n := accept nf n sat xp
        let n ← ambiguities S nf armode n o sat
        pure ({ n with t := o.t }, some 0)

/-- epochs one after the other -/
def run (S : Stages X A E) (nf : Nat) (armode : Int) (n : Nav X A E) (l : List Obs) : Py (Nav X A E) :=
  l.foldlM (fun n o => do let r ← process S nf armode n o; pure r.1) n

/-- `save_output(t, ne)`: utils.py lines 126-140: time, status and solution; `pos` and `posa` take the position from the float
and the fixed solution -/
def record {V : Type} (pos : X → V) (posa : A → V) (n : Nav X A E) (t : Int) : Int × Int × V :=
  (t, n.smode, if n.smode = 4 then posa n.xa else pos n.x)

end Verif.Proc
