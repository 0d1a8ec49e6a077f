import Verif.Model.Sig
import Verif.Model.Msm
import Verif.Model.Pppssr
/-!
Model of the editing of observations: `pppos.qcedit` in `src/cssrlib/pppssr.py` and its use by
`rtkpos.base_process` in `src/cssrlib/rtk.py`.

Not modelled: log output (`monlevel = 0`), NaN measurements, and the computation of the elevation from
the predicted position (lines 1190-1214, 1268-1269), which is an input here.
-/

namespace Verif.Edit
open Verif.Sat Verif.Sig
open Verif.Ppp (nsat sats)

/-- observations of an epoch: satellite numbers and, per row, `cols` columns of `lli`, `P`, `L`, `S`; the signals of each
constellation and type; with the results of the satellite positions (`eph`: neither orbit nor clock is NaN, `svh`) and the
elevation -/
structure Obs where
  sat : List Nat
  cols : Nat
  lli : Nat → Nat → Nat
  P : Nat → Nat → ℚ
  L : Nat → Nat → ℚ
  S : Nat → Nat → ℚ
  sig : Sys → Typ → Option (List Sig)
  eph : Nat → Bool
  svh : Nat → Int
  el : Nat → ℚ

/-- options -/
structure Cfg where
  nf : Nat
  excl : List Nat := []
  elmin : ℚ
  cnrMin : ℚ := 25
  cnrMinPY : ℚ := 15
  thres : ℚ := 15 / 100
  gloCh : Dict Nat Int := []

/-- a column of an array of the epoch -/
def col {α : Type} (o : Obs) (m : Nat → Nat → α) (j f : Nat) : Py α :=
  if f < o.cols then .ok (m j f) else .error .indexError

/-- `obs.sig[sys][typ]` -/
def sigList (o : Obs) (sys : Sys) (t : Typ) : Py (List Sig) :=
  match o.sig sys t with
  | some l => .ok l
  | none => .error .keyError

/-- `isGPS_PY()`: gnss.py lines 441-446 -/
def isPY (g : Sig) : Bool := g.sys = .gps && (g.sig = 123 || g.sig = 223)

/-- `wavelength(k)`: gnss.py lines 556-639; `none` is `None`: without a channel the first two bands of GLONASS have no
frequency -/
def wavelength (g : Sig) (k : Option Int) : Option ℚ :=
  let band := (g.sig.tdiv 100).toNat
  if g.sys = .glo ∧ k = none ∧ band ≤ 2 then none
  else (Msm.frequency g.sys band (k.getD 0)).map fun f => Msm.clight / f

/-- the flag of one signal: pppssr.py lines 1287-1338 -/
def flag (c : Cfg) (o : Obs) (cn : List Sig) (j f : Nat) : Py Nat := do
  let l ← col o o.lli j f
  if l = 1 then pure 1
  else do
    let p ← col o o.P j f
    if p = 0 then pure 1
    else do
      let l ← col o o.L j f
      if l = 0 then pure 1
      else do
        let g ← pyGet cn f
        let s ← col o o.S j f
        if 0 < s ∧ s < (if isPY g then c.cnrMinPY else c.cnrMin) then pure 1 else pure 0

/-- the channel of a GLONASS satellite: lines 1345-1350 -/
def channel (c : Cfg) (sys : Sys) (s : Nat) : Py (Option Int) :=
  if sys = .glo then do
    let k ← Dict.getItem c.gloCh s
    pure (some k)
  else .ok none

/-- `x*lam` with `lam` possibly `None` -/
def timesLam (x : ℚ) (lam : Option ℚ) : Py ℚ :=
  match lam with
  | some l => .ok (x * l)
  | none => .error .typeError

/-- detection of cycle slips by the geometry-free combination: lines 1340-1371; the second component tells whether a slip
was found.  `gf` is `nav.gf` of the rover or `nav.gf_r` of the base, of length `MAXSAT` and indexed by the satellite number. -/
def gfSlip (c : Cfg) (o : Obs) (s j : Nat) (gf : List ℚ) : Py (List ℚ × Bool) :=
  if o.cols > 1 then do
    let l1 := o.L j 0
    let l2 := o.L j 1
    let sys := (sat2prn s).1
    let sl ← sigList o sys .L
    match sl with
    | g1 :: g2 :: _ => do
      let k ← channel c sys s
      if l1 ≠ 0 ∧ l2 ≠ 0 then do
        let a ← timesLam l1 (wavelength g1 k)
        let b ← timesLam l2 (wavelength g2 k)
        let gf1 := a - b
        let gf0 ← pyGet gf s
        let gf' := if gf1 ≠ 0 then gf.set s gf1 else gf
        pure (gf', decide (gf0 ≠ 0 ∧ gf1 ≠ 0 ∧ |gf1 - gf0| > c.thres))
      else pure (gf, false)
    | _ => .error .valueError
  else .ok (gf, false)

/-- the flags of the first two signals set: line 1364 -/
def setTwo (row : List Nat) : List Nat := row.mapIdx fun f x => if f < 2 then 1 else x

/-- one satellite: lines 1227-1376; the row of flags and the stored combinations -/
def editSat (c : Cfg) (o : Obs) (gf : List ℚ) (s : Nat) : Py (List Nat × List ℚ) :=
  match o.sat.idxOf? s with
  | none => .ok (List.replicate c.nf 1, gf)
  | some j =>
    if s ∈ c.excl then .ok (List.replicate c.nf 1, gf)
    else if o.eph j = false then .ok (List.replicate c.nf 1, gf)
    else if o.svh j > 0 then .ok (List.replicate c.nf 1, gf)
    else if o.el j < c.elmin then .ok (List.replicate c.nf 1, gf)
    else do
      let sys := (sat2prn s).1
      let _ ← sigList o sys .C
      let _ ← sigList o sys .L
      let cn ← sigList o sys .S
      let row ← (List.range c.nf).mapM (flag c o cn j)
      let (gf, slip) ← gfSlip c o s j gf
      pure (if slip then setTwo row else row, gf)

/-- result of the editing: the table `nav.edt` (row of satellite number `s` at `s - 1`), the stored combinations and the
accepted satellites -/
structure Out where
  edt : List (List Nat) := []
  gf : List ℚ
  sat : List Nat := []

/-- `qcedit(obs, rs, dts, svh)`: pppssr.py lines 1187-1378 -/
def qcedit (c : Cfg) (o : Obs) (gf : List ℚ) : Py Out :=
  sats.foldlM (fun r s => do
    let (row, gf) ← editSat c o r.gf s
    pure ⟨r.edt ++ [row], gf, if row.any fun x => x > 0 then r.sat else r.sat ++ [s]⟩) ⟨[], gf, []⟩

/-- combinations stored for rover and base -/
structure Gf where
  rover : List ℚ
  base : List ℚ

/-- the editing of an epoch of relative positioning: pppssr.py lines 1417 and 1430 and rtk.py lines 36-40: the rover, the base,
and the rover again; the table left behind, the stored combinations and the common satellites -/
def rtkEdit (c : Cfg) (o b : Obs) (g : Gf) : Py (List (List Nat) × Gf × List Nat) := do
  let r1 ← qcedit c o g.rover
  let rb ← qcedit c b g.base
  let r2 ← qcedit c o r1.gf
  pure (r2.edt, ⟨r2.gf, rb.gf⟩, r2.sat.filter fun s => s ∈ rb.sat)

end Verif.Edit
