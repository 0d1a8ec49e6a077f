import Verif.Model.Sig
import Mathlib.Analysis.SpecialFunctions.Trigonometric.Inverse
import Mathlib.Data.Fin.VecNotation
/-!
Model of the antenna corrections of `src/cssrlib/peph.py`: `substSigTx`, `substSigRx`, `antModelTx`, `antModelRx`, `apc2com`
(lines 642-969), `orb2ecef`.

Numbers are real.  An antenna is what `searchpcv` (see `Model/Peph.lean`) returns; the rotation `A`, the direction to the
satellite in the local frame (`ecef2enu`) and the frequencies of the signals are parameters.  NaN is `none`.
-/

namespace Verif.Antenna
open Verif.Sat Verif.Sig

abbrev V3 := Fin 3 → ℝ

def dot (a b : V3) : ℝ := a 0 * b 0 + a 1 * b 1 + a 2 * b 2

/-- `pcv_t`: lines 491-501; offsets and variations in millimetres -/
structure Ant where
  zen0 : ℝ
  zen1 : ℝ
  dzen : ℝ
  off : Sig → Option V3
  var : Sig → Option (List ℝ)

/-! ### substitution of signals -/

/-- the phase signal of the band: `sig.toTyp(uTYP.L).toAtt()` -/
def phase (s : Sig) : Py Sig := toAtt (toTyp s .L) []

/-- lines 673-684 -/
def otherTx (s : Sig) : Sig :=
  if s.sys = .gps then (if s.sig = 500 then ⟨s.sys, s.typ, 200⟩ else s)
  else if s.sys = .glo then (if s.sig = 300 then ⟨s.sys, s.typ, 200⟩ else s)
  else if s.sys = .bds then (if s.sig = 800 then ⟨s.sys, s.typ, 500⟩ else s)
  else s

/-- `substSigTx(pcv, sig)`: lines 642-684 -/
def substTx (a : Ant) (s : Sig) : Py Sig := do
  let s ← phase s
  if (a.off s).isSome then return s else return otherTx s

/-- lines 718-753 -/
def otherRx (s : Sig) : Sig :=
  if s.sys = .gps then (if s.sig = 500 then ⟨s.sys, s.typ, 200⟩ else s)
  else if s.sys = .glo then
    if s.sig = 100 then ⟨.gps, s.typ, 100⟩ else if s.sig = 200 ∨ s.sig = 300 then ⟨.gps, s.typ, 200⟩ else s
  else if s.sys = .gal then
    if s.sig = 100 then ⟨.gps, s.typ, 100⟩
    else if s.sig = 500 ∨ s.sig = 600 ∨ s.sig = 700 ∨ s.sig = 800 then ⟨.gps, s.typ, 200⟩ else s
  else if s.sys = .bds then
    if s.sig = 100 ∨ s.sig = 200 then ⟨.gps, s.typ, 100⟩
    else if s.sig = 500 ∨ s.sig = 600 ∨ s.sig = 700 ∨ s.sig = 800 then ⟨.gps, s.typ, 200⟩ else s
  else if s.sys = .qzs then
    if s.sig = 100 then ⟨.gps, s.typ, 100⟩ else if s.sig = 200 ∨ s.sig = 500 ∨ s.sig = 600 then ⟨.gps, s.typ, 200⟩ else s
  else if s.sys = .irn then (if s.sig = 500 then ⟨.gps, s.typ, 200⟩ else s)
  else if s.sys = .sbs then
    if s.sig = 100 then ⟨.gps, s.typ, 100⟩ else if s.sig = 500 then ⟨.gps, s.typ, 200⟩ else s
  else s

/-- `substSigRx(pcv, sig)`: lines 687-753 -/
def substRx (a : Ant) (s : Sig) : Py Sig := do
  let s ← phase s
  if (a.off s).isSome then return s else return otherRx s

/-! ### variation -/

/-- `np.arange(a, b, d)` for a positive step -/
noncomputable def arange (a b d : ℝ) : List ℝ := (List.range ⌈(b - a) / d⌉.toNat).map fun k : Nat => a + k * d

/-- inner part of `np.interp`: from the first interval on -/
noncomputable def interpFrom (x : ℝ) : List (ℝ × ℝ) → ℝ
  | [] => 0
  | [p] => p.2
  | p :: q :: l => if x < q.1 then p.2 + (q.2 - p.2) / (q.1 - p.1) * (x - p.1) else interpFrom x (q :: l)

/-- `np.interp(x, xp, fp)` -/
noncomputable def interp (x : ℝ) (xp fp : List ℝ) : Py ℝ :=
  if xp.length ≠ fp.length ∨ xp = [] then .error .valueError
  else
    match xp.zip fp with
    | [] => .error .valueError
    | p :: l => .ok (if x < p.1 then p.2 else interpFrom x (p :: l))

/-- the grid of zenith angles: lines 804, 904 -/
noncomputable def grid (a : Ant) : List ℝ := arange a.zen0 (a.zen1 + a.dzen) a.dzen

/-- zenith angle in degrees of a direction with vertical part `c`: lines 803, 903 -/
noncomputable def zenith (c : ℝ) : ℝ := Real.arccos c * (180 / Real.pi)

/-! ### receiving antenna -/

/-- one signal: lines 909-922; `e` in the local frame -/
noncomputable def rxOne (a : Ant) (e : V3) (s : Sig) : Py (Option ℝ) := do
  let s ← substRx a s
  match a.off s, a.var s with
  | some off, some var =>
    let pcv ← interp (zenith (e 2)) (grid a) var
    return some ((-dot off e + pcv) * (1 / 1000))
  | _, _ => return none

/-- `antModelRx(nav, pos, e, sigs)`: lines 863-924 -/
noncomputable def antModelRx (a : Ant) (e : V3) (sigs : List Sig) : Py (List (Option ℝ)) := sigs.mapM (rxOne a e)

/-! ### transmitting antenna -/

/-- `off@A`: `A` has the axes of the satellite as rows -/
def toEcef (A : Fin 3 → V3) (off : V3) : V3 := fun k => off 0 * A 0 k + off 1 * A 1 k + off 2 * A 2 k

noncomputable def norm3 (v : V3) : ℝ := Real.sqrt (dot v v)

noncomputable def unit3 (v : V3) : V3 := fun k => v k / norm3 v

/-- `np.cross` -/
def cross (a b : V3) : V3 := ![a 1 * b 2 - a 2 * b 1, a 2 * b 0 - a 0 * b 2, a 0 * b 1 - a 1 * b 0]

/-- `orb2ecef(time, rs, rsun)`: lines 1131-1147; the axes of the satellite -/
noncomputable def orb2ecef (rs rsun : V3) : Fin 3 → V3 :=
  let ez := unit3 fun k => -rs k
  let es := unit3 fun k => rsun k - rs k
  let ey := unit3 (cross ez es)
  ![cross ey ez, ey, ez]

/-- weights of the reference signals: lines 810-818; one frequency for each signal -/
noncomputable def weights : List ℝ → Py (List ℝ)
  | [f0, f1] => if f0 ^ 2 - f1 ^ 2 = 0 then .error .zeroDivision
      else .ok [f0 ^ 2 / (f0 ^ 2 - f1 ^ 2), -f1 ^ 2 / (f0 ^ 2 - f1 ^ 2)]
  | l => .ok (l.map fun _ => 1)

/-- a signal of the reference: lines 820-832 -/
noncomputable def addRef (a : Ant) (o : Option V3) (x : ℝ × Sig) : Py (Option V3) := do
  let s ← substTx a x.2
  match a.off s with
  | some off => return o.map fun o => fun k => o k + x.1 * off k
  | none => return none

/-- offset of the reference signals: lines 806-832; `ref`: signals with frequencies -/
noncomputable def refOff (a : Ant) : Option (List (ℝ × Sig)) → Py (Option V3)
  | none => .ok (some fun _ => 0)
  | some l => do
    let w ← weights (l.map Prod.fst)
    (w.zip (l.map Prod.snd)).foldlM (addRef a) (some fun _ => 0)

/-- one signal: lines 837-858; the offset is used before it is known to exist -/
noncomputable def txOne (a : Ant) (A : Fin 3 → V3) (e : V3) (off0 : Option V3) (s : Sig) : Py (Option ℝ) := do
  let s ← substTx a s
  match a.off s with
  | none => .error .keyError
  | some off =>
    match a.var s with
    | none => return none
    | some var =>
      let pcv ← interp (zenith (dot (A 2) (-e))) (grid a) var
      return off0.map fun o => (-dot (toEcef A fun k => off k - o k) (-e) + pcv) * (1 / 1000)

/-- `antModelTx(nav, e, sigs, sat, time, rs, sig0)`: lines 756-860 -/
noncomputable def antModelTx (ant : Option Ant) (A : Fin 3 → V3) (e : V3) (sigs : List Sig) (ref : Option (List (ℝ × Sig))) :
    Py (Option (List (Option ℝ))) :=
  match ant with
  | none => .ok none
  | some a => do
    let off0 ← refOff a ref
    let l ← sigs.mapM (txOne a A e off0)
    return some l

/-- lines 955-967 -/
noncomputable def comOne (a : Ant) (A : Fin 3 → V3) (dr : V3) (x : ℝ × Sig) : Py V3 := do
  let s ← substTx a x.2
  match a.off s with
  | none => .error .keyError
  | some off => return fun k => dr k - toEcef A (fun j => x.1 * off j * (1 / 1000)) k

/-- `apc2com(nav, sat, time, rs, sigs)`: lines 927-969; `l`: signals with frequencies -/
noncomputable def apc2com (ant : Option Ant) (A : Fin 3 → V3) (l : List (ℝ × Sig)) : Py (Option V3) :=
  match ant with
  | none => .ok none
  | some a =>
    if l.length = 1 ∨ l.length = 2 then do
      let w ← weights (l.map Prod.fst)
      let dr ← (w.zip (l.map Prod.snd)).foldlM (comOne a A) fun _ => 0
      return some dr
    else .ok none

end Verif.Antenna
