import Verif.Model.Kepler
import Mathlib.Algebra.Order.Floor.Ring
/-!
Model of the evaluation of GLONASS ephemerides: `deq`, `glorbit`, `geph2pos`, `geph2clk`, `geph2rel` (lines 55-126 of
`src/cssrlib/ephemeris.py`).

Real numbers are exact.  The loop of `geph2pos` has no bound in the code; here it runs at most as often as it is told and
says so (`none`) when that is not enough.
-/

noncomputable section

namespace Verif.GloOrbit
open Real Verif.Kepler

/-- position and velocity -/
@[ext] structure St where
  r : V3
  v : V3

/-- gnss.py lines 23, 26, 31, 37 -/
def mu : ℝ := 398600440000000
def j2 : ℝ := 10826257 / 10 ^ 10
def omge : ℝ := 7292115 / 10 ^ 11
def re : ℝ := 6378136

/-- `deq`: lines 55-74 -/
def deq (acc : V3) (x : St) : St :=
  let r2 := dot x.r x.r
  let r3 := r2 * sqrt r2
  let omg2 := omge ^ 2
  if r2 ≤ 0 then ⟨⟨0, 0, 0⟩, ⟨0, 0, 0⟩⟩
  else
    let a := 3 / 2 * j2 * mu * re ^ 2 / r2 / r3
    let b := 5 * x.r.z ^ 2 / r2
    let c := -mu / r3 - a * (1 - b)
    ⟨x.v, ⟨(c + omg2) * x.r.x + 2 * omge * x.v.y + acc.x,
           (c + omg2) * x.r.y - 2 * omge * x.v.x + acc.y,
           (c - 2 * a) * x.r.z + acc.z⟩⟩

/-- `x + k*t` for vectors of six components -/
def V3.axpy (x k : V3) (t : ℝ) : V3 := ⟨x.x + k.x * t, x.y + k.y * t, x.z + k.z * t⟩
def St.axpy (x k : St) (t : ℝ) : St := ⟨V3.axpy x.r k.r t, V3.axpy x.v k.v t⟩
/-- `k1 + 2*k2 + 2*k3 + k4` -/
def sum4 (k1 k2 k3 k4 : ℝ) : ℝ := k1 + 2 * k2 + 2 * k3 + k4
def V3.sum4 (a b c d : V3) : V3 := ⟨GloOrbit.sum4 a.x b.x c.x d.x, GloOrbit.sum4 a.y b.y c.y d.y, GloOrbit.sum4 a.z b.z c.z d.z⟩
def St.sum4 (a b c d : St) : St := ⟨V3.sum4 a.r b.r c.r d.r, V3.sum4 a.v b.v c.v d.v⟩

/-- `glorbit`: lines 77-86, for any right hand side -/
def rk4 (f : St → St) (t : ℝ) (x : St) : St :=
  let k1 := f x
  let k2 := f (x.axpy k1 (t / 2))
  let k3 := f (x.axpy k2 (t / 2))
  let k4 := f (x.axpy k3 t)
  x.axpy (St.sum4 k1 k2 k3 k4) (t / 6)

def glorbit (acc : V3) (t : ℝ) (x : St) : St := rk4 (deq acc) t x

/-- the loop of `geph2pos`: lines 97-105; `tt` is the step in use, at most `n` passes -/
def loop (step : ℝ → St → St) (T : ℝ) : Nat → ℝ → ℝ → St → Option St
  | 0, t, _, x => if |t| ≤ 1 / 10 ^ 9 then some x else none
  | n + 1, t, tt, x =>
    if |t| ≤ 1 / 10 ^ 9 then some x
    else
      let tt := if |t| < T then t else tt
      loop step T n (t - tt) tt (step tt x)

/-- `Geph` (gnss.py lines 764-810): the fields used -/
structure Geph where
  toe : ℝ
  taun : ℝ
  gamn : ℝ
  pos : V3
  vel : V3
  acc : V3

/-- `geph2pos(time, geph, True, TSTEP)`: lines 89-113; at most `n` passes of the loop -/
def geph2pos (n : Nat) (time : ℝ) (g : Geph) (T : ℝ := 1) : Option (St × ℝ) :=
  let t := time - g.toe
  let dts := -g.taun + g.gamn * t
  (loop (glorbit g.acc) T n t (if t < 0 then -T else T) ⟨g.pos, g.vel⟩).map fun x => (x, dts)

/-- `geph2clk`: lines 116-122 -/
def geph2clk (time : ℝ) (g : Geph) : ℝ :=
  let ts := time - g.toe
  let t1 := ts - (-g.taun + g.gamn * ts)
  let t2 := ts - (-g.taun + g.gamn * t1)
  (-g.taun + g.gamn * t2)

/-- `geph2rel`: lines 125-126 -/
def geph2rel (x : St) : ℝ := -2 * dot x.r x.v / clight ^ 2

end Verif.GloOrbit
