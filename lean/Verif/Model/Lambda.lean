import Verif.Py
import Mathlib.Algebra.Order.Floor.Ring
import Mathlib.Algebra.Order.Field.Basic
import Mathlib.Algebra.BigOperators.Group.Finset.Basic
import Mathlib.Data.List.Sort
/-!
# Model of `mlambda.py` (integer ambiguity resolution)

Floating point numbers are elements of an exact ordered field `K` (ℚ for computed examples, ℝ for
`ldldecom`, which takes square roots).  numpy arrays are functions of their indices together with
the dimension `n`; every index used by the code is below `n` when `n ≥ 1`.  `int32` arrays are `ℤ`.
`while` loops are iterated step functions; that they end is proved, not assumed.
-/

namespace Verif.Lambda

section
variable {K : Type} [Field K] [LinearOrder K] [IsStrictOrderedRing K] [FloorRing K]

/-- `round(x)` of Python and `np.round(x)`: nearest integer, ties to even -/
def rnd (x : K) : Int :=
  if x - ⌊x⌋ < 1 / 2 then ⌊x⌋
  else if 1 / 2 < x - ⌊x⌋ then ⌊x⌋ + 1
  else if ⌊x⌋ % 2 = 0 then ⌊x⌋ else ⌊x⌋ + 1

/-- `np.sign` of a float, assigned to an integer -/
def sgn (x : K) : Int := if 0 < x then 1 else if x < 0 then -1 else 0

/-- assignment to one entry of an array -/
def upd {α : Type} (f : Nat → α) (i : Nat) (v : α) : Nat → α := fun j => if j = i then v else f j

/-- `step = np.sign(left); if step == 0: step = 1` (lines 97-99, 116-119, 169-171, 196-198) -/
def step0 (left : K) : Int := if sgn left = 0 then 1 else sgn left

/-- `-step - np.sign(step)` (lines 134, 142, 214, 228) -/
def nextStep (s : Int) : Int := -s - Int.sign s

/-- `np.argmax(f[:n])`: the first largest -/
def argmax (f : Nat → K) : Nat → Nat
  | 0 => 0
  | n + 1 => if f (argmax f n) < f n then n else argmax f n

/-! ## The candidate store of both searches -/

/-- `afixed` (by candidate), `sqnorm`, `imax` and the number `count + 1` of candidates stored in
order -/
structure Cand (K : Type) where
  cnt : Nat
  imax : Nat
  af : Nat → Nat → Int
  sq : Nat → K

/-- lines 121-131 and 200-210 -/
def record (ncands : Nat) (c : Cand K) (chi2 : K) (z : Nat → Int) (nd : K) : Cand K × K :=
  if c.cnt + 1 < ncands then
    ({ c with cnt := c.cnt + 1, af := upd c.af c.cnt z, sq := upd c.sq c.cnt nd }, chi2)
  else
    let sq := upd c.sq c.imax nd
    let im := argmax sq ncands
    ({ c with imax := im, af := upd c.af c.imax z, sq := sq }, sq im)

/-- lines 144-148 and 238-242: the candidates in the order of `np.argsort(sqnorm)` (which leaves the
order of equal values open; here the first stays first) -/
def output (ncands : Nat) (c : Cand K) : List ((Nat → Int) × K) :=
  ((List.range ncands).insertionSort fun i j => c.sq i ≤ c.sq j).map fun i => (c.af i, c.sq i)

/-! ## `msearch` -/

/-- the variables of `msearch` -/
structure Ms (K : Type) where
  k : Nat
  chi2 : K
  dist : Nat → K
  acond : Nat → K
  z : Nat → Int
  s : Nat → Int
  left : K
  S : Nat → Nat → K
  cand : Cand K

/-- lines 84-105 -/
def msInit (n : Nat) (ahat : Nat → K) (ncands : Nat) : Ms K :=
  let a := ahat (n - 1)
  { k := n - 1, chi2 := 10 ^ 18, dist := fun _ => 0, acond := upd (fun _ => 0) (n - 1) a,
    z := upd (fun _ => 0) (n - 1) (rnd a), left := a - rnd a,
    s := upd (fun _ => 0) (n - 1) (step0 (a - rnd a)), S := fun _ _ => 0,
    cand := ⟨0, ncands - 1, fun _ _ => 0, fun _ => 0⟩ }

/-- one round of the loop: lines 108-142; `none` is `endSearch` -/
def msStep (n : Nat) (L : Nat → Nat → K) (d ahat : Nat → K) (ncands : Nat) (c : Ms K) :
    Option (Ms K) :=
  let nd := c.dist c.k + c.left ^ 2 / d c.k
  if nd < c.chi2 then
    if c.k ≠ 0 then
      let k := c.k - 1
      let S := upd c.S k fun i => if i < k + 1
        then c.S (k + 1) i + ((c.z (k + 1) : K) - c.acond (k + 1)) * L (k + 1) i else c.S k i
      let a := ahat k + S k k
      some { c with k := k, dist := upd c.dist k nd, S := S, acond := upd c.acond k a,
                    z := upd c.z k (rnd a), left := a - rnd a,
                    s := upd c.s k (step0 (a - rnd a)) }
    else
      let r := record ncands c.cand c.chi2 c.z nd
      let z0 := c.z 0 + c.s 0
      some { c with cand := r.1, chi2 := r.2, z := upd c.z 0 z0, left := c.acond 0 - z0,
                    s := upd c.s 0 (nextStep (c.s 0)) }
  else if c.k = n - 1 then none
  else
    let k := c.k + 1
    let zk := c.z k + c.s k
    some { c with k := k, z := upd c.z k zk, left := c.acond k - zk,
                  s := upd c.s k (nextStep (c.s k)) }

/-- the loop run for at most `fuel` rounds: `some` once it has ended -/
def iter {σ : Type} (f : σ → Option σ) : Nat → σ → Option σ
  | 0, _ => none
  | m + 1, c => match f c with
    | none => some c
    | some c' => iter f m c'

/-- `msearch(L, d, ahat, ncands)`: lines 83-148 -/
def msearch (n : Nat) (L : Nat → Nat → K) (d ahat : Nat → K) (ncands fuel : Nat) :
    Option (List ((Nat → Int) × K)) :=
  (iter (msStep n L d ahat ncands) fuel (msInit n ahat ncands)).map fun c => output ncands c.cand

/-! ## `estimILS` -/

/-- the variables of `estimILS`; `up` is `some ilevel` inside the second inner loop -/
structure Es (K : Type) where
  k : Nat
  chi2 : K
  dist : Nat → K
  acond : Nat → K
  z : Nat → Int
  s : Nat → Int
  left : Nat → K
  S : Nat → Nat → K
  path : Nat → Nat
  up : Option Nat
  cand : Cand K

/-- lines 153-181 -/
def esInit (n : Nat) (ahat : Nat → K) (ncands : Nat) : Es K :=
  let a := ahat (n - 1)
  { k := n - 1, chi2 := 10 ^ 18, dist := fun _ => 0, acond := upd (fun _ => 0) (n - 1) a,
    z := upd (fun _ => 0) (n - 1) (rnd a), left := upd (fun _ => 0) (n - 1) (a - rnd a),
    s := upd (fun _ => 0) (n - 1) (step0 (a - rnd a)), S := fun _ _ => 0,
    path := fun _ => n - 1, up := none, cand := ⟨0, ncands - 1, fun _ _ => 0, fun _ => 0⟩ }

/-- `for j in range(path[k], k, -1): S[j-1, k] = S[j, k]-left[j]*L[j, k]` (lines 190-191): `m` rows
starting with `j = top` -/
def sweep (L : Nat → Nat → K) (left : Nat → K) (k : Nat) :
    Nat → Nat → (Nat → Nat → K) → (Nat → Nat → K)
  | 0, _, S => S
  | m + 1, top, S =>
    sweep L left k m (top - 1) (upd S (top - 1) (upd (S (top - 1)) k (S top k - left top * L top k)))

/-- `for j in range(ilevel-1, -1, -1): if path[j] < k: path[j] = k else: break` (lines 232-236): the
indices below `m` -/
def lower (k : Nat) : Nat → (Nat → Nat) → (Nat → Nat)
  | 0, p => p
  | m + 1, p => if p m < k then lower k m (upd p m k) else p

/-- the next sibling at level `k` (lines 212-214, 226-228) -/
def esNext (c : Es K) (k : Nat) : Es K :=
  let zk := c.z k + c.s k
  { c with k := k, z := upd c.z k zk, left := upd c.left k (c.acond k - zk),
           s := upd c.s k (nextStep (c.s k)) }

/-- one test of an inner loop: lines 184-236; `none` is `endSearch` -/
def esStep (n : Nat) (L : Nat → Nat → K) (d ahat : Nat → K) (ncands : Nat) (c : Es K) :
    Option (Es K) :=
  let nd := c.dist c.k + c.left c.k ^ 2 / d c.k
  match c.up with
  | none =>
    if nd < c.chi2 then
      if c.k ≠ 0 then
        let k := c.k - 1
        let S := sweep L c.left k (c.path k - k) (c.path k) c.S
        let a := ahat k + S k k
        some { c with k := k, dist := upd c.dist k nd, S := S, acond := upd c.acond k a,
                      z := upd c.z k (rnd a), left := upd c.left k (a - rnd a),
                      s := upd c.s k (step0 (a - rnd a)) }
      else
        let r := record ncands c.cand c.chi2 c.z nd
        some (esNext { c with cand := r.1, chi2 := r.2 } (if ncands = 1 ∧ 1 < n then 1 else 0))
    else some { c with up := some c.k }
  | some il =>
    if c.chi2 ≤ nd then
      if c.k = n - 1 then none else some (esNext c (c.k + 1))
    else
      some { c with up := none,
                    path := lower c.k il fun i => if il ≤ i ∧ i < c.k then c.k else c.path i }

/-- `estimILS(L, d, ahat, ncands)`: lines 151-242 -/
def estimILS (n : Nat) (L : Nat → Nat → K) (d ahat : Nat → K) (ncands fuel : Nat) :
    Option (List ((Nat → Int) × K)) :=
  (iter (esStep n L d ahat ncands) fuel (esInit n ahat ncands)).map fun c => output ncands c.cand

/-! ## `reduction` -/

/-- the variables of `reduction` -/
structure Rd (K : Type) where
  L : Nat → Nat → K
  d : Nat → K
  Z : Nat → Nat → Int
  j : Int
  k : Int

/-- lines 52-56 for one `i` -/
def gauss (j i : Nat) (c : Rd K) : Rd K :=
  let mu := rnd (c.L i j)
  if mu ≠ 0 then
    { c with L := fun r q => if q = j ∧ i ≤ r then c.L r j - mu * c.L r i else c.L r q,
             Z := fun r q => if q = j then c.Z r j - mu * c.Z r i else c.Z r q }
  else c

/-- lines 60-69 -/
def swapCols (j : Nat) (delta : K) (c : Rd K) : Rd K :=
  let l := c.L (j + 1) j
  let eta := c.d j / delta
  let lam := c.d (j + 1) * l / delta
  { c with
    d := upd (upd c.d j (eta * c.d (j + 1))) (j + 1) delta,
    L := fun r q =>
      if r = j + 1 ∧ q = j then lam
      else if r = j ∧ q < j then -l * c.L j q + c.L (j + 1) q
      else if r = j + 1 ∧ q < j then eta * c.L j q + lam * c.L (j + 1) q
      else if j + 2 ≤ r ∧ q = j then c.L r (j + 1)
      else if j + 2 ≤ r ∧ q = j + 1 then c.L r j
      else c.L r q,
    Z := fun r q => if q = j then c.Z r (j + 1) else if q = j + 1 then c.Z r j else c.Z r q }

/-- lines 51-56 -/
def gaussAll (n j : Nat) (c : Rd K) : Rd K :=
  (List.range' (j + 1) (n - (j + 1))).foldl (fun c i => gauss j i c) c

/-- one round of the loop: lines 51-74; `none` once `j < 0` -/
def rdStep (n : Nat) (c : Rd K) : Option (Rd K) :=
  if c.j < 0 then none
  else
    let j := c.j.toNat
    let c := if c.j ≤ c.k then gaussAll n j c else c
    let delta := c.d j + c.L (j + 1) j ^ 2 * c.d (j + 1)
    if delta + 1 / 10 ^ 6 < c.d (j + 1) then
      some { swapCols j delta c with k := c.j, j := (n : Int) - 2 }
    else some { c with j := c.j - 1 }

/-- `reduction(L, d)`: lines 45-74 -/
def reduction (n : Nat) (L : Nat → Nat → K) (d : Nat → K) (fuel : Nat) : Option (Rd K) :=
  iter (rdStep n) fuel
    { L := L, d := d, Z := fun i j => if i = j then 1 else 0, j := (n : Int) - 2, k := (n : Int) - 2 }

end

end Verif.Lambda
