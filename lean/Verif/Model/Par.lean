import Verif.Model.Mlambda
/-!
# Model of partial ambiguity resolution (`mlambda.py`) and of its use (`pppssr.py`)

Real numbers for floats.  The bootstrapped success rate `sr_boost` (normal distribution) is an
arbitrary function of the conditional variances.
-/

namespace Verif.Lambda
open Matrix

/-- `d[k:]` -/
def tailD (n : Nat) (d : Nat → ℝ) (k : Nat) : List ℝ := (List.range' k (n - k)).map d

open Classical in
/-- `while Ps < P0 and k < n-1`: mlambda.py lines 248-255; `m` bounds the rounds (at most `n-1`) -/
noncomputable def parLoop (sr : List ℝ → ℝ) (n : Nat) (d : Nat → ℝ) (P0 : ℝ) : Nat → Nat → ℝ → Nat × ℝ
  | 0, k, Ps => (k, Ps)
  | m + 1, k, Ps =>
    if Ps < P0 ∧ k < n - 1 then parLoop sr n d P0 m (k + 1) (sr (tailD n d (k + 1))) else (k, Ps)

/-- `Qzhat = L.T@np.diag(d)@L`: line 299, as an array -/
noncomputable def qz (n : Nat) (L : Nat → Nat → ℝ) (d : Nat → ℝ) (p q : Nat) : ℝ :=
  ∑ r ∈ Finset.range n, L r p * d r * L r q

/-- `Qzhat[k:, k:]` -/
noncomputable def q22 (n : Nat) (L : Nat → Nat → ℝ) (d : Nat → ℝ) (k : Nat) : Matrix (Fin (n - k)) (Fin (n - k)) ℝ :=
  Matrix.of fun i j => qz n L d (k + i) (k + j)

/-- `Qzhat[:k, k:]` -/
noncomputable def q12 (n : Nat) (L : Nat → Nat → ℝ) (d : Nat → ℝ) (k : Nat) : Matrix (Fin k) (Fin (n - k)) ℝ :=
  Matrix.of fun i j => qz n L d i (k + j)

/-- one column of `zfix`: lines 266-274 -/
noncomputable def zfixCol (n : Nat) (zhat : Nat → ℝ) (L : Nat → Nat → ℝ) (d : Nat → ℝ) (k : Nat) (z : Nat → Int) :
    Fin n → ℝ := fun i =>
  if h : (i : Nat) < k then
    zhat i - ((q12 n L d k * (q22 n L d k)⁻¹) *ᵥ fun j : Fin (n - k) => zhat (k + j) - (z j : ℝ)) ⟨i, h⟩
  else (z (i - k) : ℝ)

/-- what a search with partial fixing returns: `zfix` with `s` and `nfix`; without a fix `zfix` is the
float vector -/
inductive ParRes (n : Nat) where
  | fixed (nfix : Nat) (cands : List ((Fin n → ℝ) × ℝ))
  | unfixed (z : Fin n → ℝ)

open Classical in
/-- `parsearch`: lines 245-286 with `Ps = sr_boost(d)`; `none` while a search has not ended within
`fuel` rounds -/
noncomputable def parsearch (sr : List ℝ → ℝ) (n : Nat) (zhat : Nat → ℝ) (L : Nat → Nat → ℝ) (d : Nat → ℝ) (P0 : ℝ)
    (ncands exclmax fuel : Nat) : Option (ParRes n) :=
  let (k, Ps) := parLoop sr n d P0 n 0 (sr (tailD n d 0))
  if k ≤ exclmax ∧ P0 < Ps then
    (estimILS (n - k) (fun i j => L (k + i) (k + j)) (fun i => d (k + i)) (fun i => zhat (k + i)) ncands fuel).map
      fun r => .fixed (n - k) (r.map fun p => (zfixCol n zhat L d k p.1, p.2))
  else some (.unfixed fun i => zhat i)

/-- `mlambda(ahat, Qahat, ncands, parmode=2, P0)`: lines 289-302, 309-311, 334-335; `exclmax` has its
default 1 -/
noncomputable def mlambdaPar (sr : List ℝ → ℝ) (n : Nat) (ahat : Nat → ℝ) (Q : Nat → Nat → ℝ) (P0 : ℝ)
    (ncands fuel : Nat) : Py (Option (ParRes n)) :=
  match ldldecom n Q with
  | .error e => .error e
  | .ok (L, d) =>
    .ok ((reduction n L d fuel).bind fun c =>
      (parsearch sr n (ztA n c.Z ahat) c.L c.d P0 ncands 1 fuel).map fun
        | .fixed m r => .fixed m (r.map fun p => (invZt n c.Z *ᵥ p.1, p.2))
        | .unfixed z => .unfixed (invZt n c.Z *ᵥ z))

end Verif.Lambda
