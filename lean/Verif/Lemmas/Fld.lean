import Verif.Model.RtcmInteg
import Verif.Lemmas.At
import Verif.Lemmas.Cssr
import Verif.Lemmas.Post
/-!
Vocabulary for messages made of fields: what bits a field has, and what it means that a reader reads a bit string.
-/

namespace Verif.RtcmInteg
open Verif.Mask Verif.Cssr

/-- a field: unsigned number, two's complement number, bit mask -/
inductive F where
  | u (n v : Nat)
  | s (n : Nat) (v : Int)
  | m (n : Nat) (l : List Bool)

/-- the bits of a field, most significant first -/
def F.bits : F → List Bool
  | .u n v => natToBits n v
  | .s n v => natToBits n (ofSigned n v)
  | .m _ l => l

/-- the number fits the field -/
def F.Fit : F → Prop
  | .u n v => v < 2 ^ n
  | .s n v => 0 < n ∧ -(2 ^ (n - 1) : Int) ≤ v ∧ v < 2 ^ (n - 1)
  | .m n l => l.length = n

def F.fmt : F → Nat × Bool
  | .u n _ => (n, false)
  | .s n _ => (n, true)
  | .m n _ => (n, false)

def F.val : F → Int
  | .u _ v => v
  | .s _ v => v
  | .m _ l => bitsToNat l

/-- the bits of consecutive fields -/
def fb (l : List F) : List Bool := l.flatMap F.bits

/-- the reader `f` reads the bits `l` as `r` -/
def Rd {R : Type} (b : BitBuf) (f : Nat → Py (R × Nat)) (l : List Bool) (r : R) : Prop :=
  ∀ i, At b i l → f i = .ok (r, i + l.length)

theorem F.bits_length {x : F} (h : x.Fit) : x.bits.length = x.fmt.1 := by
  cases x <;> simp_all [F.bits, F.fmt, F.Fit]

theorem flds_at {b : BitBuf} : ∀ (l : List F) {i : Nat} {m : List Bool}, (∀ x ∈ l, x.Fit) → At b i (fb l ++ m) →
    flds b i (l.map F.fmt) = .ok (l.map F.val) ∧ At b (i + (l.map fun x => x.fmt.1).sum) m
  | [], i, m, _, h => ⟨rfl, by simpa [fb] using h⟩
  | x :: l, i, m, hf, h => by
    have hx := hf x (by simp)
    have h' : At b i (x.bits ++ (fb l ++ m)) := by simpa [fb, List.append_assoc] using h
    obtain ⟨h1, h2⟩ := flds_at l (i := i + x.fmt.1) (m := m) (fun y hy => hf y (by simp [hy])) (h'.tail' (F.bits_length hx))
    refine ⟨?_, by simpa [Nat.add_assoc] using h2⟩
    cases x with
    | u n v =>
      simp only [F.Fit] at hx
      simp only [F.bits] at h'
      simp only [F.fmt] at h1
      simp only [List.map_cons, flds, F.fmt, F.val, (h'.step hx).1, h1]
      rfl
    | s n v =>
      simp only [F.Fit] at hx
      simp only [F.bits] at h'
      simp only [F.fmt] at h1
      simp only [List.map_cons, flds, F.fmt, F.val, (h'.stepS hx.1 hx.2.1 hx.2.2).1, h1]
      rfl
    | m n k =>
      simp only [F.Fit] at hx
      simp only [F.bits] at h'
      simp only [F.fmt] at h1
      simp only [List.map_cons, flds, F.fmt, F.val, (h'.stepBits hx).1, h1]
      rfl

theorem maskOf_bits {l : List Bool} {n : Nat} (h : l.length = n) (o : Nat) : maskOf (bitsToNat l : Int) n o = positions o l := by
  subst h
  simp [maskOf, decodeMask_bits]

theorem each_rd {α C R : Type} {b : BitBuf} {f : α → Nat → Py (R × Nat)} {bits : C → List Bool} {val : α × C → R} :
    ∀ {l : List (α × C)}, (∀ x ∈ l, Rd b (f x.1) (bits x.2) (val x)) →
      Rd b (each f (l.map Prod.fst)) (l.flatMap fun x => bits x.2) (l.map fun x => (x.1, val x))
  | [], _, i, _ => rfl
  | x :: l, h, i, hat => by
    simp only [List.flatMap_cons] at hat
    have h1 := h x (by simp) i hat.head
    have h2 := each_rd (l := l) (fun y hy => h y (by simp [hy])) _ hat.tail
    simp only [List.map_cons, each, h1, Py.okBind, h2, List.flatMap_cons, List.length_append, Nat.add_assoc]
    rfl

theorem rows_rd {C R : Type} {b : BitBuf} {f : Nat → Py (R × Nat)} {bits : C → List Bool} {val : C → R} :
    ∀ {l : List C}, (∀ x ∈ l, Rd b f (bits x) (val x)) → Rd b (rows f l.length) (l.flatMap bits) (l.map val)
  | [], _, i, _ => rfl
  | x :: l, h, i, hat => by
    simp only [List.flatMap_cons] at hat
    have h1 := h x (by simp) i hat.head
    have h2 := rows_rd (l := l) (fun y hy => h y (by simp [hy])) _ hat.tail
    simp only [List.length_cons, rows, h1, Py.okBind, h2, List.map_cons, List.flatMap_cons, List.length_append, Nat.add_assoc]
    rfl

end Verif.RtcmInteg
