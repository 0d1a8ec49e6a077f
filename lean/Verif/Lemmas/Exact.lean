import Verif.Lemmas.Read
import Mathlib.Data.List.Induction
import Mathlib.Data.List.Nodup
import Mathlib.Tactic.Ring
/-! A small total-correctness logic for decoders that raise exactly when the message is too short. -/

namespace Verif

/-- with at least `p` bits the computation returns a result satisfying `P`; with fewer it raises -/
structure Exact {α} (len p : Nat) (x : Py α) (P : α → Prop) : Prop where
  ok : p ≤ len → ∃ a, x = .ok a ∧ P a
  err : len < p → x = .error .bitstruct

namespace Exact
variable {α β : Type} {len p p' : Nat}

theorem bind {x : Py α} {f : α → Py β} {Q : α → Prop} {P : β → Prop} (h1 : Exact len p x Q) (hp : p ≤ p')
    (h2 : ∀ a, Q a → p ≤ len → Exact len p' (f a) P) : Exact len p' (x >>= f) P := by
  constructor
  · intro h
    obtain ⟨a, ha, hq⟩ := h1.ok (hp.trans h)
    obtain ⟨c, hc, hP⟩ := (h2 a hq (hp.trans h)).ok h
    exact ⟨c, by rw [ha]; exact hc, hP⟩
  · intro h
    rcases Nat.lt_or_ge len p with g | g
    · rw [h1.err g]; rfl
    · obtain ⟨a, ha, hq⟩ := h1.ok g
      rw [ha]
      exact (h2 a hq g).err h

theorem step {x : Py α} {f : α → Py β} {a : α} {P : β → Prop} (h1 : x = .ok a)
    (h2 : Exact len p (f a) P) : Exact len p (x >>= f) P := by
  rw [h1]; exact h2

theorem ret {a : α} {P : α → Prop} (hp : p ≤ len) (h : P a) : Exact len p (Pure.pure a : Py α) P :=
  ⟨fun _ => ⟨a, rfl, h⟩, fun g => absurd hp (by omega)⟩

theorem mono {x : Py α} {P Q : α → Prop} (h : Exact len p x P) (hpq : ∀ a, P a → Q a) : Exact len p x Q :=
  ⟨fun g => let ⟨a, ha, hP⟩ := h.ok g; ⟨a, ha, hpq a hP⟩, h.err⟩

theorem cast {x : Py α} {P : α → Prop} (h : Exact len p x P) (hp : p' = p) : Exact len p' x P := hp ▸ h

theorem u {b : BitBuf} {i n : Nat} : Exact b.length (i + n) (readU b i n) (fun v => v = bitsAt b i n) :=
  ⟨fun h => ⟨_, readU_at h, rfl⟩, fun h => by unfold readU; rw [if_neg (by omega)]⟩

theorem s {b : BitBuf} {i n : Nat} : Exact b.length (i + n) (readS b i n) (fun v => v = intAt b i n) :=
  ⟨fun h => ⟨_, readS_at h, rfl⟩, fun h => by unfold readS readU; rw [if_neg (by omega)]⟩

/-- loop over `range(n)`; iteration `k` ends at bit `pos (k + 1)` -/
theorem range {f : α → Nat → Py α} {n : Nat} {a : α} {I : Nat → α → Prop} {pos : Nat → Nat}
    (hpos : ∀ k, pos k ≤ pos (k + 1)) (hp : pos 0 ≤ len) (h0 : I 0 a)
    (h : ∀ k a, k < n → I k a → pos k ≤ len → Exact len (pos (k + 1)) (f a k) (I (k + 1))) :
    Exact len (pos n) ((List.range n).foldlM f a) (I n) := by
  induction n with
  | zero => exact ret hp h0
  | succ n ih =>
    rw [List.range_succ, List.foldlM_append]
    refine bind (ih fun k a hk => h k a (by omega)) (hpos n) fun b hb hl => ?_
    rw [List.foldlM_cons]
    exact bind (h n b (by omega) hb hl) (Nat.le_refl _) fun c hc hl => ret hl hc

/-- loop over a list; iteration `k` ends at bit `pos (k + 1)` -/
theorem list {f : α → β → Py α} {l : List β} {a : α} {I : Nat → α → Prop} {pos : Nat → Nat}
    (hpos : ∀ k, pos k ≤ pos (k + 1)) (hp : pos 0 ≤ len) (h0 : I 0 a)
    (h : ∀ k a x, l[k]? = some x → I k a → pos k ≤ len → Exact len (pos (k + 1)) (f a x) (I (k + 1))) :
    Exact len (pos l.length) (l.foldlM f a) (I l.length) := by
  have e : l.foldlM f a = (List.range l.length).foldlM (fun a k =>
      match l[k]? with | some x => f a x | none => .error .bitstruct) a := by
    clear h h0 hp hpos
    induction l using List.reverseRecOn generalizing a with
    | nil => rfl
    | append_singleton l x ih =>
      rw [List.foldlM_append, ih, List.length_append, List.length_singleton, List.range_succ,
        List.foldlM_append]
      have : ∀ (m : List Nat) (a : α), (∀ k ∈ m, k < l.length) →
          m.foldlM (fun a k => match l[k]? with | some x => f a x | none => .error .bitstruct) a =
          m.foldlM (fun a k => match (l ++ [x])[k]? with | some x => f a x | none => .error .bitstruct) a := by
        intro m
        induction m with
        | nil => intro a _; rfl
        | cons k m ihm =>
          intro a hm
          rw [List.foldlM_cons, List.foldlM_cons, List.getElem?_append_left (hm k (by simp))]
          congr 1
          funext a'
          exact ihm a' fun k hk => hm k (by simp [hk])
      rw [this _ _ (fun k hk => List.mem_range.1 hk)]
      congr 1
      funext a'
      rw [List.foldlM_cons, List.foldlM_cons]
      simp
  rw [e]
  refine range hpos hp h0 fun k a hk hI hl => ?_
  have hx : l[k]? = some l[k] := List.getElem?_eq_getElem hk
  rw [hx]
  exact h k a _ hx hI hl

end Exact

/-- first bit of item `k` when the items start at bit `i` and item `j` takes `w j` bits -/
def posOf (w : Nat → Nat) (i : Nat) : Nat → Nat
  | 0 => i
  | k + 1 => posOf w i k + w k

theorem posOf_mono (w : Nat → Nat) (i k : Nat) : posOf w i k ≤ posOf w i (k + 1) := by
  rw [posOf]; omega

theorem posOf_const (w i k : Nat) : posOf (fun _ => w) i k = i + w * k := by
  induction k with
  | zero => rfl
  | succ k ih => rw [posOf, ih]; ring

/-- the last of the first `n` items with that key -/
def lastOf {κ : Type} [DecidableEq κ] (f : Nat → Option κ) (key : κ) : Nat → Option Nat
  | 0 => none
  | k + 1 => if f k = some key then some k else lastOf f key k

theorem lastOf_isSome {κ : Type} [DecidableEq κ] {f : Nat → Option κ} {key : κ} {n : Nat} :
    (lastOf f key n).isSome ↔ ∃ k < n, f k = some key := by
  induction n with
  | zero => simp [lastOf]
  | succ n ih =>
    rw [lastOf]
    by_cases h : f n = some key
    · rw [if_pos h]; simp only [Option.isSome_some, true_iff]; exact ⟨n, by omega, h⟩
    · rw [if_neg h, ih]
      constructor
      · rintro ⟨k, hk, e⟩; exact ⟨k, by omega, e⟩
      · rintro ⟨k, hk, e⟩
        refine ⟨k, ?_, e⟩
        rcases Nat.lt_succ_iff_lt_or_eq.1 hk with g | g
        · exact g
        · subst g; exact absurd e h

/-- in a list without repetition the last item with a key is the one holding it -/
theorem lastOf_nodup {κ : Type} [DecidableEq κ] {l : List κ} (hn : l.Nodup) {k : Nat} {x : κ} (h : l[k]? = some x)
    {n : Nat} (hk : k < n) : lastOf (fun j => l[j]?) x n = some k := by
  induction n with
  | zero => omega
  | succ n ih =>
    rw [lastOf]
    by_cases e : l[n]? = some x
    · rw [if_pos e]
      obtain ⟨h1, e1⟩ := List.getElem?_eq_some_iff.1 h
      obtain ⟨h2, e2⟩ := List.getElem?_eq_some_iff.1 e
      rw [(List.Nodup.getElem_inj_iff hn).1 (e2.trans e1.symm)]
    · rw [if_neg e]
      refine ih ?_
      rcases Nat.lt_succ_iff_lt_or_eq.1 hk with g | g
      · exact g
      · subst g; exact absurd h e

end Verif
