import Verif.Py
/-! A small partial-correctness logic for computations that may raise. -/

namespace Verif

theorem Py.okBind {α β : Type} (a : α) (f : α → Py β) : ((Except.ok a : Py α) >>= f) = f a := rfl
theorem Py.errBind {α β : Type} (e : PyErr) (f : α → Py β) :
    ((Except.error e : Py α) >>= f) = .error e := rfl

/-- if the computation returns, its result satisfies `P` -/
structure Post {α} (x : Py α) (P : α → Prop) : Prop where
  out : ∀ a, x = .ok a → P a

namespace Post
variable {α β : Type}

theorem bind {x : Py α} {f : α → Py β} {Q : α → Prop} {P : β → Prop} (h1 : Post x Q)
    (h2 : ∀ a, Q a → Post (f a) P) : Post (x >>= f) P := by
  constructor
  intro b hb
  obtain ⟨a, ha, hf⟩ := Py.bind_ok.1 hb
  exact (h2 a (h1.out a ha)).out b hf

/-- sequencing when nothing is needed about the first result -/
theorem bind_any {x : Py α} {f : α → Py β} {P : β → Prop} (h : ∀ a, Post (f a) P) :
    Post (x >>= f) P := bind (Q := fun _ => True) ⟨fun _ _ => trivial⟩ (fun a _ => h a)

theorem pure {a : α} {P : α → Prop} (h : P a) : Post (Pure.pure a : Py α) P := by
  constructor
  intro b hb; rw [Py.pure_ok] at hb; subst hb; exact h

theorem ok {a : α} {P : α → Prop} (h : P a) : Post (.ok a : Py α) P := by
  constructor
  intro b hb; cases hb; exact h

theorem error {e : PyErr} {P : α → Prop} : Post (.error e : Py α) P := by
  constructor
  intro b hb; cases hb

theorem throw {e : PyErr} {P : α → Prop} : Post (MonadExcept.throw e : Py α) P := by
  constructor
  intro b hb; rw [Py.throw_ok] at hb; exact hb.elim

theorem ite {c : Prop} [Decidable c] {x y : Py α} {P : α → Prop} (h1 : c → Post x P)
    (h2 : ¬ c → Post y P) : Post (if c then x else y) P := by
  split
  · exact h1 ‹_›
  · exact h2 ‹_›

theorem mono {x : Py α} {P Q : α → Prop} (h : Post x P) (hpq : ∀ a, P a → Q a) : Post x Q :=
  ⟨fun a ha => hpq a (h.out a ha)⟩

theorem any {x : Py α} : Post x (fun _ => True) := ⟨fun _ _ => trivial⟩

theorem foldlM {f : α → β → Py α} {l : List β} {a : α} {I : α → Prop}
    (h : ∀ a b, b ∈ l → I a → Post (f a b) I) (h0 : I a) : Post (l.foldlM f a) I := by
  induction l generalizing a with
  | nil => exact Post.pure h0
  | cons b l ih =>
    rw [List.foldlM_cons]
    exact bind (h a b (by simp) h0) (fun a' ha' => ih (fun a b hb => h a b (by simp [hb])) ha')

/-- loop over `range(n)` with an invariant that may mention the iteration number -/
theorem foldlM_range {f : α → Nat → Py α} {n : Nat} {a : α} {I : Nat → α → Prop}
    (h : ∀ k a, k < n → I k a → Post (f a k) (I (k + 1))) (h0 : I 0 a) :
    Post ((List.range n).foldlM f a) (I n) := by
  induction n with
  | zero => exact Post.pure h0
  | succ n ih =>
    rw [List.range_succ, List.foldlM_append]
    refine bind (ih fun k a hk => h k a (by omega)) fun b hb => ?_
    rw [List.foldlM_cons]
    exact bind (h n b (by omega) hb) fun c hc => Post.pure hc

end Post
end Verif
