import Verif.Model.Process
import Verif.Lemmas.Post
/-!
# C90 Status of the solution

Specification: when an epoch is processed or left out, what status it gets, which satellites count as used, and what is
stored as its result.  The stages of the processing are arbitrary.
-/

namespace Verif.C90
open Verif.Proc

variable {X A E : Type}

/-! ## Specification -/

/-- the solution: everything but counters and editing flags -/
structure SameSolution (n n' : Nav X A E) : Prop where
  x : n'.x = n.x
  xa : n'.xa = n.xa
  smode : n'.smode = n.smode
  t : n'.t = n.t
  ns : n'.ns = n.ns
  outc : n'.outc = n.outc
  vsat : n'.vsat = n.vsat

/-- the number of satellites of a list that have ever been used with the first phase -/
def usedCount (n : Nav X A E) (sat : List Nat) : Nat := (sat.filter fun s => n.vsat s 0).length

/-! ## Marks and counters -/

theorem mark_mono {nf : Nat} {rows : List (Nat × Nat × Nat)} {v : Nat → Nat → Bool} {s f : Nat} (h : v s f = true) :
    mark nf rows v s f = true := by
  unfold mark
  rw [h]
  rfl

theorem mark_iff (nf : Nat) (rows : List (Nat × Nat × Nat)) (v : Nat → Nat → Bool) (s f : Nat) :
    mark nf rows v s f = true ↔ v s f = true ∨ (f < nf ∧ ∃ r ∈ rows, r.2.2 = f ∧ (r.1 = s ∨ r.2.1 = s)) := by
  unfold mark
  rw [Bool.or_eq_true, List.any_eq_true]
  constructor
  · rintro (h | ⟨r, h1, h2⟩)
    · exact .inl h
    · simp only [Bool.and_eq_true, decide_eq_true_iff, beq_iff_eq, Bool.or_eq_true] at h2
      exact .inr ⟨h2.1.2 ▸ h2.1.1, r, h1, h2.1.2, h2.2⟩
  · rintro (h | ⟨h1, r, h2, h3, h4⟩)
    · exact .inl h
    · refine .inr ⟨r, h2, ?_⟩
      simp only [Bool.and_eq_true, decide_eq_true_iff, beq_iff_eq, Bool.or_eq_true]
      exact ⟨⟨h3 ▸ h1, h3⟩, h4⟩

/-- what counting leaves alone -/
structure Rest (n n' : Nav X A E) : Prop where
  x : n'.x = n.x
  xa : n'.xa = n.xa
  smode : n'.smode = n.smode
  t : n'.t = n.t
  vsat : n'.vsat = n.vsat
  nsat : n'.nsat = n.nsat
  edt : n'.edt = n.edt

theorem Rest.refl (n : Nav X A E) : Rest n n := ⟨rfl, rfl, rfl, rfl, rfl, rfl, rfl⟩
theorem Rest.trans {a b c : Nav X A E} (h : Rest a b) (k : Rest b c) : Rest a c :=
  ⟨k.x.trans h.x, k.xa.trans h.xa, k.smode.trans h.smode, k.t.trans h.t, k.vsat.trans h.vsat, k.nsat.trans h.nsat,
    k.edt.trans h.edt⟩

theorem count_spec (nf : Nat) (n : Nav X A E) (s : Nat) :
    Rest n (count nf n s) ∧
    (count nf n s).ns = n.ns + (if 0 < nf ∧ n.vsat s 0 = true then 1 else 0) ∧
    ∀ s' f', (count nf n s).outc s' f' = if s' = s ∧ f' < nf ∧ n.vsat s f' = true then 0 else n.outc s' f' := by
  unfold count
  induction nf with
  | zero => exact ⟨Rest.refl n, by simp, by simp⟩
  | succ k ih =>
    rw [List.range_succ, List.foldl_append, List.foldl_cons, List.foldl_nil]
    obtain ⟨r, i1, i2⟩ := ih
    generalize hm : (List.range k).foldl _ n = m at r i1 i2 ⊢
    have hv : m.vsat s k = n.vsat s k := by rw [r.vsat]
    cases hc : n.vsat s k with
    | false =>
      rw [hv, hc, if_pos rfl]
      refine ⟨r, ?_, ?_⟩
      · rw [i1]
        congr 1
        by_cases h0 : k = 0
        · subst h0; simp [hc]
        · have : 0 < k := by omega
          simp [this]
      · intro s' f'
        rw [i2]
        by_cases hf : f' = k
        · subst hf; simp [hc]
        · have : f' < k + 1 ↔ f' < k := by omega
          simp only [this]
    | true =>
      rw [hv, hc, if_neg (by simp)]
      by_cases h0 : k = 0
      · subst h0
        rw [if_pos rfl]
        refine ⟨⟨r.x, r.xa, r.smode, r.t, r.vsat, r.nsat, r.edt⟩, ?_, ?_⟩
        · simp only
          rw [i1]
          simp [hc]
        · intro s' f'
          simp only
          rw [i2]
          by_cases hf : f' = 0
          · subst hf; simp [hc]
          · simp [hf]
      · rw [if_neg h0]
        refine ⟨⟨r.x, r.xa, r.smode, r.t, r.vsat, r.nsat, r.edt⟩, ?_, ?_⟩
        · simp only
          rw [i1]
          have : 0 < k := by omega
          simp [this]
        · intro s' f'
          simp only
          rw [i2]
          by_cases hf : f' = k
          · subst hf; simp [hc]
          · have : f' < k + 1 ↔ f' < k := by omega
            simp only [this]
            rw [if_neg (fun x => hf x.2)]

theorem counts_spec (nf : Nat) (sat : List Nat) : ∀ n : Nav X A E,
    Rest n (sat.foldl (count nf) n) ∧
    (sat.foldl (count nf) n).ns = n.ns + (if 0 < nf then usedCount n sat else 0) ∧
    ∀ s f, (sat.foldl (count nf) n).outc s f = if s ∈ sat ∧ f < nf ∧ n.vsat s f = true then 0 else n.outc s f := by
  induction sat with
  | nil => intro n; exact ⟨Rest.refl n, by simp [usedCount], by simp⟩
  | cons a l ih =>
    intro n
    rw [List.foldl_cons]
    obtain ⟨c1, c2, c3⟩ := count_spec nf n a
    obtain ⟨d1, d2, d3⟩ := ih (count nf n a)
    refine ⟨c1.trans d1, ?_, ?_⟩
    · rw [d2, c2]
      unfold usedCount
      rw [c1.vsat, List.filter_cons]
      by_cases h0 : 0 < nf <;> cases n.vsat a 0 <;> simp [h0]
      omega
    · intro s f
      rw [d3, c3, c1.vsat]
      by_cases h1 : s = a
      · subst h1
        by_cases h2 : f < nf ∧ n.vsat s f = true <;> simp [h2]
      · simp [h1]

/-! ## Ambiguities -/

theorem ambiguities_spec {S : Stages X A E} {nf : Nat} {armode : Int} {n n' : Nav X A E} {o : Obs} {sat : List Nat}
    (h : ambiguities S nf armode n o sat = .ok n') :
    n'.ns = n.ns ∧ n'.outc = n.outc ∧ n'.nsat = n.nsat ∧ n'.edt = n.edt ∧
    (∀ s f, n.vsat s f = true → n'.vsat s f = true) ∧
    ((n'.smode = 5 ∧ n'.x = n.x ∧ n'.xa = n.xa ∧ n'.vsat = n.vsat ∧
        (0 < armode → S.resolve { n with smode := 5 } sat = .ok none)) ∨
     (n'.smode = 4 ∧ 0 < armode ∧ S.resolve { n with smode := 5 } sat = .ok (some n'.xa) ∧ (armode ≠ 3 → n'.x = n.x))) := by
  unfold ambiguities at h
  simp only at h
  by_cases ha : 0 < armode
  · rw [if_pos ha] at h
    obtain ⟨r, h1, h⟩ := Py.bind_ok.1 h
    cases r with
    | none =>
      simp only at h
      rw [Py.pure_ok] at h
      subst h
      exact ⟨rfl, rfl, rfl, rfl, fun _ _ x => x, .inl ⟨rfl, rfl, rfl, rfl, fun _ => h1⟩⟩
    | some xa =>
      simp only at h
      obtain ⟨rows, h2, h⟩ := Py.bind_ok.1 h
      unfold valpos at h
      rw [if_pos rfl] at h
      by_cases h3 : armode = 3
      · rw [if_pos h3] at h
        obtain ⟨x, h4, h⟩ := Py.bind_ok.1 h
        rw [Py.pure_ok] at h
        subst h
        exact ⟨rfl, rfl, rfl, rfl, fun _ _ x => mark_mono x, .inr ⟨rfl, ha, h1, fun c => absurd h3 c⟩⟩
      · rw [if_neg h3] at h
        obtain ⟨x, h4, h⟩ := Py.bind_ok.1 h
        rw [Py.pure_ok] at h h4
        subst h
        subst h4
        exact ⟨rfl, rfl, rfl, rfl, fun _ _ x => mark_mono x, .inr ⟨rfl, ha, h1, fun _ => rfl⟩⟩
  · rw [if_neg ha, Py.pure_ok] at h
    subst h
    exact ⟨rfl, rfl, rfl, rfl, fun _ _ x => x, .inl ⟨rfl, rfl, rfl, rfl, fun c => absurd c ha⟩⟩

/-! ## One epoch -/

/-- the epoch is left out: no observations, or fewer than six satellites with position, or left after editing -/
def LeftOut (S : Stages X A E) (n : Nav X A E) (o : Obs) : Prop :=
  o.sat = [] ∨ (∃ c, ∃ k < 6, S.satposs { n with nsat := c } o = .ok k) ∨
    ∃ c, ∃ e sat, S.select { n with nsat := c } o = .ok (e, sat) ∧ sat.length < 6

/-- the phase differences of this epoch's float solution involve satellite and phase -/
def UsedNow (rows : List (Nat × Nat × Nat)) (nf s f : Nat) : Prop := f < nf ∧ ∃ r ∈ rows, r.2.2 = f ∧ (r.1 = s ∨ r.2.1 = s)

/-- a processed epoch: `sat` the satellites left by the editing, `rows` the differences of the float solution before and
after the update, `m` the filter when it is asked for integer ambiguities -/
structure Processed (S : Stages X A E) (nf : Nat) (armode : Int) (n n' : Nav X A E) (o : Obs) (sat : List Nat)
    (rows : List (Nat × Nat × Nat)) (m : Nav X A E) : Prop where
  time : n'.t = o.t
  enough : 6 ≤ sat.length
  nsat : n'.nsat.1 = o.sat.length ∧ 6 ≤ n'.nsat.2.1 ∧ n'.nsat.2.2 = sat.length
  selected : ∃ c e, S.select { n with nsat := c } o = .ok (e, sat)
  rows_of : ∃ n1 n2 x1 x2 r1 r2, S.float n1 o x1 sat = .ok r1 ∧ S.float n2 o x2 sat = .ok r2 ∧ rows = r1 ++ r2
  asked : m.vsat = n'.vsat ∨ n'.smode = 4
  status : (n'.smode = 5 ∧ n'.xa = n.xa ∧ n'.x = m.x ∧ (0 < armode → S.resolve m sat = .ok none)) ∨
    (n'.smode = 4 ∧ 0 < armode ∧ S.resolve m sat = .ok (some n'.xa) ∧ (armode ≠ 3 → n'.x = m.x))
  used : ∀ s f, m.vsat s f = true ↔ n.vsat s f = true ∨ UsedNow rows nf s f
  kept : ∀ s f, m.vsat s f = true → n'.vsat s f = true
  ns : n'.ns = if 0 < nf then usedCount m sat else 0
  outc : ∀ s ∈ sat, ∀ f < nf, m.vsat s f = true → n'.outc s f = 0

/-- **Outcome of an epoch** -/
theorem epoch {S : Stages X A E} {nf : Nat} {armode : Int} {n n' : Nav X A E} {o : Obs} {ret : Option Int}
    (h : process S nf armode n o = .ok (n', ret)) :
    (ret = none ∧ LeftOut S n o ∧ SameSolution n n') ∨
    (ret = some 0 ∧ o.sat ≠ [] ∧ ∃ sat rows m, Processed S nf armode n n' o sat rows m) := by
  unfold process at h
  by_cases h0 : o.sat = []
  · rw [if_pos h0] at h
    cases h
    exact .inl ⟨rfl, .inl h0, ⟨rfl, rfl, rfl, rfl, rfl, rfl, rfl⟩⟩
  · rw [if_neg h0] at h
    simp only at h
    obtain ⟨k, h1, h⟩ := Py.bind_ok.1 h
    by_cases hk : k < 6
    · rw [if_pos hk, Py.pure_ok] at h
      simp only [Prod.mk.injEq] at h
      obtain ⟨rfl, rfl⟩ := h
      exact .inl ⟨rfl, .inr (.inl ⟨_, k, hk, h1⟩), ⟨rfl, rfl, rfl, rfl, rfl, rfl, rfl⟩⟩
    · rw [if_neg hk] at h
      obtain ⟨⟨edt, sat⟩, h2, h⟩ := Py.bind_ok.1 h
      simp only at h
      by_cases hs : sat.length < 6
      · rw [if_pos hs, Py.pure_ok] at h
        simp only [Prod.mk.injEq] at h
        obtain ⟨rfl, rfl⟩ := h
        exact .inl ⟨rfl, .inr (.inr ⟨_, edt, sat, h2, hs⟩), ⟨rfl, rfl, rfl, rfl, rfl, rfl, rfl⟩⟩
      · rw [if_neg hs] at h
        obtain ⟨⟨x, outc⟩, h3, h⟩ := Py.bind_ok.1 h
        obtain ⟨r1, h4, h⟩ := Py.bind_ok.1 h
        obtain ⟨xp, h5, h⟩ := Py.bind_ok.1 h
        obtain ⟨r2, h6, h⟩ := Py.bind_ok.1 h
        obtain ⟨m, h7, h⟩ := Py.bind_ok.1 h
        rw [Py.pure_ok] at h
        simp only [Prod.mk.injEq] at h
        obtain ⟨rfl, rfl⟩ := h
        obtain ⟨a1, a2, a3, a4, a5, a6⟩ := ambiguities_spec h7
        unfold accept valpos at a1 a2 a3 a4 a5 a6
        simp only [if_true] at a1 a2 a3 a4 a5 a6
        generalize hn0 : Nav.mk (X := X) (A := A) (E := E) xp n.xa n.smode n.t 0 _ edt outc
          (mark nf r2 (mark nf r1 n.vsat)) = n0 at a1 a2 a3 a4 a5 a6
        obtain ⟨c1, c2, c3⟩ := counts_spec nf sat n0
        have v0 : n0.vsat = mark nf r2 (mark nf r1 n.vsat) := by rw [← hn0]
        have ns0 : n0.ns = 0 := by rw [← hn0]
        have xa0 : n0.xa = n.xa := by rw [← hn0]
        have nsat0 : n0.nsat = (o.sat.length, k, sat.length) := by rw [← hn0]
        generalize hn1 : sat.foldl (count nf) n0 = n1 at a1 a2 a3 a4 a5 a6 c1 c2 c3
        refine .inr ⟨rfl, h0, sat, r1 ++ r2, { n1 with smode := 5 }, ?_⟩
        refine ⟨rfl, by omega, ?_, ⟨_, edt, h2⟩, ⟨_, _, _, _, r1, r2, h4, h6, rfl⟩, ?_, ?_, ?_, a5, ?_, ?_⟩
        · simp only
          rw [a3, c1.nsat, nsat0]
          exact ⟨rfl, by simp only; omega, rfl⟩
        · rcases a6 with a6 | a6
          · exact .inl a6.2.2.2.1.symm
          · exact .inr a6.1
        · rcases a6 with a6 | a6
          · exact .inl ⟨a6.1, a6.2.2.1.trans (c1.xa.trans xa0), a6.2.1, a6.2.2.2.2⟩
          · exact .inr a6
        · intro s f
          simp only
          rw [c1.vsat, v0, mark_iff, mark_iff]
          unfold UsedNow
          constructor
          · rintro ((h | ⟨h1, r, h2, h3⟩) | ⟨h1, r, h2, h3⟩)
            · exact .inl h
            · exact .inr ⟨h1, r, List.mem_append_left _ h2, h3⟩
            · exact .inr ⟨h1, r, List.mem_append_right _ h2, h3⟩
          · rintro (h | ⟨h1, r, h2, h3⟩)
            · exact .inl (.inl h)
            · rcases List.mem_append.1 h2 with h2 | h2
              · exact .inl (.inr ⟨h1, r, h2, h3⟩)
              · exact .inr ⟨h1, r, h2, h3⟩
        · simp only
          rw [a1, c2, ns0, Nat.zero_add]
          unfold usedCount
          simp only [c1.vsat]
        · intro s hs f hf hv
          simp only at hv ⊢
          rw [a2, c3, if_pos]
          rw [c1.vsat] at hv
          exact ⟨hs, hf, hv⟩

/-! ## Sequences of epochs -/

theorem run_cons {S : Stages X A E} {nf : Nat} {armode : Int} {n n' : Nav X A E} {o : Obs} {l : List Obs}
    (h : run S nf armode n (o :: l) = .ok n') :
    ∃ m ret, process S nf armode n o = .ok (m, ret) ∧ run S nf armode m l = .ok n' := by
  unfold run at h
  rw [List.foldlM_cons] at h
  obtain ⟨m, h1, h2⟩ := Py.bind_ok.1 h
  obtain ⟨⟨m', ret⟩, h3, h4⟩ := Py.bind_ok.1 h1
  rw [Py.pure_ok] at h4
  subst h4
  exact ⟨m', ret, h3, h2⟩

/-- **Marks of use are never taken back**: a satellite once used counts as used in all later epochs -/
theorem once_used {S : Stages X A E} {nf : Nat} {armode : Int} : ∀ {l : List Obs} {n n' : Nav X A E},
    run S nf armode n l = .ok n' → ∀ s f, n.vsat s f = true → n'.vsat s f = true
  | [], n, n', h, s, f, hv => by
    unfold run at h
    rw [List.foldlM_nil, Py.pure_ok] at h
    exact h ▸ hv
  | o :: l, n, n', h, s, f, hv => by
    obtain ⟨m, ret, h1, h2⟩ := run_cons h
    refine once_used h2 s f ?_
    rcases epoch h1 with ⟨-, -, e⟩ | ⟨-, -, sat, rows, k, e⟩
    · rw [e.vsat]; exact hv
    · exact e.kept s f ((e.used s f).2 (.inl hv))

/-- every epoch of the list is left out -/
def AllLeftOut (S : Stages X A E) (nf : Nat) (armode : Int) : Nav X A E → List Obs → Prop
  | _, [] => True
  | n, o :: l => ∃ m, process S nf armode n o = .ok (m, none) ∧ AllLeftOut S nf armode m l

/-- **Left out epochs keep the old solution with its status**: what is stored for them is the last solution under the new
time, `fixed` if the last processed epoch was fixed, however many epochs ago -/
theorem stale {S : Stages X A E} {nf : Nat} {armode : Int} {V : Type} (pos : X → V) (posa : A → V) :
    ∀ {l : List Obs} {n : Nav X A E}, AllLeftOut S nf armode n l →
    ∃ n', run S nf armode n l = .ok n' ∧ SameSolution n n' ∧
      ∀ t, record pos posa n' t = (t, n.smode, if n.smode = 4 then posa n.xa else pos n.x)
  | [], n, _ => ⟨n, rfl, ⟨rfl, rfl, rfl, rfl, rfl, rfl, rfl⟩, fun _ => rfl⟩
  | o :: l, n, ⟨m, h1, h2⟩ => by
    obtain ⟨n', i1, i2, i3⟩ := stale pos posa h2
    rcases epoch h1 with ⟨-, -, e⟩ | ⟨hr, -⟩
    · refine ⟨n', ?_, ⟨i2.x.trans e.x, i2.xa.trans e.xa, i2.smode.trans e.smode, i2.t.trans e.t, i2.ns.trans e.ns,
        i2.outc.trans e.outc, i2.vsat.trans e.vsat⟩, fun t => ?_⟩
      · unfold run at i1 ⊢
        rw [List.foldlM_cons, h1, Py.okBind]
        exact i1
      · rw [i3 t, e.smode, e.x, e.xa]
    · cases hr

/-- **Status**: after a processed epoch the status is fixed or float, never "none" whatever the residuals, and fixed
exactly when resolution is enabled and succeeds -/
theorem status {S : Stages X A E} {nf : Nat} {armode : Int} {n n' : Nav X A E} {o : Obs}
    (h : process S nf armode n o = .ok (n', some 0)) :
    ∃ m sat, (n'.smode = 4 ∨ n'.smode = 5) ∧ (n'.smode = 4 ↔ 0 < armode ∧ ∃ xa, S.resolve m sat = .ok (some xa)) ∧
      (n'.smode = 4 → S.resolve m sat = .ok (some n'.xa)) ∧ (n'.smode = 5 → n'.xa = n.xa) ∧ (armode ≠ 3 → n'.x = m.x) := by
  rcases epoch h with ⟨hr, -⟩ | ⟨-, -, sat, rows, m, e⟩
  · cases hr
  · refine ⟨m, sat, ?_⟩
    rcases e.status with ⟨a, b, c, d⟩ | ⟨a, b, c, d⟩
    · refine ⟨.inr a, ⟨fun x => ?_, ?_⟩, fun x => ?_, fun _ => b, fun _ => c⟩
      · rw [a] at x; exact absurd x (by decide)
      · rintro ⟨x, xa, y⟩
        rw [d x] at y
        cases y
      · rw [a] at x; exact absurd x (by decide)
    · refine ⟨.inl a, ⟨fun _ => ⟨b, _, c⟩, fun _ => a⟩, fun _ => c, fun x => ?_, d⟩
      rw [a] at x
      exact absurd x (by decide)

/-! ## Example -/

/-- the states are numbers: the update adds 1, the fixed solution is the float one times 10; satellites 1..7; satellite 1 has
a difference in the first epoch only -/
def demo : Stages Nat Nat Unit where
  satposs := fun _ o => .ok o.sat.length
  select := fun _ o => .ok ((), o.sat)
  udstate := fun n _ => .ok (n.x, fun s f => n.outc s f + 1)
  float := fun _ o _ _ => .ok (if o.t = 0 then [(2, 1, 0), (2, 3, 0), (2, 3, 1)] else [(2, 3, 0)])
  fixed := fun _ _ _ _ => .ok []
  update := fun _ _ x _ => .ok (x + 1)
  resolve := fun n _ => .ok (if n.x = 1 then some 10 else none)
  hold := fun n _ => .ok n.x

def demo0 : Nav Nat Nat Unit :=
  { x := 0, xa := 0, smode := 0, t := 0, ns := 0, nsat := (0, 0, 0), edt := (), outc := fun _ _ => 0, vsat := fun _ _ => false }

def demoObs (t : Int) (k : Nat) : Obs := { t := t, sat := (List.range k).map (· + 1) }

/-- the first epoch is fixed; three satellites are used -/
example : (process demo 1 1 demo0 (demoObs 0 7)).toOption.map (fun r => [r.1.smode, r.1.xa, r.1.x, r.1.t, r.1.ns, r.2.getD 9]) =
    some [4, 10, 1, 0, 3, 0] := by decide +kernel

/-- two epochs with five satellites follow: still "fixed", with the solution of the first epoch -/
example : (run demo 1 1 demo0 [demoObs 0 7, demoObs 30 5, demoObs 60 0]).toOption.map
    (fun n => record (V := Nat) (fun x => x) (fun x => x) n 60) = some (60, 4, 10) := by decide +kernel

example (n : Nav Nat Nat Unit) : AllLeftOut demo 1 1 n [demoObs 30 5, demoObs 60 0] := ⟨_, rfl, _, rfl, trivial⟩

/-- the epoch after: satellite 1 forms no difference, yet counts as used and its outage counter is 0 -/
example : (run demo 1 1 demo0 [demoObs 0 7, demoObs 30 7]).toOption.map (fun n => (n.smode, n.ns, n.outc 1 0, n.outc 4 0)) =
    some (5, 3, 0, 2) := by decide +kernel

end Verif.C90
