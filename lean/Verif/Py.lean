/-!
# Python run-time conventions used by the models

Exceptions are values: a Python function that can raise is modelled as
`Except PyErr α`.  Floor division and modulus of Python integers are
`Int.fdiv` / `Int.fmod`; `int(x)` of a quotient truncates (`Int.tdiv`).
-/

namespace Verif

/-- Python exceptions that the modelled functions can raise. -/
inductive PyErr where
  | indexError
  | keyError
  | valueError
  | typeError
  | attributeError
  | unboundLocal
  | zeroDivision
  /-- `bitstruct.Error` (read/write past the end, value out of range). -/
  | bitstruct
  | overflow
  /-- `SystemExit` raised by the code itself -/
  | systemExit
  deriving DecidableEq, Repr

deriving instance DecidableEq for Except

/-- Result of a Python call. -/
abbrev Py := Except PyErr

/-- Python list/bytes indexing with a non-negative index. -/
def pyGet {α} (l : List α) (i : Nat) : Py α :=
  match l[i]? with
  | some a => .ok a
  | none => .error .indexError

/-- Python list indexing with an arbitrary integer index (negative counts from the end). -/
def pyGetI {α} (l : List α) (i : Int) : Py α :=
  if 0 ≤ i then pyGet l i.toNat
  else if 0 ≤ i + l.length then pyGet l (i + l.length).toNat
  else .error .indexError

/-- Python `l[i] = v` with non-negative index. -/
def pySet {α} (l : List α) (i : Nat) (v : α) : Py (List α) :=
  if i < l.length then .ok (l.set i v) else .error .indexError

/-- A Python dictionary as an association list, last write wins. -/
abbrev Dict (κ α : Type) := List (κ × α)

namespace Dict
variable {κ α : Type} [DecidableEq κ]

/-- `d.get(k)` -/
def get? (d : Dict κ α) (k : κ) : Option α := (d.find? (fun p => p.1 = k)).map (·.2)

/-- `d[k]` (raises KeyError) -/
def getItem (d : Dict κ α) (k : κ) : Py α :=
  match get? d k with
  | some a => .ok a
  | none => .error .keyError

/-- `d[k] = v` -/
def set (d : Dict κ α) (k : κ) (v : α) : Dict κ α := (k, v) :: d.filter (fun p => p.1 ≠ k)

/-- `k in d` -/
def mem (d : Dict κ α) (k : κ) : Bool := (get? d k).isSome

@[simp] theorem get?_set_self (d : Dict κ α) (k : κ) (v : α) : get? (set d k v) k = some v := by
  simp [get?, set]

theorem get?_set_ne (d : Dict κ α) {k k' : κ} (v : α) (h : k' ≠ k) :
    get? (set d k v) k' = get? d k' := by
  have h' : ¬ k = k' := fun e => h e.symm
  simp only [get?, set, List.find?_cons, h', decide_false]
  congr 1
  rw [List.find?_filter]
  congr 1
  funext p
  by_cases hp : p.1 = k'
  · simp [hp, h]
  · simp [hp]

@[simp] theorem get?_nil (k : κ) : get? ([] : Dict κ α) k = none := rfl

theorem get?_set (d : Dict κ α) (k k' : κ) (v : α) :
    get? (set d k v) k' = if k' = k then some v else get? d k' := by
  by_cases h : k' = k
  · subst h; simp
  · simp [h, get?_set_ne d v h]

theorem getItem_ok_iff (d : Dict κ α) (k : κ) (v : α) :
    getItem d k = .ok v ↔ get? d k = some v := by
  unfold getItem; cases get? d k <;> simp

end Dict

end Verif

namespace Verif

theorem Py.bind_ok {α β} {x : Py α} {f : α → Py β} {b : β} :
    (x >>= f) = .ok b ↔ ∃ a, x = .ok a ∧ f a = .ok b := by
  cases x with
  | error e => simp [bind, Except.bind]
  | ok a => simp [bind, Except.bind]

theorem Py.pure_ok {α} {a b : α} : (pure a : Py α) = .ok b ↔ a = b := by
  simp [pure, Except.pure]

theorem Py.throw_ok {α} {e : PyErr} {b : α} : (throw e : Py α) = .ok b ↔ False := by
  simp [throw, throwThe, MonadExceptOf.throw]

theorem Py.error_ok {α} {e : PyErr} {b : α} : (Except.error e : Py α) = .ok b ↔ False := by
  simp

theorem Py.ok_ok {α} {a b : α} : (Except.ok a : Py α) = .ok b ↔ a = b := by simp

end Verif
