import Verif.Std.Outcome

/- Operations on results that may also be panics. -/

namespace Rust

/-- `Result::map`. -/
def Outcome.map {ε α β : Type} (f : α → β) : Outcome ε α → Outcome ε β
  | .ok a => .ok (f a)
  | .err e => .err e
  | .panic => .panic

/-- The `?` operator. -/
def Outcome.bind {ε α β : Type} (x : Outcome ε α) (f : α → Outcome ε β) : Outcome ε β :=
  match x with
  | .ok a => f a
  | .err e => .err e
  | .panic => .panic

/-- The result of a function without panic, whose errors are not told apart. -/
def Outcome.ofOption {α : Type} : Option α → Outcome Unit α
  | some a => .ok a
  | none => .err ()

/-- The value of a result, if there is one. -/
def Outcome.toOption {ε α : Type} : Outcome ε α → Option α
  | .ok a => some a
  | _ => none

@[simp] theorem Outcome.toOption_eq_some {ε α : Type} {o : Outcome ε α} {a : α} : o.toOption = some a ↔ o = .ok a := by
  cases o <;> simp [Outcome.toOption]

@[simp] theorem Outcome.map_ok {ε α β : Type} (f : α → β) (a : α) : (Outcome.ok a : Outcome ε α).map f = .ok (f a) := rfl

@[simp] theorem Outcome.bind_ok {ε α β : Type} (a : α) (f : α → Outcome ε β) : (Outcome.ok a : Outcome ε α).bind f = f a := rfl

@[simp] theorem Outcome.ofOption_some {α : Type} (a : α) : Outcome.ofOption (some a) = .ok a := rfl

@[simp] theorem Outcome.ofOption_eq_ok {α : Type} {o : Option α} {a : α} : Outcome.ofOption o = .ok a ↔ o = some a := by
  cases o <;> simp [Outcome.ofOption]

@[simp] theorem Outcome.map_eq_ok {ε α β : Type} {f : α → β} {x : Outcome ε α} {b : β} :
    x.map f = .ok b ↔ ∃ a, x = .ok a ∧ f a = b := by
  cases x <;> simp [Outcome.map]

@[simp] theorem Outcome.bind_eq_ok {ε α β : Type} {f : α → Outcome ε β} {x : Outcome ε α} {b : β} :
    x.bind f = .ok b ↔ ∃ a, x = .ok a ∧ f a = .ok b := by
  cases x <;> simp [Outcome.bind]

end Rust
