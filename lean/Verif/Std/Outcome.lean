/- Result of a Rust function that returns `Result<A, E>` but may also panic. -/

namespace Rust

/-- `ok`/`err` are the two cases of `Result`; `panic` is a panic (failed `expect`, slice out of range,
arithmetic overflow with overflow checks). -/
inductive Outcome (ε α : Type)
  | ok (a : α)
  | err (e : ε)
  | panic
  deriving DecidableEq, Repr

/-- The value of a computation without panic. -/
def Outcome.ofExcept {ε α : Type} : Except ε α → Outcome ε α
  | .ok a => .ok a
  | .error e => .err e

end Rust
