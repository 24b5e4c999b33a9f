import Verif.Spec.Decimal
import Verif.Model.ByteValue
import Mathlib.Order.WithBot

/- What comparisons of numbers should say. -/

namespace Spec
open Rust Compose

/-- The place of a double among the numbers: the number that it denotes, above or below all of them for the infinities, and
none for NaN. -/
def floatPlace (x : F64) : Option (WithBot (WithTop ℚ)) :=
  match floatValue x with
  | some q => some ((q : WithTop ℚ) : WithBot (WithTop ℚ))
  | none => if x = infinity then some ⊤ else if x = opposite infinity then some ⊥ else none

/-- A comparison says how two things are ordered. -/
structure Compares {α : Type} [LT α] (o : Ordering) (a b : α) : Prop where
  lt : o = .lt ↔ a < b
  eq : o = .eq ↔ a = b
  gt : o = .gt ↔ b < a

/-- How much a limit allows: `⊤` is no limit. -/
def allowed : Limit Nat → WithTop Nat
  | .value n => n
  | .unlimited => ⊤

/-- Bytes read as one number, the first the most significant. -/
def bigEndian : List Nat → Nat
  | [] => 0
  | b :: bs => b * 256 ^ bs.length + bigEndian bs

end Spec
