import Verif.Spec.Common
import Verif.Model.Convert

/- What numbers values stand for, and why a text is not a number. -/

namespace Spec
open Rust Compose

/-- Why a text is not a number: it is empty or has only a sign; it is an integer that is too large or too small; or it has
characters other than digits, and `f64` does not accept it. -/
inductive NumberTextError (ft : FloatText) : Str → ParseNumberError → Prop
  | empty : NumberTextError ft [] (.int .empty)
  | sign {c : Char} : c = '+' ∨ c = '-' → NumberTextError ft [c] (.int .invalidDigit)
  | large {s ds : Str} : s = ds ∨ s = '+' :: ds → IsNumber ds → 2 ^ 64 ≤ decimal ds →
      NumberTextError ft s (.int .posOverflow)
  | small {ds : Str} : IsNumber ds → 2 ^ 63 < decimal ds → NumberTextError ft ('-' :: ds) (.int .negOverflow)
  | float {s : Str} : ¬ OnlyDigits s → ft.parse s = none → NumberTextError ft s .float

/-- The number a value stands for: a text that is a number stands for that number, a boolean for 1 or 0. -/
inductive MeansNumber (ft : FloatText) : Value → Number → Prop
  | text {s : Str} {n : Number} : NumberText ft s n → MeansNumber ft (.string s) n
  | number {n : Number} : MeansNumber ft (.number n) n
  | yes : MeansNumber ft (.bool true) (.unsignedInt 1)
  | no : MeansNumber ft (.bool false) (.unsignedInt 0)

/-- An integer that is in the range of `u32`, if it is kept as an unsigned one, or in the range of `i32`, if it is kept as
a signed one. -/
inductive SmallInteger : Number → Prop
  | unsigned {n : Nat} : n < 2 ^ 32 → SmallInteger (.unsignedInt n)
  | signed {i : Int} : -2 ^ 31 ≤ i → i < 2 ^ 31 → SmallInteger (.signedInt i)

end Spec
