import Verif.Spec.Messages
import Verif.Spec.Convert

/- The messages shown for texts that are not numbers and for values that do not convert, as in `Spec/Messages`. -/

namespace Spec
open Rust Compose

/-- Messages for texts that are not numbers. -/
inductive NumberTextMessage (ft : FloatText) (s : Str) : Str → Prop
  | empty : s = [] → NumberTextMessage ft s
      (because "error parsing number as an integer".toList "cannot parse integer from empty string".toList)
  | sign : s = "+".toList ∨ s = "-".toList → NumberTextMessage ft s
      (because "error parsing number as an integer".toList "invalid digit found in string".toList)
  | large {ds : Str} : s = ds ∨ s = '+' :: ds → IsNumber ds → 2 ^ 64 ≤ decimal ds → NumberTextMessage ft s
      (because "error parsing number as an integer".toList "number too large to fit in target type".toList)
  | small {ds : Str} : s = '-' :: ds → IsNumber ds → 2 ^ 63 < decimal ds → NumberTextMessage ft s
      (because "error parsing number as an integer".toList "number too small to fit in target type".toList)
  | float : ¬ OnlyDigits s → ft.parse s = none → NumberTextMessage ft s
      (because "error parsing number as a float".toList "invalid float literal".toList)

/-- Messages for values that do not convert to integers from `a` to `b`. -/
inductive IntegerMessage (ft : FloatText) (a b : Int) (v : Value) : Str → Prop
  | text {s m : Str} : v = .string s → NumberTextMessage ft s m →
      IntegerMessage ft a b v (because "error parsing string value into a number".toList m)
  | float {x : F64} : MeansNumber ft v (.float x) → IntegerMessage ft a b v
      (because "error converting number".toList "cannot convert a float to an integer".toList)
  | range {n : Number} {i : Int} : MeansNumber ft v n → integerOf n = some i → ¬ (a ≤ i ∧ i ≤ b) → IntegerMessage ft a b v
      (because "error converting number".toList
        (because "error converting integer type".toList "out of range integral type conversion attempted".toList))

/-- Messages for values that do not convert to floats. -/
inductive FloatMessage (ft : FloatText) (v : Value) : Str → Prop
  | text {s m : Str} : v = .string s → NumberTextMessage ft s m →
      FloatMessage ft v (because "error parsing string value into a number".toList m)
  | range {n : Number} {i : Int} : MeansNumber ft v n → integerOf n = some i → ¬ SmallInteger n → FloatMessage ft v
      (because "error converting integer type".toList "out of range integral type conversion attempted".toList)

end Spec
