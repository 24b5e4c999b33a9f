import Verif.Std.Int
import Verif.Spec.Number
import Verif.Spec.Numbers
import Verif.Spec.Build
import Mathlib.Algebra.Order.Field.Rat
import Mathlib.Algebra.Order.Field.Power

/- Decimal numbers and the doubles they are read as, independent of how this is computed. -/

namespace Spec
open Rust

/-- Positive infinity: an exponent field of all ones, and no fraction. -/
def infinity : F64 := BitVec.ofNat 64 0x7FF0000000000000

/-- The NaN that texts stand for. -/
def quietNan : F64 := BitVec.ofNat 64 0x7FF8000000000000

/-- The double with the other sign: adding `2 ^ 63` modulo `2 ^ 64` changes the sign bit and nothing else. -/
def opposite (x : F64) : F64 := x + BitVec.ofNat 64 (2 ^ 63)

/-- The double, with a clear sign bit, that the number `v ≥ 0` is rounded to (IEEE 754, to nearest): there is none closer to
`v`, and its last bit is 0 if another one is as close; from the middle between the largest double and `2 ^ 1024` on, it is
infinity. -/
def RoundsTo (v : ℚ) (x : F64) : Prop :=
  x.toNat < 2 ^ 63 ∧
    (v < 2 ^ 1024 - 2 ^ 970 →
      ∃ q, floatValue x = some q ∧ ∀ y r, floatValue y = some r → r ≠ q →
        |v - q| < |v - r| ∨ (|v - q| = |v - r| ∧ x.toNat % 2 = 0)) ∧
    (2 ^ 1024 - 2 ^ 970 ≤ v → x = infinity)

/-- Digits, or nothing. -/
def Digits (s : Str) : Prop := ∀ c ∈ s, c ∈ "0123456789".toList

/-- Digits with at most one point before, between or after them, and the number they stand for. -/
def PointText (t : Str) (v : ℚ) : Prop :=
  ∃ ints fracs, Digits ints ∧ Digits fracs ∧ ints ++ fracs ≠ [] ∧
    (t = ints ∧ fracs = [] ∨ t = ints ++ ".".toList ++ fracs) ∧ v = decimal (ints ++ fracs) / 10 ^ fracs.length

/-- The same, perhaps with an exponent. -/
inductive NumeralText : Str → ℚ → Prop
  | plain {t : Str} {v : ℚ} : PointText t v → NumeralText t v
  | exponent {t ds : Str} {e : Char} {v : ℚ} : PointText t v → e ∈ "eE".toList → IsNumber ds →
      NumeralText (t ++ [e] ++ ds) (v * 10 ^ decimal ds)
  | plus {t ds : Str} {e : Char} {v : ℚ} : PointText t v → e ∈ "eE".toList → IsNumber ds →
      NumeralText (t ++ [e] ++ "+".toList ++ ds) (v * 10 ^ decimal ds)
  | minus {t ds : Str} {e : Char} {v : ℚ} : PointText t v → e ∈ "eE".toList → IsNumber ds →
      NumeralText (t ++ [e] ++ "-".toList ++ ds) (v / 10 ^ decimal ds)

/-- A double without a sign: a number, infinity, or not a number. -/
inductive UnsignedText : Str → F64 → Prop
  | number {t : Str} {v : ℚ} {x : F64} : NumeralText t v → RoundsTo v x → UnsignedText t x
  | inf {t : Str} : AnyCase t "inf".toList → UnsignedText t infinity
  | infinity {t : Str} : AnyCase t "infinity".toList → UnsignedText t infinity
  | nan {t : Str} : AnyCase t "nan".toList → UnsignedText t quietNan

/-- The texts of doubles. -/
inductive DoubleText : Str → F64 → Prop
  | plain {t : Str} {x : F64} : UnsignedText t x → DoubleText t x
  | plus {t : Str} {x : F64} : UnsignedText t x → DoubleText ("+".toList ++ t) x
  | minus {t : Str} {x : F64} : UnsignedText t x → DoubleText ("-".toList ++ t) (opposite x)

/-- A decimal number without superfluous zeros: no zero at the front of the integral part (unless it is 0) nor at the end of
the fractional part. -/
def TidyText (t : Str) : Prop :=
  ∃ n : Nat, t = showNat n ∨ ∃ fracs, fracs ≠ [] ∧ fracs.getLast? ≠ some '0' ∧ t = showNat n ++ ".".toList ++ fracs

/-- The shortest text that is read as the double `x`, which is positive and finite: it stands for a multiple of a power of ten
that is rounded to `x`; no multiple of a larger power is; and of the multiples of this power none is closer to `x`. -/
def ShortestText (t : Str) (x : F64) : Prop :=
  ∃ (q : ℚ) (c : ℕ) (k : ℤ), floatValue x = some q ∧ RoundsTo (c * 10 ^ k) x ∧
    (∀ (c' : ℕ) (k' : ℤ), RoundsTo (c' * 10 ^ k') x → k' ≤ k) ∧
    (∀ c' : ℕ, RoundsTo (c' * 10 ^ k) x → |c * 10 ^ k - q| ≤ |c' * 10 ^ k - q|) ∧
    PointText t (c * 10 ^ k) ∧ TidyText t

/-- How a double with a clear sign bit is written. -/
inductive WrittenUnsigned : Str → F64 → Prop
  | positive {t : Str} {x : F64} {q : ℚ} : floatValue x = some q → 0 < q → ShortestText t x → WrittenUnsigned t x
  | zero : WrittenUnsigned "0".toList 0#64
  | infinity : WrittenUnsigned "inf".toList infinity

/-- How a double is written. -/
inductive WrittenDouble : Str → F64 → Prop
  | plain {t : Str} {x : F64} : WrittenUnsigned t x → WrittenDouble t x
  | minus {t : Str} {x : F64} : WrittenUnsigned t x → WrittenDouble ("-".toList ++ t) (opposite x)
  | nan {x : F64} : floatValue x = none → x ≠ infinity → x ≠ opposite infinity → WrittenDouble "NaN".toList x

end Spec
