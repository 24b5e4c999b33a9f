import Verif.Spec.Decimal

/- Scientific notation, independent of how it is computed. -/

namespace Spec
open Rust

/-- Scientific notation of `v`: one digit, perhaps a point and more digits, a letter, and a power of ten.  The digit at the
front is 0 only for the number 0, which has no other digits and the power 0; the last digit after the point is not 0. -/
def ScientificText (letter : Char) (t : Str) (v : ℚ) : Prop :=
  ∃ (first : Char) (fracs : Str) (k : ℤ), first ∈ "0123456789".toList ∧ Digits fracs ∧
    (first = '0' → fracs = [] ∧ k = 0) ∧ fracs.getLast? ≠ some '0' ∧
    t = [first] ++ (if fracs = [] then [] else ".".toList ++ fracs) ++ [letter] ++ showInt k ∧
    v = decimal ([first] ++ fracs) / 10 ^ fracs.length * 10 ^ k

/-- Scientific notation of the shortest decimal number that is read as the double `x`, which is positive and finite (see
`ShortestText`). -/
def ShortestScientific (letter : Char) (t : Str) (x : F64) : Prop :=
  ∃ (q : ℚ) (c : ℕ) (k : ℤ), floatValue x = some q ∧ RoundsTo (c * 10 ^ k) x ∧
    (∀ (c' : ℕ) (k' : ℤ), RoundsTo (c' * 10 ^ k') x → k' ≤ k) ∧
    (∀ c' : ℕ, RoundsTo (c' * 10 ^ k) x → |c * 10 ^ k - q| ≤ |c' * 10 ^ k - q|) ∧
    ScientificText letter t (c * 10 ^ k)

/-- How a double with a clear sign bit is written. -/
inductive ScientificUnsigned (letter : Char) : Str → F64 → Prop
  | positive {t : Str} {x : F64} {q : ℚ} : floatValue x = some q → 0 < q → ShortestScientific letter t x →
      ScientificUnsigned letter t x
  | zero {t : Str} : ScientificText letter t 0 → ScientificUnsigned letter t 0#64
  | infinity : ScientificUnsigned letter "inf".toList infinity

/-- How a double is written. -/
inductive ScientificDouble (letter : Char) : Str → F64 → Prop
  | plain {t : Str} {x : F64} : ScientificUnsigned letter t x → ScientificDouble letter t x
  | minus {t : Str} {x : F64} : ScientificUnsigned letter t x → ScientificDouble letter ("-".toList ++ t) (opposite x)
  | nan {x : F64} : floatValue x = none → x ≠ infinity → x ≠ opposite infinity → ScientificDouble letter "NaN".toList x

end Spec
