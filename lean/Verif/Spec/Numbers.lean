import Verif.Std.Content
import Mathlib.Algebra.Order.Field.Rat
import Mathlib.Algebra.Order.Field.Power

/- What an IEEE 754 double denotes. -/

namespace Spec
open Rust

/-- The number denoted by the bits of a double: `(-1)^sign * 1.frac * 2^(expo - 1023)`, `0.frac * 2^(-1022)` for a zero
exponent field (subnormal numbers and zero), nothing for an exponent field of all ones (infinities and NaN). -/
def floatValue (x : F64) : Option ℚ :=
  let sign : ℚ := if 2 ^ 63 ≤ x.toNat then -1 else 1
  let expo : ℕ := x.toNat / 2 ^ 52 % 2 ^ 11
  let frac : ℕ := x.toNat % 2 ^ 52
  if expo = 2 ^ 11 - 1 then none
  else if expo = 0 then some (sign * frac * 2 ^ (-1074 : ℤ))
  else some (sign * (2 ^ 52 + frac : ℕ) * 2 ^ ((expo : ℤ) - 1075))

/-- An integer in a document, however its sign is kept. -/
def IsInteger (c : Content) (i : Int) : Prop := c = .i64 i ∨ 0 ≤ i ∧ c = .u64 i.toNat

/-- The double with only the sign bit set. -/
def negativeZero : F64 := BitVec.ofNat 64 (2 ^ 63)

end Spec
