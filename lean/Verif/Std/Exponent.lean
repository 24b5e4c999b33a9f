import Verif.Std.Decimal

/-
Model of `LowerExp` and `UpperExp` of integers (`core::fmt::num`) and of `f64` (`core::fmt::float`, `core::num::flt2dec`) in
the standard library, which /repo uses for `{:e}` and `{:E}` of numbers (/repo/src/common.rs:675-693).  The standard library is
not part of /repo and its source code was not at hand; this is written from memory of it and was not compared with it.  Only formats without width, precision and flags
are modelled.
-/

namespace Rust

/-- The letter before the exponent. -/
def exponentLetter (upper : Bool) : Char := if upper then 'E' else 'e'

/-- `digits_to_exp_str` of `core::num::flt2dec`, and the end of `exp_*` in `core::fmt::num`: the first digit, a point and the
other digits if there are any, the letter, the exponent of the first digit. -/
def exponentText (upper : Bool) (digits : Str) (exponent : Int) : Str :=
  digits.take 1 ++ (if 1 < digits.length then '.' :: digits.drop 1 else []) ++ exponentLetter upper :: showInt exponent

/-- The loop of `exp_*` in `core::fmt::num` that counts and removes zeros at the end. -/
def stripZeros (n exponent : Nat) : Nat × Nat :=
  if n % 10 = 0 ∧ 10 ≤ n then stripZeros (n / 10) (exponent + 1) else (n, exponent)
termination_by n
decreasing_by omega

/-- `LowerExp` and `UpperExp` of `u64`.  Simplified: the code writes the digits into a buffer, two at a time, from the last one
to the first one, and adds their number to the exponent; here the digits are those of `Display`. -/
def showNatExp (upper : Bool) (n : Nat) : Str :=
  let stripped := stripZeros n 0
  let digits := showNat stripped.1
  exponentText upper digits ((stripped.2 + (digits.length - 1) : Nat) : Int)

/-- `LowerExp` and `UpperExp` of `i64`. -/
def showIntExp (upper : Bool) (i : Int) : Str := (if i < 0 then str!"-" else []) ++ showNatExp upper i.natAbs

/-- `LowerExp` and `UpperExp` of `f64`: `float_to_exponential_common_shortest` of `core::fmt::float`, `to_shortest_exp_str` of
`core::num::flt2dec`.  The digits are those of `shortest`, and the last one has the exponent `309 - i`. -/
def F64.showExp (tieUp : Nat → Bool) (upper : Bool) (x : F64) : Str :=
  let bits := x.toNat % 2 ^ 63
  let sign := if x.msb then str!"-" else []
  if 2047 * 2 ^ 52 < bits then str!"NaN"
  else if bits = 2047 * 2 ^ 52 then sign ++ str!"inf"
  else if bits = 0 then sign ++ (if upper then str!"0E0" else str!"0e0")
  else
    let shortest := F64.shortest tieUp bits
    let digits := showNat shortest.1
    sign ++ exponentText upper digits (309 - (shortest.2 : Int) + ((digits.length - 1 : Nat) : Int))

end Rust
