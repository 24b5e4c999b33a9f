/-
`f64` as its 64 bits (IEEE 754 binary64): the sign bit, 11 bits of exponent, 52 bits of fraction.
-/

namespace Rust

/-- `f64`. -/
abbrev F64 := BitVec 64

namespace F64

/-- The 11 exponent bits. -/
def expo (x : F64) : Nat := x.toNat / 2 ^ 52 % 2 ^ 11

/-- The 52 fraction bits. -/
def frac (x : F64) : Nat := x.toNat % 2 ^ 52

/-- `f64::is_sign_positive` (std): the sign bit is clear, also for NaN. -/
def isSignPositive (x : F64) : Bool := !x.msb

/-- `f64::is_finite` (std): the exponent bits are not all ones. -/
def isFinite (x : F64) : Bool := expo x != 2047

/-- `From<u32> for f64` (std), exact for every number below `2^53`: exponent of the leading bit, then the other bits. -/
def ofNat (n : Nat) : F64 :=
  if n = 0 then 0#64
  else BitVec.ofNat 64 ((1023 + n.log2) * 2 ^ 52 + (n - 2 ^ n.log2) * 2 ^ (52 - n.log2))

/-- `From<i32> for f64` (std), exact: as `ofNat`, with the sign bit of a negative number. -/
def ofInt (i : Int) : F64 :=
  if i < 0 then BitVec.ofNat 64 (2 ^ 63) ||| ofNat i.natAbs else ofNat i.natAbs

end F64

end Rust
