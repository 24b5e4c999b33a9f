import Verif.Std.Float
import Verif.Std.Int

/-
Model of the text of `f64` in the standard library: `FromStr` (`core::num::dec2flt`) and `Display` (`core::fmt::float`,
`core::num::flt2dec`), which /repo uses for numbers in texts (/repo/src/common.rs:627-643, 665-673,
/repo/src/service/deploy/resources.rs:300-330).  The standard library is not part of /repo and its
source code was not at hand; this is written from memory of it and was not compared with it.  Where it has several algorithms with the same result (fast paths, Eisel-Lemire, the slow path;
Grisu, Dragon) the result is modelled: the nearest double, and the shortest decimal number that is read as the double.
-/

namespace Rust.F64
open Rust

/-! ### Rounding -/

/-- `n / d` rounded to an integer, a half to the even one. -/
def halfEven (n d : Nat) : Nat :=
  let q := n / d
  let r := n % d
  if d < 2 * r ∨ (2 * r = d ∧ q % 2 = 1) then q + 1 else q

/-- The bits, without the sign, of the double next to `a / b`: of numbers from `2 ^ (52 + j)` to `2 ^ (53 + j)` times
`2 ^ (-1074)` the multiple of `2 ^ j`, of smaller numbers that of `2 ^ 0`.  Beyond the largest double it is infinity.
(Biased exponent and mantissa of `dec2flt`; here a mantissa that is rounded up to `2 ^ 53` carries into the exponent.) -/
def roundBits (a b : Nat) : Nat :=
  let j := (a * 2 ^ 1074 / b).log2 - 52
  min (j * 2 ^ 52 + halfEven (a * 2 ^ 1074) (b * 2 ^ j)) (2047 * 2 ^ 52)

/-- The double with these bits and this sign. -/
def withSign (negative : Bool) (bits : Nat) : F64 := BitVec.ofNat 64 (if negative then 2 ^ 63 + bits else bits)

/-! ### Reading -/

/-- The bits of `m * 10 ^ e`. -/
def decimalBits (m : Nat) (e : Int) : Nat := roundBits (m * 10 ^ e.toNat) (10 ^ (-e).toNat)

/-- The value of a string of digits, as `dec2flt` adds it up. -/
def digitSum (s : Str) : Nat := s.foldl (fun n c => n * 10 + (c.toNat - 48)) 0

/-- `parse_scientific` of `core::num::dec2flt::parse`, after the `e`; nothing may be left after the exponent.  Simplified: the
code stops counting when the exponent has reached 65536, which can make a difference only if the number before it has tens of
thousands of digits. -/
def parseExponent (s : Str) : Option Int :=
  let negative := s.head? = some '-'
  let ds := if s.head? = some '-' ∨ s.head? = some '+' then s.tail else s
  if ds = [] then none
  else if ds.all isDigit then some (if negative then -(digitSum ds : Int) else digitSum ds)
  else none

/-- `parse_number` of `core::num::dec2flt::parse`, with the rounding of `dec2flt`: digits, a point and digits, an exponent. -/
def parseNumber (s : Str) : Option Nat :=
  let ints := s.takeWhile isDigit
  let rest := s.dropWhile isDigit
  let point := rest.head? = some '.'
  let fracs := if point then rest.tail.takeWhile isDigit else []
  let rest := if point then rest.tail.dropWhile isDigit else rest
  if ints = [] ∧ fracs = [] then none
  else match rest with
    | [] => some (decimalBits (digitSum (ints ++ fracs)) (-fracs.length))
    | c :: r =>
      if c = 'e' ∨ c = 'E' then
        (parseExponent r).map fun e => decimalBits (digitSum (ints ++ fracs)) (e - fracs.length)
      else none

/-- `parse_inf_nan` of `core::num::dec2flt::parse`: the bits of infinity and of `f64::NAN`. -/
def parseInfNan (s : Str) : Option Nat :=
  if eqIgnoreAsciiCase s str!"inf" ∨ eqIgnoreAsciiCase s str!"infinity" then some (2047 * 2 ^ 52)
  else if eqIgnoreAsciiCase s str!"nan" then some (2047 * 2 ^ 52 + 2 ^ 51)
  else none

/-- `FromStr for f64`: `core::num::dec2flt::dec2flt`. -/
def parse (s : Str) : Option F64 :=
  match s with
  | [] => none
  | c :: cs =>
    let negative := c == '-'
    let body := if c = '-' ∨ c = '+' then cs else c :: cs
    if body = [] then none
    else match parseNumber body with
      | some bits => some (withSign negative bits)
      | none => (parseInfNan body).map (withSign negative)

/-! ### Writing -/

/-- A double without its sign, as a multiple of `2 ^ (-1074)`. -/
def units (bits : Nat) : Nat :=
  if bits < 2 ^ 52 then bits else (2 ^ 52 + bits % 2 ^ 52) * 2 ^ (bits / 2 ^ 52 - 1)

/-- How many times `10 ^ (309 - i)` fits into the double. -/
def lower (bits i : Nat) : Nat := units bits * 10 ^ (i - 309) / (2 ^ 1074 * 10 ^ (309 - i))

/-- Whether `c * 10 ^ (309 - i)` is read as the double. -/
def reads (bits i c : Nat) : Bool := roundBits (c * 10 ^ (309 - i)) (10 ^ (i - 309)) == bits

/-- Whether the next multiple of `10 ^ (309 - i)` is closer to the double than the one below; `tieUp` is for the case that
both are equally close. -/
def nextCloser (tieUp : Bool) (bits i : Nat) : Bool :=
  let r := units bits * 10 ^ (i - 309) % (2 ^ 1074 * 10 ^ (309 - i))
  let d := 2 ^ 1074 * 10 ^ (309 - i)
  d < 2 * r || (2 * r == d && tieUp)

/-- `format_shortest` of `core::num::flt2dec`: the first power `10 ^ (309 - i)`, from the largest on, that has a multiple that
is read as the double, and the multiple, the closest one if there are several.  Both of the closest are allowed if there are
two (`tieUp`). -/
def shortest (tieUp : Nat → Bool) (bits : Nat) : Nat × Nat :=
  let i := ((List.range 1384).find? fun i => reads bits i (lower bits i) || reads bits i (lower bits i + 1)).getD 1383
  let c := lower bits i
  (if reads bits i (c + 1) && (!reads bits i c || nextCloser (tieUp bits) bits i) then c + 1 else c, i)

/-- A number with at least `width` digits. -/
def padded (width n : Nat) : Str := List.replicate (width - (showNat n).length) '0' ++ showNat n

/-- `digits_to_dec_str` of `core::num::flt2dec`, without a minimum of fractional digits: `c * 10 ^ (309 - i)`. -/
def decimalText (c i : Nat) : Str :=
  if i ≤ 309 then showNat (c * 10 ^ (309 - i))
  else showNat (c / 10 ^ (i - 309)) ++ '.' :: padded (i - 309) (c % 10 ^ (i - 309))

/-- `Display for f64` without width or precision: `float_to_decimal_display` of `core::fmt::float`, `to_shortest_str` of
`core::num::flt2dec`. -/
def «show» (tieUp : Nat → Bool) (x : F64) : Str :=
  let bits := x.toNat % 2 ^ 63
  let sign := if x.msb then str!"-" else []
  if 2047 * 2 ^ 52 < bits then str!"NaN"
  else if bits = 2047 * 2 ^ 52 then sign ++ str!"inf"
  else if bits = 0 then sign ++ str!"0"
  else
    let digits := shortest tieUp bits
    sign ++ decimalText digits.1 digits.2

end Rust.F64
