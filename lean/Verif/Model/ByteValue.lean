import Verif.Std.Int
import Verif.Std.Content

/- Model of `src/service/byte_value.rs` and `src/service/limit.rs`. -/

namespace Compose
open Rust

/-- `ByteValue`, /repo/src/service/byte_value.rs:26-35. -/
inductive ByteValue
  | bytes (n : Nat) | kilobytes (n : Nat) | megabytes (n : Nat) | gigabytes (n : Nat)
  deriving DecidableEq, Repr

namespace ByteValue

/-- `u64::checked_mul`. -/
def checkedMul (a b : Nat) : Option Nat := if a * b ≤ u64Max then some (a * b) else none

/-- `ByteValue::into_bytes`, /repo/src/service/byte_value.rs:42-49. -/
def intoBytes : ByteValue → Option Nat
  | bytes n => some n
  | kilobytes n => checkedMul n 1000
  | megabytes n => checkedMul n 1000000
  | gigabytes n => checkedMul n 1000000000

/-- `ByteValue::unit`, /repo/src/service/byte_value.rs:53-60. -/
def unit : ByteValue → Str
  | bytes _ => str!"b"
  | kilobytes _ => str!"kb"
  | megabytes _ => str!"mb"
  | gigabytes _ => str!"gb"

/-- The number bound by the or-pattern, /repo/src/service/byte_value.rs:135-138. -/
def amount : ByteValue → Nat
  | bytes n | kilobytes n | megabytes n | gigabytes n => n

/-- `ParseByteValueError`, /repo/src/service/byte_value.rs:111-131. -/
inductive Err
  | empty | unknownUnit (s : Str) | parseInt (source : IntErr) (value : Str)
  deriving DecidableEq, Repr

/-- `parse_u64`, /repo/src/service/byte_value.rs:99-107. -/
def parseU64 (value : Str) (f : Nat → ByteValue) : Except Err ByteValue :=
  match parseUnsigned u64Max value with
  | .ok n => .ok (f n)
  | .error source => .error (.parseInt source value)

/-- `str::strip_suffix` with a set of characters. -/
def stripSuffixChar (cs : List Char) (s : Str) : Option Str :=
  match s.reverse with
  | c :: rest => if c ∈ cs then some rest.reverse else none
  | [] => none

/-- `ByteValue::from_str`, /repo/src/service/byte_value.rs:72-91. -/
def fromStr (s : Str) : Except Err ByteValue :=
  if s.isEmpty then .error .empty
  else match parseUnsigned u64Max s with
  | .ok n => .ok (bytes n)
  | .error _ =>
    match (stripSuffix str!"gb" s).or (stripSuffixChar ['g', 'G'] s) with
    | some v => parseU64 v gigabytes
    | none =>
      match (stripSuffix str!"mb" s).or (stripSuffixChar ['m', 'M'] s) with
      | some v => parseU64 v megabytes
      | none =>
        match (stripSuffix str!"kb" s).or (stripSuffixChar ['k', 'K'] s) with
        | some v => parseU64 v kilobytes
        | none =>
          match stripSuffixChar ['b', 'B'] s with
          | some v => parseU64 v bytes
          | none => .error (.unknownUnit s)

/-- `Display for ByteValue`, /repo/src/service/byte_value.rs:133-143. -/
def toStr (v : ByteValue) : Str := showNat v.amount ++ v.unit

/-- `Deserialize for ByteValue`, /repo/src/service/byte_value.rs:145-169: the visitor accepts an unsigned
integer or a string; `none` is any deserialization error. -/
def deserialize : Content → Option ByteValue
  | .u64 v => some (bytes v)
  | .str v => (fromStr v).toOption
  | _ => none

end ByteValue

/-- `Limit<T>`, /repo/src/service/limit.rs:19-28. -/
inductive Limit (T : Type)
  | value (v : T) | unlimited
  deriving DecidableEq, Repr

namespace Limit

/-- `Display for Limit<T>`, /repo/src/service/limit.rs:48-55. -/
def toStr {T : Type} (toStrT : T → Str) : Limit T → Str
  | value v => toStrT v
  | unlimited => str!"-1"

/-- `FromStr for Limit<T>`, /repo/src/service/limit.rs:57-67. -/
def fromStr {T E : Type} (fromStrT : Str → Except E T) (s : Str) : Except E (Limit T) :=
  if s = str!"-1" then .ok unlimited
  else match fromStrT s with
    | .ok v => .ok (value v)
    | .error e => .error e

/-- `Serialize for Limit<T>`, /repo/src/service/limit.rs:69-76. -/
def serialize {T : Type} (serT : T → Content) : Limit T → Content
  | value v => serT v
  | unlimited => .i64 (-1)

/-- `Deserialize for Limit<T>`, /repo/src/service/limit.rs:78-127.  `deT` is `T::deserialize`. -/
def deserialize {T : Type} (deT : Content → Option T) : Content → Option (Limit T)
  | .i64 v =>
    if v ≤ -2 then none
    else if v = -1 then some unlimited
    else (deT (.u64 v.natAbs)).map value
  | .u64 v => (deT (.u64 v)).map value
  | .str v => if v = str!"-1" then some unlimited else (deT (.str v)).map value
  | _ => none

end Limit

/-- `u32::deserialize` (serde): an integer in range. -/
def deserializeU32 : Content → Option Nat
  | .u64 v => if v ≤ u32Max then some v else none
  | .i64 v => if 0 ≤ v ∧ v ≤ u32Max then some v.natAbs else none
  | _ => none

end Compose
