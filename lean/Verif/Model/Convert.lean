import Verif.Model.Common

/-
Model of the conversions into and out of `Number`, `Value` and `StringOrNumber` (`src/common.rs`). The conversions from
`&str`, `Box<str>` and `Cow<str>` have the same result as the one from `String`, as strings of all four types are
modelled by `Str`. The conversions to `String` are in `Verif.Model.Compare`.
-/

namespace Compose
open Rust

/-- `From<u64> for Number`, /repo/src/common.rs:609-613. -/
def Number.ofU64 (n : Nat) : Number := .unsignedInt n

/-- `From<i64> for Number`, /repo/src/common.rs:615-619. -/
def Number.ofI64 (i : Int) : Number := .signedInt i

/-- `From<f64> for Number`, /repo/src/common.rs:621-625. -/
def Number.ofF64 (x : F64) : Number := .float x

/-- `TryFrom<&str> for Number`, /repo/src/common.rs:645-651. -/
def Number.tryFromStr (ft : FloatText) (s : Str) : Except ParseNumberError Number := Number.parse ft s

namespace Value

/-- `From<String>`, `From<&str>`, `From<Box<str>>`, `From<Cow<str>>` for `Value`, /repo/src/common.rs:388-410. -/
def ofString (s : Str) : Value := .string s

/-- `From<Number> for Value`, /repo/src/common.rs:412-416. -/
def ofNumber (n : Number) : Value := .number n

/-- `From<u64> for Value`, /repo/src/common.rs:418-422. -/
def ofU64 (n : Nat) : Value := ofNumber (Number.ofU64 n)

/-- `From<i64> for Value`, /repo/src/common.rs:424-428. -/
def ofI64 (i : Int) : Value := ofNumber (Number.ofI64 i)

/-- `From<f64> for Value`, /repo/src/common.rs:430-434. -/
def ofF64 (x : F64) : Value := ofNumber (Number.ofF64 x)

/-- `From<bool> for Value`, /repo/src/common.rs:436-440. -/
def ofBool (b : Bool) : Value := .bool b

end Value

/-- `TryFromValueError`, /repo/src/common.rs:500-517. -/
inductive TryFromValueError
  | parseNumber (e : ParseNumberError)
  | tryFromNumber (e : TryFromNumberError)
  | tryFromInt
  | intoBool
  deriving DecidableEq, Repr

namespace Value

/-- `TryFrom<Value> for u64`, /repo/src/common.rs:464-470. -/
def toU64 (ft : FloatText) (v : Value) : Except TryFromValueError Nat :=
  match v.toNumber ft with
  | .error e => .error (.parseNumber e)
  | .ok n =>
    match n.toU64 with
    | .error e => .error (.tryFromNumber e)
    | .ok k => .ok k

/-- `TryFrom<Value> for i64`, /repo/src/common.rs:472-478. -/
def toI64 (ft : FloatText) (v : Value) : Except TryFromValueError Int :=
  match v.toNumber ft with
  | .error e => .error (.parseNumber e)
  | .ok n =>
    match n.toI64 with
    | .error e => .error (.tryFromNumber e)
    | .ok i => .ok i

/-- `TryFrom<Value> for f64`, /repo/src/common.rs:480-486. -/
def toF64 (ft : FloatText) (v : Value) : Except TryFromValueError F64 :=
  match v.toNumber ft with
  | .error e => .error (.parseNumber e)
  | .ok n =>
    match n.toF64 with
    | none => .error .tryFromInt
    | some x => .ok x

/-- `TryFrom<Value> for bool`, /repo/src/common.rs:488-497. -/
def toBool : Value → Except TryFromValueError Bool
  | .bool b => .ok b
  | _ => .error .intoBool

end Value

namespace StringOrNumber

/-- `From<String>`, `From<Box<str>>`, `From<&str>`, `From<Cow<str>>` for `StringOrNumber`,
/repo/src/common.rs:815-837. -/
def ofString (s : Str) : StringOrNumber := .string s

/-- `From<Number> for StringOrNumber`, /repo/src/common.rs:839-843. -/
def ofNumber (n : Number) : StringOrNumber := .number n

/-- `From<u64> for StringOrNumber`, /repo/src/common.rs:845-849. -/
def ofU64 (n : Nat) : StringOrNumber := ofNumber (Number.ofU64 n)

/-- `From<i64> for StringOrNumber`, /repo/src/common.rs:851-855. -/
def ofI64 (i : Int) : StringOrNumber := ofNumber (Number.ofI64 i)

/-- `From<f64> for StringOrNumber`, /repo/src/common.rs:857-861. -/
def ofF64 (x : F64) : StringOrNumber := ofNumber (Number.ofF64 x)

/-- `TryFrom<StringOrNumber> for Number`, /repo/src/common.rs:881-890. -/
def toNumber (ft : FloatText) : StringOrNumber → Except ParseNumberError Number
  | .string s => Number.parse ft s
  | .number n => .ok n

end StringOrNumber
end Compose
