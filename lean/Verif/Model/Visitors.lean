import Verif.Model.Structs

/-
serde's visitors: how the types with a handwritten `Deserialize` take a value from a deserializer (`src/serde.rs` and the
visitors of the single types).  `Props/Kinds` proves that the readers of the model are these visitors.
-/

namespace Compose
open Rust

/-- `serde::de::Visitor`: what is done with every kind of value.  The default methods report a type error. -/
structure Visitor (α : Type) where
  visitUnit : Outcome Unit α := .err ()
  visitNone : Outcome Unit α := .err ()
  visitBool : Bool → Outcome Unit α := fun _ => .err ()
  visitU64 : Nat → Outcome Unit α := fun _ => .err ()
  visitI64 : Int → Outcome Unit α := fun _ => .err ()
  visitF64 : F64 → Outcome Unit α := fun _ => .err ()
  visitStr : Str → Outcome Unit α := fun _ => .err ()
  visitSeq : List Content → Outcome Unit α := fun _ => .err ()
  visitMap : List (Content × Content) → Outcome Unit α := fun _ => .err ()
  visitSome : Content → Outcome Unit α := fun _ => .err ()

namespace Visitor

/-- `Deserializer::deserialize_any` (serde_yaml): the method for the kind of the value; null is `visit_unit`. -/
def deserializeAny {α : Type} (v : Visitor α) : Content → Outcome Unit α
  | .unit => v.visitUnit
  | .bool b => v.visitBool b
  | .u64 n => v.visitU64 n
  | .i64 i => v.visitI64 i
  | .f64 x => v.visitF64 x
  | .str s => v.visitStr s
  | .seq vs => v.visitSeq vs
  | .map es => v.visitMap es

/-- `Deserializer::deserialize_str` and `deserialize_string` (serde_yaml): only strings. -/
def deserializeStr {α : Type} (v : Visitor α) : Content → Outcome Unit α
  | .str s => v.visitStr s
  | _ => .err ()

/-- `Deserializer::deserialize_option` (serde_yaml). -/
def deserializeOption {α : Type} (v : Visitor α) : Content → Outcome Unit α
  | .unit => v.visitNone
  | c => v.visitSome c

/-- `ValueEnumVisitor` with all closures, /repo/src/serde.rs:217-259. -/
def valueEnum {α : Type} (u64 : Nat → α) (i64 : Int → α) (f64 : F64 → α) (bool : Bool → α) (string : Str → α) : Visitor α where
  visitBool b := .ok (bool b)
  visitI64 i := .ok (i64 i)
  visitU64 n := .ok (u64 n)
  visitF64 x := .ok (f64 x)
  visitStr s := .ok (string s)

/-- `ValueEnumVisitor` for numbers, /repo/src/serde.rs:261-287. -/
def numberEnum {α : Type} (u64 : Nat → α) (i64 : Int → α) (f64 : F64 → α) : Visitor α where
  visitI64 i := .ok (i64 i)
  visitU64 n := .ok (u64 n)
  visitF64 x := .ok (f64 x)

/-- `ValueEnumVisitor` for strings and numbers, /repo/src/serde.rs:289-325. -/
def stringOrNumberEnum {α : Type} (u64 : Nat → α) (i64 : Int → α) (f64 : F64 → α) (string : Str → α) : Visitor α where
  visitI64 i := .ok (i64 i)
  visitU64 n := .ok (u64 n)
  visitF64 x := .ok (f64 x)
  visitStr s := .ok (string s)

/-- `ItemOrListVisitor`, /repo/src/serde.rs:327-420: scalars are handed to the type of the item, sequences to the type of
the list. -/
def itemOrList {V I L : Type} (item : Content → Outcome Unit I) (list : Content → Outcome Unit L) (ofItem : I → V)
    (ofList : L → V) : Visitor V where
  visitBool b := (item (.bool b)).map ofItem
  visitI64 i := (item (.i64 i)).map ofItem
  visitU64 n := (item (.u64 n)).map ofItem
  visitF64 x := (item (.f64 x)).map ofItem
  visitStr s := (item (.str s)).map ofItem
  visitSeq vs := (list (.seq vs)).map ofList

/-- `FromStrVisitor`, /repo/src/serde.rs:422-478, and `TryFromStringVisitor`, /repo/src/serde.rs:480-545, whose
`visit_str` and `visit_string` do the same. -/
def fromStr {α : Type} (parse : Str → Option α) : Visitor α where
  visitStr s := Outcome.ofOption (parse s)

/-- `try_into` between integer types in `forward_visitor!`, /repo/src/serde.rs:31-39: the unsigned type has the greatest
value `max`. -/
def tryUnsigned (max : Nat) (i : Int) : Outcome Unit Nat := if 0 ≤ i ∧ i ≤ max then .ok i.toNat else .err ()

/-- `FromStrOrU16Visitor`, /repo/src/serde.rs:547-624. -/
def fromStrOrU16 {α : Type} (ofU16 : Nat → α) (parse : Str → Outcome Unit α) : Visitor α where
  visitI64 i := (tryUnsigned u16Max i).map ofU16
  visitU64 n := (tryUnsigned u16Max n).map ofU16
  visitStr s := parse s

/-- The visitor of `ShortOrLong`, /repo/src/common/short_or_long.rs:338-476. -/
def shortOrLong {S L : Type} (short : Content → Outcome Unit S) (long : Content → Outcome Unit L) :
    Visitor (ShortOrLong S L) where
  visitUnit := (short .unit).map .short
  visitNone := (short .unit).map .short
  visitBool b := (short (.bool b)).map .short
  visitI64 i := (short (.i64 i)).map .short
  visitU64 n := (short (.u64 n)).map .short
  visitF64 x := (short (.f64 x)).map .short
  visitStr s := (short (.str s)).map .short
  visitSome c := (short c).map .short
  visitSeq vs := (short (.seq vs)).map .short
  visitMap es := (long (.map es)).map .long

/-- `ListOrMapVisitor`, /repo/src/common.rs:259-276. -/
def listOrMap : Visitor ListOrMap where
  visitSeq vs := ((Codecs.set Codecs.str).de (.seq vs)).map .list
  visitMap es := (Codecs.valueMap.de (.map es)).map .map

/-- `CpusVisitor`, /repo/src/service/deploy/resources.rs:296-336.  The methods for smaller integers are not called by
serde_yaml. -/
def cpus (parseF64 : Str → Option F64) : Visitor Cpus where
  visitF64 x := Outcome.ofOption (Cpus.new x).toOption
  visitStr s := (Outcome.ofOption (parseF64 s)).bind fun x => Outcome.ofOption (Cpus.new x).toOption

/-- `CountVisitor`, /repo/src/service/deploy/resources.rs:573-592. -/
def count : Visitor Count where
  visitU64 n := .ok (.integer n)
  visitStr s := Outcome.ofOption (Count.fromStr s).toOption

/-- The visitor of `Limit`, /repo/src/service/limit.rs:84-127. -/
def limit {T : Type} (de : Content → Outcome Unit T) : Visitor (Limit T) where
  visitI64 i := if i ≤ -2 then .err () else if i = -1 then .ok .unlimited else (de (.u64 i.toNat)).map .value
  visitU64 n := (de (.u64 n)).map .value
  visitStr s := if s = str!"-1" then .ok .unlimited else (de (.str s)).map .value

/-- The visitor of `ByteValue`, /repo/src/service/byte_value.rs:151-169. -/
def byteValue : Visitor ByteValue where
  visitU64 n := .ok (.bytes n)
  visitStr s := Outcome.ofOption (ByteValue.fromStr s).toOption

/-- The visitor of `IdOrName`, /repo/src/service/user.rs:243-277. -/
def idOrName : Visitor IdOrName where
  visitI64 i := (tryUnsigned u32Max i).map .id
  visitU64 n := (tryUnsigned u32Max n).map .id
  visitStr s := Outcome.ofOption (IdOrName.parse s).toOption

/-- The visitor of durations, /repo/src/serde/duration_option.rs:36-68. -/
def duration : Visitor (Option Duration) where
  visitI64 i := (tryUnsigned u64Max i).map fun n => some (Duration.fromMicros n)
  visitU64 n := .ok (some (Duration.fromMicros n))
  visitNone := .ok none
  visitStr s :=
    match durationParse s with
    | .ok d => .ok (some d)
    | .err _ => .err ()
    | .panic => .panic

/-- The visitor of optional values read from strings, /repo/src/serde/display_from_str_option.rs:37-74. -/
def displayFromStrOption {α : Type} (parse : Str → Option α) : Visitor (Option α) where
  visitStr s := (Outcome.ofOption (parse s)).map some
  visitNone := .ok none
  visitSome c := ((fromStr parse).deserializeStr c).map some

/-- A type of the library with the way its `Deserialize` is written. -/
structure Reader where
  Ty : Type
  codec : Codec Ty
  read : Content → Outcome Unit Ty

/-- The types with a handwritten `Deserialize`: `Value` /repo/src/common.rs:366-376, `StringOrNumber`
/repo/src/common.rs:804-813, `Command` /repo/src/service.rs:865-869, `EnvFile` /repo/src/service/env_file.rs:80-85,
`ListOrMap` /repo/src/common.rs:253-276, `Cpus` and `Count` /repo/src/service/deploy/resources.rs:290-294, 567-571, `Limit`
/repo/src/service/limit.rs:78-82, `ByteValue` /repo/src/service/byte_value.rs:145-149, `IdOrName`
/repo/src/service/user.rs:237-241, `Range` and `ShortPort` /repo/src/service/ports.rs:847-855, 395-403, `Expose`
/repo/src/service/expose.rs:98-103, the modules of /repo/src/serde for durations and numbers written as strings. -/
def readers (E : Env) : List Reader :=
  [⟨_, Codecs.value, deserializeAny (valueEnum (fun n => .number (.unsignedInt n)) (fun i => .number (.signedInt i))
      (fun x => .number (.float x)) .bool .string)⟩,
    ⟨_, Codecs.stringOrNumber, deserializeAny (stringOrNumberEnum (fun n => .number (.unsignedInt n))
      (fun i => .number (.signedInt i)) (fun x => .number (.float x)) .string)⟩,
    ⟨_, Codecs.command, deserializeAny (itemOrList Codecs.str.de (Codecs.list Codecs.str).de .string .list)⟩,
    ⟨_, Structs.envFile, deserializeAny (itemOrList Codecs.str.de
      (Codecs.list (Codecs.shortOrLong Codecs.str (Derive.struct Structs.envFileConfig))).de .single .list)⟩,
    ⟨_, Codecs.listOrMap, deserializeAny listOrMap⟩,
    ⟨_, Codecs.cpus E, deserializeAny (cpus E.float.parse)⟩,
    ⟨_, Codecs.count, deserializeAny count⟩,
    ⟨_, Codecs.byteLimit, deserializeAny (limit Codecs.byteValue.de)⟩,
    ⟨_, Codecs.limit u32Max, deserializeAny (limit Codecs.u32.de)⟩,
    ⟨_, Codecs.limit u64Max, deserializeAny (limit Codecs.u64.de)⟩,
    ⟨_, Codecs.byteValue, deserializeAny byteValue⟩,
    ⟨_, Codecs.idOrName, deserializeAny idOrName⟩,
    ⟨_, Codecs.range, deserializeAny (fromStrOrU16 Range.ofU16 fun s => Outcome.ofOption (Range.fromStr s).toOption)⟩,
    ⟨_, Codecs.shortPort E, deserializeAny (fromStrOrU16 ShortPort.ofU16 fun s =>
      match ShortPort.fromStr (fun s => (E.ip.parse s).elim (.error ()) .ok) s with
      | .ok p => .ok p
      | .err _ => .err ()
      | .panic => .panic)⟩,
    ⟨_, Codecs.expose, deserializeAny (fromStrOrU16 Expose.ofU16 fun s => Outcome.ofOption (Expose.fromStr s).toOption)⟩,
    ⟨_, Codecs.duration, deserializeAny duration⟩,
    ⟨_, Codecs.displayU32, deserializeOption (displayFromStrOption fun s => (parseUnsigned u32Max s).toOption)⟩]

end Visitor
end Compose
