import Verif.Model.Serde
import Verif.Std.OutcomeOps

/- Model of the code that `#[derive(Serialize, Deserialize)]` generates for a struct with named fields, for every list of
fields: `skip_serializing_if`, `default`, `with`, `flatten`.  The structs of the library are the tables in
`Verif.Model.Structs`.  A struct is read from a mapping whose keys are strings, or from a sequence if it has no flattened
fields: /repo/src/include.rs:13-32, /repo/src/service/blkio_config.rs:17-54 and 81-112, /repo/src/service/develop.rs:17-24,
/repo/src/service/env_file.rs:90-103, /repo/src/service.rs:880-897 and 963-974. -/

namespace Compose
open Rust

/-- How the values of a type are written and read.  `valid` plays no part in either: it says for which values the
properties claim that reading gives back what was written, that is the invariant of the type (a `u64` is modelled by a
natural number) without the values that the property names as exceptions. -/
structure Codec (α : Type) where
  ser : α → Content
  de : Content → Outcome Unit α
  valid : α → Prop

namespace Derive

/-- A field that has its own key.  `default` is the value taken if the key is missing (`#[serde(default)]`, or `None` for
an `Option`), `none` for a required field.  `skip` is `skip_serializing_if`. -/
structure Field where
  key : Str
  Ty : Type
  codec : Codec Ty
  default : Option Ty
  skip : Ty → Bool

/-- A field with `#[serde(flatten)]`.  `keys` are the keys it takes out of the entries that belong to no field (the type
calls `deserialize_struct` with the list of its fields), `none` if it looks at all of them and leaves them (the type calls
`deserialize_map`).  `same` is `==` on the type: maps that differ only in the order of their entries are equal. -/
structure Flat where
  keys : Option (List Str)
  Ty : Type
  same : Ty → Ty → Prop
  write : Ty → List (Str × Content)
  read : List (Str × Content) → Outcome Unit Ty
  valid : Ty → Prop

/-- A field of a struct. -/
inductive Item
  | field (f : Field)
  | flat (f : Flat)

/-- The type of a field. -/
def Item.Ty : Item → Type
  | .field f => f.Ty
  | .flat f => f.Ty

/-- The values of a struct. -/
def Record : List Item → Type
  | [] => Unit
  | i :: is => i.Ty × Record is

/-- The local variables of `visit_map`: one `Option` for every field that is not flattened. -/
def Slots : List Item → Type
  | [] => Unit
  | .field f :: is => Option f.Ty × Slots is
  | .flat _ :: is => Slots is

/-- All variables start as `None`. -/
def Slots.empty : (is : List Item) → Slots is
  | [] => ()
  | .field _ :: is => (none, Slots.empty is)
  | .flat _ :: is => Slots.empty is

/-- The arm of the `match` in the loop of `visit_map` for a key: `none` if no field has the key; an error if the field was
set before ("duplicate field"). -/
def put : (is : List Item) → Str → Content → Slots is → Option (Outcome Unit (Slots is))
  | [], _, _, _ => none
  | .field f :: is, k, v, (s, ss) =>
    if k = f.key then
      some (if s.isSome then .err () else (f.codec.de v).map fun x => (some x, ss))
    else (put is k v ss).map fun o => o.map fun ss => (s, ss)
  | .flat _ :: is, k, v, ss => put is k v ss

/-- The loop of `visit_map`.  The entries without a field are kept in order for the flattened fields; a struct without
flattened fields ignores them. -/
def loop (is : List Item) : Slots is → List (Str × Content) → List (Str × Content) →
    Outcome Unit (Slots is × List (Str × Content))
  | ss, rest, [] => .ok (ss, rest)
  | ss, rest, (k, v) :: es =>
    match put is k v ss with
    | none => loop is ss (rest ++ [(k, v)]) es
    | some (.ok ss) => loop is ss rest es
    | some (.err e) => .err e
    | some .panic => .panic

/-- Every variable is set or has a default; otherwise "missing field". -/
def present : (is : List Item) → Slots is → Bool
  | [], _ => true
  | .field f :: is, (s, ss) => (s.isSome || f.default.isSome) && present is ss
  | .flat _ :: is, ss => present is ss

/-- The values of the fields, the flattened ones read in order from the remaining entries. -/
def build : (is : List Item) → Slots is → List (Str × Content) → Outcome Unit (Record is)
  | [], _, _ => .ok ()
  | .field f :: is, (s, ss), rest =>
    match s.or f.default with
    | some x => (build is ss rest).map fun r => (x, r)
    | none => .err ()
  | .flat f :: is, ss, rest =>
    match f.keys with
    | none => (f.read rest).bind fun x => (build is ss rest).map fun r => (x, r)
    | some ks =>
      (f.read (rest.filter fun e => e.1 ∈ ks)).bind fun x =>
        (build is ss (rest.filter fun e => e.1 ∉ ks)).map fun r => (x, r)

/-- Derived `Deserialize` on the entries of a mapping. -/
def decode (is : List Item) (es : List (Str × Content)) : Outcome Unit (Record is) :=
  (loop is (Slots.empty is) [] es).bind fun (ss, rest) =>
    if present is ss then build is ss rest else .err ()

/-- Derived `Serialize`: the entries in the order of the fields. -/
def write : (is : List Item) → Record is → List (Str × Content)
  | [], _ => []
  | .field f :: is, (x, r) => (if f.skip x then [] else [(f.key, f.codec.ser x)]) ++ write is r
  | .flat f :: is, (x, r) => f.write x ++ write is r

/-- Every field has a value for which the properties are claimed. -/
def recordValid : (is : List Item) → Record is → Prop
  | [], _ => True
  | .field f :: is, (x, r) => f.codec.valid x ∧ recordValid is r
  | .flat f :: is, (x, r) => f.valid x ∧ recordValid is r

/-- Derived `PartialEq`, where the values of fields with their own key are compared as values of the model. -/
def same : (is : List Item) → Record is → Record is → Prop
  | [], _, _ => True
  | .field _ :: is, (x, r), (y, s) => x = y ∧ same is r s
  | .flat f :: is, (x, r), (y, s) => f.same x y ∧ same is r s

/-- A mapping with string keys. -/
def mapping (es : List (Str × Content)) : Content := .map (es.map fun e => (.str e.1, e.2))

/-- Whether a field is not marked `#[serde(flatten)]`, as in /repo/src/service.rs:963-974 all are. -/
def Item.isField : Item → Bool
  | .field _ => true
  | .flat _ => false

/-- Derived `visit_seq` of a struct without flattened fields: the fields take the values in order; those for which no value is left
have their default, or "invalid length" is the error.  That no values are left over is checked by the deserializer afterwards; here
this is the last case. -/
def decodeSeq : (is : List Item) → List Content → Outcome Unit (Record is)
  | [], [] => .ok ()
  | [], _ :: _ => .err ()
  | .field f :: is, [] =>
    match f.default with
    | some x => (decodeSeq is []).map fun r => (x, r)
    | none => .err ()
  | .field f :: is, v :: vs => (f.codec.de v).bind fun x => (decodeSeq is vs).map fun r => (x, r)
  | .flat _ :: _, _ => .err ()

/-- A struct with derived `Serialize` and `Deserialize`.  A struct without flattened fields is read with `deserialize_struct`, which
also takes a sequence; one with flattened fields with `deserialize_map`, which does not. -/
def struct (is : List Item) : Codec (Record is) where
  ser r := mapping (write is r)
  de
    | .seq vs => if is.all Item.isField then decodeSeq is vs else .err ()
    | c => (Outcome.ofOption (entriesOf c)).bind (decode is)
  valid := recordValid is

end Derive
end Compose
