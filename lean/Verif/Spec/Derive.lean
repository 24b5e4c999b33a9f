import Verif.Model.Derive

/- What it means for a mapping to stand for a struct, in terms of the entries of the mapping. -/

namespace Spec
open Rust Compose Compose.Derive

/-- The values given for a key. -/
def given (es : List (Str × Content)) (k : Str) : List Content := (es.filter fun e => e.1 = k).map (·.2)

/-- The keys that belong to the fields of a struct, in order. -/
def ownKeys : List Item → List Str
  | [] => []
  | .field f :: is => f.key :: ownKeys is
  | .flat f :: is => f.keys.getD [] ++ ownKeys is

/-- No flattened field. -/
def noFlat : List Item → Bool
  | [] => true
  | .field _ :: is => noFlat is
  | .flat _ :: _ => false

/-- A flattened field that takes whatever is left comes after all other flattened fields. -/
def restLast : List Item → Bool
  | [] => true
  | .field _ :: is => restLast is
  | .flat f :: is => (f.keys.isSome || noFlat is) && restLast is

/-- The entries that a flattened field is made of: those with its keys, or those that belong to no field. -/
def entriesFor (own : List Str) (f : Flat) (es : List (Str × Content)) : List (Str × Content) :=
  match f.keys with
  | some ks => es.filter fun e => e.1 ∈ ks
  | none => es.filter fun e => e.1 ∉ own

/-- A value gives the entries of a struct: it is a mapping with these entries; or, if the struct may be given as a list, a
list of no more values than the struct has keys, which are the values of the keys in order. -/
inductive GivenAs (asList : Prop) (keys : List Str) : Content → List (Str × Content) → Prop
  | mapping {es : List (Str × Content)} : GivenAs asList keys (Derive.mapping es) es
  | list {vs : List Content} : asList → vs.length ≤ keys.length → GivenAs asList keys (.seq vs) (keys.zip vs)

/-- A mapping stands for a struct: the key of every field occurs once, with a value that stands for the value of the field,
or not at all and the field has its default; every flattened field is read from the entries that belong to it. -/
def StandsFor (own : List Str) (es : List (Str × Content)) : (is : List Item) → Record is → Prop
  | [], _ => True
  | .field f :: is, (x, r) =>
    ((∃ v, given es f.key = [v] ∧ f.codec.de v = .ok x) ∨ (given es f.key = [] ∧ f.default = some x)) ∧
      StandsFor own es is r
  | .flat f :: is, (x, r) => f.read (entriesFor own f es) = .ok x ∧ StandsFor own es is r

/-- Every field is left out of a mapping if it has its default, and is given once, with its value, otherwise. -/
def OmitsDefaults (es : List (Str × Content)) : (is : List Item) → Record is → Prop
  | [], _ => True
  | .field f :: is, (x, r) =>
    (f.default = some x → given es f.key = []) ∧ (f.default ≠ some x → given es f.key = [f.codec.ser x]) ∧
      OmitsDefaults es is r
  | .flat _ :: is, (_, r) => OmitsDefaults es is r

/-- The condition on a table of fields under which the above is unambiguous. -/
structure GoodFields (is : List Item) : Prop where
  distinct : (ownKeys is).Nodup
  last : restLast is = true

/-- Reading gives back the valid values of a type. -/
class Lawful {α : Type} (c : Codec α) : Prop where
  read : ∀ x, c.valid x → c.de (c.ser x) = .ok x

/-- The valid values of a field survive: one that is not written is the default, one that is written is read back. -/
structure FieldLawful (f : Field) : Prop where
  skipped : ∀ x, f.codec.valid x → f.skip x = true → f.default = some x
  kept : ∀ x, f.codec.valid x → f.skip x = false → f.codec.de (f.codec.ser x) = .ok x

/-- The valid values of a flattened field survive, and use no keys of other fields. -/
structure FlatLawful (own : List Str) (f : Flat) : Prop where
  read : ∀ x, f.valid x → f.read (f.write x) = .ok x
  keys : ∀ x, f.valid x → entriesFor own f (f.write x) = f.write x

/-- The valid values of all fields survive. -/
def FieldsLawful (own : List Str) : List Item → Prop
  | [] => True
  | .field f :: is => FieldLawful f ∧ FieldsLawful own is
  | .flat f :: is => FlatLawful own f ∧ FieldsLawful own is

end Spec
