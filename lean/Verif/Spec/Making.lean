import Verif.Model.Making

/- What constructors and conversions make, in terms of documents. -/

namespace Spec
open Rust Compose Compose.Derive

/-- The document is written for the value, and is read as it. -/
def Written {α : Type} (c : Codec α) (document : Content) (x : α) : Prop := c.ser x = document ∧ c.de document = .ok x

/-- A mapping with these entries. -/
def mappingOf (es : List (String × Content)) : Content := .map (es.map fun e => (.str e.1.toList, e.2))

/-- A text. -/
def asText (s : String) : Content := .str s.toList

/-- A number in decimal. -/
def decimalText (n : Nat) : Str := Nat.toDigits 10 n

end Spec
