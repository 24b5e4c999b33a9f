import Verif.Model.Common
import Verif.Std.Content
import Verif.Std.IndexMap

/- Model of the code that `#[derive(Deserialize)]` generates for structs, as far as the library relies on it. -/

namespace Compose
open Rust

/-- One field of the loop of a derived `visit_map`: entries with the field's key are decoded, a second one is an error
("duplicate field"), entries with other keys are skipped.  The fields of a struct are read independently of each other, so
the loop is modelled field by field. -/
def scanField {β : Type} (de : Content → Option β) (key : Str) : Option β → List (Str × Content) → Option (Option β)
  | state, [] => some state
  | state, (k, v) :: es =>
    if k = key then
      if state.isSome then none
      else match de v with
        | some x => scanField de key (some x) es
        | none => none
    else scanField de key state es

/-- `Option<T>::deserialize`: null is `None`. -/
def optionOf {α : Type} (de : Content → Option α) : Content → Option (Option α)
  | .unit => some none
  | c => (de c).map some

/-- A field `#[serde(default)] key: Option<T>`. -/
def flatOption {α : Type} (de : Content → Option α) (key : Str) (es : List (Str × Content)) : Option (Option α) :=
  (scanField (optionOf de) key none es).map fun o => o.getD none

/-- The entries of a mapping with string keys. -/
def entriesOf : Content → Option (List (Str × Content))
  | .map entries => stringKeys entries
  | _ => none

end Compose
