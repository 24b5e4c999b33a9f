import Verif.Model.Macros

/-
Model of what the derive macros `AsShort`, `FromShort` and `Default` of `compose_spec_macros` write: the body of `as_short`
and the fields of the struct that `from` and `default` build. The fixed text around them (the `impl` with the generics of
the struct) is left out, and so are positions.
-/

namespace Compose.Macros
open Rust

variable {E : Type}

/-- What stands in the braces after the condition and after `else`: the short field (`self.#short.as_ref()` if it is
optional, `Some(&self.#short)` if not) or `None`, /repo/compose_spec_macros/src/as_short.rs:125-129, 136-140. -/
inductive Braces
  | short (ident : Str) (optional : Bool)
  | none

/-- The parts of the body of `as_short`; a call `(#if_fn)(&self.#ident)`, /repo/compose_spec_macros/src/as_short.rs:122, is
one part. -/
inductive Piece (E : Type)
  | kwIf
  | kwElse
  | andAnd
  | call (question : Question E) (ident : Str)
  | braces (body : Braces)

/-- `#(#if_expressions)&&*`, /repo/compose_spec_macros/src/as_short.rs:136: `quote` writes the separator between the
expressions only. -/
def condition : List (OtherDecl E) → List (Piece E)
  | [] => []
  | [field] => [.call field.question field.ident]
  | field :: rest => .call field.question field.ident :: .andAnd :: condition rest

/-- The body of `as_short` that `Input::impl_as_short` writes, /repo/compose_spec_macros/src/as_short.rs:92-145. -/
def asShortBody (short : ShortField) (others : List (OtherDecl E)) : List (Piece E) :=
  .kwIf :: condition others ++ [.braces (.short short.ident short.optional), .kwElse, .braces .none]

/-- What a field is set to: the argument of `from`, `Some` of it, `Default::default()`, the result of a call of a given
function, or a given expression, /repo/compose_spec_macros/src/as_short.rs:162-175 and
/repo/compose_spec_macros/src/default.rs:116-123. -/
inductive Initial (E : Type)
  | argument
  | someArgument
  | default
  | call (f : E)
  | value (e : E)

/-- The fields of the struct that `Input::impl_from_short` writes, /repo/compose_spec_macros/src/as_short.rs:148-191. -/
def fromShortFields (short : ShortField) (others : List (OtherDecl E)) : List (Str × Initial E) :=
  (short.ident, if short.optional then .someArgument else .argument) ::
    others.map fun field => (field.ident, match field.default with
      | some f => .call f
      | none => .default)

/-- `Field::from_syn` and `Field::expand` for all fields, /repo/compose_spec_macros/src/default.rs:50, 68-78, 93-123. -/
def defaultFields : List (Str × List (DefaultAttr E)) → Except MacroError (List (Str × Initial E))
  | [] => .ok []
  | (ident, attrs) :: rest =>
    match defaultFromSyn attrs with
    | .error e => .error e
    | .ok d =>
      match defaultFields rest with
      | .error e => .error e
      | .ok fields => .ok ((ident, match d with
        | some e => .value e
        | none => .default) :: fields)

/-- `Input::from_syn` and `Input::expand`, /repo/compose_spec_macros/src/default.rs:30-79; `none` for what is not a struct
with named fields. -/
def defaultExpand (data : Option (List (Str × List (DefaultAttr E)))) : Except MacroError (List (Str × Initial E)) :=
  match data with
  | none => .error (.text "must be used on structs with named fields")
  | some fields => defaultFields fields

end Compose.Macros
