import Verif.Model.Macros
import Mathlib.Data.List.Forall2
import Mathlib.Data.List.Nodup

/- The inputs that the macros of `compose_spec_macros` are documented to accept. -/

namespace Spec
open Rust Compose Compose.Macros

variable {E : Type}

/-- All entries of the `#[as_short(..)]` attributes of a field. -/
def asShortEntries (attrs : List (FieldAttr E)) : List (AsShortMeta E) :=
  attrs.flatMap fun a => match a with
    | .asShort entries => entries
    | .other => []

/-- The entries of a field that is not the short one: `if_fn` and `default`, each with an expression, each at most once. -/
inductive OtherEntries : List (AsShortMeta E) → Option E → Option E → Prop
  | none : OtherEntries [] .none .none
  | ifFn (f : E) : OtherEntries [.ifFn (some f)] (some f) .none
  | default (d : E) : OtherEntries [.default (some d)] .none (some d)
  | ifFnDefault (f d : E) : OtherEntries [.ifFn (some f), .default (some d)] (some f) (some d)
  | defaultIfFn (f d : E) : OtherEntries [.default (some d), .ifFn (some f)] (some f) (some d)

/-- A field marked `#[as_short(short)]` and nothing else. -/
def IsShort (field : FieldDecl E) : Prop := asShortEntries field.attrs = [.short]

/-- What is kept of another field. -/
def KeptAs (field : FieldDecl E) (kept : OtherDecl E) : Prop :=
  OtherEntries (asShortEntries field.attrs) kept.ifFn kept.default ∧ kept.ident = field.ident ∧ kept.ty = field.ty

/-- The type is written `Option<inner>` (or `::Option<inner>`). -/
def WrittenOption (ty inner : TypeExpr) : Prop :=
  ∃ leading, ty = .path false leading [.mk "Option".toList (.angle [.type inner])]

/-- What the macro knows of the short field: its name, the type of the short syntax, and whether it can be missing. -/
def ShortOf (field : FieldDecl E) (short : ShortField) : Prop :=
  short.ident = field.ident ∧
    ((short.optional = true ∧ WrittenOption field.ty short.ty) ∨
      (short.optional = false ∧ short.ty = field.ty ∧ ¬ ∃ inner, WrittenOption field.ty inner))

/-- The `#[default ..]` attributes of a field. -/
def defaultEntries (attrs : List (DefaultAttr E)) : List (Option E) :=
  attrs.filterMap fun a => match a with
    | .default value => some value
    | .other => none

/-- All entries of the `#[serde(..)]` attributes of a type. -/
def serdeEntries (attrs : List TypeAttr) : List SerdeMeta :=
  attrs.flatMap fun a => match a with
    | .serde entries => entries
    | .other => []

/-- The value given by an entry for `expecting`. -/
def expectingOf : SerdeMeta → Option (Option Str)
  | .expecting value => some value
  | _ => none

/-- The values given for `expecting`. -/
def expectingValues (attrs : List TypeAttr) : List (Option Str) := (serdeEntries attrs).filterMap expectingOf

/-- The five definitions of the input of `platforms!`, in any order, for a table. -/
def Defines (definitions : List Definition) (T : PlatformTable) : Prop :=
  ∃ otherArch otherOs, definitions.Perm
    [.enum "Platform".toList .semicolon, .enum "Os".toList (.braces (some T.os) otherArch),
      .enum "Arch".toList (.braces otherOs (some T.arch)), .type "ParseError".toList, .type "TryFromArchError".toList]

/-- How the message for an unknown name should read. -/
def expectedMessage (names : List Str) : Str :=
  "expected ".toList ++ " or ".toList.intercalate (names.map fun n => "`".toList ++ n ++ "`".toList)

end Spec
