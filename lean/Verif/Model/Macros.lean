import Verif.Model.Platform
import Verif.Std.Outcome

/-
Model of how the macros of `compose_spec_macros` read and check their input: the derive macros `AsShort`, `FromShort`
(`as_short.rs`), `Default` (`default.rs`), `SerializeDisplay`, `DeserializeFromStr`, `DeserializeTryFromString`
(`serde.rs`) and `platforms!` (`platforms.rs`, `platforms/prefix.rs`, `platforms/arch.rs`).

The input is what `syn` has parsed: positions (`Span`) are left out, an expression is a value of a type `E`, and where the
code asks `syn` to parse a value that is missing or is not of the kind asked for, the value is `none`.
-/

namespace Compose.Macros
open Rust

/-- The messages of these errors; `syn` stands for an error of `syn` itself. -/
inductive MacroError
  | syn
  | text (message : String)
  deriving DecidableEq, Repr

/-! ### Types -/

mutual
/-- `syn::Type`: a path, or anything else.  `qself` is for `<T as Trait>::..`, `leadingColon` for `::a::b`. -/
inductive TypeExpr
  | path (qself leadingColon : Bool) (segments : List Segment)
  | other
/-- `syn::PathSegment`. -/
inductive Segment
  | mk (ident : Str) (args : PathArgs)
/-- `syn::PathArguments`. -/
inductive PathArgs
  | none
  | angle (args : List GenericArg)
  | parens
/-- `syn::GenericArgument`: a type, or anything else. -/
inductive GenericArg
  | type (ty : TypeExpr)
  | other
end

/-- `option_type`, /repo/compose_spec_macros/src/as_short.rs:193-223. -/
def optionType : TypeExpr → Option TypeExpr
  | .path false _ segments =>
    match segments with
    | [.mk ident (.angle args)] =>
      if args.length ≠ 1 ∨ ident ≠ "Option".toList then none
      else
        match args with
        | .type ty :: _ => some ty
        | _ => none
    | _ => none
  | _ => none

/-- `is_bool`, /repo/compose_spec_macros/src/as_short.rs:226-232; `Path::is_ident` of `syn`: no leading colons, one segment
without arguments. -/
def isBool : TypeExpr → Bool
  | .path false false [.mk ident .none] => ident = "bool".toList
  | _ => false

/-! ### `AsShort` and `FromShort` -/

variable {E : Type}

/-- One entry of `#[as_short(..)]`, as the closure in /repo/compose_spec_macros/src/as_short.rs:314-337 sees it.  Simplified:
what comes between the entries is a comma. -/
inductive AsShortMeta (E : Type)
  | short
  | ifFn (value : Option E)
  | default (value : Option E)
  | unknown

/-- An attribute of a field: `#[as_short(..)]` or another one. -/
inductive FieldAttr (E : Type)
  | asShort (entries : List (AsShortMeta E))
  | other

/-- The variables of the loop, /repo/compose_spec_macros/src/as_short.rs:309-311. -/
structure AttrState (E : Type) where
  short : Bool := false
  ifFn : Option E := none
  default : Option E := none

/-- The closure, /repo/compose_spec_macros/src/as_short.rs:315-336. -/
def AttrState.entry (st : AttrState E) : AsShortMeta E → Except MacroError (AttrState E)
  | .short => if st.short then .error (.text "duplicate `short`") else .ok { st with short := true }
  | .ifFn value =>
    if st.ifFn.isSome then .error (.text "duplicate `if_fn`")
    else
      match value with
      | some e => .ok { st with ifFn := some e }
      | none => .error .syn
  | .default value =>
    if st.default.isSome then .error (.text "duplicate `default`")
    else
      match value with
      | some e => .ok { st with default := some e }
      | none => .error .syn
  | .unknown => .error (.text "unknown attribute")

/-- The loop, /repo/compose_spec_macros/src/as_short.rs:313-339. -/
def AttrState.run : AttrState E → List (FieldAttr E) → Except MacroError (AttrState E)
  | st, [] => .ok st
  | st, .asShort entries :: rest =>
    match entries.foldlM AttrState.entry st with
    | .ok st => st.run rest
    | .error e => .error e
  | st, .other :: rest => st.run rest

/-- `Attribute`, /repo/compose_spec_macros/src/as_short.rs:284-300. -/
inductive AsShortAttr (E : Type)
  | short
  | other (ifFn default : Option E)

/-- `Attribute::from_syn`, /repo/compose_spec_macros/src/as_short.rs:308-353. -/
def attributeFromSyn (attributes : List (FieldAttr E)) : Except MacroError (AsShortAttr E) :=
  match AttrState.run {} attributes with
  | .error e => .error e
  | .ok st =>
    if st.short then
      if st.ifFn.isNone ∧ st.default.isNone then .ok .short
      else .error (.text "cannot mark a field as the `short` type and have `if_fn` or `default`")
    else .ok (.other st.ifFn st.default)

/-- A named field with its type and attributes (`syn::Field`). -/
structure FieldDecl (E : Type) where
  ident : Str
  ty : TypeExpr
  attrs : List (FieldAttr E)

/-- `ShortField`, /repo/compose_spec_macros/src/as_short.rs:235-244. -/
structure ShortField where
  ident : Str
  ty : TypeExpr
  optional : Bool

/-- `ShortField::new`, /repo/compose_spec_macros/src/as_short.rs:248-261. -/
def ShortField.new (ident : Str) (ty : TypeExpr) : ShortField :=
  match optionType ty with
  | some inner => ⟨ident, inner, true⟩
  | none => ⟨ident, ty, false⟩

/-- `Field`, /repo/compose_spec_macros/src/as_short.rs:265-281. -/
structure OtherDecl (E : Type) where
  ifFn : Option E
  default : Option E
  ident : Str
  ty : TypeExpr

/-- The `filter_map` and `collect::<Result<_>>`, /repo/compose_spec_macros/src/as_short.rs:54-80: the fields in order, with
the `short_field` found so far. -/
def collectFields : Option ShortField → List (FieldDecl E) → Except MacroError (Option ShortField × List (OtherDecl E))
  | short, [] => .ok (short, [])
  | short, field :: rest =>
    match attributeFromSyn field.attrs with
    | .error e => .error e
    | .ok .short =>
      if short.isSome then .error (.text "duplicate `short`")
      else collectFields (some (ShortField.new field.ident field.ty)) rest
    | .ok (.other ifFn default) =>
      match collectFields short rest with
      | .error e => .error e
      | .ok (short, others) => .ok (short, ⟨ifFn, default, field.ident, field.ty⟩ :: others)

/-- `Input::from_syn`, /repo/compose_spec_macros/src/as_short.rs:36-89; `none` for what is not a struct with named fields. -/
def asShortFromSyn (data : Option (List (FieldDecl E))) : Except MacroError (ShortField × List (OtherDecl E)) :=
  match data with
  | none => .error (.text "must be used on structs with named fields")
  | some fields =>
    match collectFields none fields with
    | .error e => .error e
    | .ok (some short, others) => .ok (short, others)
    | .ok (none, _) => .error (.text "missing `short` field")

/-- What is asked of a field before the short syntax is used, /repo/compose_spec_macros/src/as_short.rs:107-123. -/
inductive Question (E : Type)
  | given (e : E)
  | isNone
  | not
  | isEmpty (ty : TypeExpr)

/-- The choice of the question, /repo/compose_spec_macros/src/as_short.rs:110-121. -/
def OtherDecl.question (field : OtherDecl E) : Question E :=
  match field.ifFn with
  | some e => .given e
  | none =>
    if (optionType field.ty).isSome then .isNone
    else if isBool field.ty then .not
    else .isEmpty field.ty

/-! ### `Default` -/

/-- An attribute of a field: `#[default = value]`, with `none` if it is not of this form, or another one. -/
inductive DefaultAttr (E : Type)
  | default (value : Option E)
  | other

/-- The loop of `Field::from_syn`, /repo/compose_spec_macros/src/default.rs:94-107. -/
def defaultRun : Option E → List (DefaultAttr E) → Except MacroError (Option E)
  | d, [] => .ok d
  | d, .other :: rest => defaultRun d rest
  | d, .default value :: rest =>
    if d.isSome then .error (.text "duplicate `default` attribute")
    else
      match value with
      | some e => defaultRun (some e) rest
      | none => .error .syn

/-- `Field::from_syn`, /repo/compose_spec_macros/src/default.rs:93-113. -/
def defaultFromSyn (attrs : List (DefaultAttr E)) : Except MacroError (Option E) := defaultRun none attrs

/-! ### `SerializeDisplay`, `DeserializeFromStr`, `DeserializeTryFromString` -/

/-- One entry of `#[serde(..)]`. -/
inductive SerdeMeta
  | expecting (value : Option Str)
  | transparent
  | unknown

/-- An attribute of the type: `#[serde(..)]` or another one. -/
inductive TypeAttr
  | serde (entries : List SerdeMeta)
  | other

/-- The closure, /repo/compose_spec_macros/src/serde.rs:115-128. -/
def expectingEntry (expecting : Option Str) : SerdeMeta → Except MacroError (Option Str)
  | .expecting value =>
    if expecting.isSome then .error (.text "duplicate `expecting`")
    else
      match value with
      | some s => .ok (some s)
      | none => .error .syn
  | .transparent => .ok expecting
  | .unknown => .error (.text "unsupported serde attribute")

/-- The loop, /repo/compose_spec_macros/src/serde.rs:113-130. -/
def expectingRun : Option Str → List TypeAttr → Except MacroError (Option Str)
  | e, [] => .ok e
  | e, .serde entries :: rest =>
    match entries.foldlM expectingEntry e with
    | .ok e => expectingRun e rest
    | .error err => .error err
  | e, .other :: rest => expectingRun e rest

/-- `parse_expecting`, /repo/compose_spec_macros/src/serde.rs:110-133. -/
def parseExpecting (attributes : List TypeAttr) : Except MacroError (Option Str) := expectingRun none attributes

/-! ### `platforms!` -/

/-- What follows the name of an enum: `;`, or braces with what their content is when read as operating systems and as
architectures (`none`: it cannot be read as such). -/
inductive EnumBody
  | semicolon
  | braces (asOs : Option (List OsItem)) (asArch : Option (List ArchItem))

/-- One definition in the input: `type name = ..;` or `enum name ..`.  Simplified: that `= ..;` follows the name of a type
is given. -/
inductive Definition
  | type (name : Str)
  | enum (name : Str) (body : EnumBody)

/-- The variables of the loop, /repo/compose_spec_macros/src/platforms.rs:48-52. -/
structure InputState where
  platform : Bool := false
  os : Option (List OsItem) := none
  arch : Option (List ArchItem) := none
  parseError : Bool := false
  tryFromArchError : Bool := false

/-- `PeekIdent::error`, /repo/compose_spec_macros/src/platforms/prefix.rs:61-74: the message for the names asked for. -/
def peekIdentError (comparisons : List Str) : Str :=
  comparisons.foldl (fun message comparison =>
    message ++ (if message.isEmpty then "expected `".toList else " or `".toList) ++ comparison ++ "`".toList)
    "expected".toList

/-- The body of the loop, /repo/compose_spec_macros/src/platforms.rs:55-91. -/
def InputState.definition (st : InputState) : Definition → Except MacroError InputState
  | .type name =>
    if name = "ParseError".toList then
      if st.parseError then .error (.text "duplicate `ParseError`") else .ok { st with parseError := true }
    else if name = "TryFromArchError".toList then
      if st.tryFromArchError then .error (.text "duplicate `TryFromArchError`") else .ok { st with tryFromArchError := true }
    else .error (.text "expected `ParseError` or `TryFromArchError`")
  | .enum name body =>
    if name = "Platform".toList then
      if st.platform then .error (.text "duplicate `Platform`")
      else
        match body with
        | .semicolon => .ok { st with platform := true }
        | .braces _ _ => .error .syn
    else if name = "Os".toList then
      if st.os.isSome then .error (.text "duplicate `Os`")
      else
        match body with
        | .braces (some items) _ => .ok { st with os := some items }
        | _ => .error .syn
    else if name = "Arch".toList then
      if st.arch.isSome then .error (.text "duplicate `Arch`")
      else
        match body with
        | .braces _ (some items) => .ok { st with arch := some items }
        | _ => .error .syn
    else .error (.text (String.ofList (peekIdentError ["Platform".toList, "Os".toList, "Arch".toList])))

/-- The end of `Input::parse`, /repo/compose_spec_macros/src/platforms.rs:94-104. -/
def InputState.finish (st : InputState) : Except MacroError PlatformTable :=
  if st.platform then
    match st.os with
    | none => .error (.text "missing `Os`")
    | some os =>
      match st.arch with
      | none => .error (.text "missing `Arch`")
      | some arch =>
        if st.parseError then
          if st.tryFromArchError then .ok ⟨os, arch⟩ else .error (.text "missing `TryFromArchError`")
        else .error (.text "missing `ParseError`")
  else .error (.text "missing `Platform`")

/-- `Input::parse`, /repo/compose_spec_macros/src/platforms.rs:46-105. -/
def inputParse (definitions : List Definition) : Except MacroError PlatformTable :=
  match definitions.foldlM InputState.definition {} with
  | .error e => .error e
  | .ok st => st.finish

/-- The errors that `Arch::to_map` combines, /repo/compose_spec_macros/src/platforms/arch.rs:58-100: the listed
architectures that are not defined, in order, and the defined ones that no operating system lists (the code has these in the
order of a hash map). -/
def toMapErrors (T : PlatformTable) : List (String × Str) :=
  ((T.os.flatMap (·.archs)).filter (fun name => (T.getArch name).isNone)).map (fun name => ("undefined arch", name)) ++
    ((T.arch.map (·.name)).filter (fun name => !(T.os.flatMap (·.archs)).contains name)).map
      (fun name => ("unused arch", name))

/-- `Map::get`, /repo/compose_spec_macros/src/platforms/arch.rs:167-170. -/
def mapGet (T : PlatformTable) (name : Str) : Outcome (List (String × Str)) ArchItem :=
  match T.getArch name with
  | some item => .ok item
  | none => .panic

/-- `arch_map.platform_as_str_arms(arch, ..)` for the architectures of one operating system,
/repo/compose_spec_macros/src/platforms/os.rs:446-458 and arch.rs:173-181. -/
def osArms (T : PlatformTable) (os : OsItem) : List Str → Outcome (List (String × Str)) (List (Platform × Str))
  | [] => .ok []
  | name :: rest =>
    match mapGet T name with
    | .ok item =>
      match osArms T os rest with
      | .ok arms => .ok (item.strArms.map (fun arm => (⟨os.ident, some arm.1⟩, slash os.name arm.2)) ++ arms)
      | .err e => .err e
      | .panic => .panic
    | .err e => .err e
    | .panic => .panic

/-- All arms of the generated `Platform::as_str`, /repo/compose_spec_macros/src/platforms/os.rs:90-93 and 246-258. -/
def allArms (T : PlatformTable) : List OsItem → Outcome (List (String × Str)) (List (Platform × Str))
  | [] => .ok []
  | os :: rest =>
    match osArms T os os.archs with
    | .ok arms =>
      match allArms T rest with
      | .ok more => .ok ((⟨os.ident, none⟩, os.name) :: arms ++ more)
      | .err e => .err e
      | .panic => .panic
    | .err e => .err e
    | .panic => .panic

/-- `Input::expand`, /repo/compose_spec_macros/src/platforms.rs:110-136, as far as `Platform::as_str` goes. -/
def expand (T : PlatformTable) : Outcome (List (String × Str)) (List (Platform × Str)) :=
  match toMapErrors T with
  | [] => allArms T T.os
  | errors => .err errors

end Compose.Macros
