import Verif.Model.Keys

/-
Model of `src/options.rs` and of `error_chain` in `src/serde.rs`.

What `serde_yaml` does is a parameter: parsing text to a value, reading a Compose file from text or from a value, and
merging.
-/

namespace Compose
open Rust

/-- `Options`, /repo/src/options.rs:9-13. -/
structure Options where
  applyMerge : Bool := false
  deriving DecidableEq, Repr

/-- `serde_yaml`, as far as `Options` uses it: `T` is the kind of input (a string, a reader or bytes), `V` is `Value`, `C`
is `Compose`. -/
structure Yaml (T V C E : Type) where
  /-- `serde_yaml::from_str` (`from_reader`, `from_slice`) at `Value` -/
  parse : T → Except E V
  /-- `serde_yaml::from_str` (`from_reader`, `from_slice`) at `Compose` -/
  read : T → Except E C
  /-- `serde_yaml::from_value` at `Compose` -/
  fromValue : V → Except E C
  /-- `Value::apply_merge` -/
  merge : V → Except E V

namespace Options
variable {T V C E : Type}

/-- `Options::apply_merge`, /repo/src/options.rs:47-50. -/
def setApplyMerge (_ : Options) (applyMerge : Bool) : Options := { applyMerge }

/-- `Options::any`, /repo/src/options.rs:53-56. -/
def any (o : Options) : Bool := o.applyMerge

/-- `Options::from_yaml_value`, /repo/src/options.rs:102-107. -/
def fromYamlValue (Y : Yaml T V C E) (o : Options) (value : V) : Except E C := do
  let value ← if o.applyMerge then Y.merge value else pure value
  Y.fromValue value

/-- `Options::from_yaml_str`, `from_yaml_reader` and `from_yaml_slice`, /repo/src/options.rs:63-95. -/
def fromYaml (Y : Yaml T V C E) (o : Options) (yaml : T) : Except E C :=
  if o.any then do
    let value ← Y.parse yaml
    o.fromYamlValue Y value
  else Y.read yaml

end Options

/-- An error with its text and its `source`. -/
inductive ErrorValue
  | mk (text : Str) (source : Option ErrorValue)

/-- `Display for` an error. -/
def ErrorValue.text : ErrorValue → Str
  | .mk text _ => text

/-- `Error::source`. -/
def ErrorValue.source : ErrorValue → Option ErrorValue
  | .mk _ source => source

theorem ErrorValue.source_lt {e s : ErrorValue} (h : e.source = some s) : sizeOf s < sizeOf e := by
  obtain ⟨t, src⟩ := e
  cases h
  simp only [ErrorValue.mk.sizeOf_spec, Option.some.sizeOf_spec]
  omega

/-- `ErrorSources`, /repo/src/serde.rs:646-672: the errors the iterator yields, starting with `current`. -/
def errorSources (current : Option ErrorValue) : List ErrorValue :=
  match current with
  | none => []
  | some e => e :: errorSources e.source
termination_by sizeOf current
decreasing_by
  cases h : e.source with
  | none => cases e; simp; omega
  | some s => have := ErrorValue.source_lt h; simp; omega

/-- `error_chain`, /repo/src/serde.rs:626-644: the message. -/
def errorChain (error : ErrorValue) : Str :=
  match error.source with
  | some source => (errorSources (some source)).foldl (fun output error => output ++ (str!": " ++ error.text)) error.text
  | none => error.text

end Compose
