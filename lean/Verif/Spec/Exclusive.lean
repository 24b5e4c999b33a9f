import Verif.Model.Exclusive
import Verif.Spec.Healthcheck
import Verif.Spec.Modes

/- What it means that exactly one of several fields is given. -/

namespace Spec
open Rust Compose

/-- The field is given once, and not as null. -/
def Given (es : List (Str × Content)) (key : Str) (v : Content) : Prop := valuesOf key es = [v] ∧ v ≠ .unit

/-- The field is not given, or given once as null. -/
def NotGiven (es : List (Str × Content)) (key : Str) : Prop := valuesOf key es = [] ∨ valuesOf key es = [.unit]

/-- A field's key, and what its values denote. -/
structure Alternative (α : Type) where
  key : Str
  denotes : Content → α → Prop

/-- One of the fields is given and denotes `x`, the others are not given. -/
def OneOf {α : Type} (fields : List (Alternative α)) (es : List (Str × Content)) (x : α) : Prop :=
  ∃ f ∈ fields, (∃ v, Given es f.key v ∧ f.denotes v x) ∧ ∀ g ∈ fields, g.key ≠ f.key → NotGiven es g.key

/-- None of the fields is given. -/
def NoneOf {α : Type} (fields : List (Alternative α)) (es : List (Str × Content)) : Prop := ∀ f ∈ fields, NotGiven es f.key

/-- `dockerfile` and `dockerfile_inline`. -/
def dockerfileFields : List (Alternative Dockerfile) :=
  [⟨"dockerfile".toList, fun v d => ∃ s, v = .str s ∧ d = .file s⟩,
    ⟨"dockerfile_inline".toList, fun v d => ∃ s, v = .str s ∧ d = .inline s⟩]

/-- `network_mode` and `networks`; `networks` says what the values of the latter denote. -/
def networkFields {N : Type} (networks : Content → N → Prop) : List (Alternative (NetworkConfigOf N)) :=
  [⟨"network_mode".toList, fun v d => ∃ s m, v = .str s ∧ NetworkModeText s m ∧ d = .networkMode m⟩,
    ⟨"networks".toList, fun v d => ∃ n, networks v n ∧ d = .networks n⟩]

/-- `file`, `environment` and `content` of a config. -/
def configFields : List (Alternative ConfigSource) :=
  [⟨"file".toList, fun v d => ∃ s, v = .str s ∧ d = .file s⟩,
    ⟨"environment".toList, fun v d => ∃ s, v = .str s ∧ d = .environment s⟩,
    ⟨"content".toList, fun v d => ∃ s, v = .str s ∧ d = .content s⟩]

/-- `file` and `environment` of a secret. -/
def secretFields : List (Alternative SecretSource) :=
  [⟨"file".toList, fun v d => ∃ s, v = .str s ∧ d = .file s⟩,
    ⟨"environment".toList, fun v d => ∃ s, v = .str s ∧ d = .environment s⟩]

/-- An entry of a credential spec that says where the credentials are. -/
inductive KindEntry : Str × Content → CredentialKind → Prop
  | config {id : Str} : Identifier id → KindEntry ("config".toList, .str id) (.config id)
  | file {path : Str} : KindEntry ("file".toList, .str path) (.file path)
  | registry {name : Str} : KindEntry ("registry".toList, .str name) (.registry name)

end Spec
