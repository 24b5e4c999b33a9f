import Verif.Model.Serde
import Verif.Model.Healthcheck
import Verif.Model.Modes

/- Model of the types that (de)serialize as a struct of which exactly one field is set:
`src/service/build/dockerfile.rs`, `src/service/network_config.rs`, `src/config.rs`, `src/secret.rs`,
`src/service/credential_spec.rs`.  Paths are modelled by their text. -/

namespace Compose
open Rust

/-- `Dockerfile`, /repo/src/service/build/dockerfile.rs:22-37. -/
inductive Dockerfile
  | file (path : Str)
  | inline (text : Str)
  deriving DecidableEq, Repr

/-- `option::deserialize`, /repo/src/service/build/dockerfile.rs:141-157, on the entries of the mapping it is given. -/
def Dockerfile.optionEntries (es : List (Str × Content)) : Option (Option Dockerfile) :=
  match flatOption deString "dockerfile".toList es, flatOption deString "dockerfile_inline".toList es with
  | some (some x), some none => some (some (.file x))
  | some none, some (some x) => some (some (.inline x))
  | some none, some none => some none
  | _, _ => none

/-- `option::deserialize`, /repo/src/service/build/dockerfile.rs:141-157. -/
def Dockerfile.deOption (c : Content) : Option (Option Dockerfile) := (entriesOf c).bind Dockerfile.optionEntries

/-- `Deserialize for Dockerfile`, /repo/src/service/build/dockerfile.rs:100-105. -/
def Dockerfile.de (c : Content) : Option Dockerfile :=
  match Dockerfile.deOption c with
  | some (some d) => some d
  | _ => none

/-- `Serialize for Dockerfile`, /repo/src/service/build/dockerfile.rs:86-98: the one field. -/
def Dockerfile.entry : Dockerfile → Str × Content
  | .file path => ("dockerfile".toList, .str path)
  | .inline text => ("dockerfile_inline".toList, .str text)

/-- `NetworkConfig`, /repo/src/service/network_config.rs:36-46, with the type of `networks` left open. -/
inductive NetworkConfigOf (N : Type)
  | networkMode (m : NetworkMode)
  | networks (n : N)
  deriving DecidableEq, Repr

/-- Deserializing a `NetworkMode` from a string, /repo/src/service/network_config.rs:195-196 (`DeserializeTryFromString`). -/
def NetworkMode.de : Content → Option NetworkMode
  | .str s => (NetworkMode.parse s).toOption
  | _ => Option.none

/-- `option::deserialize`, /repo/src/service/network_config.rs:154-170, on the entries of the mapping it is given.
`deNetworks` is `Networks::deserialize`. -/
def NetworkConfigOf.optionEntries {N : Type} (deNetworks : Content → Option N) (es : List (Str × Content)) :
    Option (Option (NetworkConfigOf N)) :=
  match flatOption NetworkMode.de "network_mode".toList es, flatOption deNetworks "networks".toList es with
  | some (some x), some none => some (some (.networkMode x))
  | some none, some (some x) => some (some (.networks x))
  | some none, some none => some none
  | _, _ => none

/-- `option::deserialize`, /repo/src/service/network_config.rs:154-170. -/
def NetworkConfigOf.deOption {N : Type} (deNetworks : Content → Option N) (c : Content) : Option (Option (NetworkConfigOf N)) :=
  (entriesOf c).bind (NetworkConfigOf.optionEntries deNetworks)

/-- `Deserialize for NetworkConfigOf`, /repo/src/service/network_config.rs:115-120. -/
def NetworkConfigOf.de {N : Type} (deNetworks : Content → Option N) (c : Content) : Option (NetworkConfigOf N) :=
  match NetworkConfigOf.deOption deNetworks c with
  | some (some d) => some d
  | _ => none

/-- `Serialize for NetworkConfigOf`, /repo/src/service/network_config.rs:98-113: the one field. -/
def NetworkConfigOf.entry {N : Type} (serNetworks : N → Content) : NetworkConfigOf N → Str × Content
  | .networkMode mode => ("network_mode".toList, .str mode.display)
  | .networks n => ("networks".toList, serNetworks n)

/-- `config::Source`, /repo/src/config.rs:66-73. -/
inductive ConfigSource
  | file (path : Str)
  | environment (name : Str)
  | content (text : Str)
  deriving DecidableEq, Repr

/-- `Deserialize for Source`, /repo/src/config.rs:144-164, on the entries of the mapping it is given. -/
def ConfigSource.deEntries (es : List (Str × Content)) : Option ConfigSource :=
  match flatOption deString "file".toList es, flatOption deString "environment".toList es,
      flatOption deString "content".toList es with
  | some (some x), some none, some none => some (.file x)
  | some none, some (some x), some none => some (.environment x)
  | some none, some none, some (some x) => some (.content x)
  | _, _, _ => none

/-- `Deserialize for Source`, /repo/src/config.rs:144-164. -/
def ConfigSource.de (c : Content) : Option ConfigSource := (entriesOf c).bind ConfigSource.deEntries

/-- `Serialize for Source`, /repo/src/config.rs:126-142: the one field. -/
def ConfigSource.entry : ConfigSource → Str × Content
  | .file path => ("file".toList, .str path)
  | .environment name => ("environment".toList, .str name)
  | .content text => ("content".toList, .str text)

/-- `secret::Source`, /repo/src/secret.rs:73-78. -/
inductive SecretSource
  | file (path : Str)
  | environment (name : Str)
  deriving DecidableEq, Repr

/-- `Deserialize for Source`, /repo/src/secret.rs:138-153, on the entries of the mapping it is given. -/
def SecretSource.deEntries (es : List (Str × Content)) : Option SecretSource :=
  match flatOption deString "file".toList es, flatOption deString "environment".toList es with
  | some (some x), some none => some (.file x)
  | some none, some (some x) => some (.environment x)
  | _, _ => none

/-- `Deserialize for Source`, /repo/src/secret.rs:138-153. -/
def SecretSource.de (c : Content) : Option SecretSource := (entriesOf c).bind SecretSource.deEntries

/-- `Serialize for Source`, /repo/src/secret.rs:123-136: the one field. -/
def SecretSource.entry : SecretSource → Str × Content
  | .file path => ("file".toList, .str path)
  | .environment name => ("environment".toList, .str name)

/-- `credential_spec::Kind`, /repo/src/service/credential_spec.rs:40-51. -/
inductive CredentialKind
  | config (id : Str)
  | file (path : Str)
  | registry (name : Str)
  deriving DecidableEq, Repr

/-- `CredentialSpec`, /repo/src/service/credential_spec.rs:17-31. -/
structure CredentialSpec where
  kind : CredentialKind
  extensions : IndexMap Str Content

/-- `Identifier::deserialize` (/repo/src/common/keys.rs:12-15, `DeserializeTryFromString`). -/
def deIdentifier : Content → Option Str
  | .str s => (identifierNew s).toOption
  | _ => none

/-- One round of the loop of `visit_map`, /repo/src/service/credential_spec.rs:67-78, with `set_kind`, 84-99. -/
def CredentialSpec.step (state : Option CredentialKind × IndexMap Str Content) :
    Str × Content → Option (Option CredentialKind × IndexMap Str Content)
  | (key, value) =>
    if key = "config".toList then
      if state.1.isNone then (deIdentifier value).map fun id => (some (.config id), state.2) else none
    else if key = "file".toList then
      if state.1.isNone then (deString value).map fun path => (some (.file path), state.2) else none
    else if key = "registry".toList then
      if state.1.isNone then (deString value).map fun name => (some (.registry name), state.2) else none
    else match extensionKeyNew key with
      | .error _ => none
      | .ok key =>
        if (IndexMap.get state.2 key).isSome then none
        else some (state.1, IndexMap.insert state.2 key value)

/-- The loop of `visit_map`, /repo/src/service/credential_spec.rs:67-78. -/
def CredentialSpec.run :
    Option CredentialKind × IndexMap Str Content → List (Str × Content) → Option (Option CredentialKind × IndexMap Str Content)
  | state, [] => some state
  | state, e :: es =>
    match CredentialSpec.step state e with
    | some state => CredentialSpec.run state es
    | none => none

/-- `Deserialize for CredentialSpec`, /repo/src/service/credential_spec.rs:33-37 and 62-82. -/
def CredentialSpec.de (c : Content) : Option CredentialSpec :=
  match (entriesOf c).bind (CredentialSpec.run (none, [])) with
  | some (some kind, extensions) => some ⟨kind, extensions⟩
  | _ => none

/-- The entry written for the kind, /repo/src/service/credential_spec.rs:40-51. -/
def CredentialKind.entry : CredentialKind → Str × Content
  | .config id => ("config".toList, .str id)
  | .file path => ("file".toList, .str path)
  | .registry name => ("registry".toList, .str name)

/-- Derived `Serialize for CredentialSpec`, /repo/src/service/credential_spec.rs:17-31. -/
def CredentialSpec.ser (x : CredentialSpec) : Content :=
  .map ((x.kind.entry :: x.extensions).map fun e => (.str e.1, e.2))

end Compose
