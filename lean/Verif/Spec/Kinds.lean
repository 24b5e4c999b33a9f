import Verif.Spec.Structs

/- The kinds of values in a document, and the kinds that the types of the library are documented to be read from. -/

namespace Spec
open Rust Compose

/-- The kinds of values. -/
inductive Kind
  | null | boolean | integer | negative | float | string | list | mapping
  deriving DecidableEq

/-- The kind of a value; an integer that is not negative is `integer`, however it is delivered. -/
def kindOf : Content → Kind
  | .unit => .null
  | .bool _ => .boolean
  | .u64 _ => .integer
  | .i64 i => if i < 0 then .negative else .integer
  | .f64 _ => .float
  | .str _ => .string
  | .seq _ => .list
  | .map _ => .mapping

/-- A value that serde can deliver: the integers have 64 bits. -/
def Deliverable : Content → Prop
  | .u64 n => n < 2 ^ 64
  | .i64 i => -2 ^ 63 ≤ i ∧ i < 2 ^ 63
  | _ => True

/-- The values of a type can be read from exactly these kinds: from some value of every one of them, and from no value of
another kind. -/
def ReadFrom {α : Type} (c : Codec α) (kinds : List Kind) : Prop :=
  ∀ k, k ∈ kinds ↔ ∃ v x, kindOf v = k ∧ c.de v = .ok x

/-- A type with the kinds of values it is read from. -/
structure Reads where
  Ty : Type
  codec : Codec Ty
  kinds : List Kind

open Codecs Kind in
/-- The types that are read from single values. -/
def scalarKinds (E : Env) : List Reads :=
  [⟨_, value, [boolean, integer, negative, float, string]⟩,
    ⟨_, stringOrNumber, [integer, negative, float, string]⟩,
    ⟨_, Codecs.str, [string]⟩,
    ⟨_, Codecs.bool, [boolean]⟩,
    ⟨_, u16, [integer]⟩, ⟨_, u32, [integer]⟩, ⟨_, u64, [integer]⟩,
    ⟨_, percent, [integer]⟩,
    ⟨_, oomScoreAdj, [integer, negative]⟩,
    ⟨_, weight, [integer]⟩,
    ⟨_, cpus E, [float, string]⟩,
    ⟨_, duration, [integer, string]⟩,
    ⟨_, durationUs, [null, integer]⟩,
    ⟨_, byteValue, [integer, string]⟩,
    ⟨_, byteLimit, [integer, negative, string]⟩,
    ⟨_, limit u32Max, [integer, negative, string]⟩,
    ⟨_, limit u64Max, [integer, negative, string]⟩,
    ⟨_, idOrName, [integer, string]⟩,
    ⟨_, count, [integer, string]⟩,
    ⟨_, range, [integer, string]⟩,
    ⟨_, shortPort E, [integer, string]⟩,
    ⟨_, expose, [integer, string]⟩,
    ⟨_, displayU32, [null, string]⟩]

open Codecs Structs in
/-- The types that are read from strings. -/
def textKinds (E : Env) : List Reads :=
  [⟨_, identifier, [.string]⟩, ⟨_, hostname, [.string]⟩, ⟨_, projectName, [.string]⟩, ⟨_, absolutePath, [.string]⟩,
    ⟨_, hostPath, [.string]⟩, ⟨_, cpuSet, [.string]⟩, ⟨_, image, [.string]⟩, ⟨_, link, [.string]⟩, ⟨_, ipc, [.string]⟩,
    ⟨_, endpointMode, [.string]⟩, ⟨_, capability, [.string]⟩, ⟨_, driver, [.string]⟩, ⟨_, volumesFrom, [.string]⟩,
    ⟨_, device, [.string]⟩, ⟨_, cgroupRule, [.string]⟩, ⟨_, macAddress, [.string]⟩, ⟨_, platform, [.string]⟩,
    ⟨_, shortVolume, [.string]⟩, ⟨_, selinux, [.string]⟩, ⟨_, sshAuth, [.string]⟩, ⟨_, context E, [.string]⟩,
    ⟨_, cache, [.string]⟩, ⟨_, buildNetwork, [.string]⟩, ⟨_, user, [.string]⟩, ⟨_, protocol, [.string]⟩,
    ⟨_, deployMode, [.string]⟩, ⟨_, restartCondition, [.string]⟩, ⟨_, failureAction, [.string]⟩,
    ⟨_, Structs.order, [.string]⟩, ⟨_, action, [.string]⟩, ⟨_, condition, [.string]⟩, ⟨_, cgroup, [.string]⟩,
    ⟨_, uts, [.string]⟩, ⟨_, pullPolicy, [.string]⟩, ⟨_, restart, [.string]⟩, ⟨_, portMode, [.string]⟩,
    ⟨_, bindPropagation, [.string]⟩]

open Codecs Structs in
/-- The types that are read from lists or mappings, or from more than one form. -/
def compoundKinds (E : Env) : List Reads :=
  [⟨_, command, [.string, .list]⟩,
    ⟨_, envFile, [.string, .list]⟩,
    ⟨_, listOrMap, [.list, .mapping]⟩,
    ⟨_, Codecs.extraHosts E, [.list, .mapping]⟩,
    ⟨_, additionalContexts E, [.list, .mapping]⟩,
    ⟨_, valueMap, [.mapping]⟩,
    ⟨_, healthcheck, [.mapping]⟩,
    ⟨_, credentialSpec, [.mapping]⟩,
    ⟨_, mount, [.mapping]⟩,
    ⟨_, shortOrLong shortVolume mount, [.string, .mapping]⟩,
    ⟨_, ulimits, [.mapping]⟩]

/-- The kinds that a struct is read from: a struct that ignores unknown keys may be given as the list of its values. -/
def structKinds (s : StructInfo) : List Kind :=
  match s.rest with
  | .ignored => [.mapping, .list]
  | _ => [.mapping]

end Spec
