import Verif.Spec.Exclusive
import Verif.Spec.Panic

/- The places of a Compose file where mappings with a fixed set of keys stand. -/

namespace Spec
open Rust Compose Compose.Derive Compose.Codecs

/-- A value stands at a place of a document.  Where a key is repeated, its last value counts. -/
inductive StandsAt : List Step → Content → Content → Prop
  | here {v : Content} : StandsAt [] v v
  | key {k : String} {p : List Step} {a b : List (Content × Content)} {v u : Content} : .str k.toList ∉ b.map (·.1) → StandsAt p v u →
      StandsAt (.key k :: p) (.map (a ++ (.str k.toList, v) :: b)) u
  | anyKey {p : List Step} {es : List (Content × Content)} {k v u : Content} : (k, v) ∈ es → StandsAt p v u → StandsAt (.anyKey :: p) (.map es) u
  | item {p : List Step} {vs : List Content} {v u : Content} : v ∈ vs → StandsAt p v u → StandsAt (.item :: p) (.seq vs) u

/-- The place of the settings of a service. -/
def inService (p : List Step) : List Step := .key "services" :: .anyKey :: p

/-- The place of the settings in the `deploy` section of a service. -/
def inDeploy (p : List Step) : List Step := inService (.key "deploy" :: p)

/-- A value that is read without an error. -/
def ReadBy {α : Type} (c : Codec α) (v : Content) : Prop := ∃ x, c.de v = .ok x

/-- The places where mappings with a fixed set of keys stand in a Compose file, and what the mappings there are read as. -/
noncomputable def places (E : Env) : List (List Step × (Content → Prop)) :=
  [([], ReadBy (struct (Structs.compose E))),
    ([.key "include", .item], ReadBy (struct Structs.«include»)),
    ([.key "networks", .anyKey], ReadBy (Structs.resource E (Structs.network E))),
    ([.key "networks", .anyKey, .key "ipam"], ReadBy (struct (Structs.ipam E))),
    ([.key "networks", .anyKey, .key "ipam", .key "config", .item], ReadBy (struct (Structs.ipamConfig E))),
    ([.key "volumes", .anyKey], ReadBy (Structs.resource E Structs.volume)),
    ([.key "configs", .anyKey], ReadBy (Structs.resource E Structs.config)),
    ([.key "secrets", .anyKey], ReadBy (Structs.resource E Structs.secret)),
    (inService [], ReadBy (struct (Structs.service E))),
    (inService [.key "build"], ReadBy (struct (Structs.build E))),
    (inService [.key "build", .key "secrets", .item], ReadBy (struct Structs.configOrSecret)),
    (inService [.key "build", .key "ulimits", .anyKey], ReadBy (struct Structs.ulimit)),
    (inService [.key "blkio_config"], ReadBy (struct Structs.blkioConfig)),
    (inService [.key "blkio_config", .key "device_read_bps", .item], ReadBy (struct Structs.bpsLimit)),
    (inService [.key "blkio_config", .key "device_read_iops", .item], ReadBy (struct Structs.iopsLimit)),
    (inService [.key "blkio_config", .key "device_write_bps", .item], ReadBy (struct Structs.bpsLimit)),
    (inService [.key "blkio_config", .key "device_write_iops", .item], ReadBy (struct Structs.iopsLimit)),
    (inService [.key "blkio_config", .key "weight_device", .item], ReadBy (struct Structs.weightDevice)),
    (inService [.key "configs", .item], ReadBy (struct Structs.configOrSecret)),
    (inService [.key "credential_spec"], ReadBy credentialSpec),
    (inService [.key "depends_on", .anyKey], ReadBy (struct Structs.dependency)),
    (inDeploy [], ReadBy (struct (Structs.deploy E))),
    (inDeploy [.key "placement"], ReadBy (struct Structs.placement)),
    (inDeploy [.key "placement", .key "preferences", .item], ReadBy (struct Structs.preference)),
    (inDeploy [.key "resources"], ReadBy (struct (Structs.resources E))),
    (inDeploy [.key "resources", .key "limits"], ReadBy (struct (Structs.limits E))),
    (inDeploy [.key "resources", .key "reservations"], ReadBy (struct (Structs.reservations E))),
    (inDeploy [.key "resources", .key "reservations", .key "devices", .item], ReadBy (struct Structs.resourceDevice)),
    (inDeploy [.key "resources", .key "reservations", .key "generic_resources", .item], ReadBy (struct Structs.genericResource)),
    (inDeploy [.key "resources", .key "reservations", .key "generic_resources", .item, .key "discrete_resource_spec"],
      ReadBy (struct Structs.discreteResourceSpec)),
    (inDeploy [.key "restart_policy"], ReadBy (struct Structs.restartPolicy)),
    (inDeploy [.key "rollback_config"], ReadBy (struct Structs.updateOrRollbackConfig)),
    (inDeploy [.key "update_config"], ReadBy (struct Structs.updateOrRollbackConfig)),
    (inService [.key "develop"], ReadBy (struct Structs.develop)),
    (inService [.key "develop", .key "watch", .item], ReadBy (struct Structs.watchRule)),
    (inService [.key "env_file", .item], ReadBy (struct Structs.envFileConfig)),
    (inService [.key "extends"], ReadBy (struct Structs.extend)),
    (inService [.key "healthcheck"], ReadBy healthcheck),
    (inService [.key "logging"], ReadBy (struct Structs.logging)),
    (inService [.key "networks", .anyKey], ReadBy (struct (Structs.serviceNetwork E))),
    (inService [.key "ports", .item], ReadBy (struct (Structs.port E))),
    (inService [.key "secrets", .item], ReadBy (struct Structs.configOrSecret)),
    (inService [.key "ulimits", .anyKey], ReadBy (struct Structs.ulimit)),
    (inService [.key "volumes", .item], ReadBy Structs.mount),
    (inService [.key "volumes", .item, .key "volume"], ReadBy (struct Structs.volumeOptions)),
    (inService [.key "volumes", .item, .key "bind"], ReadBy (struct Structs.bindOptions)),
    (inService [.key "volumes", .item, .key "tmpfs"], ReadBy (struct Structs.tmpfsOptions))]

/-- The rules about the keys of a mapping that is read as a struct: they are strings; each key of the struct is given at most
once; the required ones are given; of those of which exactly one must be given, one is given and the others are not, where
`null` is as good as not given; other keys are extensions, unless the struct ignores them. -/
structure KeysOk (s : StructInfo) (es : List (Str × Content)) : Prop where
  once : ∀ k ∈ s.keyTexts, (given es k).length ≤ 1
  required : ∀ k ∈ s.required, ∃ v, given es k.toList = [v]
  oneOf : s.oneOf ≠ [] → ∃ k ∈ s.oneOf, (∃ v, Given es k.toList v) ∧ ∀ k' ∈ s.oneOf, k' ≠ k → NotGiven es k'.toList
  known : s.rest ≠ .ignored → ∀ e ∈ es, e.1 ∈ s.keyTexts ∨ RestKey s.rest e.1

/-- The types of mounts and the structs they stand for. -/
def mountTypes : List (String × List Item) :=
  [("volume", Structs.mountVolume), ("bind", Structs.mountBind), ("tmpfs", Structs.mountTmpfs),
    ("npipe", Structs.mountNamedPipe), ("cluster", Structs.mountCluster)]

end Spec
