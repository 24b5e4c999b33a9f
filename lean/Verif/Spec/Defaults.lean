import Verif.Model.Defaults

/- The structs that have a default, and the document that stands for it. -/

namespace Spec
open Rust Compose Compose.Derive

/-- A struct with a default: its fields, the default, and the entries of the document that stands for it. -/
structure DefaultInfo where
  fields : List Item
  default : Record fields
  written : List (String × Content)

/-- A mapping with these entries. -/
def document (es : List (String × Content)) : Content := .map (es.map fun e => (.str e.1.toList, e.2))

/-- The structs without required fields: an empty mapping stands for the default. -/
noncomputable def optionalStructs (E : Env) : List DefaultInfo :=
  [⟨Structs.ipamConfig E, Structs.ipamConfigDefault E, []⟩,
    ⟨Structs.ipam E, Structs.ipamDefault E, []⟩,
    ⟨Structs.network E, Structs.networkDefault E, []⟩,
    ⟨Structs.volume, Structs.volumeDefault, []⟩,
    ⟨Structs.blkioConfig, Structs.blkioConfigDefault, []⟩,
    ⟨Structs.build E, Structs.buildDefault E, []⟩,
    ⟨Structs.preference, Structs.preferenceDefault, []⟩,
    ⟨Structs.placement, Structs.placementDefault, []⟩,
    ⟨Structs.restartPolicy, Structs.restartPolicyDefault, []⟩,
    ⟨Structs.updateOrRollbackConfig, Structs.updateOrRollbackConfigDefault, []⟩,
    ⟨Structs.limits E, Structs.limitsDefault E, []⟩,
    ⟨Structs.discreteResourceSpec, Structs.discreteResourceSpecDefault, []⟩,
    ⟨Structs.genericResource, Structs.genericResourceDefault, []⟩,
    ⟨Structs.reservations E, Structs.reservationsDefault E, []⟩,
    ⟨Structs.resources E, Structs.resourcesDefault E, []⟩,
    ⟨Structs.deploy E, Structs.deployDefault E, []⟩,
    ⟨Structs.develop, Structs.developDefault, []⟩,
    ⟨Structs.logging, Structs.loggingDefault, []⟩,
    ⟨Structs.volumeOptions, Structs.volumeOptionsDefault, []⟩,
    ⟨Structs.bindOptions, Structs.bindOptionsDefault, []⟩,
    ⟨Structs.tmpfsOptions, Structs.tmpfsOptionsDefault, []⟩,
    ⟨Structs.serviceNetwork E, Structs.serviceNetworkDefault E, []⟩,
    ⟨Structs.service E, Structs.serviceDefault E, []⟩]

/-- The structs with a required field, which stands in the document even for the default. -/
noncomputable def requiringStructs (E : Env) : List DefaultInfo :=
  [⟨Structs.compose E, Structs.composeDefault E, [("services", .map [])]⟩,
    ⟨Structs.resourceDevice, Structs.resourceDeviceDefault, [("capabilities", .seq [])]⟩,
    ⟨Structs.dependency, Structs.dependencyDefault, [("condition", .str "service_started".toList)]⟩]

/-- A type with a default that is not a struct: how it is written and read, the default, and the document that stands for it. -/
structure DefaultValue where
  Ty : Type
  codec : Codec Ty
  default : Ty
  document : Content

/-- The types with a default that are not structs. -/
def defaultValues (E : Env) : List DefaultValue :=
  [⟨Healthcheck, Codecs.healthcheck, Healthcheck.default, .map []⟩,
    ⟨Weight, Codecs.weight, Weight.default, .u64 500⟩,
    ⟨ByteValue, Codecs.byteValue, ByteValue.default, .str "0b".toList⟩,
    ⟨Limit Nat, Codecs.limit u32Max, Limit.default, .i64 (-1)⟩,
    ⟨Limit Nat, Codecs.limit u64Max, Limit.default, .i64 (-1)⟩,
    ⟨Limit ByteValue, Codecs.byteLimit, Limit.default, .i64 (-1)⟩,
    ⟨SshAuth, Codecs.sshAuth, SshAuth.defaultValue, .str "default".toList⟩,
    ⟨Protocol, Codecs.protocol, Protocol.default, .str "tcp".toList⟩,
    ⟨Count, Codecs.count, Count.default, .str "all".toList⟩,
    ⟨Structs.Condition, Structs.condition, Structs.Condition.default, .str "service_started".toList⟩,
    ⟨Structs.BindPropagation, Structs.bindPropagation, Structs.BindPropagation.default, .str "rprivate".toList⟩,
    ⟨Structs.PortMode, Structs.portMode, Structs.PortMode.default, .str "ingress".toList⟩,
    ⟨Structs.DeployMode, Structs.deployMode, Structs.DeployMode.default, .str "replicated".toList⟩,
    ⟨Structs.RestartCondition, Structs.restartCondition, Structs.RestartCondition.default, .str "any".toList⟩,
    ⟨Structs.FailureAction, Structs.failureAction, Structs.FailureAction.default, .str "pause".toList⟩,
    ⟨Structs.Order, Structs.order, Structs.Order.default, .str "stop-first".toList⟩,
    ⟨Structs.Uts, Structs.uts, Structs.Uts.default, .str "host".toList⟩,
    ⟨Structs.PullPolicy, Structs.pullPolicy, Structs.PullPolicy.default, .str "missing".toList⟩,
    ⟨Structs.Restart, Structs.restart, Structs.Restart.default, .str "no".toList⟩,
    ⟨List Nat, Codecs.cpuSet, CpuSet.default, .str []⟩,
    ⟨Cpus, Codecs.cpus E, Cpus.default, .f64 0⟩]

end Spec
