import Verif.Model.Structs

/- `Default` of the structs: derived by std, or by `compose_spec_macros::Default`, which takes the value of an attribute
`#[default = ...]` if there is one, /repo/compose_spec_macros/src/default.rs:115-122.  Every other field has the default of
its type: `None`, `false`, an empty collection, an empty `ListOrMap::List`, /repo/src/common.rs:278-282, or a
`ShortOrLong::Short` of the default, /repo/src/common/short_or_long.rs:55-62. -/

namespace Compose
open Rust Derive

/-- `Default for ListOrMap`, /repo/src/common.rs:278-282. -/
def ListOrMap.default : ListOrMap := .list []

/-- `Default for ShortOrLong`, /repo/src/common/short_or_long.rs:55-62. -/
def ShortOrLong.default {S L : Type} (short : S) : ShortOrLong S L := .short short

namespace Structs

/-- `Default for IpamConfig` (derived), /repo/src/network.rs:288-312. -/
def ipamConfigDefault (E : Env) : Record (ipamConfig E) := (none, none, none, [], [], ())

/-- `Default for Ipam` (derived), /repo/src/network.rs:225-244. -/
def ipamDefault (E : Env) : Record (ipam E) := (none, [], [], [], ())

/-- `Default for Network` (derived), /repo/src/network.rs:41-97. -/
def networkDefault (E : Env) : Record (network E) :=
  (none, [], false, false, none, false, ListOrMap.default, none, [], ())

/-- `Default for Volume` (derived), /repo/src/volume.rs:32-65. -/
def volumeDefault : Record volume := (none, [], ListOrMap.default, none, [], ())

/-- `Default for BlkioConfig` (derived), /repo/src/service/blkio_config.rs:17-54. -/
def blkioConfigDefault : Record blkioConfig := ([], [], [], [], none, [], ())

/-- `Default for Build` (derived), /repo/src/service/build.rs:30-197. -/
def buildDefault (E : Env) : Record (build E) :=
  (none, none, ListOrMap.default, [], [], [], [], [], [], none, false, ListOrMap.default, false, false, none, none, none, [],
    [], [], [], [], ())

/-- `Default for Preference` (derived), /repo/src/service/deploy.rs:254-265. -/
def preferenceDefault : Record preference := (none, [], ())

/-- `Default for Placement` (derived), /repo/src/service/deploy.rs:193-212. -/
def placementDefault : Record placement := ([], [], none, [], ())

/-- `Default for RestartPolicy` (derived), /repo/src/service/deploy.rs:280-317. -/
def restartPolicyDefault : Record restartPolicy := (none, none, none, none, [], ())

/-- `Default for UpdateOrRollbackConfig` (derived), /repo/src/service/deploy.rs:395-436. -/
def updateOrRollbackConfigDefault : Record updateOrRollbackConfig := (none, none, none, none, none, none, [], ())

/-- `Default for Limits` (derived), /repo/src/service/deploy/resources.rs:90-115. -/
def limitsDefault (E : Env) : Record (limits E) := (none, none, none, [], ())

/-- `Default for DiscreteResourceSpec` (derived), /repo/src/service/deploy/resources.rs:648-663. -/
def discreteResourceSpecDefault : Record discreteResourceSpec := (none, none, [], ())

/-- `Default for GenericResource` (derived), /repo/src/service/deploy/resources.rs:597-608. -/
def genericResourceDefault : Record genericResource := (none, [], ())

/-- `Default for resources::Device` (derived), /repo/src/service/deploy/resources.rs:337-377. -/
def resourceDeviceDefault : Record resourceDevice := ([], none, none, [], ListOrMap.default, [], ())

/-- `Default for Reservations` (derived), /repo/src/service/deploy/resources.rs:135-164. -/
def reservationsDefault (E : Env) : Record (reservations E) := (none, none, [], [], [], ())

/-- `Default for Resources` (derived), /repo/src/service/deploy/resources.rs:29-44. -/
def resourcesDefault (E : Env) : Record (resources E) := (none, none, [], ())

/-- `Default for Deploy` (derived), /repo/src/service/deploy.rs:24-89. -/
def deployDefault (E : Env) : Record (deploy E) :=
  (none, ListOrMap.default, none, none, none, none, none, none, none, [], ())

/-- `Default for Develop` (derived), /repo/src/service/develop.rs:17-24. -/
def developDefault : Record develop := ([], ())

/-- `Default for BindPropagation` (derived), /repo/src/service/volumes/mount.rs:558-578. -/
def BindPropagation.default : BindPropagation := .rPrivate

/-- `Default for ports::Mode` (derived), /repo/src/service/ports.rs:191-200. -/
def PortMode.default : PortMode := .ingress

/-- `Default for deploy::Mode` (derived), /repo/src/service/deploy.rs:155-164. -/
def DeployMode.default : DeployMode := .replicated

/-- `Default for RestartCondition` (derived), /repo/src/service/deploy.rs:342-354. -/
def RestartCondition.default : RestartCondition := .any

/-- `Default for FailureAction` (derived), /repo/src/service/deploy.rs:465-474. -/
def FailureAction.default : FailureAction := .pause

/-- `Default for Order` (derived), /repo/src/service/deploy.rs:502-511. -/
def Order.default : Order := .stopFirst

/-- `Default for Uts` (derived), /repo/src/service.rs:1224-1230. -/
def Uts.default : Uts := .host

/-- `Default for PullPolicy` (derived), /repo/src/service.rs:1339-1357. -/
def PullPolicy.default : PullPolicy := .missing

/-- `Default for Restart` (derived), /repo/src/service.rs:1387-1400. -/
def Restart.default : Restart := .no

/-- `Default for Condition` (derived), /repo/src/service.rs:903-908. -/
def Condition.default : Condition := .serviceStarted

/-- `Default for Dependency` (by the macro, with `#[default = true]` on `required`), /repo/src/service.rs:880-897. -/
def dependencyDefault : Record dependency := (Condition.default, false, true, ())

/-- `Default for Logging` (derived), /repo/src/service.rs:1255-1272. -/
def loggingDefault : Record logging := (none, [], [], ())

/-- `Default for VolumeOptions` (derived), /repo/src/service/volumes/mount.rs:310-325. -/
def volumeOptionsDefault : Record volumeOptions := (false, none, [], ())

/-- `Default for BindOptions` (derived), /repo/src/service/volumes/mount.rs:453-474. -/
def bindOptionsDefault : Record bindOptions := (none, false, none, [], ())

/-- `Default for TmpfsOptions` (derived), /repo/src/service/volumes/mount.rs:657-676. -/
def tmpfsOptionsDefault : Record tmpfsOptions := (none, none, [], ())

/-- `Default for network_config::Network` (derived), /repo/src/service/network_config.rs:369-428. -/
def serviceNetworkDefault (E : Env) : Record (serviceNetwork E) := ([], none, none, [], none, [], none, [], ())

/-- `Default for Service` (by the macro, with `#[default = true]` on `attach`), /repo/src/service.rs:80-682. -/
noncomputable def serviceDefault (E : Env) : Record (service E) :=
  (true, none, none, none, none, none, none, none, none, none, none, [], [], [], none, none, none, [], none, none,
    ShortOrLong.default [], none, none, [], [], none, [], none, none, none, none, ListOrMap.default, [], none,
    ListOrMap.default, [], [], [], none, none, none, false, none, none, none, ListOrMap.default, [], none, none, none, none,
    none, none, none, false, none, none, none, none, [], false, [], none, false, none, none, none, [], [], none, false,
    none, none, [], ListOrMap.default, none, false, [], none, none, [], [], none, [], ())

/-- `Default for Compose` (derived), /repo/src/lib.rs:167-224. -/
noncomputable def composeDefault (E : Env) : Record (compose E) := (none, none, [], [], [], [], [], [], [], ())

end Structs

/-- `Default for Command` (derived), /repo/src/service/healthcheck.rs:292-349. -/
def HealthCommand.default : HealthCommand := ⟨none, none, none, none, none, none, []⟩

/-- `Default for Healthcheck`, /repo/src/service/healthcheck.rs:29-33. -/
def Healthcheck.default : Healthcheck := .command HealthCommand.default

/-- `Default for ByteValue`, /repo/src/service/byte_value.rs:63-67. -/
def ByteValue.default : ByteValue := .bytes 0

/-- `Default for Limit` (derived), /repo/src/service/limit.rs:18-28. -/
def Limit.default {T : Type} : Limit T := .unlimited

/-- `Default for SshAuth` (derived), /repo/src/service/build/ssh_auth.rs:17-26. -/
def SshAuth.defaultValue : SshAuth := .default

/-- `Default for Protocol` (derived), /repo/src/service/ports.rs:872-885. -/
def Protocol.default : Protocol := .tcp

/-- `Default for CpuSet` (derived), /repo/src/service/cpuset.rs:16-18. -/
def CpuSet.default : List Nat := []

/-- `Default for Count` (derived), /repo/src/service/deploy/resources.rs:516-524. -/
def Count.default : Count := .all

/-- `Default for Cpus` (derived), /repo/src/service/deploy/resources.rs:212-214: positive zero, all of whose bits are 0. -/
def Cpus.default : Cpus := ⟨0⟩

/-- `Default for Permissions` (derived), /repo/src/service/device.rs:108-118. -/
def Permissions.default : Permissions := ⟨false, false, false⟩

end Compose
