import Verif.Model.Codecs

/- The structs of the library as tables of fields, in the order of declaration.  Every table says for every field its key,
its type, and how it is left out when written and filled in when read (`req`, `opt`, `flag`, `many`, ...). -/

namespace Compose
open Rust Derive

namespace Codecs

/-! ### Kinds of fields -/

/-- A field without attributes: always written, required. -/
def req {α : Type} (key : String) (c : Codec α) : Item := .field ⟨key.toList, α, c, none, fun _ => false⟩

/-- `#[serde(default, skip_serializing_if = "Option::is_none", with = ...)]`. -/
def optWith {α : Type} (key : String) (c : Codec (Option α)) : Item :=
  .field ⟨key.toList, Option α, c, some none, Option.isNone⟩

/-- `#[serde(default, skip_serializing_if = "Option::is_none")]`. -/
def opt {α : Type} (key : String) (c : Codec α) : Item := optWith key (option c)

/-- `#[serde(default, skip_serializing_if = "Not::not")]` on a `bool`. -/
def flag (key : String) : Item := .field ⟨key.toList, Bool, bool, some false, fun b => !b⟩

/-- `#[serde(default = "default_true", skip_serializing_if = "skip_true")]` on a `bool`. -/
def flagTrue (key : String) : Item := .field ⟨key.toList, Bool, bool, some true, fun b => b⟩

/-- `#[serde(default, skip_serializing_if = "...::is_empty")]` on a collection. -/
def many {α : Type} (key : String) (c : Codec (List α)) : Item := .field ⟨key.toList, List α, c, some [], List.isEmpty⟩

/-- `#[serde(default, skip_serializing_if = "ListOrMap::is_empty")]`, with `Default`, /repo/src/common.rs:278-282, and
`is_empty`, /repo/src/common.rs:159-164. -/
def manyListOrMap (key : String) : Item :=
  .field ⟨key.toList, ListOrMap, listOrMap, some (.list []), fun
    | .list l => l.isEmpty
    | .map m => m.isEmpty⟩

/-! ### Flattened fields -/

/-- The keys of `Extensions`, /repo/src/common/keys.rs:126-160. -/
def extensionKey : Key := ⟨fun s => (extensionKeyNew s).toOption, Spec.ExtensionKey⟩

/-- `Extensions`, /repo/src/common.rs:45. -/
def extensions : Item :=
  .flat {
    keys := none
    Ty := IndexMap Str Content
    same := List.Perm
    write := id
    read := fun es => (readEntries extensionKey.parse .ok es).map IndexMap.collect
    valid := fun m => (m.map (·.1)).Nodup ∧ ∀ e ∈ m, Spec.ExtensionKey e.1 }

/-- `Option<Dockerfile>` with `with = "dockerfile::option"`, /repo/src/service/build/dockerfile.rs:114-176. -/
def dockerfile : Item :=
  .flat {
    keys := some ["dockerfile".toList, "dockerfile_inline".toList]
    Ty := Option Dockerfile
    same := Eq
    write := fun d => d.toList.map Dockerfile.entry
    read := fun es => Outcome.ofOption (Dockerfile.optionEntries es)
    valid := fun _ => True }

/-- `config::Source`, /repo/src/config.rs:126-164. -/
def configSource : Item :=
  .flat {
    keys := some ["file".toList, "environment".toList, "content".toList]
    Ty := ConfigSource
    same := Eq
    write := fun s => [s.entry]
    read := fun es => Outcome.ofOption (ConfigSource.deEntries es)
    valid := fun _ => True }

/-- `secret::Source`, /repo/src/secret.rs:123-153. -/
def secretSource : Item :=
  .flat {
    keys := some ["file".toList, "environment".toList]
    Ty := SecretSource
    same := Eq
    write := fun s => [s.entry]
    read := fun es => Outcome.ofOption (SecretSource.deEntries es)
    valid := fun _ => True }

/-- A flattened struct that has a flattened field itself: it looks at all entries that are left. -/
def nested (is : List Item) : Item :=
  .flat {
    keys := none
    Ty := Record is
    same := Derive.same is
    write := Derive.write is
    read := decode is
    valid := recordValid is }

end Codecs

namespace Structs
open Codecs

/-! ### Networks, volumes, configs, secrets, includes -/

/-- `IpamConfig`, /repo/src/network.rs:288-312. -/
def ipamConfig (E : Env) : List Item :=
  [opt "subnet" (foreign E.ipNet), opt "ip_range" (foreign E.ipNet), opt "gateway" (foreign E.ip),
    many "aux_addresses" (map hostnameKey (foreign E.ip)), extensions]

/-- `Ipam`, /repo/src/network.rs:225-244. -/
def ipam (E : Env) : List Item :=
  [opt "driver" str, many "config" (list (struct (ipamConfig E))), many "options" (map mapKey str), extensions]

/-- `Network`, /repo/src/network.rs:41-97. -/
def network (E : Env) : List Item :=
  [opt "driver" driver, many "driver_opts" (map mapKey stringOrNumber), flag "attachable", flag "enable_ipv6",
    opt "ipam" (struct (ipam E)), flag "internal", manyListOrMap "labels", opt "name" str, extensions]

/-- `Volume`, /repo/src/volume.rs:32-65. -/
def volume : List Item :=
  [opt "driver" str, many "driver_opts" (map mapKey stringOrNumber), manyListOrMap "labels", opt "name" str, extensions]

/-- `Config`, /repo/src/config.rs:29-48. -/
def config : List Item := [configSource, manyListOrMap "labels", extensions]

/-- `Secret`, /repo/src/secret.rs:24-53. -/
def secret : List Item :=
  [secretSource, manyListOrMap "labels", opt "driver" str, many "driver_opts" (map mapKey stringOrNumber), extensions]

/-- `Include`, /repo/src/include.rs:13-32. -/
def «include» : List Item :=
  [req "path" (@itemOrList _ Path.rustEq str), opt "project_directory" str, opt "env_file" (@itemOrList _ Path.rustEq str)]

/-! ### Parts of services -/

/-- `BpsLimit`, /repo/src/service/blkio_config.rs:81-88. -/
def bpsLimit : List Item := [req "path" absolutePath, req "rate" byteValue]

/-- `IopsLimit`, /repo/src/service/blkio_config.rs:93-100. -/
def iopsLimit : List Item := [req "path" absolutePath, req "rate" u64]

/-- `WeightDevice`, /repo/src/service/blkio_config.rs:105-112. -/
def weightDevice : List Item := [req "path" absolutePath, req "weight" Codecs.weight]

/-- `BlkioConfig`, /repo/src/service/blkio_config.rs:17-54. -/
def blkioConfig : List Item :=
  [many "device_read_bps" (list (struct bpsLimit)), many "device_read_iops" (list (struct iopsLimit)),
    many "device_write_bps" (list (struct bpsLimit)), many "device_write_iops" (list (struct iopsLimit)),
    opt "weight" Codecs.weight, many "weight_device" (list (struct weightDevice))]

/-- `ConfigOrSecret`, /repo/src/service/config_or_secret.rs:29-86. -/
def configOrSecret : List Item :=
  [req "source" identifier, opt "target" str, optWith "uid" displayU32, optWith "gid" displayU32, opt "mode" u32, extensions]

/-- `Ulimit`, /repo/src/service/ulimit.rs:79-92. -/
def ulimit : List Item := [req "soft" (limit u64Max), req "hard" (limit u64Max), extensions]

/-- `Ulimits`, /repo/src/service/ulimit.rs:19. -/
def ulimits : Codec (IndexMap Str (ShortOrLong (Limit Nat) (Record ulimit))) :=
  map ulimitKey (shortOrLong (limit u64Max) (struct ulimit))

/-- `Build`, /repo/src/service/build.rs:30-197. -/
def build (E : Env) : List Item :=
  [opt "context" (context E), dockerfile, manyListOrMap "args", many "ssh" (set sshAuth), many "cache_from" (list cache),
    many "cache_to" (list cache), many "additional_contexts" (additionalContexts E), many "entitlements" (list str),
    many "extra_hosts" (Codecs.extraHosts E), opt "isolation" str, flag "privileged", manyListOrMap "labels", flag "no_cache",
    flag "pull", opt "network" buildNetwork, opt "shm_size" byteValue, opt "target" str,
    many "secrets" (list (shortOrLong identifier (struct configOrSecret))), many "tags" (list image),
    many "ulimits" ulimits, many "platforms" (list platform), extensions]

/-- `Preference`, /repo/src/service/deploy.rs:254-265. -/
def preference : List Item := [opt "spread" str, extensions]

/-- `Placement`, /repo/src/service/deploy.rs:193-212. -/
def placement : List Item :=
  [many "constraints" (list str), many "preferences" (list (struct preference)), opt "max_replicas_per_node" u64, extensions]

/-- `deploy::Mode`, /repo/src/service/deploy.rs:155-164. -/
inductive DeployMode
  | global
  | replicated
  deriving DecidableEq, Repr

/-- `RestartCondition`, /repo/src/service/deploy.rs:342-354. -/
inductive RestartCondition
  | none
  | onFailure
  | any
  deriving DecidableEq, Repr

/-- `FailureAction`, /repo/src/service/deploy.rs:465-474. -/
inductive FailureAction
  | «continue»
  | pause
  deriving DecidableEq, Repr

/-- `Order`, /repo/src/service/deploy.rs:502-511. -/
inductive Order
  | stopFirst
  | startFirst
  deriving DecidableEq, Repr

/-- Derived (de)serialization of `deploy::Mode` (kebab-case), /repo/src/service/deploy.rs:155-164. -/
def deployMode : Codec DeployMode :=
  keyword (fun | .global => "global".toList | .replicated => "replicated".toList)
    [("global".toList, .global), ("replicated".toList, .replicated)]

/-- Derived (de)serialization of `RestartCondition` (kebab-case), /repo/src/service/deploy.rs:342-354. -/
def restartCondition : Codec RestartCondition :=
  keyword (fun | .none => "none".toList | .onFailure => "on-failure".toList | .any => "any".toList)
    [("none".toList, .none), ("on-failure".toList, .onFailure), ("any".toList, .any)]

/-- Derived (de)serialization of `FailureAction` (kebab-case), /repo/src/service/deploy.rs:465-474. -/
def failureAction : Codec FailureAction :=
  keyword (fun | .continue => "continue".toList | .pause => "pause".toList)
    [("continue".toList, .continue), ("pause".toList, .pause)]

/-- Derived (de)serialization of `Order` (kebab-case), /repo/src/service/deploy.rs:502-511. -/
def order : Codec Order :=
  keyword (fun | .stopFirst => "stop-first".toList | .startFirst => "start-first".toList)
    [("stop-first".toList, .stopFirst), ("start-first".toList, .startFirst)]

/-- `RestartPolicy`, /repo/src/service/deploy.rs:280-317. -/
def restartPolicy : List Item :=
  [opt "condition" restartCondition, optWith "delay" duration, opt "max_attempts" u64, optWith "window" duration, extensions]

/-- `UpdateOrRollbackConfig`, /repo/src/service/deploy.rs:395-436. -/
def updateOrRollbackConfig : List Item :=
  [opt "parallelism" u64, optWith "delay" duration, opt "failure_action" failureAction, optWith "monitor" duration,
    opt "max_failure_ratio" u64, opt "order" order, extensions]

/-- `Limits`, /repo/src/service/deploy/resources.rs:90-115. -/
def limits (E : Env) : List Item :=
  [opt "cpus" (cpus E), opt "memory" byteValue, opt "pids" (limit u32Max), extensions]

/-- `DiscreteResourceSpec`, /repo/src/service/deploy/resources.rs:648-663. -/
def discreteResourceSpec : List Item := [opt "kind" str, opt "value" u64, extensions]

/-- `GenericResource`, /repo/src/service/deploy/resources.rs:597-608. -/
def genericResource : List Item := [opt "discrete_resource_spec" (struct discreteResourceSpec), extensions]

/-- `resources::Device`, /repo/src/service/deploy/resources.rs:337-377. -/
def resourceDevice : List Item :=
  [req "capabilities" (set capability), opt "driver" str, opt "count" count, many "device_ids" (set str),
    manyListOrMap "options", extensions]

/-- `Reservations`, /repo/src/service/deploy/resources.rs:135-164. -/
def reservations (E : Env) : List Item :=
  [opt "cpus" (cpus E), opt "memory" byteValue, many "devices" (list (struct resourceDevice)),
    many "generic_resources" (list (struct genericResource)), extensions]

/-- `Resources`, /repo/src/service/deploy/resources.rs:29-44. -/
def resources (E : Env) : List Item :=
  [opt "limits" (struct (limits E)), opt "reservations" (struct (reservations E)), extensions]

/-- `Deploy`, /repo/src/service/deploy.rs:24-89. -/
def deploy (E : Env) : List Item :=
  [opt "endpoint_mode" endpointMode, manyListOrMap "labels", opt "mode" deployMode, opt "placement" (struct placement),
    opt "replicas" u64, opt "resources" (struct (resources E)), opt "restart_policy" (struct restartPolicy),
    opt "rollback_config" (struct updateOrRollbackConfig), opt "update_config" (struct updateOrRollbackConfig), extensions]

/-- `Action`, /repo/src/service/develop.rs:65-80. -/
inductive Action
  | rebuild
  | sync
  | syncAndRestart
  deriving DecidableEq, Repr

/-- Derived (de)serialization of `Action`, /repo/src/service/develop.rs:65-80. -/
def action : Codec Action :=
  keyword (fun | .rebuild => "rebuild".toList | .sync => "sync".toList | .syncAndRestart => "sync+restart".toList)
    [("rebuild".toList, .rebuild), ("sync".toList, .sync), ("sync+restart".toList, .syncAndRestart)]

/-- `WatchRule`, /repo/src/service/develop.rs:29-60. -/
def watchRule : List Item :=
  [req "action" action, many "ignore" (list str), req "path" str, opt "target" absolutePath, extensions]

/-- `Develop`, /repo/src/service/develop.rs:17-24. -/
def develop : List Item := [many "watch" (list (struct watchRule))]

/-- `env_file::Config`, /repo/src/service/env_file.rs:90-103. -/
def envFileConfig : List Item := [req "path" str, flagTrue "required"]

/-- `EnvFile`, /repo/src/service/env_file.rs:20-28. -/
inductive EnvFiles
  | single (path : Str)
  | list (files : List (ShortOrLong Str (Record envFileConfig)))

/-- `EnvFile`, /repo/src/service/env_file.rs:20-28 and 80-85. -/
def envFile : Codec EnvFiles where
  ser
    | .single path => str.ser path
    | .list l => (Codecs.list (shortOrLong str (struct envFileConfig))).ser l
  de
    | .seq vs => ((Codecs.list (shortOrLong str (struct envFileConfig))).de (.seq vs)).map .list
    | .map _ => .err ()
    | .unit => .err ()
    | v => (str.de v).map .single
  valid
    | .single path => str.valid path
    | .list l => (Codecs.list (shortOrLong str (struct envFileConfig))).valid l

/-- `Condition`, /repo/src/service.rs:902-915. -/
inductive Condition
  | serviceStarted
  | serviceHealthy
  | serviceCompletedSuccessfully
  deriving DecidableEq, Repr

/-- Derived (de)serialization of `Condition` (snake_case), /repo/src/service.rs:902-915. -/
def condition : Codec Condition :=
  keyword (fun
      | .serviceStarted => "service_started".toList
      | .serviceHealthy => "service_healthy".toList
      | .serviceCompletedSuccessfully => "service_completed_successfully".toList)
    [("service_started".toList, .serviceStarted), ("service_healthy".toList, .serviceHealthy),
      ("service_completed_successfully".toList, .serviceCompletedSuccessfully)]

/-- `Dependency`, /repo/src/service.rs:880-897. -/
def dependency : List Item := [req "condition" condition, flag "restart", flagTrue "required"]

/-- The value of a `DependsOn` field, /repo/src/service.rs:875. -/
abbrev DependsOn := ShortOrLong (IndexSet Str) (IndexMap Str (Record dependency))

/-- The field `depends_on`, /repo/src/service.rs:238-239, with `depends_on_is_empty`, /repo/src/service.rs:953-958. -/
def dependsOn : Item :=
  .field {
    key := "depends_on".toList
    Ty := DependsOn
    codec := { shortOrLong (set identifier) (map identifierKey (struct dependency)) with
      valid := fun d => (shortOrLong (set identifier) (map identifierKey (struct dependency))).valid d ∧ d ≠ .long [] }
    default := some (.short [])
    skip := fun
      | .short l => l.isEmpty
      | .long m => m.isEmpty }

/-- `Extends`, /repo/src/service.rs:963-974. -/
def extend : List Item := [req "service" identifier, opt "file" str]

/-- `Logging`, /repo/src/service.rs:1255-1272. -/
def logging : List Item := [opt "driver" str, many "options" (map mapKey (option stringOrNumber)), extensions]

/-- `Cgroup`, /repo/src/service.rs:805-813. -/
inductive Cgroup
  | host
  | «private»
  deriving DecidableEq, Repr

/-- Derived (de)serialization of `Cgroup` (snake_case), /repo/src/service.rs:805-813. -/
def cgroup : Codec Cgroup :=
  keyword (fun | .host => "host".toList | .private => "private".toList) [("host".toList, .host), ("private".toList, .private)]

/-- `Uts`, /repo/src/service.rs:1224-1230. -/
inductive Uts
  | host
  deriving DecidableEq, Repr

/-- Derived (de)serialization of `Uts` (lowercase), /repo/src/service.rs:1224-1230. -/
def uts : Codec Uts := keyword (fun | .host => "host".toList) [("host".toList, .host)]

/-- `PullPolicy`, /repo/src/service.rs:1339-1357. -/
inductive PullPolicy
  | always
  | never
  | missing
  | build
  deriving DecidableEq, Repr

/-- Derived (de)serialization of `PullPolicy` (snake_case, with an alias), /repo/src/service.rs:1339-1357. -/
def pullPolicy : Codec PullPolicy :=
  keyword (fun
      | .always => "always".toList
      | .never => "never".toList
      | .missing => "missing".toList
      | .build => "build".toList)
    [("always".toList, .always), ("never".toList, .never), ("missing".toList, .missing), ("if_not_present".toList, .missing),
      ("build".toList, .build)]

/-- `Restart`, /repo/src/service.rs:1387-1400. -/
inductive Restart
  | no
  | always
  | onFailure
  | unlessStopped
  deriving DecidableEq, Repr

/-- Derived (de)serialization of `Restart` (kebab-case), /repo/src/service.rs:1387-1400. -/
def restart : Codec Restart :=
  keyword (fun
      | .no => "no".toList
      | .always => "always".toList
      | .onFailure => "on-failure".toList
      | .unlessStopped => "unless-stopped".toList)
    [("no".toList, .no), ("always".toList, .always), ("on-failure".toList, .onFailure),
      ("unless-stopped".toList, .unlessStopped)]

/-! ### Ports -/

/-- `ports::Mode`, /repo/src/service/ports.rs:191-200. -/
inductive PortMode
  | host
  | ingress
  deriving DecidableEq, Repr

/-- Derived (de)serialization of `ports::Mode` (lowercase), /repo/src/service/ports.rs:191-200. -/
def portMode : Codec PortMode :=
  keyword (fun | .host => "host".toList | .ingress => "ingress".toList) [("host".toList, .host), ("ingress".toList, .ingress)]

/-- `Port`, /repo/src/service/ports.rs:55-89. -/
def port (E : Env) : List Item :=
  [opt "name" str, req "target" u16, opt "published" range, opt "host_ip" (foreign E.ip), opt "protocol" protocol,
    opt "app_protocol" str, opt "mode" portMode, extensions]

/-- `==` of `extensions.as_slice()` (`indexmap::map::Slice`): the same keys in the same order with equal values,
/repo/src/service/ports.rs:111 and /repo/src/service/volumes/mount.rs:351, 533, 702, 812. -/
def extensionsEq (E : Env) : IndexMap Str Content → IndexMap Str Content → Bool
  | [], [] => true
  | (k, v) :: a, (k', v') :: b => k = k' && E.valueEq v v' && extensionsEq E a b
  | _, _ => false

/-- `PartialEq for Port`, /repo/src/service/ports.rs:91-113. -/
def portEq (E : Env) : Record (port E) → Record (port E) → Bool
  | ((name : Option Str), (target : Nat), (published : Option Range), (hostIp : Option E.ip.Ty), (protocol' : Option Protocol),
      (appProtocol : Option Str), (mode : Option PortMode), extensions', ()),
    ((name' : Option Str), (target' : Nat), (published' : Option Range), (hostIp' : Option E.ip.Ty), (protocol'' : Option Protocol),
      (appProtocol' : Option Str), (mode' : Option PortMode), extensions'', ()) =>
    name = name' && target = target' && published = published' && hostIp = hostIp' && protocol' = protocol'' &&
      appProtocol = appProtocol' && mode = mode' && extensionsEq E extensions' extensions''

/-- `PartialEq for ShortOrLong` (derived), /repo/src/common/short_or_long.rs:45. -/
def shortOrLongEq {S L : Type} (short : S → S → Bool) (long : L → L → Bool) : ShortOrLong S L → ShortOrLong S L → Bool
  | .short a, .short b => short a b
  | .long a, .long b => long a b
  | _, _ => false

/-- `PartialEq` of the items of `Ports`; that of `ShortPort` is derived, /repo/src/service/ports.rs:231. -/
def portsEq (E : Env) : RustEq (ShortOrLong (ShortPort E.ip.Ty) (Record (port E))) :=
  ⟨shortOrLongEq RustEq.eq (portEq E)⟩

/-- `Ports`, /repo/src/service/ports.rs:28. -/
def ports (E : Env) : Codec (IndexSet (ShortOrLong (ShortPort E.ip.Ty) (Record (port E)))) :=
  @set _ (portsEq E) (shortOrLong (shortPort E) (struct (port E)))

/-! ### Mounts -/

/-- `mount::Common`, /repo/src/service/volumes/mount.rs:765-785. -/
def common : List Item := [req "target" absolutePath, flag "read_only", opt "consistency" str, extensions]

/-- `mount::VolumeOptions`, /repo/src/service/volumes/mount.rs:310-325. -/
def volumeOptions : List Item := [flag "nocopy", opt "subpath" str, extensions]

/-- `mount::Volume`, /repo/src/service/volumes/mount.rs:238-255. -/
def mountVolume : List Item := [opt "source" identifier, opt "volume" (struct volumeOptions), nested common]

/-- `BindPropagation`, /repo/src/service/volumes/mount.rs:558-578. -/
inductive BindPropagation
  | «private»
  | shared
  | slave
  | unbindable
  | rPrivate
  | rShared
  | rSlave
  | rUnbindable
  deriving DecidableEq, Repr

/-- Derived (de)serialization of `BindPropagation` (lowercase), /repo/src/service/volumes/mount.rs:558-578. -/
def bindPropagation : Codec BindPropagation :=
  keyword (fun
      | .private => "private".toList
      | .shared => "shared".toList
      | .slave => "slave".toList
      | .unbindable => "unbindable".toList
      | .rPrivate => "rprivate".toList
      | .rShared => "rshared".toList
      | .rSlave => "rslave".toList
      | .rUnbindable => "runbindable".toList)
    [("private".toList, .private), ("shared".toList, .shared), ("slave".toList, .slave),
      ("unbindable".toList, .unbindable), ("rprivate".toList, .rPrivate), ("rshared".toList, .rShared),
      ("rslave".toList, .rSlave), ("runbindable".toList, .rUnbindable)]

/-- `mount::BindOptions`, /repo/src/service/volumes/mount.rs:453-474. -/
def bindOptions : List Item :=
  [opt "propagation" bindPropagation, flag "create_host_path", opt "selinux" selinux, extensions]

/-- `mount::Bind`, /repo/src/service/volumes/mount.rs:372-386. -/
def mountBind : List Item := [req "source" hostPath, opt "bind" (struct bindOptions), nested common]

/-- `mount::TmpfsOptions`, /repo/src/service/volumes/mount.rs:657-676. -/
def tmpfsOptions : List Item := [opt "size" byteValue, opt "mode" u32, extensions]

/-- `mount::Tmpfs`, /repo/src/service/volumes/mount.rs:612-623. -/
def mountTmpfs : List Item := [opt "tmpfs" (struct tmpfsOptions), nested common]

/-- `mount::NamedPipe`, /repo/src/service/volumes/mount.rs:723-733. -/
def mountNamedPipe : List Item := [req "source" hostPath, nested common]

/-- `mount::Cluster`, /repo/src/service/volumes/mount.rs:744-754. -/
def mountCluster : List Item := [req "source" str, nested common]

/-- `Mount`, /repo/src/service/volumes/mount.rs:22-40. -/
inductive MountOf
  | volume (r : Record mountVolume)
  | bind (r : Record mountBind)
  | tmpfs (r : Record mountTmpfs)
  | namedPipe (r : Record mountNamedPipe)
  | cluster (r : Record mountCluster)

/-- The tag of a mount, /repo/src/service/volumes/mount.rs:22-40 (`tag = "type"`). -/
def tagKey : Str := "type".toList

/-- The entries written for a mount: the tag first. -/
def mountWrite : MountOf → List (Str × Content)
  | .volume r => (tagKey, .str "volume".toList) :: write mountVolume r
  | .bind r => (tagKey, .str "bind".toList) :: write mountBind r
  | .tmpfs r => (tagKey, .str "tmpfs".toList) :: write mountTmpfs r
  | .namedPipe r => (tagKey, .str "npipe".toList) :: write mountNamedPipe r
  | .cluster r => (tagKey, .str "cluster".toList) :: write mountCluster r

/-- Reading an internally tagged enum: the tag must be given once, as a string; the other entries are read as the struct it
names. -/
def mountRead (es : List (Str × Content)) : Outcome Unit MountOf :=
  match es.filter (fun e => e.1 = tagKey) with
  | [(_, .str tag)] =>
    let rest := es.filter fun e => e.1 ≠ tagKey
    if tag = "volume".toList then (decode mountVolume rest).map .volume
    else if tag = "bind".toList then (decode mountBind rest).map .bind
    else if tag = "tmpfs".toList then (decode mountTmpfs rest).map .tmpfs
    else if tag = "npipe".toList then (decode mountNamedPipe rest).map .namedPipe
    else if tag = "cluster".toList then (decode mountCluster rest).map .cluster
    else .err ()
  | _ => .err ()

/-- `Mount`, /repo/src/service/volumes/mount.rs:22-40. -/
def mount : Codec MountOf where
  ser m := mapping (mountWrite m)
  de c := (Outcome.ofOption (entriesOf c)).bind mountRead
  valid
    | .volume r => recordValid mountVolume r
    | .bind r => recordValid mountBind r
    | .tmpfs r => recordValid mountTmpfs r
    | .namedPipe r => recordValid mountNamedPipe r
    | .cluster r => recordValid mountCluster r

/-- `PartialEq for Option<T>`. -/
def optionEq {α : Type} (eq : α → α → Bool) : Option α → Option α → Bool
  | some a, some b => eq a b
  | none, none => true
  | _, _ => false

/-- `PartialEq for Common`, /repo/src/service/volumes/mount.rs:800-814. -/
def commonEq (E : Env) : Record common → Record common → Bool
  | ((target : Str), (readOnly : Bool), (consistency : Option Str), extensions', ()),
    ((target' : Str), (readOnly' : Bool), (consistency' : Option Str), extensions'', ()) =>
    Path.eq target target' && readOnly = readOnly' && consistency = consistency' && extensionsEq E extensions' extensions''

/-- `PartialEq for VolumeOptions`, /repo/src/service/volumes/mount.rs:341-353. -/
def volumeOptionsEq (E : Env) : Record volumeOptions → Record volumeOptions → Bool
  | ((nocopy : Bool), (subpath : Option Str), extensions', ()), ((nocopy' : Bool), (subpath' : Option Str), extensions'', ()) =>
    nocopy = nocopy' && optionEq Path.eq subpath subpath' && extensionsEq E extensions' extensions''

/-- `PartialEq for BindOptions`, /repo/src/service/volumes/mount.rs:521-535. -/
def bindOptionsEq (E : Env) : Record bindOptions → Record bindOptions → Bool
  | ((propagation : Option BindPropagation), (createHostPath : Bool), (selinux' : Option SELinux), extensions', ()),
    ((propagation' : Option BindPropagation), (createHostPath' : Bool), (selinux'' : Option SELinux), extensions'', ()) =>
    propagation = propagation' && createHostPath = createHostPath' && selinux' = selinux'' &&
      extensionsEq E extensions' extensions''

/-- `PartialEq for TmpfsOptions`, /repo/src/service/volumes/mount.rs:692-704. -/
def tmpfsOptionsEq (E : Env) : Record tmpfsOptions → Record tmpfsOptions → Bool
  | ((size : Option ByteValue), (mode : Option Nat), extensions', ()),
    ((size' : Option ByteValue), (mode' : Option Nat), extensions'', ()) =>
    size = size' && mode = mode' && extensionsEq E extensions' extensions''

/-- `PartialEq for Mount` (derived, as are those of `Volume`, `Bind`, `Tmpfs`, `NamedPipe` and `Cluster`),
/repo/src/service/volumes/mount.rs:22, 238, 372, 612, 723, 744. -/
def mountEq (E : Env) : MountOf → MountOf → Bool
  | .volume ((source : Option Str), volume', common', ()), .volume ((source' : Option Str), volume'', common'', ()) =>
    source = source' && optionEq (volumeOptionsEq E) volume' volume'' && commonEq E common' common''
  | .bind (source, bind', common', ()), .bind (source', bind'', common'', ()) =>
    Path.eq source source' && optionEq (bindOptionsEq E) bind' bind'' && commonEq E common' common''
  | .tmpfs (tmpfs', common', ()), .tmpfs (tmpfs'', common'', ()) =>
    optionEq (tmpfsOptionsEq E) tmpfs' tmpfs'' && commonEq E common' common''
  | .namedPipe (source, common', ()), .namedPipe (source', common'', ()) => Path.eq source source' && commonEq E common' common''
  | .cluster ((source : Str), common', ()), .cluster ((source' : Str), common'', ()) => source = source' && commonEq E common' common''
  | _, _ => false

/-- `PartialEq` of the items of `Volumes`. -/
def volumesEq (E : Env) : RustEq (ShortOrLong ShortVolume MountOf) := ⟨shortOrLongEq ShortVolume.eq (mountEq E)⟩

/-- `Volumes`, /repo/src/service/volumes.rs:32. -/
def volumes (E : Env) : Codec (IndexSet (ShortOrLong ShortVolume MountOf)) :=
  @set _ (volumesEq E) (shortOrLong shortVolume mount)

/-! ### Networks of services -/

/-- `network_config::Network`, /repo/src/service/network_config.rs:369-428. -/
def serviceNetwork (E : Env) : List Item :=
  [many "aliases" (set hostname), opt "ipv4_address" (foreign E.ip4), opt "ipv6_address" (foreign E.ip6),
    many "link_local_ips" (@set _ (@RustEq.ofDecEq _ E.ip.eq) (foreign E.ip)), opt "mac_address" macAddress,
    many "driver_opts" (map mapKey stringOrNumber), opt "priority" u64, extensions]

/-- The type `network_config::Networks`, /repo/src/service/network_config.rs:27. -/
abbrev Networks (E : Env) := ShortOrLong (IndexSet Str) (IndexMap Str (Option (Record (serviceNetwork E))))

/-- `network_config::Networks`, /repo/src/service/network_config.rs:27. -/
def networks (E : Env) : Codec (Networks E) :=
  shortOrLong (set identifier) (map identifierKey (option (struct (serviceNetwork E))))

/-- `Option<NetworkConfig>` with `with = "network_config::option"`, /repo/src/service/network_config.rs:127-190. -/
def networkConfig (E : Env) : Item :=
  .flat {
    keys := some ["network_mode".toList, "networks".toList]
    Ty := Option (NetworkConfigOf (Networks E))
    same := Eq
    write := fun n => n.toList.map fun n => n.entry (networks E).ser
    read := fun es => Outcome.ofOption (NetworkConfigOf.optionEntries (fun c => ((networks E).de c).toOption) es)
    valid := fun n => (∀ m, n = some (.networkMode m) → networkModeValid m) ∧ ∀ x, n = some (.networks x) → (networks E).valid x }

/-! ### Services and Compose files -/

/-- `Service`, /repo/src/service.rs:79-682. -/
noncomputable def service (E : Env) : List Item :=
  [flagTrue "attach", opt "build" (shortOrLong (context E) (struct (build E))), opt "blkio_config" (struct blkioConfig),
    opt "cpu_count" u64, opt "cpu_percent" percent, opt "cpu_shares" u64, optWith "cpu_period" durationUs,
    optWith "cpu_quota" durationUs, optWith "cpu_rt_runtime" duration, optWith "cpu_rt_period" duration,
    opt "cpus" (cpus E), many "cpuset" cpuSet, many "cap_add" (set str), many "cap_drop" (set str), opt "cgroup" cgroup,
    opt "cgroup_parent" str, opt "command" command,
    many "configs" (list (shortOrLong identifier (struct configOrSecret))), opt "container_name" identifier,
    opt "credential_spec" credentialSpec, dependsOn, opt "deploy" (struct (deploy E)), opt "develop" (struct develop),
    many "device_cgroup_rules" (set cgroupRule), many "devices" (set device),
    opt "dns" (@itemOrList _ (@RustEq.ofDecEq _ E.ip.eq) (foreign E.ip)), many "dns_opt" (set str),
    opt "dns_search" (itemOrList hostname), opt "domainname" hostname, opt "entrypoint" command, opt "env_file" envFile,
    manyListOrMap "environment", many "expose" (set expose), opt "extends" (struct extend), manyListOrMap "annotations",
    many "external_links" (set link), many "extra_hosts" (Codecs.extraHosts E), many "group_add" (set idOrName),
    opt "healthcheck" healthcheck, opt "hostname" hostname, opt "image" image, flag "init", opt "ipc" ipc, opt "uts" uts,
    opt "isolation" str, manyListOrMap "labels", many "links" (set link), opt "logging" (struct logging), networkConfig E,
    opt "mac_address" macAddress, opt "mem_limit" byteValue, opt "mem_reservation" byteValue, opt "mem_swappiness" percent,
    opt "memswap_limit" byteLimit, flag "oom_kill_disable", opt "oom_score_adj" oomScoreAdj, opt "pid" str,
    opt "pids_limit" (limit u32Max), opt "platform" platform, many "ports" (ports E), flag "privileged",
    many "profiles" (set identifier), opt "pull_policy" pullPolicy, flag "read_only", opt "restart" restart,
    opt "runtime" str, opt "scale" u64, many "secrets" (list (shortOrLong identifier (struct configOrSecret))),
    many "security_opt" (set str), opt "shm_size" byteValue, flag "stdin_open", optWith "stop_grace_period" duration,
    opt "stop_signal" str, many "storage_opt" valueMap, manyListOrMap "sysctls", opt "tmpfs" (@itemOrList _ Path.rustEq absolutePath),
    flag "tty", many "ulimits" ulimits, opt "user" user, opt "userns_mode" str, many "volumes" (volumes E),
    many "volumes_from" (set volumesFrom), opt "working_dir" absolutePath, extensions]

/-- `Resource<T>` for a struct, /repo/src/common.rs:894-997: a mapping that is not external is read into a `HashMap` and
handed on in the order in which that gives its entries.  The structs have no fields whose reading panics. -/
def resource (E : Env) (is : List Item) : Codec (Resource (Record is)) where
  ser := Resource.serialize (struct is).ser
  de c := Outcome.ofOption (Resource.deserialize E.order (fun es => (decode is es).toOption) c)
  valid
    | .external _ => True
    | .compose r => recordValid is r

/-- `Compose`, /repo/src/lib.rs:167-224. -/
noncomputable def compose (E : Env) : List Item :=
  [opt "version" str, opt "name" projectName, many "include" (list (shortOrLong str (struct «include»))),
    req "services" (map identifierKey (struct (service E))),
    many "networks" (map identifierKey (option (resource E (network E)))),
    many "volumes" (map identifierKey (option (resource E volume))), many "configs" (map identifierKey (resource E config)),
    many "secrets" (map identifierKey (resource E secret)), extensions]

end Structs
end Compose
