import Verif.Spec.Meaning
import Verif.Spec.Equality

/- The structs that a Compose file is made of, as tables: every key, the meaning of its value, and what its absence means.
The types are those of the model; the meanings are those of `Verif.Spec.Meaning`. -/

namespace Spec.Schemas
open Rust Compose Compose.Derive Spec.Schema Spec.Meaning

/-- A driver option: a key and a string or number. -/
def driverOpts : Meaning (List (Str × StringOrNumber)) := entries MapKey stringOrNumber

/-! ### Networks, volumes, configs, secrets, includes -/

def ipamConfig (E : Env) : Schema (Record (Structs.ipamConfig E)) :=
  optional "subnet" (foreign E.ipNet) <|
  optional "ip_range" (foreign E.ipNet) <|
  optional "gateway" (foreign E.ip) <|
  many "aux_addresses" (entries Hostname (foreign E.ip)) <|
  extensions

def ipam (E : Env) : Schema (Record (Structs.ipam E)) :=
  optional "driver" string <|
  many "config" (items (ipamConfig E).Means) <|
  many "options" (entries MapKey string) <|
  extensions

def network (E : Env) : Schema (Record (Structs.network E)) :=
  optional "driver" (text DriverText) <|
  many "driver_opts" driverOpts <|
  flag "attachable" false <|
  flag "enable_ipv6" false <|
  optional "ipam" (ipam E).Means <|
  flag "internal" false <|
  listOrMap "labels" <|
  optional "name" string <|
  extensions

def volume : Schema (Record Structs.volume) :=
  optional "driver" string <|
  many "driver_opts" driverOpts <|
  listOrMap "labels" <|
  optional "name" string <|
  extensions

def config : Schema (Record Structs.config) :=
  exactlyOne configFields ["file", "environment", "content"] <|
  listOrMap "labels" <|
  extensions

def secret : Schema (Record Structs.secret) :=
  exactlyOne secretFields ["file", "environment"] <|
  listOrMap "labels" <|
  optional "driver" string <|
  many "driver_opts" driverOpts <|
  extensions

def «include» : Schema (Record Structs.«include») :=
  required "path" (itemOrList EqualPath string) <|
  optional "project_directory" string <|
  optional "env_file" (itemOrList EqualPath string) <|
  nil

/-! ### Parts of services -/

def bpsLimit : Schema (Record Structs.bpsLimit) :=
  required "path" (valid AbsolutePath) <| required "rate" byteValue <| nil

def iopsLimit : Schema (Record Structs.iopsLimit) :=
  required "path" (valid AbsolutePath) <| required "rate" (natural (2 ^ 64 - 1)) <| nil

def weightDevice : Schema (Record Structs.weightDevice) :=
  required "path" (valid AbsolutePath) <| required "weight" weight <| nil

def blkioConfig : Schema (Record Structs.blkioConfig) :=
  many "device_read_bps" (items bpsLimit.Means) <|
  many "device_read_iops" (items iopsLimit.Means) <|
  many "device_write_bps" (items bpsLimit.Means) <|
  many "device_write_iops" (items iopsLimit.Means) <|
  optional "weight" weight <|
  many "weight_device" (items weightDevice.Means) <|
  nil

def configOrSecret : Schema (Record Structs.configOrSecret) :=
  required "source" (valid Identifier) <|
  optional "target" string <|
  optional "uid" (text (UInt (2 ^ 32 - 1))) <|
  optional "gid" (text (UInt (2 ^ 32 - 1))) <|
  optional "mode" (natural (2 ^ 32 - 1)) <|
  extensions

/-- A config or secret of a service: its name, or a mapping. -/
def configsOrSecrets : Meaning (List (ShortOrLong Str (Record Structs.configOrSecret))) :=
  items (shortOrLong (valid Identifier) configOrSecret.Means)

def ulimit : Schema (Record Structs.ulimit) :=
  required "soft" (limit (2 ^ 64 - 1)) <|
  required "hard" (limit (2 ^ 64 - 1)) <|
  extensions

/-- Limits of resources: one limit, or a soft and a hard one. -/
def ulimits : Meaning (List (Str × ShortOrLong (Limit Nat) (Record Structs.ulimit))) :=
  entries UlimitResource (shortOrLong (limit (2 ^ 64 - 1)) ulimit.Means)

def build (E : Env) : Schema (Record (Structs.build E)) :=
  optional "context" (text (ContextText E.url)) <|
  atMostOne dockerfileFields ["dockerfile", "dockerfile_inline"] <|
  listOrMap "args" <|
  many "ssh" (distinctBy EqualSshAuth (text SshAuthText)) <|
  many "cache_from" (items (text CacheText)) <|
  many "cache_to" (items (text CacheText)) <|
  many "additional_contexts" (additionalContexts E) <|
  many "entitlements" (items string) <|
  many "extra_hosts" (extraHosts E) <|
  optional "isolation" string <|
  flag "privileged" false <|
  listOrMap "labels" <|
  flag "no_cache" false <|
  flag "pull" false <|
  optional "network" (text BuildNetworkText) <|
  optional "shm_size" byteValue <|
  optional "target" string <|
  many "secrets" configsOrSecrets <|
  many "tags" (items (text ImageText)) <|
  many "ulimits" ulimits <|
  many "platforms" (items (text (PlatformText platforms))) <|
  extensions

def preference : Schema (Record Structs.preference) :=
  optional "spread" string <| extensions

def placement : Schema (Record Structs.placement) :=
  many "constraints" (items string) <|
  many "preferences" (items preference.Means) <|
  optional "max_replicas_per_node" (natural (2 ^ 64 - 1)) <|
  extensions

def restartPolicy : Schema (Record Structs.restartPolicy) :=
  optional "condition" (word [("none", .none), ("on-failure", .onFailure), ("any", .any)]) <|
  optional' "delay" duration <|
  optional "max_attempts" (natural (2 ^ 64 - 1)) <|
  optional' "window" duration <|
  extensions

def updateOrRollbackConfig : Schema (Record Structs.updateOrRollbackConfig) :=
  optional "parallelism" (natural (2 ^ 64 - 1)) <|
  optional' "delay" duration <|
  optional "failure_action" (word [("continue", .continue), ("pause", .pause)]) <|
  optional' "monitor" duration <|
  optional "max_failure_ratio" (natural (2 ^ 64 - 1)) <|
  optional "order" (word [("stop-first", .stopFirst), ("start-first", .startFirst)]) <|
  extensions

def limits (E : Env) : Schema (Record (Structs.limits E)) :=
  optional "cpus" (cpus E.float) <|
  optional "memory" byteValue <|
  optional "pids" (limit (2 ^ 32 - 1)) <|
  extensions

def discreteResourceSpec : Schema (Record Structs.discreteResourceSpec) :=
  optional "kind" string <|
  optional "value" (natural (2 ^ 64 - 1)) <|
  extensions

def genericResource : Schema (Record Structs.genericResource) :=
  optional "discrete_resource_spec" discreteResourceSpec.Means <| extensions

def resourceDevice : Schema (Record Structs.resourceDevice) :=
  required "capabilities" (distinct (text CapabilityText)) <|
  optional "driver" string <|
  optional "count" count <|
  many "device_ids" (distinct string) <|
  listOrMap "options" <|
  extensions

def reservations (E : Env) : Schema (Record (Structs.reservations E)) :=
  optional "cpus" (cpus E.float) <|
  optional "memory" byteValue <|
  many "devices" (items resourceDevice.Means) <|
  many "generic_resources" (items genericResource.Means) <|
  extensions

def resources (E : Env) : Schema (Record (Structs.resources E)) :=
  optional "limits" (limits E).Means <|
  optional "reservations" (reservations E).Means <|
  extensions

def deploy (E : Env) : Schema (Record (Structs.deploy E)) :=
  optional "endpoint_mode" (text EndpointModeText) <|
  listOrMap "labels" <|
  optional "mode" (word [("global", .global), ("replicated", .replicated)]) <|
  optional "placement" placement.Means <|
  optional "replicas" (natural (2 ^ 64 - 1)) <|
  optional "resources" (resources E).Means <|
  optional "restart_policy" restartPolicy.Means <|
  optional "rollback_config" updateOrRollbackConfig.Means <|
  optional "update_config" updateOrRollbackConfig.Means <|
  extensions

def watchRule : Schema (Record Structs.watchRule) :=
  required "action" (word (α := Structs.Action) [("rebuild", .rebuild), ("sync", .sync), ("sync+restart", .syncAndRestart)]) <|
  many "ignore" (items string) <|
  required "path" string <|
  optional "target" (valid AbsolutePath) <|
  extensions

def develop : Schema (Record Structs.develop) :=
  many "watch" (items watchRule.Means) <| nil

def envFileConfig : Schema (Record Structs.envFileConfig) :=
  required "path" string <| flag "required" true <| nil

/-- A path, or a sequence of paths and mappings. -/
def envFile : Meaning Structs.EnvFiles := fun v x =>
  (∃ s, string v s ∧ x = .single s) ∨ ∃ l, items (shortOrLong string envFileConfig.Means) v l ∧ x = .list l

def dependency : Schema (Record Structs.dependency) :=
  required "condition" (word (α := Structs.Condition) [("service_started", .serviceStarted),
    ("service_healthy", .serviceHealthy), ("service_completed_successfully", .serviceCompletedSuccessfully)]) <|
  flag "restart" false <|
  flag "required" true <|
  nil

/-- Names of services, or a mapping from them to conditions. -/
def dependsOn : Meaning Structs.DependsOn :=
  shortOrLong (distinct (valid Identifier)) (entries Identifier dependency.Means)

def extend : Schema (Record Structs.extend) :=
  required "service" (valid Identifier) <| optional "file" string <| nil

def logging : Schema (Record Structs.logging) :=
  optional "driver" string <|
  many "options" (entries MapKey (orNull stringOrNumber)) <|
  extensions

/-! ### Ports -/

/-- A port or range of ports. -/
def range : Meaning Range := portOr (fun n => ⟨n, none⟩) RangeText

def port (E : Env) : Schema (Record (Structs.port E)) :=
  optional "name" string <|
  required "target" (natural 65535) <|
  optional "published" range <|
  optional "host_ip" (foreign E.ip) <|
  optional "protocol" (text ProtocolText) <|
  optional "app_protocol" string <|
  optional "mode" (word [("host", .host), ("ingress", .ingress)]) <|
  extensions

/-- The short form of a port. -/
def shortPort (E : Env) : Meaning (ShortPort E.ip.Ty) :=
  portOr (fun n => ⟨none, ⟨none, ⟨n, none⟩⟩, none⟩) (ShortPortText fun s => (E.ip.parse s).elim (.error ()) .ok)

/-- A port that is exposed. -/
def expose : Meaning Expose := portOr (fun n => ⟨⟨n, none⟩, none⟩) ExposeText

/-! ### Mounts -/

def common : Schema (Record Structs.common) :=
  required "target" (valid AbsolutePath) <|
  flag "read_only" false <|
  optional "consistency" string <|
  extensions

def volumeOptions : Schema (Record Structs.volumeOptions) :=
  flag "nocopy" false <|
  optional "subpath" string <|
  extensions

def mountVolume : Schema (Record Structs.mountVolume) :=
  optional "source" (valid Identifier) <|
  optional "volume" volumeOptions.Means <|
  inner common

def bindOptions : Schema (Record Structs.bindOptions) :=
  optional "propagation" (word [("private", .private), ("shared", .shared), ("slave", .slave),
    ("unbindable", .unbindable), ("rprivate", .rPrivate), ("rshared", .rShared), ("rslave", .rSlave),
    ("runbindable", .rUnbindable)]) <|
  flag "create_host_path" false <|
  optional "selinux" (word [("z", .shared), ("Z", .private)]) <|
  extensions

def mountBind : Schema (Record Structs.mountBind) :=
  required "source" (valid HostPath) <|
  optional "bind" bindOptions.Means <|
  inner common

def tmpfsOptions : Schema (Record Structs.tmpfsOptions) :=
  optional "size" byteValue <|
  optional "mode" (natural (2 ^ 32 - 1)) <|
  extensions

def mountTmpfs : Schema (Record Structs.mountTmpfs) :=
  optional "tmpfs" tmpfsOptions.Means <| inner common

def mountNamedPipe : Schema (Record Structs.mountNamedPipe) :=
  required "source" (valid HostPath) <| inner common

def mountCluster : Schema (Record Structs.mountCluster) :=
  required "source" string <| inner common

/-- The struct named by `type`, which the other entries denote. -/
inductive Mount : Str → List (Str × Content) → Structs.MountOf → Prop
  | volume {es r} : mountVolume.Stands mountVolume.keys es r → Mount "volume".toList es (.volume r)
  | bind {es r} : mountBind.Stands mountBind.keys es r → Mount "bind".toList es (.bind r)
  | tmpfs {es r} : mountTmpfs.Stands mountTmpfs.keys es r → Mount "tmpfs".toList es (.tmpfs r)
  | namedPipe {es r} : mountNamedPipe.Stands mountNamedPipe.keys es r → Mount "npipe".toList es (.namedPipe r)
  | cluster {es r} : mountCluster.Stands mountCluster.keys es r → Mount "cluster".toList es (.cluster r)

/-- A mapping with one key `type`, a string. -/
def mount : Meaning Structs.MountOf := fun v m =>
  ∃ es tag, Entries v es ∧ given es "type".toList = [.str tag] ∧ Mount tag (es.filter fun e => e.1 ≠ "type".toList) m

/-! ### Services and Compose files -/

def serviceNetwork (E : Env) : Schema (Record (Structs.serviceNetwork E)) :=
  many "aliases" (distinct (valid Hostname)) <|
  optional "ipv4_address" (foreign E.ip4) <|
  optional "ipv6_address" (foreign E.ip6) <|
  many "link_local_ips" (distinct (foreign E.ip)) <|
  optional "mac_address" (text MacText) <|
  many "driver_opts" driverOpts <|
  optional "priority" (natural (2 ^ 64 - 1)) <|
  extensions

/-- Names of networks, or a mapping from them to options or null. -/
def networks (E : Env) : Meaning (Structs.Networks E) :=
  shortOrLong (distinct (valid Identifier)) (entries Identifier (orNull (serviceNetwork E).Means))

noncomputable def service (E : Env) : Schema (Record (Structs.service E)) :=
  flag "attach" true <|
  optional "build" (shortOrLong (text (ContextText E.url)) (build E).Means) <|
  optional "blkio_config" blkioConfig.Means <|
  optional "cpu_count" (natural (2 ^ 64 - 1)) <|
  optional "cpu_percent" percent <|
  optional "cpu_shares" (natural (2 ^ 64 - 1)) <|
  optional' "cpu_period" durationUs <|
  optional' "cpu_quota" durationUs <|
  optional' "cpu_rt_runtime" duration <|
  optional' "cpu_rt_period" duration <|
  optional "cpus" (cpus E.float) <|
  many "cpuset" cpuSet <|
  many "cap_add" (distinct string) <|
  many "cap_drop" (distinct string) <|
  optional "cgroup" (word [("host", .host), ("private", .private)]) <|
  optional "cgroup_parent" string <|
  optional "command" command <|
  many "configs" configsOrSecrets <|
  optional "container_name" (valid Identifier) <|
  optional "credential_spec" credentialSpec <|
  field "depends_on" dependsOn (some (.short [])) <|
  optional "deploy" (deploy E).Means <|
  optional "develop" develop.Means <|
  many "device_cgroup_rules" (distinct (text CgroupRuleText)) <|
  many "devices" (distinctBy EqualDevice (text DeviceText)) <|
  optional "dns" (itemOrList Eq (foreign E.ip)) <|
  many "dns_opt" (distinct string) <|
  optional "dns_search" (itemOrList Eq (valid Hostname)) <|
  optional "domainname" (valid Hostname) <|
  optional "entrypoint" command <|
  optional "env_file" envFile <|
  listOrMap "environment" <|
  many "expose" (distinct expose) <|
  optional "extends" extend.Means <|
  listOrMap "annotations" <|
  many "external_links" (distinct (text LinkText)) <|
  many "extra_hosts" (extraHosts E) <|
  many "group_add" (distinct idOrName) <|
  optional "healthcheck" healthcheck <|
  optional "hostname" (valid Hostname) <|
  optional "image" (text ImageText) <|
  flag "init" false <|
  optional "ipc" (text IpcText) <|
  optional "uts" (word [("host", .host)]) <|
  optional "isolation" string <|
  listOrMap "labels" <|
  many "links" (distinct (text LinkText)) <|
  optional "logging" logging.Means <|
  atMostOne (networkFields (networks E)) ["network_mode", "networks"] <|
  optional "mac_address" (text MacText) <|
  optional "mem_limit" byteValue <|
  optional "mem_reservation" byteValue <|
  optional "mem_swappiness" percent <|
  optional "memswap_limit" byteLimit <|
  flag "oom_kill_disable" false <|
  optional "oom_score_adj" oomScoreAdj <|
  optional "pid" string <|
  optional "pids_limit" (limit (2 ^ 32 - 1)) <|
  optional "platform" (text (PlatformText platforms)) <|
  many "ports" (distinctBy (EqualForm Eq (EqualPort E)) (shortOrLong (shortPort E) (port E).Means)) <|
  flag "privileged" false <|
  many "profiles" (distinct (valid Identifier)) <|
  optional "pull_policy" (word [("always", .always), ("never", .never), ("missing", .missing),
    ("if_not_present", .missing), ("build", .build)]) <|
  flag "read_only" false <|
  optional "restart" (word [("no", .no), ("always", .always), ("on-failure", .onFailure),
    ("unless-stopped", .unlessStopped)]) <|
  optional "runtime" string <|
  optional "scale" (natural (2 ^ 64 - 1)) <|
  many "secrets" configsOrSecrets <|
  many "security_opt" (distinct string) <|
  optional "shm_size" byteValue <|
  flag "stdin_open" false <|
  optional' "stop_grace_period" duration <|
  optional "stop_signal" string <|
  many "storage_opt" (entries MapKey (orNull value)) <|
  listOrMap "sysctls" <|
  optional "tmpfs" (itemOrList EqualPath (valid AbsolutePath)) <|
  flag "tty" false <|
  many "ulimits" ulimits <|
  optional "user" (text UserText) <|
  optional "userns_mode" string <|
  many "volumes" (distinctBy (EqualForm EqualShortVolume (EqualMount E)) (shortOrLong (text ShortVolumeText) mount)) <|
  many "volumes_from" (distinct (text VolumesFromText)) <|
  optional "working_dir" (valid AbsolutePath) <|
  extensions

/-- A Compose file. -/
noncomputable def compose (E : Env) : Schema (Record (Structs.compose E)) :=
  optional "version" string <|
  optional "name" (valid ProjectName) <|
  many "include" (items (shortOrLong string «include».Means)) <|
  required "services" (entries Identifier (service E).Means) <|
  many "networks" (entries Identifier (orNull (resourceMeans E.order (network E)))) <|
  many "volumes" (entries Identifier (orNull (resourceMeans E.order volume))) <|
  many "configs" (entries Identifier (resourceMeans E.order config)) <|
  many "secrets" (entries Identifier (resourceMeans E.order secret)) <|
  extensions

/-- A struct of the model and its table. -/
structure Described where
  fields : List Item
  schema : Schema (Record fields)

/-- The tables of all structs that a Compose file is made of. -/
noncomputable def describedParts (E : Env) : List Described :=
  [⟨Structs.ipamConfig E, ipamConfig E⟩,
    ⟨Structs.ipam E, ipam E⟩,
    ⟨Structs.network E, network E⟩,
    ⟨Structs.volume, volume⟩,
    ⟨Structs.config, config⟩,
    ⟨Structs.secret, secret⟩,
    ⟨Structs.«include», «include»⟩,
    ⟨Structs.bpsLimit, bpsLimit⟩,
    ⟨Structs.iopsLimit, iopsLimit⟩,
    ⟨Structs.weightDevice, weightDevice⟩,
    ⟨Structs.blkioConfig, blkioConfig⟩,
    ⟨Structs.configOrSecret, configOrSecret⟩,
    ⟨Structs.ulimit, ulimit⟩,
    ⟨Structs.build E, build E⟩,
    ⟨Structs.preference, preference⟩,
    ⟨Structs.placement, placement⟩,
    ⟨Structs.restartPolicy, restartPolicy⟩,
    ⟨Structs.updateOrRollbackConfig, updateOrRollbackConfig⟩,
    ⟨Structs.limits E, limits E⟩,
    ⟨Structs.discreteResourceSpec, discreteResourceSpec⟩,
    ⟨Structs.genericResource, genericResource⟩,
    ⟨Structs.resourceDevice, resourceDevice⟩,
    ⟨Structs.reservations E, reservations E⟩,
    ⟨Structs.resources E, resources E⟩,
    ⟨Structs.deploy E, deploy E⟩,
    ⟨Structs.watchRule, watchRule⟩,
    ⟨Structs.develop, develop⟩,
    ⟨Structs.envFileConfig, envFileConfig⟩,
    ⟨Structs.dependency, dependency⟩,
    ⟨Structs.extend, extend⟩,
    ⟨Structs.logging, logging⟩,
    ⟨Structs.port E, port E⟩,
    ⟨Structs.common, common⟩,
    ⟨Structs.volumeOptions, volumeOptions⟩,
    ⟨Structs.mountVolume, mountVolume⟩,
    ⟨Structs.bindOptions, bindOptions⟩,
    ⟨Structs.mountBind, mountBind⟩,
    ⟨Structs.tmpfsOptions, tmpfsOptions⟩,
    ⟨Structs.mountTmpfs, mountTmpfs⟩,
    ⟨Structs.mountNamedPipe, mountNamedPipe⟩,
    ⟨Structs.mountCluster, mountCluster⟩,
    ⟨Structs.serviceNetwork E, serviceNetwork E⟩,
    ⟨Structs.service E, service E⟩]

/-- The tables of all structs. -/
noncomputable def described (E : Env) : List Described := ⟨Structs.compose E, compose E⟩ :: describedParts E

end Spec.Schemas
