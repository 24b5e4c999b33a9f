import Verif.Spec.Derive
import Verif.Model.Structs
import Verif.Spec.Duration

/- What is assumed of other crates when whole structs are written and read. -/

namespace Spec
open Rust Compose

/-- The text of a value of another crate is read as that value. -/
def ReadsBack (t : TextType) : Prop := ∀ x, t.parse (t.show x) = some x

/-- What is assumed: addresses and networks are read back from their text; an IP address is written without `/` and `[`;
iterating over a `HashMap` gives every entry once. -/
class EnvOk (E : Env) : Prop where
  ip : ReadsBack E.ip
  ip4 : ReadsBack E.ip4
  ip6 : ReadsBack E.ip6
  ipNet : ReadsBack E.ipNet
  no_slash : ∀ a, '/' ∉ E.ip.show a
  no_bracket : ∀ a, '[' ∉ E.ip.show a
  order : ∀ m, (E.order m).Perm m

/-! ### The structs of the library -/

/-- What becomes of an entry whose key belongs to no field: it is ignored; it must be an extension; or it must be an
extension or belong to the fields that all mounts have. -/
inductive Rest
  | ignored
  | extensions
  | common
  deriving DecidableEq, Repr

/-- A struct: its fields in the model, the keys a user may give, those that must be given, those of which exactly one must
be given, what becomes of other keys, and whether it contains durations or ports somewhere. -/
structure StructInfo where
  fields : List Derive.Item
  keys : List String
  required : List String
  oneOf : List String
  rest : Rest
  timed : Bool

/-- The structs with derived `Serialize` and `Deserialize` that a Compose file is made of, in the order of
`Verif.Model.Structs`. -/
noncomputable def parts (E : Env) : List StructInfo :=
  [⟨Structs.ipamConfig E, ["subnet", "ip_range", "gateway", "aux_addresses"], [], [], .extensions, false⟩,
    ⟨Structs.ipam E, ["driver", "config", "options"], [], [], .extensions, false⟩,
    ⟨Structs.network E,
     ["driver", "driver_opts", "attachable", "enable_ipv6", "ipam", "internal", "labels", "name"],
      [], [], .extensions, false⟩,
    ⟨Structs.volume, ["driver", "driver_opts", "labels", "name"], [], [], .extensions, false⟩,
    ⟨Structs.config, ["file", "environment", "content", "labels"], [], ["file", "environment", "content"], .extensions, false⟩,
    ⟨Structs.secret, ["file", "environment", "labels", "driver", "driver_opts"], [], ["file", "environment"], .extensions, false⟩,
    ⟨Structs.«include», ["path", "project_directory", "env_file"], ["path"], [], .ignored, false⟩,
    ⟨Structs.bpsLimit, ["path", "rate"], ["path", "rate"], [], .ignored, false⟩,
    ⟨Structs.iopsLimit, ["path", "rate"], ["path", "rate"], [], .ignored, false⟩,
    ⟨Structs.weightDevice, ["path", "weight"], ["path", "weight"], [], .ignored, false⟩,
    ⟨Structs.blkioConfig,
     ["device_read_bps", "device_read_iops", "device_write_bps", "device_write_iops", "weight", "weight_device"],
      [], [], .ignored, false⟩,
    ⟨Structs.configOrSecret, ["source", "target", "uid", "gid", "mode"], ["source"], [], .extensions, false⟩,
    ⟨Structs.ulimit, ["soft", "hard"], ["soft", "hard"], [], .extensions, false⟩,
    ⟨Structs.build E,
     ["context", "dockerfile", "dockerfile_inline", "args", "ssh", "cache_from", "cache_to", "additional_contexts",
      "entitlements", "extra_hosts", "isolation", "privileged", "labels", "no_cache", "pull", "network", "shm_size",
      "target", "secrets", "tags", "ulimits", "platforms"],
      [], [], .extensions, false⟩,
    ⟨Structs.preference, ["spread"], [], [], .extensions, false⟩,
    ⟨Structs.placement, ["constraints", "preferences", "max_replicas_per_node"], [], [], .extensions, false⟩,
    ⟨Structs.restartPolicy, ["condition", "delay", "max_attempts", "window"], [], [], .extensions, true⟩,
    ⟨Structs.updateOrRollbackConfig,
     ["parallelism", "delay", "failure_action", "monitor", "max_failure_ratio", "order"],
      [], [], .extensions, true⟩,
    ⟨Structs.limits E, ["cpus", "memory", "pids"], [], [], .extensions, false⟩,
    ⟨Structs.discreteResourceSpec, ["kind", "value"], [], [], .extensions, false⟩,
    ⟨Structs.genericResource, ["discrete_resource_spec"], [], [], .extensions, false⟩,
    ⟨Structs.resourceDevice, ["capabilities", "driver", "count", "device_ids", "options"], ["capabilities"], [], .extensions, false⟩,
    ⟨Structs.reservations E, ["cpus", "memory", "devices", "generic_resources"], [], [], .extensions, false⟩,
    ⟨Structs.resources E, ["limits", "reservations"], [], [], .extensions, false⟩,
    ⟨Structs.deploy E,
     ["endpoint_mode", "labels", "mode", "placement", "replicas", "resources", "restart_policy", "rollback_config",
      "update_config"],
      [], [], .extensions, true⟩,
    ⟨Structs.watchRule, ["action", "ignore", "path", "target"], ["action", "path"], [], .extensions, false⟩,
    ⟨Structs.develop, ["watch"], [], [], .ignored, false⟩,
    ⟨Structs.envFileConfig, ["path", "required"], ["path"], [], .ignored, false⟩,
    ⟨Structs.dependency, ["condition", "restart", "required"], ["condition"], [], .ignored, false⟩,
    ⟨Structs.extend, ["service", "file"], ["service"], [], .ignored, false⟩,
    ⟨Structs.logging, ["driver", "options"], [], [], .extensions, false⟩,
    ⟨Structs.port E,
     ["name", "target", "published", "host_ip", "protocol", "app_protocol", "mode"],
      ["target"], [], .extensions, false⟩,
    ⟨Structs.common, ["target", "read_only", "consistency"], ["target"], [], .extensions, false⟩,
    ⟨Structs.volumeOptions, ["nocopy", "subpath"], [], [], .extensions, false⟩,
    ⟨Structs.mountVolume, ["source", "volume"], [], [], .common, false⟩,
    ⟨Structs.bindOptions, ["propagation", "create_host_path", "selinux"], [], [], .extensions, false⟩,
    ⟨Structs.mountBind, ["source", "bind"], ["source"], [], .common, false⟩,
    ⟨Structs.tmpfsOptions, ["size", "mode"], [], [], .extensions, false⟩,
    ⟨Structs.mountTmpfs, ["tmpfs"], [], [], .common, false⟩,
    ⟨Structs.mountNamedPipe, ["source"], ["source"], [], .common, false⟩,
    ⟨Structs.mountCluster, ["source"], ["source"], [], .common, false⟩,
    ⟨Structs.serviceNetwork E,
     ["aliases", "ipv4_address", "ipv6_address", "link_local_ips", "mac_address", "driver_opts", "priority"],
      [], [], .extensions, false⟩,
    ⟨Structs.service E,
     ["attach", "build", "blkio_config", "cpu_count", "cpu_percent", "cpu_shares", "cpu_period", "cpu_quota",
      "cpu_rt_runtime", "cpu_rt_period", "cpus", "cpuset", "cap_add", "cap_drop", "cgroup", "cgroup_parent",
      "command", "configs", "container_name", "credential_spec", "depends_on", "deploy", "develop",
      "device_cgroup_rules", "devices", "dns", "dns_opt", "dns_search", "domainname", "entrypoint", "env_file",
      "environment", "expose", "extends", "annotations", "external_links", "extra_hosts", "group_add", "healthcheck",
      "hostname", "image", "init", "ipc", "uts", "isolation", "labels", "links", "logging", "network_mode",
      "networks", "mac_address", "mem_limit", "mem_reservation", "mem_swappiness", "memswap_limit",
      "oom_kill_disable", "oom_score_adj", "pid", "pids_limit", "platform", "ports", "privileged", "profiles",
      "pull_policy", "read_only", "restart", "runtime", "scale", "secrets", "security_opt", "shm_size", "stdin_open",
      "stop_grace_period", "stop_signal", "storage_opt", "sysctls", "tmpfs", "tty", "ulimits", "user", "userns_mode",
      "volumes", "volumes_from", "working_dir"],
      [], [], .extensions, true⟩]

/-- A Compose file. -/
noncomputable def file (E : Env) : StructInfo :=
  ⟨Structs.compose E, ["version", "name", "include", "services", "networks", "volumes", "configs", "secrets"],
    ["services"], [], .extensions, true⟩

/-- All structs with derived `Serialize` and `Deserialize`. -/
noncomputable def structs (E : Env) : List StructInfo := file E :: parts E

/-- The keys as lists of characters. -/
def StructInfo.keyTexts (s : StructInfo) : List Str := s.keys.map String.toList

/-- The keys of the fields that all mounts have. -/
def commonTexts : List Str := ["target", "read_only", "consistency"].map String.toList

/-- The keys that belong to no field and are still allowed. -/
def RestKey : Rest → Str → Prop
  | .ignored, _ => False
  | .extensions, k => ExtensionKey k
  | .common, k => k ∈ commonTexts ∨ ExtensionKey k

/-- A mount: the struct named by the tag, which stands for the other entries. -/
inductive MountText : Str → List (Str × Content) → Structs.MountOf → Prop
  | volume {es r} : StandsFor (["source", "volume"].map String.toList) es Structs.mountVolume r →
      MountText "volume".toList es (.volume r)
  | bind {es r} : StandsFor (["source", "bind"].map String.toList) es Structs.mountBind r →
      MountText "bind".toList es (.bind r)
  | tmpfs {es r} : StandsFor (["tmpfs"].map String.toList) es Structs.mountTmpfs r →
      MountText "tmpfs".toList es (.tmpfs r)
  | namedPipe {es r} : StandsFor (["source"].map String.toList) es Structs.mountNamedPipe r →
      MountText "npipe".toList es (.namedPipe r)
  | cluster {es r} : StandsFor (["source"].map String.toList) es Structs.mountCluster r →
      MountText "cluster".toList es (.cluster r)

/-- Values of a flattened field that are equal, or equal up to the order of extensions. -/
inductive SameFlat : {α : Type} → α → α → Prop
  | refl {α : Type} (x : α) : SameFlat x x
  | extensions {m m' : IndexMap Str Content} : m.Perm m' → SameFlat m m'
  | common {target : Str} {readOnly : Bool} {consistency : Option Str} {m m' : IndexMap Str Content} : m.Perm m' →
      @SameFlat (Derive.Record Structs.common) (target, readOnly, consistency, m, ()) (target, readOnly, consistency, m', ())

/-- Structs whose fields are equal up to the order of extensions. -/
def SameRecord : (is : List Derive.Item) → Derive.Record is → Derive.Record is → Prop
  | [], _, _ => True
  | .field _ :: is, (x, r), (y, s) => x = y ∧ SameRecord is r s
  | .flat _ :: is, (x, r), (y, s) => SameFlat x y ∧ SameRecord is r s

/-- Mounts of the same type whose fields are equal up to the order of extensions. -/
inductive SameMount : Structs.MountOf → Structs.MountOf → Prop
  | volume {r r'} : SameRecord Structs.mountVolume r r' → SameMount (.volume r) (.volume r')
  | bind {r r'} : SameRecord Structs.mountBind r r' → SameMount (.bind r) (.bind r')
  | tmpfs {r r'} : SameRecord Structs.mountTmpfs r r' → SameMount (.tmpfs r) (.tmpfs r')
  | namedPipe {r r'} : SameRecord Structs.mountNamedPipe r r' → SameMount (.namedPipe r) (.namedPipe r')
  | cluster {r r'} : SameRecord Structs.mountCluster r r' → SameMount (.cluster r) (.cluster r')

/-! ### Compose files that are the same up to the order of extensions -/

/-- The values under the same keys, in the same order, correspond to each other. -/
def SameValues {α : Type} (R : α → α → Prop) (m m' : List (Str × α)) : Prop :=
  List.Forall₂ (fun e e' => e.1 = e'.1 ∧ R e.2 e'.2) m m'

/-- Both are `None`, or both values correspond to each other. -/
inductive SameOption {α : Type} (R : α → α → Prop) : Option α → Option α → Prop
  | none : SameOption R none none
  | some {x y : α} : R x y → SameOption R (some x) (some y)

/-- Both are the same external resource, or the values correspond to each other. -/
inductive SameResource {α : Type} (R : α → α → Prop) : Resource α → Resource α → Prop
  | external (name : Option Str) : SameResource R (.external name) (.external name)
  | compose {r r' : α} : R r r' → SameResource R (.compose r) (.compose r')

/-- Compose files that are equal except for corresponding structs inside top-level networks, volumes, configs and
secrets. -/
def SameFile (R : (is : List Derive.Item) → Derive.Record is → Derive.Record is → Prop) (E : Env) :
    Derive.Record (Structs.compose E) → Derive.Record (Structs.compose E) → Prop
  | (version, name, inc, services, networks, volumes, configs, secrets, extensions, _),
    (version', name', inc', services', networks', volumes', configs', secrets', extensions', _) =>
    version = version' ∧ name = name' ∧ inc = inc' ∧ services = services' ∧
    SameValues (SameOption (SameResource (R (Structs.network E)))) networks networks' ∧
    SameValues (SameOption (SameResource (R Structs.volume))) volumes volumes' ∧
    SameValues (SameResource (R Structs.config)) configs configs' ∧
    SameValues (SameResource (R Structs.secret)) secrets secrets' ∧ extensions = extensions'

/-- Compose files that differ at most in the order of the extensions inside top-level networks, volumes, configs and
secrets. -/
def SameCompose (E : Env) : Derive.Record (Structs.compose E) → Derive.Record (Structs.compose E) → Prop :=
  SameFile SameRecord E

/-! ### Strings in a file -/

/-- A string occurs as a value in a file. -/
inductive Occurs (s : Str) : Content → Prop
  | here : Occurs s (.str s)
  | item {v : Content} {vs : List Content} : v ∈ vs → Occurs s v → Occurs s (.seq vs)
  | value {k v : Content} {es : List (Content × Content)} : (k, v) ∈ es → Occurs s v → Occurs s (.map es)

/-- A text that contains a number of 2^64 or more. -/
def HasHugeNumber (s : Str) : Prop := ∃ a ds b, s = a ++ ds ++ b ∧ IsNumber ds ∧ 2 ^ 64 ≤ decimal ds

/-- A text that contains a pair of port ranges, one of which is reversed or has all ports. -/
def HasUnsizableRanges (s : Str) : Prop := ∃ a ranges b, s = a ++ ranges ++ b ∧ UnsizableRanges ranges

end Spec
