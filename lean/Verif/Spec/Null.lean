import Verif.Spec.Structs

/- Which settings of the structs are optional. -/

namespace Spec
open Rust Compose

/-- A struct with the keys that may be left out because there may be no such setting (the fields of a type `Option`, and
the keys of which one or none is given).  `durations` are those of them that are durations. -/
structure OptionalKeys where
  info : StructInfo
  optional : List String
  durations : List String

/-- The optional keys of the structs, in the order of `structs`, and which of them are durations. -/
def optionalKeys : List (List String × List String) :=
  [/- compose -/ (["version", "name"], []),
    /- ipamConfig -/ (["subnet", "ip_range", "gateway"], []),
    /- ipam -/ (["driver"], []),
    /- network -/ (["driver", "ipam", "name"], []),
    /- volume -/ (["driver", "name"], []),
    /- config -/ (["file", "environment", "content"], []),
    /- secret -/ (["file", "environment", "driver"], []),
    /- include -/ (["project_directory", "env_file"], []),
    /- bpsLimit -/ ([], []),
    /- iopsLimit -/ ([], []),
    /- weightDevice -/ ([], []),
    /- blkioConfig -/ (["weight"], []),
    /- configOrSecret -/ (["target", "uid", "gid", "mode"], []),
    /- ulimit -/ ([], []),
    /- build -/ (["context", "dockerfile", "dockerfile_inline", "isolation", "network", "shm_size", "target"], []),
    /- preference -/ (["spread"], []),
    /- placement -/ (["max_replicas_per_node"], []),
    /- restartPolicy -/ (["condition", "delay", "max_attempts", "window"], ["delay", "window"]),
    /- updateOrRollbackConfig -/ (["parallelism", "delay", "failure_action", "monitor", "max_failure_ratio", "order"],
      ["delay", "monitor"]),
    /- limits -/ (["cpus", "memory", "pids"], []),
    /- discreteResourceSpec -/ (["kind", "value"], []),
    /- genericResource -/ (["discrete_resource_spec"], []),
    /- resourceDevice -/ (["driver", "count"], []),
    /- reservations -/ (["cpus", "memory"], []),
    /- resources -/ (["limits", "reservations"], []),
    /- deploy -/ (["endpoint_mode", "mode", "placement", "replicas", "resources", "restart_policy", "rollback_config",
      "update_config"], []),
    /- watchRule -/ (["target"], []),
    /- develop -/ ([], []),
    /- envFileConfig -/ ([], []),
    /- dependency -/ ([], []),
    /- extend -/ (["file"], []),
    /- logging -/ (["driver"], []),
    /- port -/ (["name", "published", "host_ip", "protocol", "app_protocol", "mode"], []),
    /- common -/ (["consistency"], []),
    /- volumeOptions -/ (["subpath"], []),
    /- mountVolume -/ (["source", "volume"], []),
    /- bindOptions -/ (["propagation", "selinux"], []),
    /- mountBind -/ (["bind"], []),
    /- tmpfsOptions -/ (["size", "mode"], []),
    /- mountTmpfs -/ (["tmpfs"], []),
    /- mountNamedPipe -/ ([], []),
    /- mountCluster -/ ([], []),
    /- serviceNetwork -/ (["ipv4_address", "ipv6_address", "mac_address", "priority"], []),
    /- service -/ (["build", "blkio_config", "cpu_count", "cpu_percent", "cpu_shares", "cpu_period", "cpu_quota",
      "cpu_rt_runtime", "cpu_rt_period", "cpus", "cgroup", "cgroup_parent", "command", "container_name",
      "credential_spec", "deploy", "develop", "dns", "dns_search", "domainname", "entrypoint", "env_file", "extends",
      "healthcheck", "hostname", "image", "ipc", "uts", "isolation", "logging", "network_mode", "networks",
      "mac_address", "mem_limit", "mem_reservation", "mem_swappiness", "memswap_limit", "oom_score_adj", "pid",
      "pids_limit", "platform", "pull_policy", "restart", "runtime", "scale", "shm_size", "stop_grace_period",
      "stop_signal", "tmpfs", "user", "userns_mode", "working_dir"], ["cpu_rt_runtime", "cpu_rt_period",
      "stop_grace_period"])]

/-- Every struct with its optional keys. -/
noncomputable def optionals (E : Env) : List OptionalKeys :=
  ((structs E).zip optionalKeys).map fun (s, o, d) => ⟨s, o, d⟩

end Spec
