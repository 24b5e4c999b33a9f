import Verif.Model.Structs

/- The functions `is_empty` of the structs. -/

namespace Compose
open Rust Derive

namespace Structs

/-- `ListOrMap::is_empty`, /repo/src/common.rs:159-164. -/
def listOrMapIsEmpty : ListOrMap → Bool
  | .list l => l.isEmpty
  | .map m => m.isEmpty

/-- `!x.as_ref().is_some_and(|x| !x.is_empty())`, as in /repo/src/network.rs:139. -/
def noneOrEmpty {α : Type} (isEmpty : α → Bool) (x : Option α) : Bool := !(x.any fun x => !isEmpty x)

/-- `IpamConfig::is_empty`, /repo/src/network.rs:317-331. -/
def ipamConfigIsEmpty (E : Env) : Record (ipamConfig E) → Bool
  | ((subnet : Option E.ipNet.Ty), (ipRange : Option E.ipNet.Ty), (gateway : Option E.ip.Ty),
      (auxAddresses : IndexMap Str E.ip.Ty), (extensions : IndexMap Str Content), ()) =>
    subnet.isNone && ipRange.isNone && gateway.isNone && auxAddresses.isEmpty && extensions.isEmpty

/-- `Ipam::is_empty`, /repo/src/network.rs:270-282. -/
def ipamIsEmpty (E : Env) : Record (ipam E) → Bool
  | ((driver : Option Str), (config : List (Record (ipamConfig E))), (options : IndexMap Str Str),
      (extensions : IndexMap Str Content), ()) =>
    driver.isNone && config.all (ipamConfigIsEmpty E) && options.isEmpty && extensions.isEmpty

/-- `Network::is_empty`, /repo/src/network.rs:122-144. -/
def networkIsEmpty (E : Env) : Record (network E) → Bool
  | ((driver : Option Driver), (driverOpts : IndexMap Str StringOrNumber), (attachable : Bool), (enableIpv6 : Bool),
      (ipam' : Option (Record (ipam E))), (internal : Bool), (labels : ListOrMap), (name : Option Str),
      (extensions : IndexMap Str Content), ()) =>
    driver.isNone && driverOpts.isEmpty && !attachable && !enableIpv6 && noneOrEmpty (ipamIsEmpty E) ipam' && !internal &&
      listOrMapIsEmpty labels && name.isNone && extensions.isEmpty

/-- `Volume::is_empty`, /repo/src/volume.rs:70-84. -/
def volumeIsEmpty : Record volume → Bool
  | ((driver : Option Str), (driverOpts : IndexMap Str StringOrNumber), (labels : ListOrMap), (name : Option Str),
      (extensions : IndexMap Str Content), ()) =>
    driver.isNone && driverOpts.isEmpty && listOrMapIsEmpty labels && name.isNone && extensions.isEmpty

/-- `BlkioConfig::is_empty`, /repo/src/service/blkio_config.rs:59-75. -/
def blkioConfigIsEmpty : Record blkioConfig → Bool
  | ((deviceReadBps : List (Record bpsLimit)), (deviceReadIops : List (Record iopsLimit)),
      (deviceWriteBps : List (Record bpsLimit)), (deviceWriteIops : List (Record iopsLimit)), weight,
      (weightDevice' : List (Record weightDevice)), ()) =>
    deviceReadBps.isEmpty && deviceReadIops.isEmpty && deviceWriteBps.isEmpty && deviceWriteIops.isEmpty &&
      Option.isNone weight && weightDevice'.isEmpty

/-- `Preference::is_empty`, /repo/src/service/deploy.rs:270-274. -/
def preferenceIsEmpty : Record preference → Bool
  | ((spread : Option Str), (extensions : IndexMap Str Content), ()) => spread.isNone && extensions.isEmpty

/-- `Placement::is_empty`, /repo/src/service/deploy.rs:238-250. -/
def placementIsEmpty : Record placement → Bool
  | ((constraints : List Str), (preferences : List (Record preference)), (maxReplicasPerNode : Option Nat),
      (extensions : IndexMap Str Content), ()) =>
    constraints.isEmpty && preferences.all preferenceIsEmpty && maxReplicasPerNode.isNone && extensions.isEmpty

/-- `RestartPolicy::is_empty`, /repo/src/service/deploy.rs:322-336. -/
def restartPolicyIsEmpty : Record restartPolicy → Bool
  | ((condition : Option RestartCondition), (delay : Option Duration), (maxAttempts : Option Nat),
      (window : Option Duration), (extensions : IndexMap Str Content), ()) =>
    condition.isNone && delay.isNone && maxAttempts.isNone && window.isNone && extensions.isEmpty

/-- `UpdateOrRollbackConfig::is_empty`, /repo/src/service/deploy.rs:441-459. -/
def updateOrRollbackConfigIsEmpty : Record updateOrRollbackConfig → Bool
  | ((parallelism : Option Nat), (delay : Option Duration), (failureAction : Option FailureAction),
      (monitor : Option Duration), (maxFailureRatio : Option Nat), (order : Option Order),
      (extensions : IndexMap Str Content), ()) =>
    parallelism.isNone && delay.isNone && failureAction.isNone && monitor.isNone && maxFailureRatio.isNone &&
      order.isNone && extensions.isEmpty

/-- `Limits::is_empty`, /repo/src/service/deploy/resources.rs:120-129. -/
def limitsIsEmpty (E : Env) : Record (limits E) → Bool
  | (cpus, (memory : Option ByteValue), (pids : Option (Limit Nat)), (extensions : IndexMap Str Content), ()) =>
    Option.isNone cpus && memory.isNone && pids.isNone && extensions.isEmpty

/-- `DiscreteResourceSpec::is_empty`, /repo/src/service/deploy/resources.rs:668-676. -/
def discreteResourceSpecIsEmpty : Record discreteResourceSpec → Bool
  | ((kind : Option Str), (value : Option Nat), (extensions : IndexMap Str Content), ()) =>
    kind.isNone && value.isNone && extensions.isEmpty

/-- `GenericResource::is_empty`, /repo/src/service/deploy/resources.rs:634-644. -/
def genericResourceIsEmpty : Record genericResource → Bool
  | ((spec : Option (Record discreteResourceSpec)), (extensions : IndexMap Str Content), ()) =>
    noneOrEmpty discreteResourceSpecIsEmpty spec && extensions.isEmpty

/-- `resources::Device::is_empty`, /repo/src/service/deploy/resources.rs:398-414. -/
def resourceDeviceIsEmpty : Record resourceDevice → Bool
  | (capabilities, (driver : Option Str), count, (deviceIds : IndexSet Str), (options : ListOrMap),
      (extensions : IndexMap Str Content), ()) =>
    List.isEmpty capabilities && driver.isNone && Option.isNone count && deviceIds.isEmpty &&
      listOrMapIsEmpty options && extensions.isEmpty

/-- `Reservations::is_empty`, /repo/src/service/deploy/resources.rs:190-204. -/
def reservationsIsEmpty (E : Env) : Record (reservations E) → Bool
  | (cpus, (memory : Option ByteValue), (devices : List (Record resourceDevice)),
      (genericResources : List (Record genericResource)), (extensions : IndexMap Str Content), ()) =>
    Option.isNone cpus && memory.isNone && devices.all resourceDeviceIsEmpty &&
      genericResources.all genericResourceIsEmpty && extensions.isEmpty

/-- `Resources::is_empty`, /repo/src/service/deploy/resources.rs:72-84. -/
def resourcesIsEmpty (E : Env) : Record (resources E) → Bool
  | ((limits' : Option (Record (limits E))), (reservations' : Option (Record (reservations E))),
      (extensions : IndexMap Str Content), ()) =>
    noneOrEmpty (limitsIsEmpty E) limits' && noneOrEmpty (reservationsIsEmpty E) reservations' && extensions.isEmpty

/-- `Deploy::is_empty`, /repo/src/service/deploy.rs:115-149. -/
def deployIsEmpty (E : Env) : Record (deploy E) → Bool
  | (endpointMode, (labels : ListOrMap), (mode : Option DeployMode), (placement' : Option (Record placement)),
      (replicas : Option Nat), (resources' : Option (Record (resources E))),
      (restartPolicy' : Option (Record restartPolicy)), (rollbackConfig : Option (Record updateOrRollbackConfig)),
      (updateConfig : Option (Record updateOrRollbackConfig)), (extensions : IndexMap Str Content), ()) =>
    Option.isNone endpointMode && listOrMapIsEmpty labels && mode.isNone && noneOrEmpty placementIsEmpty placement' &&
      replicas.isNone && noneOrEmpty (resourcesIsEmpty E) resources' && noneOrEmpty restartPolicyIsEmpty restartPolicy' &&
      noneOrEmpty updateOrRollbackConfigIsEmpty rollbackConfig &&
      noneOrEmpty updateOrRollbackConfigIsEmpty updateConfig && extensions.isEmpty

/-- `Logging::is_empty`, /repo/src/service.rs:1277-1285. -/
def loggingIsEmpty : Record logging → Bool
  | ((driver : Option Str), options, (extensions : IndexMap Str Content), ()) =>
    driver.isNone && List.isEmpty options && extensions.isEmpty

/-- `Build::is_empty`, /repo/src/service/build.rs:202-250. -/
def buildIsEmpty (E : Env) : Record (build E) → Bool
  | (context, (dockerfile : Option Dockerfile), (args : ListOrMap), ssh, cacheFrom, cacheTo, additionalContexts,
      (entitlements : List Str), extraHosts, (isolation : Option Str), (privileged : Bool), (labels : ListOrMap),
      (noCache : Bool), (pull : Bool), network, (shmSize : Option ByteValue), (target : Option Str), secrets, tags,
      ulimits, platforms, (extensions : IndexMap Str Content), ()) =>
    Option.isNone context && dockerfile.isNone && listOrMapIsEmpty args && List.isEmpty ssh && List.isEmpty cacheFrom &&
      List.isEmpty cacheTo && List.isEmpty additionalContexts && entitlements.isEmpty && List.isEmpty extraHosts &&
      isolation.isNone && !privileged && listOrMapIsEmpty labels && !noCache && !pull && Option.isNone network &&
      shmSize.isNone && target.isNone && List.isEmpty secrets && List.isEmpty tags && List.isEmpty ulimits &&
      List.isEmpty platforms && extensions.isEmpty

/-- `network_config::Network::is_empty`, /repo/src/service/network_config.rs:433-454. -/
def serviceNetworkIsEmpty (E : Env) : Record (serviceNetwork E) → Bool
  | ((aliases : IndexSet Str), (ipv4Address : Option E.ip4.Ty), (ipv6Address : Option E.ip6.Ty),
      (linkLocalIps : IndexSet E.ip.Ty), macAddress, (driverOpts : IndexMap Str StringOrNumber),
      (priority : Option Nat), (extensions : IndexMap Str Content), ()) =>
    aliases.isEmpty && ipv4Address.isNone && ipv6Address.isNone && linkLocalIps.isEmpty && Option.isNone macAddress &&
      driverOpts.isEmpty && priority.isNone && priority.isNone && extensions.isEmpty

/-- `VolumeOptions::is_empty`, /repo/src/service/volumes/mount.rs:330-338. -/
def volumeOptionsIsEmpty : Record volumeOptions → Bool
  | ((nocopy : Bool), (subpath : Option Str), (extensions : IndexMap Str Content), ()) =>
    !nocopy && subpath.isNone && extensions.isEmpty

/-- `BindOptions::is_empty`, /repo/src/service/volumes/mount.rs:509-518. -/
def bindOptionsIsEmpty : Record bindOptions → Bool
  | ((propagation : Option BindPropagation), (createHostPath : Bool), selinux, (extensions : IndexMap Str Content), ()) =>
    propagation.isNone && !createHostPath && Option.isNone selinux && extensions.isEmpty

/-- `TmpfsOptions::is_empty`, /repo/src/service/volumes/mount.rs:681-689. -/
def tmpfsOptionsIsEmpty : Record tmpfsOptions → Bool
  | ((size : Option ByteValue), (mode : Option Nat), (extensions : IndexMap Str Content), ()) =>
    size.isNone && mode.isNone && extensions.isEmpty

end Structs

/-- `healthcheck::Command::is_empty`, /repo/src/service/healthcheck.rs:354-372. -/
def HealthCommand.isEmpty (c : HealthCommand) : Bool :=
  c.test.isNone && c.interval.isNone && c.timeout.isNone && c.retries.isNone && c.startPeriod.isNone &&
    c.startInterval.isNone && c.extensions.isEmpty

end Compose
