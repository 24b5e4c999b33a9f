import Verif.Model.Keys

/-
Model of `Link`, `Ipc`, `VolumesFrom`, `VolumesFromSource` (`src/service.rs`), `NetworkMode`
(`src/service/network_config.rs`), `EndpointMode` (`src/service/deploy/endpoint_mode.rs`), `Capability`
(`src/service/deploy/resources.rs`) and network `Driver` (`src/network.rs`).

`Identifier` values are represented by their text.  `FromStr`, `TryFrom<&str>`, `TryFrom<String>` all call `parse`
(macro `impl_from_str`, /repo/src/lib.rs:495-528).
-/

namespace Compose
open Rust

/-- `Link`, /repo/src/service.rs:986-992. -/
structure Link where
  service : Str
  alias : Option Str
  deriving DecidableEq, Repr

/-- `Link::parse`, /repo/src/service.rs:1000-1015, and `From<Identifier>`, 1019-1026. -/
def Link.parse (link : Str) : Except IdentifierError Link :=
  match splitOnce ':' link with
  | some (service, alias) =>
    match identifierNew service with
    | .error e => .error e
    | .ok service => .ok ⟨service, some alias⟩
  | none =>
    match identifierNew link with
    | .error e => .error e
    | .ok service => .ok ⟨service, none⟩

/-- `Display for Link`, /repo/src/service.rs:1029-1043. -/
def Link.display (l : Link) : Str :=
  l.service ++ match l.alias with
    | some alias => ':' :: alias
    | none => []

/-- `From<Link> for String`, /repo/src/service.rs:1045-1054. -/
def Link.intoString (l : Link) : Str := if l.alias.isNone then l.service else l.display

/-- `Ipc`, /repo/src/service.rs:1099-1107. -/
inductive Ipc
  | shareable | service (i : Str) | other (s : Str)
  deriving DecidableEq, Repr

/-- `Ipc::parse`, /repo/src/service.rs:1122-1133. -/
def Ipc.parse (s : Str) : Except IdentifierError Ipc :=
  if s = str!"shareable" then .ok .shareable
  else match stripPrefix str!"service:" s with
    | some id => (identifierNew id).map .service
    | none => .ok (.other s)

/-- `Display for Ipc`, /repo/src/service.rs:1191-1199. -/
def Ipc.display : Ipc → Str
  | .shareable => str!"shareable"
  | .service i => str!"service:" ++ i
  | .other s => s

/-- `NetworkMode`, /repo/src/service/network_config.rs:196-211. -/
inductive NetworkMode
  | none | host | service (i : Str) | container (i : Str) | other (s : Str)
  deriving DecidableEq, Repr

/-- `NetworkMode::parse`, /repo/src/service/network_config.rs:231-248. -/
def NetworkMode.parse (s : Str) : Except IdentifierError NetworkMode :=
  if s = str!"none" then .ok .none
  else if s = str!"host" then .ok .host
  else match stripPrefix str!"service:" s with
    | some id => (identifierNew id).map .service
    | Option.none =>
      match stripPrefix str!"container:" s with
      | some id => (identifierNew id).map .container
      | Option.none => .ok (.other s)

/-- `Display for NetworkMode`, /repo/src/service/network_config.rs:334-344. -/
def NetworkMode.display : NetworkMode → Str
  | .none => str!"none"
  | .host => str!"host"
  | .service i => str!"service:" ++ i
  | .container i => str!"container:" ++ i
  | .other s => s

/-- `EndpointMode`, /repo/src/service/deploy/endpoint_mode.rs:19-33. -/
inductive EndpointMode
  | vip | dnsrr | other (s : Str)
  deriving DecidableEq, Repr

/-- `EndpointMode::parse`, /repo/src/service/deploy/endpoint_mode.rs:43-52. -/
def EndpointMode.parse (s : Str) : EndpointMode :=
  if s = str!"vip" then .vip
  else if s = str!"dnsrr" then .dnsrr
  else .other s

/-- `EndpointMode::as_str`, /repo/src/service/deploy/endpoint_mode.rs:74-80. -/
def EndpointMode.asStr : EndpointMode → Str
  | .vip => str!"vip"
  | .dnsrr => str!"dnsrr"
  | .other s => s

/-- `Capability`, /repo/src/service/deploy/resources.rs:421-430. -/
inductive Capability
  | gpu | tpu | other (s : Str)
  deriving DecidableEq, Repr

/-- `Capability::parse`, /repo/src/service/deploy/resources.rs:440-449. -/
def Capability.parse (s : Str) : Capability :=
  if s = str!"gpu" then .gpu
  else if s = str!"tpu" then .tpu
  else .other s

/-- `Capability::as_str`, /repo/src/service/deploy/resources.rs:471-477. -/
def Capability.asStr : Capability → Str
  | .gpu => str!"gpu"
  | .tpu => str!"tpu"
  | .other s => s

/-- network `Driver`, /repo/src/network.rs:153-160. -/
inductive Driver
  | host | none | other (s : Str)
  deriving DecidableEq, Repr

/-- `Driver::parse`, /repo/src/network.rs:170-179. -/
def Driver.parse (s : Str) : Driver :=
  if s = str!"host" then .host
  else if s = str!"none" then .none
  else .other s

/-- `Driver::as_str`, /repo/src/network.rs:183-189. -/
def Driver.asStr : Driver → Str
  | .host => str!"host"
  | .none => str!"none"
  | .other s => s

/-- `VolumesFromSource`, /repo/src/service.rs:1516-1521. -/
inductive VolumesFromSource
  | service (i : Str) | container (i : Str)
  deriving DecidableEq, Repr

/-- `VolumesFromSource::parse`, /repo/src/service.rs:1532-1543. -/
def VolumesFromSource.parse (s : Str) : Except IdentifierError VolumesFromSource :=
  match stripPrefix str!"container:" s with
  | some id => (identifierNew id).map .container
  | none => (identifierNew s).map .service

/-- `Display for VolumesFromSource`, /repo/src/service.rs:1548-1555. -/
def VolumesFromSource.display : VolumesFromSource → Str
  | .service i => i
  | .container i => str!"container:" ++ i

/-- `VolumesFrom`, /repo/src/service.rs:1433-1438. -/
structure VolumesFrom where
  source : VolumesFromSource
  readOnly : Bool
  deriving DecidableEq, Repr

/-- `VolumesFrom::parse`, /repo/src/service.rs:1449-1472. -/
def VolumesFrom.parse (s : Str) : Except IdentifierError VolumesFrom :=
  match stripSuffix str!":ro" s with
  | some source => (VolumesFromSource.parse source).map (⟨·, true⟩)
  | none =>
    match stripSuffix str!":rw" s with
    | some source => (VolumesFromSource.parse source).map (⟨·, false⟩)
    | none => (VolumesFromSource.parse s).map (⟨·, false⟩)

/-- `Display for VolumesFrom`, /repo/src/service.rs:1477-1489. -/
def VolumesFrom.display (v : VolumesFrom) : Str :=
  v.source.display ++ if v.readOnly then str!":ro" else []

end Compose
