import Verif.Model.Structs
import Verif.Model.Compare

/-
Model of the accessors that tell the variant of a value (`is_*`) and give its content (`as_*`, `into_*`). The methods that
`matches!` one variant and those that use `if let` are modelled by `match`.
-/

namespace Compose
open Rust

namespace NetworkMode

/-- `NetworkMode::is_none`, /repo/src/service/network_config.rs:254-256. -/
def isNone : NetworkMode → Bool
  | .none => true
  | _ => false

/-- `NetworkMode::is_host`, /repo/src/service/network_config.rs:262-264. -/
def isHost : NetworkMode → Bool
  | .host => true
  | _ => false

/-- `NetworkMode::is_service`, /repo/src/service/network_config.rs:270-272. -/
def isService : NetworkMode → Bool
  | .service _ => true
  | _ => false

/-- `NetworkMode::as_service`, /repo/src/service/network_config.rs:278-284. -/
def asService : NetworkMode → Option Str
  | .service v => some v
  | _ => Option.none

/-- `NetworkMode::is_container`, /repo/src/service/network_config.rs:290-292. -/
def isContainer : NetworkMode → Bool
  | .container _ => true
  | _ => false

/-- `NetworkMode::as_container`, /repo/src/service/network_config.rs:298-304. -/
def asContainer : NetworkMode → Option Str
  | .container v => some v
  | _ => Option.none

/-- `NetworkMode::is_other`, /repo/src/service/network_config.rs:310-312. -/
def isOther : NetworkMode → Bool
  | .other _ => true
  | _ => false

/-- `NetworkMode::as_other`, /repo/src/service/network_config.rs:318-324. -/
def asOther : NetworkMode → Option Str
  | .other v => some v
  | _ => Option.none

end NetworkMode

namespace Ipc

/-- `Ipc::is_shareable`, /repo/src/service.rs:1139-1141. -/
def isShareable : Ipc → Bool
  | .shareable => true
  | _ => false

/-- `Ipc::is_service`, /repo/src/service.rs:1147-1149. -/
def isService : Ipc → Bool
  | .service _ => true
  | _ => false

/-- `Ipc::as_service`, /repo/src/service.rs:1155-1161. -/
def asService : Ipc → Option Str
  | .service v => some v
  | _ => none

/-- `Ipc::is_other`, /repo/src/service.rs:1167-1169. -/
def isOther : Ipc → Bool
  | .other _ => true
  | _ => false

/-- `Ipc::as_other`, /repo/src/service.rs:1175-1181. -/
def asOther : Ipc → Option Str
  | .other v => some v
  | _ => none

end Ipc

/-- `EndpointMode::is_vip`, /repo/src/service/deploy/endpoint_mode.rs:58-60. -/
def EndpointMode.isVip : EndpointMode → Bool
  | .vip => true
  | _ => false

/-- `EndpointMode::is_dnsrr`, /repo/src/service/deploy/endpoint_mode.rs:66-68. -/
def EndpointMode.isDnsrr : EndpointMode → Bool
  | .dnsrr => true
  | _ => false

/-- `Capability::is_gpu`, /repo/src/service/deploy/resources.rs:455-457. -/
def Capability.isGpu : Capability → Bool
  | .gpu => true
  | _ => false

/-- `Capability::is_tpu`, /repo/src/service/deploy/resources.rs:463-465. -/
def Capability.isTpu : Capability → Bool
  | .tpu => true
  | _ => false

/-- `Protocol::is_tcp`, /repo/src/service/ports.rs:910-912. -/
def Protocol.isTcp : Protocol → Bool
  | .tcp => true
  | _ => false

/-- `Protocol::is_udp`, /repo/src/service/ports.rs:918-920. -/
def Protocol.isUdp : Protocol → Bool
  | .udp => true
  | _ => false

namespace IdOrName

/-- `IdOrName::is_id`, /repo/src/service/user.rs:174-176. -/
def isId : IdOrName → Bool
  | .id _ => true
  | _ => false

/-- `IdOrName::as_id`, /repo/src/service/user.rs:180-186. -/
def asId : IdOrName → Option Nat
  | .id v => some v
  | _ => none

/-- `IdOrName::is_name`, /repo/src/service/user.rs:190-192. -/
def isName : IdOrName → Bool
  | .name _ => true
  | _ => false

/-- `IdOrName::as_name`, /repo/src/service/user.rs:196-202. -/
def asName : IdOrName → Option Str
  | .name v => some v
  | _ => none

end IdOrName

namespace CacheType

/-- `CacheType::is_registry`, /repo/src/service/build/cache.rs:232-234. -/
def isRegistry : CacheType → Bool
  | .registry _ => true
  | _ => false

/-- `CacheType::as_registry`, /repo/src/service/build/cache.rs:240-246. -/
def asRegistry : CacheType → Option Image
  | .registry v => some v
  | _ => none

/-- `CacheType::is_other`, /repo/src/service/build/cache.rs:252-254. -/
def isOther : CacheType → Bool
  | .other _ => true
  | _ => false

/-- `CacheType::as_other`, /repo/src/service/build/cache.rs:260-266. -/
def asOther : CacheType → Option Str
  | .other v => some v
  | _ => none

end CacheType

/-- build `Network::is_none`, /repo/src/service/build/network.rs:61-63. -/
def BuildNetwork.isNone : BuildNetwork → Bool
  | .none => true
  | _ => false

/-- `Context::as_path`, /repo/src/service/build/context.rs:61-67. -/
def Context.asPath : Context → Option Str
  | .path v => some v
  | _ => none

/-- `SshAuth::as_id`, /repo/src/service/build/ssh_auth.rs:31-37. -/
def SshAuth.asId : SshAuth → Option SshId
  | .id v => some v
  | .default => none

/-- `SshAuth::id`, with `Id::id`, /repo/src/service/build/ssh_auth.rs:43-49, 127-129. -/
def SshAuth.idOf (a : SshAuth) : Option Str := a.asId.map (·.id)

/-- `SshAuth::path`, with `Id::path`, /repo/src/service/build/ssh_auth.rs:55-61, 133-135. -/
def SshAuth.pathOf (a : SshAuth) : Option Str := a.asId.map (·.path)

namespace Value

/-- `Value::is_string`, /repo/src/common.rs:319-321. -/
def isString : Value → Bool
  | .string _ => true
  | _ => false

/-- `Value::as_string`, /repo/src/common.rs:325-331. -/
def asString : Value → Option Str
  | .string v => some v
  | _ => none

/-- `Value::is_number`, /repo/src/common.rs:335-337. -/
def isNumber : Value → Bool
  | .number _ => true
  | _ => false

/-- `Value::as_number`, /repo/src/common.rs:341-347. -/
def asNumber : Value → Option Number
  | .number v => some v
  | _ => none

/-- `Value::is_bool`, /repo/src/common.rs:351-353. -/
def isBool : Value → Bool
  | .bool _ => true
  | _ => false

/-- `Value::as_bool`, /repo/src/common.rs:357-363. -/
def asBool : Value → Option Bool
  | .bool v => some v
  | _ => none

end Value

namespace Number

/-- `Number::is_unsigned_int`, /repo/src/common.rs:542-544. -/
def isUnsignedInt : Number → Bool
  | .unsignedInt _ => true
  | _ => false

/-- `Number::as_unsigned_int`, /repo/src/common.rs:550-556. -/
def asUnsignedInt : Number → Option Nat
  | .unsignedInt v => some v
  | _ => none

/-- `Number::is_signed_int`, /repo/src/common.rs:562-564. -/
def isSignedInt : Number → Bool
  | .signedInt _ => true
  | _ => false

/-- `Number::as_signed_int`, /repo/src/common.rs:570-576. -/
def asSignedInt : Number → Option Int
  | .signedInt v => some v
  | _ => none

/-- `Number::is_float`, /repo/src/common.rs:582-584. -/
def isFloat : Number → Bool
  | .float _ => true
  | _ => false

/-- `Number::as_float`, /repo/src/common.rs:590-596. -/
def asFloat : Number → Option F64
  | .float v => some v
  | _ => none

end Number

namespace StringOrNumber

/-- `StringOrNumber::is_string`, /repo/src/common.rs:773-775. -/
def isString : StringOrNumber → Bool
  | .string _ => true
  | _ => false

/-- `StringOrNumber::as_string`, /repo/src/common.rs:779-785. -/
def asString : StringOrNumber → Option Str
  | .string v => some v
  | _ => none

/-- `StringOrNumber::is_number`, /repo/src/common.rs:789-791. -/
def isNumber : StringOrNumber → Bool
  | .number _ => true
  | _ => false

/-- `StringOrNumber::as_number`, /repo/src/common.rs:795-801. -/
def asNumber : StringOrNumber → Option Number
  | .number v => some v
  | _ => none

end StringOrNumber

/-- `ListOrMap::as_list`, /repo/src/common.rs:168-174. -/
def ListOrMap.asList : ListOrMap → Option (IndexSet Str)
  | .list v => some v
  | .map _ => none

/-- `ListOrMap::as_map`, /repo/src/common.rs:178-184. -/
def ListOrMap.asMap : ListOrMap → Option OptionMap
  | .map v => some v
  | .list _ => none

namespace Resource
variable {T : Type}

/-- `Resource::is_external`, /repo/src/common.rs:926-928. -/
def isExternal : Resource T → Bool
  | .external _ => true
  | .compose _ => false

/-- `Resource::is_compose`, /repo/src/common.rs:934-936. -/
def isCompose : Resource T → Bool
  | .compose _ => true
  | .external _ => false

/-- `Resource::as_compose`, /repo/src/common.rs:941-947. -/
def asCompose : Resource T → Option T
  | .compose v => some v
  | .external _ => none

end Resource

namespace ShortOrLong
variable {S L : Type}

/-- `ShortOrLong::is_short`, /repo/src/common/short_or_long.rs:69-71. -/
def isShort : ShortOrLong S L → Bool
  | .short _ => true
  | .long _ => false

/-- `ShortOrLong::is_long`, /repo/src/common/short_or_long.rs:77-79. -/
def isLong : ShortOrLong S L → Bool
  | .long _ => true
  | .short _ => false

/-- `ShortOrLong::as_long`, /repo/src/common/short_or_long.rs:85-91. -/
def asLong : ShortOrLong S L → Option L
  | .long v => some v
  | .short _ => none

end ShortOrLong

/-- `TagOrDigest::into_tag`, /repo/src/service/image.rs:637-643. -/
def Image.TagOrDigest.intoTag : Image.TagOrDigest → Option Str
  | .tag t => some t
  | .digest _ => none

/-- `TagOrDigest::into_digest`, /repo/src/service/image.rs:647-653. -/
def Image.TagOrDigest.intoDigest : Image.TagOrDigest → Option Str
  | .digest d => some d
  | .tag _ => none

namespace Structs
open Derive

namespace MountOf

/-- `Mount::is_volume`, /repo/src/service/volumes/mount.rs:64-66. -/
def isVolume : MountOf → Bool
  | .volume _ => true
  | _ => false

/-- `Mount::as_volume`, /repo/src/service/volumes/mount.rs:72-78. -/
def asVolume : MountOf → Option (Record mountVolume)
  | .volume v => some v
  | _ => none

/-- `Mount::is_bind`, /repo/src/service/volumes/mount.rs:84-86. -/
def isBind : MountOf → Bool
  | .bind _ => true
  | _ => false

/-- `Mount::as_bind`, /repo/src/service/volumes/mount.rs:92-98. -/
def asBind : MountOf → Option (Record mountBind)
  | .bind v => some v
  | _ => none

/-- `Mount::is_tmpfs`, /repo/src/service/volumes/mount.rs:104-106. -/
def isTmpfs : MountOf → Bool
  | .tmpfs _ => true
  | _ => false

/-- `Mount::as_tmpfs`, /repo/src/service/volumes/mount.rs:112-118. -/
def asTmpfs : MountOf → Option (Record mountTmpfs)
  | .tmpfs v => some v
  | _ => none

/-- `Mount::is_named_pipe`, /repo/src/service/volumes/mount.rs:124-126. -/
def isNamedPipe : MountOf → Bool
  | .namedPipe _ => true
  | _ => false

/-- `Mount::as_named_pipe`, /repo/src/service/volumes/mount.rs:132-138. -/
def asNamedPipe : MountOf → Option (Record mountNamedPipe)
  | .namedPipe v => some v
  | _ => none

/-- `Mount::is_cluster`, /repo/src/service/volumes/mount.rs:144-146. -/
def isCluster : MountOf → Bool
  | .cluster _ => true
  | _ => false

/-- `Mount::as_cluster`, /repo/src/service/volumes/mount.rs:152-158. -/
def asCluster : MountOf → Option (Record mountCluster)
  | .cluster v => some v
  | _ => none

end MountOf

/-- `Resource::<Network>::name`, /repo/src/network.rs:24-29. -/
def networkName (E : Env) : Resource (Record (network E)) → Option Str
  | .external name => name
  | .compose (_, _, _, _, _, _, _, name, _) => name

/-- `Resource::<Volume>::name`, /repo/src/volume.rs:13-18. -/
def volumeName : Resource (Record volume) → Option Str
  | .external name => name
  | .compose (_, _, _, name, _) => name

end Structs
end Compose
