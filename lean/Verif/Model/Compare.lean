import Verif.Model.Ports
import Verif.Model.Image
import Verif.Model.Device
import Verif.Model.Numbers
import Verif.Model.Modes
import Verif.Model.User
import Verif.Model.Common
import Verif.Model.Validate

/-
Comparisons of values with plain numbers and texts, conversions to text other than `Display`, and the text of a
validation error.
-/

namespace Compose
open Rust

/-! ### Comparisons -/

/-- `PartialEq<u16> for Range`, /repo/src/service/ports.rs:695-699. -/
def Range.eqU16 (r : Range) (other : Nat) : Bool := r.end.isNone && r.start == other

/-- `PartialEq<RangeInclusive<u16>> for Range`, /repo/src/service/ports.rs:701-705; the inclusive range goes from `start`
to `stop`. -/
def Range.eqInclusive (r : Range) (start stop : Nat) : Bool := r.start == start && r.end.getD r.start == stop

/-- `TryFrom<RangeInclusive<u16>> for Range`, by `TryFrom<(u16, u16)>`, /repo/src/service/ports.rs:721-735. -/
def Range.ofInclusive (start stop : Nat) : Except RangeError Range := Range.new start (some stop)

/-- `PartialEq<u64> for Count`, /repo/src/service/deploy/resources.rs:537-544. -/
def Count.eqNat : Count → Nat → Bool
  | .all, _ => false
  | .integer count, other => count == other

/-- `PartialEq<u16> for MajorMinorNumber`, /repo/src/service/device.rs:380-387. -/
def MajorMinorNumber.eqNat : MajorMinorNumber → Nat → Bool
  | .all, _ => false
  | .integer num, other => num == other

/-- `PartialEq` and `Eq for Image`, /repo/src/service/image.rs:497-503: the texts are compared. -/
def Image.eq (a b : Image) : Bool := a.inner == b.inner

/-- `PartialEq<str> for Image`, /repo/src/service/image.rs:505-515. -/
def Image.eqStr (a : Image) (s : Str) : Bool := a.inner == s

/-- `Ord for str` (std), used by `Ord for Image`, /repo/src/service/image.rs:517-527.  The code compares the bytes; in
UTF-8 this is the order of the characters. -/
def compareStr : Str → Str → Ordering
  | [], [] => .eq
  | [], _ :: _ => .lt
  | _ :: _, [] => .gt
  | a :: s, b :: t => (compare a.toNat b.toNat).then (compareStr s t)

/-- `Ord for Image`, /repo/src/service/image.rs:523-527. -/
def Image.cmp (a b : Image) : Ordering := compareStr a.inner b.inner

/-- `Hash for Image`, /repo/src/service/image.rs:529-533; `hashStr` is the hash of a `str`. -/
def Image.hash {S : Type} (hashStr : Str → S → S) (a : Image) : S → S := hashStr a.inner

/-! ### Texts -/

/-- `From<Driver> for Cow<str>`, /repo/src/network.rs:206-214. -/
def Driver.intoCow : Driver → Str
  | .host => str!"host"
  | .none => str!"none"
  | .other text => text

/-- `From<Driver> for String`, /repo/src/network.rs:216-220. -/
def Driver.intoString (d : Driver) : Str := d.intoCow

/-- `From<NetworkMode> for String`, /repo/src/service/network_config.rs:346-354. -/
def NetworkMode.intoString (m : NetworkMode) : Str :=
  match m with
  | .other text => text
  | m => m.display

/-- `From<NetworkMode> for Cow<str>`, /repo/src/service/network_config.rs:356-364. -/
def NetworkMode.intoCow : NetworkMode → Str
  | .none => str!"none"
  | .host => str!"host"
  | value => value.display

/-- `From<EndpointMode> for String`, /repo/src/service/deploy/endpoint_mode.rs:97-104. -/
def EndpointMode.intoString (m : EndpointMode) : Str :=
  match m with
  | .vip | .dnsrr => m.asStr
  | .other string => string

/-- `From<EndpointMode> for Cow<str>`, /repo/src/service/deploy/endpoint_mode.rs:106-114. -/
def EndpointMode.intoCow : EndpointMode → Str
  | .vip => str!"vip"
  | .dnsrr => str!"dnsrr"
  | .other text => text

/-- `From<Capability> for String`, /repo/src/service/deploy/resources.rs:494-501. -/
def Capability.intoString (c : Capability) : Str :=
  match c with
  | .gpu | .tpu => c.asStr
  | .other text => text

/-- `From<Capability> for Cow<str>`, /repo/src/service/deploy/resources.rs:503-511. -/
def Capability.intoCow : Capability → Str
  | .gpu => str!"gpu"
  | .tpu => str!"tpu"
  | .other text => text

/-- `From<Protocol> for String`, /repo/src/service/ports.rs:949-956. -/
def Protocol.intoString (p : Protocol) : Str :=
  match p with
  | .tcp | .udp => p.asStr
  | .other text => text

/-- `From<Protocol> for Cow<str>`, /repo/src/service/ports.rs:958-966. -/
def Protocol.intoCow : Protocol → Str
  | .tcp => str!"tcp"
  | .udp => str!"udp"
  | .other text => text

/-- `From<Network> for Cow<str>` in a build, /repo/src/service/build/network.rs:92-99. -/
def BuildNetwork.intoCow : BuildNetwork → Str
  | .identifier network => network
  | .none => str!"none"

/-- `From<Network> for String` in a build, /repo/src/service/build/network.rs:101-105. -/
def BuildNetwork.intoString (n : BuildNetwork) : Str := n.intoCow

/-- build `Network::into_option`, /repo/src/service/build/network.rs:70-75. -/
def BuildNetwork.intoOption : BuildNetwork → Option Str
  | .identifier network => some network
  | .none => Option.none

/-- `From<IdOrName> for String`, /repo/src/service/user.rs:228-235. -/
def IdOrName.intoString : IdOrName → Str
  | .id n => showNat n
  | .name s => s

/-- `From<User> for String`, /repo/src/service/user.rs:132-140. -/
def User.intoString (u : User) : Str := if u.group.isSome then u.display else u.user.intoString

/-- `From<Value> for String`, /repo/src/common.rs:442-450. -/
def Value.intoString (ft : FloatText) (v : Value) : Str :=
  match v with
  | .string value => value
  | v => v.show ft

/-- `From<StringOrNumber> for String`, /repo/src/common.rs:872-879. -/
def StringOrNumber.intoString (ft : FloatText) : StringOrNumber → Str
  | .string value => value
  | .number value => value.show ft

/-- `From<Ipc> for String`, /repo/src/service.rs:1201-1209. -/
def Ipc.intoString (i : Ipc) : Str :=
  match i with
  | .other text => text
  | i => i.display

/-- `From<Ipc> for Cow<str>`, with `Ipc::is_shareable`, /repo/src/service.rs:1139-1141, 1211-1219. -/
def Ipc.intoCow (i : Ipc) : Str :=
  match i with
  | .shareable => str!"shareable"
  | i => i.display

/-- `From<VolumesFromSource> for String`, /repo/src/service.rs:1557-1564. -/
def VolumesFromSource.intoString (s : VolumesFromSource) : Str :=
  match s with
  | .service i => i
  | .container _ => s.display

/-- `From<VolumesFrom> for String`, /repo/src/service.rs:1500-1508. -/
def VolumesFrom.intoString (v : VolumesFrom) : Str := if v.readOnly then v.display else v.source.intoString

/-! ### Validation errors -/

/-- `ResourceKind::as_str`, /repo/src/lib.rs:428-435. -/
def ResourceKind.asStr : ResourceKind → Str
  | .network => str!"network"
  | .volume => str!"volume"
  | .config => str!"config"
  | .secret => str!"secret"

/-- The service in the text of a validation error, /repo/src/lib.rs:398-400. -/
def ValidationError.usedIn : Option Str → Str
  | some service => str!"(used in the `" ++ (service ++ str!"` service) ")
  | none => []

/-- The part of the text for volumes, /repo/src/lib.rs:402-404. -/
def ValidationError.across (kind : ResourceKind) : Str :=
  if kind = .volume then str!"is used across multiple services and " else []

/-- `Display for ValidationError`, /repo/src/lib.rs:388-408. -/
def ValidationError.display (e : ValidationError) : Str :=
  e.kind.asStr ++ (str!" `" ++ (e.resource ++ (str!"` " ++ (usedIn e.service ++ (across e.kind ++
    (str!"is not defined in the top-level `" ++ (e.kind.asStr ++ str!"s` field")))))))

end Compose
