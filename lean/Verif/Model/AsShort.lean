import Verif.Model.Common
import Verif.Model.ByteValue
import Verif.Model.Mac
import Verif.Model.Ports
import Verif.Model.Exclusive
import Verif.Model.Cache
import Verif.Model.Build
import Verif.Model.Validate

/- Model of the conversions between short and long syntaxes: `compose_spec_macros/src/as_short.rs`, `src/include.rs`,
`src/service/ulimit.rs`, `src/service/config_or_secret.rs`, `src/service/build.rs`, `src/service.rs` (`depends_on`),
`src/service/network_config.rs` (`networks`) and `src/common/short_or_long.rs`. -/

namespace Compose
open Rust

/-! ### The derive macros -/

/-- A field not marked `#[as_short(short)]`, /repo/compose_spec_macros/src/as_short.rs:264-281: its type, the function that
says that it does not prevent the short syntax (`if_fn`, or `is_none`, `not` or `is_empty` according to the type, 107-122),
and the value it has in a struct made from the short syntax (`default_fn`, or `Default::default`, 168-175). -/
structure OtherField where
  Ty : Type
  ifFn : Ty → Bool
  default : Ty

/-- The values of these fields. -/
def Others : List OtherField → Type
  | [] => Unit
  | f :: fs => f.Ty × Others fs

/-- `#(#if_expressions)&&*`, /repo/compose_spec_macros/src/as_short.rs:136. -/
def Others.all : (fs : List OtherField) → Others fs → Bool
  | [], _ => true
  | f :: fs, (x, xs) => f.ifFn x && Others.all fs xs

/-- `#(#other_fields,)*`, /repo/compose_spec_macros/src/as_short.rs:183. -/
def Others.default : (fs : List OtherField) → Others fs
  | [] => ()
  | f :: fs => (f.default, Others.default fs)

/-- The derived `as_short`, /repo/compose_spec_macros/src/as_short.rs:131-143, of a struct with a short field and others. -/
def deriveAsShort {S : Type} (fs : List OtherField) (x : S × Others fs) : Option S :=
  if Others.all fs x.2 then some x.1 else none

/-- The derived `as_short` if the short field is an `Option`, /repo/compose_spec_macros/src/as_short.rs:125-143. -/
def deriveAsShortOptional {S : Type} (fs : List OtherField) (x : Option S × Others fs) : Option S :=
  if Others.all fs x.2 then x.1 else none

/-- The derived `From<Short>`, /repo/compose_spec_macros/src/as_short.rs:177-188. -/
def deriveFromShort {S : Type} (fs : List OtherField) (s : S) : S × Others fs := (s, Others.default fs)

/-- The derived `From<Short>` if the short field is an `Option`, /repo/compose_spec_macros/src/as_short.rs:162-188. -/
def deriveFromShortOptional {S : Type} (fs : List OtherField) (s : S) : Option S × Others fs := (some s, Others.default fs)

/-- A field of type `Option<T>`, /repo/compose_spec_macros/src/as_short.rs:112-113. -/
def OtherField.option (T : Type) : OtherField := ⟨Option T, Option.isNone, none⟩

/-- A field of type `bool`, /repo/compose_spec_macros/src/as_short.rs:114-115. -/
def OtherField.bool : OtherField := ⟨Bool, Bool.not, false⟩

/-- A list, set or map, /repo/compose_spec_macros/src/as_short.rs:116-118. -/
def OtherField.list (T : Type) : OtherField := ⟨List T, List.isEmpty, []⟩

/-- `ListOrMap::is_empty`, /repo/src/common.rs:159-164. -/
def ListOrMap.isEmpty : ListOrMap → Bool
  | .list l => List.isEmpty l
  | .map m => List.isEmpty m

/-- A `ListOrMap`: /repo/src/common.rs:159-164 and `Default`, 278-282. -/
def OtherField.listOrMap : OtherField := ⟨ListOrMap, ListOrMap.isEmpty, .list []⟩

/-- The fields of `Build` other than `context`, /repo/src/service/build.rs:30-197.  `Ip`, `Pf` and `Ul` stand for
`IpAddr`, `Platform` and the values of `Ulimits`, `Sec` for the items of `secrets`, `Net` for `Network`. -/
def buildOthers (Ip Pf Ul Sec Net : Type) : List OtherField :=
  [.option Dockerfile, .listOrMap, .list SshAuth, .list Cache, .list Cache, .list (Str × Context), .list Str,
    .list (Str × Ip), .option Str, .bool, .listOrMap, .bool, .bool, .option Net, .option ByteValue, .option Str, .list Sec,
    .list Image, .list (Str × Ul), .list Pf, .list (Str × Content)]

/-! ### Structs with a short syntax -/

/-- `Include`, /repo/src/include.rs:13-32. -/
structure Include where
  path : ItemOrList Str
  projectDirectory : Option Str
  envFile : Option (ItemOrList Str)
  deriving DecidableEq

/-- `AsShort for Include`, /repo/src/include.rs:34-50. -/
def Include.asShort (x : Include) : Option Str :=
  if x.projectDirectory.isNone && x.envFile.isNone then x.path.asItem else none

/-- `From<PathBuf> for Include`, /repo/src/include.rs:52-60. -/
def Include.fromShort (p : Str) : Include := ⟨.item p, none, none⟩

/-- `Ulimit`, /repo/src/service/ulimit.rs:80-92. -/
structure Ulimit where
  soft : Limit Nat
  hard : Limit Nat
  extensions : IndexMap Str Content

/-- `AsShort for Ulimit`, /repo/src/service/ulimit.rs:94-106. -/
def Ulimit.asShort (x : Ulimit) : Option (Limit Nat) :=
  if x.soft = x.hard && List.isEmpty x.extensions then some x.soft else none

/-- `From<Limit<u64>> for Ulimit`, /repo/src/service/ulimit.rs:114-122. -/
def Ulimit.fromShort (l : Limit Nat) : Ulimit := ⟨l, l, []⟩

/-- `AsShort for ConfigOrSecret` (derived), /repo/src/service/config_or_secret.rs:29-86. -/
def ConfigOrSecret.asShort {V : Type} (x : ConfigOrSecret V) : Option Str :=
  if x.target.isNone && x.uid.isNone && x.gid.isNone && x.mode.isNone && List.isEmpty x.extensions then some x.source
  else none

/-- `From<Identifier> for ConfigOrSecret` (derived), /repo/src/service/config_or_secret.rs:29-86. -/
def ConfigOrSecret.fromShort {V : Type} (s : Str) : ConfigOrSecret V := ⟨s, none, none, none, none, []⟩

/-- `AsShort for ShortRanges` (derived), /repo/src/service/ports.rs:408-416. -/
def ShortRanges.asShort (x : ShortRanges) : Option Range := if x.host.isNone then some x.container else none

/-! ### Maps whose keys are the short syntax -/

/-- `Condition`, /repo/src/service.rs:905-915. -/
inductive DependencyCondition
  | serviceStarted | serviceHealthy | serviceCompletedSuccessfully
  deriving DecidableEq, Repr

/-- `Dependency`, /repo/src/service.rs:880-897. -/
structure Dependency where
  condition : DependencyCondition
  restart : Bool
  required : Bool
  deriving DecidableEq, Repr

/-- `Default for Dependency`, /repo/src/service.rs:880-897: `required` is true, the others have their own defaults. -/
def Dependency.default : Dependency := ⟨.serviceStarted, false, true⟩

/-- `AsShortIter for IndexMap<Identifier, Dependency>`, /repo/src/service.rs:941-950: the keys. -/
def dependsOnShort (m : IndexMap Str Dependency) : Option (List Str) :=
  if m.all (fun e => e.2 = Dependency.default) then some (m.map (·.1)) else none

/-- `Network`, /repo/src/service/network_config.rs:368-428; `Ip4`, `Ip6` and `Ip` are the address types, `StringOrNumber`
the values of `driver_opts`. -/
structure NetworkAttachment (Ip4 Ip6 Ip : Type) where
  aliases : IndexSet Str
  ipv4Address : Option Ip4
  ipv6Address : Option Ip6
  linkLocalIps : IndexSet Ip
  macAddress : Option MacAddress
  driverOpts : IndexMap Str StringOrNumber
  priority : Option Nat
  extensions : IndexMap Str Content

/-- `Default for Network`, /repo/src/service/network_config.rs:368. -/
def NetworkAttachment.default {A B C : Type} : NetworkAttachment A B C := ⟨[], none, none, [], none, [], none, []⟩

/-- `Network::is_empty`, /repo/src/service/network_config.rs:433-454. -/
def NetworkAttachment.isEmpty {A B C : Type} (n : NetworkAttachment A B C) : Bool :=
  List.isEmpty n.aliases && n.ipv4Address.isNone && n.ipv6Address.isNone && List.isEmpty n.linkLocalIps &&
    n.macAddress.isNone && List.isEmpty n.driverOpts && n.priority.isNone && n.priority.isNone && List.isEmpty n.extensions

/-- `AsShortIter for IndexMap<Identifier, Option<Network>>`, /repo/src/service/network_config.rs:457-465: the keys. -/
def networksShort {A B C : Type} (m : IndexMap Str (Option (NetworkAttachment A B C))) : Option (List Str) :=
  if m.all (fun e => (e.2.map NetworkAttachment.isEmpty).getD true) then some (m.map (·.1)) else none

/-- `AsShortIter for ShortOrLong`, /repo/src/common/short_or_long.rs:173-187. -/
def ShortOrLong.asShortIter {L : Type} (f : L → Option (List Str)) : ShortOrLong (IndexSet Str) L → Option (List Str)
  | .short s => some s
  | .long l => f l

/-- `From<ShortOrLong<S, IndexMap<K, V>>> for IndexMap<K, V>`, /repo/src/common/short_or_long.rs:305-320: every key with
the default value. -/
def ShortOrLong.intoMap {V : Type} (default : V) : ShortOrLong (IndexSet Str) (IndexMap Str V) → IndexMap Str V
  | .short s => IndexMap.collect (s.map fun k => (k, default))
  | .long l => l

end Compose
