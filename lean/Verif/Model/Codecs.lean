import Verif.Model.Derive
import Verif.Model.Exclusive
import Verif.Model.Build
import Verif.Model.Cache
import Verif.Model.CpuSet
import Verif.Model.Device
import Verif.Model.Mac
import Verif.Model.Numbers
import Verif.Model.Platform
import Verif.Model.User
import Verif.Model.Volumes
import Verif.Model.AsShort
import Verif.Spec.Cache
import Verif.Spec.Common
import Verif.Spec.CpuSet
import Verif.Spec.Device
import Verif.Spec.Keys
import Verif.Spec.Mac
import Verif.Spec.Platform
import Verif.Spec.Ports
import Verif.Spec.User
import Verif.Spec.Volumes

/- How the types of the fields are written and read: the collections, and the types modelled in the other files.  The last
component of a codec, `valid`, says for which values the properties claim that reading gives back what was written. -/

namespace Compose
open Rust

/-- A type of another crate that is written and read as text. -/
structure TextType where
  Ty : Type
  eq : DecidableEq Ty
  parse : Str → Option Ty
  «show» : Ty → Str

attribute [instance] TextType.eq

/-- What is taken from other crates: IP addresses and networks (std, `ipnet`), the text of floating point numbers, URLs, and
the order in which a `HashMap` gives its entries, and `==` of the values of extensions (`serde_yaml::Value`). -/
structure Env where
  ip : TextType
  ip4 : TextType
  ip6 : TextType
  ipNet : TextType
  float : FloatText
  url : Str → Option Url
  order : IndexMap Str Content → List (Str × Content)
  valueEq : Content → Content → Bool

/-- The keys of a mapping that are read as a validated string. -/
structure Key where
  parse : Str → Option Str
  valid : Str → Prop

namespace Codecs

/-! ### Collections -/

/-- `Option<T>`: null is `None`. -/
def option {α : Type} (c : Codec α) : Codec (Option α) where
  ser
    | none => .unit
    | some x => c.ser x
  de
    | .unit => .ok none
    | v => (c.de v).map some
  valid o := ∀ x, o = some x → c.valid x

/-- Read the items of a sequence: stop at the first that cannot be read. -/
def readAll {α : Type} (de : Content → Outcome Unit α) : List Content → Outcome Unit (List α)
  | [] => .ok []
  | v :: vs => (de v).bind fun x => (readAll de vs).map fun xs => x :: xs

/-- `Vec<T>`. -/
def list {α : Type} (c : Codec α) : Codec (List α) where
  ser l := .seq (l.map c.ser)
  de
    | .seq vs => readAll c.de vs
    | _ => .err ()
  valid l := ∀ x ∈ l, c.valid x

/-- `IndexSet<T>`; the items are compared with the `==` of `T`. -/
def set {α : Type} [RustEq α] (c : Codec α) : Codec (IndexSet α) where
  ser l := .seq (l.map c.ser)
  de
    | .seq vs => (readAll c.de vs).map IndexSet.collectNew
    | _ => .err ()
  valid l := IndexSet.Fresh l ∧ ∀ x ∈ l, c.valid x

/-- Read the entries of a mapping. -/
def readEntries {α : Type} (key : Str → Option Str) (de : Content → Outcome Unit α) :
    List (Str × Content) → Outcome Unit (List (Str × α))
  | [] => .ok []
  | (k, v) :: es => (Outcome.ofOption (key k)).bind fun k => (de v).bind fun x => (readEntries key de es).map fun r => (k, x) :: r

/-- `IndexMap<K, T>`: the last value of a repeated key stays. -/
def map {α : Type} (key : Key) (c : Codec α) : Codec (IndexMap Str α) where
  ser m := Derive.mapping (m.map fun e => (e.1, c.ser e.2))
  de v := ((Outcome.ofOption (entriesOf v)).bind (readEntries key.parse c.de)).map IndexMap.collect
  valid m := (m.map (·.1)).Nodup ∧ ∀ e ∈ m, key.valid e.1 ∧ c.valid e.2

/-- `ShortOrLong`, /repo/src/common/short_or_long.rs:45-53 and 322-489: a mapping is the long syntax, everything else the
short syntax. -/
def shortOrLong {S L : Type} (s : Codec S) (l : Codec L) : Codec (ShortOrLong S L) where
  ser
    | .short x => s.ser x
    | .long x => l.ser x
  de
    | .map es => (l.de (.map es)).map .long
    | v => (s.de v).map .short
  valid
    | .short x => s.valid x
    | .long x => l.valid x

/-- `ItemOrList`, /repo/src/common.rs:47-57 and 112-119, with the visitor /repo/src/serde.rs:328-420. -/
def itemOrList {α : Type} [RustEq α] (c : Codec α) : Codec (ItemOrList α) where
  ser
    | .item x => c.ser x
    | .list l => .seq (l.map c.ser)
  de
    | .seq vs => (readAll c.de vs).map fun l => .list (IndexSet.collectNew l)
    | .map _ => .err ()
    | .unit => .err ()
    | v => (c.de v).map .item
  valid
    | .item x => c.valid x
    | .list l => IndexSet.Fresh l ∧ ∀ x ∈ l, c.valid x

/-! ### Scalars -/

/-- A type that is written with `Display` and read from a string (`SerializeDisplay`, `DeserializeFromStr`,
`DeserializeTryFromString`, /repo/compose_spec_macros/src/serde.rs:37-107). -/
def text {α : Type} (parse : Str → Option α) («show» : α → Str) (valid : α → Prop) : Codec α where
  ser x := .str («show» x)
  de
    | .str s => Outcome.ofOption (parse s)
    | _ => .err ()
  valid := valid

/-- A type that is written and read by functions that do not panic. -/
def plain {α : Type} (ser : α → Content) (de : Content → Option α) (valid : α → Prop) : Codec α :=
  ⟨ser, fun c => Outcome.ofOption (de c), valid⟩

/-- `String`, and `PathBuf` whose paths are modelled by their text. -/
def str : Codec Str := text some id fun _ => True

/-- `bool`. -/
def bool : Codec Bool := plain .bool deBool fun _ => True

/-- An unsigned integer type with the given greatest value. -/
def unsigned (max : Nat) : Codec Nat := plain .u64 (deUnsigned max) (· ≤ max)

/-- `u16`. -/
def u16 : Codec Nat := unsigned u16Max

/-- `u32`. -/
def u32 : Codec Nat := unsigned u32Max

/-- `u64`. -/
def u64 : Codec Nat := unsigned u64Max

/-- An enum whose variants are written as words; `words` are all words that are read, with their variants. -/
def keyword {α : Type} (write : α → Str) (words : List (Str × α)) : Codec α :=
  text (fun s => words.lookup s) write fun _ => True

/-- An address or network (std, `ipnet`). -/
def foreign (t : TextType) : Codec t.Ty := text t.parse t.show fun _ => True

/-- `Identifier`, /repo/src/common/keys.rs:12-15. -/
def identifier : Codec Str := text (fun s => (identifierNew s).toOption) id Spec.Identifier

/-- `Hostname`, /repo/src/service/hostname.rs:13-16. -/
def hostname : Codec Str := text (fun s => (hostnameNew s).toOption) id Spec.Hostname

/-- `Name`, /repo/src/name.rs:17-20. -/
def projectName : Codec Str := text (fun s => (projectNameNew s).toOption) id Spec.ProjectName

/-- `AbsolutePath`, /repo/src/service/volumes.rs:294-298. -/
def absolutePath : Codec Str := text (fun s => (absolutePathNew s).toOption) id Spec.AbsolutePath

/-- `HostPath`, /repo/src/service/volumes.rs:586-590. -/
def hostPath : Codec Str := text (fun s => (hostPathNew s).toOption) id Spec.HostPath

/-- Keys that are an `Identifier`. -/
def identifierKey : Key := ⟨fun s => (identifierNew s).toOption, Spec.Identifier⟩

/-- Keys that are a `MapKey`. -/
def mapKey : Key := ⟨fun s => (mapKeyNew s).toOption, Spec.MapKey⟩

/-- Keys that are a `Hostname`. -/
def hostnameKey : Key := ⟨fun s => (hostnameNew s).toOption, Spec.Hostname⟩

/-- Keys that are a `ulimit::Resource`, /repo/src/service/ulimit.rs:26-29. -/
def ulimitKey : Key := ⟨fun s => (ulimitResourceNew s).toOption, Spec.UlimitResource⟩

/-- `Percent`, /repo/src/service.rs:741-743. -/
def percent : Codec Percent := plain Percent.serialize Percent.deserialize fun p => p.val ≤ 100

/-- `OomScoreAdj`, /repo/src/service.rs:1294-1296. -/
def oomScoreAdj : Codec OomScoreAdj :=
  plain OomScoreAdj.serialize OomScoreAdj.deserialize fun v => -1000 ≤ v.val ∧ v.val ≤ 1000

/-- `Weight`, /repo/src/service/blkio_config.rs:118-120. -/
def weight : Codec Weight := plain Weight.serialize Weight.deserialize fun w => 10 ≤ w.val ∧ w.val ≤ 1000

/-- `Cpus`, /repo/src/service/deploy/resources.rs:212-214. -/
def cpus (E : Env) : Codec Cpus :=
  plain Cpus.serialize (Cpus.deserialize E.float.parse) fun c => c.val.isSignPositive = true ∧ c.val.isFinite = true

/-- `duration_option`: whole microseconds are kept. -/
def duration : Codec (Option Duration) where
  ser := serializeDuration
  de := deserializeDuration
  valid o := ∀ d, o = some d → d.secs < 2 ^ 64 ∧ d.nanos < 10 ^ 9 ∧ d.nanos % 1000 = 0

/-- `duration_us_option`: whole microseconds whose number has 64 bits are kept. -/
def durationUs : Codec (Option Duration) :=
  plain serializeDurationUs deserializeDurationUs fun o =>
    ∀ d, o = some d → d.asMicros < 2 ^ 64 ∧ d.nanos < 10 ^ 9 ∧ d.nanos % 1000 = 0

/-- `ByteValue`, /repo/src/service/byte_value.rs:25-26 and 145-169. -/
def byteValue : Codec ByteValue := plain (fun b => .str b.toStr) ByteValue.deserialize fun b => b.amount < 2 ^ 64

/-- `Limit<ByteValue>`. -/
def byteLimit : Codec (Limit ByteValue) :=
  plain (Limit.serialize fun b => .str b.toStr) (Limit.deserialize ByteValue.deserialize) fun l =>
    ∀ b, l = .value b → b.amount < 2 ^ 64

/-- `Limit<u32>` and `Limit<u64>`. -/
def limit (max : Nat) : Codec (Limit Nat) :=
  plain (Limit.serialize .u64) (Limit.deserialize (deUnsigned max)) fun l => ∀ n, l = .value n → n ≤ max

/-- `CpuSet`, /repo/src/service/cpuset.rs:16-18; `Display` does not fail (C48). -/
def cpuSet : Codec (List Nat) :=
  text (fun s => (CpuSet.fromStr s).toOption) (fun s => (CpuSet.display s).getD []) fun s =>
    Spec.Increasing s ∧ ∀ x ∈ s, x ≤ u64Max

/-- `Image`, /repo/src/service/image.rs:34-35. -/
def image : Codec Image := text (fun s => (Image.parse s).toOption) Image.asStr fun i => ∃ s, Image.parse s = .ok i

/-- `Link`, /repo/src/service.rs:985-986. -/
def link : Codec Link := text (fun s => (Link.parse s).toOption) Link.display fun l => Spec.Identifier l.service

/-- `Ipc`, /repo/src/service.rs:1098-1099. -/
def ipc : Codec Ipc :=
  text (fun s => (Ipc.parse s).toOption) Ipc.display fun m =>
    match m with
    | .shareable => True
    | .service i => Spec.Identifier i
    | .other s => s ≠ "shareable".toList ∧ ¬ "service:".toList <+: s

/-- `NetworkMode`, /repo/src/service/network_config.rs:195-196: which values are kept. -/
def networkModeValid : NetworkMode → Prop
  | .none | .host => True
  | .service i | .container i => Spec.Identifier i
  | .other s => s ≠ "none".toList ∧ s ≠ "host".toList ∧ ¬ "service:".toList <+: s ∧ ¬ "container:".toList <+: s

/-- `EndpointMode`, /repo/src/service/deploy/endpoint_mode.rs:18-19. -/
def endpointMode : Codec EndpointMode :=
  text (fun s => some (EndpointMode.parse s)) EndpointMode.asStr fun m => m ≠ .other "vip".toList ∧ m ≠ .other "dnsrr".toList

/-- `Capability`, /repo/src/service/deploy/resources.rs:420-421. -/
def capability : Codec Capability :=
  text (fun s => some (Capability.parse s)) Capability.asStr fun m => m ≠ .other "gpu".toList ∧ m ≠ .other "tpu".toList

/-- `Driver`, /repo/src/network.rs:152-153. -/
def driver : Codec Driver :=
  text (fun s => some (Driver.parse s)) Driver.asStr fun m => m ≠ .other "host".toList ∧ m ≠ .other "none".toList

/-- `VolumesFrom`, /repo/src/service.rs:1432-1433. -/
def volumesFrom : Codec VolumesFrom :=
  text (fun s => (VolumesFrom.parse s).toOption) VolumesFrom.display fun v =>
    (match v.source with
      | .service i | .container i => Spec.Identifier i) ∧
    v ≠ ⟨.container "ro".toList, false⟩ ∧ v ≠ ⟨.container "rw".toList, false⟩

/-- `Device`, /repo/src/service/device.rs:22-23. -/
def device : Codec Device :=
  text (fun s => (Device.fromStr s).toOption) Device.display fun d =>
    Spec.AbsolutePath d.containerPath ∧ ':' ∉ d.hostPath ∧ ':' ∉ d.containerPath

/-- `CgroupRule`, /repo/src/service/device.rs:198-199. -/
def cgroupRule : Codec CgroupRule :=
  text (fun s => (CgroupRule.fromStr s).toOption) CgroupRule.display fun r =>
    Spec.MajorMinorOk r.major ∧ Spec.MajorMinorOk r.minor

/-- `MacAddress`, /repo/src/service/network_config.rs:471-475. -/
def macAddress : Codec MacAddress := text (fun s => (MacAddress.fromStr s).toOption) MacAddress.display Spec.MacOk

/-- `Platform`, /repo/src/service/platform.rs:8-10. -/
def platform : Codec Platform :=
  text (fun s => (platforms.fromStr s).toOption) (fun p => (platforms.asStr p).getD []) (Spec.IsPlatform platforms)

/-- `ShortVolume`, /repo/src/service/volumes.rs:77-79. -/
def shortVolume : Codec ShortVolume :=
  text (fun s => (ShortVolume.fromStr s).toOption) ShortVolume.toStr fun v =>
    Spec.ShortVolumeOk v ∧ ':' ∉ v.containerPath ∧ ∀ o, v.options = some o → ':' ∉ o.source.toStr

/-- `SELinux`, /repo/src/service/volumes.rs:711-728: one character. -/
def selinux : Codec SELinux :=
  text (fun s => match s with | [c] => SELinux.ofChar c | _ => none) (fun x => [x.asChar]) fun _ => True

/-- `SshAuth`, /repo/src/service/build/ssh_auth.rs:17-19. -/
def sshAuth : Codec SshAuth :=
  text (fun s => (SshAuth.parse s).toOption) SshAuth.show fun x =>
    ∀ i, x = .id i → i.id ≠ [] ∧ i.path ≠ [] ∧ '=' ∉ i.id

/-- `Context`, /repo/src/service/build/context.rs:20-22: a URL that parses as itself or a path that is not a URL. -/
def contextValid (E : Env) : Context → Prop
  | .path p => E.url p = none
  | .url u => E.url u.text = some u

/-- `Context`, /repo/src/service/build/context.rs:20-22. -/
def context (E : Env) : Codec Context := text (fun s => some (Context.parse E.url s)) Context.show (contextValid E)

/-- `Cache`, /repo/src/service/build/cache.rs:22-24. -/
def cache : Codec Cache :=
  text (fun s => (Cache.parse s).toOption) Cache.show fun c => (c.options.map (·.1)).Nodup ∧ Spec.CanonicalCache c

/-- `build::Network`, /repo/src/service/build/network.rs:15-16. -/
def buildNetwork : Codec BuildNetwork :=
  text (fun s => (buildNetworkParse s).toOption) buildNetworkAsStr fun n =>
    ∀ i, n = .identifier i → Spec.Identifier i ∧ i ≠ "none".toList

/-- `User`, /repo/src/service/user.rs:17-18. -/
def user : Codec User :=
  text (fun s => (User.parse s).toOption) User.display fun u =>
    Spec.IdOrNameOk u.user ∧ ∀ g, u.group = some g → Spec.IdOrNameOk g

/-- `IdOrName`, /repo/src/service/user.rs:143-151 and 237-277. -/
def idOrName : Codec IdOrName :=
  plain
    (fun
      | .id n => .u64 n
      | .name s => .str s)
    (fun
      | .u64 n => IdOrName.visitInt n
      | .i64 i => IdOrName.visitInt i
      | .str s => (IdOrName.parse s).toOption
      | _ => none)
    Spec.IdOrNameOk

/-- `Count`, /repo/src/service/deploy/resources.rs:516-592. -/
def count : Codec Count := plain Count.serialize Count.deserialize fun c => ∀ n, c = .integer n → n ≤ u64Max

/-- `Range`, /repo/src/service/ports.rs:837-855. -/
def range : Codec Range :=
  ⟨Range.serialize, fun c => deserializeFromStrOrU16 Range.ofU16 (fun s => .ofExcept (Range.fromStr s)) c, Spec.PortNumbers⟩

/-- `Protocol`, /repo/src/service/ports.rs:872-875. -/
def protocol : Codec Protocol := text (fun s => some (Protocol.parse s)) Protocol.asStr Spec.ProtocolOk

/-- `ShortPort`, /repo/src/service/ports.rs:385-403. -/
def shortPort (E : Env) : Codec (ShortPort E.ip.Ty) where
  ser := ShortPort.serialize E.ip.show
  de := deserializeFromStrOrU16 ShortPort.ofU16 (ShortPort.fromStr fun s => (E.ip.parse s).elim (.error ()) .ok)
  valid := Spec.ShortPortOk

/-- `Expose`, /repo/src/service/expose.rs:88-103. -/
def expose : Codec Expose :=
  ⟨Expose.serialize, fun c => deserializeFromStrOrU16 Expose.ofU16 (fun s => .ofExcept (Expose.fromStr s)) c, fun e =>
    Spec.PortNumbers e.range ∧ ∀ p, e.protocol = some p → Spec.ProtocolOk p⟩

/-- A number that is read as the same variant: integers that are not negative are read as unsigned. -/
def numberValid : Number → Prop
  | .signedInt i => i < 0
  | _ => True

/-- `Value`, /repo/src/common.rs:284-296. -/
def value : Codec Value :=
  plain Value.serialize Value.deserialize fun v => ∀ n, v = .number n → numberValid n

/-- `StringOrNumber`, /repo/src/common.rs:746-754 and 843-855. -/
def stringOrNumber : Codec StringOrNumber :=
  plain
    (fun
      | .string s => .str s
      | .number n => n.serialize)
    (fun
      | .str s => some (.string s)
      | c => (Number.deserialize c).map .number)
    fun v => ∀ n, v = .number n → numberValid n

/-! ### Other types -/

/-- `Map`, /repo/src/common.rs:154. -/
def valueMap : Codec OptionMap := map mapKey (option value)

/-- `ListOrMap`, /repo/src/common.rs:143-151 and 253-276.  All fields of this type are left out if they are empty and are
then read as an empty list. -/
def listOrMap : Codec ListOrMap where
  ser
    | .list l => (set str).ser l
    | .map m => valueMap.ser m
  de
    | .seq vs => ((set str).de (.seq vs)).map .list
    | .map es => (valueMap.de (.map es)).map .map
    | _ => .err ()
  valid
    | .list l => (set str).valid l
    | .map m => valueMap.valid m ∧ m ≠ []

/-- `Command`, /repo/src/service.rs:843-851. -/
inductive Command
  | string (s : Str)
  | list (l : List Str)
  deriving DecidableEq, Repr

/-- `Command`, /repo/src/service.rs:843-869. -/
def command : Codec Command where
  ser
    | .string s => str.ser s
    | .list l => (list str).ser l
  de
    | .seq vs => ((list str).de (.seq vs)).map .list
    | .map _ => .err ()
    | .unit => .err ()
    | v => (str.de v).map .string
  valid _ := True

/-- `Healthcheck`, /repo/src/service/healthcheck.rs:41-158. -/
def healthcheck : Codec Healthcheck where
  ser := Healthcheck.serialize
  de := Healthcheck.deserialize
  valid h := ∀ c, h = .command c →
    duration.valid c.interval ∧ duration.valid c.timeout ∧ duration.valid c.startPeriod ∧ duration.valid c.startInterval ∧
    (∀ n, c.retries = some n → n < 2 ^ 64) ∧ (∀ e ∈ c.extensions, Spec.ExtensionKey e.1) ∧ (c.extensions.map (·.1)).Nodup

/-- `CredentialSpec`, /repo/src/service/credential_spec.rs:18-99. -/
def credentialSpec : Codec CredentialSpec :=
  plain CredentialSpec.ser CredentialSpec.de fun x =>
    (∀ i, x.kind = .config i → Spec.Identifier i) ∧ (∀ e ∈ x.extensions, Spec.ExtensionKey e.1) ∧
    (x.extensions.map (·.1)).Nodup

/-- `IndexMap<Hostname, IpAddr>` with `deserialize_with = "extra_hosts"`, /repo/src/service.rs:1059-1080. -/
def extraHosts (E : Env) : Codec (IndexMap Str E.ip.Ty) where
  ser := (map hostnameKey (foreign E.ip)).ser
  de v := (listOrMap.de v).bind fun l => Outcome.ofOption (Compose.extraHosts E.float E.ip.parse l).toOption
  valid := (map hostnameKey (foreign E.ip)).valid

/-- The closure in `additional_contexts`, /repo/src/service/build.rs:264-269. -/
def additionalContext (E : Env) : Str × Option Value → Str × Context
  | (key, some v) => (key, Context.parse E.url (v.show E.float))
  | (key, none) => (key, Context.default)

/-- `IndexMap<MapKey, Context>` with `deserialize_with = "additional_contexts"`, /repo/src/service/build.rs:256-271. -/
def additionalContexts (E : Env) : Codec (IndexMap Str Context) where
  ser := (map mapKey (context E)).ser
  de v := (listOrMap.de v).bind fun l =>
    (Outcome.ofOption (l.intoMap E.float).toOption).map fun m => IndexMap.collect (m.map (additionalContext E))
  valid := (map mapKey (context E)).valid

/-- `display_from_str_option` at `u32`, /repo/src/serde/display_from_str_option.rs:14-74. -/
def displayU32 : Codec (Option Nat) := option (text (fun s => (parseUnsigned u32Max s).toOption) showNat (· ≤ u32Max))

end Codecs
end Compose
