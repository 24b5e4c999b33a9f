import Verif.Model.Defaults

/- Constructors and infallible conversions (`new`, `from_...`, `From`): what they set, and what they leave at its default. -/

namespace Compose
open Rust Derive

/-! ### Users -/

/-- `From<u32> for IdOrName`, /repo/src/service/user.rs:205-209. -/
def IdOrName.ofId (value : Nat) : IdOrName := .id value

/-- `From<Name> for IdOrName`, /repo/src/service/user.rs:211-215. -/
def IdOrName.ofName (value : Str) : IdOrName := .name value

/-- `From<IdOrName> for User`, /repo/src/service/user.rs:50-54. -/
def User.ofIdOrName (user : IdOrName) : User := ⟨user, none⟩

/-- `From<u32> for User`, /repo/src/service/user.rs:56-60. -/
def User.ofId (user : Nat) : User := .ofIdOrName (.ofId user)

/-- `From<Name> for User`, /repo/src/service/user.rs:62-66. -/
def User.ofName (user : Str) : User := .ofIdOrName (.ofName user)

/-- `From<(IdOrName, IdOrName)> for User`, /repo/src/service/user.rs:68-75. -/
def User.ofPair (user group : IdOrName) : User := ⟨user, some group⟩

/-- `From<(u32, u32)> for User`, /repo/src/service/user.rs:77-84. -/
def User.ofIds (user group : Nat) : User := ⟨.ofId user, some (.ofId group)⟩

/-- `From<(Name, u32)> for User`, /repo/src/service/user.rs:86-93. -/
def User.ofNameId (user : Str) (group : Nat) : User := ⟨.ofName user, some (.ofId group)⟩

/-- `From<(u32, Name)> for User`, /repo/src/service/user.rs:95-102. -/
def User.ofIdName (user : Nat) (group : Str) : User := ⟨.ofId user, some (.ofName group)⟩

/-- `From<(Name, Name)> for User`, /repo/src/service/user.rs:104-111. -/
def User.ofNames (user group : Str) : User := ⟨.ofName user, some (.ofName group)⟩

/-! ### Links and other services' volumes -/

/-- `From<Identifier> for Link`, /repo/src/service.rs:1018-1025. -/
def Link.ofIdentifier (service : Str) : Link := ⟨service, none⟩

/-- `From<VolumesFromSource> for VolumesFrom`, /repo/src/service.rs:1491-1498. -/
def VolumesFrom.ofSource (source : VolumesFromSource) : VolumesFrom := ⟨source, false⟩

/-! ### Ports -/

/-- `From<u16> for ShortRanges`, /repo/src/service/ports.rs:505-509. -/
def ShortRanges.ofU16 (container : Nat) : ShortRanges := .ofRange (.ofU16 container)

/-- `ShortPort::new`, /repo/src/service/ports.rs:242-250, and `From<ShortRanges>`, 272-276. -/
def ShortPort.new {Ip : Type} (ranges : ShortRanges) : ShortPort Ip := ⟨none, ranges, none⟩

/-- `From<Range> for ShortPort`, /repo/src/service/ports.rs:278-282. -/
def ShortPort.ofRange {Ip : Type} (container : Range) : ShortPort Ip := .new (.ofRange container)

/-- `From<Range> for Expose`, /repo/src/service/expose.rs:38-45. -/
def Expose.ofRange (range : Range) : Expose := ⟨range, none⟩

/-- `TryFrom<(u16, u16)> for Range`, /repo/src/service/ports.rs:721-727. -/
def Range.ofPair (start «end» : Nat) : Except RangeError Range := Range.new start (some «end»)

/-- `Port::new`, /repo/src/service/ports.rs:140-153, and `From<u16>`, 182-186. -/
def Structs.portNew (E : Env) (target : Nat) : Record (Structs.port E) := (none, target, none, none, none, none, none, [], ())

/-! ### Volumes -/

/-- `From<AbsolutePath> for HostPath`, /repo/src/service/volumes.rs:656-660: not checked. -/
def HostPath.ofAbsolute (path : Str) : Str := path

/-- `From<HostPath> for Source`, /repo/src/service/volumes.rs:524-528. -/
def VolumeSource.ofHostPath (path : Str) : VolumeSource := .hostPath path

/-- `From<AbsolutePath> for Source`, /repo/src/service/volumes.rs:530-534. -/
def VolumeSource.ofAbsolute (path : Str) : VolumeSource := .ofHostPath (HostPath.ofAbsolute path)

/-- `From<Identifier> for Source`, /repo/src/service/volumes.rs:568-572. -/
def VolumeSource.ofIdentifier (name : Str) : VolumeSource := .volume name

/-- `TryFrom<PathBuf> for Source` and the other conversions from paths, /repo/src/service/volumes.rs:536-566. -/
def VolumeSource.ofPath (path : Str) : Except HostPathError VolumeSource := (hostPathNew path).map .ofHostPath

/-- `ShortVolume::new`, /repo/src/service/volumes.rs:92-97, and `From<AbsolutePath>`, 139-143. -/
def ShortVolume.new (containerPath : Str) : ShortVolume := ⟨containerPath, none⟩

/-- `ShortOptions::new`, /repo/src/service/volumes.rs:437-443, and `From<Source>`, 446-450. -/
def VolumeShortOptions.new (source : VolumeSource) : VolumeShortOptions := ⟨source, false, none⟩

namespace Structs

/-- `Common::new`, /repo/src/service/volumes/mount.rs:787-798, and `From<AbsolutePath>`, 832-836. -/
def commonNew (target : Str) : Record common := (target, false, none, [], ())

/-- `mount::Volume::new`, /repo/src/service/volumes/mount.rs:260-266, and `From<Common>`, 301-305. -/
def mountVolumeNew (common' : Record common) : Record mountVolume := (none, none, common', ())

/-- `mount::Bind::new`, /repo/src/service/volumes/mount.rs:391-397, and `From<(HostPath, Common)>`, 444-448. -/
def mountBindNew (source : Str) (common' : Record common) : Record mountBind := (source, none, common', ())

/-- `Tmpfs::new`, /repo/src/service/volumes/mount.rs:628-633, and `From<Common>`, 642-646. -/
def mountTmpfsNew (common' : Record common) : Record mountTmpfs := (none, common', ())

/-- `Tmpfs::from_target`, /repo/src/service/volumes/mount.rs:635-639, and `From<AbsolutePath>`, 648-652. -/
def mountTmpfsOfTarget (target : Str) : Record mountTmpfs := mountTmpfsNew (commonNew target)

/-- `From<(HostPath, Common)> for NamedPipe`, /repo/src/service/volumes/mount.rs:735-739. -/
def mountNamedPipeNew (source : Str) (common' : Record common) : Record mountNamedPipe := (source, common', ())

/-- `From<(String, Common)> for Cluster`, /repo/src/service/volumes/mount.rs:756-760. -/
def mountClusterNew (source : Str) (common' : Record common) : Record mountCluster := (source, common', ())

/-- `From<Option<BindPropagation>> for BindOptions`, /repo/src/service/volumes/mount.rs:476-483. -/
def bindOptionsOfPropagation? (propagation : Option BindPropagation) : Record bindOptions :=
  (propagation, bindOptionsDefault.2)

/-- `From<BindPropagation> for BindOptions`, /repo/src/service/volumes/mount.rs:485-489. -/
def bindOptionsOfPropagation (propagation : BindPropagation) : Record bindOptions := bindOptionsOfPropagation? (some propagation)

/-- `From<Option<SELinux>> for BindOptions`, /repo/src/service/volumes/mount.rs:491-498. -/
def bindOptionsOfSELinux? (selinux : Option SELinux) : Record bindOptions :=
  (bindOptionsDefault.1, bindOptionsDefault.2.1, selinux, bindOptionsDefault.2.2.2)

/-- `From<SELinux> for BindOptions`, /repo/src/service/volumes/mount.rs:500-504. -/
def bindOptionsOfSELinux (selinux : SELinux) : Record bindOptions := bindOptionsOfSELinux? (some selinux)

/-- `Mount::kind`, /repo/src/service/volumes/mount.rs:50-58. -/
def MountOf.kind : MountOf → Str
  | .volume _ => str!"volume"
  | .bind _ => str!"bind"
  | .tmpfs _ => str!"tmpfs"
  | .namedPipe _ => str!"npipe"
  | .cluster _ => str!"cluster"

end Structs

/-! ### Devices -/

/-- `Permissions::all`, /repo/src/service/device.rs:121-129. -/
def Permissions.all : Permissions := ⟨true, true, true⟩

/-- `From<u16> for MajorMinorNumber`, /repo/src/service/device.rs:389-393. -/
def MajorMinorNumber.ofU16 (value : Nat) : MajorMinorNumber := .integer value

/-- `resources::Device::new`, /repo/src/service/deploy/resources.rs:381-394; the items are converted by `Into<Capability>`. -/
def Structs.resourceDeviceNew (capabilities : List Capability) : Record Structs.resourceDevice :=
  (IndexSet.collectNew capabilities, none, none, [], ListOrMap.default, [], ())

/-- `From<[u8; 6]> for MacAddress`, /repo/src/service/network_config.rs:477-481. -/
def MacAddress.ofBytes (value : List Nat) : MacAddress := ⟨value⟩

/-! ### Caches -/

/-- `From<Image> for CacheType`, /repo/src/service/build/cache.rs:269-273. -/
def CacheType.ofImage (image : Image) : CacheType := .registry image

/-- `From<CacheType> for Cache`, /repo/src/service/build/cache.rs:174-181. -/
def Cache.ofType (cacheType : CacheType) : Cache := ⟨cacheType, []⟩

/-- `From<Image> for CacheOption`, /repo/src/service/build/cache.rs:332-337: not checked. -/
def CacheOption.ofImage (image : Image) : Str := image.asStr

/-! ### Configs, secrets, resources, environment files, includes -/

/-- `From<PathBuf> for config::Source`, /repo/src/config.rs:80-84. -/
def ConfigSource.ofPath (path : Str) : ConfigSource := .file path

/-- `From<PathBuf> for secret::Source`, /repo/src/secret.rs:85-89. -/
def SecretSource.ofPath (path : Str) : SecretSource := .file path

/-- `From<T> for Resource<T>` for networks, volumes, configs and secrets, /repo/src/network.rs:32-36,
/repo/src/volume.rs:21-25, /repo/src/config.rs:12-16 and /repo/src/secret.rs:13-17. -/
def Resource.ofCompose {T : Type} (value : T) : Resource T := .compose value

namespace Structs

/-- `From<Source> for Config`, /repo/src/config.rs:50-58. -/
def configOfSource (source : ConfigSource) : Record config := (source, ListOrMap.default, [], ())

/-- `From<Source> for Secret`, /repo/src/secret.rs:55-65. -/
def secretOfSource (source : SecretSource) : Record secret := (source, ListOrMap.default, none, [], [], ())

/-- `FromShort for Config` (derived, with `default = default_true` on `required`), /repo/src/service/env_file.rs:90-103, and
`From<String>`, 105-109. -/
def envFileConfigOfPath (path : Str) : Record envFileConfig := (path, true, ())

/-- `From<PathBuf> for EnvFile`, /repo/src/service/env_file.rs:53-57, and `From<String>`, 59-63. -/
def EnvFiles.ofPath (path : Str) : EnvFiles := .single path

/-- `From<List> for EnvFile`, /repo/src/service/env_file.rs:65-69, and `FromIterator`, 71-78. -/
def EnvFiles.ofList (files : List (ShortOrLong Str (Record envFileConfig))) : EnvFiles := .list files

/-- `From<PathBuf> for Include`, /repo/src/include.rs:52-60. -/
def includeOfPath (path : Str) : Record «include» := (ItemOrList.item path, none, none, ())

/-- `From<Limit<u64>> for Ulimit`, /repo/src/service/ulimit.rs:114-122. -/
def ulimitOfLimit (value : Limit Nat) : Record ulimit := (value, value, [], ())

/-- `From<u64> for Ulimit`, /repo/src/service/ulimit.rs:108-112. -/
def ulimitOfU64 (value : Nat) : Record ulimit := ulimitOfLimit (.value value)

end Structs

/-! ### Commands and numbers -/

/-- `From<Vec<String>> for Test`, /repo/src/service/healthcheck.rs:387-391. -/
def Test.ofCommand (value : List Str) : Test := .command value

/-- `From<String> for Test`, /repo/src/service/healthcheck.rs:393-397. -/
def Test.ofShell (value : Str) : Test := .shellCommand value

/-- `From<Command> for Healthcheck`, /repo/src/service/healthcheck.rs:35-39. -/
def Healthcheck.ofCommand (value : HealthCommand) : Healthcheck := .command value

/-- `From<String> for Command`, /repo/src/service.rs:853-857. -/
def Codecs.Command.ofString (value : Str) : Codecs.Command := .string value

/-- `From<Vec<String>> for Command`, /repo/src/service.rs:859-863. -/
def Codecs.Command.ofList (value : List Str) : Codecs.Command := .list value

/-- `From<u64> for Count`, /repo/src/service/deploy/resources.rs:531-535. -/
def Count.ofU64 (value : Nat) : Count := .integer value

/-- `From<u32>`, `From<u64>` and `From<ByteValue> for Limit`, /repo/src/service/limit.rs:30-46. -/
def Limit.ofValue {T : Type} (value : T) : Limit T := .value value

/-- `From<T> for ItemOrList<T>`, /repo/src/common.rs:121-125. -/
def ItemOrList.ofItem {T : Type} (value : T) : ItemOrList T := .item value

/-- `From<IndexSet<T>> for ItemOrList<T>`, /repo/src/common.rs:127-131. -/
def ItemOrList.ofSet {T : Type} (value : IndexSet T) : ItemOrList T := .list value

/-- `From<&str>`, `From<String>`, `From<Box<str>>` for `Context`, /repo/src/service/build/context.rs:144-160. -/
def Context.ofText (parseUrl : Str → Option Url) (value : Str) : Context := Context.parse parseUrl value

/-- `From<Cow<str>> for Context`, /repo/src/service/build/context.rs:162-168. -/
def Context.ofCow (parseUrl : Str → Option Url) (value : Str) : Context := (parseUrl value).elim (.path value) .url

/-- `From<PathBuf>`, `From<&Path>` and `From<Cow<Path>>` for `Context`, /repo/src/service/build/context.rs:170-186. -/
def Context.ofPath (value : Str) : Context := .path value

/-- `From<Url> for Context`, /repo/src/service/build/context.rs:188-192. -/
def Context.ofUrl (value : Url) : Context := .url value

/-! ### Short or long syntax -/

/-- `From<S> for ShortOrLong<S, L>` (`impl_from_short!`) for ports, volumes, contexts, names, sets of names, numbers, texts and
paths, /repo/src/common/short_or_long.rs:205-244, and for limits, 252-256. -/
def ShortOrLong.ofShort {S L : Type} (value : S) : ShortOrLong S L := .short value

/-- `From<String> for ShortOrLong<PathBuf, L>`, /repo/src/common/short_or_long.rs:246-250. -/
def ShortOrLong.ofString {L : Type} (value : Str) : ShortOrLong Str L := .short value

/-- `From<u64> for ShortOrLong<Limit<u64>, L>`, /repo/src/common/short_or_long.rs:258-262. -/
def ShortOrLong.ofU64 {L : Type} (value : Nat) : ShortOrLong (Limit Nat) L := .ofShort (.ofValue value)

/-- `From<L> for ShortOrLong<S, L>` (`impl_long_conversion!`) for includes, builds, configs, secrets, ulimits, environment files,
ports and mounts, /repo/src/common/short_or_long.rs:264-297, and for maps, 299-303. -/
def ShortOrLong.ofLong {S L : Type} (value : L) : ShortOrLong S L := .long value

end Compose
