import Verif.Std.Path
import Verif.Model.Keys
import Verif.Model.ByteValue
import Verif.Model.Ports

/-
Model of `src/service/volumes.rs` and `src/service/volumes/mount.rs`.

`AbsolutePath`, `HostPath` and `Identifier` are represented by their text; the theorems assume the invariant of
the type where it matters.
-/

namespace Compose
open Rust

/-- `AbsolutePathError`, /repo/src/service/volumes.rs:327-332. -/
inductive AbsolutePathError
  | notAbsolute
  deriving DecidableEq, Repr

/-- `AbsolutePath::new`, /repo/src/service/volumes.rs:306-315. -/
def absolutePathNew (path : Str) : Except AbsolutePathError Str :=
  if Path.isAbsolute path then .ok path else .error .notAbsolute

/-- `AbsolutePath::pop`, /repo/src/service/volumes.rs:322-324. -/
def absolutePathPop (path : Str) : Str × Bool := Path.pop path

/-- `AbsolutePath::push` and `HostPath::push` (`path_impls!`), /repo/src/service/volumes.rs:349-351. -/
def pathPush (self path : Str) : Str := Path.push self path

/-- `HostPathError`, /repo/src/service/volumes.rs:647-652. -/
inductive HostPathError
  | hostPath
  deriving DecidableEq, Repr

/-- `HostPath::new`, /repo/src/service/volumes.rs:599-612. -/
def hostPathNew (path : Str) : Except HostPathError Str :=
  if Path.isAbsolute path || (Path.components path).head?.any (fun c => c = .curDir || c = .parentDir) then
    .ok path
  else .error .hostPath

/-- `HostPath::pop`, /repo/src/service/volumes.rs:638-644. -/
def hostPathPop (path : Str) : Str × Bool :=
  if (Path.parent path).any (·.isEmpty) then (path, false) else Path.pop path

/-- `SELinux`, /repo/src/service/volumes.rs:662-671. -/
inductive SELinux
  | shared | «private»
  deriving DecidableEq, Repr

/-- `SELinux::as_char`, /repo/src/service/volumes.rs:676-681. -/
def SELinux.asChar : SELinux → Char
  | .shared => 'z'
  | .private => 'Z'

/-- `Deserialize for SELinux`, /repo/src/service/volumes.rs:717-728, on the deserialized character. -/
def SELinux.ofChar : Char → Option SELinux
  | 'z' => some .shared
  | 'Z' => some .private
  | _ => none

/-- `volumes::Source`, /repo/src/service/volumes.rs:452-465. -/
inductive VolumeSource
  | hostPath (path : Str) | volume (name : Str)
  deriving DecidableEq, Repr

/-- `ParseSourceError`, /repo/src/service/volumes.rs:488-498. -/
inductive ParseSourceError
  | hostPath (e : HostPathError) | identifier (e : IdentifierError)
  deriving DecidableEq, Repr

/-- `Source::parse`, /repo/src/service/volumes.rs:474-485. -/
def VolumeSource.parse (source : Str) : Except ParseSourceError VolumeSource :=
  if source.head? = some '.' || Path.isAbsolute source then
    match hostPathNew source with
    | .ok path => .ok (.hostPath path)
    | .error e => .error (.hostPath e)
  else
    match identifierNew source with
    | .ok name => .ok (.volume name)
    | .error e => .error (.identifier e)

/-- `Display for Source`, /repo/src/service/volumes.rs:574-581. -/
def VolumeSource.toStr : VolumeSource → Str
  | .hostPath path => path
  | .volume name => name

/-- `ShortOptions`, /repo/src/service/volumes.rs:419-432. -/
structure VolumeShortOptions where
  source : VolumeSource
  readOnly : Bool
  selinux : Option SELinux
  deriving DecidableEq, Repr

/-- `ShortVolume`, /repo/src/service/volumes.rs:79-87. -/
structure ShortVolume where
  containerPath : Str
  options : Option VolumeShortOptions
  deriving DecidableEq, Repr

/-- `PartialEq for Source` (derived; `HostPath` is a `PathBuf`), /repo/src/service/volumes.rs:455. -/
def VolumeSource.eq : VolumeSource → VolumeSource → Bool
  | .hostPath p, .hostPath q => Path.eq p q
  | .volume a, .volume b => a = b
  | _, _ => false

/-- `PartialEq for Option<ShortOptions>` (derived), /repo/src/service/volumes.rs:422. -/
def VolumeShortOptions.eq : Option VolumeShortOptions → Option VolumeShortOptions → Bool
  | some a, some b => a.source.eq b.source && a.readOnly = b.readOnly && a.selinux = b.selinux
  | none, none => true
  | _, _ => false

/-- `PartialEq for ShortVolume` (derived; `AbsolutePath` is a `PathBuf`), /repo/src/service/volumes.rs:77. -/
def ShortVolume.eq (a b : ShortVolume) : Bool :=
  Path.eq a.containerPath b.containerPath && VolumeShortOptions.eq a.options b.options

/-- For sets of them. -/
instance : RustEq ShortVolume := ⟨ShortVolume.eq⟩

/-- `ParseShortVolumeError`, /repo/src/service/volumes.rs:228-253. -/
inductive ParseShortVolumeError
  | source (e : ParseSourceError) | absoluteContainerPath (path : Str) | readWriteAndReadOnly
  | selinuxSharedAndPrivate | duplicateOption (option : Str) | unknownOption (option : Str)
  deriving DecidableEq, Repr

/-- `parse_container_path`, /repo/src/service/volumes.rs:220-225. -/
def parseContainerPath (path : Str) : Except ParseShortVolumeError Str :=
  match absolutePathNew path with
  | .ok path => .ok path
  | .error _ => .error (.absoluteContainerPath path)

namespace ShortVolume

/-- One iteration of the option loop, /repo/src/service/volumes.rs:171-201: the pair is (`read_only`, `selinux`). -/
def optionStep (acc : Option Bool × Option SELinux) (option : Str) :
    Except ParseShortVolumeError (Option Bool × Option SELinux) :=
  if option = str!"rw" then
    match acc.1 with
    | none => .ok (some false, acc.2)
    | some true => .error .readWriteAndReadOnly
    | some false => .error (.duplicateOption str!"rw")
  else if option = str!"ro" then
    match acc.1 with
    | none => .ok (some true, acc.2)
    | some false => .error .readWriteAndReadOnly
    | some true => .error (.duplicateOption str!"ro")
  else if option = str!"z" then
    match acc.2 with
    | none => .ok (acc.1, some .shared)
    | some .private => .error .selinuxSharedAndPrivate
    | some .shared => .error (.duplicateOption str!"z")
  else if option = str!"Z" then
    match acc.2 with
    | none => .ok (acc.1, some .private)
    | some .shared => .error .selinuxSharedAndPrivate
    | some .private => .error (.duplicateOption str!"Z")
  else .error (.unknownOption option)

/-- The option loop, /repo/src/service/volumes.rs:168-202. -/
def optionLoop : Option Bool × Option SELinux → List Str →
    Except ParseShortVolumeError (Option Bool × Option SELinux)
  | acc, [] => .ok acc
  | acc, option :: options =>
    match optionStep acc option with
    | .ok acc => optionLoop acc options
    | .error e => .error e

/-- The options part of `from_str`, /repo/src/service/volumes.rs:161-211. -/
def parseOptions (options : Option Str) : Except ParseShortVolumeError (Bool × Option SELinux) :=
  match options with
  | none => .ok (false, none)
  | some options =>
    match optionLoop (none, none) (split ',' options) with
    | .ok (readOnly, selinux) => .ok (readOnly.getD false, selinux)
    | .error e => .error e

/-- `FromStr for ShortVolume`, /repo/src/service/volumes.rs:145-213. -/
def fromStr (s : Str) : Except ParseShortVolumeError ShortVolume :=
  match splitn3 ':' s with
  | (containerPath, none, _) =>
    match parseContainerPath containerPath with
    | .ok containerPath => .ok ⟨containerPath, none⟩
    | .error e => .error e
  | (source, some containerPath, options) =>
    match VolumeSource.parse source with
    | .error e => .error (.source e)
    | .ok source =>
      match parseContainerPath containerPath with
      | .error e => .error e
      | .ok containerPath =>
        match parseOptions options with
        | .ok (readOnly, selinux) => .ok ⟨containerPath, some ⟨source, readOnly, selinux⟩⟩
        | .error e => .error e

/-- The options written by `Display for ShortVolume`, /repo/src/service/volumes.rs:273-284. -/
def optionsPart (readOnly : Bool) (selinux : Option SELinux) : Str :=
  if readOnly || selinux.isSome then
    ':' :: ((if readOnly then str!"ro" ++ (if selinux.isSome then [','] else []) else []) ++
      selinux.elim [] (fun s => [s.asChar]))
  else []

/-- `Display for ShortVolume`, /repo/src/service/volumes.rs:255-291. -/
def toStr (v : ShortVolume) : Str :=
  match v.options with
  | some o => o.source.toStr ++ ':' :: v.containerPath ++ optionsPart o.readOnly o.selinux
  | none => v.containerPath

end ShortVolume

/-- `Common`, /repo/src/service/volumes/mount.rs:762-785; `V` is the type of extension values. -/
structure MountCommon (V : Type) where
  target : Str
  readOnly : Bool := false
  consistency : Option Str := none
  extensions : List (Str × V) := []
  deriving DecidableEq

/-- `VolumeOptions`, /repo/src/service/volumes/mount.rs:307-325. -/
structure MountVolumeOptions (V : Type) where
  nocopy : Bool := false
  subpath : Option Str := none
  extensions : List (Str × V) := []
  deriving DecidableEq

/-- `VolumeOptions::is_empty`, /repo/src/service/volumes/mount.rs:330-338. -/
def MountVolumeOptions.isEmpty {V : Type} (o : MountVolumeOptions V) : Bool :=
  !o.nocopy && o.subpath.isNone && o.extensions.isEmpty

/-- `mount::Volume`, /repo/src/service/volumes/mount.rs:235-255. -/
structure MountVolume (V : Type) where
  source : Option Str
  volume : Option (MountVolumeOptions V)
  common : MountCommon V
  deriving DecidableEq

/-- `BindPropagation`, /repo/src/service/volumes/mount.rs:553-578. -/
inductive BindPropagation
  | «private» | shared | slave | unbindable | rprivate | rshared | rslave | runbindable
  deriving DecidableEq, Repr

/-- `BindOptions`, /repo/src/service/volumes/mount.rs:450-474. -/
structure BindOptions (V : Type) where
  propagation : Option BindPropagation := none
  createHostPath : Bool := false
  selinux : Option SELinux := none
  extensions : List (Str × V) := []
  deriving DecidableEq

/-- `mount::Bind`, /repo/src/service/volumes/mount.rs:369-386. -/
structure MountBind (V : Type) where
  source : Str
  bind : Option (BindOptions V)
  common : MountCommon V
  deriving DecidableEq

/-- `TmpfsOptions`, /repo/src/service/volumes/mount.rs:654-676. -/
structure TmpfsOptions (V : Type) where
  size : Option ByteValue := none
  mode : Option Nat := none
  extensions : List (Str × V) := []
  deriving DecidableEq

/-- `Mount`, /repo/src/service/volumes/mount.rs:22-40, with the fields of `Tmpfs` (:609-623), `NamedPipe`
(:720-733) and `Cluster` (:741-754). -/
inductive Mount (V : Type)
  | volume (v : MountVolume V)
  | bind (b : MountBind V)
  | tmpfs (tmpfs : Option (TmpfsOptions V)) (common : MountCommon V)
  | namedPipe (source : Str) (common : MountCommon V)
  | cluster (source : Str) (common : MountCommon V)
  deriving DecidableEq

/-- `Mount::common`, /repo/src/service/volumes/mount.rs:162-170. -/
def Mount.common {V : Type} : Mount V → MountCommon V
  | .volume v => v.common
  | .bind b => b.common
  | .tmpfs _ c => c
  | .namedPipe _ c => c
  | .cluster _ c => c

/-- `Mount::source_to_string`, /repo/src/service/volumes/mount.rs:174-182. -/
def Mount.sourceToString {V : Type} : Mount V → Option Str
  | .volume v => v.source
  | .bind b => some b.source
  | .tmpfs _ _ => none
  | .namedPipe source _ => some source
  | .cluster source _ => some source

/-- `ShortVolume::into_long`, /repo/src/service/volumes.rs:101-136. -/
def ShortVolume.intoLong (V : Type) (self : ShortVolume) : Mount V :=
  match self.options with
  | some o =>
    let common : MountCommon V := { target := self.containerPath, readOnly := o.readOnly }
    match o.source with
    | .hostPath source => .bind ⟨source, some { createHostPath := true, selinux := o.selinux }, common⟩
    | .volume source => .volume ⟨some source, none, common⟩
  | none => .volume ⟨none, none, { target := self.containerPath }⟩

/-- `mount::Volume::into_short`, /repo/src/service/volumes/mount.rs:274-298. -/
def MountVolume.intoShort {V : Type} (self : MountVolume V) : Except (MountVolume V) ShortVolume :=
  if self.common.consistency.isNone && (self.volume.elim true MountVolumeOptions.isEmpty) &&
      self.common.extensions.isEmpty then
    .ok ⟨self.common.target, self.source.map fun source => ⟨.volume source, self.common.readOnly, none⟩⟩
  else .error self

/-- `mount::Bind::into_short`, /repo/src/service/volumes/mount.rs:405-441. -/
def MountBind.intoShort {V : Type} (self : MountBind V) : Except (MountBind V) ShortVolume :=
  if self.common.consistency.isNone &&
      (self.bind.elim true fun o => o.propagation.isNone && o.createHostPath && o.extensions.isEmpty) &&
      self.common.extensions.isEmpty then
    .ok ⟨self.common.target,
      some ⟨.hostPath self.source, self.common.readOnly, self.bind.bind (·.selinux)⟩⟩
  else .error self

/-- `Mount::into_short`, /repo/src/service/volumes/mount.rs:190-196. -/
def Mount.intoShort {V : Type} (self : Mount V) : Except (Mount V) ShortVolume :=
  match self with
  | .volume v =>
    match v.intoShort with
    | .ok s => .ok s
    | .error v => .error (.volume v)
  | .bind b =>
    match b.intoShort with
    | .ok s => .ok s
    | .error b => .error (.bind b)
  | _ => .error self

/-- `volumes::into_short_iter`, /repo/src/service/volumes.rs:38-43. -/
def volumesIntoShortIter {V : Type} (volumes : List (ShortOrLong ShortVolume (Mount V))) :
    List (Except (Mount V) ShortVolume) :=
  volumes.map fun
    | .short v => .ok v
    | .long m => m.intoShort

/-- `volumes::into_long_iter`, /repo/src/service/volumes.rs:46-48. -/
def volumesIntoLongIter {V : Type} (volumes : List (ShortOrLong ShortVolume (Mount V))) : List (Mount V) :=
  volumes.map fun
    | .short v => v.intoLong V
    | .long m => m

/-- The closure of `named_volumes_iter`, /repo/src/service/volumes.rs:51-64. -/
def namedVolume {V : Type} : ShortOrLong ShortVolume (Mount V) → Option Str
  | .short ⟨_, some ⟨.volume name, _, _⟩⟩ => some name
  | .long (.volume v) => v.source
  | _ => none

/-- `volumes::named_volumes_iter`, /repo/src/service/volumes.rs:51-64. -/
def namedVolumesIter {V : Type} (volumes : List (ShortOrLong ShortVolume (Mount V))) : List Str :=
  volumes.filterMap namedVolume

end Compose
