import Verif.Std.OsStr
import Verif.Model.Volumes
import Verif.Model.Device
import Verif.Model.Build

/-
Model of the values that hold paths, for paths of any bytes (`PathBuf` on Unix): how they are written and read.  The other
modules model paths that are UTF-8 (`Str`), which all paths read from a document are.
-/

namespace Compose
open Rust

/-- `PathBuf` on Unix. -/
abbrev OsPath := List UInt8

namespace OsPath

/-- `AbsolutePath::new`, /repo/src/service/volumes.rs:309-318; `Path::is_absolute` on Unix looks at the first byte. -/
def absoluteNew (p : OsPath) : Except AbsolutePathError OsPath :=
  if p.head? = some 0x2F then .ok p else .error .notAbsolute

/-- `components().next()` is `CurDir` or `ParentDir`: the bytes before the first `/` are `.` or `..`. -/
def startsWithDots (p : OsPath) : Bool :=
  let first := p.takeWhile (· ≠ 0x2F)
  first = [0x2E] || first = [0x2E, 0x2E]

/-- `HostPath::new`, /repo/src/service/volumes.rs:599-613. -/
def hostNew (p : OsPath) : Except HostPathError OsPath :=
  if p.head? = some 0x2F || startsWithDots p then .ok p else .error .hostPath

/-- `Serialize for Path` of serde, used by every field of the type `PathBuf`, `AbsolutePath` or `HostPath`
(/repo/src/service/volumes.rs:294-297, 587-590); the error is `path contains invalid UTF-8 characters`. -/
def serialize (p : OsPath) : Except Unit Str :=
  match osToStr p with
  | some s => .ok s
  | none => .error ()

end OsPath

/-- `Context`, /repo/src/service/build/context.rs:20-42. -/
inductive OsContext
  | path (p : OsPath)
  | url (u : Url)

namespace OsContext

/-- `Context::parse`, /repo/src/service/build/context.rs:49-57; `parseUrl` is `Url::from_str`. -/
def parse (parseUrl : Str → Option Url) (s : Str) : OsContext :=
  match parseUrl s with
  | some u => .url u
  | none => .path (utf8 s)

/-- `Context::into_string`, /repo/src/service/build/context.rs:122-136. -/
def intoString : OsContext → Except OsContext Str
  | .path p =>
    match osToStr p with
    | some s => .ok s
    | none => .error (.path p)
  | .url u => .ok u.text

/-- `Serialize for Context` (derived, untagged), /repo/src/service/build/context.rs:20-21. -/
def serialize : OsContext → Except Unit Str
  | .path p => p.serialize
  | .url u => .ok u.text

end OsContext

/-- `Source`, /repo/src/service/volumes.rs:455-466. -/
inductive OsSource
  | hostPath (p : OsPath)
  | volume (name : Str)

/-- `ShortOptions`, /repo/src/service/volumes.rs:422-432. -/
structure OsVolumeOptions where
  source : OsSource
  readOnly : Bool
  selinux : Option SELinux

/-- `ShortVolume`, /repo/src/service/volumes.rs:77-88. -/
structure OsShortVolume where
  containerPath : OsPath
  options : Option OsVolumeOptions

/-- `Display for Source`, /repo/src/service/volumes.rs:574-581. -/
def OsSource.display : OsSource → Str
  | .hostPath p => lossy p
  | .volume name => name

/-- `Display for ShortVolume`, /repo/src/service/volumes.rs:255-291. -/
def OsShortVolume.display (v : OsShortVolume) : Str :=
  match v.options with
  | some o => o.source.display ++ ':' :: lossy v.containerPath ++ ShortVolume.optionsPart o.readOnly o.selinux
  | none => lossy v.containerPath

/-- A source read from a text: the path is the bytes of the text. -/
def OsSource.ofText : VolumeSource → OsSource
  | .hostPath p => .hostPath (utf8 p)
  | .volume name => .volume name

/-- A short volume read from a text. -/
def OsShortVolume.ofText (v : ShortVolume) : OsShortVolume :=
  ⟨utf8 v.containerPath, v.options.map fun o => ⟨.ofText o.source, o.readOnly, o.selinux⟩⟩

/-- `FromStr for ShortVolume`, /repo/src/service/volumes.rs:145-213. -/
def OsShortVolume.fromStr (s : Str) : Except ParseShortVolumeError OsShortVolume :=
  match ShortVolume.fromStr s with
  | .ok v => .ok (.ofText v)
  | .error e => .error e

/-- `Device`, /repo/src/service/device.rs:22-32. -/
structure OsDevice where
  hostPath : OsPath
  containerPath : OsPath
  permissions : Permissions

/-- `Display for Device`, /repo/src/service/device.rs:84-105. -/
def OsDevice.display (d : OsDevice) : Str :=
  lossy d.hostPath ++ ':' :: lossy d.containerPath ++ if d.permissions.any then ':' :: d.permissions.display else []

/-- A device read from a text. -/
def OsDevice.ofText (d : Device) : OsDevice := ⟨utf8 d.hostPath, utf8 d.containerPath, d.permissions⟩

/-- `FromStr for Device`, /repo/src/service/device.rs:34-54. -/
def OsDevice.fromStr (s : Str) : Except ParseDeviceError OsDevice :=
  match Device.fromStr s with
  | .ok d => .ok (.ofText d)
  | .error e => .error e

/-- `Id`, /repo/src/service/build/ssh_auth.rs:89-96. -/
structure OsSshId where
  id : Str
  path : OsPath

/-- `Id::new`, /repo/src/service/build/ssh_auth.rs:105-123. -/
def OsSshId.new (id : Str) (path : OsPath) : Except SshIdError OsSshId :=
  if id = [] then .error .emptyId
  else if path = [] then .error .missingPath
  else .ok ⟨id, path⟩

/-- `Display for Id`, /repo/src/service/build/ssh_auth.rs:148-153. -/
def OsSshId.display (i : OsSshId) : Str := i.id ++ '=' :: lossy i.path

/-- `FromStr for Id`, /repo/src/service/build/ssh_auth.rs:138-146. -/
def OsSshId.fromStr (s : Str) : Except SshIdError OsSshId :=
  match splitOnce '=' s with
  | none => .error .missingPath
  | some (id, path) => OsSshId.new id (utf8 path)

end Compose
