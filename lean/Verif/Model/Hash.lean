import Verif.Model.Structs

/- `Hash` of the types that are kept in sets and compare some of their parts in a way of their own: ports, mounts, devices,
volumes, SSH authentication; and `PartialEq for ItemOrList`. -/

namespace Compose
open Rust Compose.Derive

/-- `Hash` of the parts, for a hasher with state `S`: what feeding a value does to the state.  Any functions: those of std,
`indexmap`, `serde_yaml` and the derived ones of types that are compared by value. -/
structure Hashers (E : Env) (S : Type) where
  tag : Nat → S → S
  text : Str → S → S
  path : Str → S → S
  number : Nat → S → S
  bool : Bool → S → S
  value : Content → S → S
  ip : E.ip.Ty → S → S
  range : Range → S → S
  shortPort : ShortPort E.ip.Ty → S → S
  protocol : Protocol → S → S
  portMode : Structs.PortMode → S → S
  permissions : Permissions → S → S
  selinux : SELinux → S → S
  propagation : Structs.BindPropagation → S → S
  byteValue : ByteValue → S → S

namespace Hashers

variable {E : Env} {S : Type} (H : Hashers E S)

/-- `Hash for Option<T>` (derived). -/
def option {α : Type} (f : α → S → S) : Option α → S → S
  | none, s => H.tag 0 s
  | some x, s => f x (H.tag 1 s)

/-- `extensions.as_slice().hash(state)`, for instance /repo/src/service/ports.rs:134: the length and the entries. -/
def extensions (x : IndexMap Str Content) (s : S) : S :=
  x.foldl (fun s e => H.value e.2 (H.text e.1 s)) (H.number x.length s)

/-- `Hash for SshAuth` and `Id` (derived), /repo/src/service/build/ssh_auth.rs:17, 89. -/
def sshAuth : SshAuth → S → S
  | .default, s => H.tag 0 s
  | .id i, s => H.path i.path (H.text i.id (H.tag 1 s))

/-- `Hash for Device` (derived), /repo/src/service/device.rs:22. -/
def device (d : Device) (s : S) : S := H.permissions d.permissions (H.path d.containerPath (H.path d.hostPath s))

/-- `Hash for Source` (derived), /repo/src/service/volumes.rs:455. -/
def source : VolumeSource → S → S
  | .hostPath p, s => H.path p (H.tag 0 s)
  | .volume n, s => H.text n (H.tag 1 s)

/-- `Hash for ShortOptions` (derived), /repo/src/service/volumes.rs:422. -/
def shortOptions (o : VolumeShortOptions) (s : S) : S :=
  H.option H.selinux o.selinux (H.bool o.readOnly (H.source o.source s))

/-- `Hash for ShortVolume` (derived), /repo/src/service/volumes.rs:77. -/
def shortVolume (v : ShortVolume) (s : S) : S := H.option H.shortOptions v.options (H.path v.containerPath s)

/-- `Hash for Port`, /repo/src/service/ports.rs:115-137. -/
def port : Record (Structs.port E) → S → S
  | ((name : Option Str), (target : Nat), (published : Option Range), (hostIp : Option E.ip.Ty), (protocol : Option Protocol),
      (appProtocol : Option Str), (mode : Option Structs.PortMode), extensions, ()), s =>
    let s := H.option H.text name s
    let s := H.number target s
    let s := H.option H.range published s
    let s := H.option H.ip hostIp s
    let s := H.option H.protocol protocol s
    let s := H.option H.text appProtocol s
    let s := H.option H.portMode mode s
    H.extensions extensions s

/-- `Hash for Common`, /repo/src/service/volumes/mount.rs:816-830. -/
def common : Record Structs.common → S → S
  | ((target : Str), (readOnly : Bool), (consistency : Option Str), extensions, ()), s =>
    H.extensions extensions (H.option H.text consistency (H.bool readOnly (H.path target s)))

/-- `Hash for VolumeOptions`, /repo/src/service/volumes/mount.rs:355-367. -/
def volumeOptions : Record Structs.volumeOptions → S → S
  | ((nocopy : Bool), (subpath : Option Str), extensions, ()), s =>
    H.extensions extensions (H.option H.path subpath (H.bool nocopy s))

/-- `Hash for BindOptions`, /repo/src/service/volumes/mount.rs:537-551. -/
def bindOptions : Record Structs.bindOptions → S → S
  | ((propagation : Option Structs.BindPropagation), (createHostPath : Bool), (selinux : Option SELinux), extensions, ()), s =>
    H.extensions extensions (H.option H.selinux selinux (H.bool createHostPath (H.option H.propagation propagation s)))

/-- `Hash for TmpfsOptions`, /repo/src/service/volumes/mount.rs:706-718. -/
def tmpfsOptions : Record Structs.tmpfsOptions → S → S
  | ((size : Option ByteValue), (mode : Option Nat), extensions, ()), s =>
    H.extensions extensions (H.option H.number mode (H.option H.byteValue size s))

/-- `Hash for Mount` (derived, as are those of `Volume`, `Bind`, `Tmpfs`, `NamedPipe` and `Cluster`),
/repo/src/service/volumes/mount.rs:22, 238, 372, 612, 723, 744. -/
def mount : Structs.MountOf → S → S
  | .volume ((source : Option Str), options, common, ()), s =>
    H.common common (H.option H.volumeOptions options (H.option H.text source (H.tag 0 s)))
  | .bind ((source : Str), options, common, ()), s =>
    H.common common (H.option H.bindOptions options (H.path source (H.tag 1 s)))
  | .tmpfs (options, common, ()), s => H.common common (H.option H.tmpfsOptions options (H.tag 2 s))
  | .namedPipe ((source : Str), common, ()), s => H.common common (H.path source (H.tag 3 s))
  | .cluster ((source : Str), common, ()), s => H.common common (H.text source (H.tag 4 s))

/-- `Hash for ShortOrLong` (derived), /repo/src/common/short_or_long.rs:45. -/
def shortOrLong {A B : Type} (short : A → S → S) (long : B → S → S) : ShortOrLong A B → S → S
  | .short a, s => short a (H.tag 0 s)
  | .long b, s => long b (H.tag 1 s)

end Hashers

/-- `PartialEq for ItemOrList`, /repo/src/common.rs:59-70; `==` of `IndexSet`s compares the lengths and looks every item of one
up in the other. -/
def ItemOrList.eq {T : Type} [DecidableEq T] : ItemOrList T → ItemOrList T → Bool
  | .item a, .item b => a = b
  | .list a, .list b => a.length = b.length && a.all fun x => b.contains x
  | _, _ => false

end Compose
