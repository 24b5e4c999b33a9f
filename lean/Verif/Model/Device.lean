import Verif.Model.Volumes
import Verif.Std.Int

/-
Model of `src/service/device.rs`.  Paths are represented by their text (as in `Verif.Model.Volumes`); two paths
with the same text are equal.
-/

namespace Compose
open Rust

/-- `Permissions`, /repo/src/service/device.rs:109-118. -/
structure Permissions where
  read : Bool
  write : Bool
  mknod : Bool
  deriving DecidableEq, Repr

/-- `Permissions::any`, /repo/src/service/device.rs:133-136. -/
def Permissions.any (p : Permissions) : Bool := p.read || p.write || p.mknod

/-- `ParsePermissionsError`, /repo/src/service/device.rs:169-171. -/
structure ParsePermissionsError where
  char : Char
  deriving DecidableEq, Repr

/-- The loop of `Permissions::from_str`, /repo/src/service/device.rs:147-154. -/
def Permissions.loop : Permissions → Str → Except ParsePermissionsError Permissions
  | p, [] => .ok p
  | p, c :: cs =>
    if c = 'r' then Permissions.loop { p with read := true } cs
    else if c = 'w' then Permissions.loop { p with write := true } cs
    else if c = 'm' then Permissions.loop { p with mknod := true } cs
    else .error ⟨c⟩

/-- `Permissions::from_str`, /repo/src/service/device.rs:142-157. -/
def Permissions.fromStr (s : Str) : Except ParsePermissionsError Permissions :=
  Permissions.loop ⟨false, false, false⟩ s

/-- `Display for Permissions`, /repo/src/service/device.rs:173-189. -/
def Permissions.display (p : Permissions) : Str :=
  (if p.read then ['r'] else []) ++ (if p.write then ['w'] else []) ++ (if p.mknod then ['m'] else [])

/-- `Device`, /repo/src/service/device.rs:23-32. -/
structure Device where
  hostPath : Str
  containerPath : Str
  permissions : Permissions
  deriving DecidableEq, Repr

/-- `PartialEq for Device` (derived; both paths are `PathBuf`s), /repo/src/service/device.rs:22. -/
def Device.eq (a b : Device) : Bool :=
  Path.eq a.hostPath b.hostPath && Path.eq a.containerPath b.containerPath && a.permissions = b.permissions

/-- For sets of them. -/
instance : RustEq Device := ⟨Device.eq⟩

/-- `ParseDeviceError`, /repo/src/service/device.rs:66-82. -/
inductive ParseDeviceError
  | empty | containerPathMissing | containerPathAbsolute (e : AbsolutePathError) | permissions (e : ParsePermissionsError)
  deriving DecidableEq, Repr

/-- `Device::from_str`, /repo/src/service/device.rs:37-53.  The first item of `splitn` always exists, so the error
`Empty` cannot happen and is not in this function. -/
def Device.fromStr (s : Str) : Except ParseDeviceError Device :=
  match splitn3 ':' s with
  | (_, none, _) => .error .containerPathMissing
  | (hostPath, some containerPath, permissions) =>
    match absolutePathNew containerPath with
    | .error e => .error (.containerPathAbsolute e)
    | .ok containerPath =>
      match Permissions.fromStr (permissions.getD []) with
      | .error e => .error (.permissions e)
      | .ok permissions => .ok ⟨hostPath, containerPath, permissions⟩

/-- `Display for Device`, /repo/src/service/device.rs:84-105. -/
def Device.display (d : Device) : Str :=
  d.hostPath ++ ':' :: d.containerPath ++ if d.permissions.any then ':' :: d.permissions.display else []

/-- `Kind`, /repo/src/service/device.rs:296-305. -/
inductive DeviceKind
  | all | char | block
  deriving DecidableEq, Repr

/-- `Kind::as_char`, /repo/src/service/device.rs:310-316, `Display`, 358-362. -/
def DeviceKind.asChar : DeviceKind → Char
  | .all => 'a'
  | .char => 'c'
  | .block => 'b'

/-- `TryFrom<char> for Kind`, /repo/src/service/device.rs:319-330; `none` is `ParseKindError`. -/
def DeviceKind.ofChar (c : Char) : Option DeviceKind :=
  if c = 'a' then some .all
  else if c = 'c' then some .char
  else if c = 'b' then some .block
  else none

/-- `Kind::from_str`, /repo/src/service/device.rs:332-343; the error is the rejected text. -/
def DeviceKind.fromStr (s : Str) : Except Str DeviceKind :=
  if s = str!"a" then .ok .all
  else if s = str!"c" then .ok .char
  else if s = str!"b" then .ok .block
  else .error s

/-- `MajorMinorNumber`, /repo/src/service/device.rs:372-378. -/
inductive MajorMinorNumber
  | all | integer (n : Nat)
  deriving DecidableEq, Repr

/-- `MajorMinorNumber::from_str`, /repo/src/service/device.rs:395-405. -/
def MajorMinorNumber.fromStr (s : Str) : Except IntErr MajorMinorNumber :=
  if s.isEmpty || s = str!"*" then .ok .all else (parseUnsigned u16Max s).map .integer

/-- `Display for MajorMinorNumber`, /repo/src/service/device.rs:415-422. -/
def MajorMinorNumber.display : MajorMinorNumber → Str
  | .all => ['*']
  | .integer n => showNat n

/-- `CgroupRule`, /repo/src/service/device.rs:199-211. -/
structure CgroupRule where
  kind : DeviceKind
  major : MajorMinorNumber
  minor : MajorMinorNumber
  permissions : Permissions
  deriving DecidableEq, Repr

/-- `ParseCgroupRuleError`, /repo/src/service/device.rs:251-271 (`Empty` cannot happen: the first item of `splitn`
always exists). -/
inductive ParseCgroupRuleError
  | kind (s : Str) | majorMinorNumbersMissing | majorMinorNumber (e : IntErr) | permissions (e : ParsePermissionsError)
  deriving DecidableEq, Repr

/-- `CgroupRule::from_str`, /repo/src/service/device.rs:213-239. -/
def CgroupRule.fromStr (s : Str) : Except ParseCgroupRuleError CgroupRule :=
  let split := splitn3 ' ' s
  match DeviceKind.fromStr split.1 with
  | .error e => .error (.kind e)
  | .ok kind =>
    match split.2.1.bind (splitOnce ':') with
    | none => .error .majorMinorNumbersMissing
    | some (major, minor) =>
      match MajorMinorNumber.fromStr major with
      | .error e => .error (.majorMinorNumber e)
      | .ok major =>
        match MajorMinorNumber.fromStr minor with
        | .error e => .error (.majorMinorNumber e)
        | .ok minor =>
          match Permissions.fromStr (split.2.2.getD []) with
          | .error e => .error (.permissions e)
          | .ok permissions => .ok ⟨kind, major, minor, permissions⟩

/-- `Display for CgroupRule`, /repo/src/service/device.rs:273-292. -/
def CgroupRule.display (r : CgroupRule) : Str :=
  r.kind.asChar :: ' ' :: r.major.display ++ ':' :: r.minor.display ++
    if r.permissions.any then ' ' :: r.permissions.display else []

end Compose
