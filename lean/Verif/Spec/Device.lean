import Verif.Model.Device
import Verif.Spec.Volumes
import Verif.Spec.Number

/- Texts of devices and device cgroup rules. -/

namespace Spec
open Rust Compose

/-- `s` lists permissions by the letters `r`, `w` and `m`; exactly the listed ones are granted. -/
def PermissionsText (s : Str) (p : Permissions) : Prop :=
  (∀ c ∈ s, c ∈ "rwm".toList) ∧
  (p.read = true ↔ 'r' ∈ s) ∧ (p.write = true ↔ 'w' ∈ s) ∧ (p.mknod = true ↔ 'm' ∈ s)

/-- `{host_path}:{container_path}[:{permissions}]` -/
inductive DeviceText : Str → Device → Prop
  | plain {h c : Str} {p : Permissions} : ':' ∉ h → ':' ∉ c → AbsolutePath c → PermissionsText [] p →
      DeviceText (h ++ ":".toList ++ c) ⟨h, c, p⟩
  | withPermissions {h c t : Str} {p : Permissions} : ':' ∉ h → ':' ∉ c → AbsolutePath c → PermissionsText t p →
      DeviceText (h ++ ":".toList ++ c ++ ":".toList ++ t) ⟨h, c, p⟩

/-- `a`, `b` or `c`. -/
inductive KindText : Str → DeviceKind → Prop
  | all : KindText "a".toList .all
  | char : KindText "c".toList .char
  | block : KindText "b".toList .block

/-- `*` (or nothing), or a 16 bit number. -/
inductive MajorMinorText : Str → MajorMinorNumber → Prop
  | star : MajorMinorText "*".toList .all
  | empty : MajorMinorText [] .all
  | number {s : Str} {n : Nat} : UInt u16Max s n → MajorMinorText s (.integer n)

/-- `{kind} {major}:{minor}[ {permissions}]` -/
inductive CgroupRuleText : Str → CgroupRule → Prop
  | plain {k a b : Str} {kind : DeviceKind} {major minor : MajorMinorNumber} {p : Permissions} :
      KindText k kind → MajorMinorText a major → MajorMinorText b minor → PermissionsText [] p →
      CgroupRuleText (k ++ " ".toList ++ a ++ ":".toList ++ b) ⟨kind, major, minor, p⟩
  | withPermissions {k a b t : Str} {kind : DeviceKind} {major minor : MajorMinorNumber} {p : Permissions} :
      KindText k kind → MajorMinorText a major → MajorMinorText b minor → PermissionsText t p →
      CgroupRuleText (k ++ " ".toList ++ a ++ ":".toList ++ b ++ " ".toList ++ t) ⟨kind, major, minor, p⟩

/-- A major or minor number is a 16 bit number. -/
def MajorMinorOk : MajorMinorNumber → Prop
  | .all => True
  | .integer n => n ≤ u16Max

end Spec
