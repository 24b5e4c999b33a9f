import Verif.Model.Volumes
import Verif.Spec.Keys

/- Vocabulary for the properties of volumes. -/

namespace Spec
open Rust Compose

/-- An absolute path begins with `/`. -/
def AbsolutePath (p : Str) : Prop := ∃ r, p = '/' :: r

/-- A host path is absolute, or its first component is `.` or `..`. -/
def HostPath (p : Str) : Prop :=
  AbsolutePath p ∨ p = ".".toList ∨ p = "..".toList ∨ (∃ r, p = "./".toList ++ r) ∨ ∃ r, p = "../".toList ++ r

/-- `text` is the text of a volume source. -/
def SourceText (text : Str) : VolumeSource → Prop
  | .hostPath path => path = text ∧ HostPath text
  | .volume name => name = text ∧ Identifier text

/-- The option that sets the access mode: `rw`, `ro`. -/
inductive AccessOption : Str → Bool → Prop
  | rw : AccessOption "rw".toList false
  | ro : AccessOption "ro".toList true

/-- The option that sets SELinux relabeling: `z`, `Z`. -/
inductive RelabelOption : Str → SELinux → Prop
  | z : RelabelOption "z".toList .shared
  | Z : RelabelOption "Z".toList .private

/-- The option part of a short volume: at most one access option and at most one relabel option, in any order, at
least one in total. -/
inductive OptionsText : Str → Bool → Option SELinux → Prop
  | access {a ro} : AccessOption a ro → OptionsText a ro none
  | relabel {z se} : RelabelOption z se → OptionsText z false (some se)
  | accessRelabel {a ro z se} : AccessOption a ro → RelabelOption z se →
      OptionsText (a ++ ",".toList ++ z) ro (some se)
  | relabelAccess {a ro z se} : AccessOption a ro → RelabelOption z se →
      OptionsText (z ++ ",".toList ++ a) ro (some se)

/-- The text of a short volume: `path`, `source:path` or `source:path:options`. -/
inductive ShortVolumeText : Str → ShortVolume → Prop
  | anonymous {path} : AbsolutePath path → ':' ∉ path → ShortVolumeText path ⟨path, none⟩
  | plain {text source path} : SourceText text source → ':' ∉ text → AbsolutePath path → ':' ∉ path →
      ShortVolumeText (text ++ ":".toList ++ path) ⟨path, some ⟨source, false, none⟩⟩
  | options {text source path opts ro se} : SourceText text source → ':' ∉ text → AbsolutePath path →
      ':' ∉ path → OptionsText opts ro se →
      ShortVolumeText (text ++ ":".toList ++ path ++ ":".toList ++ opts) ⟨path, some ⟨source, ro, se⟩⟩

/-- The invariants of the parts of a short volume: an absolute path, and a host path or identifier. -/
def ShortVolumeOk (v : ShortVolume) : Prop :=
  AbsolutePath v.containerPath ∧ ∀ o, v.options = some o → SourceText o.source.toStr o.source

/-- What a mount must leave unset to have a short syntax: only volume and bind mounts have one, without consistency and
extensions; the options of a volume mount, if given, are all unset; those of a bind mount set at most `create_host_path`,
which must be set, and `selinux`. -/
def Shortenable {V : Type} : Mount V → Prop
  | .volume v =>
    v.common.consistency = none ∧ v.common.extensions = [] ∧
      ∀ o, v.volume = some o → o.nocopy = false ∧ o.subpath = none ∧ o.extensions = []
  | .bind b =>
    b.common.consistency = none ∧ b.common.extensions = [] ∧
      ∀ o, b.bind = some o → o.createHostPath = true ∧ o.propagation = none ∧ o.extensions = []
  | _ => False

end Spec
