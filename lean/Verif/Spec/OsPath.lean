import Verif.Model.OsPath
import Verif.Spec.Volumes

/- Paths of any bytes. -/

namespace Spec
open Rust Compose

/-- The path is Unicode: its bytes are the UTF-8 bytes of a text. -/
def Unicode (p : OsPath) : Prop := ∃ s : Str, p = utf8 s

/-- The first byte is `/`. -/
def OsAbsolute (p : OsPath) : Prop := ∃ r, p = 0x2F :: r

/-- The path is absolute, or its first component is `.` or `..`. -/
def OsHost (p : OsPath) : Prop :=
  OsAbsolute p ∨ p = [0x2E] ∨ p = [0x2E, 0x2E] ∨ (∃ r, p = 0x2E :: 0x2F :: r) ∨ ∃ r, p = 0x2E :: 0x2E :: 0x2F :: r

/-- The source is one that can be made. -/
def OsSourceOk : OsSource → Prop
  | .hostPath p => OsHost p
  | .volume name => Identifier name

/-- The short volume is one that can be made. -/
def OsShortVolumeOk (v : OsShortVolume) : Prop :=
  OsAbsolute v.containerPath ∧ ∀ o, v.options = some o → OsSourceOk o.source

/-- The paths of a short volume. -/
def volumePaths (v : OsShortVolume) : List OsPath :=
  v.containerPath :: match v.options with
    | some ⟨.hostPath p, _, _⟩ => [p]
    | _ => []

/-- The short volume with its paths changed. -/
def withPaths (f : OsPath → OsPath) (v : OsShortVolume) : OsShortVolume :=
  ⟨f v.containerPath, v.options.map fun o => { o with source := match o.source with
    | .hostPath p => .hostPath (f p)
    | .volume name => .volume name }⟩

end Spec
