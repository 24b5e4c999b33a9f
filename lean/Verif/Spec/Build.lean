import Verif.Model.Build
import Mathlib.Data.List.Forall2

/- Texts of SSH authentication entries and the parts of git URLs. -/

namespace Spec
open Rust Compose

/-- `default`, or `{id}={path}` where the id ends at the first `=` and both parts are there. -/
inductive SshAuthText : Str → SshAuth → Prop
  | default : SshAuthText "default".toList .default
  | id {i p : Str} : i ≠ [] → '=' ∉ i → p ≠ [] → SshAuthText (i ++ "=".toList ++ p) (.id ⟨i, p⟩)

/-- `text` is the lower case `word`, in upper or lower case. -/
def AnyCase (text word : Str) : Prop := List.Forall₂ (fun c d => c = d ∨ c = d.toUpper) text word

/-- The name of the file at the end of `path` (after its last `/`, not counting trailing `/` and `/.`) is
`{stem}.{ext}`. -/
def FileAt (path stem ext : Str) : Prop :=
  ∃ dirs trail : List Str,
    path = joinWith '/' (dirs ++ (stem ++ ".".toList ++ ext) :: trail) ∧
    (∀ x ∈ dirs, '/' ∉ x) ∧ '/' ∉ stem ∧ '/' ∉ ext ∧ (∀ x ∈ trail, x = [] ∨ x = ".".toList)

/-- An HTTP URL whose file name is something before `.git`. -/
def GitUrl (u : Url) : Prop :=
  (AnyCase u.scheme "http".toList ∨ AnyCase u.scheme "https".toList) ∧
  ∃ stem ext, FileAt u.path stem ext ∧ stem ≠ [] ∧ AnyCase ext "git".toList

end Spec
