import Verif.Model.Cache
import Verif.Spec.Common
import Verif.Spec.ImageParts

/- Texts of build caches. -/

namespace Spec
open Rust Compose

/-- The text of options, each after a comma. -/
def optionsText : List (Str × Str) → Str
  | [] => []
  | (k, v) :: es => ",".toList ++ k ++ "=".toList ++ v ++ optionsText es

/-- An option that can be written: `,` and `=` are not part of the key, and `,` is not part of the value. -/
def Writable (e : Str × Str) : Prop :=
  CacheOption e.1 ∧ CacheOption e.2 ∧ ',' ∉ e.1 ∧ '=' ∉ e.1 ∧ ',' ∉ e.2

/-- An image, or a type and at least one option.  Of a repeated option, the last value counts.  The type `registry`
takes its image from the option `ref`. -/
inductive CacheText : Str → Cache → Prop
  | image {s : Str} {i : Image} : ImageText s i → CacheText s ⟨.registry i, []⟩
  | registry {es table : List (Str × Str)} {i : Image} {r : Str} : (∀ e ∈ es, Writable e) → Table es table →
      ("ref".toList, r) ∈ table → ImageText r i →
      CacheText ("type=registry".toList ++ optionsText es) ⟨.registry i, table.filter (·.1 ≠ "ref".toList)⟩
  | other {es table : List (Str × Str)} {t : Str} : (∀ e ∈ es, Writable e) → Table es table → es ≠ [] →
      CacheOption t → ',' ∉ t → t ≠ "registry".toList →
      CacheText ("type=".toList ++ t ++ optionsText es) ⟨.other t, table⟩

/-- The caches that are the value of some text. -/
def CanonicalCache (c : Cache) : Prop :=
  (∀ e ∈ c.options, Writable e) ∧
  match c.cacheType with
  | .registry i => ImageText i.asStr i ∧ "ref".toList ∉ c.options.map (·.1)
  | .other t => CacheOption t ∧ ',' ∉ t ∧ t ≠ "registry".toList ∧ c.options ≠ []

end Spec
