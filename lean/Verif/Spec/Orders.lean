import Verif.Spec.Compare
import Verif.Spec.Reasons
import Verif.Spec.Equality
import Verif.Model.Orders

/- How paths should be ordered, and what an order is. -/

namespace Spec
open Rust Compose

/-- What is between the slashes of a path, without nothing and `.`. -/
def pathPieces (p : Str) : List Str := (p.splitOn '/').filter fun piece => piece ≠ [] ∧ piece ≠ ['.']

/-- The path begins at the root. -/
def Rooted (p : Str) : Prop := ∃ rest, p = '/' :: rest

/-- The path begins with the folder `.`. -/
def Dotted (p : Str) : Prop := p = ".".toList ∨ ∃ rest, p = "./".toList ++ rest

/-- The order of the parts of a path: the root, then `.`, then `..`, then the names as in a dictionary. -/
inductive PartBefore : Component → Component → Prop
  | root_here : PartBefore .rootDir .curDir
  | root_up : PartBefore .rootDir .parentDir
  | root_name {s} : PartBefore .rootDir (.normal s)
  | here_up : PartBefore .curDir .parentDir
  | here_name {s} : PartBefore .curDir (.normal s)
  | up_name {s} : PartBefore .parentDir (.normal s)
  | names {s t} : Before s t → PartBefore (.normal s) (.normal t)

/-- One path comes before another: it ends where the other goes on, or they agree up to a part, which comes before that
of the other. -/
def PathBefore (p q : Str) : Prop :=
  (∃ c rest, Path.components q = Path.components p ++ c :: rest) ∨
    ∃ common a b s t, Path.components p = common ++ a :: s ∧ Path.components q = common ++ b :: t ∧ PartBefore a b

/-- A comparison that orders all values, where `same` are those that are equal. -/
structure Orders {α : Type} (cmp : α → α → Ordering) (same : α → α → Prop) : Prop where
  eq : ∀ a b, cmp a b = .eq ↔ same a b
  swap : ∀ a b, (cmp a b).swap = cmp b a
  trans : ∀ a b c, cmp a b = .lt → cmp b c = .lt → cmp a c = .lt
  /-- equal values are before and after the same values -/
  congr : ∀ a b c, same a b → cmp a c = cmp b c

end Spec
