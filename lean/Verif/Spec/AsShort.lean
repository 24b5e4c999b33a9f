import Verif.Model.AsShort

/- What it means that a long syntax says no more than the short one. -/

namespace Spec
open Rust Compose

/-- The field does not prevent the short syntax just when it has the value it gets from the short syntax. -/
def FaithfulField (f : OtherField) : Prop := ∀ v : f.Ty, f.ifFn v = true ↔ v = f.default

/-- No network setting is given. -/
def NoSettings {A B C : Type} (n : NetworkAttachment A B C) : Prop := n = ⟨[], none, none, [], none, [], none, []⟩

/-- Nothing is listed, in either syntax. -/
def NothingListed (l : ListOrMap) : Prop := l = .list [] ∨ l = .map []

end Spec
