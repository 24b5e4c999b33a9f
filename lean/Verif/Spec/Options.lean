import Verif.Model.Options

/- What reading with options should do, and what an error message should say. -/

namespace Spec
open Rust Compose

/-- Reading text at once is the same as parsing it to a value and reading that. -/
def ReadsByValue {T V C E : Type} (Y : Yaml T V C E) : Prop := ∀ t, Y.read t = (Y.parse t).bind Y.fromValue

/-- The texts of an error and of all errors that caused it, outermost first. -/
inductive Causes : ErrorValue → List Str → Prop
  | root {t : Str} : Causes (.mk t none) [t]
  | caused {t : Str} {e : ErrorValue} {ts : List Str} : Causes e ts → Causes (.mk t (some e)) (t :: ts)

end Spec
