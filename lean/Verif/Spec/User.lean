import Verif.Model.User
import Verif.Spec.Keys
import Verif.Spec.Number

/- Texts of users and groups. -/

namespace Spec
open Rust Compose

/-- A 32 bit number is an id, a user name is a name. -/
inductive IdOrNameText : Str → IdOrName → Prop
  | id {s : Str} {n : Nat} : UInt u32Max s n → IdOrNameText s (.id n)
  | name {s : Str} : UserName s → IdOrNameText s (.name s)

/-- `{user}[:{group}]` -/
inductive UserText : Str → User → Prop
  | user {s : Str} {u : IdOrName} : IdOrNameText s u → UserText s ⟨u, none⟩
  | group {s t : Str} {u g : IdOrName} : IdOrNameText s u → IdOrNameText t g →
      UserText (s ++ ":".toList ++ t) ⟨u, some g⟩

/-- An id has 32 bits, a name is a user name. -/
def IdOrNameOk : IdOrName → Prop
  | .id n => n ≤ u32Max
  | .name s => UserName s

end Spec
