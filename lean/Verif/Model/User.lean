import Verif.Model.Keys
import Verif.Std.Int

/- Model of `User` and `IdOrName` in `src/service/user.rs`.  `Name` values are represented by their text. -/

namespace Compose
open Rust

/-- `IdOrName`, /repo/src/service/user.rs:145-151. -/
inductive IdOrName
  | id (n : Nat) | name (s : Str)
  deriving DecidableEq, Repr

/-- `IdOrName::parse`, /repo/src/service/user.rs:162-170. -/
def IdOrName.parse (s : Str) : Except UserNameError IdOrName :=
  match parseUnsigned u32Max s with
  | .error _ => (userNameNew s).map .name
  | .ok n => .ok (.id n)

/-- `Display for IdOrName`, /repo/src/service/user.rs:219-226, and `From<IdOrName> for String`, 228-235. -/
def IdOrName.display : IdOrName → Str
  | .id n => showNat n
  | .name s => s

/-- The integer visitor methods of `IdOrName`, /repo/src/service/user.rs:253-268: every integer type is converted to
`u32` with `try_into` (`forward_visitor!`, /repo/src/serde.rs:31-39); `none` is a deserialization error. -/
def IdOrName.visitInt (v : Int) : Option IdOrName :=
  if 0 ≤ v ∧ v ≤ u32Max then some (.id v.toNat) else none

/-- `User`, /repo/src/service/user.rs:18-24. -/
structure User where
  user : IdOrName
  group : Option IdOrName
  deriving DecidableEq, Repr

/-- `User::parse`, /repo/src/service/user.rs:34-47, with `From<IdOrName>`, 50-54. -/
def User.parse (s : Str) : Except UserNameError User :=
  match splitOnce ':' s with
  | some (user, group) =>
    match IdOrName.parse user with
    | .error e => .error e
    | .ok user =>
      match IdOrName.parse group with
      | .error e => .error e
      | .ok group => .ok ⟨user, some group⟩
  | none =>
    match IdOrName.parse s with
    | .error e => .error e
    | .ok user => .ok ⟨user, none⟩

/-- `Display for User`, /repo/src/service/user.rs:115-130. -/
def User.display (u : User) : Str :=
  u.user.display ++ match u.group with
    | some group => ':' :: group.display
    | none => []

end Compose
