import Verif.Spec.Ports
import Verif.Spec.ImageParts
import Verif.Spec.Keys
import Verif.Model.Compare

/- What comparisons, conversions to text and messages should say. -/

namespace Spec
open Rust Compose

/-- Port `n` is in the range. -/
def HasPort (r : Range) (n : Nat) : Prop := r.start ≤ n ∧ n ≤ lastPort r

/-- A type with the texts its values are turned into. -/
structure TextForms where
  Ty : Type
  /-- `to_string` -/
  display : Ty → Str
  /-- `String::from` -/
  string : Ty → Str
  /-- `Cow::from`, for the types that have it -/
  cow : Option (Ty → Str)

/-- The types with conversions to text that do not go through `to_string`. -/
def textForms (ft : FloatText) : List TextForms :=
  [⟨Driver, Driver.asStr, Driver.intoString, some Driver.intoCow⟩,
    ⟨NetworkMode, NetworkMode.display, NetworkMode.intoString, some NetworkMode.intoCow⟩,
    ⟨EndpointMode, EndpointMode.asStr, EndpointMode.intoString, some EndpointMode.intoCow⟩,
    ⟨Capability, Capability.asStr, Capability.intoString, some Capability.intoCow⟩,
    ⟨Protocol, Protocol.asStr, Protocol.intoString, some Protocol.intoCow⟩,
    ⟨BuildNetwork, buildNetworkAsStr, BuildNetwork.intoString, some BuildNetwork.intoCow⟩,
    ⟨IdOrName, IdOrName.display, IdOrName.intoString, none⟩,
    ⟨User, User.display, User.intoString, none⟩,
    ⟨Value, Value.show ft, Value.intoString ft, none⟩,
    ⟨StringOrNumber, StringOrNumber.show ft, StringOrNumber.intoString ft, none⟩,
    ⟨Link, Link.display, Link.intoString, none⟩,
    ⟨Ipc, Ipc.display, Ipc.intoString, some Ipc.intoCow⟩,
    ⟨VolumesFromSource, VolumesFromSource.display, VolumesFromSource.intoString, none⟩,
    ⟨VolumesFrom, VolumesFrom.display, VolumesFrom.intoString, none⟩]

/-- The order of a dictionary, by the numbers of the characters. -/
inductive Before : Str → Str → Prop
  | end {c t} : Before [] (c :: t)
  | here {a b s t} : a.toNat < b.toNat → Before (a :: s) (b :: t)
  | later {a s t} : Before s t → Before (a :: s) (a :: t)

end Spec
