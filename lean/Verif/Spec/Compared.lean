import Verif.Spec.Equality
import Verif.Model.Hash

/- The types with a `==` and a hash of their own, and what is assumed of the parts that come from other crates. -/

namespace Spec
open Rust Compose Compose.Derive

/-- `==` of paths and of the values of extensions agrees with their hashes. -/
structure PartsHash {E : Env} {S : Type} (H : Hashers E S) : Prop where
  path : ∀ p q, EqualPath p q → H.path p = H.path q
  value : ∀ v w, E.valueEq v w = true → H.value v = H.value w

/-- A type with its `==`, its hash, and what `==` should be. -/
structure Compared (S : Type) where
  Ty : Type
  eq : Ty → Ty → Bool
  hash : Ty → S → S
  same : Ty → Ty → Prop

/-- The types that are kept in sets and compare paths or extensions. -/
def compared {E : Env} {S : Type} (H : Hashers E S) : List (Compared S) :=
  [⟨Str, Path.eq, H.path, EqualPath⟩,
    ⟨SshAuth, SshAuth.eq, H.sshAuth, EqualSshAuth⟩,
    ⟨Device, Device.eq, H.device, EqualDevice⟩,
    ⟨ShortVolume, ShortVolume.eq, H.shortVolume, EqualShortVolume⟩,
    ⟨Record (Structs.port E), Structs.portEq E, H.port, EqualPort E⟩,
    ⟨Record Structs.common, Structs.commonEq E, H.common, EqualCommon E⟩,
    ⟨Record Structs.volumeOptions, Structs.volumeOptionsEq E, H.volumeOptions, EqualVolumeOptions E⟩,
    ⟨Record Structs.bindOptions, Structs.bindOptionsEq E, H.bindOptions, EqualBindOptions E⟩,
    ⟨Record Structs.tmpfsOptions, Structs.tmpfsOptionsEq E, H.tmpfsOptions, EqualTmpfsOptions E⟩,
    ⟨Structs.MountOf, Structs.mountEq E, H.mount, EqualMount E⟩,
    ⟨ShortOrLong (ShortPort E.ip.Ty) (Record (Structs.port E)), (Structs.portsEq E).eq, H.shortOrLong H.shortPort H.port,
      EqualForm Eq (EqualPort E)⟩,
    ⟨ShortOrLong ShortVolume Structs.MountOf, (Structs.volumesEq E).eq, H.shortOrLong H.shortVolume H.mount,
      EqualForm EqualShortVolume (EqualMount E)⟩]

end Spec
