import Verif.Model.Validate

/- Vocabulary for the validation properties. -/

namespace Spec
open Rust Compose

variable {M N V R : Type}

/-- The networks a service is attached to, in order. -/
def usedNetworks (s : Service M N V) : List Str :=
  match s.networkConfig with
  | some (.networks (.short names)) => names
  | some (.networks (.long entries)) => entries.map Prod.fst
  | _ => []

/-- The name in a config or secret entry. -/
def entryName : ShortOrLong Str (ConfigOrSecret V) → Str
  | .short name => name
  | .long entry => entry.source

/-- `x` is the first element of the list that satisfies `p`. -/
def IsFirst {α : Type} (p : α → Prop) (x : α) (l : List α) : Prop :=
  ∃ before after, l = before ++ x :: after ∧ p x ∧ ∀ y ∈ before, ¬ p y

/-- `name` is a key of the map. -/
def Declared (map : List (Str × R)) (name : Str) : Prop := ∃ r, (name, r) ∈ map

/-- What a correct check for one kind of resource answers: it accepts if every name used by a service is declared;
otherwise it reports the first service that uses an undeclared name, with the first such name. -/
def ChecksUse (services : List (Str × Service M N V)) (uses : Service M N V → List Str) (declared : Str → Prop)
    (kind : ResourceKind) (answer : Except ValidationError Unit) : Prop :=
  (answer = .ok () ↔ ∀ s ∈ services, ∀ name ∈ uses s.2, declared name) ∧
  (∀ e, answer = .error e ↔
    ∃ s name, IsFirst (fun s => ∃ name ∈ uses s.2, ¬ declared name) s services ∧
      IsFirst (fun name => ¬ declared name) name (uses s.2) ∧ e = ⟨some s.1, name, kind⟩)

/-- The named volume that an entry of `volumes` mounts: the source of a short entry, if it is not a path, or the source of
a long entry of type `volume`. -/
def sourceVolume : ShortOrLong ShortVolume (Mount V) → Option Str
  | .short v => v.options.bind fun o =>
    match o.source with
    | .volume name => some name
    | .hostPath _ => none
  | .long (.volume m) => m.source
  | .long _ => none

/-- The named volumes a service mounts, entry by entry. -/
def mountedVolumes (s : Service M N V) : List Str := s.volumes.filterMap sourceVolume

/-- All mentions of named volumes in the file, service by service. -/
def mentions (f : File M N V R) : List Str := f.services.flatMap fun s => mountedVolumes s.2

/-- Service `s` mounts the named volume. -/
def Mounts (s : Service M N V) (name : Str) : Prop := name ∈ mountedVolumes s

/-- Service `s` mounts the named volume at more than one place. -/
def MountsTwice (s : Service M N V) (name : Str) : Prop := 2 ≤ (mountedVolumes s).count name

end Spec
