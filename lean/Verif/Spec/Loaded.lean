import Verif.Spec.Schemas
import Verif.Model.Validate

/- Names of networks, volumes, configs and secrets in a document, as a user writes them. -/

namespace Spec.Document
open Rust Compose

/-- The value of a key of a mapping; of a repeated key the last value. -/
def At (v : Content) (key : Str) (x : Content) : Prop := ∃ es, Entries v es ∧ lastValue es key = some x

/-- The document has a service of this name. -/
def HasService (doc : Content) (name : Str) (service : Content) : Prop :=
  ∃ services, At doc "services".toList services ∧ At services name service

/-- The section of the document (`networks`, `volumes`, ...) has an entry of this name. -/
def Declares (doc : Content) (section_ : String) (name : Str) : Prop :=
  ∃ entries x, At doc section_.toList entries ∧ At entries name x

/-- The networks of the service, a sequence or a mapping, include this one. -/
def NamesNetwork (service : Content) (name : Str) : Prop :=
  ∃ networks, At service "networks".toList networks ∧
    ((∃ vs, networks = .seq vs ∧ .str name ∈ vs) ∨ ∃ x, At networks name x)

/-- The configs (or secrets) of the service include this one: an item is its name, or a mapping with its name as
`source`. -/
def NamesIn (key : String) (service : Content) (name : Str) : Prop :=
  ∃ vs item, At service key.toList (.seq vs) ∧ item ∈ vs ∧ (item = .str name ∨ At item "source".toList (.str name))

/-- The item of `volumes` mounts the named volume at the path: `name:path`, perhaps with options, where the name does not
begin as a path does; or a mapping of type `volume`. -/
inductive MountsAt : Content → Str → Str → Prop
  | short {name path options : Str} : ':' ∉ name → ':' ∉ path → (∀ c r, name = c :: r → c ≠ '.' ∧ c ≠ '/') →
      (options = [] ∨ ∃ r, options = ':' :: r) → MountsAt (.str (name ++ ':' :: path ++ options)) name path
  | long {item : Content} {name path : Str} : At item "type".toList (.str "volume".toList) →
      At item "source".toList (.str name) → At item "target".toList (.str path) → MountsAt item name path

/-- An item of the `volumes` of the service mounts the named volume. -/
def MountsVolume (service : Content) (name : Str) : Prop :=
  ∃ vs item path, At service "volumes".toList (.seq vs) ∧ item ∈ vs ∧ MountsAt item name path

/-- Two items of the `volumes` of the service, one after the other, mount the named volume, at these paths. -/
def MountsVolumeAt (service : Content) (name path path' : Str) : Prop :=
  ∃ a item b item' c, At service "volumes".toList (.seq (a ++ item :: b ++ item' :: c)) ∧
    MountsAt item name path ∧ MountsAt item' name path'

/-- What a correct check of a document for one kind of resource answers: it accepts if every name in a service is declared in
the section; otherwise it names a service and a name in it that is not. -/
def ChecksDocument (doc : Content) (names : Content → Str → Prop) (section_ : String) (kind : ResourceKind)
    (answer : Except ValidationError Unit) : Prop :=
  (answer = .ok () ↔ ∀ s c n, HasService doc s c → names c n → Declares doc section_ n) ∧
  ∀ e, answer = .error e → e.kind = kind ∧
    ∃ s c, e.service = some s ∧ HasService doc s c ∧ names c e.resource ∧ ¬ Declares doc section_ e.resource

/-- The networks of the service in the order in which they are given. -/
def ListsNetworks (service : Content) (names : List Str) : Prop :=
  ∃ networks, At service "networks".toList networks ∧
    (networks = .seq (names.map .str) ∨ ∃ es, Entries networks es ∧ names = es.map (·.1))

/-- The configs (or secrets) of the service in the order in which they are given. -/
def ListsIn (key : String) (service : Content) (names : List Str) : Prop :=
  ∃ vs, At service key.toList (.seq vs) ∧
    List.Forall₂ (fun item name => item = .str name ∨ At item "source".toList (.str name)) vs names

/-- An error names the first service of the document with a name that is not declared, and its first such name. -/
def ReportsFirst (doc : Content) (lists : Content → List Str → Prop) (section_ : String)
    (answer : Except ValidationError Unit) : Prop :=
  ∀ e, answer = .error e → ∃ services before s x after c a b,
    At doc "services".toList services ∧ Entries services (before ++ (s, x) :: after) ∧ e.service = some s ∧
    (∀ s' ∈ before.map (·.1), ∀ c' names, At services s' c' → lists c' names → ∀ n ∈ names, Declares doc section_ n) ∧
    At services s c ∧ lists c (a ++ e.resource :: b) ∧ (∀ n ∈ a, Declares doc section_ n) ∧ ¬ Declares doc section_ e.resource

/-- An error names a volume that is not declared, at the first service of the document at which one is shared: this service
mounts it, and one before it does so too, or this one mounts it twice; and no volume that is not declared is mounted by two
services before it, or at two places by one of them. -/
def ReportsFirstShared (doc : Content) (answer : Except ValidationError Unit) : Prop :=
  ∀ e, answer = .error e → ∃ services before s x after c,
    At doc "services".toList services ∧ Entries services (before ++ (s, x) :: after) ∧ s ∉ before.map (·.1) ∧
    At services s c ∧ ¬ Declares doc "volumes" e.resource ∧ MountsVolume c e.resource ∧
    ((∃ s' ∈ before.map (·.1), ∃ c', At services s' c' ∧ MountsVolume c' e.resource) ∨
      ∃ path path', MountsVolumeAt c e.resource path path') ∧
    ∀ n, ¬ Declares doc "volumes" n → ∀ s1 ∈ before.map (·.1), ∀ c1, At services s1 c1 →
      (∀ s2 ∈ before.map (·.1), ∀ c2, s1 ≠ s2 → At services s2 c2 → ¬ (MountsVolume c1 n ∧ MountsVolume c2 n)) ∧
      ∀ path path', ¬ EqualPath path path' → ¬ MountsVolumeAt c1 n path path'

end Spec.Document
