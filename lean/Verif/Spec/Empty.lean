import Verif.Model.Empty
import Verif.Spec.Keys

/- When a struct counts as empty, in terms of what is written for it. -/

namespace Spec
open Rust Compose Compose.Derive

/-- What may be written for a value that counts as empty. -/
inductive Shape
  /-- A list without elements. -/
  | emptyList
  /-- A list of elements that count as empty. -/
  | list (elements : Shape)
  /-- A mapping with no other keys than these, and values for them that count as empty. -/
  | keys (keys : List (String × Shape))

/-- A mapping without entries. -/
def nothing : Shape := .keys []

/-- A document holds nothing, for a given shape. -/
inductive Blank : Shape → Content → Prop
  | emptyList : Blank .emptyList (.seq [])
  | noElement {s} : Blank (.list s) (.seq [])
  | element {s v vs} : Blank s v → Blank (.list s) (.seq vs) → Blank (.list s) (.seq (v :: vs))
  | noKey {ks} : Blank (.keys ks) (.map [])
  | key {ks k s v es} : (k, s) ∈ ks → Blank s v → Blank (.keys ks) (.map es) →
      Blank (.keys ks) (.map ((.str k.toList, v) :: es))

/-- The extensions of a struct have extension keys. -/
def ExtensionsOk : (is : List Item) → Record is → Prop
  | [], _ => True
  | .field _ :: is, (_, r) => ExtensionsOk is r
  | .flat f :: is, (x, r) => (f.keys = none → ∀ e ∈ f.write x, ExtensionKey e.1) ∧ ExtensionsOk is r

namespace Shapes

/-- Lists of empty configurations count as empty. -/
def ipam : Shape := .keys [("config", .list nothing)]

/-- An empty `ipam` counts as empty. -/
def network : Shape := .keys [("ipam", ipam)]

/-- Lists of empty preferences count as empty. -/
def placement : Shape := .keys [("preferences", .list nothing)]

/-- An empty specification counts as empty. -/
def genericResource : Shape := .keys [("discrete_resource_spec", nothing)]

/-- The list of capabilities is always written. -/
def resourceDevice : Shape := .keys [("capabilities", .emptyList)]

/-- Lists of empty devices or resources count as empty. -/
def reservations : Shape := .keys [("devices", .list resourceDevice), ("generic_resources", .list genericResource)]

/-- Empty limits and reservations count as empty. -/
def resources : Shape := .keys [("limits", nothing), ("reservations", reservations)]

/-- Empty settings count as empty. -/
def deploy : Shape :=
  .keys [("placement", placement), ("resources", resources), ("restart_policy", nothing), ("rollback_config", nothing),
    ("update_config", nothing)]

end Shapes

/-- Extension keys inside a network. -/
def networkKeys (E : Env) : Record (Structs.network E) → Prop
  | (d, o, a, e, (ipam : Option (Record (Structs.ipam E))), r) =>
    ExtensionsOk (Structs.network E) (d, o, a, e, ipam, r) ∧ ∀ i ∈ ipam, ExtensionsOk (Structs.ipam E) i

/-- Extension keys inside reservations. -/
def reservationsKeys (E : Env) : Record (Structs.reservations E) → Prop
  | (c, m, (devices : List (Record Structs.resourceDevice)), (resources : List (Record Structs.genericResource)), r) =>
    ExtensionsOk (Structs.reservations E) (c, m, devices, resources, r) ∧
      (∀ d ∈ devices, ExtensionsOk Structs.resourceDevice d) ∧ ∀ g ∈ resources, ExtensionsOk Structs.genericResource g

/-- Extension keys inside resources. -/
def resourcesKeys (E : Env) : Record (Structs.resources E) → Prop
  | (l, (reservations : Option (Record (Structs.reservations E))), r) =>
    ExtensionsOk (Structs.resources E) (l, reservations, r) ∧ ∀ x ∈ reservations, reservationsKeys E x

/-- Extension keys inside the settings for deployment. -/
def deployKeys (E : Env) : Record (Structs.deploy E) → Prop
  | (e, l, m, (placement : Option (Record Structs.placement)), n, (resources : Option (Record (Structs.resources E))), r) =>
    ExtensionsOk (Structs.deploy E) (e, l, m, placement, n, resources, r) ∧
      (∀ p ∈ placement, ExtensionsOk Structs.placement p) ∧ ∀ x ∈ resources, resourcesKeys E x

/-- A struct with a function `is_empty`: its fields, the function, what is written for an empty one, and that the keys of
its extensions are extension keys, which matters if anything is written for an empty one. -/
structure EmptyInfo where
  fields : List Item
  isEmpty : Record fields → Bool
  shape : Shape
  keysOk : Record fields → Prop := fun _ => True

/-- The structs that have a function `is_empty`. -/
def emptiable (E : Env) : List EmptyInfo :=
  [⟨Structs.ipamConfig E, Structs.ipamConfigIsEmpty E, nothing, fun _ => True⟩,
    ⟨Structs.ipam E, Structs.ipamIsEmpty E, Shapes.ipam, ExtensionsOk (Structs.ipam E)⟩,
    ⟨Structs.network E, Structs.networkIsEmpty E, Shapes.network, networkKeys E⟩,
    ⟨Structs.volume, Structs.volumeIsEmpty, nothing, fun _ => True⟩,
    ⟨Structs.blkioConfig, Structs.blkioConfigIsEmpty, nothing, fun _ => True⟩,
    ⟨Structs.preference, Structs.preferenceIsEmpty, nothing, fun _ => True⟩,
    ⟨Structs.placement, Structs.placementIsEmpty, Shapes.placement, ExtensionsOk Structs.placement⟩,
    ⟨Structs.restartPolicy, Structs.restartPolicyIsEmpty, nothing, fun _ => True⟩,
    ⟨Structs.updateOrRollbackConfig, Structs.updateOrRollbackConfigIsEmpty, nothing, fun _ => True⟩,
    ⟨Structs.limits E, Structs.limitsIsEmpty E, nothing, fun _ => True⟩,
    ⟨Structs.discreteResourceSpec, Structs.discreteResourceSpecIsEmpty, nothing, fun _ => True⟩,
    ⟨Structs.genericResource, Structs.genericResourceIsEmpty, Shapes.genericResource, ExtensionsOk Structs.genericResource⟩,
    ⟨Structs.resourceDevice, Structs.resourceDeviceIsEmpty, Shapes.resourceDevice, ExtensionsOk Structs.resourceDevice⟩,
    ⟨Structs.reservations E, Structs.reservationsIsEmpty E, Shapes.reservations, reservationsKeys E⟩,
    ⟨Structs.resources E, Structs.resourcesIsEmpty E, Shapes.resources, resourcesKeys E⟩,
    ⟨Structs.deploy E, Structs.deployIsEmpty E, Shapes.deploy, deployKeys E⟩,
    ⟨Structs.logging, Structs.loggingIsEmpty, nothing, fun _ => True⟩,
    ⟨Structs.build E, Structs.buildIsEmpty E, nothing, fun _ => True⟩,
    ⟨Structs.serviceNetwork E, Structs.serviceNetworkIsEmpty E, nothing, fun _ => True⟩,
    ⟨Structs.volumeOptions, Structs.volumeOptionsIsEmpty, nothing, fun _ => True⟩,
    ⟨Structs.bindOptions, Structs.bindOptionsIsEmpty, nothing, fun _ => True⟩,
    ⟨Structs.tmpfsOptions, Structs.tmpfsOptionsIsEmpty, nothing, fun _ => True⟩]

end Spec
