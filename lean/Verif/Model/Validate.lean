import Verif.Model.Volumes

/-
Model of the validation functions of `Compose` (`src/lib.rs`) and `Service` (`src/service.rs`).

Only the fields that validation reads are represented.  An `IndexMap`/`IndexSet` is the list of its entries in
order.
-/

namespace Compose
open Rust

/-- `ShortOrLong::keys` for a set or a map, /repo/src/common/short_or_long.rs:108-113. -/
def ShortOrLong.keys {K V : Type} : ShortOrLong (List K) (List (K × V)) → List K
  | .short set => set
  | .long map => map.map (·.1)

/-- `NetworkConfig`, /repo/src/service/network_config.rs:36-46 (`M` is `NetworkMode`, `N` the settings of a
network). -/
inductive NetworkConfig (M N : Type)
  | networkMode (mode : M)
  | networks (networks : ShortOrLong (List Str) (List (Str × Option N)))

/-- `ConfigOrSecret`, /repo/src/service/config_or_secret.rs:30-86. -/
structure ConfigOrSecret (V : Type) where
  source : Str
  target : Option Str := none
  uid : Option Nat := none
  gid : Option Nat := none
  mode : Option Nat := none
  extensions : List (Str × V) := []

/-- The fields of `Service` that validation reads, /repo/src/service.rs:221, 431, 573, 663. -/
structure Service (M N V : Type) where
  networkConfig : Option (NetworkConfig M N) := none
  volumes : List (ShortOrLong ShortVolume (Mount V)) := []
  configs : List (ShortOrLong Str (ConfigOrSecret V)) := []
  secrets : List (ShortOrLong Str (ConfigOrSecret V)) := []

/-- The fields of `Compose` that validation reads, /repo/src/lib.rs:187-217.  `R` is the type of the declared
resources. -/
structure File (M N V R : Type) where
  services : List (Str × Service M N V)
  networks : List (Str × R) := []
  volumes : List (Str × R) := []
  configs : List (Str × R) := []
  secrets : List (Str × R) := []

/-- `ResourceKind`, /repo/src/lib.rs:414-423. -/
inductive ResourceKind
  | network | volume | config | secret
  deriving DecidableEq, Repr

/-- `ValidationError`, /repo/src/lib.rs:378-386. -/
structure ValidationError where
  service : Option Str
  resource : Str
  kind : ResourceKind
  deriving DecidableEq, Repr

/-- `IndexMap::contains_key`. -/
def containsKey {R : Type} (map : List (Str × R)) (key : Str) : Bool := (map.map (·.1)).contains key

/-- The loop of the three `Service::validate_…` functions: return the first name without entry in the map. -/
def firstUndefined {R : Type} (map : List (Str × R)) : List Str → Except Str Unit
  | [] => .ok ()
  | name :: names => if !containsKey map name then .error name else firstUndefined map names

namespace Service
variable {M N V R : Type}

/-- `Service::validate_networks`, /repo/src/service.rs:691-701. -/
def validateNetworks (self : Service M N V) (networks : List (Str × R)) : Except Str Unit :=
  match self.networkConfig with
  | some (.networks serviceNetworks) => firstUndefined networks serviceNetworks.keys
  | _ => .ok ()

/-- The `source` bound by the or-pattern in /repo/src/service.rs:710-712 and 728-730. -/
def sourceOf : ShortOrLong Str (ConfigOrSecret V) → Str
  | .short source => source
  | .long c => c.source

/-- `Service::validate_configs`, /repo/src/service.rs:709-719. -/
def validateConfigs (self : Service M N V) (configs : List (Str × R)) : Except Str Unit :=
  firstUndefined configs (self.configs.map sourceOf)

/-- `Service::validate_secrets`, /repo/src/service.rs:727-737. -/
def validateSecrets (self : Service M N V) (secrets : List (Str × R)) : Except Str Unit :=
  firstUndefined secrets (self.secrets.map sourceOf)

end Service

namespace File
variable {M N V R : Type}

/-- The loop over the services of /repo/src/lib.rs:279-287, 338-346 and 360-368. -/
def eachService (kind : ResourceKind) (check : Service M N V → Except Str Unit) :
    List (Str × Service M N V) → Except ValidationError Unit
  | [] => .ok ()
  | (name, service) :: services =>
    match check service with
    | .error resource => .error ⟨some name, resource, kind⟩
    | .ok () => eachService kind check services

/-- `Compose::validate_networks`, /repo/src/lib.rs:278-290. -/
def validateNetworks (self : File M N V R) : Except ValidationError Unit :=
  eachService .network (·.validateNetworks self.networks) self.services

/-- The loop of `Compose::validate_volumes`, /repo/src/lib.rs:307-324; `seen` is the hash map. -/
def volumeLoop (volumes : List (Str × R)) : (Str → Option Bool) → List Str → Except ValidationError Unit
  | _, [] => .ok ()
  | seen, volume :: rest =>
    match seen volume with
    | some flagged =>
      if !flagged && !containsKey volumes volume then .error ⟨none, volume, .volume⟩
      else volumeLoop volumes (fun v => if v = volume then some true else seen v) rest
    | none => volumeLoop volumes (fun v => if v = volume then some false else seen v) rest

/-- `Compose::validate_volumes`, /repo/src/lib.rs:301-327. -/
def validateVolumes (self : File M N V R) : Except ValidationError Unit :=
  volumeLoop self.volumes (fun _ => none)
    (self.services.flatMap fun (_, service) => namedVolumesIter service.volumes)

/-- `Compose::validate_configs`, /repo/src/lib.rs:337-349. -/
def validateConfigs (self : File M N V R) : Except ValidationError Unit :=
  eachService .config (·.validateConfigs self.configs) self.services

/-- `Compose::validate_secrets`, /repo/src/lib.rs:359-371. -/
def validateSecrets (self : File M N V R) : Except ValidationError Unit :=
  eachService .secret (·.validateSecrets self.secrets) self.services

/-- `Compose::validate_all`, /repo/src/lib.rs:262-268. -/
def validateAll (self : File M N V R) : Except ValidationError Unit := do
  self.validateNetworks
  self.validateVolumes
  self.validateConfigs
  self.validateSecrets

end File

end Compose
