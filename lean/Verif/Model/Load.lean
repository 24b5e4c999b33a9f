import Verif.Model.Structs
import Verif.Model.Validate

/- The structs that are read from a file (`Verif.Model.Structs`, one product type per struct) as the structures that the
functions of the library work on.  In the code these are the same types; here the fields are only carried over, no function
of the library corresponds to these definitions. -/

namespace Compose.Load
open Rust Derive

/-- `BindPropagation`, /repo/src/service/volumes/mount.rs:558-578. -/
def propagation : Structs.BindPropagation → BindPropagation
  | .private => .private
  | .shared => .shared
  | .slave => .slave
  | .unbindable => .unbindable
  | .rPrivate => .rprivate
  | .rShared => .rshared
  | .rSlave => .rslave
  | .rUnbindable => .runbindable

/-- `Common`, /repo/src/service/volumes/mount.rs:765-785. -/
def common : Record Structs.common → MountCommon Content
  | (target, readOnly, consistency, extensions, _) => ⟨target, readOnly, consistency, extensions⟩

/-- `Mount`, /repo/src/service/volumes/mount.rs:22-40. -/
def mount : Structs.MountOf → Mount Content
  | .volume (source, options, c, _) =>
    let options : Option (Record Structs.volumeOptions) := options
    .volume ⟨source, options.map fun (nocopy, subpath, extensions, _) => ⟨nocopy, subpath, extensions⟩, common c⟩
  | .bind (source, options, c, _) =>
    let options : Option (Record Structs.bindOptions) := options
    .bind ⟨source, options.map fun (p, createHostPath, selinux, extensions, _) =>
      let p : Option Structs.BindPropagation := p
      ⟨p.map propagation, createHostPath, selinux, extensions⟩, common c⟩
  | .tmpfs (options, c, _) =>
    let options : Option (Record Structs.tmpfsOptions) := options
    .tmpfs (options.map fun (size, mode, extensions, _) => ⟨size, mode, extensions⟩) (common c)
  | .namedPipe (source, c, _) => .namedPipe source (common c)
  | .cluster (source, c, _) => .cluster source (common c)

/-- The short or long form of something whose long form is a struct. -/
def longForm {S L L' : Type} (f : L → L') : ShortOrLong S L → ShortOrLong S L'
  | .short s => .short s
  | .long l => .long (f l)

/-- `ConfigOrSecret`, /repo/src/service/config_or_secret.rs:30-86. -/
def configOrSecret : Record Structs.configOrSecret → ConfigOrSecret Content
  | (source, target, uid, gid, mode, extensions, _) => ⟨source, target, uid, gid, mode, extensions⟩

/-- `NetworkConfig`, /repo/src/service/network_config.rs:36-46. -/
def networkConfig (E : Env) : NetworkConfigOf (Structs.Networks E) → NetworkConfig NetworkMode (Record (Structs.serviceNetwork E))
  | .networkMode mode => .networkMode mode
  | .networks networks => .networks networks

/-- The fields after the first `n`. -/
def rest : (n : Nat) → (is : List Item) → Record is → Record (is.drop n)
  | 0, _, r => r
  | _ + 1, [], r => r
  | n + 1, _ :: is, r => rest n is r.2

/-- The fields of `Service` that validation reads, /repo/src/service.rs:221, 431, 573, 663. -/
noncomputable def service (E : Env) (r : Record (Structs.service E)) :
    Service NetworkMode (Record (Structs.serviceNetwork E)) Content :=
  let configs : List (ShortOrLong Str (Record Structs.configOrSecret)) := (rest 17 (Structs.service E) r).1
  let networks : Option (NetworkConfigOf (Structs.Networks E)) := (rest 48 (Structs.service E) r).1
  let secrets : List (ShortOrLong Str (Record Structs.configOrSecret)) := (rest 67 (Structs.service E) r).1
  let volumes : List (ShortOrLong ShortVolume Structs.MountOf) := (rest 80 (Structs.service E) r).1
  {
    networkConfig := networks.map (networkConfig E)
    volumes := volumes.map (longForm mount)
    configs := configs.map (longForm configOrSecret)
    secrets := secrets.map (longForm configOrSecret) }

/-- The keys of a section; validation does not look at the resources. -/
def keys {R : Type} (m : List (Str × R)) : List (Str × Unit) := m.map fun e => (e.1, ())

/-- The fields of `Compose` that validation reads, /repo/src/lib.rs:187-217. -/
noncomputable def file (E : Env) : Record (Structs.compose E) →
    File NetworkMode (Record (Structs.serviceNetwork E)) Content Unit
  | (_, _, _, services, networks, volumes, configs, secrets, _) =>
    let services : List (Str × Record (Structs.service E)) := services
    {
      services := services.map fun e => (e.1, service E e.2)
      networks := keys networks
      volumes := keys volumes
      configs := keys configs
      secrets := keys secrets }

end Compose.Load
