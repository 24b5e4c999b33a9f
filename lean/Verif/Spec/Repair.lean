import Verif.Spec.Validate
import Mathlib.Data.List.Forall2
import Batteries.Data.List.Perm

/- Files with less in them, files put together, and files repaired by declaring what is reported. -/

namespace Spec
open Rust Compose

variable {M N V R : Type}

/-- The names of one kind that a service uses, one for each time it uses them. -/
def namesUsed : ResourceKind → Service M N V → List Str
  | .network => usedNetworks
  | .volume => mountedVolumes
  | .config => fun s => s.configs.map entryName
  | .secret => fun s => s.secrets.map entryName

/-- The section of the file that declares the resources of one kind. -/
def sectionOf : ResourceKind → File M N V R → List (Str × R)
  | .network => File.networks
  | .volume => File.volumes
  | .config => File.configs
  | .secret => File.secrets

/-- All names that a file uses, of all kinds. -/
def allUses (f : File M N V R) : List (ResourceKind × Str) :=
  [ResourceKind.network, .volume, .config, .secret].flatMap fun k =>
    f.services.flatMap fun s => (namesUsed k s.2).map fun name => (k, name)

/-- A service that uses nothing more than another one, and no volume more often. -/
def UsesLess (s t : Service M N V) : Prop :=
  (∀ k, namesUsed k s ⊆ namesUsed k t) ∧ (namesUsed .volume s).Subperm (namesUsed .volume t)

/-- A file with some services left out, others with less in them, in any order, and with more declarations. -/
def Smaller (f g : File M N V R) : Prop :=
  (∃ kept, kept.Subperm g.services ∧ List.Forall₂ (fun s t => s.1 = t.1 ∧ UsesLess s.2 t.2) f.services kept) ∧
    ∀ k name, Declared (sectionOf k g) name → Declared (sectionOf k f) name

/-- The file with one more declaration at the end of a section. -/
def declare (k : ResourceKind) (name : Str) (r : R) (f : File M N V R) : File M N V R :=
  match k with
  | .network => { f with networks := f.networks ++ [(name, r)] }
  | .volume => { f with volumes := f.volumes ++ [(name, r)] }
  | .config => { f with configs := f.configs ++ [(name, r)] }
  | .secret => { f with secrets := f.secrets ++ [(name, r)] }

/-- What someone does who follows the error messages: declare what is reported. -/
def repair (r : R) (f : File M N V R) : File M N V R :=
  match f.validateAll with
  | .ok () => f
  | .error e => declare e.kind e.resource r f

/-- Do this some times. -/
def repairTimes (r : R) : Nat → File M N V R → File M N V R
  | 0, f => f
  | n + 1, f => repairTimes r n (repair r f)

/-- The services and sections of two files together. -/
def together (f g : File M N V R) : File M N V R where
  services := f.services ++ g.services
  networks := f.networks ++ g.networks
  volumes := f.volumes ++ g.volumes
  configs := f.configs ++ g.configs
  secrets := f.secrets ++ g.secrets

end Spec
