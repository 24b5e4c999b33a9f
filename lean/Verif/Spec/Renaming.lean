import Verif.Spec.Repair

/- Files that differ in the names they use. -/

namespace Spec
open Rust Compose

variable {M N V R M' N' V' R' : Type}

/-- The names of one kind in a file: those that services use, and those that are declared. -/
def namesOf (k : ResourceKind) (f : File M N V R) : List Str :=
  (f.services.flatMap fun s => namesUsed k s.2) ++ (sectionOf k f).map Prod.fst

/-- `g` is `f` with other names: there are as many services in the same order, each service of `g` is called by the new name
of the service of `f`, and uses the new names of the things that the service of `f` uses, in the same order; and the sections
of `g` declare the new names of what those of `f` declare, in the same order.  Nothing is said about the rest of the files:
whether the short or the long syntax is used, the settings of the services and the resources. -/
structure Renamed (service : Str → Str) (resource : ResourceKind → Str → Str) (f : File M N V R) (g : File M' N' V' R') :
    Prop where
  services : List.Forall₂ (fun s t => t.1 = service s.1 ∧ ∀ k, namesUsed k t.2 = (namesUsed k s.2).map (resource k))
    f.services g.services
  sections : ∀ k, (sectionOf k g).map Prod.fst = ((sectionOf k f).map Prod.fst).map (resource k)

/-- Different names in the file get different new names. -/
def KeepsApart (resource : ResourceKind → Str → Str) (f : File M N V R) : Prop :=
  ∀ k, ∀ a ∈ namesOf k f, ∀ b ∈ namesOf k f, resource k a = resource k b → a = b

/-- The same error about the new names. -/
def renamedError (service : Str → Str) (resource : ResourceKind → Str → Str) (e : ValidationError) : ValidationError :=
  ⟨e.service.map service, resource e.kind e.resource, e.kind⟩

/-- The same answer about the new names. -/
def renamedAnswer (service : Str → Str) (resource : ResourceKind → Str → Str) :
    Except ValidationError Unit → Except ValidationError Unit
  | .ok () => .ok ()
  | .error e => .error (renamedError service resource e)

end Spec
