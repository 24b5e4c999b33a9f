import Verif.Spec.Image
import Verif.Model.Image

/-
What an image is made of, and what its getters show and its setters do, independently of how the code stores it.
From the model only the argument and result types (`TagOrDigest`, `Image.Name`), the getters and the setters are
used.
-/

namespace Spec
open Rust (Str splitOnce)
open Compose Compose.Image

/-- How a tag or digest is written after the name. -/
def suffix : Option TagOrDigest → Str
  | none => []
  | some (.tag t) => ':' :: t
  | some (.digest d) => '@' :: d

/-- A valid tag, a valid digest, or neither. -/
def ValidTod : Option TagOrDigest → Prop
  | none => True
  | some (.tag t) => ImageTag t
  | some (.digest d) => ImageDigest d

/-- A tag is present. -/
def isTag : Option TagOrDigest → Prop
  | some (.tag _) => True
  | _ => False

/-- The registry of a name and the rest of the name. -/
def nameParts (name : Str) : Option Str × Option Str :=
  match splitOnce '/' name with
  | none => if '.' ∈ name then (some name, none) else (none, some name)
  | some (first, rest) => if '.' ∈ first then (some first, some rest) else (none, some name)

/-- The parts of an image: `[registry/]path`, or just a registry, and then a tag or digest. -/
structure ImageParts where
  registry : Option Str
  path : Option Str
  label : Option TagOrDigest
  deriving DecidableEq, Repr

/-- The name: registry and path joined by `/`. -/
def ImageParts.name (p : ImageParts) : Str :=
  match p.registry, p.path with
  | some r, some x => r ++ '/' :: x
  | some r, none => r
  | none, some x => x
  | none, none => []

/-- The whole text. -/
def ImageParts.text (p : ImageParts) : Str := p.name ++ suffix p.label

/-- The parts of `name` together with `label`. -/
def partsOf (name : Str) (label : Option TagOrDigest) : ImageParts :=
  ⟨(nameParts name).1, (nameParts name).2, label⟩

/-- Every getter of the image returns, without panic, what it should for the parts `p`. -/
structure Shows (i : Image) (p : ImageParts) : Prop where
  hasName : p.registry.isSome ∨ p.path.isSome
  text : i.asStr = p.text
  registry : i.registry = some p.registry
  name : i.name = some p.name
  tag : i.tag = some (match p.label with | some (.tag t) => some t | _ => none)
  digest : i.digest = some (match p.label with | some (.digest d) => some d | _ => none)
  tagOrDigest : i.asTagOrDigest = some p.label

/-- The text of an image: a name and perhaps a tag or digest.  A lone registry with a port needs a tag. -/
def ImageText (s : Str) (i : Image) : Prop :=
  ∃ name label, s = name ++ suffix label ∧ ImageName name ∧ ValidTod label ∧ (PortLast name → isTag label) ∧
    Shows i (partsOf name label)

/-- The calls that change an image. -/
inductive Edit
  | setRegistry (r : Option Image.Name)
  | setName (n : Image.Name)
  | setTag (t : Option Str)
  | setDigest (d : Option Str)
  | setTagOrDigest (t : Option TagOrDigest)

/-- Making the call; `none` is a panic. -/
def Edit.run (i : Image) : Edit → Option Image
  | .setRegistry r => i.setRegistry r
  | .setName n => i.setName n
  | .setTag t => i.setTag t
  | .setDigest d => i.setDigest d
  | .setTagOrDigest t => i.setTagOrDigest t

/-- Making the calls one after the other. -/
def runEdits (i : Image) (es : List Edit) : Option Image := es.foldlM Edit.run i

/-- The arguments come from the validating constructors. -/
def Edit.Valid : Edit → Prop
  | .setRegistry none => True
  | .setRegistry (some n) => Image.Name.new n.inner = .ok n
  | .setName n => Image.Name.new n.inner = .ok n
  | .setTag t => ∀ x, t = some x → tagNew x = .ok x
  | .setDigest d => ∀ x, d = some x → digestNew x = .ok x
  | .setTagOrDigest t => ValidTod t

/-- What the call should do to the parts. -/
def Edit.apply (p : ImageParts) : Edit → ImageParts
  | .setRegistry r => { p with registry := r.map (·.inner) }
  | .setName n => partsOf n.inner p.label
  | .setTag t => { p with label := t.map .tag }
  | .setDigest d => { p with label := d.map .digest }
  | .setTagOrDigest t => { p with label := t }

/-- The call is not the removal of the registry from an image that has nothing else in its name. -/
def Edit.Safe (p : ImageParts) : Edit → Prop
  | .setRegistry none => ¬ (p.registry.isSome ∧ p.path = none)
  | _ => True

/-- Each call is safe at the time it is made. -/
def SafeEdits : ImageParts → List Edit → Prop
  | _, [] => True
  | p, e :: es => e.Safe p ∧ SafeEdits (e.apply p) es

/-- The call does not touch the registry alone. -/
def Edit.NotRegistry : Edit → Prop
  | .setRegistry _ => False
  | _ => True

end Spec
