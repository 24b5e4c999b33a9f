import Verif.Spec.Regex
import Verif.Spec.Number
import Verif.Std.Int

/- Grammar of container images, after the OCI distribution and image specifications. -/

namespace Spec
open Rust (Str u16Max)
open Re

/-- `[a-z0-9]+` -/
def lowers : Lang := plus (cls lowerAlnum)

/-- `\.|_|__|-+` -/
def nameSeparator : Lang := lit ['.'] ∣∣ lit ['_'] ∣∣ lit ['_', '_'] ∣∣ plus (cls ['-'])

/-- `[a-z0-9]+((\.|_|__|-+)[a-z0-9]+)*` -/
def NamePart : Lang := lowers ⬝ star (nameSeparator ⬝ lowers)

/-- A registry: a name part with a dot, optionally followed by a colon and a port number. -/
def Registry (s : Str) : Prop :=
  '.' ∈ s ∧ (NamePart s ∨ ∃ host port n, s = host ++ ':' :: port ∧ NamePart host ∧ UInt u16Max port n)

/-- The first part of an image name is a registry when it has a dot. -/
def FirstPart (s : Str) : Prop := Registry s ∨ ('.' ∉ s ∧ NamePart s)

/-- `first(/part)*` -/
def ImageName : Lang := FirstPart ⬝ star (lit ['/'] ⬝ NamePart)

/-- `r` is the registry of the image name `name`: its first part, when that has a dot. -/
def RegistryOf (name r : Str) : Prop := '/' ∉ r ∧ '.' ∈ r ∧ (name = r ∨ ∃ rest, name = r ++ '/' :: rest)

/-- `[a-zA-Z0-9._-]{1,128}` -/
def ImageTag (s : Str) : Prop := plus (cls (alnum ++ "._-".toList)) s ∧ s.length ≤ 128

/-- `[a-z0-9]+([+._-][a-z0-9]+)*:[a-zA-Z0-9=_-]+` -/
def ImageDigest : Lang :=
  (lowers ⬝ star (cls "+._-".toList ⬝ lowers)) ⬝ lit [':'] ⬝ plus (cls (alnum ++ "=_-".toList))

/-- A name whose last part could be read as `name:tag`, because it is a lone registry with a port. -/
def PortLast (name : Str) : Prop := ':' ∈ name ∧ '/' ∉ name

end Spec
