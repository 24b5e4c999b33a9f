import Verif.Spec.Structs

/- Files that can be loaded, saved and loaded again without a change. -/

namespace Spec
open Rust Compose

/-- A value is a file, or occurs in it. -/
inductive Part (v : Content) : Content → Prop
  | self : Part v v
  | item {w : Content} {vs : List Content} : w ∈ vs → Part v w → Part v (.seq vs)
  | value {k w : Content} {es : List (Content × Content)} : (k, w) ∈ es → Part v w → Part v (.map es)

/-- The keys whose value is written as a list or as a mapping, and left out if it is empty. -/
def listOrMapKeys : List Str :=
  ["labels", "args", "options", "environment", "annotations", "sysctls", "depends_on"].map String.toList

/-- The numbers in a file are as a data format gives them: 64-bit integers, signed only if they are negative.  No list or
map is given as `{}`, and no container with the name `ro` or `rw` is followed by `:rw`. -/
structure Ordinary (c : Content) : Prop where
  unsigned : ∀ n, Part (.u64 n) c → n < 2 ^ 64
  negative : ∀ i, Part (.i64 i) c → i < 0
  filled : ∀ es k, Part (.map es) c → k ∈ listOrMapKeys → (.str k, .map []) ∉ es
  noRo : ¬ Part (.str "container:ro:rw".toList) c
  noRw : ¬ Part (.str "container:rw:rw".toList) c

/-- What is assumed of URLs: the text of a parsed URL is parsed as that URL, and `.` is not a URL. -/
class UrlOk (E : Env) : Prop where
  again : ∀ s u, E.url s = some u → E.url u.text = some u
  dot : E.url ".".toList = none

/-- What a program holds after it has saved the file `r` and loaded it again, any number of times. -/
inductive Reloaded {E : Env} (r : Derive.Record (Structs.compose E)) : Derive.Record (Structs.compose E) → Prop
  | never : Reloaded r r
  | again {s t : Derive.Record (Structs.compose E)} : Reloaded r s →
      (Derive.struct (Structs.compose E)).de ((Derive.struct (Structs.compose E)).ser s) = .ok t → Reloaded r t

end Spec
