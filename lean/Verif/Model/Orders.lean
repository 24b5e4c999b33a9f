import Verif.Model.Compare
import Verif.Model.Volumes

/-
`PartialOrd` and `Ord` of paths (`AbsolutePath` and `HostPath`, `src/service/volumes.rs`) and of short or long syntaxes
(`src/common/short_or_long.rs`).
-/

namespace Rust

/-- `Ord for Component` (std, derived): the variants in the order in which they are declared, then the names. -/
def Component.cmp : Component → Component → Ordering
  | .rootDir, .rootDir => .eq
  | .rootDir, _ => .lt
  | .curDir, .rootDir => .gt
  | .curDir, .curDir => .eq
  | .curDir, _ => .lt
  | .parentDir, .normal _ => .lt
  | .parentDir, .parentDir => .eq
  | .parentDir, _ => .gt
  | .normal a, .normal b => Compose.compareStr a b
  | .normal _, _ => .gt

/-- `compare_components` (std): the first components that differ decide.  Simplified: std first skips the bytes that are
equal, which only saves time. -/
def compareComponents : List Component → List Component → Ordering
  | [], [] => .eq
  | [], _ :: _ => .lt
  | _ :: _, [] => .gt
  | a :: s, b :: t => (a.cmp b).then (compareComponents s t)

/-- `Ord for Path` and `PathBuf` (std). -/
def Path.cmp (p q : Str) : Ordering := compareComponents (components p) (components q)

end Rust

namespace Compose
open Rust

/-- `#[derive(PartialOrd, Ord)]` of `AbsolutePath` and `HostPath`, /repo/src/service/volumes.rs:294-298, 586-590. -/
def pathCmp (a b : Str) : Ordering := Path.cmp a b

/-- `#[derive(PartialOrd, Ord)]` of `ShortOrLong`, /repo/src/common/short_or_long.rs:45-53: the variants in the order in
which they are declared, then what they contain.  `cmpS` and `cmpL` are the orders of `S` and `L`. -/
def ShortOrLong.cmp {S L : Type} (cmpS : S → S → Ordering) (cmpL : L → L → Ordering) :
    ShortOrLong S L → ShortOrLong S L → Ordering
  | .short a, .short b => cmpS a b
  | .short _, .long _ => .lt
  | .long _, .short _ => .gt
  | .long a, .long b => cmpL a b

end Compose
