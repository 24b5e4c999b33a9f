import Verif.Std.Str
import Verif.Std.IndexMap

/-
Model of `std::path` on Unix, for paths that are valid UTF-8: the operations the code calls
(`is_absolute`, `components`, `parent`, `file_name`, `extension`, `PathBuf::push`, `PathBuf::pop`).

A path is its text.  Rust compares paths by components (`Path.eq`), so equality of the text implies equality in Rust.
-/

namespace Rust

/-- `std::path::Component` on Unix. -/
inductive Component
  | rootDir | curDir | parentDir | normal (s : Str)
  deriving DecidableEq, Repr

namespace Path

/-- `Path::is_absolute` on Unix: the text starts with `/`. -/
def isAbsolute (p : Str) : Bool := p.head? = some '/'

/-- The part of the text before the body (`Components::len_before_body`: the root `/`, or a leading `.` which is a
component of its own), and the body. -/
def front (p : Str) : Str × Str :=
  match p with
  | '/' :: body => (['/'], body)
  | ['.'] => (['.'], [])
  | '.' :: '/' :: body => (['.'], '/' :: body)
  | _ => ([], p)

/-- Pieces that are not components (`parse_single_component` answers `None`). -/
def skip (piece : Str) : Bool := piece = [] || piece = ['.']

/-- `parse_single_component` for the other pieces. -/
def toComponent (piece : Str) : Component := if piece = ['.', '.'] then .parentDir else .normal piece

/-- `Path::components`. -/
def components (p : Str) : List Component :=
  (if (front p).1 = ['/'] then [.rootDir] else if (front p).1 = ['.'] then [.curDir] else []) ++
    ((split '/' (front p).2).filter (fun piece => !skip piece)).map toComponent

/-- `PartialEq for Path` (and `PathBuf`): by components. -/
def eq (p q : Str) : Bool := components p = components q

/-- For sets of paths. -/
def rustEq : RustEq Str := ⟨eq⟩

/-- `Path::parent`: take the last component off (`Components::next_back`), then take off what is not a component
(`Components::as_path`).  If the body has no component, the last component is the root (no parent), or the leading
`.` (the parent is the empty path), or there is none. -/
def parent (p : Str) : Option Str :=
  match (split '/' (front p).2).reverse.dropWhile skip with
  | _ :: rest => some ((front p).1 ++ joinWith '/' (rest.dropWhile skip).reverse)
  | [] => if (front p).1 = ['.'] then some [] else none

/-- `PathBuf::pop`: truncate to the parent. -/
def pop (p : Str) : Str × Bool :=
  match parent p with
  | some q => (q, true)
  | none => (p, false)

/-- `PathBuf::push`: an absolute path replaces; otherwise a separator is added if the path is not empty and does
not end with one. -/
def push (p q : Str) : Str :=
  if isAbsolute q then q
  else if p ≠ [] ∧ p.getLast? ≠ some '/' then p ++ '/' :: q
  else p ++ q

/-- `Path::file_name`: the last component, if it is a normal one. -/
def fileName (p : Str) : Option Str :=
  match (components p).getLast? with
  | some (.normal f) => some f
  | _ => none

/-- `Path::extension`: the part of the file name after its last dot, unless there is none or the dot is the first
character (`rsplit_file_at_dot`). -/
def extension (p : Str) : Option Str :=
  match fileName p with
  | none => none
  | some f =>
    match rsplitOnce '.' f with
    | none => none
    | some (before, after) => if before = [] then none else some after

end Path

end Rust
