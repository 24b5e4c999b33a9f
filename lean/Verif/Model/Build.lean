import Verif.Std.Path

/-
Model of `SshAuth` (`src/service/build/ssh_auth.rs`) and `Context` (`src/service/build/context.rs`).

Paths are their text (valid UTF-8), so `Path::display` is the text itself.
-/

namespace Compose
open Rust

/-! ### SSH authentication -/

/-- `IdError`, /repo/src/service/build/ssh_auth.rs:156-165. -/
inductive SshIdError
  | emptyId | missingPath
  deriving DecidableEq, Repr

/-- `Id`, /repo/src/service/build/ssh_auth.rs:89-95. -/
structure SshId where
  id : Str
  path : Str
  deriving DecidableEq, Repr

/-- `Id::new`, /repo/src/service/build/ssh_auth.rs:105-123. -/
def SshId.new (id path : Str) : Except SshIdError SshId :=
  if id = [] then .error .emptyId
  else if path = [] then .error .missingPath
  else .ok ⟨id, path⟩

/-- `FromStr for Id`, /repo/src/service/build/ssh_auth.rs:138-146. -/
def SshId.parse (s : Str) : Except SshIdError SshId :=
  match splitOnce '=' s with
  | none => .error .missingPath
  | some (id, path) => SshId.new id path

/-- `Display for Id`, /repo/src/service/build/ssh_auth.rs:148-153. -/
def SshId.show (i : SshId) : Str := i.id ++ '=' :: i.path

/-- `SshAuth`, /repo/src/service/build/ssh_auth.rs:17-26. -/
inductive SshAuth
  | default
  | id (i : SshId)
  deriving DecidableEq, Repr

/-- `PartialEq for SshAuth` and `Id` (derived; the path is a `Box<Path>`), /repo/src/service/build/ssh_auth.rs:17, 89. -/
def SshAuth.eq : SshAuth → SshAuth → Bool
  | .default, .default => true
  | .id i, .id j => i.id = j.id && Path.eq i.path j.path
  | _, _ => false

/-- For sets of them. -/
instance : RustEq SshAuth := ⟨SshAuth.eq⟩

/-- `FromStr for SshAuth`, /repo/src/service/build/ssh_auth.rs:64-73. -/
def SshAuth.parse (s : Str) : Except SshIdError SshAuth :=
  if s = "default".toList then .ok .default else (SshId.parse s).map .id

/-- `Display for SshAuth`, /repo/src/service/build/ssh_auth.rs:75-82. -/
def SshAuth.show : SshAuth → Str
  | .default => "default".toList
  | .id i => i.show

/-! ### Build context -/

/-- The parts of a `url::Url` the code looks at; `text` is what `Display` and `From<Url> for String` give. -/
structure Url where
  text : Str
  scheme : Str
  path : Str
  fragment : Option Str
  deriving DecidableEq, Repr

/-- `Context`, /repo/src/service/build/context.rs:20-42. -/
inductive Context
  | path (p : Str)
  | url (u : Url)
  deriving DecidableEq, Repr

/-- `Context::parse`, /repo/src/service/build/context.rs:49-57; `parseUrl` is `Url::from_str`. -/
def Context.parse (parseUrl : Str → Option Url) (s : Str) : Context :=
  match parseUrl s with
  | some u => .url u
  | none => .path s

/-- `Context::as_url`, /repo/src/service/build/context.rs:71-77. -/
def Context.asUrl : Context → Option Url
  | .url u => some u
  | .path _ => none

/-- `Context::is_git_repo_url`, /repo/src/service/build/context.rs:83-91. -/
def Context.isGitRepoUrl (c : Context) : Bool :=
  match c.asUrl with
  | none => false
  | some u =>
    (eqIgnoreAsciiCase u.scheme "http".toList || eqIgnoreAsciiCase u.scheme "https".toList) &&
      match Path.extension u.path with
      | none => false
      | some ext => eqIgnoreAsciiCase ext "git".toList

/-- The part of `branch_or_tag` after the check, /repo/src/service/build/context.rs:103-108. -/
def Context.branchOfFragment (fragment : Str) : Option Str :=
  match splitOnce ':' fragment with
  | some (branch, _) => some branch
  | none => some fragment

/-- `Context::branch_or_tag`, /repo/src/service/build/context.rs:96-108. -/
def Context.branchOrTag (c : Context) : Option Str :=
  if !c.isGitRepoUrl then none else (c.asUrl.bind Url.fragment).bind branchOfFragment

/-- `Context::subdirectory`, /repo/src/service/build/context.rs:113-120. -/
def Context.subdirectory (c : Context) : Option Str :=
  if !c.isGitRepoUrl then none else ((c.asUrl.bind Url.fragment).bind (splitOnce ':')).map (·.2)

/-- `Context::into_string` and `Display`, /repo/src/service/build/context.rs:129-136, 216-223 (paths are valid UTF-8). -/
def Context.show : Context → Str
  | .path p => p
  | .url u => u.text

/-- `Default for Context`, /repo/src/service/build/context.rs:138-142. -/
def Context.default : Context := .path ".".toList

end Compose
