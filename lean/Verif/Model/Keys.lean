import Verif.Std.Int
import Verif.Std.Bytes

/-
Model of the validated string types:
`src/common/keys.rs`, `src/name.rs`, `src/service/hostname.rs`, `src/service/user.rs` (Name),
`src/service/ulimit.rs` (Resource), `src/service/build/cache.rs` (CacheOption),
`src/service/build/network.rs`.

Each `new` returns the stored text on success, so the newtypes `Identifier(Box<str>)`, … are represented by
their text.
-/

namespace Compose
open Rust

/-- `InvalidIdentifierError`, /repo/src/common/keys.rs:48-72. -/
inductive IdentifierError
  | empty | start (c : Char) | character (c : Char)
  deriving DecidableEq, Repr

/-- `char.is_ascii_alphanumeric() || matches!(char, '.' | '_' | '-')`, /repo/src/common/keys.rs:38. -/
def identifierChar (c : Char) : Bool := isAlnum c || c == '.' || c == '_' || c == '-'

/-- `Identifier::new`, /repo/src/common/keys.rs:25-44.  The `for` loop returning at the first bad character is
`List.find?`. -/
def identifierNew (s : Str) : Except IdentifierError Str :=
  match s with
  | [] => .error .empty
  | first :: chars =>
    if !isAlnum first then .error (.start first)
    else match chars.find? (fun c => !identifierChar c) with
      | some c => .error (.character c)
      | none => .ok s

/-- `InvalidMapKeyError`, /repo/src/common/keys.rs:107-116. -/
inductive MapKeyError
  | empty | multipleLines
  deriving DecidableEq, Repr

/-- `MapKey::new`, /repo/src/common/keys.rs:89-103. -/
def mapKeyNew (s : Str) : Except MapKeyError Str :=
  if s.isEmpty then .error .empty
  else if s.contains '\n' then .error .multipleLines
  else .ok s

/-- `InvalidExtensionKeyError`, /repo/src/common/keys.rs:163-172. -/
inductive ExtensionKeyError
  | missingPrefix (s : Str) | multipleLines
  deriving DecidableEq, Repr

/-- `ExtensionKey::new`, /repo/src/common/keys.rs:136-150. -/
def extensionKeyNew (s : Str) : Except ExtensionKeyError Str :=
  if (stripPrefix ['x', '-'] s).isNone then .error (.missingPrefix s)
  else if s.contains '\n' then .error .multipleLines
  else .ok s

/-- `ExtensionKey::strip_prefix`, /repo/src/common/keys.rs:155-159; `none` is the `expect` panic. -/
def extensionKeyStripPrefix (key : Str) : Option Str := stripPrefix ['x', '-'] key

/-- `InvalidNameError`, /repo/src/name.rs:61-85. -/
inductive NameError
  | empty | start (c : Char) | character (c : Char)
  deriving DecidableEq, Repr

/-- `Name::new` (project name), /repo/src/name.rs:30-49. -/
def projectNameNew (s : Str) : Except NameError Str :=
  match s with
  | [] => .error .empty
  | first :: chars =>
    if !(isLower first || isDigit first) then .error (.start first)
    else match chars.find? (fun c => !(isLower c || isDigit c || c == '_' || c == '-')) with
      | some c => .error (.character c)
      | none => .ok s

/-- `InvalidHostnameError`, /repo/src/service/hostname.rs:51-67. -/
inductive HostnameError
  | labelEmpty | character (c : Char) | labelStartEnd
  deriving DecidableEq, Repr

/-- Body of the label loop of `Hostname::new`, /repo/src/service/hostname.rs:33-43.  `some e` is the early
return. -/
def hostnameLabelError (label : Str) : Option HostnameError :=
  if label.isEmpty then some .labelEmpty
  else match label.find? (fun c => !isAlnum c && c != '-') with
    | some c => some (.character c)
    | none =>
      if label.head? = some '-' ∨ label.getLast? = some '-' then some .labelStartEnd else none

/-- `Hostname::new`, /repo/src/service/hostname.rs:26-47. -/
def hostnameNew (s : Str) : Except HostnameError Str :=
  match (split '.' s).findSome? hostnameLabelError with
  | some e => .error e
  | none => .ok s

/-- `InvalidNameError` (user), /repo/src/service/user.rs:347-376. -/
inductive UserNameError
  | empty | character (c : Char) | dollarSign | numeric | start | length
  deriving DecidableEq, Repr

/-- The loop of user `Name::new`, /repo/src/service/user.rs:320-332: `n` is the index of the next character,
`len` is `name_str.len()`; the result is the final value of `fully_numeric` or the early error. -/
def userNameLoop (len : Nat) : Nat → Bool → Str → Except UserNameError Bool
  | _, fullyNumeric, [] => .ok fullyNumeric
  | n, fullyNumeric, c :: cs =>
    if isLower c || isUpper c || c == '_' || c == '-' || c == '$' then
      if c = '$' ∧ n ≠ len - 1 then .error .dollarSign
      else userNameLoop len (n + 1) false cs
    else if isDigit c then userNameLoop len (n + 1) fullyNumeric cs
    else .error (.character c)

/-- user `Name::new`, /repo/src/service/user.rs:310-343. -/
def userNameNew (s : Str) : Except UserNameError Str :=
  if s.isEmpty then .error .empty
  else match userNameLoop (byteLen s) 0 true s with
    | .error e => .error e
    | .ok fullyNumeric =>
      if fullyNumeric then .error .numeric
      else if s.head? = some '-' then .error .start
      else if byteLen s > 32 then .error .length
      else .ok s

/-- `InvalidResourceError`, /repo/src/service/ulimit.rs:59-72. -/
inductive ResourceError
  | empty | character (c : Char)
  deriving DecidableEq, Repr

/-- ulimit `Resource::new`, /repo/src/service/ulimit.rs:38-55. -/
def ulimitResourceNew (s : Str) : Except ResourceError Str :=
  if s.isEmpty then .error .empty
  else match s.find? (fun c => !isLower c) with
    | some c => .error (.character c)
    | none => .ok s

/-- `char::is_whitespace` (Unicode `White_Space`). -/
def isWhitespace (c : Char) : Bool :=
  let n := c.toNat
  (9 ≤ n && n ≤ 13) || n == 0x20 || n == 0x85 || n == 0xA0 || n == 0x1680 ||
    (0x2000 ≤ n && n ≤ 0x200A) || n == 0x2028 || n == 0x2029 || n == 0x202F || n == 0x205F || n == 0x3000

/-- `InvalidCacheOptionError`, /repo/src/service/build/cache.rs:319-328. -/
inductive CacheOptionError
  | empty | whitespace
  deriving DecidableEq, Repr

/-- `CacheOption::new`, /repo/src/service/build/cache.rs:299-310. -/
def cacheOptionNew (s : Str) : Except CacheOptionError Str :=
  if s.isEmpty then .error .empty
  else if s.any isWhitespace then .error .whitespace
  else .ok s

/-- build `Network`, /repo/src/service/build/network.rs:16-22. -/
inductive BuildNetwork
  | identifier (i : Str) | none
  deriving DecidableEq, Repr

/-- build `Network::parse`, /repo/src/service/build/network.rs:35-44. -/
def buildNetworkParse (s : Str) : Except IdentifierError BuildNetwork :=
  if s = str!"none" then .ok .none
  else match identifierNew s with
    | .ok i => .ok (.identifier i)
    | .error e => .error e

/-- build `Network::as_str`, /repo/src/service/build/network.rs:50-55. -/
def buildNetworkAsStr : BuildNetwork → Str
  | .identifier i => i
  | .none => str!"none"

end Compose
