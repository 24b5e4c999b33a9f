import Verif.Model.Compare
import Verif.Model.Keys

/-
The types that are used as keys: `==`, `Ord`, `Hash` and `Borrow<str>`, and how a hash map uses them to store values and to
find them by text.
-/

namespace Compose
open Rust

/-- What the maps of std and `indexmap` use of a type whose values are found by text.  `S` is the state of a hasher. -/
structure KeyType (S : Type) where
  Ty : Type
  /-- the checked constructor -/
  new : Str → Option Ty
  /-- `Borrow<str>` -/
  borrow : Ty → Str
  /-- `PartialEq` -/
  eq : Ty → Ty → Bool
  /-- `PartialEq<str>` -/
  eqStr : Ty → Str → Bool
  /-- `Ord` -/
  cmp : Ty → Ty → Ordering
  /-- `Hash`, from the hash of a `str` -/
  hash : (Str → S → S) → Ty → S → S

/-- A type with `key_impls!`, /repo/src/common/keys.rs:174-258, and derived `PartialEq`, `Ord` and `Hash`: `Box<str>` has those
of `str`. -/
structure TextKey where
  inner : Str
  deriving DecidableEq

namespace TextKey

/-- Derived `PartialEq`, /repo/src/common/keys.rs:13. -/
def eq (a b : TextKey) : Bool := a.inner == b.inner

/-- `as_str`, `AsRef<str>` and `Borrow<str>`, /repo/src/common/keys.rs:186-188 and 207-217. -/
def borrow (a : TextKey) : Str := a.inner

/-- `PartialEq<str>` and `PartialEq<&str>`, /repo/src/common/keys.rs:219-229. -/
def eqStr (a : TextKey) (s : Str) : Bool := a.borrow == s

/-- Derived `Ord`, /repo/src/common/keys.rs:13. -/
def cmp (a b : TextKey) : Ordering := compareStr a.inner b.inner

/-- Derived `Hash`, /repo/src/common/keys.rs:13. -/
def hash {S : Type} (hashStr : Str → S → S) (a : TextKey) : S → S := hashStr a.inner

/-- The type made by a checked constructor. -/
def type (S : Type) {ε : Type} (new : Str → Except ε Str) : KeyType S :=
  ⟨TextKey, fun s => (new s).toOption.map mk, borrow, eq, eqStr, cmp, hash⟩

end TextKey

namespace Image

/-- `PartialEq for Name`, /repo/src/service/image/name.rs:283-287. -/
def Name.eq (a b : Name) : Bool := a.inner == b.inner

/-- `PartialEq<str> for Name`, /repo/src/service/image/name.rs:289-299. -/
def Name.eqStr (a : Name) (s : Str) : Bool := a.inner == s

/-- `Borrow<str>` and `AsRef<str> for Name`, /repo/src/service/image/name.rs:263-273. -/
def Name.borrow (a : Name) : Str := a.inner

/-- `Ord for Name`, /repo/src/service/image/name.rs:301-311. -/
def Name.cmp (a b : Name) : Ordering := compareStr a.inner b.inner

/-- `Hash for Name`, /repo/src/service/image/name.rs:313-317. -/
def Name.hash {S : Type} (hashStr : Str → S → S) (a : Name) : S → S := hashStr a.inner

end Image

/-- `Borrow<str>` and `AsRef<str> for Image`, /repo/src/service/image.rs:561-571. -/
def Image.borrow (a : Image) : Str := a.asStr

/-- The types of the library that implement `Borrow<str>`: `Identifier`, `MapKey`, `ExtensionKey`, `Hostname`,
`ulimit::Resource`, `user::Name` and `CacheOption` (`key_impls!`, /repo/src/common/keys.rs:254-258,
/repo/src/service/hostname.rs:69, /repo/src/service/ulimit.rs:74, /repo/src/service/user.rs:378,
/repo/src/service/build/cache.rs:330), `image::Name`, `Tag` (/repo/src/service/image/tag.rs:17-18 and 96-126), `Digest`
(/repo/src/service/image/digest.rs:27-28 and 158-188) and `Image`. -/
def keyTypes (S : Type) : List (KeyType S) :=
  [TextKey.type S identifierNew, TextKey.type S mapKeyNew, TextKey.type S extensionKeyNew, TextKey.type S hostnameNew,
    TextKey.type S ulimitResourceNew, TextKey.type S userNameNew, TextKey.type S cacheOptionNew,
    TextKey.type S Image.tagNew, TextKey.type S Image.digestNew,
    ⟨Image.Name, fun s => (Image.Name.new s).toOption, Image.Name.borrow, Image.Name.eq, Image.Name.eqStr,
      Image.Name.cmp, Image.Name.hash⟩,
    ⟨Image, fun s => (Image.parse s).toOption, Image.borrow, Image.eq, Image.eqStr, Image.cmp, Image.hash⟩]

/-- `HashMap` and `IndexMap` (std, `indexmap`): every entry is kept with the hash of its key.  The buckets and the order in
which they are searched are left out. -/
abbrev HashTable (S K V : Type) := List (S × K × V)

namespace HashTable

variable {S V : Type} [DecidableEq S] (T : KeyType S) (hashStr : Str → S → S) (seed : S)

/-- `insert`: an entry whose key has the same hash and is equal gets the new value; otherwise there is a new entry. -/
def insert (m : HashTable S T.Ty V) (k : T.Ty) (v : V) : HashTable S T.Ty V :=
  let h := T.hash hashStr k seed
  if m.any fun e => decide (e.1 = h) && T.eq e.2.1 k then
    m.map fun e => if decide (e.1 = h) && T.eq e.2.1 k then (e.1, e.2.1, v) else e
  else m ++ [(h, k, v)]

/-- `get` with a text: the hash of the text and `Borrow<str>` are used. -/
def getStr (m : HashTable S T.Ty V) (t : Str) : Option V :=
  (m.find? fun e => decide (e.1 = hashStr t seed) && T.borrow e.2.1 == t).map (·.2.2)

/-- A map made by inserting entries one after the other. -/
def ofEntries (es : List (T.Ty × V)) : HashTable S T.Ty V := es.foldl (fun m e => insert T hashStr seed m e.1 e.2) []

end HashTable
end Compose
