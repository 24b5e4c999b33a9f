import Verif.Model.Keys

/-
Model of `src/service/image.rs`, `src/service/image/name.rs`, `src/service/image/tag.rs`,
`src/service/image/digest.rs`.

`Tag<'a>(&'a str)` and `Digest<'a>(&'a str)` are represented by their text.  Byte positions are kept as in the
code; a slice or edit at a position that is not inside the string panics, which is `none` here.  `usize`
addition is taken not to overflow (a string has at most `isize::MAX` bytes); `usize` subtraction below zero is
a panic.
-/

namespace Compose
namespace Image
open Rust

/-- `char_is_alnum`, /repo/src/service/image.rs:711-713. -/
def charIsAlnum (c : Char) : Bool := isLower c || isDigit c

/-! ### `Name` -/

/-- `InvalidNamePartError`, /repo/src/service/image/name.rs:225-261. -/
inductive NamePartError
  | multipleSeparators | character (c : Char) | empty | start | «end» | registryPort (source : IntErr) (port : Str)
  deriving DecidableEq, Repr

/-- The `try_for_each` loop of `validate_part`, /repo/src/service/image/name.rs:171-207.  The counters are `u8`
but an error is returned before either exceeds 3. -/
def validatePartLoop : Nat → Nat → Bool → Str → Except NamePartError Unit
  | _, _, _, [] => .ok ()
  | dots, underscores, prevCharDash, c :: cs =>
    if isLower c || isDigit c then validatePartLoop 0 0 false cs
    else if c = '-' then
      if dots = 0 ∧ underscores = 0 then validatePartLoop dots underscores true cs
      else .error .multipleSeparators
    else if c = '.' then
      if dots + 1 = 1 ∧ underscores = 0 ∧ prevCharDash = false then validatePartLoop (dots + 1) underscores false cs
      else .error .multipleSeparators
    else if c = '_' then
      if dots = 0 ∧ underscores + 1 ≤ 2 ∧ prevCharDash = false then
        validatePartLoop dots (underscores + 1) false cs
      else .error .multipleSeparators
    else .error (.character c)

/-- `validate_part`, /repo/src/service/image/name.rs:170-220. -/
def validatePart (part : Str) : Except NamePartError Unit :=
  match validatePartLoop 0 0 false part with
  | .error e => .error e
  | .ok () =>
    if part.isEmpty then .error .empty
    else if !(part.head?.any charIsAlnum) then .error .start
    else if !(part.getLast?.any charIsAlnum) then .error .end
    else .ok ()

/-- `for part in split { validate_part(part)?; }`, /repo/src/service/image/name.rs:101-103. -/
def validateParts : List Str → Except NamePartError Unit
  | [] => .ok ()
  | p :: ps =>
    match validatePart p with
    | .error e => .error e
    | .ok () => validateParts ps

/-- `Name<'a>`, /repo/src/service/image/name.rs:34-40. -/
structure Name where
  inner : Str
  registryEnd : Option Nat
  deriving DecidableEq, Repr

/-- The first part of a name, /repo/src/service/image/name.rs:84-99: the new `registry_end` and the text passed
to `validate_part`. -/
def firstPart (first : Str) : Except NamePartError (Option Nat × Str) :=
  if first.contains '.' then
    match splitOnce ':' first with
    | some (host, port) =>
      match parseUnsigned u16Max port with
      | .error source => .error (.registryPort source port)
      | .ok _ => .ok (some (byteLen first), host)
    | none => .ok (some (byteLen first), first)
  else .ok (none, first)

/-- `Name::new`, /repo/src/service/image/name.rs:80-109.  `split` always yields a first part. -/
def Name.new (name : Str) : Except NamePartError Name :=
  match split '/' name with
  | [] => .ok ⟨name, none⟩
  | first :: parts =>
    match firstPart first with
    | .error e => .error e
    | .ok (registryEnd, first) =>
      match validatePart first with
      | .error e => .error e
      | .ok () =>
        match validateParts parts with
        | .error e => .error e
        | .ok () => .ok ⟨name, registryEnd⟩

/-- `&inner[..end]` when there is a registry. -/
def optSliceTo (inner : Str) : Option Nat → Option (Option Str)
  | none => some none
  | some n => (sliceTo inner n).map some

/-- `Name::registry`, /repo/src/service/image/name.rs:135-144; outer `none` is a panic. -/
def Name.registry (name : Name) : Option (Option Str) := optSliceTo name.inner name.registryEnd

/-! ### `Tag` and `Digest` -/

/-- `InvalidTagError`, /repo/src/service/image/tag.rs:78-94. -/
inductive TagError
  | character (c : Char) | empty | length
  deriving DecidableEq, Repr

/-- The characters of a tag, /repo/src/service/image/tag.rs:48. -/
def tagChar (c : Char) : Bool := isLower c || isUpper c || isDigit c || c == '.' || c == '_' || c == '-'

/-- `Tag::new`, /repo/src/service/image/tag.rs:43-61. -/
def tagNew (tag : Str) : Except TagError Str :=
  match tag.find? (fun c => !tagChar c) with
  | some c => .error (.character c)
  | none =>
    if tag.isEmpty then .error .empty
    else if byteLen tag > 128 then .error .length
    else .ok tag

/-- `InvalidDigestError`, /repo/src/service/image/digest.rs:117-156. -/
inductive DigestError
  | missingAlgorithm | algorithmSeparators | algorithmCharacter (c : Char) | encodeCharacter (c : Char)
  | algorithmStart | algorithmEnd | encodeEmpty
  deriving DecidableEq, Repr

/-- The loop over the algorithm, /repo/src/service/image/digest.rs:64-81. -/
def algorithmLoop : Nat → Str → Except DigestError Unit
  | _, [] => .ok ()
  | separators, c :: cs =>
    if isLower c || isDigit c then algorithmLoop 0 cs
    else if c = '+' ∨ c = '.' ∨ c = '_' ∨ c = '-' then
      if separators + 1 ≤ 1 then algorithmLoop (separators + 1) cs
      else .error .algorithmSeparators
    else .error (.algorithmCharacter c)

/-- The characters of the encoded data, /repo/src/service/image/digest.rs:84. -/
def encodedChar (c : Char) : Bool := isLower c || isUpper c || isDigit c || c == '=' || c == '_' || c == '-'

/-- `Digest::new`, /repo/src/service/image/digest.rs:56-100. -/
def digestNew (digest : Str) : Except DigestError Str :=
  match splitOnce ':' digest with
  | none => .error .missingAlgorithm
  | some (algorithm, encoded) =>
    match algorithmLoop 0 algorithm with
    | .error e => .error e
    | .ok () =>
      match encoded.find? (fun c => !encodedChar c) with
      | some c => .error (.encodeCharacter c)
      | none =>
        if algorithm.isEmpty then .error .missingAlgorithm
        else if !(algorithm.head?.any charIsAlnum) then .error .algorithmStart
        else if !(algorithm.getLast?.any charIsAlnum) then .error .algorithmEnd
        else if encoded.isEmpty then .error .encodeEmpty
        else .ok digest

/-! ### `Image` -/

/-- `TagOrDigestStart`, /repo/src/service/image.rs:587-592. -/
inductive Start
  | tag (n : Nat) | digest (n : Nat)
  deriving DecidableEq, Repr

/-- `TagOrDigestStart::into_inner`, /repo/src/service/image.rs:594-602. -/
def Start.intoInner : Start → Nat
  | .tag n => n
  | .digest n => n

/-- `*tag_or_digest = f(*tag_or_digest)` through `AsMut<usize>`, /repo/src/service/image.rs:604-623. -/
def Start.map (f : Nat → Nat) : Start → Start
  | .tag n => .tag (f n)
  | .digest n => .digest (f n)

/-- `TagOrDigest`, /repo/src/service/image.rs:627-632. -/
inductive TagOrDigest
  | tag (t : Str) | digest (d : Str)
  deriving DecidableEq, Repr

/-- `AsRef<str> for TagOrDigest`, /repo/src/service/image.rs:701-708. -/
def TagOrDigest.text : TagOrDigest → Str
  | .tag t => t
  | .digest d => d

/-- `TagOrDigest::separator`, /repo/src/service/image.rs:657-662. -/
def TagOrDigest.separator : TagOrDigest → Char
  | .tag _ => ':'
  | .digest _ => '@'

/-- `TagOrDigest::as_start`, /repo/src/service/image.rs:673-680. -/
def TagOrDigest.asStart (nameEnd : Nat) : TagOrDigest → Start
  | .tag _ => .tag (nameEnd + 1)
  | .digest _ => .digest (nameEnd + 1)

/-- `TagOrDigest::push_to_string`, /repo/src/service/image.rs:683-686. -/
def TagOrDigest.pushToString (t : TagOrDigest) (string : Str) : Str := string ++ t.separator :: t.text

end Image

open Image Rust

/-- `Image`, /repo/src/service/image.rs:35-45. -/
structure Image where
  inner : Str
  registryEnd : Option Nat
  start : Option Image.Start
  deriving DecidableEq, Repr

namespace Image

/-- `InvalidImageError`, /repo/src/service/image.rs:478-495. -/
inductive ImageError
  | digest (e : DigestError) | tag (e : TagError) | tagAndDigest | namePart (e : NamePartError)
  deriving DecidableEq, Repr

/-- Splitting off the digest, /repo/src/service/image.rs:92-96. -/
def splitDigest (image : Str) : Except ImageError (Str × Option Nat) :=
  match splitOnce '@' image with
  | none => .ok (image, none)
  | some (image, digest) =>
    match digestNew digest with
    | .error e => .error (.digest e)
    | .ok _ => .ok (image, some (byteLen image + 1))

/-- Splitting off the tag, /repo/src/service/image.rs:98-104. -/
def splitTag (image : Str) : Except ImageError (Str × Option Nat) :=
  match (rsplitOnce ':' image).filter (fun p => !p.2.contains '/') with
  | none => .ok (image, none)
  | some (image, tag) =>
    match tagNew tag with
    | .error e => .error (.tag e)
    | .ok _ => .ok (image, some (byteLen image + 1))

/-- Combining the two, /repo/src/service/image.rs:106-111. -/
def combineStarts : Option Nat → Option Nat → Except ImageError (Option Start)
  | none, none => .ok none
  | none, some tagStart => .ok (some (.tag tagStart))
  | some digestStart, none => .ok (some (.digest digestStart))
  | some _, some _ => .error .tagAndDigest

/-- `Image::parse_impl`, /repo/src/service/image.rs:89-116. -/
def parseImpl (image : Str) : Except ImageError (Option Nat × Option Start) :=
  match splitDigest image with
  | .error e => .error e
  | .ok (image, digestStart) =>
    match splitTag image with
    | .error e => .error e
    | .ok (image, tagStart) =>
      match combineStarts digestStart tagStart with
      | .error e => .error e
      | .ok tagOrDigest =>
        match Name.new image with
        | .error e => .error (.namePart e)
        | .ok name => .ok (name.registryEnd, tagOrDigest)

/-- `Image::parse`, /repo/src/service/image.rs:75-86. -/
def parse (image : Str) : Except ImageError Image :=
  match parseImpl image with
  | .error e => .error e
  | .ok (registryEnd, tagOrDigestStart) => .ok ⟨image, registryEnd, tagOrDigestStart⟩

/-- `Image::from_parts`, /repo/src/service/image.rs:132-154: the start is computed from the length *after*
pushing the tag or digest. -/
def fromParts (name : Name) : Option TagOrDigest → Image
  | none => ⟨name.inner, name.registryEnd, none⟩
  | some t =>
    let inner := t.pushToString name.inner
    ⟨inner, name.registryEnd, some (t.asStart (byteLen inner))⟩

/-- `Image::as_str`, `Display`, /repo/src/service/image.rs:158-160, 579-583. -/
def asStr (i : Image) : Str := i.inner

/-- `Image::registry`, /repo/src/service/image.rs:178-187. -/
def registry (i : Image) : Option (Option Str) := optSliceTo i.inner i.registryEnd

/-- `Image::update_tag_or_digest_start`, /repo/src/service/image.rs:454-462. -/
def updateStart (oldLen newLen : Nat) : Option Start → Option (Option Start)
  | none => some none
  | some s =>
    if oldLen < newLen then some (some (s.map (· + (newLen - oldLen))))
    else if oldLen = newLen then some (some s)
    else if oldLen - newLen ≤ s.intoInner then some (some (s.map (· - (oldLen - newLen))))
    else none

/-- `Image::set_registry`, /repo/src/service/image.rs:210-238. -/
def setRegistry (i : Image) (registry : Option Name) : Option Image :=
  match registry, i.registryEnd with
  | some registry, some «end» => do
    let inner ← replaceTo i.inner «end» registry.inner
    let start ← updateStart «end» (byteLen registry.inner) i.start
    pure ⟨inner, some (byteLen registry.inner), start⟩
  | some registry, none => do
    let inner := registry.inner ++ '/' :: i.inner
    let start ← updateStart 0 (byteLen registry.inner + 1) i.start
    pure ⟨inner, some (byteLen registry.inner), start⟩
  | none, some «end» => do
    let inner ← replaceTo i.inner («end» + 1) []
    let start ← updateStart («end» + 1) 0 i.start
    pure ⟨inner, none, start⟩
  | none, none => some i

/-- `Image::name_end`, /repo/src/service/image.rs:289-293. -/
def nameEnd (i : Image) : Option Nat :=
  match i.start with
  | none => some (byteLen i.inner)
  | some start => if 1 ≤ start.intoInner then some (start.intoInner - 1) else none

/-- `Image::name`, /repo/src/service/image.rs:251-258. -/
def name (i : Image) : Option Str := i.nameEnd.bind (sliceTo i.inner)

/-- `Image::as_name`, /repo/src/service/image.rs:262-264. -/
def asName (i : Image) : Option Name := i.name.map fun n => ⟨n, i.registryEnd⟩

/-- `Image::set_name`, /repo/src/service/image.rs:279-286. -/
def setName (i : Image) (name : Name) : Option Image := do
  let «end» ← i.nameEnd
  let inner ← replaceTo i.inner «end» name.inner
  let start ← updateStart «end» (byteLen name.inner) i.start
  pure ⟨inner, name.registryEnd, start⟩

/-- `Image::tag`, /repo/src/service/image.rs:306-317. -/
def tag (i : Image) : Option (Option Str) :=
  match i.start with
  | some (.tag start) => (sliceFrom i.inner start).map some
  | _ => some none

/-- `Image::digest`, /repo/src/service/image.rs:357-368. -/
def digest (i : Image) : Option (Option Str) :=
  match i.start with
  | some (.digest start) => (sliceFrom i.inner start).map some
  | _ => some none

/-- `Image::as_tag_or_digest`, /repo/src/service/image.rs:397-419. -/
def asTagOrDigest (i : Image) : Option (Option TagOrDigest) :=
  match i.start with
  | some (.tag start) => (sliceFrom i.inner start).map fun t => some (.tag t)
  | some (.digest start) => (sliceFrom i.inner start).map fun d => some (.digest d)
  | none => some none

/-- `Image::as_parts`, /repo/src/service/image.rs:466-468. -/
def asParts (i : Image) : Option (Name × Option TagOrDigest) := do
  let name ← i.asName
  let t ← i.asTagOrDigest
  pure (name, t)

/-- The arm `(Some(tag_or_digest), Some(_) | None)` of `set_tag_or_digest`, /repo/src/service/image.rs:433-438. -/
def putTagOrDigest (i : Image) (t : TagOrDigest) : Option Image := do
  let «end» ← i.nameEnd
  let inner ← truncate i.inner «end»
  pure ⟨t.pushToString inner, i.registryEnd, some (t.asStart (byteLen inner))⟩

/-- `Image::set_tag_or_digest`, /repo/src/service/image.rs:422-449. -/
def setTagOrDigest (i : Image) (tagOrDigest : Option TagOrDigest) : Option Image :=
  match tagOrDigest, i.start with
  | some (.tag t), some (.tag start) => (replaceFrom i.inner start t).map fun inner => { i with inner }
  | some (.digest d), some (.digest start) => (replaceFrom i.inner start d).map fun inner => { i with inner }
  | some t, _ => i.putTagOrDigest t
  | none, some start =>
    if 1 ≤ start.intoInner then
      (truncate i.inner (start.intoInner - 1)).map fun inner => ⟨inner, i.registryEnd, none⟩
    else none
  | none, none => some i

/-- `Image::set_tag`, /repo/src/service/image.rs:340-342. -/
def setTag (i : Image) (tag : Option Str) : Option Image := i.setTagOrDigest (tag.map .tag)

/-- `Image::set_digest`, /repo/src/service/image.rs:391-393. -/
def setDigest (i : Image) (digest : Option Str) : Option Image := i.setTagOrDigest (digest.map .digest)

end Image
end Compose
