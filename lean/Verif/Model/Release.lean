import Verif.Model.Ports
import Verif.Model.CpuSet
import Verif.Model.Image

/-
What the code does in a build without overflow checks (the default of `cargo build --release`), where `+` and `-` on
integers wrap around instead of panicking.  These are the functions of `src/service/ports.rs`,
`src/service/cpuset.rs` and `src/service/image.rs` that compute with integers, and the functions that call them; all
other functions are the same in both kinds of build.  `usize` has 64 bits.
-/

namespace Compose.Release
open Rust

/-- `u16::wrapping_add`. -/
def add16 (a b : Nat) : Nat := (a + b) % 65536

/-- `u16::wrapping_sub`, of two numbers below 65536. -/
def sub16 (a b : Nat) : Nat := (a + 65536 - b) % 65536

/-- `Range::size`, /repo/src/service/ports.rs:680-682. -/
def size (r : Range) : Nat :=
  match r.end with
  | none => 1
  | some e => add16 (sub16 e r.start) 1

/-- `Add<u16> for Range`, /repo/src/service/ports.rs:737-748. -/
def add (r : Range) (rhs : Nat) : Range := ⟨add16 r.start rhs, r.end.map fun e => add16 e rhs⟩

/-- `Sub<u16> for Range`, /repo/src/service/ports.rs:756-767. -/
def sub (r : Range) (rhs : Nat) : Range := ⟨sub16 r.start rhs, r.end.map fun e => sub16 e rhs⟩

/-- `range_size_eq`, /repo/src/service/ports.rs:475-488. -/
def rangeSizeEq (host : Option Range) (container : Range) : Except ShortRangesError Unit :=
  match host with
  | none => .ok ()
  | some host =>
    if size host ≠ size container then .error ⟨size host, size container⟩ else .ok ()

/-- `ShortRanges::new`, /repo/src/service/ports.rs:424-428. -/
def new (host : Option Range) (container : Range) : Except ShortRangesError ShortRanges :=
  match rangeSizeEq host container with
  | .ok () => .ok ⟨host, container⟩
  | .error e => .error e

/-- `ShortRanges::replace_host`, /repo/src/service/ports.rs:442-445.  Returns the new value of `self` and the
result. -/
def replaceHost (self : ShortRanges) (host : Range) : ShortRanges × Except ShortRangesError (Option Range) :=
  match rangeSizeEq (some host) self.container with
  | .ok () => (⟨some host, self.container⟩, .ok self.host)
  | .error e => (self, .error e)

/-- `ShortRanges::replace_container`, /repo/src/service/ports.rs:464-467. -/
def replaceContainer (self : ShortRanges) (container : Range) : ShortRanges × Except ShortRangesError Range :=
  match rangeSizeEq self.host container with
  | .ok () => (⟨self.host, container⟩, .ok self.container)
  | .error e => (self, .error e)

/-- `FromStr for ShortRanges`, /repo/src/service/ports.rs:511-529. -/
def parseRanges (s : Str) : Except ParseShortRangesError ShortRanges :=
  match splitOnce ':' s with
  | some (host, container) =>
    let host : Except ParseRangeError (Option Range) :=
      if host.isEmpty then .ok none
      else match Range.fromStr host with
        | .ok r => .ok (some r)
        | .error e => .error e
    match host with
    | .error e => .error (.range e)
    | .ok host =>
      match Range.fromStr container with
      | .error e => .error (.range e)
      | .ok container =>
        match new host container with
        | .ok r => .ok r
        | .error e => .error (.shortRanges e)
  | none =>
    match Range.fromStr s with
    | .ok r => .ok (.ofRange r)
    | .error e => .error (.range e)

/-- `FromStr for ShortPort`, /repo/src/service/ports.rs:290-329. -/
def parsePort {Ip E : Type} (ipParse : Str → Except E Ip) (s : Str) : Except (ParseShortPortError E) (ShortPort Ip) :=
  match ShortPort.splitHostIp ipParse (splitProtocol s).1 with
  | .error e => .error e
  | .ok (hostIp, rest) =>
    match parseRanges rest with
    | .ok ranges => .ok ⟨hostIp, ranges, (splitProtocol s).2⟩
    | .error e => .error (.shortRanges e)

/-- The loop of `Display for CpuSet`, /repo/src/service/cpuset.rs:38-51; `out` is what was written so far. -/
def cpuSetLoop (out : Str) (first : Bool) (start «end» : Nat) : List Nat → Str
  | [] => out ++ writeRange first start «end»
  | cpu :: iter =>
    if cpu = («end» + 1) % 18446744073709551616 then cpuSetLoop out first start cpu iter
    else cpuSetLoop (out ++ writeRange first start «end») false cpu cpu iter

/-- `Display for CpuSet`, /repo/src/service/cpuset.rs:28-53. -/
def cpuSetDisplay : List Nat → Str
  | [] => []
  | cpu :: iter => cpuSetLoop [] true cpu cpu iter

/-- `usize::wrapping_add`. -/
def add64 (a b : Nat) : Nat := (a + b) % 18446744073709551616

/-- `usize::wrapping_sub`, of two numbers below 2^64. -/
def sub64 (a b : Nat) : Nat := (a + 18446744073709551616 - b) % 18446744073709551616

/-- `Image::update_tag_or_digest_start`, /repo/src/service/image.rs:454-462. -/
def updateStart (oldLen newLen : Nat) : Option Image.Start → Option Image.Start
  | none => none
  | some s =>
    if oldLen < newLen then some (s.map (add64 · (newLen - oldLen)))
    else if oldLen = newLen then some s
    else some (s.map (sub64 · (oldLen - newLen)))

/-- `Image::set_registry`, /repo/src/service/image.rs:210-238; `none` is a panic. -/
def setRegistry (i : Image) (registry : Option Image.Name) : Option Image :=
  match registry, i.registryEnd with
  | some registry, some «end» => do
    let inner ← replaceTo i.inner «end» registry.inner
    pure ⟨inner, some (byteLen registry.inner), updateStart «end» (byteLen registry.inner) i.start⟩
  | some registry, none =>
    some ⟨registry.inner ++ '/' :: i.inner, some (byteLen registry.inner),
      updateStart 0 (add64 (byteLen registry.inner) 1) i.start⟩
  | none, some «end» => do
    let inner ← replaceTo i.inner (add64 «end» 1) []
    pure ⟨inner, none, updateStart (add64 «end» 1) 0 i.start⟩
  | none, none => some i

/-- `Image::name_end`, /repo/src/service/image.rs:289-293. -/
def nameEnd (i : Image) : Nat :=
  match i.start with
  | none => byteLen i.inner
  | some start => sub64 start.intoInner 1

/-- `Image::name`, /repo/src/service/image.rs:251-258; `none` is a panic. -/
def name (i : Image) : Option Str := sliceTo i.inner (nameEnd i)

/-- `Image::set_name`, /repo/src/service/image.rs:279-286; `none` is a panic. -/
def setName (i : Image) (name : Image.Name) : Option Image := do
  let inner ← replaceTo i.inner (nameEnd i) name.inner
  pure ⟨inner, name.registryEnd, updateStart (nameEnd i) (byteLen name.inner) i.start⟩

/-- `Image::set_tag_or_digest`, /repo/src/service/image.rs:422-449; `none` is a panic. -/
def setTagOrDigest (i : Image) (tagOrDigest : Option Image.TagOrDigest) : Option Image :=
  match tagOrDigest, i.start with
  | some (.tag t), some (.tag start) => (replaceFrom i.inner start t).map fun inner => { i with inner }
  | some (.digest d), some (.digest start) => (replaceFrom i.inner start d).map fun inner => { i with inner }
  | some t, _ => do
    let inner ← truncate i.inner (nameEnd i)
    pure ⟨t.pushToString inner, i.registryEnd, some (t.asStart (byteLen inner))⟩
  | none, some start =>
    (truncate i.inner (sub64 start.intoInner 1)).map fun inner => ⟨inner, i.registryEnd, none⟩
  | none, none => some i

end Compose.Release
