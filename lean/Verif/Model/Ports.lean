import Verif.Std.Int
import Verif.Std.Content
import Verif.Std.Outcome

/-
Model of `src/service/ports.rs` and `src/service/expose.rs`.

`u16` values are natural numbers; the theorems assume them at most `u16::MAX` where it matters.  Arithmetic is
modelled with overflow checks on (an overflow is a panic).  `IpAddr` is abstract: its `FromStr` and `Display` are
parameters.
-/

namespace Compose
open Rust

/-- `ports::Range`, /repo/src/service/ports.rs:623-629. -/
structure Range where
  start : Nat
  «end» : Option Nat
  deriving DecidableEq, Repr

/-- `RangeError`, /repo/src/service/ports.rs:688-693. -/
structure RangeError where
  start : Nat
  «end» : Nat
  deriving DecidableEq, Repr

/-- `ParseRangeError`, /repo/src/service/ports.rs:808-821 (the variant `Range` is never constructed). -/
inductive ParseRangeError
  | range (e : RangeError) | int (source : IntErr) (value : Str)
  deriving DecidableEq, Repr

namespace Range

/-- `Range::new`, /repo/src/service/ports.rs:637-646. -/
def new (start : Nat) (end? : Option Nat) : Except RangeError Range :=
  match end? with
  | none => .ok ⟨start, none⟩
  | some e =>
    match compare start e with
    | .lt => .ok ⟨start, some e⟩
    | .eq => .ok ⟨start, none⟩
    | .gt => .error ⟨start, e⟩

/-- `From<u16> for Range`, /repo/src/service/ports.rs:707-711. -/
def ofU16 (start : Nat) : Range := ⟨start, none⟩

/-- `Range::size`, /repo/src/service/ports.rs:680-682: `end - start + 1` in `u16`; `none` is a panic (the
subtraction underflows or the addition overflows). -/
def size (r : Range) : Option Nat :=
  match r.end with
  | none => some 1
  | some e =>
    if e < r.start then none
    else if e - r.start + 1 > u16Max then none
    else some (e - r.start + 1)

/-- `parse_range_int`, /repo/src/service/ports.rs:791-796. -/
def parseInt (value : Str) : Except ParseRangeError Nat :=
  match parseUnsigned u16Max value with
  | .ok n => .ok n
  | .error source => .error (.int source value)

/-- `FromStr for Range`, /repo/src/service/ports.rs:775-788. -/
def fromStr (s : Str) : Except ParseRangeError Range :=
  let (start, end?) := match splitOnce '-' s with
    | some (start, e) => (start, some e)
    | none => (s, none)
  match parseInt start with
  | .error e => .error e
  | .ok start =>
    match end? with
    | none => .ok ⟨start, none⟩
    | some e =>
      match parseInt e with
      | .error e => .error e
      | .ok e => .ok ⟨start, some e⟩

/-- `Display for Range`, /repo/src/service/ports.rs:823-835. -/
def toStr (r : Range) : Str :=
  showNat r.start ++ match r.end with
    | some e => '-' :: showNat e
    | none => []

/-- `IntoIterator for Range`, /repo/src/service/ports.rs:857-867: the ports `RangeInclusive` yields. -/
def toList (r : Range) : List Nat :=
  let e := r.end.getD r.start
  (List.range (e + 1 - r.start)).map (r.start + ·)

/-- `Add<u16> for Range`, /repo/src/service/ports.rs:737-748; `none` is an overflow panic. -/
def add (r : Range) (rhs : Nat) : Option Range :=
  if r.start + rhs > u16Max then none
  else match r.end with
    | none => some ⟨r.start + rhs, none⟩
    | some e => if e + rhs > u16Max then none else some ⟨r.start + rhs, some (e + rhs)⟩

/-- `Sub<u16> for Range`, /repo/src/service/ports.rs:756-767; `none` is an underflow panic. -/
def sub (r : Range) (rhs : Nat) : Option Range :=
  if r.start < rhs then none
  else match r.end with
    | none => some ⟨r.start - rhs, none⟩
    | some e => if e < rhs then none else some ⟨r.start - rhs, some (e - rhs)⟩

end Range

/-- `ShortRanges`, /repo/src/service/ports.rs:409-416. -/
structure ShortRanges where
  host : Option Range
  container : Range
  deriving DecidableEq, Repr

/-- `ShortRangesError`, /repo/src/service/ports.rs:498-503. -/
structure ShortRangesError where
  hostSize : Nat
  containerSize : Nat
  deriving DecidableEq, Repr

/-- `range_size_eq`, /repo/src/service/ports.rs:475-488. -/
def rangeSizeEq (host : Option Range) (container : Range) : Outcome ShortRangesError Unit :=
  match host with
  | none => .ok ()
  | some host =>
    match host.size with
    | none => .panic
    | some hostSize =>
      match container.size with
      | none => .panic
      | some containerSize =>
        if hostSize ≠ containerSize then .err ⟨hostSize, containerSize⟩ else .ok ()

/-- `ParseShortRangesError`, /repo/src/service/ports.rs:572-580. -/
inductive ParseShortRangesError
  | shortRanges (e : ShortRangesError) | range (e : ParseRangeError)
  deriving DecidableEq, Repr

namespace ShortRanges

/-- `ShortRanges::new`, /repo/src/service/ports.rs:424-428. -/
def new (host : Option Range) (container : Range) : Outcome ShortRangesError ShortRanges :=
  match rangeSizeEq host container with
  | .ok () => .ok ⟨host, container⟩
  | .err e => .err e
  | .panic => .panic

/-- `From<Range> for ShortRanges` (generated by `FromShort`, /repo/src/service/ports.rs:408-416). -/
def ofRange (container : Range) : ShortRanges := ⟨none, container⟩

/-- `ShortRanges::replace_host`, /repo/src/service/ports.rs:442-445.  Returns the new value of `self` and the
result; after a panic `self` is as it was. -/
def replaceHost (self : ShortRanges) (host : Range) :
    ShortRanges × Outcome ShortRangesError (Option Range) :=
  match rangeSizeEq (some host) self.container with
  | .ok () => (⟨some host, self.container⟩, .ok self.host)
  | .err e => (self, .err e)
  | .panic => (self, .panic)

/-- `ShortRanges::take_host`, /repo/src/service/ports.rs:448-450. -/
def takeHost (self : ShortRanges) : ShortRanges × Option Range := (⟨none, self.container⟩, self.host)

/-- `ShortRanges::replace_container`, /repo/src/service/ports.rs:464-467. -/
def replaceContainer (self : ShortRanges) (container : Range) :
    ShortRanges × Outcome ShortRangesError Range :=
  match rangeSizeEq self.host container with
  | .ok () => (⟨self.host, container⟩, .ok self.container)
  | .err e => (self, .err e)
  | .panic => (self, .panic)

/-- `FromStr for ShortRanges`, /repo/src/service/ports.rs:511-529. -/
def fromStr (s : Str) : Outcome ParseShortRangesError ShortRanges :=
  match splitOnce ':' s with
  | some (host, container) =>
    let host : Except ParseRangeError (Option Range) :=
      if host.isEmpty then .ok none
      else match Range.fromStr host with
        | .ok r => .ok (some r)
        | .error e => .error e
    match host with
    | .error e => .err (.range e)
    | .ok host =>
      match Range.fromStr container with
      | .error e => .err (.range e)
      | .ok container =>
        match new host container with
        | .ok r => .ok r
        | .err e => .err (.shortRanges e)
        | .panic => .panic
  | none =>
    match Range.fromStr s with
    | .ok r => .ok (ofRange r)
    | .error e => .err (.range e)

/-- `Display for ShortRanges`, /repo/src/service/ports.rs:539-551. -/
def toStr (r : ShortRanges) : Str :=
  (match r.host with
    | some host => host.toStr ++ [':']
    | none => []) ++ r.container.toStr

/-- `ShortRangesIter::next`, /repo/src/service/ports.rs:606-614, until it is exhausted; the two arguments are
what the host and container iterators have left. -/
def iterate : Option (List Nat) → List Nat → List (Option Nat × Nat)
  | _, [] => []
  | host, c :: cs => (host.bind List.head?, c) :: iterate (host.map List.tail) cs

/-- `IntoIterator for ShortRanges`, /repo/src/service/ports.rs:582-595. -/
def toList (r : ShortRanges) : List (Option Nat × Nat) :=
  iterate (r.host.map Range.toList) r.container.toList

end ShortRanges

/-- `Protocol`, /repo/src/service/ports.rs:875-885. -/
inductive Protocol
  | tcp | udp | other (s : Str)
  deriving DecidableEq, Repr

namespace Protocol

/-- `Protocol::parse`, /repo/src/service/ports.rs:895-904. -/
def parse (s : Str) : Protocol :=
  if s = str!"tcp" then .tcp
  else if s = str!"udp" then .udp
  else .other s

/-- `Protocol::as_str`, /repo/src/service/ports.rs:926-932. -/
def asStr : Protocol → Str
  | tcp => str!"tcp"
  | udp => str!"udp"
  | other s => s

end Protocol

/-- Cut off `/{protocol}`: /repo/src/service/ports.rs:296-298 and /repo/src/service/expose.rs:53-55. -/
def splitProtocol (s : Str) : Str × Option Protocol :=
  match splitOnce '/' s with
  | some (s, protocol) => (s, some (.parse protocol))
  | none => (s, none)

/-- `ports::Mode`, /repo/src/service/ports.rs:193-200. -/
inductive PortMode
  | host | ingress
  deriving DecidableEq, Repr

/-- Long syntax `Port`, /repo/src/service/ports.rs:56-89.  `Ip` is `IpAddr`; the extensions map is the list of its
entries, with values of any type `V`. -/
structure Port (Ip V : Type) where
  name : Option Str := none
  target : Nat
  published : Option Range := none
  hostIp : Option Ip := none
  protocol : Option Protocol := none
  appProtocol : Option Str := none
  mode : Option PortMode := none
  extensions : List (Str × V) := []
  deriving DecidableEq

/-- `ShortPort`, /repo/src/service/ports.rs:232-239. -/
structure ShortPort (Ip : Type) where
  hostIp : Option Ip
  ranges : ShortRanges
  protocol : Option Protocol
  deriving DecidableEq

/-- `Port::into_short`, /repo/src/service/ports.rs:161-179. -/
def Port.intoShort {Ip V : Type} (self : Port Ip V) : Except (Port Ip V) (ShortPort Ip) :=
  if self.name.isNone && self.appProtocol.isNone && self.mode.isNone && self.extensions.isEmpty &&
      self.published.elim true (fun range => range.end.isNone) then
    .ok ⟨self.hostIp, ⟨self.published, .ofU16 self.target⟩, self.protocol⟩
  else .error self

/-- `strip_brackets`, /repo/src/service.rs:1087-1091. -/
def stripBrackets (s : Str) : Str :=
  match stripPrefix ['['] s with
  | some r => (stripSuffix [']'] r).getD s
  | none => s

/-- `s.rsplit_once(closure)` of `ShortPort::from_str`, /repo/src/service/ports.rs:300-311: the closure answers
`true` at the second `:` counted from the end. -/
def rsplitSecondColon (s : Str) : Option (Str × Str) :=
  match rsplitOnce ':' s with
  | none => none
  | some (a, b) =>
    match rsplitOnce ':' a with
    | none => none
    | some (x, y) => some (x, y ++ ':' :: b)

/-- `ParseShortPortError`, /repo/src/service/ports.rs:341-354; `E` is `AddrParseError`. -/
inductive ParseShortPortError (E : Type)
  | ipAddr (source : E) (value : Str) | shortRanges (e : ParseShortRangesError)
  deriving DecidableEq

namespace ShortPort

variable {Ip E : Type}

/-- `ShortPort::into_long_iter`, /repo/src/service/ports.rs:256-269. -/
def intoLongIter (V : Type) (self : ShortPort Ip) : List (Port Ip V) :=
  self.ranges.toList.map fun (host, container) =>
    { target := container
      published := host.map Range.ofU16
      hostIp := self.hostIp
      protocol := self.protocol }

/-- `From<u16> for ShortPort`, /repo/src/service/ports.rs:284-288. -/
def ofU16 (container : Nat) : ShortPort Ip := ⟨none, .ofRange (.ofU16 container), none⟩

/-- The host IP part of `ShortPort::from_str`, /repo/src/service/ports.rs:300-321: the address, and what is left. -/
def splitHostIp (ipParse : Str → Except E Ip) (s : Str) :
    Except (ParseShortPortError E) (Option Ip × Str) :=
  match rsplitSecondColon s with
  | none => .ok (none, s)
  | some (hostIp, rest) =>
    match ipParse (stripBrackets hostIp) with
    | .ok ip => .ok (some ip, rest)
    | .error source => .error (.ipAddr source hostIp)

/-- `FromStr for ShortPort`, /repo/src/service/ports.rs:290-329. -/
def fromStr (ipParse : Str → Except E Ip) (s : Str) : Outcome (ParseShortPortError E) (ShortPort Ip) :=
  match splitHostIp ipParse (splitProtocol s).1 with
  | .error e => .err e
  | .ok (hostIp, rest) =>
    match ShortRanges.fromStr rest with
    | .ok ranges => .ok ⟨hostIp, ranges, (splitProtocol s).2⟩
    | .err e => .err (.shortRanges e)
    | .panic => .panic

/-- The host IP in `Display for ShortPort`, /repo/src/service/ports.rs:366-373. -/
def ipPart (ipShow : Ip → Str) (hostIp : Option Ip) (ranges : ShortRanges) : Str :=
  match hostIp with
  | some ip => ipShow ip ++ [':'] ++ if ranges.host.isNone then [':'] else []
  | none => []

/-- The protocol in `Display for ShortPort`, /repo/src/service/ports.rs:377-379. -/
def protocolPart : Option Protocol → Str
  | some protocol => '/' :: protocol.asStr
  | none => []

/-- `Display for ShortPort`, /repo/src/service/ports.rs:356-383. -/
def toStr (ipShow : Ip → Str) (p : ShortPort Ip) : Str :=
  ipPart ipShow p.hostIp p.ranges ++ p.ranges.toStr ++ protocolPart p.protocol

end ShortPort

/-- `FromStrOrU16Visitor`, /repo/src/serde.rs:589-624 (`forward_visitor!`, /repo/src/serde.rs:31-39, converts every
integer to `u16` with `try_into`); the outcome `err` is any deserialization error. -/
def deserializeFromStrOrU16 {α ε : Type} (ofU16 : Nat → α) (fromStr : Str → Outcome ε α) :
    Content → Outcome Unit α
  | .u64 v => if v ≤ u16Max then .ok (ofU16 v) else .err ()
  | .i64 v => if 0 ≤ v ∧ v ≤ u16Max then .ok (ofU16 v.natAbs) else .err ()
  | .str s =>
    match fromStr s with
    | .ok a => .ok a
    | .err _ => .err ()
    | .panic => .panic
  | _ => .err ()

/-- `Serialize for Range`, /repo/src/service/ports.rs:837-845. -/
def Range.serialize (r : Range) : Content :=
  if r.end.isSome then .str r.toStr else .u64 r.start

/-- `Serialize for ShortRanges`, /repo/src/service/ports.rs:553-561. -/
def ShortRanges.serialize (r : ShortRanges) : Content :=
  if r.host.isSome then .str r.toStr else r.container.serialize

/-- `Serialize for ShortPort`, /repo/src/service/ports.rs:385-393. -/
def ShortPort.serialize {Ip : Type} (ipShow : Ip → Str) (p : ShortPort Ip) : Content :=
  if p.hostIp.isSome || p.protocol.isSome then .str (p.toStr ipShow) else p.ranges.serialize

/-- `Ports` is a list of ports in short or long syntax, /repo/src/service/ports.rs:28. -/
inductive ShortOrLong (S L : Type)
  | short (s : S) | long (l : L)
  deriving DecidableEq

/-- `into_short_iter`, /repo/src/service/ports.rs:34-39. -/
def portsIntoShortIter {Ip V : Type} (ports : List (ShortOrLong (ShortPort Ip) (Port Ip V))) :
    List (Except (Port Ip V) (ShortPort Ip)) :=
  ports.map fun
    | .short port => .ok port
    | .long port => port.intoShort

/-- `into_long_iter`, /repo/src/service/ports.rs:45-50. -/
def portsIntoLongIter {Ip V : Type} (ports : List (ShortOrLong (ShortPort Ip) (Port Ip V))) :
    List (Port Ip V) :=
  ports.flatMap fun
    | .short port => port.intoLongIter V
    | .long port => [port]

/-- `Expose`, /repo/src/service/expose.rs:21-27. -/
structure Expose where
  range : Range
  protocol : Option Protocol
  deriving DecidableEq, Repr

namespace Expose

/-- `From<u16> for Expose`, /repo/src/service/expose.rs:29-36. -/
def ofU16 (start : Nat) : Expose := ⟨.ofU16 start, none⟩

/-- `FromStr for Expose`, /repo/src/service/expose.rs:47-62. -/
def fromStr (s : Str) : Except ParseRangeError Expose :=
  match Range.fromStr (splitProtocol s).1 with
  | .ok range => .ok ⟨range, (splitProtocol s).2⟩
  | .error e => .error e

/-- `Display for Expose`, /repo/src/service/expose.rs:72-86. -/
def toStr (e : Expose) : Str :=
  e.range.toStr ++ match e.protocol with
    | some protocol => '/' :: protocol.asStr
    | none => []

/-- `Serialize for Expose`, /repo/src/service/expose.rs:88-96. -/
def serialize (e : Expose) : Content :=
  if e.range.end.isNone && e.protocol.isNone then .u64 e.range.start else .str e.toStr

end Expose

end Compose
