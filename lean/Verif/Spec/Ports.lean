import Verif.Model.Ports
import Verif.Spec.Number

/- Vocabulary for the properties of ports. -/

namespace Spec
open Rust (Str)
open Compose

/-- Last port of a range. -/
def lastPort (r : Range) : Nat := r.end.getD r.start

/-- The number of ports in a range: those `p` with `start ≤ p ≤ end`. -/
def portCount (r : Range) : Nat := lastPort r + 1 - r.start

/-- A range as `Range::new` makes them: `u16` numbers, and the end, if present, is above the start. -/
def RangeOk (r : Range) : Prop := r.start ≤ 65535 ∧ ∀ e, r.end = some e → r.start < e ∧ e ≤ 65535

/-- A range of `u16` numbers; the end may be below the start, as `Range::from_str` allows. -/
def PortNumbers (r : Range) : Prop := r.start ≤ 65535 ∧ ∀ e, r.end = some e → e ≤ 65535

/-- The range of all 65536 ports. -/
def fullRange : Range := ⟨0, some 65535⟩

/-- A range whose size cannot be computed in `u16`: its end is below its start, or it has all ports. -/
def Unsizable (r : Range) : Prop := lastPort r < r.start ∨ r = fullRange

/-- The text of a range: a port, or a first and a last port. -/
inductive RangeText : Str → Range → Prop
  | single {s : Str} {n : Nat} : UInt 65535 s n → RangeText s ⟨n, none⟩
  | range {a b : Str} {m n : Nat} : UInt 65535 a m → UInt 65535 b n → RangeText (a ++ "-".toList ++ b) ⟨m, some n⟩

/-- A text `host:container` of two ranges, one of which cannot be sized. -/
def UnsizableRanges (text : Str) : Prop :=
  ∃ h c host container, text = h ++ ":".toList ++ c ∧ RangeText h host ∧ RangeText c container ∧
    (Unsizable host ∨ Unsizable container)

/-- The text of a pair of ranges: a container range, perhaps after a colon, or two ranges with the same number of ports. -/
inductive ShortRangesText : Str → ShortRanges → Prop
  | container {s : Str} {c : Range} : RangeText s c → ShortRangesText s ⟨none, c⟩
  | noHost {s : Str} {c : Range} : RangeText s c → ShortRangesText (":".toList ++ s) ⟨none, c⟩
  | both {s t : Str} {h c : Range} : RangeText s h → RangeText t c → ¬ Unsizable h → ¬ Unsizable c →
      portCount h = portCount c → ShortRangesText (s ++ ":".toList ++ t) ⟨some h, c⟩

/-- The text of a protocol: two are known by name. -/
inductive ProtocolText : Str → Protocol → Prop
  | tcp : ProtocolText "tcp".toList .tcp
  | udp : ProtocolText "udp".toList .udp
  | other {s : Str} : s ≠ "tcp".toList → s ≠ "udp".toList → ProtocolText s (.other s)

/-- Nothing, or a slash and a protocol. -/
inductive ProtocolSuffix : Str → Option Protocol → Prop
  | none : ProtocolSuffix [] none
  | some {s : Str} {p : Protocol} : ProtocolText s p → ProtocolSuffix ("/".toList ++ s) (some p)

/-- An address, or an address in square brackets. -/
inductive AddressText {Ip E : Type} (ipParse : Str → Except E Ip) : Str → Ip → Prop
  | plain {s : Str} {ip : Ip} : ¬ (∃ t, s = "[".toList ++ t ++ "]".toList) → ipParse s = .ok ip → AddressText ipParse s ip
  | brackets {s : Str} {ip : Ip} : ipParse s = .ok ip → AddressText ipParse ("[".toList ++ s ++ "]".toList) ip

/-- The text of a short port: ranges, perhaps a protocol.  An address may come before ranges that have a colon. -/
inductive ShortPortText {Ip E : Type} (ipParse : Str → Except E Ip) : Str → ShortPort Ip → Prop
  | ranges {t pt : Str} {r : ShortRanges} {p : Option Protocol} : ShortRangesText t r → ProtocolSuffix pt p →
      ShortPortText ipParse (t ++ pt) ⟨none, r, p⟩
  | address {a t pt : Str} {ip : Ip} {r : ShortRanges} {p : Option Protocol} : AddressText ipParse a ip → '/' ∉ a →
      ShortRangesText t r → ':' ∈ t → ProtocolSuffix pt p →
      ShortPortText ipParse (a ++ ":".toList ++ t ++ pt) ⟨some ip, r, p⟩

/-- The text of an exposed port: a range, perhaps a protocol. -/
inductive ExposeText : Str → Expose → Prop
  | expose {t pt : Str} {r : Range} {p : Option Protocol} : RangeText t r → ProtocolSuffix pt p →
      ExposeText (t ++ pt) ⟨r, p⟩

/-- Host and container ranges with the same number of ports. -/
def Balanced (r : ShortRanges) : Prop := ∀ h, r.host = some h → portCount h = portCount r.container

/-- Well-formed pair of ranges: if there is a host range, both have the same number of ports, which fits a `u16`. -/
def ShortRangesOk (r : ShortRanges) : Prop :=
  PortNumbers r.container ∧
    ∀ h, r.host = some h → PortNumbers h ∧ ¬ Unsizable h ∧ ¬ Unsizable r.container ∧ portCount h = portCount r.container

/-- A protocol is canonical if it is not one of the named ones written as `Other`. -/
def ProtocolOk (p : Protocol) : Prop := p ≠ .other "tcp".toList ∧ p ≠ .other "udp".toList

/-- What the round trip of a short port needs from IP addresses: the printed text reads back, and contains
neither `/` nor brackets. -/
structure IpText {Ip E : Type} (ipParse : Str → Except E Ip) (ipShow : Ip → Str) : Prop where
  round_trip : ∀ ip, ipParse (ipShow ip) = .ok ip
  no_slash : ∀ ip, '/' ∉ ipShow ip
  no_bracket : ∀ ip, '[' ∉ ipShow ip

/-- Well-formed short port. -/
def ShortPortOk {Ip : Type} (p : ShortPort Ip) : Prop :=
  ShortRangesOk p.ranges ∧ ∀ q, p.protocol = some q → ProtocolOk q

end Spec
