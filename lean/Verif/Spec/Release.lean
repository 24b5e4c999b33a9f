import Verif.Spec.Ports
import Verif.Model.Release

/- Vocabulary for the behaviour of builds without overflow checks. -/

namespace Spec
open Rust (Str)
open Compose

/-- The sizes of two ranges agree modulo 65536, where the size of a range is (last port) - (first port) + 1, also if that
is negative. -/
def SameSizeMod (r r' : Range) : Prop :=
  ((lastPort r : Int) - r.start) % 65536 = ((lastPort r' : Int) - r'.start) % 65536

/-- The text of a pair of ranges in a build without overflow checks: a container range, perhaps after a colon, or two
ranges whose sizes agree modulo 65536. -/
inductive ReleaseRangesText : Str → ShortRanges → Prop
  | container {s : Str} {c : Range} : RangeText s c → ReleaseRangesText s ⟨none, c⟩
  | noHost {s : Str} {c : Range} : RangeText s c → ReleaseRangesText (":".toList ++ s) ⟨none, c⟩
  | both {s t : Str} {h c : Range} : RangeText s h → RangeText t c → SameSizeMod h c →
      ReleaseRangesText (s ++ ":".toList ++ t) ⟨some h, c⟩

/-- The text of a short port in a build without overflow checks. -/
inductive ReleasePortText {Ip E : Type} (ipParse : Str → Except E Ip) : Str → ShortPort Ip → Prop
  | ranges {t pt : Str} {r : ShortRanges} {p : Option Protocol} : ReleaseRangesText t r → ProtocolSuffix pt p →
      ReleasePortText ipParse (t ++ pt) ⟨none, r, p⟩
  | address {a t pt : Str} {ip : Ip} {r : ShortRanges} {p : Option Protocol} : AddressText ipParse a ip → '/' ∉ a →
      ReleaseRangesText t r → ':' ∈ t → ProtocolSuffix pt p →
      ReleasePortText ipParse (a ++ ":".toList ++ t ++ pt) ⟨some ip, r, p⟩

/-- Going up `n` ports from `p`, and from the last port to port 0, leads to `q`. -/
def PortsAbove (n p q : Nat) : Prop := q ≤ 65535 ∧ (q = p + n ∨ q + 65536 = p + n)

/-- The first and the last port of a range are moved up by `n` ports, and from the last port to port 0. -/
def MovedUp (n : Nat) (r r' : Range) : Prop :=
  PortsAbove n r.start r'.start ∧
    match r.end, r'.end with
    | none, none => True
    | some e, some e' => PortsAbove n e e'
    | _, _ => False

end Spec
