import Verif.Model.Mac

/- Hexadecimal numbers and MAC addresses. -/

namespace Spec
open Rust Compose

/-- `c` is the hexadecimal digit with value `d`, in either case. -/
def HexDigit (c : Char) (d : Nat) : Prop :=
  "0123456789abcdef".toList[d]? = some c ∨ "0123456789ABCDEF".toList[d]? = some c

/-- A non-empty string of hexadecimal digits and the number it denotes. -/
inductive HexText : Str → Nat → Prop
  | digit {c : Char} {d : Nat} : HexDigit c d → HexText [c] d
  | snoc {s : Str} {n : Nat} {c : Char} {d : Nat} : HexText s n → HexDigit c d → HexText (s ++ [c]) (16 * n + d)

/-- How Rust lets one write a byte in hexadecimal: digits (any number of leading zeros), optionally preceded by `+`. -/
def HexByte (s : Str) (n : Nat) : Prop := ∃ ds, (s = ds ∨ s = '+' :: ds) ∧ HexText ds n ∧ n ≤ 255

/-- Six hexadecimal bytes separated by colons. -/
def MacText (s : Str) (m : MacAddress) : Prop :=
  ∃ a b c d e f x y z u v w, s = a ++ ":".toList ++ b ++ ":".toList ++ c ++ ":".toList ++ d ++ ":".toList ++ e ++
      ":".toList ++ f ∧ m = ⟨[x, y, z, u, v, w]⟩ ∧
    HexByte a x ∧ HexByte b y ∧ HexByte c z ∧ HexByte d u ∧ HexByte e v ∧ HexByte f w

/-- Six bytes. -/
def MacOk (m : MacAddress) : Prop := m.bytes.length = 6 ∧ ∀ b ∈ m.bytes, b ≤ 255

/-- The two lower case hexadecimal digits of a byte. -/
def TwoDigits (s : Str) (n : Nat) : Prop :=
  ∃ c d, s = [c, d] ∧ "0123456789abcdef".toList[n / 16]? = some c ∧ "0123456789abcdef".toList[n % 16]? = some d

/-- The usual text of a MAC address: six times two lower case hexadecimal digits separated by colons. -/
def StandardMac (s : Str) (m : MacAddress) : Prop :=
  ∃ a b c d e f x y z u v w, s = a ++ ":".toList ++ b ++ ":".toList ++ c ++ ":".toList ++ d ++ ":".toList ++ e ++
      ":".toList ++ f ∧ m = ⟨[x, y, z, u, v, w]⟩ ∧
    TwoDigits a x ∧ TwoDigits b y ∧ TwoDigits c z ∧ TwoDigits d u ∧ TwoDigits e v ∧ TwoDigits f w

end Spec
