import Verif.Spec.Mac

/- The text of IP addresses (RFC 4291, section 2.2; RFC 5952), independent of how it is read. -/

namespace Spec
open Rust

/-- The four numbers of an IPv4 address. -/
def Octets (a : List Nat) : Prop := a.length = 4 ∧ ∀ x ∈ a, x < 256

/-- The eight groups of an IPv6 address. -/
def Groups (a : List Nat) : Prop := a.length = 8 ∧ ∀ x ∈ a, x < 65536

/-- Dotted decimal, no leading zeros. -/
def Ipv4Text (t : Str) (a : List Nat) : Prop := t = List.intercalate ['.'] (a.map showNat)

/-- One to four hexadecimal digits, in either case, and the number they stand for. -/
def HexGroup (t : Str) (n : Nat) : Prop := t.length ≤ 4 ∧ HexText t n

/-- Groups with colons between them. -/
def GroupsText (t : Str) (a : List Nat) : Prop :=
  ∃ parts : List (Str × Nat), (∀ p ∈ parts, HexGroup p.1 p.2) ∧ t = List.intercalate [':'] (parts.map (·.1)) ∧
    a = parts.map (·.2)

/-- Groups with colons between them, the last two of which may be an IPv4 address. -/
def EndText (t : Str) (a : List Nat) : Prop :=
  GroupsText t a ∨
    ∃ (parts : List (Str × Nat)) (t4 : Str) (w x y z : Nat), (∀ p ∈ parts, HexGroup p.1 p.2) ∧ Octets [w, x, y, z] ∧
      Ipv4Text t4 [w, x, y, z] ∧ t = List.intercalate [':'] (parts.map (·.1) ++ [t4]) ∧
      a = parts.map (·.2) ++ [w * 256 + x, y * 256 + z]

/-- The text of an IPv6 address: eight groups, or less with `::` in the place of one or more groups that are zero. -/
def Ipv6Text (t : Str) (a : List Nat) : Prop :=
  a.length = 8 ∧
    (EndText t a ∨
      ∃ t1 l n t2 r, GroupsText t1 l ∧ EndText t2 r ∧ 1 ≤ n ∧ t = t1 ++ "::".toList ++ t2 ∧ a = l ++ List.replicate n 0 ++ r)

/-- From group `i` on there are `n` groups that are zero. -/
def ZeroRun (a : List Nat) (i n : Nat) : Prop := ∀ j, i ≤ j → j < i + n → a[j]? = some 0

/-- Lower case hexadecimal groups without leading zeros. -/
def PlainGroups (a : List Nat) : Str := List.intercalate [':'] (a.map (Nat.toDigits 16))

/-- The text that RFC 5952 recommends: `::` in the place of the longest run of at least two zeros, of these the first; an
IPv4-mapped address with the IPv4 address at the end. -/
def Ipv6Canonical (t : Str) (a : List Nat) : Prop :=
  (∃ w x y z, Octets [w, x, y, z] ∧ a = [0, 0, 0, 0, 0, 65535, w * 256 + x, y * 256 + z] ∧
      ∃ t4, Ipv4Text t4 [w, x, y, z] ∧ t = "::ffff:".toList ++ t4) ∨
    ((¬ ∃ x y, a = [0, 0, 0, 0, 0, 65535, x, y]) ∧
      ((∃ i n, 2 ≤ n ∧ ZeroRun a i n ∧ (∀ j m, ZeroRun a j m → m ≤ n ∧ (m = n → i ≤ j)) ∧
          t = PlainGroups (a.take i) ++ "::".toList ++ PlainGroups (a.drop (i + n))) ∨
        ((∀ j m, ZeroRun a j m → m ≤ 1) ∧ t = PlainGroups a)))

end Spec
