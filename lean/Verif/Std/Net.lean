import Verif.Std.Int

/-
Model of the text of IP addresses in the standard library (`core::net::parser`, `core::net::display_buffer` and the
`Display` impls of `core::net::ip_addr`), which /repo uses for `IpAddr`, `Ipv4Addr` and `Ipv6Addr`
(/repo/src/network.rs:300-305, /repo/src/service/network_config.rs:384-403, /repo/src/service/ports.rs:70 and 234,
/repo/src/service/build.rs:103, /repo/src/service.rs:269 and 345).  The standard library is not part of /repo and its
source code was not at hand; this is written from memory of it and was not compared with it.
-/

namespace Rust.Net
open Rust

/-! ### Reading -/

/-- `Parser::read_number`: all digits there are; no more than `max` of them, at least one, without a leading zero unless this
is allowed, below `bound` (`try_into`). -/
def readNumber (dig : Char → Option Nat) (radix max bound : Nat) (zeroPrefix : Bool) (s : Str) : Option (Nat × Str) :=
  let ds := s.takeWhile fun c => (dig c).isSome
  let rest := s.dropWhile fun c => (dig c).isSome
  let n := ds.foldl (fun a c => a * radix + (dig c).getD 0) 0
  if max < ds.length then none
  else if ds = [] then none
  else if !zeroPrefix && ds.head? = some '0' && 1 < ds.length then none
  else if bound ≤ n then none
  else some (n, rest)

/-- `Parser::read_separator`: before all but the first there is a separator. -/
def readSeparator {α : Type} (sep : Char) (first : Bool) (read : Str → Option (α × Str)) (s : Str) : Option (α × Str) :=
  if first then read s
  else match s with
    | c :: cs => if c = sep then read cs else none
    | [] => none

/-- One of the numbers of an IPv4 address, with the dot before it. -/
def readOctet (first : Bool) : Str → Option (Nat × Str) :=
  readSeparator '.' first (readNumber toDigit 10 3 256 false)

/-- `Parser::read_ipv4_addr`. -/
def readIpv4 (s : Str) : Option (List Nat × Str) := do
  let (a, s) ← readOctet true s
  let (b, s) ← readOctet false s
  let (c, s) ← readOctet false s
  let (d, s) ← readOctet false s
  pure ([a, b, c, d], s)

/-- The two groups of an IPv4 address at the end of an IPv6 address: `u16::from_be_bytes`. -/
def groupsOfOctets : List Nat → List Nat
  | [a, b, c, d] => [a * 256 + b, c * 256 + d]
  | _ => []

/-- `read_groups` in `Parser::read_ipv6_addr`: the groups, whether the last two are an IPv4 address, and the rest.  The first
argument is how many groups there may still be. -/
def readGroups : Nat → Bool → Str → List Nat × Bool × Str
  | 0, _, s => ([], false, s)
  | n + 1, first, s =>
    match if 1 ≤ n then readSeparator ':' first readIpv4 s else none with
    | some (octets, rest) => (groupsOfOctets octets, true, rest)
    | none =>
      match readSeparator ':' first (readNumber toHexDigit 16 4 65536 true) s with
      | none => ([], false, s)
      | some (g, rest) =>
        let r := readGroups n false rest
        (g :: r.1, r.2.1, r.2.2)

/-- `Parser::read_ipv6_addr`. -/
def readIpv6 (s : Str) : Option (List Nat × Str) :=
  let head := readGroups 8 true s
  if head.1.length = 8 then some (head.1, head.2.2)
  else if head.2.1 then none
  else match head.2.2 with
    | ':' :: ':' :: s =>
      let tail := readGroups (8 - (head.1.length + 1)) true s
      some (head.1 ++ List.replicate (8 - head.1.length - tail.1.length) 0 ++ tail.1, tail.2.2)
    | _ => none

/-- `Parser::parse_with`: nothing may be left. -/
def parseWith {α : Type} (read : Str → Option (α × Str)) (s : Str) : Option α :=
  match read s with
  | some (x, []) => some x
  | _ => none

/-- `Ipv4Addr::from_str`: no more than 15 bytes. -/
def parseIpv4 (s : Str) : Option (List Nat) := if 15 < s.length then none else parseWith readIpv4 s

/-- `Ipv6Addr::from_str`. -/
def parseIpv6 (s : Str) : Option (List Nat) := parseWith readIpv6 s

/-- `Parser::read_ip_addr`. -/
def readIp (s : Str) : Option ((List Nat ⊕ List Nat) × Str) :=
  match readIpv4 s with
  | some (a, rest) => some (.inl a, rest)
  | none => (readIpv6 s).map fun (a, rest) => (.inr a, rest)

/-- `IpAddr::from_str`. -/
def parseIp (s : Str) : Option (List Nat ⊕ List Nat) := parseWith readIp s

/-! ### Writing -/

/-- `Display for Ipv4Addr`. -/
def showIpv4 (a : List Nat) : Str := List.intercalate ['.'] (a.map showNat)

/-- `{:x}` of a number. -/
def showHex (n : Nat) : Str := Nat.toDigits 16 n

/-- `fmt_subslice`. -/
def showGroups (a : List Nat) : Str := List.intercalate [':'] (a.map showHex)

/-- A run of zeros, `Span`. -/
structure Span where
  start : Nat := 0
  len : Nat := 0

/-- The loop that finds the longest run of zeros. -/
def zeroSpan : (i : Nat) → (longest current : Span) → List Nat → Span
  | _, longest, _, [] => longest
  | i, longest, current, g :: gs =>
    if g = 0 then
      let current : Span := { start := if current.len = 0 then i else current.start, len := current.len + 1 }
      zeroSpan (i + 1) (if longest.len < current.len then current else longest) current gs
    else zeroSpan (i + 1) longest {} gs

/-- `Ipv6Addr::to_ipv4_mapped`. -/
def toIpv4Mapped : List Nat → Option (List Nat)
  | [0, 0, 0, 0, 0, 65535, x, y] => some [x / 256, x % 256, y / 256, y % 256]
  | _ => none

/-- `Display for Ipv6Addr`. -/
def showIpv6 (a : List Nat) : Str :=
  match toIpv4Mapped a with
  | some v4 => "::ffff:".toList ++ showIpv4 v4
  | none =>
    let z := zeroSpan 0 {} {} a
    if 1 < z.len then showGroups (a.take z.start) ++ "::".toList ++ showGroups (a.drop (z.start + z.len))
    else showGroups a

/-- `Display for IpAddr`. -/
def showIp : List Nat ⊕ List Nat → Str
  | .inl a => showIpv4 a
  | .inr a => showIpv6 a

end Rust.Net
