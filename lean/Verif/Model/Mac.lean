import Verif.Std.Int

/- Model of `MacAddress` in `src/service/network_config.rs`. -/

namespace Compose
open Rust

/-- `MacAddress([u8; 6])`, /repo/src/service/network_config.rs:467-475: its bytes, of which there are six. -/
structure MacAddress where
  bytes : List Nat
  deriving DecidableEq, Repr

/-- `ParseMacAddressError`, /repo/src/service/network_config.rs:533-547. -/
inductive ParseMacAddressError
  | length | int (source : IntErr) (value : Str)
  deriving DecidableEq, Repr

/-- `parse_next_hex`, /repo/src/service/network_config.rs:523-529; the iterator is the list of remaining items. -/
def parseNextHex : List Str → Except ParseMacAddressError (Nat × List Str)
  | [] => .error .length
  | value :: split =>
    match parseHexU8 value with
    | .error source => .error (.int source value)
    | .ok byte => .ok (byte, split)

/-- `n` calls of `parse_next_hex`, the array literal at /repo/src/service/network_config.rs:501-508. -/
def parseHexArray : Nat → List Str → Except ParseMacAddressError (List Nat × List Str)
  | 0, split => .ok ([], split)
  | n + 1, split =>
    match parseNextHex split with
    | .error e => .error e
    | .ok (byte, split) =>
      match parseHexArray n split with
      | .error e => .error e
      | .ok (bytes, split) => .ok (byte :: bytes, split)

/-- `MacAddress::from_str`, /repo/src/service/network_config.rs:495-516. -/
def MacAddress.fromStr (s : Str) : Except ParseMacAddressError MacAddress :=
  match parseHexArray 6 (split ':' s) with
  | .error e => .error e
  | .ok (bytes, split) => if split.isEmpty then .ok ⟨bytes⟩ else .error .length

/-- `LowerHex::fmt` of a `u8` without flags. -/
def lowerHex (n : Nat) : Str := Nat.toDigits 16 n

/-- `{:02x}`: padded on the left with zeros to two characters. -/
def lowerHex02 (n : Nat) : Str := List.replicate (2 - (lowerHex n).length) '0' ++ lowerHex n

/-- `Display for MacAddress`, /repo/src/service/network_config.rs:557-571. -/
def MacAddress.display (m : MacAddress) : Str :=
  match m.bytes with
  | [] => []
  | byte :: bytes => lowerHex byte ++ (bytes.map fun byte => ':' :: lowerHex02 byte).flatten

end Compose
