import Verif.Model.ByteValue
import Verif.Spec.Number

/- Texts of byte values. -/

namespace Spec
open Rust (Str)
open Compose (ByteValue)

/-- Spellings of the units, with the unit each one means. -/
def byteUnits : List (Str × (Nat → ByteValue)) :=
  [("".toList, .bytes), ("b".toList, .bytes), ("B".toList, .bytes),
   ("k".toList, .kilobytes), ("K".toList, .kilobytes), ("kb".toList, .kilobytes),
   ("m".toList, .megabytes), ("M".toList, .megabytes), ("mb".toList, .megabytes),
   ("g".toList, .gigabytes), ("G".toList, .gigabytes), ("gb".toList, .gigabytes)]

/-- `{number}{unit}` -/
def ByteText (s : Str) (b : ByteValue) : Prop :=
  ∃ num u f n, s = num ++ u ∧ UInt (2 ^ 64 - 1) num n ∧ (u, f) ∈ byteUnits ∧ b = f n

end Spec
