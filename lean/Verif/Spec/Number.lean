import Verif.Std.Str

/- Meaning of decimal numbers. -/

namespace Spec
open Rust (Str)

/-- The number a string of decimal digits denotes. -/
def decimal (s : Str) : Nat := s.foldl (fun n c => 10 * n + (c.toNat - '0'.toNat)) 0

/-- A string made of one or more decimal digits. -/
def IsNumber (s : Str) : Prop := s ≠ [] ∧ ∀ c ∈ s, c ∈ "0123456789".toList

/-- `s` is how Rust lets one write the unsigned integer `n`, at most `max`: decimal digits (leading zeros
allowed), optionally preceded by `+`. -/
def UInt (max : Nat) (s : Str) (n : Nat) : Prop :=
  ∃ ds, (s = ds ∨ s = '+' :: ds) ∧ IsNumber ds ∧ decimal ds = n ∧ n ≤ max

end Spec
