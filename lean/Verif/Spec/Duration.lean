import Verif.Spec.Number
import Verif.Model.Duration

/- Meaning of the compose-spec duration format: a sequence of `{value}{unit}` terms. -/

namespace Spec
open Rust (Str)

/-- Units and their length in nanoseconds. -/
def durationUnits : List (Str × Nat) :=
  [("h".toList, 3600 * 1000000000), ("m".toList, 60 * 1000000000), ("s".toList, 1000000000),
    ("ms".toList, 1000000), ("us".toList, 1000)]

/-- A term `{digits}{unit}`: the number is written in decimal, leading zeros allowed; `scale` is the length of
the unit in nanoseconds. -/
structure Term where
  digits : Str
  unit : Str
  scale : Nat

/-- A term is well formed if its number is a number and its unit is one of the five units. -/
def Term.Ok (t : Term) : Prop := IsNumber t.digits ∧ (t.unit, t.scale) ∈ durationUnits

/-- Nanoseconds denoted by a term. -/
def Term.nanos (t : Term) : Nat := decimal t.digits * t.scale

/-- Text of a sequence of terms. -/
def renderTerms (ts : List Term) : Str := (ts.map fun t => t.digits ++ t.unit).flatten

/-- Nanoseconds denoted by a sequence of terms. -/
def totalNanos (ts : List Term) : Nat := (ts.map Term.nanos).sum

/-- The text of a duration: terms whose numbers have 64 bits, and whose sum has a number of seconds of 64 bits. -/
def DurationText (s : Str) (d : Compose.Duration) : Prop :=
  ∃ ts : List Term, ts ≠ [] ∧ s = renderTerms ts ∧
    (∀ t ∈ ts, t.Ok) ∧ (∀ t ∈ ts, decimal t.digits ≤ 2 ^ 64 - 1) ∧
    d.secs ≤ 2 ^ 64 - 1 ∧ d.nanos < 10 ^ 9 ∧ d.secs * 10 ^ 9 + d.nanos = totalNanos ts

end Spec
