import Verif.Std.Int
import Verif.Std.Outcome

/- Model of `src/duration.rs`. -/

namespace Compose
open Rust

/-- `std::time::Duration`: whole seconds (a `u64`) and nanoseconds below one second. -/
structure Duration where
  secs : Nat
  nanos : Nat
  deriving DecidableEq, Repr

namespace Duration

/-- `Duration::checked_add` (std). -/
def checkedAdd (a b : Duration) : Option Duration :=
  if a.secs + b.secs > u64Max then none
  else if a.nanos + b.nanos ≥ 1000000000 then
    if a.secs + b.secs + 1 > u64Max then none
    else some ⟨a.secs + b.secs + 1, a.nanos + b.nanos - 1000000000⟩
  else some ⟨a.secs + b.secs, a.nanos + b.nanos⟩

/-- `Duration::from_secs` (std). -/
def fromSecs (n : Nat) : Duration := ⟨n, 0⟩
/-- `Duration::from_millis` (std). -/
def fromMillis (n : Nat) : Duration := ⟨n / 1000, (n % 1000) * 1000000⟩
/-- `Duration::from_micros` (std). -/
def fromMicros (n : Nat) : Duration := ⟨n / 1000000, (n % 1000000) * 1000⟩
/-- `Duration::subsec_micros` (std). -/
def subsecMicros (d : Duration) : Nat := d.nanos / 1000
/-- `Duration::as_micros` (std). -/
def asMicros (d : Duration) : Nat := d.secs * 1000000 + d.nanos / 1000

end Duration

/-- `push_value`, /repo/src/duration.rs:84-89. -/
def pushValue (string : Str) (value : Nat) (unit : Str) : Str :=
  if value ≠ 0 then string ++ showNat value ++ unit else string

/-- `to_string`, /repo/src/duration.rs:47-81. -/
def durationToString (duration : Duration) : Str :=
  let string : Str := []
  let seconds := duration.secs
  let hours := seconds / 3600
  let string := pushValue string hours str!"h"
  let seconds := seconds % 3600
  let minutes := seconds / 60
  let string := pushValue string minutes str!"m"
  let seconds := seconds % 60
  let string := pushValue string seconds str!"s"
  let microseconds := duration.subsecMicros
  let milliseconds := microseconds / 1000
  let string := pushValue string milliseconds str!"ms"
  let microseconds := microseconds % 1000
  let string := pushValue string microseconds str!"us"
  if string.isEmpty then str!"0s" else string

/-- `ParseDurationError`, /repo/src/duration.rs:160-183. -/
inductive DurationError
  | empty | missingUnit (s : Str) | noDigits (s : Str) | overflow | invalidUnit (s : Str)
  deriving DecidableEq, Repr

/-- The `match unit` of `parse`, /repo/src/duration.rs:124-140, up to the `Duration` handed to
`add_duration`. -/
def termDuration (unit : Str) (value : Nat) : Except DurationError Duration :=
  if unit = str!"h" then
    if value * 3600 > u64Max then .error .overflow else .ok (.fromSecs (value * 3600))
  else if unit = str!"m" then
    if value * 60 > u64Max then .error .overflow else .ok (.fromSecs (value * 60))
  else if unit = str!"s" then .ok (.fromSecs value)
  else if unit = str!"ms" then .ok (.fromMillis value)
  else if unit = str!"us" then .ok (.fromMicros value)
  else .error (.invalidUnit unit)

/-- `add_duration`, /repo/src/duration.rs:152-157. -/
def addDuration (duration rhs : Duration) : Except DurationError Duration :=
  match duration.checkedAdd rhs with
  | some d => .ok d
  | none => .error .overflow

/-- The `while` loop of `parse`, /repo/src/duration.rs:109-142.  The first argument bounds the number of
iterations; `parse` passes the length of the string, and every iteration consumes at least one character
(the exhausted case is a panic so that the theorems would notice it being reached).
`s.find(|c| !c.is_ascii_digit())` followed by `split_at` is `takeWhile`/`dropWhile`. -/
def durationLoop : Nat → Str → Duration → Outcome DurationError Duration
  | _, [], duration => .ok duration
  | 0, _ :: _, _ => .panic
  | fuel + 1, c :: cs, duration =>
    let s := c :: cs
    let value := s.takeWhile isDigit
    let rest := s.dropWhile isDigit
    if rest.isEmpty then .err (.missingUnit s)
    else if value.isEmpty then .err (.noDigits s)
    else match parseUnsigned u64Max value with
      | .error _ => .panic
      | .ok value =>
        let unit := rest.takeWhile (fun c => !isDigit c)
        let s := rest.dropWhile (fun c => !isDigit c)
        match termDuration unit value with
        | .error e => .err e
        | .ok rhs =>
          match addDuration duration rhs with
          | .error e => .err e
          | .ok duration => durationLoop fuel s duration

/-- `parse`, /repo/src/duration.rs:102-145. -/
def durationParse (s : Str) : Outcome DurationError Duration :=
  if s.isEmpty then .err .empty
  else durationLoop s.length s ⟨0, 0⟩

end Compose
