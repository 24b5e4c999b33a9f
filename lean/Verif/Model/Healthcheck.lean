import Verif.Model.Common
import Verif.Model.Numbers

/- Model of `src/service/healthcheck.rs`: decoding and encoding of health checks. -/

namespace Compose
open Rust

/-- `Test`, /repo/src/service/healthcheck.rs:378-385. -/
inductive Test
  | command (args : List Str)
  | shellCommand (s : Str)
  deriving DecidableEq, Repr

/-- `Command`, /repo/src/service/healthcheck.rs:292-349.  `Extensions` are an `IndexMap<ExtensionKey, YamlValue>`. -/
structure HealthCommand where
  test : Option Test
  interval : Option Duration
  timeout : Option Duration
  retries : Option Nat
  startPeriod : Option Duration
  startInterval : Option Duration
  extensions : IndexMap Str Content

/-- `Healthcheck`, /repo/src/service/healthcheck.rs:21-27. -/
inductive Healthcheck
  | command (c : HealthCommand)
  | disable

/-- `String::deserialize`: any scalar; scalars that are asked for as a string are modelled by `Content.str`. -/
def deString : Content → Option Str
  | .str s => some s
  | _ => none

/-- `Vec::<String>::deserialize` of the rest of a sequence. -/
def deStrings : List Content → Option (List Str)
  | [] => some []
  | c :: cs =>
    match deString c, deStrings cs with
    | some s, some ss => some (s :: ss)
    | _, _ => none

/-- `bool::deserialize`. -/
def deBool : Content → Option Bool
  | .bool b => some b
  | _ => none

/-- The local variables of `visit_map`, /repo/src/service/healthcheck.rs:71-78. -/
structure HealthState where
  disable : Option Bool := none
  test : Option Test := none
  interval : Option Duration := none
  timeout : Option Duration := none
  retries : Option Nat := none
  startPeriod : Option Duration := none
  startInterval : Option Duration := none
  extensions : IndexMap Str Content := []

/-- `DisableOrTest::visit_seq`, /repo/src/service/healthcheck.rs:225-267: the new `disable` and `test`. -/
def testSeq (disable : Option Bool) (test : Option Test) : List Content → Option (Option Bool × Option Test)
  | [] => none
  | kind :: rest =>
    if deString kind = some "CMD".toList then (deStrings rest).map fun args => (disable, some (.command args))
    else if deString kind = some "CMD-SHELL".toList then
      match rest with
      | [arg] => (deString arg).map fun s => (disable, some (.shellCommand s))
      | _ => none
    else if deString kind = some "NONE".toList then
      if disable.getD false then none
      else match rest with
        | [] => some (some true, test)
        | _ => none
    else none

/-- `DisableOrTest`'s visitor, /repo/src/service/healthcheck.rs:199-268: a string or a sequence. -/
def disableOrTest (disable : Option Bool) (test : Option Test) : Content → Option (Option Bool × Option Test)
  | .str v => some (disable, some (.shellCommand v))
  | .seq items => testSeq disable test items
  | _ => none

/-- `map.next_value::<DurationOption>()?.0` after `check_duplicate`, /repo/src/service/healthcheck.rs:94-97 and 151-157. -/
def durationOnce (old : Option Duration) (value : Content) : Outcome Unit (Option Duration) :=
  if old.isSome then .err () else deserializeDuration value

/-- One round of the loop of `visit_map`, /repo/src/service/healthcheck.rs:80-119.  The key is read as a `Field`
(/repo/src/service/healthcheck.rs:159-186): a known name, or else an extension key. -/
def HealthState.step (s : HealthState) : Str × Content → Outcome Unit HealthState
  | (key, value) =>
    if key = "disable".toList then
      if s.disable.isSome then .err ()
      else match deBool value with
        | some b => .ok { s with disable := some b }
        | none => .err ()
    else if key = "test".toList then
      if s.test.isSome then .err ()
      else match disableOrTest s.disable s.test value with
        | some (d, t) => .ok { s with disable := d, test := t }
        | none => .err ()
    else if key = "interval".toList then
      match durationOnce s.interval value with
      | .ok d => .ok { s with interval := d }
      | .err e => .err e
      | .panic => .panic
    else if key = "timeout".toList then
      match durationOnce s.timeout value with
      | .ok d => .ok { s with timeout := d }
      | .err e => .err e
      | .panic => .panic
    else if key = "retries".toList then
      if s.retries.isSome then .err ()
      else match deUnsigned u64Max value with
        | some n => .ok { s with retries := some n }
        | none => .err ()
    else if key = "start_period".toList then
      match durationOnce s.startPeriod value with
      | .ok d => .ok { s with startPeriod := d }
      | .err e => .err e
      | .panic => .panic
    else if key = "start_interval".toList then
      match durationOnce s.startInterval value with
      | .ok d => .ok { s with startInterval := d }
      | .err e => .err e
      | .panic => .panic
    else match extensionKeyNew key with
      | .error _ => .err ()
      | .ok key =>
        if (IndexMap.get s.extensions key).isSome then .err ()
        else .ok { s with extensions := IndexMap.insert s.extensions key value }

/-- The loop of `visit_map`. -/
def HealthState.run : HealthState → List (Str × Content) → Outcome Unit HealthState
  | s, [] => .ok s
  | s, e :: es =>
    match s.step e with
    | .ok s => s.run es
    | .err e => .err e
    | .panic => .panic

/-- The end of `visit_map`, /repo/src/service/healthcheck.rs:121-146. -/
def HealthState.finish (s : HealthState) : Outcome Unit Healthcheck :=
  if s.disable.getD false then
    if s.test.isNone ∧ s.interval.isNone ∧ s.timeout.isNone ∧ s.retries.isNone ∧ s.startPeriod.isNone ∧
        s.startInterval.isNone ∧ s.extensions = [] then .ok .disable
    else .err ()
  else .ok (.command ⟨s.test, s.interval, s.timeout, s.retries, s.startPeriod, s.startInterval, s.extensions⟩)

/-- `Deserialize for Healthcheck`, /repo/src/service/healthcheck.rs:54-148.  Simplified: a key that is not a scalar is
noticed before anything else is read. -/
def Healthcheck.deserialize : Content → Outcome Unit Healthcheck
  | .map entries =>
    match stringKeys entries with
    | none => .err ()
    | some es =>
      match HealthState.run {} es with
      | .ok s => s.finish
      | .err e => .err e
      | .panic => .panic
  | _ => .err ()

/-- `Serialize for Test`, /repo/src/service/healthcheck.rs:399-408. -/
def Test.serialize : Test → Content
  | .command args => .seq (.str "CMD".toList :: args.map .str)
  | .shellCommand s => .str s

/-- An entry of a struct with `skip_serializing_if = "Option::is_none"`. -/
def optEntry {α : Type} (key : String) (ser : α → Content) : Option α → List (Str × Content)
  | none => []
  | some x => [(key.toList, ser x)]

/-- `Serialize for Healthcheck`, /repo/src/service/healthcheck.rs:41-52, and derived for `Command`, 284-341. -/
def Healthcheck.serialize : Healthcheck → Content
  | .disable => .map [(.str "disable".toList, .bool true)]
  | .command c =>
    .map ((optEntry "test" Test.serialize c.test ++
      optEntry "interval" (fun d => serializeDuration (some d)) c.interval ++
      optEntry "timeout" (fun d => serializeDuration (some d)) c.timeout ++
      optEntry "retries" .u64 c.retries ++
      optEntry "start_period" (fun d => serializeDuration (some d)) c.startPeriod ++
      optEntry "start_interval" (fun d => serializeDuration (some d)) c.startInterval ++
      c.extensions).map fun e => (.str e.1, e.2))

end Compose
