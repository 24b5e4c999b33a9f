import Verif.Model.Healthcheck
import Verif.Spec.Keys
import Verif.Spec.Numbers
import Verif.Spec.Duration

/- What a health check means. -/

namespace Spec
open Rust Compose

/-- The values given for a key, in order. -/
def valuesOf (key : Str) (es : List (Str × Content)) : List Content := (es.filter (·.1 = key)).map (·.2)

/-- A field that is not given, or is given once, with a value that denotes `o`. -/
def OptField {α : Type} (es : List (Str × Content)) (key : Str) (denotes : Content → α → Prop) (o : Option α) : Prop :=
  (valuesOf key es = [] ∧ o = none) ∨ ∃ v x, valuesOf key es = [v] ∧ denotes v x ∧ o = some x

/-- The test of a health check: a shell command, or a list saying what kind of command it is. -/
inductive TestValue : Content → Test → Prop
  | shell {s : Str} : TestValue (.str s) (.shellCommand s)
  | cmd {args : List Str} : TestValue (.seq (.str "CMD".toList :: args.map .str)) (.command args)
  | cmdShell {s : Str} : TestValue (.seq [.str "CMD-SHELL".toList, .str s]) (.shellCommand s)

/-- The test `[NONE]`. -/
def noTest : Content := .seq [.str "NONE".toList]

/-- A duration: a number of microseconds, or a text. -/
inductive DurationValue : Content → Duration → Prop
  | micros {v : Content} {n : Nat} {d : Duration} : IsInteger v n → n < 2 ^ 64 → d.nanos < 10 ^ 9 →
      d.secs * 10 ^ 9 + d.nanos = n * 1000 → DurationValue v d
  | text {s : Str} {d : Duration} : DurationText s d → DurationValue (.str s) d

/-- A number of retries. -/
def U64Value (v : Content) (n : Nat) : Prop := IsInteger v n ∧ n < 2 ^ 64

/-- The keys of a health check, apart from extensions. -/
def healthKeys : List Str :=
  ["disable".toList, "test".toList, "interval".toList, "timeout".toList, "retries".toList, "start_period".toList,
    "start_interval".toList]

/-- The entries of a health check that is not disabled. -/
structure CommandFields (es : List (Str × Content)) (c : HealthCommand) : Prop where
  keys : ∀ e ∈ es, e.1 ∈ healthKeys ∨ ExtensionKey e.1
  disable : valuesOf "disable".toList es = [] ∨ valuesOf "disable".toList es = [.bool false]
  test : OptField es "test".toList TestValue c.test
  interval : OptField es "interval".toList DurationValue c.interval
  timeout : OptField es "timeout".toList DurationValue c.timeout
  retries : OptField es "retries".toList U64Value c.retries
  startPeriod : OptField es "start_period".toList DurationValue c.startPeriod
  startInterval : OptField es "start_interval".toList DurationValue c.startInterval
  extensions : c.extensions = es.filter (·.1 ∉ healthKeys)
  distinct : (c.extensions.map (·.1)).Nodup

/-- Equal up to the order of the extensions, as `==` on index maps has it. -/
def SameHealthcheck : Healthcheck → Healthcheck → Prop
  | .disable, .disable => True
  | .command c, .command d =>
    c.test = d.test ∧ c.interval = d.interval ∧ c.timeout = d.timeout ∧ c.retries = d.retries ∧
      c.startPeriod = d.startPeriod ∧ c.startInterval = d.startInterval ∧ c.extensions.Perm d.extensions
  | _, _ => False

end Spec
