import Verif.Model.Common
import Verif.Spec.Number
import Verif.Spec.Numbers
import Verif.Spec.Keys
import Mathlib.Data.List.Forall2

/- Texts of scalar values, and the meaning of conversions between lists and maps. -/

namespace Spec
open Rust Compose

/-- Nothing but digits, apart from a sign. -/
def OnlyDigits (s : Str) : Prop :=
  ∃ ds, (s = ds ∨ s = '+' :: ds ∨ s = '-' :: ds) ∧ ∀ c ∈ ds, c ∈ "0123456789".toList

/-- A number: an integer from 0 to `u64::MAX`; a minus sign and an integer down to `i64::MIN`; or anything with other
characters that `f64` accepts. -/
inductive NumberText (ft : FloatText) : Str → Number → Prop
  | unsignedInt {s : Str} {n : Nat} : UInt (2 ^ 64 - 1) s n → NumberText ft s (.unsignedInt n)
  | signedInt {ds : Str} : IsNumber ds → decimal ds ≤ 2 ^ 63 → NumberText ft ('-' :: ds) (.signedInt (-(decimal ds)))
  | float {s : Str} {x : F64} : ¬ OnlyDigits s → ft.parse s = some x → NumberText ft s (.float x)

/-- `true` and `false` are booleans; of the other texts, numbers are numbers, and the rest are strings. -/
inductive ValueText (ft : FloatText) : Str → Value → Prop
  | true : ValueText ft "true".toList (.bool true)
  | false : ValueText ft "false".toList (.bool false)
  | number {s : Str} {n : Number} : s ≠ "true".toList → s ≠ "false".toList → NumberText ft s n →
      ValueText ft s (.number n)
  | string {s : Str} : s ≠ "true".toList → s ≠ "false".toList → (∀ n, ¬ NumberText ft s n) → ValueText ft s (.string s)

/-- The machine ranges of the integers. -/
def NumberOk : Number → Prop
  | .unsignedInt n => n < 2 ^ 64
  | .signedInt i => -2 ^ 63 ≤ i ∧ i < 2 ^ 63
  | .float _ => True

def ValueOk : Value → Prop
  | .number n => NumberOk n
  | _ => True

/-- The integer a number is, if it is kept as an integer. -/
def integerOf : Number → Option Int
  | .unsignedInt n => some n
  | .signedInt i => some i
  | .float _ => none

/-- The rational number denoted. -/
def numberValue : Number → Option ℚ
  | .unsignedInt n => some (n : ℚ)
  | .signedInt i => some (i : ℚ)
  | .float x => floatValue x

/-- The first occurrences, in order. -/
def firsts {α : Type} [DecidableEq α] : List α → List α
  | [] => []
  | x :: xs => x :: (firsts xs).filter (· ≠ x)

/-- The table one gets by writing down the entries one after the other: the keys in order of first mention, each with
the value mentioned last. -/
def Table {K V : Type} [DecidableEq K] (entries : List (K × V)) (m : List (K × V)) : Prop :=
  m.map (·.1) = firsts (entries.map (·.1)) ∧
  ∀ k v, (k, v) ∈ m ↔ ∃ before after, entries = before ++ (k, v) :: after ∧ k ∉ after.map (·.1)

/-- An item of a list, as an entry of a map: the text up to the first delimiter is the key; the rest, if there is any,
is the value. -/
inductive ItemEntry (ft : FloatText) (delimiters : List Char) : Str → Str × Option Value → Prop
  | key {k : Str} : (∀ c ∈ k, c ∉ delimiters) → MapKey k → ItemEntry ft delimiters k (k, none)
  | noValue {k : Str} {d : Char} : (∀ c ∈ k, c ∉ delimiters) → d ∈ delimiters → MapKey k →
      ItemEntry ft delimiters (k ++ [d]) (k, none)
  | keyValue {k t : Str} {d : Char} {v : Value} : (∀ c ∈ k, c ∉ delimiters) → d ∈ delimiters → MapKey k → t ≠ [] →
      ValueText ft t v → ItemEntry ft delimiters (k ++ d :: t) (k, some v)

/-- The text of an entry of a map in a list. -/
inductive EntryText (ft : FloatText) : Str × Option Value → Str → Prop
  | key {k : Str} : EntryText ft (k, none) k
  | keyValue {k : Str} {v : Value} : EntryText ft (k, some v) (k ++ "=".toList ++ v.show ft)

/-- An address, or an address in square brackets. -/
inductive HostAddress {Ip : Type} (parseIp : Str → Option Ip) : Str → Ip → Prop
  | plain {s : Str} {ip : Ip} : ¬ (∃ t, s = "[".toList ++ t ++ "]".toList) → parseIp s = some ip → HostAddress parseIp s ip
  | brackets {s : Str} {ip : Ip} : parseIp s = some ip → HostAddress parseIp ("[".toList ++ s ++ "]".toList) ip

/-- An entry of the table of hosts: a host name and the text of an address. -/
def IsHost {Ip : Type} (parseIp : Str → Option Ip) (e : Str × Option Value) (h : Str × Ip) : Prop :=
  h.1 = e.1 ∧ Hostname e.1 ∧ ∃ s, e.2 = some (.string s) ∧ HostAddress parseIp s h.2

/-- The value a key has last among entries. -/
def lastValue {V : Type} (entries : List (Str × V)) (k : Str) : Option V :=
  (entries.reverse.find? (·.1 = k)).map (·.2)

end Spec
