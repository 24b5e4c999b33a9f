import Verif.Spec.Number
import Verif.Std.Int
import Mathlib.Data.List.Chain

/- Text and content of CPU sets. -/

namespace Spec
open Rust

/-- `item` is a number or two numbers separated by `-`; `P` says which CPUs it lists. -/
inductive CpuItem : Str → (Nat → Prop) → Prop
  | one {s : Str} {n : Nat} : UInt u64Max s n → CpuItem s (· = n)
  | range {s t : Str} {m n : Nat} : UInt u64Max s m → UInt u64Max t n →
      CpuItem (s ++ "-".toList ++ t) (fun x => m ≤ x ∧ x ≤ n)

/-- The texts of `items` separated by commas, with an optional comma at the end. -/
inductive CpuList : Str → List Str → Prop
  | empty : CpuList [] []
  | plain {i : Str} {is : List Str} : CpuList (List.intercalate ",".toList (i :: is)) (i :: is)
  | trailing {i : Str} {is : List Str} : CpuList (List.intercalate ",".toList (i :: is) ++ ",".toList) (i :: is)

/-- A set, as the increasing list of its elements. -/
def Increasing (s : List Nat) : Prop := s.Pairwise (· < ·)

/-- How a run of CPUs is written: the number if there is just one, else the first and the last. -/
def runText (r : Nat × Nat) : Str :=
  if r.1 = r.2 then Nat.toDigits 10 r.1 else Nat.toDigits 10 r.1 ++ "-".toList ++ Nat.toDigits 10 r.2

/-- `runs` are non-empty runs in increasing order with a gap between each and the next. -/
def MaximalRuns (runs : List (Nat × Nat)) : Prop :=
  (∀ r ∈ runs, r.1 ≤ r.2) ∧ runs.IsChain (fun r r' => r.2 + 1 < r'.1)

end Spec
