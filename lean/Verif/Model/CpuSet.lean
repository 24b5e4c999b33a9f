import Verif.Std.Int

/-
Model of `src/service/cpuset.rs`.  A `BTreeSet<u64>` is represented by the list of its elements in increasing order,
which is the order in which Rust iterates over it.
-/

namespace Compose
open Rust

/-- `BTreeSet::insert` on the ordered list of elements. -/
def btreeInsert (x : Nat) : List Nat → List Nat
  | [] => [x]
  | y :: ys => if x < y then x :: y :: ys else if x = y then y :: ys else y :: btreeInsert x ys

/-- `BTreeSet::extend` with the items of an iterator. -/
def btreeExtend (set xs : List Nat) : List Nat := xs.foldl (fun s x => btreeInsert x s) set

/-- The range `start..=end`, empty if `end < start`. -/
def rangeInclusive (start «end» : Nat) : List Nat := List.range' start («end» + 1 - start)

/-- `write_range`, /repo/src/service/cpuset.rs:56-71: the text written. -/
def writeRange (first : Bool) (start «end» : Nat) : Str :=
  (if first then [] else [',']) ++ showNat start ++ if start ≠ «end» then '-' :: showNat «end» else []

/-- The loop of `Display for CpuSet`, /repo/src/service/cpuset.rs:38-51; `out` is what was written so far.  `none` is
the panic of `*end + 1` on overflow. -/
def CpuSet.displayLoop (out : Str) (first : Bool) (start «end» : Nat) : List Nat → Option Str
  | [] => some (out ++ writeRange first start «end»)
  | cpu :: iter =>
    if u64Max < «end» + 1 then none
    else if cpu = «end» + 1 then CpuSet.displayLoop out first start cpu iter
    else CpuSet.displayLoop (out ++ writeRange first start «end») false cpu cpu iter

/-- `Display for CpuSet`, /repo/src/service/cpuset.rs:28-53; `none` is a panic. -/
def CpuSet.display : List Nat → Option Str
  | [] => some []
  | cpu :: iter => CpuSet.displayLoop [] true cpu cpu iter

/-- `ParseCpuSetError`, /repo/src/service/cpuset.rs:101-108. -/
structure ParseCpuSetError where
  value : Str
  source : IntErr
  deriving DecidableEq, Repr

/-- `parse().map_err(parse_int_err(value))`, /repo/src/service/cpuset.rs:94-98. -/
def parseCpu (value : Str) : Except ParseCpuSetError Nat :=
  match parseUnsigned u64Max value with
  | .error source => .error ⟨value, source⟩
  | .ok n => .ok n

/-- The body of the loop of `CpuSet::from_str`, /repo/src/service/cpuset.rs:80-87. -/
def CpuSet.parseItem (inner : List Nat) (range : Str) : Except ParseCpuSetError (List Nat) :=
  match splitOnce '-' range with
  | some (start, «end») =>
    match parseCpu start with
    | .error e => .error e
    | .ok start =>
      match parseCpu «end» with
      | .error e => .error e
      | .ok «end» => .ok (btreeExtend inner (rangeInclusive start «end»))
  | none =>
    match parseCpu range with
    | .error e => .error e
    | .ok cpu => .ok (btreeInsert cpu inner)

/-- The loop of `CpuSet::from_str`, /repo/src/service/cpuset.rs:79-88. -/
def CpuSet.parseLoop (inner : List Nat) : List Str → Except ParseCpuSetError (List Nat)
  | [] => .ok inner
  | range :: rest =>
    match CpuSet.parseItem inner range with
    | .error e => .error e
    | .ok inner => CpuSet.parseLoop inner rest

/-- `CpuSet::from_str`, /repo/src/service/cpuset.rs:73-92. -/
def CpuSet.fromStr (s : Str) : Except ParseCpuSetError (List Nat) :=
  CpuSet.parseLoop [] (splitTerminator ',' s)

end Compose
