import Verif.Model.Numbers
import Verif.Model.ByteValue
import Verif.Model.Mac
import Verif.Model.Defaults
import Verif.Model.Making

/-
The order of the numbers: derived and handwritten `PartialEq`, `PartialOrd` and `Ord` of `Percent`, `OomScoreAdj`
(`src/service.rs`), `Weight` (`src/service/blkio_config.rs`), `Cpus` (`src/service/deploy/resources.rs`), `Limit`
(`src/service/limit.rs`) and `MacAddress` (`src/service/network_config.rs`).
-/

namespace Rust.F64

/-- `f64::is_nan` (std): the exponent bits are all ones and the fraction is not zero. -/
def isNan (x : F64) : Bool := expo x == 2047 && frac x != 0

/-- The bits without the sign bit, negative if the sign bit is set: in IEEE 754 doubles that are numbers are ordered as
these. -/
def signedBits (x : F64) : Int := if x.msb then -((x.toNat % 2 ^ 63 : Nat) : Int) else ((x.toNat % 2 ^ 63 : Nat) : Int)

/-- `PartialOrd for f64` (std, the comparison instructions of IEEE 754): NaN is not comparable to anything. -/
def partialCmp (a b : F64) : Option Ordering :=
  if a.isNan || b.isNan then none else some (compare a.signedBits b.signedBits)

/-- `PartialEq for f64` (std, IEEE 754). -/
def eq (a b : F64) : Bool := partialCmp a b == some .eq

end Rust.F64

namespace Compose
open Rust

/-- `#[derive(PartialOrd, Ord)]` of `Percent`, /repo/src/service.rs:741-743. -/
def Percent.cmp (a b : Percent) : Ordering := compare a.val b.val

/-- `PartialEq<u8> for Percent`, /repo/src/service.rs:795-799. -/
def Percent.eqNat (a : Percent) (other : Nat) : Bool := a.val == other

/-- `#[derive(PartialOrd, Ord)]` of `OomScoreAdj`, /repo/src/service.rs:1294-1296. -/
def OomScoreAdj.cmp (a b : OomScoreAdj) : Ordering := compare a.val b.val

/-- `PartialEq<i16> for OomScoreAdj`, /repo/src/service.rs:1330-1334. -/
def OomScoreAdj.eqInt (a : OomScoreAdj) (other : Int) : Bool := a.val == other

/-- `#[derive(PartialOrd, Ord)]` of `Weight`, /repo/src/service/blkio_config.rs:118-120. -/
def Weight.cmp (a b : Weight) : Ordering := compare a.val b.val

/-- `PartialEq<NonZeroU16>` and `PartialEq<u16> for Weight`, /repo/src/service/blkio_config.rs:214-224. -/
def Weight.eqNat (a : Weight) (other : Nat) : Bool := a.val == other

/-- `#[derive(PartialEq)]` of `Cpus`, /repo/src/service/deploy/resources.rs:212-214. -/
def Cpus.eq (a b : Cpus) : Bool := a.val.eq b.val

/-- `#[derive(PartialOrd)]` of `Cpus`, /repo/src/service/deploy/resources.rs:212-214. -/
def Cpus.partialCmp (a b : Cpus) : Option Ordering := a.val.partialCmp b.val

/-- `PartialEq<f64> for Cpus`, /repo/src/service/deploy/resources.rs:278-282. -/
def Cpus.eqFloat (a : Cpus) (other : F64) : Bool := a.val.eq other

/-- `PartialOrd<f64> for Cpus`, /repo/src/service/deploy/resources.rs:284-288. -/
def Cpus.partialCmpFloat (a : Cpus) (other : F64) : Option Ordering := a.val.partialCmp other

/-- `#[derive(PartialOrd, Ord)]` of `Limit<T>`, /repo/src/service/limit.rs:18-28: the variants in the order in which they are
declared, then the values.  `cmpT` is the order of `T`. -/
def Limit.cmp {T : Type} (cmpT : T → T → Ordering) : Limit T → Limit T → Ordering
  | .value a, .value b => cmpT a b
  | .value _, .unlimited => .lt
  | .unlimited, .value _ => .gt
  | .unlimited, .unlimited => .eq

/-- `Ord for [u8; 6]` (std): the first bytes that differ decide. -/
def compareBytes : List Nat → List Nat → Ordering
  | [], [] => .eq
  | [], _ :: _ => .lt
  | _ :: _, [] => .gt
  | a :: s, b :: t => (compare a b).then (compareBytes s t)

/-- `#[derive(PartialOrd, Ord)]` of `MacAddress`, /repo/src/service/network_config.rs:471-475. -/
def MacAddress.cmp (a b : MacAddress) : Ordering := compareBytes a.bytes b.bytes

end Compose
