import Verif.Model.Duration
import Verif.Std.Content

/-
Model of the restricted numbers: `Percent` and `OomScoreAdj` (`src/service.rs`), `Weight`
(`src/service/blkio_config.rs`), `Count` and `Cpus` (`src/service/deploy/resources.rs`), and of the duration fields
(`src/serde/duration_us_option.rs`, `src/serde/duration_option.rs`).
-/

namespace Compose
open Rust

/-! ### serde's integers -/

/-- `Deserialize` for an unsigned integer type with the given maximum (serde `impl_deserialize_num!`): any integer in
range. -/
def deUnsigned (max : Nat) : Content → Option Nat
  | .u64 n => if n ≤ max then some n else none
  | .i64 i => if 0 ≤ i ∧ i ≤ max then some i.natAbs else none
  | _ => none

/-- `Deserialize` for a signed integer type with the given bounds (serde `impl_deserialize_num!`). -/
def deSigned (min max : Int) : Content → Option Int
  | .u64 n => if (n : Int) ≤ max then some n else none
  | .i64 i => if min ≤ i ∧ i ≤ max then some i else none
  | _ => none

/-- A signed integer in a document: `serde_yaml` keeps negative and non-negative numbers apart. -/
def serSigned (i : Int) : Content := if i < 0 then .i64 i else .u64 i.toNat

/-! ### Percent, OomScoreAdj, Weight -/

/-- `RangeError`, /repo/src/service.rs:770-779. -/
structure ServiceRangeError where
  value : Int
  start : Int
  stop : Int
  deriving DecidableEq, Repr

/-- `Percent`, /repo/src/service.rs:740-743: a `u8`. -/
structure Percent where
  val : Nat
  deriving DecidableEq, Repr

/-- `Percent::new`, /repo/src/service.rs:751-760. -/
def Percent.new (percent : Nat) : Except ServiceRangeError Percent :=
  if 0 ≤ percent ∧ percent ≤ 100 then .ok ⟨percent⟩ else .error ⟨percent, 0, 100⟩

/-- `Percent::into_inner` and `From<Percent> for u8`, /repo/src/service.rs:764-766, 789-793. -/
def Percent.intoInner (p : Percent) : Nat := p.val

/-- `#[serde(into = "u8")]`, /repo/src/service.rs:742. -/
def Percent.serialize (p : Percent) : Content := .u64 p.intoInner

/-- `#[serde(try_from = "u8")]`, /repo/src/service.rs:742, 781-787. -/
def Percent.deserialize (c : Content) : Option Percent :=
  match deUnsigned u8Max c with
  | some v => (Percent.new v).toOption
  | none => none

/-- `OomScoreAdj`, /repo/src/service.rs:1294-1296: an `i16`. -/
structure OomScoreAdj where
  val : Int
  deriving DecidableEq, Repr

/-- `OomScoreAdj::new`, /repo/src/service.rs:1304-1313. -/
def OomScoreAdj.new (v : Int) : Except ServiceRangeError OomScoreAdj :=
  if -1000 ≤ v ∧ v ≤ 1000 then .ok ⟨v⟩ else .error ⟨v, -1000, 1000⟩

/-- `From<OomScoreAdj> for i16`, /repo/src/service.rs:1324-1328. -/
def OomScoreAdj.intoInner (v : OomScoreAdj) : Int := v.val

/-- `#[serde(into = "i16")]`, /repo/src/service.rs:1295. -/
def OomScoreAdj.serialize (v : OomScoreAdj) : Content := serSigned v.intoInner

/-- `#[serde(try_from = "i16")]`, /repo/src/service.rs:1295, 1316-1322. -/
def OomScoreAdj.deserialize (c : Content) : Option OomScoreAdj :=
  match deSigned (-32768) 32767 c with
  | some v => (OomScoreAdj.new v).toOption
  | none => none

/-- `WeightRangeError`, /repo/src/service/blkio_config.rs:159-165: whether the source is the failed conversion to
`NonZeroU16`. -/
structure WeightRangeError where
  source : Bool
  deriving DecidableEq, Repr

/-- `Weight`, /repo/src/service/blkio_config.rs:118-120: a `NonZeroU16`. -/
structure Weight where
  val : Nat
  deriving DecidableEq, Repr

/-- `Weight::new` at `u16`, /repo/src/service/blkio_config.rs:138-148: the conversion to `NonZeroU16` fails on zero. -/
def Weight.new (weight : Nat) : Except WeightRangeError Weight :=
  if weight = 0 then .error ⟨true⟩
  else if 10 ≤ weight ∧ weight ≤ 1000 then .ok ⟨weight⟩
  else .error ⟨false⟩

/-- `Weight::DEFAULT` and `Default for Weight`, /repo/src/service/blkio_config.rs:128-131, 173-178. -/
def Weight.default : Weight := ⟨500⟩

/-- `Weight::into_inner` and `From<Weight> for u16`, /repo/src/service/blkio_config.rs:152-154, 208-212. -/
def Weight.intoInner (w : Weight) : Nat := w.val

/-- `#[serde(into = "u16")]`, /repo/src/service/blkio_config.rs:119. -/
def Weight.serialize (w : Weight) : Content := .u64 w.intoInner

/-- `#[serde(try_from = "u16")]`, /repo/src/service/blkio_config.rs:119, 194-200. -/
def Weight.deserialize (c : Content) : Option Weight :=
  match deUnsigned u16Max c with
  | some v => (Weight.new v).toOption
  | none => none

/-! ### Count -/

/-- `Count`, /repo/src/service/deploy/resources.rs:516-524. -/
inductive Count
  | all | integer (n : Nat)
  deriving DecidableEq, Repr

/-- `FromStr for Count`, /repo/src/service/deploy/resources.rs:546-556. -/
def Count.fromStr (s : Str) : Except IntErr Count :=
  if s = str!"all" then .ok .all else (parseUnsigned u64Max s).map .integer

/-- `Serialize for Count`, /repo/src/service/deploy/resources.rs:558-565. -/
def Count.serialize : Count → Content
  | .all => .str str!"all"
  | .integer n => .u64 n

/-- `CountVisitor`, /repo/src/service/deploy/resources.rs:573-592. -/
def Count.deserialize : Content → Option Count
  | .u64 v => if v ≤ u64Max then some (.integer v) else none
  | .str v => (Count.fromStr v).toOption
  | _ => none

/-! ### Cpus -/

/-- `InvalidCpusError`, /repo/src/service/deploy/resources.rs:241-250. -/
inductive InvalidCpusError
  | negative | infinite
  deriving DecidableEq, Repr

/-- `Cpus`, /repo/src/service/deploy/resources.rs:212-214: an `f64`. -/
structure Cpus where
  val : F64
  deriving DecidableEq, Repr

/-- `Cpus::new` at `f64`, /repo/src/service/deploy/resources.rs:222-231. -/
def Cpus.new (cpus : F64) : Except InvalidCpusError Cpus :=
  if !cpus.isSignPositive then .error .negative
  else if !cpus.isFinite then .error .infinite
  else .ok ⟨cpus⟩

/-- `TryFrom<i32>` (also `i8`, `i16`), /repo/src/service/deploy/resources.rs:252: `Cpus::new` of the conversion. -/
def Cpus.ofInt (i : Int) : Except InvalidCpusError Cpus := Cpus.new (F64.ofInt i)

/-- `From<u32>` (also `u8`, `u16`), /repo/src/service/deploy/resources.rs:254-270. -/
def Cpus.ofNat (n : Nat) : Cpus := ⟨F64.ofNat n⟩

/-- `Cpus::into_inner`, /repo/src/service/deploy/resources.rs:235-237. -/
def Cpus.intoInner (c : Cpus) : F64 := c.val

/-- `#[serde(into = "f64")]`, /repo/src/service/deploy/resources.rs:213. -/
def Cpus.serialize (c : Cpus) : Content := .f64 c.intoInner

/-- `CpusVisitor`, /repo/src/service/deploy/resources.rs:296-332, as driven by `serde_yaml`, which delivers integers as
`u64` or `i64`: the visitor has neither `visit_u64` nor `visit_i64`, so the default implementation reports a type error.
`parseF64` is `str::parse::<f64>`. -/
def Cpus.deserialize (parseF64 : Str → Option F64) : Content → Option Cpus
  | .f64 v => (Cpus.new v).toOption
  | .str v =>
    match parseF64 v with
    | some v => (Cpus.new v).toOption
    | none => none
  | _ => none

/-! ### Duration fields -/

/-- `duration_us_option::serialize`, /repo/src/serde/duration_us_option.rs:8-16. -/
def serializeDurationUs : Option Duration → Content
  | some d => .u64 d.asMicros
  | none => .unit

/-- `duration_us_option::deserialize`, /repo/src/serde/duration_us_option.rs:19-24. -/
def deserializeDurationUs : Content → Option (Option Duration)
  | .unit => some none
  | c => (deUnsigned u64Max c).map fun micros => some (Duration.fromMicros micros)

/-- `duration_option::serialize`, /repo/src/serde/duration_option.rs:19-26. -/
def serializeDuration : Option Duration → Content
  | some d => .str (durationToString d)
  | none => .unit

/-- `duration_option::deserialize`, /repo/src/serde/duration_option.rs:29-68: `visit_u64`, the other integers through
`try_into`, `visit_str`; a null is `visit_none`/`visit_unit` (`serde_yaml` calls `visit_unit` from `deserialize_any`,
which this visitor does not override: an error). -/
def deserializeDuration : Content → Outcome Unit (Option Duration)
  | .u64 v => if v ≤ u64Max then .ok (some (Duration.fromMicros v)) else .err ()
  | .i64 v => if 0 ≤ v ∧ v ≤ u64Max then .ok (some (Duration.fromMicros v.natAbs)) else .err ()
  | .str v =>
    match durationParse v with
    | .ok d => .ok (some d)
    | .err _ => .err ()
    | .panic => .panic
  | _ => .err ()

end Compose
