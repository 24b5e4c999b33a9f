import Verif.Model.Floats
import Verif.Std.Exponent

namespace Compose
open Rust

/-- `LowerExp for Number` and `UpperExp for Number`, /repo/src/common.rs:675-693, for `{:e}` and `{:E}` without width, precision
and flags.  `tieUp` is for the few doubles with two shortest texts that are equally close. -/
def Number.showExp (tieUp : Nat → Bool) (upper : Bool) : Number → Str
  | .unsignedInt n => showNatExp upper n
  | .signedInt i => showIntExp upper i
  | .float x => F64.showExp tieUp upper x

/-- `LowerExp for Number`, /repo/src/common.rs:675-683. -/
def Number.lowerExp (tieUp : Nat → Bool) (n : Number) : Str := n.showExp tieUp false

/-- `UpperExp for Number`, /repo/src/common.rs:685-693. -/
def Number.upperExp (tieUp : Nat → Bool) (n : Number) : Str := n.showExp tieUp true

end Compose
