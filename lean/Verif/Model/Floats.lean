import Verif.Model.Common
import Verif.Std.Decimal

/- `f64` texts as /repo/src/common.rs:627-643 and 665-673 and /repo/src/service/deploy/resources.rs:296-332 use them: those of
the standard library. -/

namespace Compose
open Rust

/-- `FromStr` and `Display` of `f64`, used by `Number`, /repo/src/common.rs:636, 670, and by `CpusVisitor`,
/repo/src/service/deploy/resources.rs:329-331.  `tieUp` is for the few doubles with two shortest texts that are equally close. -/
def stdFloat (tieUp : Nat → Bool) : FloatText := ⟨F64.parse, F64.show tieUp⟩

end Compose
