import Verif.Std.Str
import Verif.Std.Float

/- The data a self-describing serde format (YAML) hands to a visitor.  Used to model hand-written visitors. -/

namespace Rust

/-- serde data model restricted to what `serde_yaml` produces: non-negative integers come as `u64`, negative
ones as `i64`.  A document never hands out a payload of `u64` above `u64::MAX` or of `i64` outside its range;
an integer above `u64::MAX`, which only the microsecond fields write, stands for a `u128`. -/
inductive Content
  | unit
  | bool (b : Bool)
  | u64 (n : Nat)
  | i64 (n : Int)
  | f64 (x : F64)
  | str (s : Str)
  | seq (items : List Content)
  | map (entries : List (Content × Content))

end Rust
