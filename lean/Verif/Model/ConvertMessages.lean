import Verif.Model.Messages

/- The errors of conversions of numbers and values, as in `Model/Messages`. -/

namespace Compose
open Rust

/-- `ParseNumberError`, /repo/src/common.rs:654-663.  `ParseFloatError` of std has a message of its own for the empty text,
which is not parsed as a float here (632-642). -/
def ParseNumberError.report : ParseNumberError → ErrorValue
  | .int e => .from str!"error parsing number as an integer" e.report
  | .float => .from str!"error parsing number as a float" (.root str!"invalid float literal")

/-- `TryFromNumberError`, /repo/src/common.rs:731-743. -/
def TryFromNumberError.report : TryFromNumberError → ErrorValue
  | .floatToInt => .root str!"cannot convert a float to an integer"
  | .tryFromInt => .from str!"error converting integer type" tryFromIntReport

/-- `TryFromValueError`, /repo/src/common.rs:499-517. -/
def TryFromValueError.report : TryFromValueError → ErrorValue
  | .parseNumber e => .from str!"error parsing string value into a number" e.report
  | .tryFromNumber e => .from str!"error converting number" e.report
  | .tryFromInt => .from str!"error converting integer type" tryFromIntReport
  | .intoBool => .root str!"cannot convert a non-bool value into a bool"

end Compose
