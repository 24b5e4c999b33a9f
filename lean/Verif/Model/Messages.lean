import Verif.Model.Options
import Verif.Model.Image
import Verif.Model.Cache
import Verif.Model.CpuSet
import Verif.Model.Build
import Verif.Model.ByteValue
import Verif.Model.Device
import Verif.Model.Duration
import Verif.Model.Mac
import Verif.Model.Numbers
import Verif.Model.Ports
import Verif.Model.Volumes
import Verif.Model.Convert

/-
The errors as values of `std::error::Error`: the text of `Display` and the `source`, both derived by `thiserror` from the
`#[error("…")]` attributes and the fields named `source` or marked `#[from]`.
-/

namespace Compose
open Rust

/-- An error without a `source`. -/
def ErrorValue.root (text : Str) : ErrorValue := .mk text none

/-- An error with a `source`. -/
def ErrorValue.from (text : Str) (source : ErrorValue) : ErrorValue := .mk text (some source)

/-! ### Errors of the standard library -/

/-- `Display for ParseIntError`, by its `kind`. -/
def _root_.Rust.IntErr.report : IntErr → ErrorValue
  | .empty => .root str!"cannot parse integer from empty string"
  | .invalidDigit => .root str!"invalid digit found in string"
  | .posOverflow => .root str!"number too large to fit in target type"
  | .negOverflow => .root str!"number too small to fit in target type"

/-- `Display for TryFromIntError`. -/
def tryFromIntReport : ErrorValue := .root str!"out of range integral type conversion attempted"

/-! ### Names -/

/-- `InvalidIdentifierError`, /repo/src/common/keys.rs:48-72. -/
def IdentifierError.report : IdentifierError → ErrorValue
  | .empty => .root str!"identifier cannot be empty"
  | .start c => .root (str!"invalid start character `" ++ [c] ++
      str!"`, identifiers must start with an ASCII letter (a-z, A-Z) or digit (0-9)")
  | .character c => .root (str!"invalid character `" ++ [c] ++
      str!"`, identifiers must contain only ASCII letters (a-z, A-Z), digits (0-9), dots (.), underscores (_), or dashes (-)")

/-- `InvalidMapKeyError`, /repo/src/common/keys.rs:107-116. -/
def MapKeyError.report : MapKeyError → ErrorValue
  | .empty => .root str!"map key cannot be empty"
  | .multipleLines => .root str!"map key cannot have multiple lines (newline character `\\n` found)"

/-- `InvalidExtensionKeyError`, /repo/src/common/keys.rs:163-172. -/
def ExtensionKeyError.report : ExtensionKeyError → ErrorValue
  | .missingPrefix s => .root (str!"extension key `" ++ s ++ str!"` does not start with \"x-\"")
  | .multipleLines => .root str!"map key cannot have multiple lines (newline character `\\n` found)"

/-- `InvalidNameError` of projects, /repo/src/name.rs:60-86. -/
def NameError.report : NameError → ErrorValue
  | .empty => .root str!"name cannot be empty"
  | .start c => .root (str!"invalid character `" ++ [c] ++
      str!"`, names must start with a lowercase ASCII letter (a-z) or digit (0-9)")
  | .character c => .root (str!"invalid character `" ++ [c] ++
      str!"`, names must contain only lowercase ASCII letters (a-z), digits (0-9), underscores (_), or dashes (-)")

/-- `InvalidHostnameError`, /repo/src/service/hostname.rs:50-67. -/
def HostnameError.report : HostnameError → ErrorValue
  | .labelEmpty => .root str!"hostname label was empty"
  | .character c => .root (str!"invalid hostname character `" ++ [c] ++
      str!"`, hostnames can only contain ASCII letters (a-z, A-Z), digits (0-9), dots (.), and dashes (-)")
  | .labelStartEnd => .root str!"hostname labels cannot start or end with dashes (-)"

/-- `InvalidNameError` of users, /repo/src/service/user.rs:346-376. -/
def UserNameError.report : UserNameError → ErrorValue
  | .empty => .root str!"user and group names cannot be empty"
  | .character c => .root (str!"invalid user or group name character `" ++ [c] ++
      str!"`, names may only contain ASCII letters (a-z, A-Z), digits (0-9), underscores (_), and dashes (-), \
      with an optional dollar sign ($) at the end")
  | .dollarSign => .root str!"user and group names may only have a dollar sign ($) at the end"
  | .numeric => .root str!"user and group names cannot be fully numeric"
  | .start => .root str!"user and group names cannot start with a dash (-)"
  | .length => .root str!"user and group names may only be up to 32 characters long"

/-- `InvalidResourceError`, /repo/src/service/ulimit.rs:59-72. -/
def ResourceError.report : ResourceError → ErrorValue
  | .empty => .root str!"ulimit resources cannot be empty"
  | .character c => .root (str!"invalid character '" ++ [c] ++
      str!"', ulimit resources can only contain lowercase ASCII letters (a-z)")

/-- `InvalidCacheOptionError`, /repo/src/service/build/cache.rs:319-328. -/
def CacheOptionError.report : CacheOptionError → ErrorValue
  | .empty => .root str!"cache options cannot be empty"
  | .whitespace => .root str!"cache options cannot contain whitespace"

/-! ### Images -/

/-- `InvalidNamePartError`, /repo/src/service/image/name.rs:224-261. -/
def Image.NamePartError.report : Image.NamePartError → ErrorValue
  | .multipleSeparators =>
      .root str!"image name parts may only have one separator (., _, __, any number of -) in a row"
  | .character c => .root (str!"invalid character in image name '" ++ [c] ++ str!"', name parts must only contain \
      lowercase ASCII letters (a-z), digits (0-9), dashes (-), dots (.), and underscores (_)")
  | .empty => .root (str!"a part of an image name cannot be empty, i.e. there were two slashes (/) in row, \
      or the image name was completely empty")
  | .start => .root str!"image name parts must start with a lowercase ASCII letter (a-z) or a digit (0-9)"
  | .end => .root str!"image name parts must end with a lowercase ASCII letter (a-z) or a digit (0-9)"
  | .registryPort source port =>
      .from (str!"image registry port `" ++ port ++ str!"` is not a valid port number") source.report

/-- `InvalidTagError`, /repo/src/service/image/tag.rs:77-94. -/
def Image.TagError.report : Image.TagError → ErrorValue
  | .character c => .root (str!"image tag contains invalid character '" ++ [c] ++ str!"', tags must only contain \
      ASCII letters (a-z, A-Z), digits (0-9), dots (.), underscores (_), and dashes (-)")
  | .empty => .root str!"image tag cannot be empty"
  | .length => .root str!"image tags can only be up to 128 characters long"

/-- `InvalidDigestError`, /repo/src/service/image/digest.rs:116-156.  The message in the lines 128-129 is a literal without a
backslash at the end of its first line. -/
def Image.DigestError.report : Image.DigestError → ErrorValue
  | .missingAlgorithm => .root str!"image digest is missing its algorithm"
  | .algorithmSeparators => .root str!"image digest algorithms may only have one separator (+._-) in a row"
  | .algorithmCharacter c => .root (str!"invalid character '" ++ [c] ++ str!"' in image digest algorithm,\n        \
      digests may only contain lowercase ASCII letters (a-z), digits (0-9), or separators (+._-)")
  | .encodeCharacter c => .root (str!"invalid character '" ++ [c] ++ str!"' in image digest encode, \
      data encoded in digest may only contain ASCII letters (a-z, A-Z), digits (0-9), equals (=), underscores (_), \
      and dashes (-)")
  | .algorithmStart =>
      .root str!"image digest algorithm must start with a lowercase ASCII letter (a-z) or a digit (0-9)"
  | .algorithmEnd => .root str!"image digest algorithm must end with a lowercase ASCII letter (a-z) or a digit (0-9)"
  | .encodeEmpty => .root str!"image digest encode is empty"

/-- `InvalidImageError`, /repo/src/service/image.rs:478-495. -/
def Image.ImageError.report : Image.ImageError → ErrorValue
  | .digest e => .from str!"invalid image digest" e.report
  | .tag e => .from str!"invalid image tag" e.report
  | .tagAndDigest => .root str!"image cannot have a tag and a digest"
  | .namePart e => .from str!"invalid image name part" e.report

/-- `ParseCacheError`, /repo/src/service/build/cache.rs:155-172. -/
def ParseCacheError.report : ParseCacheError → ErrorValue
  | .image e => .from str!"error parsing cache image ref" e.report
  | .typeFirst => .root str!"cache options must start with `type=` if not an image"
  | .cacheOption e => .from str!"error parsing cache option" e.report
  | .missingRef => .root str!"cache type `registry` missing required `ref` option"

/-- `IdError`, /repo/src/service/build/ssh_auth.rs:156-165. -/
def SshIdError.report : SshIdError → ErrorValue
  | .emptyId => .root str!"ssh auth ID cannot be empty"
  | .missingPath => .root str!"non-default ssh auth requires a path to a PEM file or to the ssh-agent socket"

/-! ### Addresses and ports -/

/-- `ParseMacAddressError`, /repo/src/service/network_config.rs:532-546. -/
def ParseMacAddressError.report : ParseMacAddressError → ErrorValue
  | .length => .root str!"MAC addresses must be exactly six integers"
  | .int source value => .from (str!"error parsing `" ++ value ++ str!"` as an integer in hex format") source.report

/-- `RangeError`, /repo/src/service/ports.rs:686-693. -/
def RangeError.report (e : RangeError) : ErrorValue :=
  .root (str!"the start `" ++ showNat e.start ++ str!"` of the port range must be less than or equal to the end `" ++
    showNat e.end ++ str!"`")

/-- `ParseRangeError`, /repo/src/service/ports.rs:807-821. -/
def ParseRangeError.report : ParseRangeError → ErrorValue
  | .range e => .from str!"error creating the port range" e.report
  | .int source value => .from (str!"error parsing `" ++ value ++ str!"` as an integer") source.report

/-- `ShortRangesError`, /repo/src/service/ports.rs:493-503. -/
def ShortRangesError.report (e : ShortRangesError) : ErrorValue :=
  .root (str!"host port range size `" ++ showNat e.hostSize ++ str!"` must be equal to container port range size `" ++
    showNat e.containerSize ++ str!"`")

/-- `ParseShortRangesError`, /repo/src/service/ports.rs:571-580. -/
def ParseShortRangesError.report : ParseShortRangesError → ErrorValue
  | .shortRanges e => .from str!"error creating the port ranges" e.report
  | .range e => .from str!"error parsing port range" e.report

/-- `ParseShortPortError`, /repo/src/service/ports.rs:340-354; `ip` is `AddrParseError`. -/
def ParseShortPortError.report {E : Type} (ip : E → ErrorValue) : ParseShortPortError E → ErrorValue
  | .ipAddr source _ => .from str!"error parsing host ip address" (ip source)
  | .shortRanges e => .from str!"error parsing port ranges" e.report

/-! ### Paths and devices -/

/-- `AbsolutePathError`, /repo/src/service/volumes.rs:330-332. -/
def AbsolutePathError.report : AbsolutePathError → ErrorValue
  | .notAbsolute => .root str!"path is not absolute"

/-- `HostPathError`, /repo/src/service/volumes.rs:650-652. -/
def HostPathError.report : HostPathError → ErrorValue
  | .hostPath => .root str!"volume host paths must start with `.` or `..`, or be absolute"

/-- `ParseSourceError`, /repo/src/service/volumes.rs:489-498. -/
def ParseSourceError.report : ParseSourceError → ErrorValue
  | .hostPath e => .from str!"error parsing host path" e.report
  | .identifier e => .from str!"error parsing volume identifier" e.report

/-- `ParseShortVolumeError`, /repo/src/service/volumes.rs:228-253. -/
def ParseShortVolumeError.report : ParseShortVolumeError → ErrorValue
  | .source e => .from str!"error parsing volume source" e.report
  | .absoluteContainerPath path => .root (str!"volume container path `" ++ path ++ str!"` is not absolute")
  | .readWriteAndReadOnly => .root str!"cannot set both `rw` and `ro` in volume options"
  | .selinuxSharedAndPrivate => .root str!"cannot set both `z` and `Z` in volume options"
  | .duplicateOption o => .root (str!"volume option `" ++ o ++ str!"` set multiple times")
  | .unknownOption o => .root (str!"unknown volume option `" ++ o ++ str!"`")

/-- `ParsePermissionsError`, /repo/src/service/device.rs:169-171. -/
def ParsePermissionsError.report (e : ParsePermissionsError) : ErrorValue :=
  .root (str!"invalid device permission `" ++ [e.char] ++ str!"`, must be `r` (read), `w` (write), or `m` (mknod)")

/-- `ParseDeviceError`, /repo/src/service/device.rs:65-82. -/
def ParseDeviceError.report : ParseDeviceError → ErrorValue
  | .empty => .root str!"device cannot be an empty string"
  | .containerPathMissing => .root str!"device must have a container path"
  | .containerPathAbsolute e => .from str!"device container path must be absolute" e.report
  | .permissions e => .from str!"error parsing device permissions" e.report

/-- `ParseCgroupRuleError`, /repo/src/service/device.rs:250-271, with `ParseKindError`, 354-356. -/
def ParseCgroupRuleError.report : ParseCgroupRuleError → ErrorValue
  | .kind s => .from str!"invalid device kind"
      (.root (str!"invalid device kind `" ++ s ++ str!"`, must be `a` (all), `c` (char), or `b` (block)"))
  | .majorMinorNumbersMissing => .root str!"device cgroup rule missing major minor numbers"
  | .majorMinorNumber e => .from str!"error parsing device major minor number" e.report
  | .permissions e => .from str!"error parsing device cgroup rule permissions" e.report

/-! ### References -/

/-- `ParseIpcError`, /repo/src/service.rs:1187-1189. -/
def Ipc.report (e : IdentifierError) : ErrorValue := .from str!"error parsing service IPC isolation mode" e.report

/-- `ParseNetworkModeError`, /repo/src/service/network_config.rs:328-330. -/
def NetworkMode.report (e : IdentifierError) : ErrorValue :=
  .from str!"error parsing service or container network mode" e.report

/-! ### Numbers, units and platforms -/

/-- `ParseByteValueError`, /repo/src/service/byte_value.rs:110-131. -/
def ByteValue.Err.report : ByteValue.Err → ErrorValue
  | .empty => .root str!"value was an empty string"
  | .unknownUnit s => .root (str!"value `" ++ s ++ str!"` contains an unknown unit, \
      unit must be \"b\", \"k\", \"kb\", \"m\", \"mb\", \"g\", or \"gb\"")
  | .parseInt source value =>
      .from (str!"value `" ++ value ++ str!"` could not be parsed as an unsigned integer") source.report

/-- `ParseDurationError`, /repo/src/duration.rs:160-183. -/
def DurationError.report : DurationError → ErrorValue
  | .empty => .root str!"cannot parse a duration from an empty string"
  | .missingUnit s => .root (str!"duration `" ++ s ++ str!"` does not have a unit")
  | .noDigits s => .root (str!"duration `" ++ s ++ str!"` does not contain ASCII digits (0-9)")
  | .overflow => .root str!"an overflow occurred"
  | .invalidUnit s =>
      .root (str!"`" ++ s ++ str!"` is not a valid duration unit, must be `h`, `m`, `s`, `ms`, or `us`")

/-- `ParseCpuSetError`, /repo/src/service/cpuset.rs:101-108. -/
def ParseCpuSetError.report (e : ParseCpuSetError) : ErrorValue :=
  .from (str!"could not parse `" ++ e.value ++ str!"` as an integer") e.source.report

/-- `InvalidCpusError`, /repo/src/service/deploy/resources.rs:241-250. -/
def InvalidCpusError.report : InvalidCpusError → ErrorValue
  | .negative => .root str!"cpus cannot be negative"
  | .infinite => .root str!"cpus must be a finite number"

/-- `RangeError` of integers, /repo/src/service.rs:770-779. -/
def ServiceRangeError.report (e : ServiceRangeError) : ErrorValue :=
  .root (str!"value `" ++ showInt e.value ++ str!"` is not between " ++ showInt e.start ++ str!" and " ++ showInt e.stop)

/-- `WeightRangeError`, /repo/src/service/blkio_config.rs:159-165. -/
def WeightRangeError.report (e : WeightRangeError) : ErrorValue :=
  .mk str!"weights must be between 10 and 1000" (if e.source then some tryFromIntReport else none)

/-- `ParseError` of platforms, /repo/src/service/platform.rs:215-217. -/
def platformReport (s : Str) : ErrorValue := .root (str!"unknown/invalid platform or platform part `" ++ s ++ str!"`")

end Compose
