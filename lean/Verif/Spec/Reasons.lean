import Verif.Spec.Keys
import Verif.Spec.Image
import Verif.Spec.Mac
import Verif.Spec.Ports
import Verif.Spec.Device
import Verif.Spec.ByteValue
import Verif.Spec.Platform
import Verif.Model.Image
import Verif.Model.Cache
import Verif.Model.CpuSet
import Verif.Model.Build
import Verif.Model.Numbers
import Verif.Model.User

/-
What the errors say about the rejected text.  For every error type, `…Reason s e` is what the documentation and the
message of `e` say about the text `s`.  Only the error types are taken from the model.
-/

namespace Spec
open Rust Compose Re

/-- `c` is the first character of `s` that is not one of `allowed`. -/
def FirstBad (allowed : List Char) (s : Str) (c : Char) : Prop :=
  ∃ a b, s = a ++ c :: b ∧ (∀ x ∈ a, x ∈ allowed) ∧ c ∉ allowed

/-! ### Numbers -/

/-- Digits, perhaps after a plus sign. -/
def Signed (ds s : Str) : Prop := s = ds ∨ s = '+' :: ds

/-- Why a text is not a decimal number of at most `max`. -/
def NumberReason (max : Nat) (s : Str) : IntErr → Prop
  | .empty => s = []
  | .invalidDigit => s ≠ [] ∧ ¬ ∃ ds, Signed ds s ∧ IsNumber ds
  | .posOverflow => ∃ ds rest, Signed (ds ++ rest) s ∧ IsNumber ds ∧ max < decimal ds
  | .negOverflow => False

/-- Why a text is not a hexadecimal byte. -/
def HexReason (s : Str) : IntErr → Prop
  | .empty => s = []
  | .invalidDigit => s ≠ [] ∧ ¬ ∃ ds n, Signed ds s ∧ HexText ds n
  | .posOverflow => ∃ ds rest n, Signed (ds ++ rest) s ∧ HexText ds n ∧ 255 < n
  | .negOverflow => False

/-! ### Names -/

/-- Why a text is not an identifier. -/
def IdentifierReason (s : Str) : IdentifierError → Prop
  | .empty => s = []
  | .start c => s.head? = some c ∧ c ∉ alnum
  | .character c => FirstBad (alnum ++ "._-".toList) s c

/-- Why a text is not a key of a map. -/
def MapKeyReason (s : Str) : MapKeyError → Prop
  | .empty => s = []
  | .multipleLines => '\n' ∈ s

/-- Why a text is not the name of an extension. -/
def ExtensionKeyReason (s : Str) : ExtensionKeyError → Prop
  | .missingPrefix t => t = s ∧ ¬ "x-".toList <+: s
  | .multipleLines => '\n' ∈ s

/-- Why a text is not a project name. -/
def ProjectNameReason (s : Str) : NameError → Prop
  | .empty => s = []
  | .start c => s.head? = some c ∧ c ∉ lowerAlnum
  | .character c => FirstBad (lowerAlnum ++ "_-".toList) s c

/-- Why a text is not a host name. -/
def HostnameReason (s : Str) : HostnameError → Prop
  | .labelEmpty => s = [] ∨ s.head? = some '.' ∨ s.getLast? = some '.' ∨ "..".toList <:+: s
  | .character c => c ∈ s ∧ c ∉ alnum ++ ".-".toList
  | .labelStartEnd => s.head? = some '-' ∨ s.getLast? = some '-' ∨ ".-".toList <:+: s ∨ "-.".toList <:+: s

/-- Why a text is not a user or group name. -/
def UserNameReason (s : Str) : UserNameError → Prop
  | .empty => s = []
  | .character c => FirstBad (alnum ++ "_-$".toList) s c
  | .dollarSign => ∃ a b, s = a ++ '$' :: b ∧ b ≠ []
  | .numeric => IsNumber s
  | .start => s.head? = some '-'
  | .length => 32 < s.length

/-- Why a text is neither a number nor a name of a user or group. -/
def IdOrNameReason (s : Str) (e : UserNameError) : Prop := UserNameReason s e ∧ ¬ ∃ n, UInt (2 ^ 32 - 1) s n

/-- Why a text is not a user, or a user and a group. -/
def UserReason (s : Str) (e : UserNameError) : Prop :=
  (':' ∉ s ∧ IdOrNameReason s e) ∨
  ∃ user group, s = user ++ ":".toList ++ group ∧ ':' ∉ user ∧ (IdOrNameReason user e ∨ IdOrNameReason group e)

/-- Why a text is not the name of a resource limit. -/
def ResourceReason (s : Str) : ResourceError → Prop
  | .empty => s = []
  | .character c => FirstBad lower s c

/-- Why a text is not an option of a cache. -/
def CacheOptionReason (s : Str) : CacheOptionError → Prop
  | .empty => s = []
  | .whitespace => ∃ c ∈ s, c.toNat ∈ whiteSpace

/-! ### Images -/

/-- Why a text is not a part of an image name. -/
def NamePartReason (s : Str) : Image.NamePartError → Prop
  | .multipleSeparators =>
      ∃ a run b, s = a ++ run ++ b ∧ run ≠ [] ∧ (∀ c ∈ run, c ∈ "._-".toList) ∧ ¬ nameSeparator run
  | .character c => FirstBad (lowerAlnum ++ "._-".toList) s c
  | .empty => s = []
  | .start => ∃ c, s.head? = some c ∧ c ∉ lowerAlnum
  | .end => ∃ c, s.getLast? = some c ∧ c ∉ lowerAlnum
  | .registryPort _ _ => False

/-- Why a text is not an image name.  The first part is a registry if it has a dot, and what follows a colon in it is its
port. -/
def ImageNameReason (s : Str) (e : Image.NamePartError) : Prop :=
  (∃ part ∈ s.splitOn '/', NamePartReason part e) ∨
  ∃ host port, (s.splitOn '/').head? = some (host ++ ":".toList ++ port) ∧ ':' ∉ host ∧
    '.' ∈ host ++ ":".toList ++ port ∧
    (NamePartReason host e ∨ ∃ source, e = .registryPort source port ∧ NumberReason u16Max port source)

/-- Why a text is not the tag of an image. -/
def TagReason (s : Str) : Image.TagError → Prop
  | .character c => FirstBad (alnum ++ "._-".toList) s c
  | .empty => s = []
  | .length => 128 < s.length

/-- Why a text is not the digest of an image: `a` is the algorithm and `d` the encoded data. -/
def DigestReason (s : Str) : Image.DigestError → Prop
  | .missingAlgorithm => ':' ∉ s ∨ s.head? = some ':'
  | .algorithmSeparators =>
      ∃ a d, s = a ++ ":".toList ++ d ∧ ':' ∉ a ∧ ∃ x ∈ "+._-".toList, ∃ y ∈ "+._-".toList, [x, y] <:+: a
  | .algorithmCharacter c => ∃ a d, s = a ++ ":".toList ++ d ∧ ':' ∉ a ∧ FirstBad (lowerAlnum ++ "+._-".toList) a c
  | .encodeCharacter c => ∃ a d, s = a ++ ":".toList ++ d ∧ ':' ∉ a ∧ FirstBad (alnum ++ "=_-".toList) d c
  | .algorithmStart => ∃ c, s.head? = some c ∧ c ≠ ':' ∧ c ∉ lowerAlnum
  | .algorithmEnd => ∃ a c d, s = a ++ [c] ++ ":".toList ++ d ∧ ':' ∉ a ++ [c] ∧ c ∉ lowerAlnum
  | .encodeEmpty => ∃ a, s = a ++ ":".toList ∧ ':' ∉ a

/-- Why a text is not an image. -/
def ImageReason (s : Str) : Image.ImageError → Prop
  | .digest e => ∃ n d, s = n ++ "@".toList ++ d ∧ '@' ∉ n ∧ DigestReason d e
  | .tag e => ∃ n t rest, s = n ++ ":".toList ++ t ++ rest ∧ (rest = [] ∨ rest.head? = some '@') ∧
      '@' ∉ n ∧ '@' ∉ t ∧ ':' ∉ t ∧ '/' ∉ t ∧ TagReason t e
  | .tagAndDigest => ∃ n t d, s = n ++ ":".toList ++ t ++ "@".toList ++ d ∧ ImageTag t ∧ ImageDigest d
  | .namePart e => ∃ n, (s = n ∨ (∃ t, s = n ++ ":".toList ++ t ∧ ImageTag t) ∨
      ∃ d, s = n ++ "@".toList ++ d ∧ ImageDigest d) ∧ ImageNameReason n e

/-- Why a text is not a cache.  Of a repeated option, the last counts. -/
def CacheReason (s : Str) : ParseCacheError → Prop
  | .image e => (',' ∉ s ∧ ImageReason s e) ∨
      ∃ r before after, (s.splitOn ',').head? = some "type=registry".toList ∧
        s.splitOn ',' = before ++ ("ref=".toList ++ r) :: after ∧ (∀ option ∈ after, ¬ "ref=".toList <+: option) ∧
        ImageReason r e
  | .typeFirst => ',' ∈ s ∧ ¬ "type=".toList <+: s
  | .cacheOption e => ',' ∈ s ∧ ∃ option ∈ s.splitOn ',',
      ('=' ∉ option ∧ (CacheOptionReason option e ∨ e = .empty)) ∨
      ∃ key value, option = key ++ "=".toList ++ value ∧ '=' ∉ key ∧ (CacheOptionReason key e ∨ CacheOptionReason value e)
  | .missingRef => (s.splitOn ',').head? = some "type=registry".toList ∧
      ∀ option ∈ s.splitOn ',', option ≠ "ref".toList ∧ ¬ "ref=".toList <+: option

/-- Why a text is not an SSH authentication. -/
def SshReason (s : Str) : SshIdError → Prop
  | .emptyId => s.head? = some '='
  | .missingPath => '=' ∉ s ∨ s.getLast? = some '='

/-! ### Addresses and ports -/

/-- Why a text is not a MAC address. -/
def MacReason (s : Str) : ParseMacAddressError → Prop
  | .length => s.count ':' ≠ 5
  | .int source value => value ∈ s.splitOn ':' ∧ HexReason value source

/-- `value` is all of `s`, or what is before or after its first dash. -/
def EndOfRange (s value : Str) : Prop :=
  ('-' ∉ s ∧ value = s) ∨ ∃ a b, s = a ++ "-".toList ++ b ∧ '-' ∉ a ∧ (value = a ∨ value = b)

/-- Why a text is not a range of ports. -/
def RangeReason (s : Str) : ParseRangeError → Prop
  | .range _ => False
  | .int source value => EndOfRange s value ∧ NumberReason 65535 value source

/-- Why a text is not a container range, perhaps after a host range. -/
def ShortRangesReason (s : Str) : ParseShortRangesError → Prop
  | .shortRanges e => ∃ h c host container, s = h ++ ":".toList ++ c ∧ RangeText h host ∧ RangeText c container ∧
      e = ⟨portCount host, portCount container⟩ ∧ portCount host ≠ portCount container
  | .range e => (':' ∉ s ∧ RangeReason s e) ∨
      ∃ h c, s = h ++ ":".toList ++ c ∧ ':' ∉ h ∧ (h ≠ [] ∧ RangeReason h e ∨ RangeReason c e)

/-- Nothing, or a slash and more. -/
def SlashRest (s : Str) : Prop := s = [] ∨ s.head? = some '/'

/-- Why a text is not a short port, for an address parser `ipParse`. -/
def ShortPortReason {Ip E : Type} (ipParse : Str → Except E Ip) (s : Str) : ParseShortPortError E → Prop
  | .ipAddr source value => ∃ h c rest, s = value ++ ":".toList ++ h ++ ":".toList ++ c ++ rest ∧ SlashRest rest ∧
      ':' ∉ h ∧ ':' ∉ c ∧ '/' ∉ value ++ h ++ c ∧
      ((∃ inner, value = "[".toList ++ inner ++ "]".toList ∧ ipParse inner = .error source) ∨
        (¬ (∃ inner, value = "[".toList ++ inner ++ "]".toList)) ∧ ipParse value = .error source)
  | .shortRanges e => ∃ r rest, SlashRest rest ∧ '/' ∉ r ∧ ShortRangesReason r e ∧
      (s = r ++ rest ∨ ∃ a ip, s = a ++ ":".toList ++ r ++ rest ∧ AddressText ipParse a ip)

/-- Why a text is not an exposed port. -/
def ExposeReason (s : Str) (e : ParseRangeError) : Prop :=
  ∃ r rest, s = r ++ rest ∧ SlashRest rest ∧ '/' ∉ r ∧ RangeReason r e

/-! ### Paths and devices -/

/-- Why a text is not a volume source. -/
def SourceReason (s : Str) : ParseSourceError → Prop
  | .hostPath _ => s.head? = some '.' ∧ ¬ HostPath s
  | .identifier e => IdentifierReason s e

/-- The options of a short volume. -/
def VolumeOptionsOf (s opts : Str) : Prop :=
  ∃ source path, s = source ++ ":".toList ++ path ++ ":".toList ++ opts ∧ ':' ∉ source ∧ ':' ∉ path

/-- Why a text is not a short volume. -/
def ShortVolumeReason (s : Str) : ParseShortVolumeError → Prop
  | .source e => ∃ source rest, s = source ++ ":".toList ++ rest ∧ ':' ∉ source ∧ SourceReason source e
  | .absoluteContainerPath path => ¬ AbsolutePath path ∧ ':' ∉ path ∧
      (s = path ∨ ∃ source, ':' ∉ source ∧
        (s = source ++ ":".toList ++ path ∨ ∃ opts, s = source ++ ":".toList ++ path ++ ":".toList ++ opts))
  | .readWriteAndReadOnly => ∃ opts, VolumeOptionsOf s opts ∧ "rw".toList ∈ opts.splitOn ',' ∧
      "ro".toList ∈ opts.splitOn ','
  | .selinuxSharedAndPrivate => ∃ opts, VolumeOptionsOf s opts ∧ "z".toList ∈ opts.splitOn ',' ∧
      "Z".toList ∈ opts.splitOn ','
  | .duplicateOption o => ∃ opts, VolumeOptionsOf s opts ∧ 2 ≤ (opts.splitOn ',').count o
  | .unknownOption o => ∃ opts, VolumeOptionsOf s opts ∧ o ∈ opts.splitOn ',' ∧
      o ∉ ["rw".toList, "ro".toList, "z".toList, "Z".toList]

/-- Why a text does not list permissions. -/
def PermissionsReason (s : Str) (e : ParsePermissionsError) : Prop := FirstBad "rwm".toList s e.char

/-- Why a text is not a device. -/
def DeviceReason (s : Str) : ParseDeviceError → Prop
  | .empty => False
  | .containerPathMissing => ':' ∉ s
  | .containerPathAbsolute _ => ∃ h c, (s = h ++ ":".toList ++ c ∨ ∃ p, s = h ++ ":".toList ++ c ++ ":".toList ++ p) ∧
      ':' ∉ h ∧ ':' ∉ c ∧ ¬ AbsolutePath c
  | .permissions e => ∃ h c p, s = h ++ ":".toList ++ c ++ ":".toList ++ p ∧ ':' ∉ h ∧ ':' ∉ c ∧ PermissionsReason p e

/-- Why a text is not a device cgroup rule. -/
def CgroupRuleReason (s : Str) : ParseCgroupRuleError → Prop
  | .kind k => (s.splitOn ' ').head? = some k ∧ k ∉ ["a".toList, "b".toList, "c".toList]
  | .majorMinorNumbersMissing => ∀ n, (s.splitOn ' ')[1]? = some n → ':' ∉ n
  | .majorMinorNumber e => ∃ a b, (s.splitOn ' ')[1]? = some (a ++ ":".toList ++ b) ∧ ':' ∉ a ∧
      ∃ n ∈ [a, b], n ≠ [] ∧ n ≠ "*".toList ∧ NumberReason 65535 n e
  | .permissions e => ∃ k n p, s = k ++ " ".toList ++ n ++ " ".toList ++ p ∧ ' ' ∉ k ∧ ' ' ∉ n ∧ PermissionsReason p e

/-! ### Numbers with units, CPUs -/

/-- Why a text is not a number of bytes.  The message of `unknownUnit` is that the text has a unit, which is not known. -/
def ByteValueReason (s : Str) : ByteValue.Err → Prop
  | .empty => s = []
  | .unknownUnit t => t = s ∧ (¬ ∃ ds, Signed ds s ∧ IsNumber ds) ∧ ∀ num u f, s = num ++ u → (u, f) ∈ byteUnits → u = []
  | .parseInt source value => ∃ u f, s = value ++ u ∧ u ≠ [] ∧ (u, f) ∈ byteUnits ∧ NumberReason (2 ^ 64 - 1) value source

/-- Why a text is not a set of CPUs. -/
def CpuSetReason (s : Str) (e : ParseCpuSetError) : Prop :=
  (∃ item ∈ s.splitOn ',', EndOfRange item e.value) ∧ NumberReason (2 ^ 64 - 1) e.value e.source

/-- `x < 0` for a floating-point number: the sign is set and it is neither zero nor a NaN. -/
def BelowZero (x : F64) : Prop :=
  x.msb = true ∧ ¬ (x.expo = 0 ∧ x.frac = 0) ∧ ¬ (x.expo = 2047 ∧ x.frac ≠ 0)

/-- Why a floating-point number is not a number of CPUs. -/
def CpusReason (x : F64) : InvalidCpusError → Prop
  | .negative => BelowZero x
  | .infinite => x.expo = 2047

/-! ### References -/

/-- Why a text is not a link. -/
def LinkReason (s : Str) (e : IdentifierError) : Prop := IdentifierReason (s.takeWhile (· ≠ ':')) e

/-- Why a text is not an IPC mode. -/
def IpcReason (s : Str) (e : IdentifierError) : Prop := ∃ i, s = "service:".toList ++ i ∧ IdentifierReason i e

/-- Why a text is not a network mode. -/
def NetworkModeReason (s : Str) (e : IdentifierError) : Prop :=
  ∃ i, (s = "service:".toList ++ i ∨ s = "container:".toList ++ i) ∧ IdentifierReason i e

/-- Why a text is not a source of volumes. -/
def VolumesFromSourceReason (s : Str) (e : IdentifierError) : Prop :=
  (∃ i, s = "container:".toList ++ i ∧ IdentifierReason i e) ∨ (¬ "container:".toList <+: s ∧ IdentifierReason s e)

/-- Why a text is not a source of volumes, perhaps with an access mode. -/
def VolumesFromReason (s : Str) (e : IdentifierError) : Prop :=
  ∃ t, ((s = t ++ ":ro".toList ∨ s = t ++ ":rw".toList) ∨
      (s = t ∧ ¬ ":ro".toList <:+ s ∧ ¬ ":rw".toList <:+ s)) ∧ VolumesFromSourceReason t e

/-- Why a text is not a build network. -/
def BuildNetworkReason (s : Str) (e : IdentifierError) : Prop := s ≠ "none".toList ∧ IdentifierReason s e

end Spec
