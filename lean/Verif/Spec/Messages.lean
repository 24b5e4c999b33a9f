import Verif.Spec.Reasons
import Verif.Spec.Duration

/-
The messages shown for rejected texts.  `…Message s m` is that `m` is one of the messages for texts of that kind and that what it
says of `s` is true.  The messages are given in full; no error type of the code occurs.
-/

namespace Spec
open Rust Compose Re

/-- A message followed by its cause. -/
def because (message cause : Str) : Str := message ++ ": ".toList ++ cause

/-! ### Numbers -/

/-- Messages for texts that are not decimal numbers of at most `max`. -/
inductive NumberMessage (max : Nat) (s : Str) : Str → Prop
  | empty : s = [] → NumberMessage max s "cannot parse integer from empty string".toList
  | digit : s ≠ [] → (¬ ∃ ds, Signed ds s ∧ IsNumber ds) → NumberMessage max s "invalid digit found in string".toList
  | large {ds rest : Str} : Signed (ds ++ rest) s → IsNumber ds → max < decimal ds →
      NumberMessage max s "number too large to fit in target type".toList

/-- Messages for texts that are not hexadecimal bytes. -/
inductive HexMessage (s : Str) : Str → Prop
  | empty : s = [] → HexMessage s "cannot parse integer from empty string".toList
  | digit : s ≠ [] → (¬ ∃ ds n, Signed ds s ∧ HexText ds n) → HexMessage s "invalid digit found in string".toList
  | large {ds rest : Str} {n : Nat} : Signed (ds ++ rest) s → HexText ds n → 255 < n →
      HexMessage s "number too large to fit in target type".toList

/-! ### Names -/

/-- Messages for texts that are not identifiers. -/
inductive IdentifierMessage (s : Str) : Str → Prop
  | empty : s = [] → IdentifierMessage s "identifier cannot be empty".toList
  | start {c : Char} : s.head? = some c → c ∉ alnum → IdentifierMessage s ("invalid start character `".toList ++ [c] ++
      "`, identifiers must start with an ASCII letter (a-z, A-Z) or digit (0-9)".toList)
  | character {c : Char} : FirstBad (alnum ++ "._-".toList) s c → IdentifierMessage s ("invalid character `".toList ++ [c] ++
      "`, identifiers must contain only ASCII letters (a-z, A-Z), digits (0-9), dots (.), underscores (_), \
        or dashes (-)".toList)

/-- Messages for texts that are not keys of maps. -/
inductive MapKeyMessage (s : Str) : Str → Prop
  | empty : s = [] → MapKeyMessage s "map key cannot be empty".toList
  | lines : '\n' ∈ s → MapKeyMessage s "map key cannot have multiple lines (newline character `\\n` found)".toList

/-- Messages for texts that are not names of extensions. -/
inductive ExtensionKeyMessage (s : Str) : Str → Prop
  | start : ¬ "x-".toList <+: s →
      ExtensionKeyMessage s ("extension key `".toList ++ s ++ "` does not start with \"x-\"".toList)
  | lines : '\n' ∈ s → ExtensionKeyMessage s "map key cannot have multiple lines (newline character `\\n` found)".toList

/-- Messages for texts that are not project names. -/
inductive ProjectNameMessage (s : Str) : Str → Prop
  | empty : s = [] → ProjectNameMessage s "name cannot be empty".toList
  | start {c : Char} : s.head? = some c → c ∉ lowerAlnum → ProjectNameMessage s ("invalid character `".toList ++ [c] ++
      "`, names must start with a lowercase ASCII letter (a-z) or digit (0-9)".toList)
  | character {c : Char} : FirstBad (lowerAlnum ++ "_-".toList) s c → ProjectNameMessage s
      ("invalid character `".toList ++ [c] ++ "`, names must contain only lowercase ASCII letters (a-z), digits (0-9), \
        underscores (_), or dashes (-)".toList)

/-- Messages for texts that are not host names. -/
inductive HostnameMessage (s : Str) : Str → Prop
  | empty : s = [] ∨ s.head? = some '.' ∨ s.getLast? = some '.' ∨ "..".toList <:+: s →
      HostnameMessage s "hostname label was empty".toList
  | character {c : Char} : c ∈ s → c ∉ alnum ++ ".-".toList → HostnameMessage s
      ("invalid hostname character `".toList ++ [c] ++ "`, hostnames can only contain ASCII letters (a-z, A-Z), \
        digits (0-9), dots (.), and dashes (-)".toList)
  | dash : s.head? = some '-' ∨ s.getLast? = some '-' ∨ ".-".toList <:+: s ∨ "-.".toList <:+: s →
      HostnameMessage s "hostname labels cannot start or end with dashes (-)".toList

/-- Messages for texts that are not user or group names. -/
inductive UserNameMessage (s : Str) : Str → Prop
  | empty : s = [] → UserNameMessage s "user and group names cannot be empty".toList
  | character {c : Char} : FirstBad (alnum ++ "_-$".toList) s c → UserNameMessage s
      ("invalid user or group name character `".toList ++ [c] ++ "`, names may only contain ASCII letters (a-z, A-Z), \
        digits (0-9), underscores (_), and dashes (-), with an optional dollar sign ($) at the end".toList)
  | dollar {a b : Str} : s = a ++ '$' :: b → b ≠ [] →
      UserNameMessage s "user and group names may only have a dollar sign ($) at the end".toList
  | numeric : IsNumber s → UserNameMessage s "user and group names cannot be fully numeric".toList
  | dash : s.head? = some '-' → UserNameMessage s "user and group names cannot start with a dash (-)".toList
  | long : 32 < s.length → UserNameMessage s "user and group names may only be up to 32 characters long".toList

/-- Messages for texts that are not users, or users with groups: that about a text which is neither a number nor a name. -/
def UserMessage (s m : Str) : Prop :=
  ∃ part, ((':' ∉ s ∧ part = s) ∨ ∃ user group, s = user ++ ":".toList ++ group ∧ ':' ∉ user ∧ (part = user ∨ part = group)) ∧
    UserNameMessage part m ∧ ¬ ∃ n, UInt (2 ^ 32 - 1) part n

/-- Messages for texts that are not names of resource limits. -/
inductive ResourceMessage (s : Str) : Str → Prop
  | empty : s = [] → ResourceMessage s "ulimit resources cannot be empty".toList
  | character {c : Char} : FirstBad lower s c → ResourceMessage s ("invalid character '".toList ++ [c] ++
      "', ulimit resources can only contain lowercase ASCII letters (a-z)".toList)

/-- Messages for texts that are not options of caches. -/
inductive CacheOptionMessage (s : Str) : Str → Prop
  | empty : s = [] → CacheOptionMessage s "cache options cannot be empty".toList
  | whitespace {c : Char} : c ∈ s → c.toNat ∈ whiteSpace →
      CacheOptionMessage s "cache options cannot contain whitespace".toList

/-! ### Images -/

/-- Messages for texts that are not parts of image names. -/
inductive NamePartMessage (s : Str) : Str → Prop
  | separators {a run b : Str} : s = a ++ run ++ b → run ≠ [] → (∀ c ∈ run, c ∈ "._-".toList) → ¬ nameSeparator run →
      NamePartMessage s "image name parts may only have one separator (., _, __, any number of -) in a row".toList
  | character {c : Char} : FirstBad (lowerAlnum ++ "._-".toList) s c → NamePartMessage s
      ("invalid character in image name '".toList ++ [c] ++ "', name parts must only contain lowercase ASCII letters \
        (a-z), digits (0-9), dashes (-), dots (.), and underscores (_)".toList)
  | empty : s = [] → NamePartMessage s "a part of an image name cannot be empty, i.e. there were two slashes (/) in row, \
        or the image name was completely empty".toList
  | start {c : Char} : s.head? = some c → c ∉ lowerAlnum →
      NamePartMessage s "image name parts must start with a lowercase ASCII letter (a-z) or a digit (0-9)".toList
  | finish {c : Char} : s.getLast? = some c → c ∉ lowerAlnum →
      NamePartMessage s "image name parts must end with a lowercase ASCII letter (a-z) or a digit (0-9)".toList

/-- Messages for texts that are not image names. -/
inductive ImageNameMessage (s : Str) : Str → Prop
  | part {part m : Str} : part ∈ s.splitOn '/' → NamePartMessage part m → ImageNameMessage s m
  | registry {host port m : Str} : (s.splitOn '/').head? = some (host ++ ":".toList ++ port) → ':' ∉ host →
      '.' ∈ host ++ ":".toList ++ port → NamePartMessage host m → ImageNameMessage s m
  | port {host port m : Str} : (s.splitOn '/').head? = some (host ++ ":".toList ++ port) → ':' ∉ host →
      '.' ∈ host ++ ":".toList ++ port → NumberMessage 65535 port m →
      ImageNameMessage s (because ("image registry port `".toList ++ port ++ "` is not a valid port number".toList) m)

/-- Messages for texts that are not tags. -/
inductive TagMessage (s : Str) : Str → Prop
  | character {c : Char} : FirstBad (alnum ++ "._-".toList) s c → TagMessage s
      ("image tag contains invalid character '".toList ++ [c] ++ "', tags must only contain ASCII letters (a-z, A-Z), \
        digits (0-9), dots (.), underscores (_), and dashes (-)".toList)
  | empty : s = [] → TagMessage s "image tag cannot be empty".toList
  | long : 128 < s.length → TagMessage s "image tags can only be up to 128 characters long".toList

/-- Messages for texts that are not digests.  The one about the characters of the algorithm has a line break. -/
inductive DigestMessage (s : Str) : Str → Prop
  | algorithm : ':' ∉ s ∨ s.head? = some ':' → DigestMessage s "image digest is missing its algorithm".toList
  | separators {a d : Str} {x y : Char} : s = a ++ ":".toList ++ d → ':' ∉ a → x ∈ "+._-".toList → y ∈ "+._-".toList →
      [x, y] <:+: a → DigestMessage s "image digest algorithms may only have one separator (+._-) in a row".toList
  | algorithmCharacter {a d : Str} {c : Char} : s = a ++ ":".toList ++ d → ':' ∉ a →
      FirstBad (lowerAlnum ++ "+._-".toList) a c → DigestMessage s ("invalid character '".toList ++ [c] ++
        "' in image digest algorithm,\n        digests may only contain lowercase ASCII letters (a-z), digits (0-9), \
        or separators (+._-)".toList)
  | dataCharacter {a d : Str} {c : Char} : s = a ++ ":".toList ++ d → ':' ∉ a → FirstBad (alnum ++ "=_-".toList) d c →
      DigestMessage s ("invalid character '".toList ++ [c] ++ "' in image digest encode, data encoded in digest may \
        only contain ASCII letters (a-z, A-Z), digits (0-9), equals (=), underscores (_), and dashes (-)".toList)
  | start {c : Char} : s.head? = some c → c ≠ ':' → c ∉ lowerAlnum →
      DigestMessage s "image digest algorithm must start with a lowercase ASCII letter (a-z) or a digit (0-9)".toList
  | finish {a d : Str} {c : Char} : s = a ++ [c] ++ ":".toList ++ d → ':' ∉ a ++ [c] → c ∉ lowerAlnum →
      DigestMessage s "image digest algorithm must end with a lowercase ASCII letter (a-z) or a digit (0-9)".toList
  | data {a : Str} : s = a ++ ":".toList → ':' ∉ a → DigestMessage s "image digest encode is empty".toList

/-- Messages for texts that are not images. -/
inductive ImageMessage (s : Str) : Str → Prop
  | digest {n d m : Str} : s = n ++ "@".toList ++ d → '@' ∉ n → DigestMessage d m →
      ImageMessage s (because "invalid image digest".toList m)
  | tag {n t rest m : Str} : s = n ++ ":".toList ++ t ++ rest → rest = [] ∨ rest.head? = some '@' → '@' ∉ n → '@' ∉ t →
      ':' ∉ t → '/' ∉ t → TagMessage t m → ImageMessage s (because "invalid image tag".toList m)
  | both {n t d : Str} : s = n ++ ":".toList ++ t ++ "@".toList ++ d → ImageTag t → ImageDigest d →
      ImageMessage s "image cannot have a tag and a digest".toList
  | name {n m : Str} : (s = n ∨ (∃ t, s = n ++ ":".toList ++ t ∧ ImageTag t) ∨ ∃ d, s = n ++ "@".toList ++ d ∧ ImageDigest d) →
      ImageNameMessage n m → ImageMessage s (because "invalid image name part".toList m)

/-- Messages for texts that are not caches.  Of a repeated option, the last counts. -/
inductive CacheMessage (s : Str) : Str → Prop
  | image {m : Str} : ',' ∉ s → ImageMessage s m → CacheMessage s (because "error parsing cache image ref".toList m)
  | ref {r m : Str} {before after : List Str} : (s.splitOn ',').head? = some "type=registry".toList →
      s.splitOn ',' = before ++ ("ref=".toList ++ r) :: after → (∀ option ∈ after, ¬ "ref=".toList <+: option) →
      ImageMessage r m → CacheMessage s (because "error parsing cache image ref".toList m)
  | type : ',' ∈ s → ¬ "type=".toList <+: s →
      CacheMessage s "cache options must start with `type=` if not an image".toList
  | option {option part m : Str} : ',' ∈ s → option ∈ s.splitOn ',' →
      (option = part ∧ '=' ∉ option ∨ ∃ other, '=' ∉ other ∧ option = other ++ "=".toList ++ part ∨
        '=' ∉ part ∧ option = part ++ "=".toList ++ other) →
      CacheOptionMessage part m → CacheMessage s (because "error parsing cache option".toList m)
  | noValue {option : Str} : ',' ∈ s → option ∈ s.splitOn ',' → '=' ∉ option →
      CacheMessage s (because "error parsing cache option".toList "cache options cannot be empty".toList)
  | noRef : (s.splitOn ',').head? = some "type=registry".toList →
      (∀ option ∈ s.splitOn ',', option ≠ "ref".toList ∧ ¬ "ref=".toList <+: option) →
      CacheMessage s "cache type `registry` missing required `ref` option".toList

/-- Messages for texts that are not SSH authentications. -/
inductive SshMessage (s : Str) : Str → Prop
  | id : s.head? = some '=' → SshMessage s "ssh auth ID cannot be empty".toList
  | path : '=' ∉ s ∨ s.getLast? = some '=' →
      SshMessage s "non-default ssh auth requires a path to a PEM file or to the ssh-agent socket".toList

/-! ### Addresses and ports -/

/-- Messages for texts that are not MAC addresses. -/
inductive MacMessage (s : Str) : Str → Prop
  | six : s.count ':' ≠ 5 → MacMessage s "MAC addresses must be exactly six integers".toList
  | byte {value m : Str} : value ∈ s.splitOn ':' → HexMessage value m →
      MacMessage s (because ("error parsing `".toList ++ value ++ "` as an integer in hex format".toList) m)

/-- Messages for texts that are not ranges of ports. -/
inductive RangeMessage (s : Str) : Str → Prop
  | number {value m : Str} : EndOfRange s value → NumberMessage 65535 value m →
      RangeMessage s (because ("error parsing `".toList ++ value ++ "` as an integer".toList) m)

/-- Messages for texts that are not a container range, perhaps after a host range.  `h` and `c` are the numbers of ports. -/
inductive ShortRangesMessage (s : Str) : Str → Prop
  | sizes {a b h c : Str} {host container : Range} : s = a ++ ":".toList ++ b → RangeText a host →
      RangeText b container → h = Nat.toDigits 10 (portCount host) → c = Nat.toDigits 10 (portCount container) →
      portCount host ≠ portCount container →
      ShortRangesMessage s (because "error creating the port ranges".toList ("host port range size `".toList ++ h ++
        "` must be equal to container port range size `".toList ++ c ++ "`".toList))
  | only {m : Str} : ':' ∉ s → RangeMessage s m → ShortRangesMessage s (because "error parsing port range".toList m)
  | range {h c m : Str} : s = h ++ ":".toList ++ c → ':' ∉ h → (h ≠ [] ∧ RangeMessage h m ∨ RangeMessage c m) →
      ShortRangesMessage s (because "error parsing port range".toList m)

/-- Messages for texts that are not short ports, for an address parser `ipParse` with messages `ipMessage`. -/
inductive ShortPortMessage {Ip E : Type} (ipParse : Str → Except E Ip) (ipMessage : E → Str) (s : Str) : Str → Prop
  | address {value inner h c rest : Str} {e : E} : s = value ++ ":".toList ++ h ++ ":".toList ++ c ++ rest →
      SlashRest rest → ':' ∉ h → ':' ∉ c → '/' ∉ value ++ h ++ c →
      value = "[".toList ++ inner ++ "]".toList ∨ value = inner ∧ (¬ ∃ inner, value = "[".toList ++ inner ++ "]".toList) →
      ipParse inner = .error e →
      ShortPortMessage ipParse ipMessage s (because "error parsing host ip address".toList (ipMessage e))
  | ranges {r rest m : Str} : SlashRest rest → '/' ∉ r →
      (s = r ++ rest ∨ ∃ a ip, s = a ++ ":".toList ++ r ++ rest ∧ AddressText ipParse a ip) → ShortRangesMessage r m →
      ShortPortMessage ipParse ipMessage s (because "error parsing port ranges".toList m)

/-- Messages for texts that are not exposed ports. -/
def ExposeMessage (s m : Str) : Prop := ∃ r rest, s = r ++ rest ∧ SlashRest rest ∧ '/' ∉ r ∧ RangeMessage r m

/-! ### Paths and devices -/

/-- Messages for texts that are not volume sources. -/
inductive SourceMessage (s : Str) : Str → Prop
  | path : s.head? = some '.' → ¬ HostPath s → SourceMessage s
      (because "error parsing host path".toList "volume host paths must start with `.` or `..`, or be absolute".toList)
  | identifier {m : Str} : IdentifierMessage s m → SourceMessage s (because "error parsing volume identifier".toList m)

/-- Messages for texts that are not short volumes. -/
inductive ShortVolumeMessage (s : Str) : Str → Prop
  | source {source rest m : Str} : s = source ++ ":".toList ++ rest → ':' ∉ source → SourceMessage source m →
      ShortVolumeMessage s (because "error parsing volume source".toList m)
  | path {path : Str} : ¬ AbsolutePath path → ':' ∉ path →
      (s = path ∨ ∃ source, ':' ∉ source ∧
        (s = source ++ ":".toList ++ path ∨ ∃ opts, s = source ++ ":".toList ++ path ++ ":".toList ++ opts)) →
      ShortVolumeMessage s ("volume container path `".toList ++ path ++ "` is not absolute".toList)
  | access {opts : Str} : VolumeOptionsOf s opts → "rw".toList ∈ opts.splitOn ',' → "ro".toList ∈ opts.splitOn ',' →
      ShortVolumeMessage s "cannot set both `rw` and `ro` in volume options".toList
  | selinux {opts : Str} : VolumeOptionsOf s opts → "z".toList ∈ opts.splitOn ',' → "Z".toList ∈ opts.splitOn ',' →
      ShortVolumeMessage s "cannot set both `z` and `Z` in volume options".toList
  | twice {opts o : Str} : VolumeOptionsOf s opts → 2 ≤ (opts.splitOn ',').count o →
      ShortVolumeMessage s ("volume option `".toList ++ o ++ "` set multiple times".toList)
  | unknown {opts o : Str} : VolumeOptionsOf s opts → o ∈ opts.splitOn ',' →
      o ∉ ["rw".toList, "ro".toList, "z".toList, "Z".toList] →
      ShortVolumeMessage s ("unknown volume option `".toList ++ o ++ "`".toList)

/-- Messages for texts that do not list permissions. -/
inductive PermissionsMessage (s : Str) : Str → Prop
  | character {c : Char} : FirstBad "rwm".toList s c → PermissionsMessage s ("invalid device permission `".toList ++ [c] ++
      "`, must be `r` (read), `w` (write), or `m` (mknod)".toList)

/-- Messages for texts that are not devices. -/
inductive DeviceMessage (s : Str) : Str → Prop
  | missing : ':' ∉ s → DeviceMessage s "device must have a container path".toList
  | path {h c : Str} : (s = h ++ ":".toList ++ c ∨ ∃ p, s = h ++ ":".toList ++ c ++ ":".toList ++ p) → ':' ∉ h → ':' ∉ c →
      ¬ AbsolutePath c →
      DeviceMessage s (because "device container path must be absolute".toList "path is not absolute".toList)
  | permissions {h c p m : Str} : s = h ++ ":".toList ++ c ++ ":".toList ++ p → ':' ∉ h → ':' ∉ c → PermissionsMessage p m →
      DeviceMessage s (because "error parsing device permissions".toList m)

/-- Messages for texts that are not device cgroup rules. -/
inductive CgroupRuleMessage (s : Str) : Str → Prop
  | kind {k : Str} : (s.splitOn ' ').head? = some k → k ∉ ["a".toList, "b".toList, "c".toList] →
      CgroupRuleMessage s (because "invalid device kind".toList
        ("invalid device kind `".toList ++ k ++ "`, must be `a` (all), `c` (char), or `b` (block)".toList))
  | missing : (∀ n, (s.splitOn ' ')[1]? = some n → ':' ∉ n) →
      CgroupRuleMessage s "device cgroup rule missing major minor numbers".toList
  | number {a b n m : Str} : (s.splitOn ' ')[1]? = some (a ++ ":".toList ++ b) → ':' ∉ a → n ∈ [a, b] → n ≠ [] →
      n ≠ "*".toList → NumberMessage 65535 n m →
      CgroupRuleMessage s (because "error parsing device major minor number".toList m)
  | permissions {k n p m : Str} : s = k ++ " ".toList ++ n ++ " ".toList ++ p → ' ' ∉ k → ' ' ∉ n → PermissionsMessage p m →
      CgroupRuleMessage s (because "error parsing device cgroup rule permissions".toList m)

/-! ### Numbers with units, CPUs, durations -/

/-- Messages for texts that are not numbers of bytes. -/
inductive ByteValueMessage (s : Str) : Str → Prop
  | empty : s = [] → ByteValueMessage s "value was an empty string".toList
  | unit : (¬ ∃ ds, Signed ds s ∧ IsNumber ds) → (∀ num u f, s = num ++ u → (u, f) ∈ byteUnits → u = []) →
      ByteValueMessage s ("value `".toList ++ s ++ "` contains an unknown unit, unit must be \"b\", \"k\", \"kb\", \
        \"m\", \"mb\", \"g\", or \"gb\"".toList)
  | number {value u m : Str} {f : Nat → ByteValue} : s = value ++ u → u ≠ [] → (u, f) ∈ byteUnits →
      NumberMessage (2 ^ 64 - 1) value m →
      ByteValueMessage s (because ("value `".toList ++ value ++ "` could not be parsed as an unsigned integer".toList) m)

/-- Messages for texts that are not sets of CPUs. -/
inductive CpuSetMessage (s : Str) : Str → Prop
  | number {item value m : Str} : item ∈ s.splitOn ',' → EndOfRange item value → NumberMessage (2 ^ 64 - 1) value m →
      CpuSetMessage s (because ("could not parse `".toList ++ value ++ "` as an integer".toList) m)

/-- Messages for texts that are not durations.  A term is a number and a unit. -/
inductive DurationMessage (s : Str) : Str → Prop
  | empty : s = [] → DurationMessage s "cannot parse a duration from an empty string".toList
  | digits : s ≠ [] → (∀ c ∈ s, c ∉ "0123456789".toList) →
      DurationMessage s ("duration `".toList ++ s ++ "` does not contain ASCII digits (0-9)".toList)
  | noUnit {ts : List Term} {n : Str} : (∀ t ∈ ts, t.Ok) → s = renderTerms ts ++ n → IsNumber n →
      DurationMessage s ("duration `".toList ++ n ++ "` does not have a unit".toList)
  | unit {ts : List Term} {n u tail : Str} : (∀ t ∈ ts, t.Ok) → s = renderTerms ts ++ n ++ u ++ tail → IsNumber n →
      u ≠ [] → (∀ c ∈ u, c ∉ "0123456789".toList) → (∀ c ∈ tail.head?, c ∈ "0123456789".toList) →
      u ∉ durationUnits.map Prod.fst →
      DurationMessage s ("`".toList ++ u ++ "` is not a valid duration unit, must be `h`, `m`, `s`, `ms`, or `us`".toList)
  | large {ts : List Term} {tail : Str} : (∀ t ∈ ts, t.Ok) → s = renderTerms ts ++ tail →
      2 ^ 64 * 10 ^ 9 ≤ totalNanos ts → DurationMessage s "an overflow occurred".toList

/-! ### References -/

/-- Messages for texts that are not IPC modes. -/
inductive IpcMessage (s : Str) : Str → Prop
  | service {i m : Str} : s = "service:".toList ++ i → IdentifierMessage i m →
      IpcMessage s (because "error parsing service IPC isolation mode".toList m)

/-- Messages for texts that are not network modes. -/
inductive NetworkModeMessage (s : Str) : Str → Prop
  | name {i m : Str} : s = "service:".toList ++ i ∨ s = "container:".toList ++ i → IdentifierMessage i m →
      NetworkModeMessage s (because "error parsing service or container network mode".toList m)

/-! ### Integers in a range, platforms -/

/-- An integer in decimal. -/
def integerText (i : Int) : Str := if i < 0 then "-".toList ++ Nat.toDigits 10 i.natAbs else Nat.toDigits 10 i.natAbs

/-- The message for an integer that is not from `a` to `b`. -/
def BoundsMessage (a b i : Int) (m : Str) : Prop :=
  ¬ (a ≤ i ∧ i ≤ b) ∧ m = "value `".toList ++ integerText i ++ "` is not between ".toList ++ integerText a ++ " and ".toList ++
    integerText b

/-- The message for a number that is not a weight.  Zero has a cause of its own. -/
inductive WeightMessage (n : Nat) : Str → Prop
  | zero : n = 0 → WeightMessage n (because "weights must be between 10 and 1000".toList
      "out of range integral type conversion attempted".toList)
  | bounds : ¬ (10 ≤ n ∧ n ≤ 1000) → WeightMessage n "weights must be between 10 and 1000".toList

/-- The message for a text that is not a platform. -/
def PlatformMessage (s m : Str) : Prop :=
  (∀ t ∈ platformTexts, t.toList ≠ s) ∧ m = "unknown/invalid platform or platform part `".toList ++ s ++ "`".toList

end Spec
