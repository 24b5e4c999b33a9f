import Verif.Model.Messages
import Verif.Spec.Messages
import Verif.Props.Options
import Verif.Props.Reasons
import Verif.Props.MoreReasons
import Verif.Props.Duration
import Verif.Props.Platform

/- C93: the message shown for a rejected text is true of it and names the offending part. -/

set_option maxRecDepth 4096

namespace Props
open Rust Compose Spec Re

theorem errorChain_root (t : Str) : errorChain (.root t) = t := by simp [C84_message _ _ (.root (t := t)), ErrorValue.root]

theorem errorChain_from (t : Str) (e : ErrorValue) : errorChain (.from t e) = because t (errorChain e) := by
  obtain ⟨ts, h⟩ := C84_total e
  have h1 := C84_message _ _ (Causes.caused (t := t) h)
  rw [ErrorValue.from, h1, C84_message _ _ h, because]
  cases h <;> simp [List.intercalate, List.intersperse]

/-! ### Numbers -/

theorem number_message {max : Nat} {s : Str} {e : IntErr} (h : NumberReason max s e) :
    NumberMessage max s (errorChain e.report) := by
  cases e <;> rw [IntErr.report, errorChain_root]
  · exact .empty h
  · exact .digit h.1 h.2
  · obtain ⟨ds, rest, h1, h2, h3⟩ := h; exact .large h1 h2 h3
  · exact h.elim

theorem hex_message {s : Str} {e : IntErr} (h : HexReason s e) : HexMessage s (errorChain e.report) := by
  cases e <;> rw [IntErr.report, errorChain_root]
  · exact .empty h
  · exact .digit h.1 h.2
  · obtain ⟨ds, rest, n, h1, h2, h3⟩ := h; exact .large h1 h2 h3
  · exact h.elim

/-! ### Names -/

theorem identifier_message {s : Str} {e : IdentifierError} (h : IdentifierReason s e) :
    IdentifierMessage s (errorChain e.report) := by
  cases e <;> rw [IdentifierError.report, errorChain_root]
  · exact .empty h
  · exact .start h.1 h.2
  · exact .character h

/-- **C93**: identifiers. -/
theorem C93_identifier (s : Str) (e : IdentifierError) (h : identifierNew s = .error e) :
    IdentifierMessage s (errorChain e.report) := identifier_message (C92_identifier s e h)

example : IdentifierMessage "a b".toList "invalid character ` `, identifiers must contain only ASCII letters (a-z, A-Z), \
    digits (0-9), dots (.), underscores (_), or dashes (-)".toList := C93_identifier "a b".toList (.character ' ') rfl

/-- **C93**: keys of maps. -/
theorem C93_map_key (s : Str) (e : MapKeyError) (h : mapKeyNew s = .error e) : MapKeyMessage s (errorChain e.report) := by
  have h := C92_map_key s e h
  cases e <;> rw [MapKeyError.report, errorChain_root]
  · exact .empty h
  · exact .lines h

example : ∃ e, mapKeyNew "a\nb".toList = .error e ∧ MapKeyMessage "a\nb".toList (errorChain e.report) :=
  ⟨_, rfl, C93_map_key _ _ rfl⟩

/-- **C93**: names of extensions. -/
theorem C93_extension_key (s : Str) (e : ExtensionKeyError) (h : extensionKeyNew s = .error e) :
    ExtensionKeyMessage s (errorChain e.report) := by
  have h := C92_extension_key s e h
  cases e <;> rw [ExtensionKeyError.report, errorChain_root]
  · obtain ⟨rfl, h⟩ := h; exact .start h
  · exact .lines h

example : ExtensionKeyMessage "y-a".toList "extension key `y-a` does not start with \"x-\"".toList :=
  C93_extension_key "y-a".toList (.missingPrefix "y-a".toList) rfl

/-- **C93**: project names. -/
theorem C93_project_name (s : Str) (e : NameError) (h : projectNameNew s = .error e) :
    ProjectNameMessage s (errorChain e.report) := by
  have h := C92_project_name s e h
  cases e <;> rw [NameError.report, errorChain_root]
  · exact .empty h
  · exact .start h.1 h.2
  · exact .character h

example : ∃ e, projectNameNew "aB".toList = .error e ∧ ProjectNameMessage "aB".toList (errorChain e.report) :=
  ⟨_, rfl, C93_project_name _ _ rfl⟩

/-- **C93**: host names. -/
theorem C93_hostname (s : Str) (e : HostnameError) (h : hostnameNew s = .error e) :
    HostnameMessage s (errorChain e.report) := by
  have h := C92_hostname s e h
  cases e <;> rw [HostnameError.report, errorChain_root]
  · exact .empty h
  · exact .character h.1 h.2
  · exact .dash h

example : HostnameMessage "a.-b".toList "hostname labels cannot start or end with dashes (-)".toList :=
  C93_hostname "a.-b".toList .labelStartEnd (by decide)

theorem userName_message {s : Str} {e : UserNameError} (h : UserNameReason s e) : UserNameMessage s (errorChain e.report) := by
  cases e <;> rw [UserNameError.report, errorChain_root]
  · exact .empty h
  · exact .character h
  · obtain ⟨a, b, h1, h2⟩ := h; exact .dollar h1 h2
  · exact .numeric h
  · exact .dash h
  · exact .long h

/-- **C93**: user and group names. -/
theorem C93_user_name (s : Str) (e : UserNameError) (h : userNameNew s = .error e) :
    UserNameMessage s (errorChain e.report) := userName_message (C92_user_name s e h)

example : ∃ e, userNameNew "a!".toList = .error e ∧ UserNameMessage "a!".toList (errorChain e.report) :=
  ⟨_, rfl, C93_user_name _ _ rfl⟩

/-- **C93**: users with groups. -/
theorem C93_user (s : Str) (e : UserNameError) (h : User.parse s = .error e) : UserMessage s (errorChain e.report) := by
  rcases C92_user s e h with ⟨h1, h2, h3⟩ | ⟨user, group, h1, h2, ⟨h3, h4⟩ | ⟨h3, h4⟩⟩
  · exact ⟨s, .inl ⟨h1, rfl⟩, userName_message h2, h3⟩
  · exact ⟨user, .inr ⟨user, group, h1, h2, .inl rfl⟩, userName_message h3, h4⟩
  · exact ⟨group, .inr ⟨user, group, h1, h2, .inr rfl⟩, userName_message h3, h4⟩

example : UserMessage "1000:a$b".toList "user and group names may only have a dollar sign ($) at the end".toList :=
  C93_user "1000:a$b".toList .dollarSign (by decide)

/-- **C93**: names of resource limits. -/
theorem C93_ulimit_resource (s : Str) (e : ResourceError) (h : ulimitResourceNew s = .error e) :
    ResourceMessage s (errorChain e.report) := by
  have h := C92_ulimit_resource s e h
  cases e <;> rw [ResourceError.report, errorChain_root]
  · exact .empty h
  · exact .character h

example : ∃ e, ulimitResourceNew "noFile".toList = .error e ∧ ResourceMessage "noFile".toList (errorChain e.report) :=
  ⟨_, rfl, C93_ulimit_resource _ _ rfl⟩

theorem cacheOption_message {s : Str} {e : CacheOptionError} (h : CacheOptionReason s e) :
    CacheOptionMessage s (errorChain e.report) := by
  cases e <;> rw [CacheOptionError.report, errorChain_root]
  · exact .empty h
  · obtain ⟨c, h1, h2⟩ := h; exact .whitespace h1 h2

/-- **C93**: options of caches. -/
theorem C93_cache_option (s : Str) (e : CacheOptionError) (h : cacheOptionNew s = .error e) :
    CacheOptionMessage s (errorChain e.report) := cacheOption_message (C92_cache_option s e h)

example : ∃ e, cacheOptionNew "a b".toList = .error e ∧ CacheOptionMessage "a b".toList (errorChain e.report) :=
  ⟨.whitespace, by decide, C93_cache_option _ _ (by decide)⟩

/-! ### Images -/

theorem namePart_message {s : Str} {e : Image.NamePartError} (h : NamePartReason s e) :
    NamePartMessage s (errorChain e.report) := by
  cases e <;> first | rw [Image.NamePartError.report, errorChain_root] | exact h.elim
  · obtain ⟨a, run, b, h1, h2, h3, h4⟩ := h; exact .separators h1 h2 h3 h4
  · exact .character h
  · exact .empty h
  · obtain ⟨c, h1, h2⟩ := h; exact .start h1 h2
  · obtain ⟨c, h1, h2⟩ := h; exact .finish h1 h2

theorem imageName_message {s : Str} {e : Image.NamePartError} (h : ImageNameReason s e) :
    ImageNameMessage s (errorChain e.report) := by
  rcases h with ⟨part, h1, h2⟩ | ⟨host, port, h1, h2, h3, h4 | ⟨source, rfl, h4⟩⟩
  · exact .part h1 (namePart_message h2)
  · exact .registry h1 h2 h3 (namePart_message h4)
  · rw [Image.NamePartError.report, errorChain_from]
    exact .port h1 h2 h3 (number_message h4)

/-- **C93**: names of images. -/
theorem C93_image_name (s : Str) (e : Image.NamePartError) (h : Image.Name.new s = .error e) :
    ImageNameMessage s (errorChain e.report) := imageName_message (C92_image_name s e h)

example : ImageNameMessage "a.b:x/c".toList
    "image registry port `x` is not a valid port number: invalid digit found in string".toList := by
  have h := C93_image_name "a.b:x/c".toList (.registryPort .invalidDigit "x".toList) (by decide)
  rw [Image.NamePartError.report, errorChain_from, IntErr.report, errorChain_root] at h; exact h

/-- **C93**, false for the explanation of an empty part: `a/` has one, but neither two slashes in a row nor is it empty. -/
theorem C93_empty_part_false :
    ¬ ∀ s, Image.Name.new s = .error .empty → "//".toList <:+: s ∨ s = [] := by
  intro h
  rcases h "a/".toList (by decide) with h | h
  · exact absurd h (by decide)
  · cases h

theorem tag_message {s : Str} {e : Image.TagError} (h : TagReason s e) : TagMessage s (errorChain e.report) := by
  cases e <;> rw [Image.TagError.report, errorChain_root]
  · exact .character h
  · exact .empty h
  · exact .long h

/-- **C93**: tags of images. -/
theorem C93_tag (s : Str) (e : Image.TagError) (h : Image.tagNew s = .error e) : TagMessage s (errorChain e.report) :=
  tag_message (C92_tag s e h)

example : ∃ e, Image.tagNew "a!".toList = .error e ∧ TagMessage "a!".toList (errorChain e.report) :=
  ⟨.character '!', by decide, C93_tag _ _ (by decide)⟩

theorem digest_message {s : Str} {e : Image.DigestError} (h : DigestReason s e) : DigestMessage s (errorChain e.report) := by
  cases e <;> rw [Image.DigestError.report, errorChain_root]
  · exact .algorithm h
  · obtain ⟨a, d, h1, h2, x, h3, y, h4, h5⟩ := h; exact .separators h1 h2 h3 h4 h5
  · obtain ⟨a, d, h1, h2, h3⟩ := h; exact .algorithmCharacter h1 h2 h3
  · obtain ⟨a, d, h1, h2, h3⟩ := h; exact .dataCharacter h1 h2 h3
  · obtain ⟨c, h1, h2, h3⟩ := h; exact .start h1 h2 h3
  · obtain ⟨a, c, d, h1, h2, h3⟩ := h; exact .finish h1 h2 h3
  · obtain ⟨a, h1, h2⟩ := h; exact .data h1 h2

/-- **C93**: digests of images. -/
theorem C93_digest (s : Str) (e : Image.DigestError) (h : Image.digestNew s = .error e) :
    DigestMessage s (errorChain e.report) := digest_message (C92_digest s e h)

example : ∃ e, Image.digestNew "sha256:".toList = .error e ∧ DigestMessage "sha256:".toList (errorChain e.report) :=
  ⟨_, rfl, C93_digest _ _ rfl⟩

theorem image_message {s : Str} {e : Image.ImageError} (h : ImageReason s e) : ImageMessage s (errorChain e.report) := by
  cases e <;> rw [Image.ImageError.report] <;> first | rw [errorChain_from] | rw [errorChain_root]
  · obtain ⟨n, d, h1, h2, h3⟩ := h; exact .digest h1 h2 (digest_message h3)
  · obtain ⟨n, t, rest, h1, h2, h3, h4, h5, h6, h7⟩ := h; exact .tag h1 h2 h3 h4 h5 h6 (tag_message h7)
  · obtain ⟨n, t, d, h1, h2, h3⟩ := h; exact .both h1 h2 h3
  · obtain ⟨n, h1, h2⟩ := h; exact .name h1 (imageName_message h2)

/-- **C93**: images. -/
theorem C93_image (s : Str) (e : Image.ImageError) (h : Image.parse s = .error e) : ImageMessage s (errorChain e.report) :=
  image_message (C92_image s e h)

example : ImageMessage "a:".toList "invalid image tag: image tag cannot be empty".toList := by
  have h := C93_image "a:".toList (.tag .empty) (by decide)
  rw [Image.ImageError.report, errorChain_from, Image.TagError.report, errorChain_root] at h; exact h

/-- **C93**: caches. -/
theorem C93_cache (s : Str) (e : ParseCacheError) (h : Cache.parse s = .error e) : CacheMessage s (errorChain e.report) := by
  have h := C92_cache s e h
  cases e <;> rw [ParseCacheError.report] <;> first | rw [errorChain_from] | rw [errorChain_root]
  · rcases h with ⟨h1, h2⟩ | ⟨r, before, after, h1, h2, h3, h4⟩
    · exact .image h1 (image_message h2)
    · exact .ref h1 h2 h3 (image_message h4)
  · exact .type h.1 h.2
  · obtain ⟨h1, option, h2, ⟨h3, h4 | rfl⟩ | ⟨key, value, h3, h4, h5 | h5⟩⟩ := h
    · exact .option h1 h2 (.inl ⟨rfl, h3⟩) (cacheOption_message h4)
    · exact .noValue h1 h2 h3
    · exact .option h1 h2 (.inr ⟨value, .inr ⟨h4, h3⟩⟩) (cacheOption_message h5)
    · exact .option h1 h2 (.inr ⟨key, .inl ⟨h4, h3⟩⟩) (cacheOption_message h5)
  · exact .noRef h.1 h.2

example : ∃ e, Cache.parse "type=registry".toList = .error e ∧ CacheMessage "type=registry".toList (errorChain e.report) :=
  ⟨_, rfl, C93_cache _ _ rfl⟩

/-- **C93**: SSH authentications. -/
theorem C93_ssh (s : Str) (e : SshIdError) (h : SshAuth.parse s = .error e) : SshMessage s (errorChain e.report) := by
  have h := C92_ssh s e h
  cases e <;> rw [SshIdError.report, errorChain_root]
  · exact .id h
  · exact .path h

example : ∃ e, SshAuth.parse "=/a".toList = .error e ∧ SshMessage "=/a".toList (errorChain e.report) :=
  ⟨_, rfl, C93_ssh _ _ rfl⟩

/-! ### Addresses and ports -/

/-- **C93**: MAC addresses. -/
theorem C93_mac (s : Str) (e : ParseMacAddressError) (h : MacAddress.fromStr s = .error e) :
    MacMessage s (errorChain e.report) := by
  have h := C92_mac s e h
  cases e <;> rw [ParseMacAddressError.report] <;> first | rw [errorChain_from] | rw [errorChain_root]
  · exact .six h
  · exact .byte h.1 (hex_message h.2)

example : ∃ e, MacAddress.fromStr "00:11:22:33:44:5g".toList = .error e ∧
    MacMessage "00:11:22:33:44:5g".toList (errorChain e.report) := ⟨_, rfl, C93_mac _ _ rfl⟩

theorem range_message {s : Str} {e : ParseRangeError} (h : RangeReason s e) : RangeMessage s (errorChain e.report) := by
  cases e
  · exact h.elim
  · rw [ParseRangeError.report, errorChain_from]; exact .number h.1 (number_message h.2)

/-- **C93**: ranges of ports. -/
theorem C93_range (s : Str) (e : ParseRangeError) (h : Range.fromStr s = .error e) : RangeMessage s (errorChain e.report) :=
  range_message (C92_range s e h)

example : RangeMessage "80-x".toList "error parsing `x` as an integer: invalid digit found in string".toList := by
  have h := C93_range "80-x".toList (.int .invalidDigit "x".toList) (by decide)
  rw [ParseRangeError.report, errorChain_from, IntErr.report, errorChain_root] at h; exact h

theorem shortRanges_message {s : Str} {e : ParseShortRangesError} (h : ShortRangesReason s e) :
    ShortRangesMessage s (errorChain e.report) := by
  cases e <;> rw [ParseShortRangesError.report, errorChain_from]
  · obtain ⟨a, b, host, container, h1, h2, h3, rfl, h5⟩ := h
    rw [ShortRangesError.report, errorChain_root]
    exact .sizes h1 h2 h3 rfl rfl h5
  · rcases h with ⟨h1, h2⟩ | ⟨a, b, h1, h2, h3⟩
    · exact .only h1 (range_message h2)
    · exact .range h1 h2 (h3.imp (fun h => ⟨h.1, range_message h.2⟩) range_message)

/-- **C93**: ranges of ports of host and container. -/
theorem C93_short_ranges (s : Str) (e : ParseShortRangesError) (h : ShortRanges.fromStr s = .err e) :
    ShortRangesMessage s (errorChain e.report) := shortRanges_message (C92_short_ranges s e h)

example : ShortRangesMessage "1-2:5".toList "error creating the port ranges: host port range size `2` must be equal to \
    container port range size `1`".toList := by
  have h := C93_short_ranges "1-2:5".toList (.shortRanges ⟨2, 1⟩) (by decide)
  rw [ParseShortRangesError.report, errorChain_from, ShortRangesError.report, errorChain_root] at h; exact h

/-- **C93**: short ports, for every address parser and its errors. -/
theorem C93_short_port {Ip E : Type} (ipParse : Str → Except E Ip) (ip : E → ErrorValue) (s : Str)
    (e : ParseShortPortError E) (h : ShortPort.fromStr ipParse s = .err e) :
    ShortPortMessage ipParse (fun e => errorChain (ip e)) s (errorChain (e.report ip)) := by
  have h := C92_short_port ipParse s e h
  cases e <;> rw [ParseShortPortError.report, errorChain_from]
  · obtain ⟨a, b, rest, h1, h2, h3, h4, h5, h6⟩ := h
    rcases h6 with ⟨inner, h6, h7⟩ | ⟨h6, h7⟩
    · exact .address h1 h2 h3 h4 h5 (.inl h6) h7
    · exact .address h1 h2 h3 h4 h5 (.inr ⟨rfl, h6⟩) h7
  · obtain ⟨r, rest, h1, h2, h3, h4⟩ := h
    exact .ranges h1 h2 h4 (shortRanges_message h3)

example : ∃ e, ShortPort.fromStr (fun _ => (.error () : Except Unit Unit)) "80:80-81".toList = .err e ∧
    ShortPortMessage (fun _ => (.error () : Except Unit Unit)) (fun _ => errorChain ⟨"no address".toList, none⟩)
      "80:80-81".toList (errorChain (e.report fun _ => ⟨"no address".toList, none⟩)) :=
  ⟨_, rfl, C93_short_port _ _ _ _ rfl⟩

/-- **C93**: exposed ports. -/
theorem C93_expose (s : Str) (e : ParseRangeError) (h : Expose.fromStr s = .error e) :
    ExposeMessage s (errorChain e.report) := by
  obtain ⟨r, rest, h1, h2, h3, h4⟩ := C92_expose s e h
  exact ⟨r, rest, h1, h2, h3, range_message h4⟩

example : ∃ e, Expose.fromStr "80-a/tcp".toList = .error e ∧ ExposeMessage "80-a/tcp".toList (errorChain e.report) :=
  ⟨_, rfl, C93_expose _ _ rfl⟩

/-! ### Paths and devices -/

theorem source_message {s : Str} {e : ParseSourceError} (h : SourceReason s e) : SourceMessage s (errorChain e.report) := by
  cases e <;> rw [ParseSourceError.report, errorChain_from]
  · rename_i e; cases e; rw [HostPathError.report, errorChain_root]; exact .path h.1 h.2
  · exact .identifier (identifier_message h)

/-- **C93**: sources of volumes. -/
theorem C93_source (s : Str) (e : ParseSourceError) (h : VolumeSource.parse s = .error e) :
    SourceMessage s (errorChain e.report) := source_message (C92_source s e h)

example : ∃ e, VolumeSource.parse "a b".toList = .error e ∧ SourceMessage "a b".toList (errorChain e.report) :=
  ⟨_, rfl, C93_source _ _ rfl⟩

/-- **C93**: short volumes. -/
theorem C93_short_volume (s : Str) (e : ParseShortVolumeError) (h : ShortVolume.fromStr s = .error e) :
    ShortVolumeMessage s (errorChain e.report) := by
  have h := C92_short_volume s e h
  cases e <;> rw [ParseShortVolumeError.report] <;> first | rw [errorChain_from] | rw [errorChain_root]
  · obtain ⟨source, rest, h1, h2, h3⟩ := h; exact .source h1 h2 (source_message h3)
  · obtain ⟨h1, h2, h3⟩ := h; exact .path h1 h2 h3
  · obtain ⟨opts, h1, h2, h3⟩ := h; exact .access h1 h2 h3
  · obtain ⟨opts, h1, h2, h3⟩ := h; exact .selinux h1 h2 h3
  · obtain ⟨opts, h1, h2⟩ := h; exact .twice h1 h2
  · obtain ⟨opts, h1, h2, h3⟩ := h; exact .unknown h1 h2 h3

example : ShortVolumeMessage "a:/b:x".toList "unknown volume option `x`".toList :=
  C93_short_volume "a:/b:x".toList (.unknownOption "x".toList) (by decide)

theorem permissions_message {s : Str} {e : ParsePermissionsError} (h : PermissionsReason s e) :
    PermissionsMessage s (errorChain e.report) := by
  rw [ParsePermissionsError.report, errorChain_root]; exact .character h

/-- **C93**: permissions of devices. -/
theorem C93_permissions (s : Str) (e : ParsePermissionsError) (h : Permissions.fromStr s = .error e) :
    PermissionsMessage s (errorChain e.report) := permissions_message (C92_permissions s e h)

example : ∃ e, Permissions.fromStr "rx".toList = .error e ∧ PermissionsMessage "rx".toList (errorChain e.report) :=
  ⟨_, rfl, C93_permissions _ _ rfl⟩

/-- **C93**: devices. -/
theorem C93_device (s : Str) (e : ParseDeviceError) (h : Device.fromStr s = .error e) :
    DeviceMessage s (errorChain e.report) := by
  have h := C92_device s e h
  cases e <;> rw [ParseDeviceError.report] <;> first | rw [errorChain_from] | rw [errorChain_root]
  · exact h.elim
  · exact .missing h
  · obtain ⟨a, b, h1, h2, h3, h4⟩ := h
    rename_i e; cases e; rw [AbsolutePathError.report, errorChain_root]; exact .path h1 h2 h3 h4
  · obtain ⟨a, b, p, h1, h2, h3, h4⟩ := h; exact .permissions h1 h2 h3 (permissions_message h4)

example : ∃ e, Device.fromStr "/a:/b:x".toList = .error e ∧ DeviceMessage "/a:/b:x".toList (errorChain e.report) :=
  ⟨_, rfl, C93_device _ _ rfl⟩

/-- **C93**: device cgroup rules. -/
theorem C93_cgroup_rule (s : Str) (e : ParseCgroupRuleError) (h : CgroupRule.fromStr s = .error e) :
    CgroupRuleMessage s (errorChain e.report) := by
  have h := C92_cgroup_rule s e h
  cases e <;> rw [ParseCgroupRuleError.report] <;> first | rw [errorChain_from] | rw [errorChain_root]
  · rw [errorChain_root]; exact .kind h.1 h.2
  · exact .missing h
  · obtain ⟨a, b, h1, h2, n, h3, h4, h5, h6⟩ := h; exact .number h1 h2 h3 h4 h5 (number_message h6)
  · obtain ⟨k, n, p, h1, h2, h3, h4⟩ := h; exact .permissions h1 h2 h3 (permissions_message h4)

example : CgroupRuleMessage "a 1:70000 rw".toList
    "error parsing device major minor number: number too large to fit in target type".toList := by
  have h := C93_cgroup_rule "a 1:70000 rw".toList (.majorMinorNumber .posOverflow) (by decide)
  rw [ParseCgroupRuleError.report, errorChain_from, IntErr.report, errorChain_root] at h; exact h

/-! ### Numbers with units, CPUs, durations -/

private theorem not_byteValueMessage {s m : Str} (h : ∃ ds, Signed ds s ∧ IsNumber ds) : ¬ ByteValueMessage s m := by
  obtain ⟨ds, h1, h2⟩ := h
  rintro (h | ⟨h, -⟩ | ⟨hs, hu, hm, -⟩)
  · subst h
    rcases h1 with h1 | h1
    · exact h2.1 h1.symm
    · cases h1
  · exact h ⟨ds, h1, h2⟩
  · have hlast : ∀ u f, (u, f) ∈ byteUnits → u ≠ [] → ∃ w c, u = w ++ [c] ∧ c ∉ "0123456789".toList := by
      intro u f hm hne
      refine ⟨u.dropLast, u.getLast hne, (List.dropLast_append_getLast hne).symm, ?_⟩
      simp only [byteUnits, List.mem_cons, List.not_mem_nil, or_false, Prod.mk.injEq] at hm
      rcases hm with ⟨rfl, -⟩ | ⟨rfl, -⟩ | ⟨rfl, -⟩ | ⟨rfl, -⟩ | ⟨rfl, -⟩ | ⟨rfl, -⟩ |
        ⟨rfl, -⟩ | ⟨rfl, -⟩ | ⟨rfl, -⟩ | ⟨rfl, -⟩ | ⟨rfl, -⟩ | ⟨rfl, -⟩ <;>
        first | exact absurd rfl hne | decide +revert
    obtain ⟨w, c, rfl, hc⟩ := hlast _ _ hm hu
    refine hc ?_
    obtain ⟨hne, hall⟩ := h2
    have hl : s.getLast? = ds.getLast? := by
      rcases h1 with rfl | rfl
      · rfl
      · cases ds with
        | nil => exact absurd rfl hne
        | cons d ds => rfl
    rw [hs, ← List.append_assoc, List.getLast?_concat] at hl
    exact hall c (List.mem_of_getLast? hl.symm)

/-- **C93**, false for numbers of bytes: of a number that is too big, it is said that it contains an unknown unit. -/
theorem C93_byte_value_false : ¬ ∀ s e, ByteValue.fromStr s = .error e → ByteValueMessage s (errorChain e.report) := by
  intro h
  exact not_byteValueMessage ⟨"99999999999999999999".toList, .inl rfl, by simp, by decide⟩
    (h "99999999999999999999".toList (.unknownUnit "99999999999999999999".toList) (by decide +kernel))

/-- **C93**, the part that holds for numbers of bytes: exactly the messages for numbers above `2 ^ 64 - 1` without a unit are
wrong.  Missing: those. -/
theorem C93_byte_value_partial (s : Str) (e : ByteValue.Err) (h : ByteValue.fromStr s = .error e) :
    ByteValueMessage s (errorChain e.report) ↔ ¬ ∃ ds, Signed ds s ∧ IsNumber ds ∧ 2 ^ 64 - 1 < decimal ds := by
  refine ⟨fun hm ⟨ds, h1, h2, _⟩ => not_byteValueMessage ⟨ds, h1, h2⟩ hm, fun hn => ?_⟩
  have h := (C92_byte_value_partial s e h).2 hn
  cases e <;> rw [ByteValue.Err.report] <;> first | rw [errorChain_from] | rw [errorChain_root]
  · exact .empty h
  · obtain ⟨rfl, h1, h2⟩ := h; exact .unit h1 h2
  · obtain ⟨u, f, h1, h2, h3, h4⟩ := h; exact .number h1 h2 h3 (number_message h4)

example : ∃ e, ByteValue.fromStr "5tb".toList = .error e ∧ ByteValueMessage "5tb".toList (errorChain e.report) := by
  refine ⟨_, rfl, (C93_byte_value_partial "5tb".toList _ rfl).2 ?_⟩
  rintro ⟨ds, h, ⟨-, hd⟩, -⟩
  have : 't' ∈ ds := by
    rcases h with rfl | h
    · decide
    · cases h
  exact absurd (hd _ this) (by decide)

/-- **C93**: sets of CPUs. -/
theorem C93_cpu_set (s : Str) (e : ParseCpuSetError) (h : CpuSet.fromStr s = .error e) :
    CpuSetMessage s (errorChain e.report) := by
  obtain ⟨⟨item, h1, h2⟩, h3⟩ := C92_cpu_set s e h
  rw [ParseCpuSetError.report, errorChain_from]; exact .number h1 h2 (number_message h3)

example : ∃ e, CpuSet.fromStr "0-2,x".toList = .error e ∧ CpuSetMessage "0-2,x".toList (errorChain e.report) :=
  ⟨_, rfl, C93_cpu_set _ _ rfl⟩

private theorem render_head {ts : List Term} {r : Str} (h : ∀ t ∈ ts, t.Ok) (hne : ts ≠ [] ∨ IsNumber r) :
    ∃ c, (renderTerms ts ++ r).head? = some c ∧ c ∈ "0123456789".toList := by
  have key : ∀ n r : Str, IsNumber n → ∃ c, (n ++ r).head? = some c ∧ c ∈ "0123456789".toList := by
    intro n r hn
    obtain ⟨hne, hall⟩ := hn
    cases n with
    | nil => exact absurd rfl hne
    | cons c cs => exact ⟨c, rfl, hall c (by simp)⟩
  cases ts with
  | nil => rcases hne with hne | hr
           · exact absurd rfl hne
           · simpa [renderTerms] using key r [] hr
  | cons t ts =>
    have := key t.digits (t.unit ++ renderTerms ts ++ r) (h t (by simp)).1
    simpa [renderTerms] using this

private theorem not_durationMessage {s m : Str} {c : Char} (h1 : s.head? = some c) (h2 : c ∉ "0123456789".toList)
    (h3 : ∃ d ∈ s, d ∈ "0123456789".toList) : ¬ DurationMessage s m := by
  have contra : ∀ ts r, (∀ t ∈ ts, Term.Ok t) → (ts ≠ [] ∨ IsNumber r) → s = renderTerms ts ++ r → False := by
    intro ts r ht hr hs
    obtain ⟨c', h4, h5⟩ := render_head ht hr
    rw [← hs, h1] at h4
    cases h4; exact h2 h5
  rintro (h | ⟨-, h⟩ | ⟨ht, hs, hn⟩ | ⟨ht, hs, hn, -⟩ | ⟨ht, hs, hl⟩)
  · subst h; cases h1
  · obtain ⟨d, h4, h5⟩ := h3; exact h d h4 h5
  · exact contra _ _ ht (.inr hn) hs
  · rename_i ts n u tail _ _ _
    refine contra ts (n ++ u ++ tail) ht ?_ (by rw [hs]; simp)
    obtain ⟨c', h4, h5⟩ := render_head (ts := []) (r := n) (by simp) (.inr hn)
    cases ts with
    | cons t ts => exact .inl (by simp)
    | nil =>
      exfalso
      cases n with
      | nil => exact hn.1 rfl
      | cons x xs =>
        rw [hs] at h1
        simp [renderTerms] at h1 h4
        subst h1 h4; exact h2 h5
  · rename_i ts tail
    refine contra ts tail ht (.inl ?_) hs
    rintro rfl
    simp [totalNanos] at hl

/-- **C93**, false for durations: of `.5s` it is said that it does not contain digits. -/
theorem C93_duration_false : ¬ ∀ s e, durationParse s = .err e → DurationMessage s (errorChain e.report) := by
  intro h
  exact not_durationMessage (s := ".5s".toList) (c := '.') rfl (by decide) ⟨'5', by decide, by decide⟩
    (h ".5s".toList (.noDigits ".5s".toList) (by decide))

/-- **C93**, the part that holds for durations: exactly the messages for texts that have digits but do not begin with one are
wrong.  Missing: those. -/
theorem C93_duration_partial (s : Str) (e : DurationError) (h : durationParse s = .err e) :
    DurationMessage s (errorChain e.report) ↔
      ¬ ∃ c, s.head? = some c ∧ c ∉ "0123456789".toList ∧ ∃ d ∈ s, d ∈ "0123456789".toList := by
  refine ⟨fun hm ⟨c, h1, h2, h3⟩ => not_durationMessage h1 h2 h3 hm, fun hn => ?_⟩
  cases e <;> rw [DurationError.report, errorChain_root]
  · exact .empty ((C08_duration_error_empty s).1 h)
  · obtain ⟨ts, h1, h2, h3⟩ := (C08_duration_error_missing_unit s _).1 h
    exact .noUnit h1.1 h2 h3
  · obtain ⟨rfl, c, cs, rfl, h2⟩ := (C08_duration_error_no_digits s _).1 h
    exact .digits (by simp) fun d hd hd' => hn ⟨c, rfl, h2, d, hd, hd'⟩
  · obtain ⟨ts, t, tail, h1, h2, -, h4, -, h6⟩ := (C08_duration_error_overflow s).1 h
    refine .large (fun t' ht => ?_) h4 h6
    rcases List.mem_append.1 ht with ht | ht
    · exact h1.1 t' ht
    · rw [List.mem_singleton.1 ht]; exact h2
  · obtain ⟨ts, ds, tail, h1, h2, h3, -, h5, h6⟩ := (C08_duration_error_invalid_unit s _).1 h
    exact .unit h1.1 h2 h3 h5.1 h5.2.1 h5.2.2 h6

example : durationParse "1m2x".toList = .err (.invalidUnit "x".toList) := by decide

/-! ### References -/

/-- **C93**: links, by the service they name. -/
theorem C93_link (s : Str) (e : IdentifierError) (h : Link.parse s = .error e) :
    IdentifierMessage (s.takeWhile (· ≠ ':')) (errorChain e.report) := identifier_message (C92_link s e h)

example : ∃ e, Link.parse "-a:b".toList = .error e ∧ IdentifierMessage "-a".toList (errorChain e.report) :=
  ⟨_, rfl, C93_link "-a:b".toList _ rfl⟩

/-- **C93**: IPC modes. -/
theorem C93_ipc (s : Str) (e : IdentifierError) (h : Ipc.parse s = .error e) : IpcMessage s (errorChain (Ipc.report e)) := by
  obtain ⟨i, h1, h2⟩ := C92_ipc s e h
  rw [Ipc.report, errorChain_from]; exact .service h1 (identifier_message h2)

example : ∃ e, Ipc.parse "service:-".toList = .error e ∧ IpcMessage "service:-".toList (errorChain (Ipc.report e)) :=
  ⟨_, rfl, C93_ipc _ _ rfl⟩

/-- **C93**: network modes. -/
theorem C93_network_mode (s : Str) (e : IdentifierError) (h : NetworkMode.parse s = .error e) :
    NetworkModeMessage s (errorChain (NetworkMode.report e)) := by
  obtain ⟨i, h1, h2⟩ := C92_network_mode s e h
  rw [NetworkMode.report, errorChain_from]; exact .name h1 (identifier_message h2)

example : NetworkModeMessage "service:".toList
    "error parsing service or container network mode: identifier cannot be empty".toList := by
  have h := C93_network_mode "service:".toList .empty (by decide)
  rw [NetworkMode.report, errorChain_from, IdentifierError.report, errorChain_root] at h; exact h

/-- **C93**: sources of volumes of other services, by the name in them. -/
theorem C93_volumes_from (s : Str) (e : IdentifierError) (h : VolumesFrom.parse s = .error e) :
    ∃ t i, (s = t ++ ":ro".toList ∨ s = t ++ ":rw".toList ∨ s = t) ∧ (t = "container:".toList ++ i ∨ t = i) ∧
      IdentifierMessage i (errorChain e.report) := by
  obtain ⟨t, h1, h2⟩ := C92_volumes_from s e h
  rcases h2 with ⟨i, h2, h3⟩ | ⟨-, h3⟩
  · exact ⟨t, i, by tauto, .inl h2, identifier_message h3⟩
  · exact ⟨t, t, by tauto, .inr rfl, identifier_message h3⟩

example : VolumesFrom.parse "container:a b:ro".toList = .error (.character ' ') := by decide

/-- **C93**: build networks. -/
theorem C93_build_network (s : Str) (e : IdentifierError) (h : buildNetworkParse s = .error e) :
    IdentifierMessage s (errorChain e.report) := identifier_message (C92_build_network s e h).2

example : ∃ e, buildNetworkParse "a b".toList = .error e ∧ IdentifierMessage "a b".toList (errorChain e.report) :=
  ⟨_, rfl, C93_build_network _ _ rfl⟩

/-! ### Integers in a range, platforms -/

/-- **C93**: percentages. -/
theorem C93_percent (n : Nat) (e : ServiceRangeError) (h : Percent.new n = .error e) :
    BoundsMessage 0 100 n (errorChain e.report) := by
  unfold Percent.new at h
  split at h
  · cases h
  · cases h
    rw [ServiceRangeError.report, errorChain_root]
    exact ⟨by omega, by simp [integerText, showInt, showNat]⟩

example : BoundsMessage 0 100 101 "value `101` is not between 0 and 100".toList := C93_percent 101 ⟨101, 0, 100⟩ rfl

/-- **C93**: adjustments of the out-of-memory score. -/
theorem C93_oom_score_adj (i : Int) (e : ServiceRangeError) (h : OomScoreAdj.new i = .error e) :
    BoundsMessage (-1000) 1000 i (errorChain e.report) := by
  unfold OomScoreAdj.new at h
  split at h
  · cases h
  · rename_i hn
    cases h
    rw [ServiceRangeError.report, errorChain_root]
    exact ⟨hn, by simp [integerText, showInt, showNat]⟩

example : ∃ e, OomScoreAdj.new (-1001) = .error e ∧ BoundsMessage (-1000) 1000 (-1001) (errorChain e.report) :=
  ⟨_, rfl, C93_oom_score_adj _ _ rfl⟩

/-- **C93**: weights. -/
theorem C93_weight (n : Nat) (e : WeightRangeError) (h : Weight.new n = .error e) :
    WeightMessage n (errorChain e.report) := by
  unfold Weight.new at h
  split at h
  · cases h; exact (errorChain_from _ _).symm ▸ .zero ‹_›
  split at h
  · cases h
  · cases h; exact (errorChain_root _).symm ▸ .bounds ‹_›

example : ∃ e, Weight.new 9 = .error e ∧ WeightMessage 9 (errorChain e.report) := ⟨_, rfl, C93_weight _ _ rfl⟩

/-- **C93**: platforms. -/
theorem C93_platform (s e : Str) (h : platforms.fromStr s = .error e) : PlatformMessage s (errorChain (platformReport e)) := by
  have hno : ¬ ∃ p, platforms.fromStr s = .ok p := by rintro ⟨p, hp⟩; rw [hp] at h; cases h
  have he : e = s := by
    unfold PlatformTable.fromStr armOrError at h
    split at h
    · cases h
    · cases h; rfl
  subst he
  refine ⟨fun t ht hts => hno ?_, by rw [platformReport, errorChain_root]; rfl⟩
  have := (C49_platform_table.2 t).2 ht
  rwa [hts] at this

example : platforms.fromStr "linux/x".toList = .error "linux/x".toList := by decide +kernel

end Props
