import Verif.Props.Messages

/- C94: the message shown for a rejected text of one line has one line. -/

set_option maxRecDepth 4096

namespace Props
open Rust Compose Spec Re

/-- The text has no line break. -/
private abbrev OneLine (s : Str) : Prop := '\n' ∉ s

private theorem because_line {t m : Str} : OneLine (because t m) ↔ OneLine t ∧ OneLine m := by
  simp [OneLine, because]

private theorem firstBad_mem {l s : Str} {c : Char} (h : FirstBad l s c) : c ∈ s := by
  obtain ⟨a, b, rfl, -⟩ := h; simp

private theorem split_line {c : Char} {s p : Str} (hs : OneLine s) (hp : p ∈ s.splitOn c) : OneLine p := by
  obtain ⟨a, b, rfl, -⟩ := mem_splitOn hp
  simp only [OneLine, List.mem_append, not_or] at *
  exact hs.1.2

private theorem digits_line (n : Nat) : OneLine (Nat.toDigits 10 n) := by
  intro h
  have := Nat.isDigit_of_mem_toDigits (by omega) (by omega) h
  revert this; decide

private theorem ne_line {s : Str} {c : Char} (hs : OneLine s) (hc : c ∈ s) : OneLine [c] := by
  simp only [OneLine, List.mem_singleton]; rintro rfl; exact hs hc

private theorem number_line {max : Nat} {s m : Str} (h : NumberMessage max s m) : OneLine m := by
  cases h <;> decide

private theorem hex_line {s m : Str} (h : HexMessage s m) : OneLine m := by cases h <;> decide

private theorem line3 {a b c : Str} (ha : OneLine a) (hb : OneLine b) (hc : OneLine c) : OneLine (a ++ b ++ c) := by
  simp only [OneLine, List.mem_append, not_or] at *; exact ⟨⟨ha, hb⟩, hc⟩

private theorem identifier_line {s m : Str} (h : IdentifierMessage s m) (hs : OneLine s) : OneLine m := by
  cases h with
  | empty => decide
  | start h => exact line3 (by decide) (ne_line hs (List.mem_of_head? h)) (by decide)
  | character h => exact line3 (by decide) (ne_line hs (firstBad_mem h)) (by decide)


/-- **C94**: identifiers. -/
theorem C94_identifier (s : Str) (e : IdentifierError) (h : identifierNew s = .error e) (hs : '\n' ∉ s) :
    '\n' ∉ errorChain e.report := identifier_line (C93_identifier s e h) hs

example : identifierNew "a b".toList = .error (.character ' ') := by decide

/-- **C94**: keys of maps. -/
theorem C94_map_key (s : Str) (e : MapKeyError) (h : mapKeyNew s = .error e) : '\n' ∉ errorChain e.report := by
  have h := C93_map_key s e h
  generalize errorChain e.report = m at h ⊢
  cases h <;> decide

example : ∃ e, mapKeyNew "a\nb".toList = .error e ∧ '\n' ∉ errorChain e.report :=
  ⟨_, rfl, C94_map_key "a\nb".toList _ rfl⟩

/-- **C94**: names of extensions. -/
theorem C94_extension_key (s : Str) (e : ExtensionKeyError) (h : extensionKeyNew s = .error e) (hs : '\n' ∉ s) :
    '\n' ∉ errorChain e.report := by
  have h := C93_extension_key s e h
  generalize errorChain e.report = m at h ⊢
  cases h with
  | start => exact line3 (by decide) hs (by decide)
  | lines => decide

example : ∃ e, extensionKeyNew "y-a".toList = .error e ∧ '\n' ∉ errorChain e.report :=
  ⟨_, rfl, C94_extension_key "y-a".toList _ rfl (by decide)⟩

/-- **C94**: project names. -/
theorem C94_project_name (s : Str) (e : NameError) (h : projectNameNew s = .error e) (hs : '\n' ∉ s) :
    '\n' ∉ errorChain e.report := by
  have h := C93_project_name s e h
  generalize errorChain e.report = m at h ⊢
  cases h with
  | empty => decide
  | start h => exact line3 (by decide) (ne_line hs (List.mem_of_head? h)) (by decide)
  | character h => exact line3 (by decide) (ne_line hs (firstBad_mem h)) (by decide)

example : ∃ e, projectNameNew "aB".toList = .error e ∧ '\n' ∉ errorChain e.report :=
  ⟨_, rfl, C94_project_name "aB".toList _ rfl (by decide)⟩

/-- **C94**: host names. -/
theorem C94_hostname (s : Str) (e : HostnameError) (h : hostnameNew s = .error e) (hs : '\n' ∉ s) :
    '\n' ∉ errorChain e.report := by
  have h := C93_hostname s e h
  generalize errorChain e.report = m at h ⊢
  cases h with
  | empty => decide
  | character h => exact line3 (by decide) (ne_line hs h) (by decide)
  | dash => decide

example : ∃ e, hostnameNew "a.-b".toList = .error e ∧ '\n' ∉ errorChain e.report :=
  ⟨_, rfl, C94_hostname "a.-b".toList _ rfl (by decide)⟩

private theorem userName_line {s m : Str} (h : UserNameMessage s m) (hs : OneLine s) : OneLine m := by
  cases h with
  | character h => exact line3 (by decide) (ne_line hs (firstBad_mem h)) (by decide)
  | _ => decide

/-- **C94**: users with groups. -/
theorem C94_user (s : Str) (e : UserNameError) (h : User.parse s = .error e) (hs : '\n' ∉ s) :
    '\n' ∉ errorChain e.report := by
  obtain ⟨part, h1, h2, -⟩ := C93_user s e h
  refine userName_line h2 ?_
  rcases h1 with ⟨-, rfl⟩ | ⟨user, group, rfl, -, rfl | rfl⟩
  · exact hs
  · exact fun h => hs (by simp [h])
  · exact fun h => hs (by simp [h])

example : ∃ e, User.parse "a:b!".toList = .error e ∧ '\n' ∉ errorChain e.report :=
  ⟨_, rfl, C94_user "a:b!".toList _ rfl (by decide)⟩

/-- **C94**: names of resource limits. -/
theorem C94_ulimit_resource (s : Str) (e : ResourceError) (h : ulimitResourceNew s = .error e) (hs : '\n' ∉ s) :
    '\n' ∉ errorChain e.report := by
  have h := C93_ulimit_resource s e h
  generalize errorChain e.report = m at h ⊢
  cases h with
  | empty => decide
  | character h => exact line3 (by decide) (ne_line hs (firstBad_mem h)) (by decide)

example : ∃ e, ulimitResourceNew "noFile".toList = .error e ∧ '\n' ∉ errorChain e.report :=
  ⟨_, rfl, C94_ulimit_resource "noFile".toList _ rfl (by decide)⟩

private theorem cacheOption_line {s m : Str} (h : CacheOptionMessage s m) : OneLine m := by cases h <;> decide

/-! ### Images -/

private theorem namePart_line {s m : Str} (h : NamePartMessage s m) (hs : OneLine s) : OneLine m := by
  cases h with
  | character h => exact line3 (by decide) (ne_line hs (firstBad_mem h)) (by decide)
  | _ => decide

private theorem imageName_line {s m : Str} (h : ImageNameMessage s m) (hs : OneLine s) : OneLine m := by
  have registry : ∀ {host port : Str}, (s.splitOn '/').head? = some (host ++ ":".toList ++ port) →
      OneLine host ∧ OneLine port := by
    intro host port h
    have := split_line hs (List.mem_of_head? h)
    simp only [OneLine, List.mem_append, not_or] at *
    exact ⟨this.1.1, this.2⟩
  cases h with
  | part h1 h2 => exact namePart_line h2 (split_line hs h1)
  | registry h1 h2 h3 h4 => exact namePart_line h4 (registry h1).1
  | port h1 h2 h3 h4 => exact because_line.2 ⟨line3 (by decide) (registry h1).2 (by decide), number_line h4⟩

/-- **C94**: names of images. -/
theorem C94_image_name (s : Str) (e : Image.NamePartError) (h : Image.Name.new s = .error e) (hs : '\n' ∉ s) :
    '\n' ∉ errorChain e.report := imageName_line (C93_image_name s e h) hs

example : ∃ e, Image.Name.new "a//b".toList = .error e ∧ '\n' ∉ errorChain e.report :=
  ⟨_, rfl, C94_image_name "a//b".toList _ rfl (by decide)⟩

private theorem tag_line {s m : Str} (h : TagMessage s m) (hs : OneLine s) : OneLine m := by
  cases h with
  | character h => exact line3 (by decide) (ne_line hs (firstBad_mem h)) (by decide)
  | _ => decide

/-- **C94**: tags of images. -/
theorem C94_tag (s : Str) (e : Image.TagError) (h : Image.tagNew s = .error e) (hs : '\n' ∉ s) :
    '\n' ∉ errorChain e.report := tag_line (C93_tag s e h) hs

example : ∃ e, Image.tagNew "a!".toList = .error e ∧ '\n' ∉ errorChain e.report :=
  ⟨.character '!', by decide, C94_tag "a!".toList _ (by decide) (by decide)⟩

/-- **C94**, false for digests: the message for a character that is not allowed in the algorithm has two lines. -/
theorem C94_digest_false : ¬ ∀ s e, Image.digestNew s = .error e → '\n' ∉ s → '\n' ∉ errorChain e.report := by
  intro h
  have := h "A:b".toList (.algorithmCharacter 'A') (by decide) (by decide)
  rw [Image.DigestError.report, errorChain_root] at this
  exact this (by decide)

private theorem digest_line {s : Str} {e : Image.DigestError} (h : DigestReason s e) (hs : OneLine s) :
    OneLine (errorChain e.report) ↔ ∀ c, e ≠ .algorithmCharacter c := by
  cases e <;> rw [Image.DigestError.report, errorChain_root]
  case algorithmCharacter c =>
    refine iff_of_false (fun h => h ?_) (fun h => h c rfl)
    rw [List.append_assoc]
    exact List.mem_append_right _ (List.mem_append_right _ (by decide))
  case encodeCharacter c =>
    obtain ⟨a, d, rfl, -, h⟩ := h
    refine iff_of_true (line3 (by decide) (ne_line hs ?_) (by decide)) (fun c h => by cases h)
    simp [firstBad_mem h]
  all_goals exact iff_of_true (by decide) (fun c h => by cases h)

/-- **C94**, the part that holds for digests: exactly that message has more than one line.  Missing: that message. -/
theorem C94_digest_partial (s : Str) (e : Image.DigestError) (h : Image.digestNew s = .error e) (hs : '\n' ∉ s) :
    '\n' ∉ errorChain e.report ↔ ∀ c, e ≠ .algorithmCharacter c := digest_line (C92_digest s e h) hs

example : ∃ e, Image.digestNew "sha256:".toList = .error e ∧ '\n' ∉ errorChain e.report :=
  ⟨_, rfl, (C94_digest_partial "sha256:".toList _ rfl (by decide)).2 (fun _ h => by cases h)⟩

private theorem image_line {s : Str} {e : Image.ImageError} (h : ImageReason s e) (hs : OneLine s) :
    OneLine (errorChain e.report) ↔ ∀ c, e ≠ .digest (.algorithmCharacter c) := by
  cases e with
  | digest e =>
    rw [Image.ImageError.report, errorChain_from, because_line]
    obtain ⟨n, d, rfl, -, h⟩ := h
    have := digest_line h (fun h => hs (by simp [h]))
    rw [this]
    simp only [ne_eq, Image.ImageError.digest.injEq]
    exact and_iff_right (by decide)
  | tag e =>
    obtain ⟨n, t, rest, rfl, -, -, -, -, -, h⟩ := h
    refine iff_of_true ?_ (fun c h => by cases h)
    rw [Image.ImageError.report, errorChain_from, because_line]
    exact ⟨by decide, tag_line (tag_message h) (fun h => hs (by simp [h]))⟩
  | tagAndDigest =>
    rw [Image.ImageError.report, errorChain_root]
    exact iff_of_true (by decide) (fun c h => by cases h)
  | namePart e =>
    obtain ⟨n, h1, h2⟩ := h
    refine iff_of_true ?_ (fun c h => by cases h)
    rw [Image.ImageError.report, errorChain_from, because_line]
    refine ⟨by decide, imageName_line (imageName_message h2) fun h => hs ?_⟩
    rcases h1 with rfl | ⟨t, rfl, -⟩ | ⟨d, rfl, -⟩ <;> simp [h]

/-- **C94**, the part that holds for images: all messages except that one about the digest.  Missing: that message. -/
theorem C94_image_partial (s : Str) (e : Image.ImageError) (h : Image.parse s = .error e) (hs : '\n' ∉ s) :
    '\n' ∉ errorChain e.report ↔ ∀ c, e ≠ .digest (.algorithmCharacter c) := image_line (C92_image s e h) hs

example : Image.parse "a@A:b".toList = .error (.digest (.algorithmCharacter 'A')) := by decide

/-- **C94**, the part that holds for caches: all messages except that one about the digest.  Missing: that message. -/
theorem C94_cache_partial (s : Str) (e : ParseCacheError) (h : Cache.parse s = .error e) (hs : '\n' ∉ s) :
    '\n' ∉ errorChain e.report ↔ ∀ c, e ≠ .image (.digest (.algorithmCharacter c)) := by
  have h := C92_cache s e h
  cases e with
  | image e =>
    rw [ParseCacheError.report, errorChain_from]
    have : OneLine (errorChain e.report) ↔ ∀ c, e ≠ .digest (.algorithmCharacter c) := by
      rcases h with ⟨-, h⟩ | ⟨r, before, after, -, h1, -, h⟩
      · exact image_line h hs
      · refine image_line h fun h => split_line hs (p := "ref=".toList ++ r) (by rw [h1]; simp) (by simp [h])
    simp only [ne_eq, ParseCacheError.image.injEq]
    exact because_line.trans ((and_iff_right (by decide)).trans this)
  | typeFirst =>
    rw [ParseCacheError.report, errorChain_root]
    exact iff_of_true (by decide) (fun c h => by cases h)
  | cacheOption e =>
    rw [ParseCacheError.report, errorChain_from]
    refine iff_of_true (because_line.2 ⟨by decide, ?_⟩) (fun c h => by cases h)
    cases e <;> rw [CacheOptionError.report, errorChain_root] <;> decide
  | missingRef =>
    rw [ParseCacheError.report, errorChain_root]
    exact iff_of_true (by decide) (fun c h => by cases h)

example : ∃ e, Cache.parse "type=registry,ref=a//b".toList = .error e ∧ '\n' ∉ errorChain e.report :=
  ⟨_, rfl, (C94_cache_partial "type=registry,ref=a//b".toList _ rfl (by decide)).2 (fun _ h => by cases h)⟩

/-! ### Other texts -/

/-- **C94**: options of caches. -/
theorem C94_cache_option (s : Str) (e : CacheOptionError) (h : cacheOptionNew s = .error e) : '\n' ∉ errorChain e.report :=
  cacheOption_line (C93_cache_option s e h)

example : ∃ e, cacheOptionNew "a\nb,".toList = .error e ∧ '\n' ∉ errorChain e.report :=
  ⟨_, rfl, C94_cache_option "a\nb,".toList _ rfl⟩

/-- **C94**: SSH authentications. -/
theorem C94_ssh (s : Str) (e : SshIdError) (h : SshAuth.parse s = .error e) : '\n' ∉ errorChain e.report := by
  have h := C93_ssh s e h
  generalize errorChain e.report = m at h ⊢
  cases h <;> decide

example : ∃ e, SshAuth.parse "=/a".toList = .error e ∧ '\n' ∉ errorChain e.report := ⟨_, rfl, C94_ssh "=/a".toList _ rfl⟩

/-- **C94**: MAC addresses. -/
theorem C94_mac (s : Str) (e : ParseMacAddressError) (h : MacAddress.fromStr s = .error e) (hs : '\n' ∉ s) :
    '\n' ∉ errorChain e.report := by
  have h := C93_mac s e h
  generalize errorChain e.report = m at h ⊢
  cases h with
  | six => decide
  | byte h1 h2 => exact because_line.2 ⟨line3 (by decide) (split_line hs h1) (by decide), hex_line h2⟩

example : ∃ e, MacAddress.fromStr "00:11:22:33:44:5g".toList = .error e ∧ '\n' ∉ errorChain e.report :=
  ⟨_, rfl, C94_mac "00:11:22:33:44:5g".toList _ rfl (by decide)⟩

private theorem endOfRange_line {s v : Str} (h : EndOfRange s v) (hs : OneLine s) : OneLine v := by
  rcases h with ⟨-, rfl⟩ | ⟨a, b, rfl, -, rfl | rfl⟩
  · exact hs
  · exact fun h => hs (by simp [h])
  · exact fun h => hs (by simp [h])

private theorem range_line {s m : Str} (h : RangeMessage s m) (hs : OneLine s) : OneLine m := by
  cases h with
  | number h1 h2 => exact because_line.2 ⟨line3 (by decide) (endOfRange_line h1 hs) (by decide), number_line h2⟩

/-- **C94**: ranges of ports. -/
theorem C94_range (s : Str) (e : ParseRangeError) (h : Range.fromStr s = .error e) (hs : '\n' ∉ s) :
    '\n' ∉ errorChain e.report := range_line (C93_range s e h) hs

example : ∃ e, Range.fromStr "80-65536".toList = .error e ∧ '\n' ∉ errorChain e.report :=
  ⟨_, rfl, C94_range "80-65536".toList _ rfl (by decide)⟩

/-- **C94**: exposed ports. -/
theorem C94_expose (s : Str) (e : ParseRangeError) (h : Expose.fromStr s = .error e) (hs : '\n' ∉ s) :
    '\n' ∉ errorChain e.report := by
  obtain ⟨r, rest, rfl, -, -, h⟩ := C93_expose s e h
  exact range_line h fun h => hs (by simp [h])

example : ∃ e, Expose.fromStr "80-a/tcp".toList = .error e ∧ '\n' ∉ errorChain e.report :=
  ⟨_, rfl, C94_expose "80-a/tcp".toList _ rfl (by decide)⟩

private theorem shortRanges_line {s m : Str} (h : ShortRangesMessage s m) (hs : OneLine s) : OneLine m := by
  cases h with
  | sizes _ _ _ h1 h2 =>
    subst h1 h2
    exact because_line.2 ⟨by decide, line3 (line3 (by decide) (digits_line _) (by decide)) (digits_line _) (by decide)⟩
  | only _ h => exact because_line.2 ⟨by decide, range_line h hs⟩
  | range h1 _ h2 =>
    subst h1
    refine because_line.2 ⟨by decide, ?_⟩
    rcases h2 with ⟨-, h⟩ | h <;> exact range_line h fun h => hs (by simp [h])

/-- **C94**: short ports, if the messages for addresses have one line. -/
theorem C94_short_port {Ip E : Type} (ipParse : Str → Except E Ip) (ip : E → ErrorValue) (s : Str)
    (e : ParseShortPortError E) (h : ShortPort.fromStr ipParse s = .err e) (hip : ∀ e, '\n' ∉ errorChain (ip e))
    (hs : '\n' ∉ s) : '\n' ∉ errorChain (e.report ip) := by
  have h := C93_short_port ipParse ip s e h
  generalize errorChain (e.report ip) = m at h ⊢
  cases h with
  | address => exact because_line.2 ⟨by decide, hip _⟩
  | ranges _ _ h1 h2 =>
    refine because_line.2 ⟨by decide, shortRanges_line h2 fun hn => hs ?_⟩
    rcases h1 with rfl | ⟨a, ip, rfl, -⟩ <;> simp [hn]

example : ∃ e, ShortPort.fromStr (fun _ => (.error () : Except Unit Unit)) "a:80:80-81".toList = .err e ∧
    '\n' ∉ errorChain (e.report fun _ => ⟨"no address".toList, none⟩) :=
  ⟨_, rfl, C94_short_port (Ip := Unit) (fun _ => .error ()) _ "a:80:80-81".toList _ rfl (fun _ => by decide) (by decide)⟩

private theorem source_line {s m : Str} (h : SourceMessage s m) (hs : OneLine s) : OneLine m := by
  cases h with
  | path => exact because_line.2 ⟨by decide, by decide⟩
  | identifier h => exact because_line.2 ⟨by decide, identifier_line h hs⟩

/-- **C94**: short volumes. -/
theorem C94_short_volume (s : Str) (e : ParseShortVolumeError) (h : ShortVolume.fromStr s = .error e) (hs : '\n' ∉ s) :
    '\n' ∉ errorChain e.report := by
  have h := C93_short_volume s e h
  have opts : ∀ {opts o : Str}, VolumeOptionsOf s opts → o ∈ opts.splitOn ',' → OneLine o := by
    rintro opts o ⟨source, path, rfl, -, -⟩ ho
    exact split_line (fun h => hs (by simp [h])) ho
  generalize errorChain e.report = m at h ⊢
  cases h with
  | source h1 _ h2 => subst h1; exact because_line.2 ⟨by decide, source_line h2 fun h => hs (by simp [h])⟩
  | path _ _ h1 =>
    refine line3 (by decide) (fun hn => hs ?_) (by decide)
    rcases h1 with rfl | ⟨source, -, rfl | ⟨opts, rfl⟩⟩ <;> simp [hn]
  | access => decide
  | selinux => decide
  | twice h1 h2 => exact line3 (by decide) (opts h1 (List.count_pos_iff.1 (by omega))) (by decide)
  | unknown h1 h2 => exact line3 (by decide) (opts h1 h2) (by decide)

example : ∃ e, ShortVolume.fromStr "/a:b".toList = .error e ∧ '\n' ∉ errorChain e.report :=
  ⟨_, rfl, C94_short_volume "/a:b".toList _ rfl (by decide)⟩

private theorem permissions_line {s m : Str} (h : PermissionsMessage s m) (hs : OneLine s) : OneLine m := by
  cases h with
  | character h => exact line3 (by decide) (ne_line hs (firstBad_mem h)) (by decide)

/-- **C94**: devices. -/
theorem C94_device (s : Str) (e : ParseDeviceError) (h : Device.fromStr s = .error e) (hs : '\n' ∉ s) :
    '\n' ∉ errorChain e.report := by
  have h := C93_device s e h
  generalize errorChain e.report = m at h ⊢
  cases h with
  | missing => decide
  | path => exact because_line.2 ⟨by decide, by decide⟩
  | permissions h1 _ _ h2 => subst h1; exact because_line.2 ⟨by decide, permissions_line h2 fun h => hs (by simp [h])⟩

example : ∃ e, Device.fromStr "/a:/b:x".toList = .error e ∧ '\n' ∉ errorChain e.report :=
  ⟨_, rfl, C94_device "/a:/b:x".toList _ rfl (by decide)⟩

/-- **C94**: device cgroup rules. -/
theorem C94_cgroup_rule (s : Str) (e : ParseCgroupRuleError) (h : CgroupRule.fromStr s = .error e) (hs : '\n' ∉ s) :
    '\n' ∉ errorChain e.report := by
  have h := C93_cgroup_rule s e h
  generalize errorChain e.report = m at h ⊢
  cases h with
  | kind h1 => exact because_line.2 ⟨by decide, line3 (by decide) (split_line hs (List.mem_of_head? h1)) (by decide)⟩
  | missing => decide
  | number _ _ _ _ _ h => exact because_line.2 ⟨by decide, number_line h⟩
  | permissions h1 _ _ h2 => subst h1; exact because_line.2 ⟨by decide, permissions_line h2 fun h => hs (by simp [h])⟩

example : ∃ e, CgroupRule.fromStr "c 1:3 rwx".toList = .error e ∧ '\n' ∉ errorChain e.report :=
  ⟨_, rfl, C94_cgroup_rule "c 1:3 rwx".toList _ rfl (by decide)⟩

/-- **C94**: numbers of bytes. -/
theorem C94_byte_value (s : Str) (e : ByteValue.Err) (h : ByteValue.fromStr s = .error e) (hs : '\n' ∉ s) :
    '\n' ∉ errorChain e.report := by
  have hint : ∀ (v u : Str) (f : Nat → ByteValue), ByteValue.parseU64 v f = .error e → s = v ++ u →
      OneLine (errorChain e.report) := by
    intro v u f he hv
    unfold ByteValue.parseU64 at he
    split at he
    · cases he
    · rename_i source hp
      cases he
      rw [ByteValue.Err.report, errorChain_from]
      exact because_line.2 ⟨line3 (by decide) (fun hn => hs (by rw [hv]; simp [hn])) (by decide),
        number_line (number_message (number_reason hp))⟩
  have suffix : ∀ {ub : Str} {cs : List Char} {v : Str},
      (stripSuffix ub s).or (ByteValue.stripSuffixChar cs s) = some v → ∃ u, s = v ++ u := by
    intro ub cs v h
    rw [Option.or_eq_some_iff] at h
    rcases h with h | ⟨-, h⟩
    · exact ⟨_, stripSuffix_eq_some.1 h⟩
    · obtain ⟨c, -, h⟩ := stripSuffixChar_eq_some.1 h; exact ⟨_, h⟩
  unfold ByteValue.fromStr at h
  split at h
  · cases h; rw [ByteValue.Err.report, errorChain_root]; decide
  split at h
  · cases h
  split at h
  · rename_i hv; obtain ⟨u, hu⟩ := suffix hv; exact hint _ _ _ h hu
  split at h
  · rename_i hv; obtain ⟨u, hu⟩ := suffix hv; exact hint _ _ _ h hu
  split at h
  · rename_i hv; obtain ⟨u, hu⟩ := suffix hv; exact hint _ _ _ h hu
  split at h
  · rename_i hv; obtain ⟨c, -, hu⟩ := stripSuffixChar_eq_some.1 hv; exact hint _ _ _ h hu
  · cases h; rw [ByteValue.Err.report, errorChain_root]; exact line3 (by decide) hs (by decide)

example : ∃ e, ByteValue.fromStr "5tb".toList = .error e ∧ '\n' ∉ errorChain e.report :=
  ⟨_, rfl, C94_byte_value "5tb".toList _ rfl (by decide)⟩

/-- **C94**: sets of CPUs. -/
theorem C94_cpu_set (s : Str) (e : ParseCpuSetError) (h : CpuSet.fromStr s = .error e) (hs : '\n' ∉ s) :
    '\n' ∉ errorChain e.report := by
  have h := C93_cpu_set s e h
  generalize errorChain e.report = m at h ⊢
  cases h with
  | number h1 h2 h3 =>
    exact because_line.2 ⟨line3 (by decide) (endOfRange_line h2 (split_line hs h1)) (by decide), number_line h3⟩

example : ∃ e, CpuSet.fromStr "0-2,x".toList = .error e ∧ '\n' ∉ errorChain e.report :=
  ⟨_, rfl, C94_cpu_set "0-2,x".toList _ rfl (by decide)⟩

/-- **C94**: durations. -/
theorem C94_duration (s : Str) (e : DurationError) (h : durationParse s = .err e) (hs : '\n' ∉ s) :
    '\n' ∉ errorChain e.report := by
  cases e <;> rw [DurationError.report, errorChain_root]
  · decide
  · obtain ⟨ts, -, rfl, -⟩ := (C08_duration_error_missing_unit s _).1 h
    exact line3 (by decide) (fun h => hs (by simp [h])) (by decide)
  · obtain ⟨rfl, -⟩ := (C08_duration_error_no_digits s _).1 h
    exact line3 (by decide) hs (by decide)
  · decide
  · obtain ⟨ts, ds, tail, -, rfl, -⟩ := (C08_duration_error_invalid_unit s _).1 h
    exact line3 (by decide) (fun h => hs (by simp [h])) (by decide)

example : ∃ e, durationParse "1h5x".toList = .err e ∧ '\n' ∉ errorChain e.report :=
  ⟨_, rfl, C94_duration "1h5x".toList _ rfl (by decide)⟩

/-- **C94**: links. -/
theorem C94_link (s : Str) (e : IdentifierError) (h : Link.parse s = .error e) (hs : '\n' ∉ s) :
    '\n' ∉ errorChain e.report :=
  identifier_line (C93_link s e h) fun h => hs ((List.takeWhile_prefix _).subset h)

example : ∃ e, Link.parse "-a:b".toList = .error e ∧ '\n' ∉ errorChain e.report :=
  ⟨_, rfl, C94_link "-a:b".toList _ rfl (by decide)⟩

/-- **C94**: IPC modes. -/
theorem C94_ipc (s : Str) (e : IdentifierError) (h : Ipc.parse s = .error e) (hs : '\n' ∉ s) :
    '\n' ∉ errorChain (Ipc.report e) := by
  have h := C93_ipc s e h
  generalize errorChain (Ipc.report e) = m at h ⊢
  cases h with
  | service h1 h2 => subst h1; exact because_line.2 ⟨by decide, identifier_line h2 fun h => hs (by simp [h])⟩

example : ∃ e, Ipc.parse "service:-".toList = .error e ∧ '\n' ∉ errorChain (Ipc.report e) :=
  ⟨_, rfl, C94_ipc "service:-".toList _ rfl (by decide)⟩

/-- **C94**: network modes. -/
theorem C94_network_mode (s : Str) (e : IdentifierError) (h : NetworkMode.parse s = .error e) (hs : '\n' ∉ s) :
    '\n' ∉ errorChain (NetworkMode.report e) := by
  have h := C93_network_mode s e h
  generalize errorChain (NetworkMode.report e) = m at h ⊢
  cases h with
  | name h1 h2 =>
    refine because_line.2 ⟨by decide, identifier_line h2 fun hn => hs ?_⟩
    rcases h1 with rfl | rfl <;> simp [hn]

example : ∃ e, NetworkMode.parse "service:a b".toList = .error e ∧ '\n' ∉ errorChain (NetworkMode.report e) :=
  ⟨_, rfl, C94_network_mode "service:a b".toList _ rfl (by decide)⟩

/-- **C94**: sources of volumes of other services. -/
theorem C94_volumes_from (s : Str) (e : IdentifierError) (h : VolumesFrom.parse s = .error e) (hs : '\n' ∉ s) :
    '\n' ∉ errorChain e.report := by
  obtain ⟨t, i, h1, h2, h3⟩ := C93_volumes_from s e h
  refine identifier_line h3 fun hn => hs ?_
  rcases h2 with rfl | rfl <;> rcases h1 with rfl | rfl | rfl <;> simp [hn]

example : ∃ e, VolumesFrom.parse "container:a b:ro".toList = .error e ∧ '\n' ∉ errorChain e.report :=
  ⟨_, rfl, C94_volumes_from "container:a b:ro".toList _ rfl (by decide)⟩

/-- **C94**: build networks. -/
theorem C94_build_network (s : Str) (e : IdentifierError) (h : buildNetworkParse s = .error e) (hs : '\n' ∉ s) :
    '\n' ∉ errorChain e.report := identifier_line (C93_build_network s e h) hs

example : ∃ e, buildNetworkParse "a b".toList = .error e ∧ '\n' ∉ errorChain e.report :=
  ⟨_, rfl, C94_build_network "a b".toList _ rfl (by decide)⟩

/-- **C94**: platforms. -/
theorem C94_platform (s e : Str) (h : platforms.fromStr s = .error e) (hs : '\n' ∉ s) :
    '\n' ∉ errorChain (platformReport e) := by
  rw [(C93_platform s e h).2]; exact line3 (by decide) hs (by decide)

example : ∃ e, platforms.fromStr "linux/amd65".toList = .error e ∧ '\n' ∉ errorChain (platformReport e) :=
  ⟨_, rfl, C94_platform "linux/amd65".toList _ rfl (by decide)⟩

end Props
