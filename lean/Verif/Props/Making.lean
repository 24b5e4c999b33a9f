import Verif.Spec.Making
import Verif.Props.Structs
import Verif.Proofs.Equality

/- C86: constructors and conversions make what the corresponding document says. -/

namespace Props
open Rust Compose Compose.Derive Spec

/-- A valid value of a type that survives is read from what is written for it. -/
theorem written_of {α : Type} {c : Codec α} [Lawful c] {d : Content} {x : α} (hv : c.valid x) (hs : c.ser x = d) :
    Written c d x := ⟨hs, hs ▸ Lawful.read x hv⟩

theorem noExtensions : ((([] : IndexMap Str Content).map (·.1)).Nodup ∧ ∀ e ∈ ([] : IndexMap Str Content), ExtensionKey e.1) :=
  ⟨List.nodup_nil, nofun⟩

/-! ### Users -/

/-- C86: a user made from ids and names is written as these, with a colon before the group, and read from that text. -/
theorem C86_user (n m : Nat) (a b : Str) (hn : n < 2 ^ 32) (hm : m < 2 ^ 32) (ha : UserName a) (hb : UserName b) :
    Written Codecs.user (.str (decimalText n)) (User.ofId n) ∧
      Written Codecs.user (.str a) (User.ofName a) ∧
      Written Codecs.user (.str (decimalText n ++ ":".toList ++ decimalText m)) (User.ofIds n m) ∧
      Written Codecs.user (.str (a ++ ":".toList ++ decimalText m)) (User.ofNameId a m) ∧
      Written Codecs.user (.str (decimalText n ++ ":".toList ++ b)) (User.ofIdName n b) ∧
      Written Codecs.user (.str (a ++ ":".toList ++ b)) (User.ofNames a b) := by
  have hn' : n ≤ u32Max := by unfold u32Max; omega
  have hm' : m ≤ u32Max := by unfold u32Max; omega
  refine ⟨written_of ⟨hn', nofun⟩ ?_, written_of ⟨ha, nofun⟩ ?_, written_of ⟨hn', ?_⟩ ?_, written_of ⟨ha, ?_⟩ ?_,
    written_of ⟨hn', ?_⟩ ?_, written_of ⟨ha, ?_⟩ ?_⟩
  all_goals first
    | (rintro g ⟨⟩; assumption)
    | simp [Codecs.user, Codecs.text, User.display, User.ofId, User.ofName, User.ofIds, User.ofNameId, User.ofIdName,
        User.ofNames, User.ofIdOrName, IdOrName.ofId, IdOrName.ofName, IdOrName.display, decimalText, showNat]

example : Written Codecs.user (asText "www:33") (User.ofNameId "www".toList 33) :=
  (C86_user 0 33 "www".toList "www".toList (by decide) (by decide) ((C05_user_name_accepts _ _).1 rfl).1
    ((C05_user_name_accepts _ _).1 rfl).1).2.2.2.1

/-- C86: the same from ids or names, each of which is written as a number or a text by itself. -/
theorem C86_user_of_parts (u g : IdOrName) (hu : IdOrNameOk u) (hg : IdOrNameOk g) :
    Written Codecs.user (.str u.display) (User.ofIdOrName u) ∧
      Written Codecs.user (.str (u.display ++ ":".toList ++ g.display)) (User.ofPair u g) ∧
      (∀ n, n < 2 ^ 32 → Written Codecs.idOrName (.u64 n) (IdOrName.ofId n)) ∧
      (∀ a, UserName a → Written Codecs.idOrName (.str a) (IdOrName.ofName a)) := by
  refine ⟨written_of ⟨hu, nofun⟩ ?_, written_of ⟨hu, ?_⟩ ?_, fun n hn => written_of ?_ rfl, fun a ha => written_of ha rfl⟩
  · simp [Codecs.user, Codecs.text, User.display, User.ofIdOrName]
  · rintro _ ⟨⟩; exact hg
  · simp [Codecs.user, Codecs.text, User.display, User.ofPair]
  · show n ≤ u32Max
    unfold u32Max
    omega

example : Written Codecs.user (asText "1000:staff") (User.ofPair (.id 1000) (.name "staff".toList)) :=
  (C86_user_of_parts (.id 1000) (.name "staff".toList) (by decide : 1000 ≤ u32Max) ((C05_user_name_accepts _ _).1 rfl).1).2.1

/-! ### Links and other services' volumes -/

/-- C86: a link made from a service is written as its name. -/
theorem C86_link (service : Str) (h : Identifier service) : Written Codecs.link (.str service) (Link.ofIdentifier service) :=
  written_of h (by simp [Codecs.link, Codecs.text, Link.display, Link.ofIdentifier])

example : Written Codecs.link (asText "db") (Link.ofIdentifier "db".toList) := C86_link "db".toList ((C01_identifier_accepts _ "db".toList).1 rfl).1

/-- C86: volumes of a service are written as its name, and those of a container as its name after `container:`. -/
theorem C86_volumes_from_partial (name : Str) (h : Identifier name) :
    Written Codecs.volumesFrom (.str name) (VolumesFrom.ofSource (.service name)) ∧
      (name ≠ "ro".toList → name ≠ "rw".toList →
        Written Codecs.volumesFrom (.str ("container:".toList ++ name)) (VolumesFrom.ofSource (.container name))) := by
  refine ⟨written_of ⟨h, ?_, ?_⟩ ?_, fun h1 h2 => written_of ⟨h, ?_, ?_⟩ ?_⟩
  · rintro ⟨⟩
  · rintro ⟨⟩
  · simp [Codecs.volumesFrom, Codecs.text, VolumesFrom.display, VolumesFrom.ofSource, VolumesFromSource.display]
  · intro e
    exact h1 (by injection e with e _; injection e)
  · intro e
    exact h2 (by injection e with e _; injection e)
  · simp [Codecs.volumesFrom, Codecs.text, VolumesFrom.display, VolumesFrom.ofSource, VolumesFromSource.display]

example : Written Codecs.volumesFrom (asText "container:db") (VolumesFrom.ofSource (.container "db".toList)) :=
  (C86_volumes_from_partial "db".toList ((C01_identifier_accepts _ "db".toList).1 rfl).1).2 (by decide +kernel) (by decide +kernel)

/-- C86 is false for containers named `ro` or `rw`: what is written is read as a service. -/
theorem C86_volumes_from_false :
    (Identifier "ro".toList ∧
      Codecs.volumesFrom.ser (VolumesFrom.ofSource (.container "ro".toList)) = asText "container:ro" ∧
      Codecs.volumesFrom.de (asText "container:ro") = .ok ⟨.service "container".toList, true⟩) ∧
    (Identifier "rw".toList ∧
      Codecs.volumesFrom.ser (VolumesFrom.ofSource (.container "rw".toList)) = asText "container:rw" ∧
      Codecs.volumesFrom.de (asText "container:rw") = .ok ⟨.service "container".toList, false⟩) := by
  obtain ⟨h1, h2, h3, h4⟩ := C43_volumes_from_round_trip_false
  exact ⟨⟨h1, rfl, rfl⟩, h3, rfl, rfl⟩

/-! ### Ports -/

/-- C86: a single port is written as a number, whatever it is converted to. -/
theorem C86_port (E : Env) [EnvOk E] (n : Nat) (h : n < 65536) :
    Written Codecs.range (.u64 n) (Range.ofU16 n) ∧
      Written (Codecs.shortPort E) (.u64 n) (ShortPort.ofU16 n) ∧
      Written (Codecs.shortPort E) (.u64 n) (ShortPort.ofRange (.ofU16 n)) ∧
      Written (Codecs.shortPort E) (.u64 n) (ShortPort.new (.ofU16 n)) ∧
      Written Codecs.expose (.u64 n) (Expose.ofU16 n) ∧
      Written Codecs.expose (.u64 n) (Expose.ofRange (.ofU16 n)) ∧
      Written (struct (Structs.port E)) (mappingOf [("target", .u64 n)]) (Structs.portNew E n) := by
  have hn : n ≤ 65535 := by omega
  have hr : PortNumbers (Range.ofU16 n) := ⟨hn, nofun⟩
  have hs : ShortPortOk (Ip := E.ip.Ty) (ShortPort.ofU16 n) := ⟨⟨hr, nofun⟩, nofun⟩
  exact ⟨written_of hr rfl, written_of hs rfl, written_of hs rfl, written_of hs rfl, written_of ⟨hr, nofun⟩ rfl,
    written_of ⟨hr, nofun⟩ rfl, written_of ⟨nofun, hn, nofun, nofun, nofun, nofun, nofun, noExtensions, trivial⟩ rfl⟩

example : Written (Codecs.shortPort sampleEnv) (.u64 8080) (ShortPort.ofU16 8080) := (C86_port sampleEnv 8080 (by decide)).2.1

/-- C86: a range of ports is written as its ends, whatever it is converted to. -/
theorem C86_port_range (E : Env) [EnvOk E] (s e : Nat) (h : s < e) (he : e < 65536) :
    ∃ r, Range.ofPair s e = .ok r ∧
      Written Codecs.range (.str (decimalText s ++ "-".toList ++ decimalText e)) r ∧
      Written (Codecs.shortPort E) (.str (decimalText s ++ "-".toList ++ decimalText e)) (ShortPort.ofRange r) ∧
      Written (Codecs.shortPort E) (.str (decimalText s ++ "-".toList ++ decimalText e)) (ShortPort.new (.ofRange r)) ∧
      Written Codecs.expose (.str (decimalText s ++ "-".toList ++ decimalText e)) (Expose.ofRange r) := by
  have hr : PortNumbers ⟨s, some e⟩ := ⟨by show s ≤ 65535; omega, by rintro _ ⟨⟩; omega⟩
  have hs : ShortPortOk (Ip := E.ip.Ty) (ShortPort.ofRange ⟨s, some e⟩) := ⟨⟨hr, nofun⟩, nofun⟩
  refine ⟨⟨s, some e⟩, (C13_range_new s (some e) _).2 (.inr (.inr ⟨e, rfl, h, rfl⟩)), written_of hr ?_, written_of hs ?_,
    written_of hs ?_, written_of ⟨hr, nofun⟩ ?_⟩
  all_goals simp [Codecs.range, Range.serialize, Range.toStr, Codecs.shortPort, ShortPort.serialize, ShortPort.ofRange,
    ShortPort.new, ShortPort.toStr, ShortPort.ipPart, ShortPort.protocolPart, ShortRanges.serialize, ShortRanges.toStr, ShortRanges.ofRange,
    Codecs.expose, Expose.serialize, Expose.toStr, Expose.ofRange, decimalText, showNat]

example : ∃ r, Range.ofPair 8000 8010 = .ok r ∧ Written Codecs.range (asText "8000-8010") r :=
  have ⟨r, h, h', _⟩ := C86_port_range sampleEnv 8000 8010 (by decide) (by decide)
  ⟨r, h, h'⟩

/-! ### Volumes -/

/-- C86: an absolute path is a host path; a source is made from a path exactly if the path is a host path. -/
theorem C86_source (p : Str) :
    (AbsolutePath p → HostPath (HostPath.ofAbsolute p) ∧ VolumeSource.ofAbsolute p = .hostPath p ∧
      VolumeSource.parse p = .ok (VolumeSource.ofAbsolute p)) ∧
    (HostPath p → VolumeSource.ofHostPath p = .hostPath p ∧ VolumeSource.parse p = .ok (VolumeSource.ofHostPath p)) ∧
    (Identifier p → VolumeSource.ofIdentifier p = .volume p ∧ VolumeSource.parse p = .ok (VolumeSource.ofIdentifier p)) ∧
    (∀ x, VolumeSource.ofPath p = .ok x ↔ HostPath p ∧ x = .hostPath p) ∧
    (∀ e, VolumeSource.ofPath p = .error e ↔ ¬ HostPath p) := by
  have h1 : HostPath p → VolumeSource.parse p = .ok (.hostPath p) := fun h => (C35_source_parse p _).2 ⟨rfl, h⟩
  refine ⟨fun h => ⟨.inl h, rfl, h1 (.inl h)⟩, fun h => ⟨rfl, h1 h⟩, fun h => ⟨rfl, (C35_source_parse p _).2 ⟨rfl, h⟩⟩, ?_, ?_⟩
  · intro x
    have h := C36_host_path_new p
    unfold VolumeSource.ofPath
    cases hn : hostPathNew p with
    | ok q =>
      obtain ⟨h1, rfl⟩ := (h q).1 hn
      simp [Except.map, VolumeSource.ofHostPath, h1, eq_comm]
    | error e =>
      simp only [Except.map, reduceCtorEq, false_iff, not_and]
      intro h1
      have := (h p).2 ⟨h1, rfl⟩
      rw [this] at hn
      cases hn
  · intro e
    have h := C36_host_path_new p
    unfold VolumeSource.ofPath
    cases hn : hostPathNew p with
    | ok q => simp [Except.map, ((h q).1 hn).1]
    | error e' =>
      have h1 : ¬ HostPath p := fun h1 => by
        have := (h p).2 ⟨h1, rfl⟩
        rw [this] at hn
        cases hn
      cases e
      cases e'
      simp [Except.map, h1]

example : VolumeSource.ofPath "./data".toList = .ok (.hostPath "./data".toList) ∧
    ∃ e, VolumeSource.ofPath "data".toList = .error e := ⟨rfl, _, rfl⟩

/-- C86: a volume made from the path in the container, and perhaps a source, is written as that, with a colon between; it is
read from this text exactly if neither contains a colon. -/
theorem C86_short_volume (p : Str) (x : VolumeSource) (hp : AbsolutePath p) (hx : SourceText x.toStr x) :
    Codecs.shortVolume.ser (ShortVolume.new p) = .str p ∧
      (Codecs.shortVolume.de (.str p) = .ok (ShortVolume.new p) ↔ ':' ∉ p) ∧
      Codecs.shortVolume.ser ⟨p, some (VolumeShortOptions.new x)⟩ = .str (x.toStr ++ ":".toList ++ p) ∧
      (Codecs.shortVolume.de (.str (x.toStr ++ ":".toList ++ p)) = .ok ⟨p, some (VolumeShortOptions.new x)⟩ ↔
        ':' ∉ p ∧ ':' ∉ x.toStr) := by
  have a := C37_short_volume_round_trip (ShortVolume.new p) ⟨hp, nofun⟩
  have b := C37_short_volume_round_trip ⟨p, some (VolumeShortOptions.new x)⟩ ⟨hp, by rintro _ ⟨⟩; exact hx⟩
  have key : ∀ (v : ShortVolume), Codecs.shortVolume.de (.str v.toStr) = .ok v ↔ ShortVolume.fromStr v.toStr = .ok v := by
    intro v
    simp only [Codecs.shortVolume, Codecs.text]
    cases ShortVolume.fromStr v.toStr <;> simp [Except.toOption, Outcome.ofOption]
  have e1 : (ShortVolume.new p).toStr = p := rfl
  have e2 : (ShortVolume.mk p (some (VolumeShortOptions.new x))).toStr = x.toStr ++ ":".toList ++ p := by
    simp [ShortVolume.toStr, VolumeShortOptions.new, ShortVolume.optionsPart]
  refine ⟨rfl, ?_, congrArg Content.str e2, ?_⟩
  · refine (key (ShortVolume.new p)).trans (a.trans ?_)
    simp [ShortVolume.new]
  · rw [← e2, key, b]
    simp [VolumeShortOptions.new]

example : Codecs.shortVolume.de (asText "data:/srv") = .ok ⟨"/srv".toList, some (VolumeShortOptions.new (.volume "data".toList))⟩ :=
  (C86_short_volume "/srv".toList (.volume "data".toList) ⟨_, rfl⟩ ⟨rfl, ((C01_identifier_accepts _ "data".toList).1 rfl).1⟩).2.2.2.2 (by decide +kernel)

/-- C86: a mount made from common options is written as its type and source, followed by the entries of the options. -/
theorem C86_mount (c : Record Structs.common) (hc : recordValid Structs.common c) (es : List (Content × Content))
    (hes : (struct Structs.common).ser c = .map es) (source : Str) :
    Written Structs.mount (.map ((asText "type", asText "volume") :: es)) (.volume (Structs.mountVolumeNew c)) ∧
      Written Structs.mount (.map ((asText "type", asText "tmpfs") :: es)) (.tmpfs (Structs.mountTmpfsNew c)) ∧
      Written Structs.mount (.map ((asText "type", asText "cluster") :: (asText "source", .str source) :: es))
        (.cluster (Structs.mountClusterNew source c)) ∧
      (HostPath source →
        Written Structs.mount (.map ((asText "type", asText "bind") :: (asText "source", .str source) :: es))
            (.bind (Structs.mountBindNew source c)) ∧
          Written Structs.mount (.map ((asText "type", asText "npipe") :: (asText "source", .str source) :: es))
            (.namedPipe (Structs.mountNamedPipeNew source c))) := by
  have hes' : ((write Structs.common c).map fun e => (Content.str e.1, e.2)) = es := by injection hes
  subst hes'
  have nil : write Structs.common c ++ [] = write Structs.common c := List.append_nil _
  have made : ∀ (m : Structs.MountOf) (pre : List (Str × Content)), Structs.mount.valid m →
      Structs.mountWrite m = pre ++ (write Structs.common c ++ []) →
      Written Structs.mount (.map ((pre ++ write Structs.common c).map fun e => (Content.str e.1, e.2))) m :=
    fun m pre hv h => by
      rw [nil] at h
      rw [← h]
      exact ⟨rfl, C71_mount m hv⟩
  refine ⟨?_, ?_, ?_, fun h => ⟨?_, ?_⟩⟩
  · exact made (.volume (Structs.mountVolumeNew c)) [(str!"type", asText "volume")] ⟨nofun, nofun, hc, trivial⟩ rfl
  · exact made (.tmpfs (Structs.mountTmpfsNew c)) [(str!"type", asText "tmpfs")] ⟨nofun, hc, trivial⟩ rfl
  · exact made (.cluster (Structs.mountClusterNew source c)) [(str!"type", asText "cluster"), (str!"source", .str source)]
      ⟨trivial, hc, trivial⟩ rfl
  · exact made (.bind (Structs.mountBindNew source c)) [(str!"type", asText "bind"), (str!"source", .str source)]
      ⟨h, nofun, hc, trivial⟩ rfl
  · exact made (.namedPipe (Structs.mountNamedPipeNew source c)) [(str!"type", asText "npipe"), (str!"source", .str source)]
      ⟨h, hc, trivial⟩ rfl

example : Written Structs.mount
    (mappingOf [("type", asText "bind"), ("source", asText "./data"), ("target", asText "/srv"), ("read_only", .bool true)])
    (.bind (Structs.mountBindNew "./data".toList ("/srv".toList, true, none, [], ()))) :=
  ((C86_mount ("/srv".toList, true, none, [], ()) ⟨⟨_, rfl⟩, trivial, nofun, noExtensions, trivial⟩ _ rfl "./data".toList).2.2.2
    ((C36_host_path_new "./data".toList "./data".toList).1 rfl).1).1

/-- C86: common options made from a target are written as the target alone; so is a `tmpfs` mount, after its type. -/
theorem C86_target (target : Str) (h : AbsolutePath target) :
    Written (struct Structs.common) (mappingOf [("target", .str target)]) (Structs.commonNew target) ∧
      Written Structs.mount (mappingOf [("type", asText "tmpfs"), ("target", .str target)])
        (.tmpfs (Structs.mountTmpfsOfTarget target)) := by
  have hv : recordValid Structs.common (Structs.commonNew target) := ⟨h, trivial, nofun, noExtensions, trivial⟩
  exact ⟨⟨rfl, Lawful.read (c := struct Structs.common) (Structs.commonNew target) hv⟩,
    (C86_mount (Structs.commonNew target) hv _ rfl []).2.1⟩

example : Written Structs.mount (mappingOf [("type", asText "tmpfs"), ("target", asText "/run")])
    (.tmpfs (Structs.mountTmpfsOfTarget "/run".toList)) := (C86_target "/run".toList ⟨_, rfl⟩).2

/-- C86: the kind of a mount is the type it is written with. -/
theorem C86_mount_kind (m : Structs.MountOf) :
    ∃ es, Structs.mount.ser m = .map ((asText "type", .str m.kind) :: es) := by
  cases m <;> exact ⟨_, rfl⟩

example : (Structs.MountOf.namedPipe (Structs.mountNamedPipeNew "/pipe".toList (Structs.commonNew "/run".toList))).kind =
    "npipe".toList := rfl

/-- C86: options of a bind mount made from a propagation or an SELinux label are written as these alone. -/
theorem C86_bind_options (propagation : Structs.BindPropagation) (label : SELinux) :
    Written (struct Structs.bindOptions) (mappingOf [("propagation", Structs.bindPropagation.ser propagation)])
        (Structs.bindOptionsOfPropagation propagation) ∧
      Written (struct Structs.bindOptions) (mappingOf [("selinux", Codecs.selinux.ser label)])
        (Structs.bindOptionsOfSELinux label) ∧
      Written (struct Structs.bindOptions) (mappingOf []) (Structs.bindOptionsOfPropagation? none) ∧
      Written (struct Structs.bindOptions) (mappingOf []) (Structs.bindOptionsOfSELinux? none) :=
  ⟨written_of ⟨fun _ _ => trivial, trivial, nofun, noExtensions, trivial⟩ rfl,
    written_of ⟨nofun, trivial, fun _ _ => trivial, noExtensions, trivial⟩ rfl,
    written_of ⟨nofun, trivial, nofun, noExtensions, trivial⟩ rfl,
    written_of ⟨nofun, trivial, nofun, noExtensions, trivial⟩ rfl⟩

example : Written (struct Structs.bindOptions) (mappingOf [("propagation", asText "rshared")])
    (Structs.bindOptionsOfPropagation .rShared) := (C86_bind_options .rShared .shared).1

/-! ### Devices -/

/-- C86: all permissions are `rwm`; six bytes are a MAC address; a number is a major or minor number. -/
theorem C86_device (bs : List Nat) (n : Nat) :
    Permissions.fromStr "rwm".toList = .ok Permissions.all ∧ Permissions.all.display = "rwm".toList ∧
      (bs.length = 6 → (∀ b ∈ bs, b < 256) →
        Written Codecs.macAddress (.str (MacAddress.ofBytes bs).display) (MacAddress.ofBytes bs)) ∧
      (n < 65536 → (MajorMinorNumber.ofU16 n).display = decimalText n ∧
        MajorMinorNumber.fromStr (decimalText n) = .ok (MajorMinorNumber.ofU16 n)) := by
  refine ⟨rfl, rfl, fun h1 h2 => written_of (show MacOk ⟨bs⟩ from ⟨h1, fun b hb => Nat.le_of_lt_succ (h2 b hb)⟩) rfl, fun h => ⟨rfl, ?_⟩⟩
  exact (majorMinor_iff _ _).2 (.number (uint_showNat (by show n ≤ 65535; omega)))

example : Written Codecs.macAddress (asText "aa:bb:cc:00:01:02") (MacAddress.ofBytes [0xaa, 0xbb, 0xcc, 0, 1, 2]) :=
  (C86_device [0xaa, 0xbb, 0xcc, 0, 1, 2] 0).2.2.1 rfl (by decide)

/-- C86: a device reservation made from capabilities is written as these alone, without repetitions. -/
theorem C86_resource_device (cs : List Capability) (hc : ∀ c ∈ cs, Codecs.capability.valid c) :
    Written (struct Structs.resourceDevice) (mappingOf [("capabilities", .seq ((Meaning.firstsBy Eq cs).map Codecs.capability.ser))])
      (Structs.resourceDeviceNew cs) := by
  rw [← collectNew_eq RustEq.ofDecEq Eq cs]
  exact written_of ⟨⟨IndexSet.fresh_collectNew cs, fun c h => hc c (IndexSet.mem_collectNew h)⟩, nofun, nofun, ⟨List.Pairwise.nil, nofun⟩, ⟨List.Pairwise.nil, nofun⟩, noExtensions, trivial⟩ rfl

example : Written (struct Structs.resourceDevice) (mappingOf [("capabilities", .seq [asText "gpu"])])
    (Structs.resourceDeviceNew [.gpu, .gpu]) := ⟨rfl, rfl⟩

/-! ### Caches -/

/-- C86: a cache made from an image is written as the image; another type without options is written, but cannot be read. -/
theorem C86_cache_partial (i : Image) (hi : ImageText i.asStr i) :
    Written Codecs.cache (.str i.asStr) (Cache.fromImage i) ∧
      Written Codecs.cache (.str i.asStr) (Cache.ofType (CacheType.ofImage i)) ∧
      CacheOption (CacheOption.ofImage i) := by
  have h : Codecs.cache.valid ⟨.registry i, []⟩ := ⟨List.nodup_nil, nofun, hi, nofun⟩
  exact ⟨written_of h rfl, written_of h rfl, (image_option hi).1⟩

example : Written Codecs.cache (asText "alpine:3.20") (Cache.fromImage ⟨"alpine:3.20".toList, none, some (.tag 7)⟩) := ⟨rfl, rfl⟩

/-- C86 is false for caches made from any other type alone: what is written cannot be read. -/
theorem C86_cache_false (t : Str) :
    Codecs.cache.ser (Cache.ofType (.other t)) = .str ("type=".toList ++ t) ∧
      Codecs.cache.de (.str ("type=".toList ++ t)) ≠ .ok (Cache.ofType (.other t)) := by
  have e : (⟨.other t, []⟩ : Cache).show = "type=".toList ++ t := List.append_nil _
  refine ⟨congrArg Content.str e, fun h => ?_⟩
  have := C57_round_trip_false t
  rw [e] at this
  apply this
  simp only [Codecs.cache, Codecs.text] at h
  cases hp : Cache.parse ("type=".toList ++ t) with
  | error e => rw [hp] at h; cases h
  | ok c => rw [hp] at h; cases h; rfl

example : Codecs.cache.ser (Cache.ofType (.other "local".toList)) = asText "type=local" := (C86_cache_false "local".toList).1

/-! ### Configs, secrets, resources, environment files, includes -/

/-- C86: a config or secret made from a source is written as this source alone. -/
theorem C86_source_of_config (s : Str) :
    Written (struct Structs.config) (mappingOf [("file", .str s)]) (Structs.configOfSource (.ofPath s)) ∧
      Written (struct Structs.config) (mappingOf [("environment", .str s)]) (Structs.configOfSource (.environment s)) ∧
      Written (struct Structs.config) (mappingOf [("content", .str s)]) (Structs.configOfSource (.content s)) ∧
      Written (struct Structs.secret) (mappingOf [("file", .str s)]) (Structs.secretOfSource (.ofPath s)) ∧
      Written (struct Structs.secret) (mappingOf [("environment", .str s)]) (Structs.secretOfSource (.environment s)) := by
  refine ⟨written_of ?_ rfl, written_of ?_ rfl, written_of ?_ rfl, written_of ?_ rfl, written_of ?_ rfl⟩
  · exact ⟨trivial, ⟨List.Pairwise.nil, nofun⟩, noExtensions, trivial⟩
  · exact ⟨trivial, ⟨List.Pairwise.nil, nofun⟩, noExtensions, trivial⟩
  · exact ⟨trivial, ⟨List.Pairwise.nil, nofun⟩, noExtensions, trivial⟩
  · exact ⟨trivial, ⟨List.Pairwise.nil, nofun⟩, nofun, ⟨List.nodup_nil, nofun⟩, noExtensions, trivial⟩
  · exact ⟨trivial, ⟨List.Pairwise.nil, nofun⟩, nofun, ⟨List.nodup_nil, nofun⟩, noExtensions, trivial⟩

example : Written (struct Structs.config) (mappingOf [("file", asText "app.conf")]) (Structs.configOfSource (.ofPath "app.conf".toList)) :=
  (C86_source_of_config "app.conf".toList).1

/-- C86: a resource made from a network, volume, config or secret is written as this, and the document is read as a resource
made from the same, except for the order of its extensions. -/
theorem C86_resource (E : Env) [EnvOk E] :
    (∀ x, recordValid (Structs.network E) x → ∃ y,
      (Structs.resource E (Structs.network E)).ser (Resource.ofCompose x) = (struct (Structs.network E)).ser x ∧
      (Structs.resource E (Structs.network E)).de ((struct (Structs.network E)).ser x) = .ok (Resource.ofCompose y) ∧
      same (Structs.network E) x y) ∧
    (∀ is ∈ [Structs.volume, Structs.config, Structs.secret], ∀ x, recordValid is x → ∃ y,
      (Structs.resource E is).ser (Resource.ofCompose x) = (struct is).ser x ∧
      (Structs.resource E is).de ((struct is).ser x) = .ok (Resource.ofCompose y) ∧ same is x y) := by
  have key : ∀ (is : List Item), Proofs.LawfulUpTo (SameResource (same is)) (Structs.resource E is) → ∀ x, recordValid is x → ∃ y,
      (Structs.resource E is).ser (Resource.ofCompose x) = (struct is).ser x ∧
      (Structs.resource E is).de ((struct is).ser x) = .ok (Resource.ofCompose y) ∧ same is x y := by
    intro is h x hx
    obtain ⟨y, h1, h2⟩ := h.read (.compose x) hx
    cases h2 with
    | compose h2 => exact ⟨_, rfl, h1, h2⟩
  refine ⟨key _ inferInstance, fun is his => ?_⟩
  simp only [List.mem_cons, List.not_mem_nil, or_false] at his
  rcases his with rfl | rfl | rfl <;> exact key _ inferInstance

example : (Structs.resource sampleEnv Structs.volume).de (mappingOf [("driver", asText "local")]) =
    .ok (Resource.ofCompose (some "local".toList, [], .list [], none, [], ())) := rfl

/-- C86: a path is an environment file that is required, and an included file. -/
theorem C86_env_file (p : Str) :
    Written (struct Structs.envFileConfig) (mappingOf [("path", .str p)]) (Structs.envFileConfigOfPath p) ∧
      Written Structs.envFile (.str p) (Structs.EnvFiles.ofPath p) ∧
      Written (struct Structs.include) (mappingOf [("path", .str p)]) (Structs.includeOfPath p) := by
  exact ⟨written_of ⟨trivial, trivial, trivial⟩ rfl, ⟨rfl, rfl⟩, written_of ⟨trivial, nofun, nofun, trivial⟩ rfl⟩

example : Structs.envFile.de (asText "app.env") = .ok (Structs.EnvFiles.ofPath "app.env".toList) :=
  (C86_env_file "app.env".toList).2.1.2

/-- C86: environment files are written as the list of them. -/
theorem C86_env_files (l : List (ShortOrLong Str (Record Structs.envFileConfig))) :
    Written Structs.envFile (.seq (l.map (Codecs.shortOrLong Codecs.str (struct Structs.envFileConfig)).ser))
      (Structs.EnvFiles.ofList l) := by
  have h := Lawful.read (c := Codecs.list (Codecs.shortOrLong Codecs.str (struct Structs.envFileConfig))) l
    fun x _ => by cases x <;> first | exact trivial | exact ⟨trivial, trivial, trivial⟩
  exact ⟨rfl, congrArg (Outcome.map Structs.EnvFiles.list) h⟩

example : Written Structs.envFile (.seq [asText "a.env", mappingOf [("path", asText "b.env"), ("required", .bool false)]])
    (Structs.EnvFiles.ofList [.short "a.env".toList, .long ("b.env".toList, false, ())]) := C86_env_files _

/-- C86: a limit is both soft and hard. -/
theorem C86_ulimit (n : Nat) (h : n < 2 ^ 64) :
    Written (struct Structs.ulimit) (mappingOf [("soft", .u64 n), ("hard", .u64 n)]) (Structs.ulimitOfU64 n) ∧
      Written (struct Structs.ulimit) (mappingOf [("soft", .i64 (-1)), ("hard", .i64 (-1))])
        (Structs.ulimitOfLimit .unlimited) ∧
      Written (Codecs.limit u64Max) (.u64 n) (Limit.ofValue n) ∧
      Written Codecs.count (.u64 n) (Count.ofU64 n) := by
  have hn : n ≤ u64Max := by unfold u64Max; omega
  have hl : (Codecs.limit u64Max).valid (.value n) := by rintro _ ⟨⟩; exact hn
  exact ⟨written_of ⟨hl, hl, noExtensions, trivial⟩ rfl, written_of ⟨nofun, nofun, noExtensions, trivial⟩ rfl,
    written_of hl rfl, written_of (by rintro _ ⟨⟩; exact hn) rfl⟩

example : Written (struct Structs.ulimit) (mappingOf [("soft", .u64 1024), ("hard", .u64 1024)]) (Structs.ulimitOfU64 1024) :=
  (C86_ulimit 1024 (by decide)).1

/-! ### Commands -/

/-- C86: a command is written as its text or its list of arguments. -/
theorem C86_command (s : Str) (l : List Str) :
    Written Codecs.command (.str s) (Codecs.Command.ofString s) ∧
      Written Codecs.command (.seq (l.map .str)) (Codecs.Command.ofList l) ∧
      Written Codecs.healthcheck (mappingOf [("test", .str s)])
        (Healthcheck.ofCommand { HealthCommand.default with test := some (Test.ofShell s) }) ∧
      Written Codecs.healthcheck (mappingOf [("test", .seq (asText "CMD" :: l.map .str))])
        (Healthcheck.ofCommand { HealthCommand.default with test := some (Test.ofCommand l) }) := by
  have hv : ∀ t, Codecs.healthcheck.valid (Healthcheck.ofCommand { HealthCommand.default with test := t }) := by
    rintro t _ ⟨⟩
    exact ⟨nofun, nofun, nofun, nofun, nofun, nofun, List.nodup_nil⟩
  exact ⟨⟨rfl, rfl⟩, written_of trivial rfl, written_of (hv _) rfl, written_of (hv _) rfl⟩

example : Written Codecs.healthcheck (mappingOf [("test", .seq [asText "CMD", asText "true"])])
    (Healthcheck.ofCommand { HealthCommand.default with test := some (Test.ofCommand ["true".toList]) }) :=
  (C86_command [] ["true".toList]).2.2.2

/-- C86: an item is written as itself, and a set of items as their list. -/
theorem C86_item_or_list (s : Str) (l : List Str) (h : l.Nodup) :
    Written (Codecs.itemOrList Codecs.str) (.str s) (ItemOrList.ofItem s) ∧
      Written (Codecs.itemOrList Codecs.str) (.seq (l.map .str)) (ItemOrList.ofSet l) := by
  exact ⟨⟨rfl, rfl⟩, written_of ⟨h.imp fun hne => decide_eq_false fun e => hne e.symm, fun _ _ => trivial⟩ rfl⟩

example : Written (Codecs.itemOrList Codecs.str) (.seq [asText "a", asText "b"]) (ItemOrList.ofSet ["a".toList, "b".toList]) :=
  (C86_item_or_list [] ["a".toList, "b".toList] (by decide +kernel)).2

/-! ### Contexts -/

/-- C86: a text is the context it is read as, whatever kind of string it is in; a URL is written as its text. -/
theorem C86_context (E : Env) (s : Str) (u : Url) :
    (Codecs.context E).de (.str s) = .ok (Context.ofText E.url s) ∧ Context.ofCow E.url s = Context.ofText E.url s ∧
      (Context.ofPath s).show = s ∧ (Context.ofUrl u).show = u.text ∧
      (Written (Codecs.context E) (.str s) (Context.ofPath s) ↔ E.url s = none) ∧
      (Written (Codecs.context E) (.str u.text) (Context.ofUrl u) ↔ E.url u.text = some u) := by
  have e : ∀ t, (Codecs.context E).de (.str t) = .ok (Context.parse E.url t) := fun t => rfl
  refine ⟨rfl, ?_, rfl, rfl, ?_, ?_⟩
  · unfold Context.ofCow Context.ofText Context.parse
    cases E.url s <;> rfl
  · simp only [Written, e, Context.parse, Context.ofPath]
    cases E.url s <;> simp [Codecs.context, Codecs.text, Context.show]
  · simp only [Written, e, Context.parse, Context.ofUrl]
    cases E.url u.text <;> simp [Codecs.context, Codecs.text, Context.show]

example : Written (Codecs.context sampleEnv) (asText "./app") (Context.ofPath "./app".toList) :=
  (C86_context sampleEnv "./app".toList ⟨[], [], [], none⟩).2.2.2.2.1.2 rfl

/-! ### Short or long syntax -/

/-- C86: a setting made from its short syntax is written as the short syntax, and read from it exactly if that is not a
mapping. -/
theorem C86_of_short {S L : Type} (short : Codec S) (long : Codec L) (document : Content) (x : S) :
    Written (Codecs.shortOrLong short long) document (ShortOrLong.ofShort x) ↔
      Written short document x ∧ ∀ es, document ≠ .map es := by
  refine and_congr_right' ?_ |>.trans (and_assoc (a := short.ser x = document)).symm
  constructor
  · intro h
    cases document with
    | map es => cases hl : long.de (.map es) <;> simp [Codecs.shortOrLong, hl, Outcome.map, ShortOrLong.ofShort] at h
    | _ =>
      refine ⟨?_, nofun⟩
      simp only [Codecs.shortOrLong] at h
      generalize short.de _ = o at h
      cases o <;> cases h
      rfl
  · rintro ⟨h, hm⟩
    cases document with
    | map es => exact absurd rfl (hm es)
    | _ => simp [Codecs.shortOrLong, h, Outcome.map, ShortOrLong.ofShort]

example : Written (Codecs.shortOrLong Codecs.identifier (struct Structs.configOrSecret)) (asText "db") (ShortOrLong.ofShort "db".toList) :=
  (C86_of_short _ _ _ _).2 ⟨written_of ((C01_identifier_accepts _ "db".toList).1 rfl).1 rfl, nofun⟩

/-- C86: a setting made from its long syntax is written as the long syntax, and read from it exactly if that is a mapping. -/
theorem C86_of_long {S L : Type} (short : Codec S) (long : Codec L) (document : Content) (x : L) :
    Written (Codecs.shortOrLong short long) document (ShortOrLong.ofLong x) ↔
      Written long document x ∧ ∃ es, document = .map es := by
  refine and_congr_right' ?_ |>.trans (and_assoc (a := long.ser x = document)).symm
  constructor
  · intro h
    cases document with
    | map es =>
      refine ⟨?_, _, rfl⟩
      simp only [Codecs.shortOrLong] at h
      generalize long.de _ = o at h
      cases o <;> cases h
      rfl
    | _ =>
      simp only [Codecs.shortOrLong] at h
      generalize short.de _ = o at h
      cases o <;> cases h
  · rintro ⟨h, es, rfl⟩
    simp [Codecs.shortOrLong, h, Outcome.map, ShortOrLong.ofLong]

example (E : Env) [EnvOk E] : Written (Codecs.shortOrLong (Codecs.shortPort E) (struct (Structs.port E))) (mappingOf [("target", .u64 80)])
    (ShortOrLong.ofLong (Structs.portNew E 80)) :=
  (C86_of_long _ _ _ _).2 ⟨(C86_port E 80 (by decide)).2.2.2.2.2.2, _, rfl⟩

/-- C86: a path is an environment file or an included file by itself, and a number a limit by itself. -/
theorem C86_short_settings (p : Str) (n : Nat) (h : n < 2 ^ 64) :
    Written (Codecs.shortOrLong Codecs.str (struct Structs.envFileConfig)) (.str p) (ShortOrLong.ofString p) ∧
      Written (Codecs.shortOrLong Codecs.str (struct Structs.include)) (.str p) (ShortOrLong.ofString p) ∧
      Written (Codecs.shortOrLong (Codecs.limit u64Max) (struct Structs.ulimit)) (.u64 n) (ShortOrLong.ofU64 n) :=
  ⟨⟨rfl, rfl⟩, ⟨rfl, rfl⟩, (C86_of_short _ _ _ _).2 ⟨(C86_ulimit n h).2.2.1, nofun⟩⟩

example : Written (Codecs.shortOrLong (Codecs.limit u64Max) (struct Structs.ulimit)) (.u64 65535) (ShortOrLong.ofU64 65535) :=
  (C86_short_settings [] 65535 (by decide)).2.2

end Props
