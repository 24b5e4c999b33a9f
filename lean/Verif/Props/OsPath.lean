import Verif.Spec.OsPath
import Verif.Props.Volumes
import Verif.Props.Device
import Verif.Props.Build
import Verif.Props.Modes

/- C109: paths that are not Unicode are kept, or writing them fails. -/

namespace Props
open Rust Compose Spec

private theorem colon_byte : AsciiByte ':' 0x3A := ⟨by decide, by decide⟩
private theorem slash_byte : AsciiByte '/' 0x2F := ⟨by decide, by decide⟩
private theorem dot_byte : AsciiByte '.' 0x2E := ⟨by decide, by decide⟩

/-- C109: the checks of paths look at the first bytes only. -/
theorem C109_new (p q : OsPath) :
    (p.absoluteNew = .ok q ↔ OsAbsolute p ∧ q = p) ∧ (p.hostNew = .ok q ↔ OsHost p ∧ q = p) := by
  have habs : p.head? = some 0x2F ↔ OsAbsolute p := by
    cases p with
    | nil => exact ⟨fun h => (by cases h), fun ⟨r, h⟩ => (by cases h)⟩
    | cons x xs =>
      constructor
      · intro h; cases h; exact ⟨xs, rfl⟩
      · rintro ⟨r, h⟩; cases h; rfl
  constructor
  · unfold OsPath.absoluteNew
    rw [← habs]
    split
    · rename_i h; exact ⟨fun e => (by cases e; exact ⟨h, rfl⟩), fun e => (by rw [e.2])⟩
    · rename_i h; exact ⟨fun e => (by cases e), fun e => absurd e.1 h⟩
  · have hdots : OsPath.startsWithDots p = true ↔
        (p = [0x2E] ∨ p = [0x2E, 0x2E] ∨ (∃ r, p = 0x2E :: 0x2F :: r) ∨ ∃ r, p = 0x2E :: 0x2E :: 0x2F :: r) := by
      unfold OsPath.startsWithDots
      simp only [Bool.or_eq_true, decide_eq_true_eq]
      rcases p with _ | ⟨a, _ | ⟨b, _ | ⟨c, r⟩⟩⟩
      · simp
      · by_cases ha : a = 0x2F
        · subst ha; simp
        · simp [List.takeWhile, ha]
      · by_cases ha : a = 0x2F
        · subst ha; simp
        · by_cases hb : b = 0x2F
          · subst hb; simp [List.takeWhile, ha]
          · simp [List.takeWhile, ha, hb]
      · by_cases ha : a = 0x2F
        · subst ha; simp
        · by_cases hb : b = 0x2F
          · subst hb; simp [List.takeWhile, ha]
          · by_cases hc : c = 0x2F
            · subst hc; simp [List.takeWhile, ha, hb]
            · simp [List.takeWhile, ha, hb, hc]
    unfold OsPath.hostNew
    have hall : (decide (p.head? = some 0x2F) || OsPath.startsWithDots p) = true ↔ OsHost p := by
      rw [Bool.or_eq_true, decide_eq_true_eq, habs, hdots]
      rfl
    split
    · rename_i h; exact ⟨fun e => (by cases e; exact ⟨hall.mp h, rfl⟩), fun e => (by rw [e.2])⟩
    · rename_i h; exact ⟨fun e => (by cases e), fun e => absurd (hall.mpr e.1) h⟩

example : OsPath.hostNew [0x2E, 0x2F, 0xFF] = .ok [0x2E, 0x2F, 0xFF] := by decide

/-- C109: a path that is a setting of its own is written exactly if it is Unicode, as the text that is read as it. -/
theorem C109_path (p : OsPath) :
    (∀ s, p.serialize = .ok s ↔ p = utf8 s) ∧ (p.serialize = .error () ↔ ¬ Unicode p) := by
  have key : ∀ s, p.serialize = .ok s ↔ p = utf8 s := by
    intro s
    rw [← osToStr_iff]
    unfold OsPath.serialize
    cases osToStr p with
    | none => exact ⟨fun h => (by cases h), fun h => (by cases h)⟩
    | some t => exact ⟨fun h => (by cases h; rfl), fun h => (by cases h; rfl)⟩
  refine ⟨key, ?_⟩
  constructor
  · rintro h ⟨s, hs⟩
    rw [(key s).mpr hs] at h
    cases h
  · intro h
    cases hp : p.serialize with
    | error => rfl
    | ok s => exact absurd ⟨s, (key s).mp hp⟩ h

example : OsPath.serialize [0x2F, 0xC3, 0xA4] = .ok "/ä".toList := by decide +kernel
example : OsPath.serialize [0x2F, 0xFF] = .error () := by decide +kernel

/-- C109: a build context is written, and converted to a text, exactly if its path is Unicode, or it is a URL; otherwise it
is given back. -/
theorem C109_context (parseUrl : Str → Option Url) (c : OsContext) (s : Str) :
    (c.intoString = .ok s ↔ c.serialize = .ok s) ∧
    (∀ c', c.intoString = .error c' ↔ c' = c ∧ ∃ p, c = .path p ∧ ¬ Unicode p) ∧
    (∀ p, c = .path p → c.serialize = .ok s → parseUrl s = none → OsContext.parse parseUrl s = c) ∧
    (∀ u, c = .url u → (c.serialize = .ok s ↔ s = u.text)) := by
  cases c with
  | url u =>
    refine ⟨⟨fun h => (by cases h; rfl), fun h => (by cases h; rfl)⟩, fun c' => ⟨fun h => (by cases h), fun h => (by obtain ⟨_, p, hp, _⟩ := h; cases hp)⟩,
      fun p h => (by cases h), fun v hv => ?_⟩
    cases hv
    exact ⟨fun h => (by cases h; rfl), fun h => (by rw [h]; rfl)⟩
  | path p =>
    refine ⟨?_, ?_, ?_, fun u h => (by cases h)⟩
    · show (OsContext.intoString (.path p) = .ok s ↔ p.serialize = .ok s)
      simp only [OsContext.intoString, OsPath.serialize]
      cases osToStr p with
      | none => exact ⟨fun h => (by cases h), fun h => (by cases h)⟩
      | some t => exact ⟨fun h => (by cases h; rfl), fun h => (by cases h; rfl)⟩
    · intro c'
      rw [show (∃ q, OsContext.path p = .path q ∧ ¬ Unicode q) ↔ ¬ Unicode p from
        ⟨fun ⟨q, h, hq⟩ => (by cases h; exact hq), fun h => ⟨p, rfl, h⟩⟩]
      simp only [OsContext.intoString]
      cases ho : osToStr p with
      | none =>
        refine ⟨fun h => ?_, fun h => by rw [h.1]⟩
        cases h
        refine ⟨rfl, fun ⟨t, ht⟩ => ?_⟩
        rw [(osToStr_iff p t).mpr ht] at ho
        cases ho
      | some t => exact ⟨fun h => (by cases h), fun h => absurd ⟨t, (osToStr_iff p t).mp ho⟩ h.2⟩
    · intro q hq hs hu
      cases hq
      unfold OsContext.parse
      rw [hu]
      simp only []
      rw [((C109_path p).1 s).mp hs]

example : OsContext.intoString (.path [0x61, 0xFF]) = .error (.path [0x61, 0xFF]) ∧
    OsContext.serialize (.path [0x61, 0xC3, 0xA4]) = .ok "aä".toList := by
  constructor
  · simp only [OsContext.intoString]
    rw [show osToStr [0x61, 0xFF] = none by decide +kernel]
  · decide +kernel

/-! ### Short volumes -/

/-- The short volume of the texts that are written. -/
private def shown (v : OsShortVolume) : ShortVolume :=
  ⟨lossy v.containerPath, v.options.map fun o => ⟨match o.source with
    | .hostPath p => .hostPath (lossy p)
    | .volume name => .volume name, o.readOnly, o.selinux⟩⟩

private theorem shown_display (v : OsShortVolume) : (shown v).toStr = v.display := by
  obtain ⟨c, _ | ⟨_ | _, _, _⟩⟩ := v <;> rfl

private theorem shown_ofText (v : ShortVolume) : shown (.ofText v) = v := by
  obtain ⟨c, _ | ⟨p | n, _, _⟩⟩ := v
  · show ShortVolume.mk (lossy (utf8 c)) none = _
    rw [lossy_utf8]
  · show ShortVolume.mk (lossy (utf8 c)) (some ⟨.hostPath (lossy (utf8 p)), _, _⟩) = _
    rw [lossy_utf8, lossy_utf8]
  · show ShortVolume.mk (lossy (utf8 c)) (some ⟨.volume n, _, _⟩) = _
    rw [lossy_utf8]

private theorem ofText_shown (v : OsShortVolume) : OsShortVolume.ofText (shown v) = withPaths (fun p => utf8 (lossy p)) v := by
  obtain ⟨c, _ | ⟨_ | _, _, _⟩⟩ := v <;> rfl

private theorem absolute_lossy {p : OsPath} (h : OsAbsolute p) : AbsolutePath (lossy p) := by
  obtain ⟨r, rfl⟩ := h
  exact ⟨_, lossy_ascii slash_byte r⟩

private theorem host_lossy {p : OsPath} (h : OsHost p) : HostPath (lossy p) := by
  rcases h with h | rfl | rfl | ⟨r, rfl⟩ | ⟨r, rfl⟩
  · exact .inl (absolute_lossy h)
  · exact .inr (.inl (by rw [lossy_ascii dot_byte]; rfl))
  · exact .inr (.inr (.inl (by rw [lossy_ascii dot_byte, lossy_ascii dot_byte]; rfl)))
  · exact .inr (.inr (.inr (.inl ⟨lossy r, by rw [lossy_ascii dot_byte, lossy_ascii slash_byte]; rfl⟩)))
  · exact .inr (.inr (.inr (.inr ⟨lossy r, by
      rw [lossy_ascii dot_byte, lossy_ascii dot_byte, lossy_ascii slash_byte]; rfl⟩)))

private theorem shown_ok {v : OsShortVolume} (h : OsShortVolumeOk v) : ShortVolumeOk (shown v) := by
  refine ⟨absolute_lossy h.1, ?_⟩
  obtain ⟨c, _ | ⟨p | n, _, _⟩⟩ := v
  · intro o ho; cases ho
  · intro o ho; cases ho; exact ⟨rfl, host_lossy (h.2 _ rfl)⟩
  · intro o ho; cases ho; exact ⟨rfl, h.2 _ rfl⟩

private theorem shown_colon {v : OsShortVolume} (h : OsShortVolumeOk v) :
    (':' ∉ (shown v).containerPath ∧ ∀ o, (shown v).options = some o → ':' ∉ o.source.toStr) ↔
      ∀ p ∈ volumePaths v, 0x3A ∉ p := by
  obtain ⟨c, _ | ⟨p | n, _, _⟩⟩ := v
  · simp [shown, volumePaths, mem_lossy colon_byte]
  · simp [shown, volumePaths, mem_lossy colon_byte, VolumeSource.toStr]
  · have hn : Identifier n := h.2 _ rfl
    have hc : ':' ∉ n := fun hm => by
      obtain ⟨a, b, rfl⟩ := List.append_of_mem hm
      exact identifier_suffix hn (p := ':' :: b) (by simp) ⟨a, rfl⟩
    simp [shown, volumePaths, mem_lossy colon_byte, VolumeSource.toStr, hc]

/-- The volume `/srv/\xff:/data`. -/
def oddVolume : OsShortVolume :=
  ⟨utf8 "/data".toList, some ⟨.hostPath (utf8 "/srv/".toList ++ [0xFF]), false, none⟩⟩

/-- C109: what is written of a short volume is always read (if no path has a colon), with every part of a path that is not
Unicode replaced by U+FFFD. -/
theorem C109_short_volume_read (v : OsShortVolume) (h : OsShortVolumeOk v) (hc : ∀ p ∈ volumePaths v, 0x3A ∉ p) :
    OsShortVolume.fromStr v.display = .ok (withPaths (fun p => utf8 (lossy p)) v) := by
  have := (C37_short_volume_round_trip (shown v) (shown_ok h)).mpr ((shown_colon h).mpr hc)
  rw [shown_display] at this
  unfold OsShortVolume.fromStr
  rw [this]
  exact congrArg _ (ofText_shown v)

/-- The odd volume is read back with the replacement character in its path. -/
example : OsShortVolume.fromStr oddVolume.display = .ok (withPaths (fun p => utf8 (lossy p)) oddVolume) :=
  C109_short_volume_read _ ⟨⟨_, rfl⟩, fun o ho => by cases ho; exact .inl ⟨_, rfl⟩⟩ (by decide +kernel)

/-- C109 for short volumes holds exactly for those whose paths are Unicode (and have no colon, see C37). -/
theorem C109_short_volume_partial (v : OsShortVolume) (h : OsShortVolumeOk v) :
    OsShortVolume.fromStr v.display = .ok v ↔ ∀ p ∈ volumePaths v, Unicode p ∧ 0x3A ∉ p := by
  constructor
  · intro he
    unfold OsShortVolume.fromStr at he
    cases hs : ShortVolume.fromStr v.display with
    | error e => rw [hs] at he; cases he
    | ok w =>
      rw [hs] at he
      cases he
      have hu : ∀ p ∈ volumePaths (.ofText w), Unicode p := by
        obtain ⟨c, _ | ⟨p | n, _, _⟩⟩ := w
        · intro q hq
          simp only [OsShortVolume.ofText, volumePaths, Option.map_none, List.mem_cons, List.not_mem_nil, or_false] at hq
          exact ⟨c, hq⟩
        · intro q hq
          simp only [OsShortVolume.ofText, OsSource.ofText, volumePaths, Option.map_some, List.mem_cons, List.not_mem_nil,
            or_false] at hq
          rcases hq with hq | hq
          · exact ⟨c, hq⟩
          · exact ⟨p, hq⟩
        · intro q hq
          simp only [OsShortVolume.ofText, OsSource.ofText, volumePaths, Option.map_some, List.mem_cons, List.not_mem_nil,
            or_false] at hq
          exact ⟨c, hq⟩
      have hn : ∀ p ∈ volumePaths (.ofText w), 0x3A ∉ p := by
        refine (shown_colon h).mp ?_
        rw [shown_ofText]
        have hok := shown_ok h
        rw [shown_ofText] at hok
        refine (C37_short_volume_round_trip w hok).mp ?_
        rw [← shown_display, shown_ofText] at hs
        exact hs
      exact fun p hp => ⟨hu p hp, hn p hp⟩
  · intro hp
    rw [C109_short_volume_read v h fun p hm => (hp p hm).2]
    have same : ∀ p, Unicode p → utf8 (lossy p) = p := by
      rintro p ⟨s, rfl⟩
      rw [lossy_utf8]
    obtain ⟨c, _ | ⟨p | n, _, _⟩⟩ := v
    · simp only [withPaths, Option.map_none]
      rw [same c (hp c (by simp [volumePaths])).1]
    · simp only [withPaths, Option.map_some]
      rw [same c (hp c (by simp [volumePaths])).1, same p (hp p (by simp [volumePaths])).1]
    · simp only [withPaths, Option.map_some]
      rw [same c (hp c (by simp [volumePaths])).1]

example : OsShortVolumeOk oddVolume ∧ (∀ p ∈ volumePaths oddVolume, 0x3A ∉ p) ∧
    oddVolume.display = "/srv/�:/data".toList := by
  refine ⟨⟨⟨_, rfl⟩, ?_⟩, by decide +kernel, by decide +kernel⟩
  intro o ho
  cases ho
  exact .inl ⟨_, rfl⟩

/-- C109 does not hold for short volumes: the path is written with U+FFFD instead of the byte. -/
theorem C109_short_volume_false :
    ¬ ∀ v, OsShortVolumeOk v → (∀ p ∈ volumePaths v, 0x3A ∉ p) → OsShortVolume.fromStr v.display = .ok v := by
  intro hall
  have hok : OsShortVolumeOk oddVolume := by
    refine ⟨⟨_, rfl⟩, ?_⟩
    intro o ho
    cases ho
    exact .inl ⟨_, rfl⟩
  have := (C109_short_volume_partial oddVolume hok).mp (hall oddVolume hok (by decide +kernel))
    (utf8 "/srv/".toList ++ [0xFF]) (by simp [volumePaths, oddVolume])
  obtain ⟨s, hs⟩ := this.1
  have := (osToStr_iff _ _).mpr hs
  have h2 : osToStr (utf8 "/srv/".toList ++ [0xFF]) = none := by decide +kernel
  rw [h2] at this
  cases this

/-! ### Devices -/

/-- C109: what is written of a device is always read (if no path has a colon), with every part of a path that is not
Unicode replaced by U+FFFD. -/
theorem C109_device_read (d : OsDevice) (h : OsAbsolute d.containerPath) (h1 : 0x3A ∉ d.hostPath)
    (h2 : 0x3A ∉ d.containerPath) :
    OsDevice.fromStr d.display = .ok ⟨utf8 (lossy d.hostPath), utf8 (lossy d.containerPath), d.permissions⟩ := by
  have := (C44_device_round_trip ⟨lossy d.hostPath, lossy d.containerPath, d.permissions⟩ (absolute_lossy h)).mpr
    ⟨fun hm => h1 ((mem_lossy colon_byte _).mp hm), fun hm => h2 ((mem_lossy colon_byte _).mp hm)⟩
  unfold OsDevice.fromStr
  rw [show d.display = Device.display ⟨lossy d.hostPath, lossy d.containerPath, d.permissions⟩ from rfl, this]
  rfl

example : OsDevice.fromStr (OsDevice.display ⟨[0x2F, 0xFF], [0x2F, 0x78], ⟨true, false, false⟩⟩) =
    .ok ⟨utf8 (lossy [0x2F, 0xFF]), utf8 (lossy [0x2F, 0x78]), ⟨true, false, false⟩⟩ :=
  C109_device_read ⟨[0x2F, 0xFF], [0x2F, 0x78], ⟨true, false, false⟩⟩ ⟨_, rfl⟩ (by decide) (by decide)

/-- C109 for devices holds exactly for those whose paths are Unicode (and have no colon, see C44). -/
theorem C109_device_partial (d : OsDevice) (h : OsAbsolute d.containerPath) :
    OsDevice.fromStr d.display = .ok d ↔
      Unicode d.hostPath ∧ Unicode d.containerPath ∧ 0x3A ∉ d.hostPath ∧ 0x3A ∉ d.containerPath := by
  constructor
  · intro he
    unfold OsDevice.fromStr at he
    cases hs : Device.fromStr d.display with
    | error e => rw [hs] at he; cases he
    | ok w =>
      rw [hs] at he
      cases he
      obtain ⟨a, b, c⟩ := w
      have hd : (OsDevice.ofText ⟨a, b, c⟩).display = Device.display ⟨a, b, c⟩ := by
        show lossy (utf8 a) ++ ':' :: lossy (utf8 b) ++ _ = a ++ ':' :: b ++ _
        rw [lossy_utf8, lossy_utf8]
        rfl
      rw [hd] at hs
      have hb : AbsolutePath b := by
        have := absolute_lossy h
        rwa [show lossy (OsDevice.ofText ⟨a, b, c⟩).containerPath = b from lossy_utf8 b] at this
      have hn := (C44_device_round_trip ⟨a, b, c⟩ hb).mp hs
      refine ⟨⟨a, rfl⟩, ⟨b, rfl⟩, fun hm => hn.1 ?_, fun hm => hn.2 ?_⟩
      · have := (mem_lossy colon_byte _).mpr hm
        rwa [show lossy (OsDevice.ofText ⟨a, b, c⟩).hostPath = a from lossy_utf8 a] at this
      · have := (mem_lossy colon_byte _).mpr hm
        rwa [show lossy (OsDevice.ofText ⟨a, b, c⟩).containerPath = b from lossy_utf8 b] at this
  · rintro ⟨⟨a, ha⟩, ⟨b, hb⟩, h1, h2⟩
    rw [C109_device_read d h h1 h2]
    obtain ⟨x, y, z⟩ := d
    simp only at ha hb ⊢
    rw [ha, hb, lossy_utf8, lossy_utf8]

example : OsDevice.fromStr (OsDevice.display ⟨utf8 "/dev/ä".toList, utf8 "/dev/x".toList, ⟨true, false, false⟩⟩) =
    .ok ⟨utf8 "/dev/ä".toList, utf8 "/dev/x".toList, ⟨true, false, false⟩⟩ :=
  (C109_device_partial _ ⟨_, rfl⟩).mpr ⟨⟨_, rfl⟩, ⟨_, rfl⟩, by decide +kernel, by decide +kernel⟩

/-- C109 does not hold for devices. -/
theorem C109_device_false :
    ¬ ∀ d : OsDevice, OsAbsolute d.containerPath → 0x3A ∉ d.hostPath → 0x3A ∉ d.containerPath →
      OsDevice.fromStr d.display = .ok d := by
  intro hall
  have := (C109_device_partial ⟨utf8 "/dev/".toList ++ [0xFF], utf8 "/dev/x".toList, ⟨true, false, false⟩⟩ ⟨_, rfl⟩).mp
    (hall _ ⟨_, rfl⟩ (by decide +kernel) (by decide +kernel))
  obtain ⟨s, hs⟩ := this.1
  have h1 := (osToStr_iff _ _).mpr hs
  have h2 : osToStr (utf8 "/dev/".toList ++ [0xFF]) = none := by decide +kernel
  rw [h2] at h1
  cases h1

/-! ### SSH authentication -/

/-- C109: what is written of an SSH entry is always read (if the id has no `=`), with every part of the path that is not
Unicode replaced by U+FFFD. -/
theorem C109_ssh_read (i : Str) (p : OsPath) (v : OsSshId) (h : OsSshId.new i p = .ok v) (hi : '=' ∉ i) :
    OsSshId.fromStr v.display = .ok ⟨i, utf8 (lossy p)⟩ := by
  unfold OsSshId.new at h
  split at h
  · cases h
  split at h
  · cases h
  rename_i h1 h2
  cases h
  unfold OsSshId.fromStr OsSshId.display
  rw [splitOnce_eq_some.2 ⟨rfl, hi⟩]
  unfold OsSshId.new
  simp only []
  rw [if_neg h1, if_neg]
  intro he
  have : lossy p = [] := by
    have := congrArg lossy he
    rwa [lossy_utf8] at this
  exact h2 ((lossy_eq_nil p).mp this)

example : OsSshId.fromStr (OsSshId.display ⟨"key".toList, [0x2F, 0xFF]⟩) = .ok ⟨"key".toList, utf8 (lossy [0x2F, 0xFF])⟩ :=
  C109_ssh_read "key".toList [0x2F, 0xFF] ⟨"key".toList, [0x2F, 0xFF]⟩ rfl (by decide)

/-- C109 for SSH entries holds exactly for those whose path is Unicode (and whose id has no `=`, see C58). -/
theorem C109_ssh_partial (i : Str) (p : OsPath) (v : OsSshId) (h : OsSshId.new i p = .ok v) :
    OsSshId.fromStr v.display = .ok v ↔ Unicode p ∧ '=' ∉ i := by
  have hv : v = ⟨i, p⟩ := by
    unfold OsSshId.new at h
    split at h
    · cases h
    split at h
    · cases h
    cases h; rfl
  constructor
  · intro he
    unfold OsSshId.fromStr at he
    cases hs : splitOnce '=' v.display with
    | none => rw [hs] at he; cases he
    | some ab =>
      obtain ⟨a, b⟩ := ab
      rw [hs] at he
      have hab := splitOnce_eq_some.1 hs
      have : v = ⟨a, utf8 b⟩ := by
        simp only [OsSshId.new] at he
        split at he
        · cases he
        split at he
        · cases he
        exact (Except.ok.inj he).symm
      rw [hv] at this
      cases this
      exact ⟨⟨b, rfl⟩, hab.2⟩
  · rintro ⟨⟨s, rfl⟩, hi⟩
    rw [C109_ssh_read i _ v h hi, lossy_utf8, hv]

example : OsSshId.new "key".toList (utf8 "/home/ä".toList) = .ok ⟨"key".toList, utf8 "/home/ä".toList⟩ ∧
    OsSshId.display ⟨"key".toList, [0x2F, 0xE2, 0x82, 0x2F]⟩ = "key=/�/".toList := by
  constructor
  · rfl
  · decide +kernel

/-- C109 does not hold for SSH entries. -/
theorem C109_ssh_false : ¬ ∀ i p v, OsSshId.new i p = .ok v → '=' ∉ i → OsSshId.fromStr v.display = .ok v := by
  intro hall
  have hnew : OsSshId.new "key".toList (utf8 "/home/".toList ++ [0xFF]) = .ok ⟨"key".toList, utf8 "/home/".toList ++ [0xFF]⟩ := rfl
  have := (C109_ssh_partial _ _ _ hnew).mp (hall _ _ _ hnew (by decide))
  obtain ⟨s, hs⟩ := this.1
  have h1 := (osToStr_iff _ _).mpr hs
  have h2 : osToStr (utf8 "/home/".toList ++ [0xFF]) = none := by decide +kernel
  rw [h2] at h1
  cases h1

end Props
