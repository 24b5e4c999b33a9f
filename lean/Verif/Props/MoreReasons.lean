import Verif.Props.Reasons
import Verif.Props.ByteValue
import Verif.Props.Mac
import Verif.Props.Modes
import Verif.Props.Numbers

/- C92, continued: addresses, ports, paths, devices, numbers and references. -/

namespace Props
open Rust Compose Spec Re

/-! ### Addresses and ports -/

/-- **C92**: SSH authentications. -/
theorem C92_ssh (s : Str) (e : SshIdError) (h : SshAuth.parse s = .error e) : SshReason s e := by
  rcases (C58_ssh_errors s e).1 h with ⟨p, rfl, rfl⟩ | ⟨-, hn, rfl⟩ | ⟨i, -, -, rfl, rfl⟩
  · rfl
  · exact .inl hn
  · exact .inr (by simp)

example : SshAuth.parse "key=".toList = .error .missingPath := by decide

private theorem length_split (c : Char) (s : Str) : (split c s).length = s.count c + 1 := by
  induction s with
  | nil => rfl
  | cons x xs ih =>
    have hne := split_ne_nil c xs
    rw [split.eq_2]
    split
    · rename_i hx; subst hx; simp [ih]
    · rename_i hx
      cases hs : split c xs with
      | nil => exact absurd hs hne
      | cons p ps => rw [hs] at ih; simp [List.count_cons, hx] at ih ⊢; exact ih

private theorem parseHexArray_error {n : Nat} {ps : List Str} {e : ParseMacAddressError}
    (h : parseHexArray n ps = .error e) :
    (e = .length ∧ ps.length < n) ∨ ∃ source, ∃ value ∈ ps, e = .int source value ∧ HexReason value source := by
  induction n generalizing ps with
  | zero => cases h
  | succ n ih =>
    cases ps with
    | nil => simp [parseHexArray, parseNextHex] at h; exact .inl ⟨h.symm, by simp⟩
    | cons p ps =>
      simp only [parseHexArray, parseNextHex] at h
      cases hp : parseHexU8 p with
      | error source =>
        rw [hp] at h; cases h
        exact .inr ⟨source, p, List.mem_cons_self, rfl, hex_reason hp⟩
      | ok b =>
        rw [hp] at h
        simp only at h
        cases hr : parseHexArray n ps with
        | error e' =>
          rw [hr] at h; cases h
          rcases ih hr with ⟨rfl, hl⟩ | ⟨source, value, hv, rfl, hx⟩
          · exact .inl ⟨rfl, by simpa using hl⟩
          · exact .inr ⟨source, value, List.mem_cons_of_mem _ hv, rfl, hx⟩
        | ok r => rw [hr] at h; cases h

private theorem parseHexArray_length {n : Nat} {ps rest : List Str} {bs : List Nat}
    (h : parseHexArray n ps = .ok (bs, rest)) : ps.length = n + rest.length := by
  induction n generalizing ps bs with
  | zero => cases h; simp
  | succ n ih =>
    cases ps with
    | nil => cases h
    | cons p ps =>
      simp only [parseHexArray, parseNextHex] at h
      cases hp : parseHexU8 p with
      | error source => rw [hp] at h; cases h
      | ok b =>
        rw [hp] at h
        simp only at h
        cases hr : parseHexArray n ps with
        | error e' => rw [hr] at h; cases h
        | ok r =>
          rw [hr] at h; cases h
          have := ih hr
          simp [this]; omega

/-- **C92**: MAC addresses. -/
theorem C92_mac (s : Str) (e : ParseMacAddressError) (h : MacAddress.fromStr s = .error e) : MacReason s e := by
  unfold MacAddress.fromStr at h
  have hl := length_split ':' s
  split at h
  · rename_i e' he
    cases h
    rcases parseHexArray_error he with ⟨rfl, hn⟩ | ⟨source, value, hv, rfl, hx⟩
    · exact show s.count ':' ≠ 5 by omega
    · exact ⟨by rwa [← split_eq_splitOn], hx⟩
  · rename_i bs rest hr
    have := parseHexArray_length hr
    split at h
    · cases h
    · rename_i hne
      cases h
      have : rest.length ≠ 0 := by simpa using hne
      exact show s.count ':' ≠ 5 by omega

example : MacAddress.fromStr "00:1:2:3:4:100".toList = .error (.int .posOverflow "100".toList) := by decide
example : MacAddress.fromStr "00:1:2:3:4".toList = .error .length := by decide

private theorem rangeInt_reason {s : Str} {e : ParseRangeError} (h : Range.parseInt s = .error e) :
    ∃ source, e = .int source s ∧ NumberReason 65535 s source := by
  unfold Range.parseInt at h
  split at h
  · cases h
  · rename_i source hs; cases h; exact ⟨source, rfl, number_reason hs⟩

/-- **C92**: ranges of ports. -/
theorem C92_range (s : Str) (e : ParseRangeError) (h : Range.fromStr s = .error e) : RangeReason s e := by
  unfold Range.fromStr at h
  cases hs : splitOnce '-' s with
  | none =>
    rw [hs] at h
    have hn := splitOnce_eq_none.1 hs
    simp only at h
    cases hi : Range.parseInt s with
    | error e' =>
      rw [hi] at h; cases h
      obtain ⟨source, rfl, hr⟩ := rangeInt_reason hi
      exact ⟨.inl ⟨hn, rfl⟩, hr⟩
    | ok n => rw [hi] at h; cases h
  | some ab =>
    obtain ⟨a, b⟩ := ab
    rw [hs] at h
    obtain ⟨rfl, hn⟩ := splitOnce_eq_some.1 hs
    simp only at h
    cases hi : Range.parseInt a with
    | error e' =>
      rw [hi] at h; cases h
      obtain ⟨source, rfl, hr⟩ := rangeInt_reason hi
      exact ⟨.inr ⟨a, b, by simp, hn, .inl rfl⟩, hr⟩
    | ok n =>
      rw [hi] at h
      simp only at h
      cases hj : Range.parseInt b with
      | error e' =>
        rw [hj] at h; cases h
        obtain ⟨source, rfl, hr⟩ := rangeInt_reason hj
        exact ⟨.inr ⟨a, b, by simp, hn, .inr rfl⟩, hr⟩
      | ok n => rw [hj] at h; cases h

example : Range.fromStr "80-70000".toList = .error (.int .posOverflow "70000".toList) := by decide

/-- **C92**: container ranges, perhaps after host ranges. -/
theorem C92_short_ranges (s : Str) (e : ParseShortRangesError) (h : ShortRanges.fromStr s = .err e) :
    ShortRangesReason s e := by
  unfold ShortRanges.fromStr at h
  cases hs : splitOnce ':' s with
  | none =>
    rw [hs] at h
    have hn := splitOnce_eq_none.1 hs
    simp only at h
    cases hr : Range.fromStr s with
    | ok r => rw [hr] at h; cases h
    | error e' => rw [hr] at h; cases h; exact .inl ⟨hn, C92_range _ _ hr⟩
  | some ab =>
    obtain ⟨a, b⟩ := ab
    obtain ⟨rfl, hn⟩ := splitOnce_eq_some.1 hs
    rw [hs] at h
    simp only at h
    have hcont : ∀ e', Range.fromStr b = .error e' → ShortRangesReason (a ++ ':' :: b) (.range e') :=
      fun e' he => .inr ⟨a, b, by simp, hn, .inr (C92_range _ _ he)⟩
    split at h
    · rename_i e' he
      cases h
      split at he
      · cases he
      · rename_i hne
        cases hr : Range.fromStr a with
        | ok r => rw [hr] at he; cases he
        | error e'' =>
          rw [hr] at he; cases he
          exact .inr ⟨a, b, by simp, hn, .inl ⟨by simpa using hne, C92_range _ _ hr⟩⟩
    · rename_i host hhost
      cases hb : Range.fromStr b with
      | error e' => rw [hb] at h; cases h; exact hcont _ hb
      | ok container =>
        rw [hb] at h
        simp only at h
        cases host with
        | none => simp [ShortRanges.new, rangeSizeEq] at h
        | some host =>
          have hha : Range.fromStr a = .ok host := by
            split at hhost
            · cases hhost
            · cases hr : Range.fromStr a with
              | ok r => rw [hr] at hhost; cases hhost; rfl
              | error e'' => rw [hr] at hhost; cases hhost
          unfold ShortRanges.new rangeSizeEq at h
          simp only at h
          cases h1 : host.size with
          | none => rw [h1] at h; cases h
          | some n =>
            cases h2 : container.size with
            | none => rw [h1, h2] at h; cases h
            | some m =>
              rw [h1, h2] at h
              have e1 := size_eq (r := host) (by rw [h1]; simp)
              have e2 := size_eq (r := container) (by rw [h2]; simp)
              rw [h1] at e1; rw [h2] at e2
              cases e1; cases e2
              by_cases hne : portCount host = portCount container
              · simp [hne] at h
              · simp only [ne_eq, hne, not_false_eq_true, if_true] at h
                cases h
                exact ⟨a, b, host, container, by simp, (C13_range_accepts _ _).1 hha, (C13_range_accepts _ _).1 hb,
                  rfl, hne⟩

example : ShortRanges.fromStr "8000-8001:80".toList = .err (.shortRanges ⟨2, 1⟩) := by decide

private theorem slashRest_of_suffix {pt : Str} {p : Option Protocol} (h : ProtocolSuffix pt p) : SlashRest pt := by
  cases h with
  | none => exact .inl rfl
  | some _ => exact .inr rfl

private theorem stripBrackets_cases (a : Str) :
    (∃ inner, a = "[".toList ++ inner ++ "]".toList ∧ stripBrackets a = inner) ∨
    ((¬ ∃ inner, a = "[".toList ++ inner ++ "]".toList) ∧ stripBrackets a = a) := by
  by_cases h : ∃ t, a = "[".toList ++ t ++ "]".toList
  · obtain ⟨t, rfl⟩ := h
    refine .inl ⟨t, rfl, ?_⟩
    unfold stripBrackets
    have h1 : stripPrefix ['['] ("[".toList ++ t ++ "]".toList) = some (t ++ [']']) := stripPrefix_eq_some.2 (by simp)
    have h2 : stripSuffix [']'] (t ++ [']']) = some t := stripSuffix_eq_some.2 rfl
    rw [h1]; simp only [h2]; rfl
  · refine .inr ⟨h, ?_⟩
    unfold stripBrackets
    split
    · rename_i r hr
      have hr := stripPrefix_eq_some.1 hr
      cases h2 : stripSuffix [']'] r with
      | none => rfl
      | some t =>
        have := stripSuffix_eq_some.1 h2
        exact absurd ⟨t, by rw [hr, this]; simp⟩ h
    · rfl

/-- **C92**: short ports. -/
theorem C92_short_port {Ip E : Type} (ipParse : Str → Except E Ip) (s : Str) (e : ParseShortPortError E)
    (h : ShortPort.fromStr ipParse s = .err e) : ShortPortReason ipParse s e := by
  unfold ShortPort.fromStr at h
  obtain ⟨pt, hs, hn, hp⟩ := splitProtocol_iff (s := s) (t := (splitProtocol s).1) (p := (splitProtocol s).2) |>.1 rfl
  replace hp := slashRest_of_suffix hp
  generalize (splitProtocol s).1 = t at *
  subst hs
  unfold ShortPort.splitHostIp at h
  cases hc : rsplitSecondColon t with
  | none =>
    rw [hc] at h
    simp only at h
    split at h
    · cases h
    · rename_i e' he; cases h; exact ⟨t, pt, hp, hn, C92_short_ranges _ _ he, .inl rfl⟩
    · cases h
  | some xy =>
    obtain ⟨x, y⟩ := xy
    obtain ⟨a, b, rfl, rfl, ha, hb⟩ := rsplitSecondColon_eq_some.1 hc
    rw [hc] at h
    simp only at h
    cases hip : ipParse (stripBrackets x) with
    | error source =>
      rw [hip] at h; cases h
      refine ⟨a, b, pt, by simp, hp, ha, hb, ?_, ?_⟩
      · simp at hn ⊢; tauto
      · rcases stripBrackets_cases x with ⟨inner, h1, h2⟩ | ⟨h1, h2⟩
        · exact .inl ⟨inner, h1, h2 ▸ hip⟩
        · exact .inr ⟨h1, by rwa [h2] at hip⟩
    | ok ip =>
      rw [hip] at h
      simp only at h
      split at h
      · cases h
      · rename_i e' he
        cases h
        exact ⟨a ++ ':' :: b, pt, hp, by simp at hn ⊢; tauto, C92_short_ranges _ _ he,
          .inr ⟨x, ip, by simp, addressText_iff.1 hip⟩⟩
      · cases h

example : ShortPort.fromStr exampleIpParse "[::1:80:80/udp".toList = .err (.ipAddr () "[::1".toList) := by decide
example : ShortPort.fromStr exampleIpParse "80:x".toList = .err (.shortRanges (.range (.int .invalidDigit "x".toList))) := by
  decide

/-- **C92**: exposed ports. -/
theorem C92_expose (s : Str) (e : ParseRangeError) (h : Expose.fromStr s = .error e) : ExposeReason s e := by
  unfold Expose.fromStr at h
  obtain ⟨pt, hs, hn, hp⟩ := splitProtocol_iff (s := s) (t := (splitProtocol s).1) (p := (splitProtocol s).2) |>.1 rfl
  split at h
  · cases h
  · rename_i e' he; cases h
    exact ⟨_, pt, hs, slashRest_of_suffix hp, hn, C92_range _ _ he⟩

example : Expose.fromStr "x/tcp".toList = .error (.int .invalidDigit "x".toList) := by decide

/-! ### Paths and devices -/

/-- **C92**: volume sources. -/
theorem C92_source (s : Str) (e : ParseSourceError) (h : VolumeSource.parse s = .error e) : SourceReason s e := by
  unfold VolumeSource.parse at h
  split at h
  · rename_i hc
    rw [Bool.or_eq_true, decide_eq_true_eq, isAbsolute_iff] at hc
    split at h
    · cases h
    · rename_i e' he
      cases h
      have hnot : ¬ HostPath s := fun hh => by
        rw [(C36_host_path_new s s).2 ⟨hh, rfl⟩] at he; cases he
      exact ⟨hc.resolve_right fun ha => hnot (.inl ha), hnot⟩
  · split at h
    · cases h
    · rename_i e' he; cases h; exact C92_identifier _ _ he

example : VolumeSource.parse ".data".toList = .error (.hostPath .hostPath) := by decide

private theorem containerPath_reason {path : Str} {e : ParseShortVolumeError} (h : parseContainerPath path = .error e) :
    e = .absoluteContainerPath path ∧ ¬ AbsolutePath path := by
  unfold parseContainerPath at h
  split at h
  · cases h
  · rename_i e' he
    cases h
    exact ⟨rfl, fun ha => by rw [(C36_absolute_path_new path path).2 ⟨ha, rfl⟩] at he; cases he⟩

/-- What the options read so far say. -/
private def Seen (seen : List Str) (acc : Option Bool × Option SELinux) : Prop :=
  (acc.1 = some false → "rw".toList ∈ seen) ∧ (acc.1 = some true → "ro".toList ∈ seen) ∧
  (acc.2 = some .shared → "z".toList ∈ seen) ∧ (acc.2 = some .private → "Z".toList ∈ seen)

private theorem seen_mono {seen : List Str} {acc : Option Bool × Option SELinux} {o : Str} (h : Seen seen acc) :
    Seen (seen ++ [o]) acc := by
  obtain ⟨h1, h2, h3, h4⟩ := h
  refine ⟨fun h => ?_, fun h => ?_, fun h => ?_, fun h => ?_⟩ <;> apply List.mem_append_left
  exacts [h1 h, h2 h, h3 h, h4 h]

/-- What an error in the options says. -/
private def OptionsReason (options : List Str) : ParseShortVolumeError → Prop
  | .readWriteAndReadOnly => "rw".toList ∈ options ∧ "ro".toList ∈ options
  | .selinuxSharedAndPrivate => "z".toList ∈ options ∧ "Z".toList ∈ options
  | .duplicateOption o => 2 ≤ options.count o
  | .unknownOption o => o ∈ options ∧ o ∉ ["rw".toList, "ro".toList, "z".toList, "Z".toList]
  | _ => False

private theorem count_twice {seen rest : List Str} {o : Str} (h : o ∈ seen) : 2 ≤ (seen ++ o :: rest).count o := by
  have := List.one_le_count_iff.2 h
  rw [List.count_append, List.count_cons_self]
  omega

private theorem optionLoop_error {seen options : List Str} {acc : Option Bool × Option SELinux}
    {e : ParseShortVolumeError} (hs : Seen seen acc) (h : ShortVolume.optionLoop acc options = .error e) :
    OptionsReason (seen ++ options) e := by
  induction options generalizing seen acc with
  | nil => cases h
  | cons o options ih =>
    unfold ShortVolume.optionLoop at h
    cases ho : ShortVolume.optionStep acc o with
    | ok acc' =>
      rw [ho] at h
      simp only at h
      rw [show seen ++ o :: options = (seen ++ [o]) ++ options by simp]
      refine ih ?_ h
      obtain ⟨h1, h2, h3, h4⟩ := seen_mono (o := o) hs
      have hm : o ∈ seen ++ [o] := by simp
      unfold ShortVolume.optionStep at ho
      split at ho
      · rename_i heq; split at ho <;> cases ho
        exact ⟨fun _ => heq ▸ hm, nofun, h3, h4⟩
      split at ho
      · rename_i heq; split at ho <;> cases ho
        exact ⟨nofun, fun _ => heq ▸ hm, h3, h4⟩
      split at ho
      · rename_i heq; split at ho <;> cases ho
        exact ⟨h1, h2, fun _ => heq ▸ hm, nofun⟩
      split at ho
      · rename_i heq; split at ho <;> cases ho
        exact ⟨h1, h2, nofun, fun _ => heq ▸ hm⟩
      · cases ho
    | error e' =>
      rw [ho] at h
      cases h
      obtain ⟨h1, h2, h3, h4⟩ := hs
      have hl : ∀ {x : Str}, x ∈ seen → x ∈ seen ++ o :: options := fun h => List.mem_append_left _ h
      have hm : o ∈ seen ++ o :: options := by simp
      unfold ShortVolume.optionStep at ho
      split at ho
      · rename_i heq
        split at ho <;> cases ho
        · rename_i ha; exact ⟨heq ▸ hm, hl (h2 ha)⟩
        · rename_i ha; subst heq; exact count_twice (h1 ha)
      split at ho
      · rename_i heq
        split at ho <;> cases ho
        · rename_i ha; exact ⟨hl (h1 ha), heq ▸ hm⟩
        · rename_i ha; subst heq; exact count_twice (h2 ha)
      split at ho
      · rename_i heq
        split at ho <;> cases ho
        · rename_i ha; exact ⟨heq ▸ hm, hl (h4 ha)⟩
        · rename_i ha; subst heq; exact count_twice (h3 ha)
      split at ho
      · rename_i heq
        split at ho <;> cases ho
        · rename_i ha; exact ⟨hl (h3 ha), heq ▸ hm⟩
        · rename_i ha; subst heq; exact count_twice (h4 ha)
      · rename_i n1 n2 n3 n4
        cases ho
        refine ⟨hm, ?_⟩
        simp only [List.mem_cons, List.not_mem_nil, or_false, not_or]
        exact ⟨n1, n2, n3, n4⟩

/-- **C92**: short volumes. -/
theorem C92_short_volume (s : Str) (e : ParseShortVolumeError) (h : ShortVolume.fromStr s = .error e) :
    ShortVolumeReason s e := by
  unfold ShortVolume.fromStr at h
  have hopts : ∀ {options : Option Str} {e'}, ShortVolume.parseOptions options = .error e' →
      ∃ o, options = some o ∧ OptionsReason (o.splitOn ',') e' := by
    intro options e' he
    unfold ShortVolume.parseOptions at he
    split at he
    · cases he
    · rename_i o
      split at he
      · cases he
      · rename_i e'' he'
        cases he
        refine ⟨o, rfl, ?_⟩
        rw [split_eq_splitOn] at he'
        exact optionLoop_error (seen := []) (by refine ⟨?_, ?_, ?_, ?_⟩ <;> intro h <;> cases h) he'
  rcases splitn3_cases ':' s with ⟨hn, hsp⟩ | ⟨a, b, rfl, ha, hb, hsp⟩ | ⟨a, b, d, rfl, ha, hb, hsp⟩
  · rw [hsp] at h
    simp only at h
    split at h
    · cases h
    · rename_i e' he; cases h
      obtain ⟨rfl, hp⟩ := containerPath_reason he
      exact ⟨hp, hn, .inl rfl⟩
  · rw [hsp] at h
    simp only at h
    split at h
    · rename_i e' he; cases h; exact ⟨a, b, by simp, ha, C92_source _ _ he⟩
    split at h
    · rename_i e' he; cases h
      obtain ⟨rfl, hp⟩ := containerPath_reason he
      exact ⟨hp, hb, .inr ⟨a, ha, .inl (by simp)⟩⟩
    split at h
    · cases h
    · rename_i e' he
      obtain ⟨o, ho, -⟩ := hopts he
      cases ho
  · rw [hsp] at h
    simp only at h
    split at h
    · rename_i e' he; cases h; exact ⟨a, b ++ ':' :: d, by simp, ha, C92_source _ _ he⟩
    split at h
    · rename_i e' he; cases h
      obtain ⟨rfl, hp⟩ := containerPath_reason he
      exact ⟨hp, hb, .inr ⟨a, ha, .inr ⟨d, by simp⟩⟩⟩
    split at h
    · cases h
    · rename_i e' he
      cases h
      obtain ⟨o, ho, hr⟩ := hopts he
      cases ho
      have hof : VolumeOptionsOf (a ++ ':' :: (b ++ ':' :: d)) d := ⟨a, b, by simp, ha, hb⟩
      cases e with
      | source _ => cases hr
      | absoluteContainerPath _ => cases hr
      | readWriteAndReadOnly => exact ⟨d, hof, hr⟩
      | selinuxSharedAndPrivate => exact ⟨d, hof, hr⟩
      | duplicateOption _ => exact ⟨d, hof, hr⟩
      | unknownOption _ => exact ⟨d, hof, hr⟩

example : ShortVolume.fromStr "./a:/b:ro,z,rw".toList = .error .readWriteAndReadOnly := by decide
example : ShortVolume.fromStr "./a:/b:z,ro,z".toList = .error (.duplicateOption "z".toList) := by decide

/-- **C92**: permissions. -/
theorem C92_permissions (s : Str) (e : ParsePermissionsError) (h : Permissions.fromStr s = .error e) :
    PermissionsReason s e := (C44_permissions_error s e.char).1 h

example : PermissionsReason "rxw".toList ⟨'x'⟩ := C92_permissions _ _ rfl

/-- **C92**: devices. -/
theorem C92_device (s : Str) (e : ParseDeviceError) (h : Device.fromStr s = .error e) : DeviceReason s e := by
  unfold Device.fromStr at h
  have habs : ∀ {p : Str} {e'}, absolutePathNew p = .error e' → ¬ AbsolutePath p := fun {p e'} he ha => by
    rw [(C36_absolute_path_new p p).2 ⟨ha, rfl⟩] at he; cases he
  rcases splitn3_cases ':' s with ⟨hn, hsp⟩ | ⟨a, b, rfl, ha, hb, hsp⟩ | ⟨a, b, d, rfl, ha, hb, hsp⟩
  · rw [hsp] at h; cases h; exact hn
  · rw [hsp] at h
    simp only at h
    split at h
    · rename_i e' he; cases h; exact ⟨a, b, .inl (by simp), ha, hb, habs he⟩
    · cases h
  · rw [hsp] at h
    simp only at h
    split at h
    · rename_i e' he; cases h; exact ⟨a, b, .inr ⟨d, by simp⟩, ha, hb, habs he⟩
    split at h
    · rename_i e' he; cases h; exact ⟨a, b, d, by simp, ha, hb, C92_permissions _ _ he⟩
    · cases h

example : Device.fromStr "/dev/a:/dev/b:rwx".toList = .error (.permissions ⟨'x'⟩) := by decide

private theorem majorMinor_reason {s : Str} {e : IntErr} (h : MajorMinorNumber.fromStr s = .error e) :
    s ≠ [] ∧ s ≠ "*".toList ∧ NumberReason 65535 s e := by
  unfold MajorMinorNumber.fromStr at h
  split at h
  · cases h
  · rename_i hc
    simp only [Bool.or_eq_true, List.isEmpty_iff, decide_eq_true_eq, not_or] at hc
    refine ⟨hc.1, hc.2, ?_⟩
    cases hp : parseUnsigned u16Max s with
    | ok n => rw [hp] at h; cases h
    | error e' => rw [hp] at h; cases h; exact number_reason hp

/-- **C92**: device cgroup rules. -/
theorem C92_cgroup_rule (s : Str) (e : ParseCgroupRuleError) (h : CgroupRule.fromStr s = .error e) :
    CgroupRuleReason s e := by
  unfold CgroupRule.fromStr at h
  have hfirst : (s.splitOn ' ').head? = some (splitn3 ' ' s).1 ∧ (s.splitOn ' ')[1]? = (splitn3 ' ' s).2.1 := by
    rw [← split_eq_splitOn]
    rcases splitn3_cases ' ' s with ⟨hn, hsp⟩ | ⟨a, b, rfl, ha, hb, hsp⟩ | ⟨a, b, d, rfl, ha, hb, hsp⟩
    · rw [hsp, split_of_not_mem hn]; exact ⟨rfl, rfl⟩
    · rw [hsp, split_append_sep ha, split_of_not_mem hb]; exact ⟨rfl, rfl⟩
    · rw [hsp, split_append_sep ha, split_append_sep hb]; exact ⟨rfl, rfl⟩
  simp only at h
  split at h
  · rename_i k hk
    cases h
    unfold DeviceKind.fromStr at hk
    split at hk
    · cases hk
    split at hk
    · cases hk
    split at hk
    · cases hk
    · rename_i n1 n2 n3
      cases hk
      refine ⟨hfirst.1, ?_⟩
      simp only [List.mem_cons, List.not_mem_nil, or_false, not_or]
      exact ⟨n1, n3, n2⟩
  split at h
  · rename_i hnone
    cases h
    intro n hn
    rw [hfirst.2] at hn
    rw [hn] at hnone
    exact splitOnce_eq_none.1 hnone
  rename_i major minor hmm
  obtain ⟨n, hn, hsp⟩ := Option.bind_eq_some_iff.1 hmm
  obtain ⟨rfl, hcol⟩ := splitOnce_eq_some.1 hsp
  have hsecond : (s.splitOn ' ')[1]? = some (major ++ ":".toList ++ minor) := by rw [hfirst.2, hn]; simp
  split at h
  · rename_i e' he; cases h; exact ⟨major, minor, hsecond, hcol, major, by simp, majorMinor_reason he⟩
  split at h
  · rename_i e' he; cases h; exact ⟨major, minor, hsecond, hcol, minor, by simp, majorMinor_reason he⟩
  split at h
  · rename_i e' he
    cases h
    rcases splitn3_cases ' ' s with ⟨hn, hsp⟩ | ⟨a, b, rfl, ha, hb, hsp⟩ | ⟨a, b, d, rfl, ha, hb, hsp⟩
    · rw [hsp] at he; cases he
    · rw [hsp] at he; cases he
    · rw [hsp] at he; exact ⟨a, b, d, by simp, ha, hb, C92_permissions _ _ he⟩
  · cases h

example : CgroupRule.fromStr "a 1:70000 rw".toList = .error (.majorMinorNumber .posOverflow) := by decide
example : CgroupRule.fromStr "a 1 rw".toList = .error .majorMinorNumbersMissing := by decide

/-! ### Numbers with units, CPUs -/

/-- **C92**, false for numbers of bytes: a number that is too big is said to have an unknown unit. -/
theorem C92_byte_value_false : ¬ ∀ s e, ByteValue.fromStr s = .error e → ByteValueReason s e := by
  intro h
  have := h "99999999999999999999".toList (.unknownUnit "99999999999999999999".toList) (by decide +kernel)
  exact this.2.1 ⟨_, .inl rfl, by simp, by decide⟩

private theorem number_last {ds s v : Str} {c : Char} (h1 : Signed ds s) (h2 : IsNumber ds) (hs : s = v ++ [c]) :
    c ∈ "0123456789".toList := by
  obtain ⟨hne, hall⟩ := h2
  have hl : s.getLast? = ds.getLast? := by
    rcases h1 with rfl | rfl
    · rfl
    · cases ds with
      | nil => exact absurd rfl hne
      | cons d ds => rfl
  rw [hs, List.getLast?_concat] at hl
  exact hall c (List.mem_of_getLast? hl.symm)

private theorem unit_suffix {ub : Str} {cs : List Char} {s v : Str}
    (h : (stripSuffix ub s).or (ByteValue.stripSuffixChar cs s) = some v) :
    s = v ++ ub ∨ ∃ c ∈ cs, s = v ++ [c] := by
  rw [Option.or_eq_some_iff] at h
  rcases h with h | ⟨-, h⟩
  · exact .inl (stripSuffix_eq_some.1 h)
  · exact .inr (stripSuffixChar_eq_some.1 h)

private theorem no_unit_suffix {ub : Str} {cs : List Char} {s : Str}
    (h : (stripSuffix ub s).or (ByteValue.stripSuffixChar cs s) = none) :
    ∀ v, s ≠ v ++ ub ∧ ∀ c ∈ cs, s ≠ v ++ [c] := by
  rw [Option.or_eq_none_iff] at h
  intro v
  refine ⟨fun hs => ?_, stripSuffixChar_eq_none.1 h.2 v⟩
  rw [stripSuffix_eq_some.2 hs] at h
  cases h.1

/-- **C92**, the part that holds for numbers of bytes: the reason is right except for numbers above `2 ^ 64 - 1` without
a unit, which are said to have an unknown one.  Missing: those. -/
theorem C92_byte_value_partial (s : Str) (e : ByteValue.Err) (h : ByteValue.fromStr s = .error e) :
    ByteValueReason s e ↔ ¬ ∃ ds, Signed ds s ∧ IsNumber ds ∧ 2 ^ 64 - 1 < decimal ds := by
  have hint : ∀ (v u : Str) (f : Nat → ByteValue), ByteValue.parseU64 v f = .error e → s = v ++ u →
      (∃ f, (u, f) ∈ byteUnits) → (∃ w c, u = w ++ [c] ∧ c ∉ "0123456789".toList) →
      (ByteValueReason s e ↔ ¬ ∃ ds, Signed ds s ∧ IsNumber ds ∧ 2 ^ 64 - 1 < decimal ds) := by
    intro v u f he hs hu hc
    obtain ⟨w, c, rfl, hc⟩ := hc
    unfold ByteValue.parseU64 at he
    split at he
    · cases he
    · rename_i source hp
      cases he
      refine iff_of_true ?_ ?_
      · obtain ⟨f, hf⟩ := hu
        exact ⟨_, f, hs, by simp, hf, number_reason hp⟩
      · rintro ⟨ds, h1, h2, -⟩
        exact hc (number_last h1 h2 (v := v ++ w) (by rw [hs]; simp))
  unfold ByteValue.fromStr at h
  split at h
  · rename_i hs
    have hs : s = [] := by simpa using hs
    subst hs
    cases h
    refine iff_of_true rfl ?_
    rintro ⟨ds, h1, ⟨h2, -⟩, -⟩
    rcases h1 with h1 | h1
    · exact h2 h1.symm
    · cases h1
  split at h
  · cases h
  rename_i e' hnum
  split at h
  · rename_i v hv
    rcases unit_suffix hv with hs | ⟨c, hc, hs⟩
    · exact hint v _ _ h hs ⟨.gigabytes, by simp [byteUnits]⟩ ⟨['g'], 'b', rfl, by decide⟩
    · simp only [List.mem_cons, List.not_mem_nil, or_false] at hc
      rcases hc with rfl | rfl <;>
        exact hint v _ _ h hs ⟨.gigabytes, by simp [byteUnits]⟩ ⟨[], _, rfl, by decide⟩
  rename_i hg
  split at h
  · rename_i v hv
    rcases unit_suffix hv with hs | ⟨c, hc, hs⟩
    · exact hint v _ _ h hs ⟨.megabytes, by simp [byteUnits]⟩ ⟨['m'], 'b', rfl, by decide⟩
    · simp only [List.mem_cons, List.not_mem_nil, or_false] at hc
      rcases hc with rfl | rfl <;>
        exact hint v _ _ h hs ⟨.megabytes, by simp [byteUnits]⟩ ⟨[], _, rfl, by decide⟩
  rename_i hm
  split at h
  · rename_i v hv
    rcases unit_suffix hv with hs | ⟨c, hc, hs⟩
    · exact hint v _ _ h hs ⟨.kilobytes, by simp [byteUnits]⟩ ⟨['k'], 'b', rfl, by decide⟩
    · simp only [List.mem_cons, List.not_mem_nil, or_false] at hc
      rcases hc with rfl | rfl <;>
        exact hint v _ _ h hs ⟨.kilobytes, by simp [byteUnits]⟩ ⟨[], _, rfl, by decide⟩
  rename_i hk
  split at h
  · rename_i v hv
    obtain ⟨c, hc, hs⟩ := stripSuffixChar_eq_some.1 hv
    simp only [List.mem_cons, List.not_mem_nil, or_false] at hc
    rcases hc with rfl | rfl <;>
      exact hint v _ _ h hs ⟨.bytes, by simp [byteUnits]⟩ ⟨[], _, rfl, by decide⟩
  rename_i hb
  cases h
  have hunit : ∀ num u f, s = num ++ u → (u, f) ∈ byteUnits → u = [] := by
    intro num u f hs hu
    have g := no_unit_suffix hg num
    have m := no_unit_suffix hm num
    have k := no_unit_suffix hk num
    have b := stripSuffixChar_eq_none.1 hb num
    simp only [List.mem_cons, List.not_mem_nil, or_false, forall_eq_or_imp, forall_eq] at g m k b
    simp only [byteUnits, List.mem_cons, List.not_mem_nil, or_false, Prod.mk.injEq] at hu
    rcases hu with ⟨rfl, -⟩ | ⟨rfl, -⟩ | ⟨rfl, -⟩ | ⟨rfl, -⟩ | ⟨rfl, -⟩ | ⟨rfl, -⟩ | ⟨rfl, -⟩ | ⟨rfl, -⟩ | ⟨rfl, -⟩ |
      ⟨rfl, -⟩ | ⟨rfl, -⟩ | ⟨rfl, -⟩
    · rfl
    all_goals exfalso
    exacts [b.1 hs, b.2 hs, k.2.1 hs, k.2.2 hs, k.1 hs, m.2.1 hs, m.2.2 hs, m.1 hs, g.2.1 hs, g.2.2 hs, g.1 hs]
  constructor
  · rintro ⟨-, hn, -⟩ ⟨ds, h1, h2, -⟩; exact hn ⟨ds, h1, h2⟩
  · intro hn
    refine ⟨rfl, ?_, hunit⟩
    rintro ⟨ds, h1, h2⟩
    by_cases hle : decimal ds ≤ 2 ^ 64 - 1
    · rw [(parseUnsigned_iff (max := u64Max)).2 ⟨ds, h1, h2, rfl, hle⟩] at hnum; cases hnum
    · exact hn ⟨ds, h1, h2, by omega⟩

example : ByteValue.fromStr "1.5g".toList = .error (.parseInt .invalidDigit "1.5".toList) := by decide
example : ByteValue.fromStr "10x".toList = .error (.unknownUnit "10x".toList) := by decide

private theorem cpu_reason {s : Str} {e : ParseCpuSetError} (h : parseCpu s = .error e) :
    e.value = s ∧ NumberReason (2 ^ 64 - 1) s e.source := by
  unfold parseCpu at h
  split at h
  · rename_i source hs; cases h; exact ⟨rfl, number_reason hs⟩
  · cases h

private theorem parseItem_reason {inner : List Nat} {item : Str} {e : ParseCpuSetError}
    (h : CpuSet.parseItem inner item = .error e) :
    EndOfRange item e.value ∧ NumberReason (2 ^ 64 - 1) e.value e.source := by
  unfold CpuSet.parseItem at h
  split at h
  · rename_i a b hs
    obtain ⟨rfl, hn⟩ := splitOnce_eq_some.1 hs
    split at h
    · rename_i e' he
      cases h
      obtain ⟨h1, h2⟩ := cpu_reason he
      exact ⟨.inr ⟨a, b, by simp, hn, .inl h1⟩, h1 ▸ h2⟩
    split at h
    · rename_i e' he
      cases h
      obtain ⟨h1, h2⟩ := cpu_reason he
      exact ⟨.inr ⟨a, b, by simp, hn, .inr h1⟩, h1 ▸ h2⟩
    · cases h
  · rename_i hs
    split at h
    · rename_i e' he
      cases h
      obtain ⟨h1, h2⟩ := cpu_reason he
      exact ⟨.inl ⟨splitOnce_eq_none.1 hs, h1⟩, h1 ▸ h2⟩
    · cases h

private theorem parseLoop_reason {inner : List Nat} {items : List Str} {e : ParseCpuSetError}
    (h : CpuSet.parseLoop inner items = .error e) :
    (∃ item ∈ items, EndOfRange item e.value) ∧ NumberReason (2 ^ 64 - 1) e.value e.source := by
  induction items generalizing inner with
  | nil => cases h
  | cons item items ih =>
    unfold CpuSet.parseLoop at h
    split at h
    · rename_i e' he
      cases h
      obtain ⟨h1, h2⟩ := parseItem_reason he
      exact ⟨⟨item, List.mem_cons_self, h1⟩, h2⟩
    · obtain ⟨⟨i, hi, h1⟩, h2⟩ := ih h
      exact ⟨⟨i, List.mem_cons_of_mem _ hi, h1⟩, h2⟩

/-- **C92**: CPU sets. -/
theorem C92_cpu_set (s : Str) (e : ParseCpuSetError) (h : CpuSet.fromStr s = .error e) : CpuSetReason s e := by
  unfold CpuSet.fromStr at h
  obtain ⟨⟨i, hi, h1⟩, h2⟩ := parseLoop_reason h
  refine ⟨⟨i, ?_, h1⟩, h2⟩
  rw [← split_eq_splitOn]
  unfold splitTerminator at hi
  simp only at hi
  split at hi
  · exact List.mem_of_mem_dropLast hi
  · exact hi

example : CpuSet.fromStr "1,2-x,3".toList = .error ⟨"x".toList, .invalidDigit⟩ := by decide

/-- **C92**, false for numbers of CPUs: minus zero is said to be negative. -/
theorem C92_cpus_false : ¬ ∀ x e, Cpus.new x = .error e → CpusReason x e := by
  intro h
  have := h (1 <<< 63) .negative (by decide)
  exact this.2.1 (by decide)

/-- **C92**, the part that holds for numbers of CPUs: the reason is right except for minus zero and for a NaN with the
sign set, which are said to be negative.  Missing: those. -/
theorem C92_cpus_partial (x : F64) (e : InvalidCpusError) (h : Cpus.new x = .error e) :
    CpusReason x e ↔ ¬ (x.msb = true ∧ (x.expo = 0 ∧ x.frac = 0 ∨ x.expo = 2047 ∧ x.frac ≠ 0)) := by
  unfold Cpus.new F64.isSignPositive F64.isFinite at h
  split at h
  · rename_i hs
    cases h
    have hs : x.msb = true := by simpa using hs
    simp only [CpusReason, BelowZero, hs, true_and]
    tauto
  · rename_i hs
    have hs : x.msb = false := by simpa using hs
    split at h
    · rename_i hf
      cases h
      have hf : x.expo = 2047 := by simpa using hf
      simp [CpusReason, hs, hf]
    · cases h

/-- Minus one is negative, as is said. -/
example : CpusReason (BitVec.ofNat 64 0xBFF0000000000000) .negative :=
  (C92_cpus_partial _ _ (by decide)).2 (by decide)

/-! ### References -/

/-- **C92**: links. -/
theorem C92_link (s : Str) (e : IdentifierError) (h : Link.parse s = .error e) : LinkReason s e := by
  unfold Link.parse at h
  split at h
  · rename_i a b hs
    obtain ⟨rfl, hn⟩ := splitOnce_eq_some.1 hs
    split at h
    · rename_i e' he
      cases h
      have : (a ++ ':' :: b).takeWhile (· ≠ ':') = a := by
        rw [List.takeWhile_append_of_pos (by intro x hx; simp; rintro rfl; exact hn hx)]; simp
      unfold LinkReason
      rw [this]
      exact C92_identifier _ _ he
    · cases h
  · rename_i hs
    have hn := splitOnce_eq_none.1 hs
    split at h
    · rename_i e' he
      cases h
      have : s.takeWhile (· ≠ ':') = s := by
        rw [List.takeWhile_eq_self_iff]; intro x hx; simp; rintro rfl; exact hn hx
      unfold LinkReason
      rw [this]
      exact C92_identifier _ _ he
    · cases h

example : Link.parse "a b:c".toList = .error (.character ' ') := by decide

private theorem map_error {A B E : Type} {f : A → B} {x : Except E A} {e : E} (h : x.map f = .error e) :
    x = .error e := by
  cases x with
  | ok a => cases h
  | error e' => cases h; rfl

/-- **C92**: IPC modes. -/
theorem C92_ipc (s : Str) (e : IdentifierError) (h : Ipc.parse s = .error e) : IpcReason s e := by
  unfold Ipc.parse at h
  split at h
  · cases h
  split at h
  · rename_i i hi; exact ⟨i, stripPrefix_eq_some.1 hi, C92_identifier _ _ (map_error h)⟩
  · cases h

example : Ipc.parse "service:".toList = .error .empty := by decide

/-- **C92**: network modes. -/
theorem C92_network_mode (s : Str) (e : IdentifierError) (h : NetworkMode.parse s = .error e) :
    NetworkModeReason s e := by
  unfold NetworkMode.parse at h
  split at h
  · cases h
  split at h
  · cases h
  split at h
  · rename_i i hi; exact ⟨i, .inl (stripPrefix_eq_some.1 hi), C92_identifier _ _ (map_error h)⟩
  split at h
  · rename_i i hi; exact ⟨i, .inr (stripPrefix_eq_some.1 hi), C92_identifier _ _ (map_error h)⟩
  · cases h

example : NetworkMode.parse "container:-a".toList = .error (.start '-') := by decide

/-- **C92**: sources of volumes. -/
theorem C92_volumes_from_source (s : Str) (e : IdentifierError) (h : VolumesFromSource.parse s = .error e) :
    VolumesFromSourceReason s e := by
  unfold VolumesFromSource.parse at h
  split at h
  · rename_i i hi; exact .inl ⟨i, stripPrefix_eq_some.1 hi, C92_identifier _ _ (map_error h)⟩
  · rename_i hn
    exact .inr ⟨fun ⟨t, ht⟩ => stripPrefix_eq_none.1 hn ⟨t, ht.symm⟩, C92_identifier _ _ (map_error h)⟩

example : VolumesFromSourceReason "container:-a".toList (.start '-') := C92_volumes_from_source _ _ (by decide)

/-- **C92**: sources of volumes, perhaps with an access mode. -/
theorem C92_volumes_from (s : Str) (e : IdentifierError) (h : VolumesFrom.parse s = .error e) :
    VolumesFromReason s e := by
  unfold VolumesFrom.parse at h
  split at h
  · rename_i t ht
    exact ⟨t, .inl (.inl (stripSuffix_eq_some.1 ht)), C92_volumes_from_source _ _ (map_error h)⟩
  rename_i h1
  split at h
  · rename_i t ht
    exact ⟨t, .inl (.inr (stripSuffix_eq_some.1 ht)), C92_volumes_from_source _ _ (map_error h)⟩
  rename_i h2
  refine ⟨s, .inr ⟨rfl, ?_, ?_⟩, C92_volumes_from_source _ _ (map_error h)⟩
  · rintro ⟨t, ht⟩; have := h1.symm.trans (stripSuffix_eq_some.2 ht.symm); cases this
  · rintro ⟨t, ht⟩; have := h2.symm.trans (stripSuffix_eq_some.2 ht.symm); cases this

example : VolumesFrom.parse "container::ro".toList = .error .empty := by decide

/-- **C92**: networks of builds. -/
theorem C92_build_network (s : Str) (e : IdentifierError) (h : buildNetworkParse s = .error e) :
    BuildNetworkReason s e := by
  unfold buildNetworkParse at h
  split at h
  · cases h
  · rename_i hn
    split at h
    · cases h
    · rename_i e' he; cases h; exact ⟨hn, C92_identifier _ _ he⟩

example : buildNetworkParse "".toList = .error .empty := by decide

end Props
