import Verif.Proofs.Panic
import Verif.Props.Structs

/- C14, C74: where and for which texts reading panics. -/

namespace Props
open Rust Compose Compose.Derive Compose.Codecs Compose.Structs Spec Proofs

/-! ### C14: the texts -/

theorem unsizableRanges_chars {t : Str} (h : UnsizableRanges t) : '/' ∉ t ∧ ∃ x y, t = x ++ ':' :: y ∧ ':' ∉ x ∧ ':' ∉ y := by
  obtain ⟨x, y, host, container, rfl, h1, h2, -⟩ := h
  have hs : ∀ {t r}, RangeText t r → '/' ∉ t := fun h => not_mem_rangeText h (by decide) (by decide) (by decide)
  have hc : ∀ {t r}, RangeText t r → ':' ∉ t := fun h => not_mem_rangeText h (by decide) (by decide) (by decide)
  exact ⟨by simp [hs h1, hs h2], x, y, by simp, hc h1, hc h2⟩

/-- C14: parsing a short port panics exactly for two ranges one of which cannot be sized, perhaps after an address, perhaps
with a protocol. -/
theorem C14_short_port_panics_iff {Ip E : Type} (ipParse : Str → Except E Ip) (s : Str) :
    ShortPort.fromStr ipParse s = .panic ↔ PanickingPort ipParse s := by
  constructor
  · intro h
    unfold ShortPort.fromStr at h
    obtain ⟨pt, hs, hn, hp⟩ := splitProtocol_iff (s := s) (t := (splitProtocol s).1) (p := (splitProtocol s).2) |>.1 rfl
    revert h hs hn hp
    generalize (splitProtocol s).1 = t
    generalize (splitProtocol s).2 = q
    intro h hs hn hp
    subst hs
    split at h
    · cases h
    · rename_i hostIp rest hsplit
      split at h
      · cases h
      · cases h
      · rename_i hr
        rw [C14_short_ranges_panics_iff] at hr
        unfold ShortPort.splitHostIp at hsplit
        split at hsplit
        · cases hsplit
          exact .ranges hr hp
        · rename_i a rest' hcolon
          split at hsplit
          · rename_i ip hip
            cases hsplit
            obtain ⟨x, y, rfl, rfl, -, -⟩ := rsplitSecondColon_eq_some.1 hcolon
            have := PanickingPort.address (addressText_iff.1 hip) (fun hm => hn (by simp [hm])) hr hp
            simpa using this
          · cases hsplit
  · intro h
    cases h with
    | @ranges t pt q hr hp =>
      unfold ShortPort.fromStr
      obtain ⟨h1, x, y, rfl, hx, hy⟩ := unsizableRanges_chars hr
      rw [splitProtocol_iff.2 ⟨pt, rfl, h1, hp⟩]
      have hc : (x ++ ':' :: y).count ':' ≤ 1 := by
        rw [List.count_append, List.count_cons_self, List.count_eq_zero.2 hx, List.count_eq_zero.2 hy]
      simp only [ShortPort.splitHostIp, rsplitSecondColon_eq_none.2 hc, (C14_short_ranges_panics_iff _).2 hr]
    | @address a t pt ip q ha hslash hr hp =>
      unfold ShortPort.fromStr
      obtain ⟨h1, x, y, rfl, hx, hy⟩ := unsizableRanges_chars hr
      rw [splitProtocol_iff.2 ⟨pt, rfl, by simpa [hslash] using h1, hp⟩]
      have hs : rsplitSecondColon (a ++ ":".toList ++ (x ++ ':' :: y)) = some (a, x ++ ':' :: y) :=
        rsplitSecondColon_eq_some.2 ⟨x, y, by simp, rfl, hx, hy⟩
      simp only [ShortPort.splitHostIp, hs, addressText_iff.2 ha, (C14_short_ranges_panics_iff _).2 hr]

/-- Such a port, with an address and a protocol. -/
example : PanickingPort exampleIpParse "[::1]:90-80:80/udp".toList := by
  rw [← C14_short_port_panics_iff]; decide

/-- A port whose ranges have different sizes is rejected without a panic. -/
example : ¬ PanickingPort exampleIpParse "[::1]:80-90:80/udp".toList := by
  rw [← C14_short_port_panics_iff]; decide

/-! ### C74: the places -/

theorem delicate_iff {E : Env} {times ports : List (List Step)} {p : List Step} {t : Str} :
    Delicate E times ports p t ↔ p ∈ times ∧ PanickingDuration t ∨ p ∈ ports ∧ PanickingPort (readIp E) t := by
  unfold Delicate PanickingDuration
  rw [C09_duration_panics_iff, C14_short_port_panics_iff]

/-- C74: a struct panics only because of a text that panics as a duration, where it has a duration, or as a port, where it
has a port. -/
theorem C74_panics_only_there (E : Env) (s : TimedStruct) (hs : s ∈ timedStructs E) (c : Content)
    (h : (struct s.fields).de c = .panic) :
    ∃ p t, At (.str t) p c ∧ (p ∈ s.times ∧ PanickingDuration t ∨ p ∈ s.ports ∧ PanickingPort (readIp E) t) := by
  have : PanicsIn (Delicate E s.times s.ports) (struct s.fields) := by
    revert s
    unfold timedStructs
    simp only [List.forall_mem_cons]
    exact ⟨fun _ => restartPolicy_in E, fun _ => updateOrRollbackConfig_in E, fun _ => deploy_in E, fun _ => service_in E,
      fun _ => compose_in E, fun _ h => by cases h⟩
  obtain ⟨p, t, h1, h2⟩ := this c h
  exact ⟨p, t, h1, delicate_iff.1 h2⟩

/-- C74: and there it does: a struct that is read panics if one of its durations or ports is replaced by such a text. -/
theorem C74_panics_there (E : Env) (s : TimedStruct) (hs : s ∈ timedStructs E) (c c' : Content) (r : Record s.fields)
    (hr : (struct s.fields).de c = .ok r) (p : List Step) (t : Str)
    (ht : p ∈ s.times ∧ PanickingDuration t ∨ p ∈ s.ports ∧ PanickingPort (readIp E) t) (h : Replaced (.str t) p c c') :
    (struct s.fields).de c' = .panic := by
  have : ∀ s ∈ timedStructs E, ∀ p t, Delicate E s.times s.ports p t → PanicsAt p t (struct s.fields) := by
    have no : ∀ {p : List Step} {t : Str}, ¬ (p ∈ ([] : List (List Step)) ∧ ShortPort.fromStr (readIp E) t = .panic) :=
      fun h => by cases h.1
    unfold timedStructs
    simp only [List.forall_mem_cons]
    exact ⟨fun p t h => restartPolicy_at (h.resolve_right no).1 (h.resolve_right no).2,
      fun p t h => updateOrRollbackConfig_at (h.resolve_right no).1 (h.resolve_right no).2,
      fun p t h => deploy_at (h.resolve_right no).1 (h.resolve_right no).2, fun p t h => service_at h, fun p t h => compose_at h, fun _ h => by cases h⟩
  exact this s hs p t (delicate_iff.2 ht) c c' r hr h

/-- C74: these are all structs that can panic. -/
theorem C74_other_structs (E : Env) (s : StructInfo) (hs : s ∈ structs E) :
    (∃ t ∈ timedStructs E, t.fields = s.fields) ∨ ∀ c, (struct s.fields).de c ≠ .panic := by
  by_cases ht : s.timed = true
  · refine .inl ?_
    revert s
    unfold structs file parts timedStructs
    simp
  · exact .inr fun c => C74_untimed_never_panics E s hs (by simpa using ht) c

/-- A service in which a label has a text that would panic as a duration is read without a panic. -/
example : (struct (Structs.service sampleEnv)).de
    (Derive.mapping [("labels".toList, Derive.mapping [("delay".toList, hugeDuration)]),
      ("stop_grace_period".toList, .str "1m30s".toList)]) ≠ .panic := by
  intro hp
  obtain ⟨p, t, h1, h2⟩ := C74_panics_only_there sampleEnv ⟨Structs.service sampleEnv, serviceTimes, servicePorts⟩
    (by simp [timedStructs]) _ hp
  have hk : ∀ {k : String} {p : List Step}, At (.str t) (.key k :: p)
      (Derive.mapping [("labels".toList, Derive.mapping [("delay".toList, hugeDuration)]),
        ("stop_grace_period".toList, .str "1m30s".toList)]) → k = "labels" ∨ k = "stop_grace_period" ∧ (p = [] → t = "1m30s".toList) := by
    intro k p h
    cases h with
    | key hm h =>
      simp only [List.map_cons, List.map_nil, List.mem_cons, Prod.mk.injEq, Content.str.injEq, String.toList_inj, List.not_mem_nil,
        or_false] at hm
      rcases hm with ⟨rfl, rfl⟩ | ⟨rfl, rfl⟩
      · exact .inl rfl
      · exact .inr ⟨rfl, fun hp => by subst hp; cases h; rfl⟩
  rcases h2 with ⟨h2, h3⟩ | ⟨h2, h3⟩
  · simp only [serviceTimes, under, deployTimes, restartPolicyTimes, updateTimes, healthcheckTimes, List.map_cons, List.map_nil,
      List.cons_append, List.nil_append, List.mem_cons, List.not_mem_nil, or_false] at h2
    have : p = [.key "stop_grace_period"] := by
      rcases h2 with rfl | rfl | rfl | rfl | rfl | rfl | rfl | rfl | rfl | rfl | rfl | rfl | rfl <;>
        first | rfl | (exfalso; rcases hk h1 with h | ⟨h, -⟩ <;> revert h <;> decide)
    subst this
    rcases hk h1 with h | ⟨-, h⟩
    · revert h; decide
    · rw [h rfl] at h3
      have := (C09_duration_panics_iff _).2 h3
      revert this; decide
  · simp only [servicePorts, List.mem_cons, List.not_mem_nil, or_false] at h2
    subst h2
    rcases hk h1 with h | ⟨h, -⟩ <;> revert h <;> decide

/-- A file whose second service has a healthcheck that panics once its timeout is replaced. -/
example : (struct (Structs.compose sampleEnv)).de (Derive.mapping [("services".toList, Derive.mapping
    [("db".toList, Derive.mapping []), ("web".toList, Derive.mapping
      [("healthcheck".toList, Derive.mapping [("timeout".toList, hugeDuration)])])])]) = .panic := by
  have ok : ∃ r, (struct (Structs.compose sampleEnv)).de (Derive.mapping [("services".toList, Derive.mapping
      [("db".toList, Derive.mapping []), ("web".toList, Derive.mapping
        [("healthcheck".toList, Derive.mapping [("timeout".toList, .str "5s".toList)])])])]) = .ok r := ⟨_, rfl⟩
  obtain ⟨r, hr⟩ := ok
  refine C74_panics_there sampleEnv ⟨Structs.compose sampleEnv, inServices serviceTimes, inServices servicePorts⟩
    (by simp [timedStructs]) _ _ r hr [.key "services", .anyKey, .key "healthcheck", .key "timeout"]
    "18446744073709551616s".toList (.inl ⟨by decide, (C09_duration_panics_iff _).1 (by decide)⟩) ?_
  exact .key (before := []) (after := []) (.anyKey (before := [(.str "db".toList, Derive.mapping [])]) (after := [])
    (.key (before := []) (after := []) (.key (before := []) (after := []) .here)))

end Props
