import Verif.Proofs.Null
import Verif.Props.Structs

/- C91: null for an optional setting means that there is none. -/

namespace Props
open Rust Compose Compose.Derive Spec Proofs

theorem mem_optionals {E : Env} {s : OptionalKeys} (hs : s ∈ optionals E) : s.info ∈ structs E := by
  obtain ⟨⟨i, o, d⟩, h, rfl⟩ := List.mem_map.1 hs
  exact (List.of_mem_zip h).1

/-- C91: the table of the optional keys has a line for every struct. -/
theorem C91_all_structs (E : Env) : (optionals E).map (·.info) = structs E := rfl

/-- C91: the optional keys are keys of the struct, and none of them is a required key. -/
theorem C91_optional_keys (E : Env) : ∀ s ∈ optionals E, ∀ k ∈ s.optional, k ∈ s.info.keys ∧ k ∉ s.info.required := by
  unfold optionals structs parts optionalKeys
  simp only [List.zip_cons_cons, List.zip_nil_left, List.map_cons, List.map_nil]
  repeat' (first
    | refine List.forall_mem_cons.2 ⟨?_, ?_⟩
    | (intro i hi; cases hi; done)
    | (unfold file; dsimp only; decide +kernel)
    | (dsimp only; decide +kernel))

theorem mem_nullKeys {o d : List String} {k : String} : k.toList ∈ nullKeys o d ↔ k ∈ o ∧ k ∉ d := by
  unfold nullKeys
  constructor
  · intro h
    obtain ⟨k', h1, h2⟩ := List.mem_map.1 h
    obtain rfl := String.toList_injective h2
    simpa using h1
  · intro h
    exact List.mem_map.2 ⟨k, by simpa using h, rfl⟩

/-- C91: null for an optional setting that is not a duration means the same as leaving the key out: a mapping with such
an entry, anywhere in it, is read exactly if it is read without the entry, and as the same value. -/
theorem C91_null_is_absent_partial (E : Env) (s : OptionalKeys) (hs : s ∈ optionals E) (k : String) (hk : k ∈ s.optional)
    (hd : k ∉ s.durations) (before after : List (Str × Content)) (h1 : ∀ e ∈ before, e.1 ≠ k.toList)
    (h2 : ∀ e ∈ after, e.1 ≠ k.toList) (r : Record s.info.fields) :
    (struct s.info.fields).de (Derive.mapping (before ++ (k.toList, .unit) :: after)) = .ok r ↔
    (struct s.info.fields).de (Derive.mapping (before ++ after)) = .ok r := by
  have kn := all_known E _ (mem_optionals hs)
  rw [struct_de_mapping, struct_de_mapping, decode_ok kn.good, decode_ok kn.good, kn.keys]
  exact standsFor_null (optionals_null E s hs) (mem_nullKeys.2 ⟨hk, hd⟩)
    (List.mem_map_of_mem (C91_optional_keys E s hs k hk).1) h1 h2 r

/-- The line of the restart policies. -/
def restartPolicyKeys : OptionalKeys :=
  ⟨⟨Structs.restartPolicy, ["condition", "delay", "max_attempts", "window"], [], [], .extensions, true⟩,
    ["condition", "delay", "max_attempts", "window"], ["delay", "window"]⟩

theorem restartPolicy_mem (E : Env) : restartPolicyKeys ∈ optionals E := by
  unfold optionals structs parts optionalKeys restartPolicyKeys
  simp only [List.zip_cons_cons, List.zip_nil_left, List.map_cons, List.map_nil, List.mem_cons, true_or, or_true]

/-- A restart policy with null for a setting, between others. -/
example : (struct Structs.restartPolicy).de (Derive.mapping [("delay".toList, .str "1s".toList), ("condition".toList, .unit),
    ("max_attempts".toList, .u64 2)]) = (struct Structs.restartPolicy).de (Derive.mapping [("delay".toList, .str "1s".toList),
    ("max_attempts".toList, .u64 2)]) := by
  have h := C91_null_is_absent_partial sampleEnv _ (restartPolicy_mem _) "condition" (by decide) (by decide)
    [("delay".toList, .str "1s".toList)] [("max_attempts".toList, .u64 2)] (by simp) (by simp)
    (none, some ⟨1, 0⟩, some 2, none, [], ())
  exact (h.2 rfl).trans (h.1 (h.2 rfl)).symm

/-- C91: null is an error for every other setting, which are the required ones, the flags, the collections and the
durations. -/
theorem C91_null_refused (E : Env) (s : OptionalKeys) (hs : s ∈ optionals E) (k : String) (hk : k ∈ s.info.keys)
    (hd : k ∉ s.optional ∨ k ∈ s.durations) (es : List (Str × Content)) (he : (k.toList, .unit) ∈ es)
    (r : Record s.info.fields) : (struct s.info.fields).de (Derive.mapping es) ≠ .ok r := by
  have kn := all_known E _ (mem_optionals hs)
  rw [struct_de_mapping, ne_eq, decode_ok kn.good]
  refine standsFor_not_null (optionals_null E s hs) (k := k.toList) (fun h => ?_) (kn.keys ▸ List.mem_map_of_mem hk) he r
  have := mem_nullKeys.1 h
  tauto

/-- Null for a duration, a collection and a required setting. -/
example : (∀ r, (struct Structs.restartPolicy).de (Derive.mapping [("max_attempts".toList, .u64 2), ("window".toList, .unit)]) ≠ .ok r) ∧
    (struct (Structs.network sampleEnv)).de (Derive.mapping [("labels".toList, .unit)]) = .err () ∧
    (struct Structs.«include»).de (Derive.mapping [("path".toList, .unit)]) = .err () :=
  ⟨C91_null_refused sampleEnv _ (restartPolicy_mem _) "window" (by decide) (.inr (by decide)) _ (by simp), rfl, rfl⟩

/-- C91 in full would be that null for an optional setting always means the same as leaving the key out.  This is false:
it is an error for the delay of a restart policy, which may be left out. -/
theorem C91_null_is_absent_false : ¬ ∀ (E : Env) (s : OptionalKeys), s ∈ optionals E → ∀ k ∈ s.optional,
    ∀ before after : List (Str × Content), (∀ e ∈ before, e.1 ≠ k.toList) → (∀ e ∈ after, e.1 ≠ k.toList) →
    ∀ r, (struct s.info.fields).de (Derive.mapping (before ++ (k.toList, .unit) :: after)) = .ok r ↔
      (struct s.info.fields).de (Derive.mapping (before ++ after)) = .ok r := by
  intro h
  have := (h sampleEnv _ (restartPolicy_mem _) "delay" (by decide) [] [] nofun nofun (none, none, none, none, [], ())).2 rfl
  cases this

/-- The keys of a health check. -/
def healthKeys : List String := ["disable", "test", "interval", "timeout", "retries", "start_period", "start_interval"]

theorem health_step_null {k : String} (hk : k ∈ healthKeys) (s s' : HealthState) : s.step (k.toList, .unit) ≠ .ok s' := by
  simp only [healthKeys, List.mem_cons, List.not_mem_nil, or_false] at hk
  rcases hk with rfl | rfl | rfl | rfl | rfl | rfl | rfl <;>
    simp [HealthState.step, durationOnce, deBool, disableOrTest, deUnsigned, deserializeDuration] <;> split_ifs <;> simp

theorem health_run_null {k : String} (hk : k ∈ healthKeys) {es : List (Str × Content)} (he : (k.toList, .unit) ∈ es)
    (s s' : HealthState) : s.run es ≠ .ok s' := by
  induction es generalizing s with
  | nil => cases he
  | cons e es ih =>
    rw [HealthState.run]
    rcases List.mem_cons.1 he with rfl | he
    · cases h : s.step (k.toList, .unit) with
      | ok s1 => exact absurd h (health_step_null hk s s1)
      | err => nofun
      | panic => nofun
    · cases h : s.step e with
      | ok s1 => exact ih he s1
      | err => nofun
      | panic => nofun

/-- C91: null is an error for every setting of a health check but the extensions. -/
theorem C91_health_check (k : String) (hk : k ∈ healthKeys) (es : List (Str × Content)) (he : (k.toList, .unit) ∈ es)
    (h : Healthcheck) : Healthcheck.deserialize (Derive.mapping es) ≠ .ok h := by
  rw [Derive.mapping, Healthcheck.deserialize, stringKeys_mapping]
  dsimp only
  cases hr : HealthState.run {} es with
  | ok s => exact absurd hr (health_run_null hk he _ s)
  | err => nofun
  | panic => nofun

/-- A health check, and one with null for a setting that could have been left out. -/
example : Healthcheck.deserialize (Derive.mapping [("retries".toList, .u64 3)]) =
      .ok (.command ⟨none, none, none, some 3, none, none, []⟩) ∧
    ∀ h, Healthcheck.deserialize (Derive.mapping [("retries".toList, .u64 3), ("timeout".toList, .unit)]) ≠ .ok h :=
  ⟨rfl, C91_health_check "timeout" (by decide) _ (by simp)⟩

theorem credential_run_null {k : String} (hk : k ∈ ["config", "file", "registry"]) {es : List (Str × Content)}
    (he : (k.toList, .unit) ∈ es) (s : Option CredentialKind × IndexMap Str Content) : CredentialSpec.run s es = none := by
  induction es generalizing s with
  | nil => cases he
  | cons e es ih =>
    rw [CredentialSpec.run]
    rcases List.mem_cons.1 he with rfl | he
    · have : CredentialSpec.step s (k.toList, .unit) = none := by
        simp only [List.mem_cons, List.not_mem_nil, or_false] at hk
        rcases hk with rfl | rfl | rfl <;> simp [CredentialSpec.step, deIdentifier, deString]
      rw [this]
    · cases CredentialSpec.step s e with
      | some s1 => exact ih he s1
      | none => rfl

/-- C91: null is an error for every setting of a credential spec but the extensions. -/
theorem C91_credential_spec (k : String) (hk : k ∈ ["config", "file", "registry"]) (es : List (Str × Content))
    (he : (k.toList, .unit) ∈ es) : CredentialSpec.de (Derive.mapping es) = none := by
  have : Compose.entriesOf (Derive.mapping es) = some es := stringKeys_mapping es
  rw [CredentialSpec.de, this, Option.bind_some, credential_run_null hk he]

/-- A credential spec, and one with null for another kind. -/
example : CredentialSpec.de (Derive.mapping [("file".toList, .str "a".toList)]) = some ⟨.file "a".toList, []⟩ ∧
    CredentialSpec.de (Derive.mapping [("file".toList, .str "a".toList), ("config".toList, .unit)]) = none :=
  ⟨rfl, C91_credential_spec "config" (by decide) _ (by simp)⟩

end Props
