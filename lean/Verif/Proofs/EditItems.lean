import Verif.Proofs.EditTypes
import Verif.Proofs.OrderStructs

/- Reading structs and whole files from documents in which one setting has been edited. -/

namespace Proofs
open Rust Compose Compose.Derive Compose.Codecs Spec
open Props hiding mapping entriesOf_mapping

/-! ### Fields -/

section
variable {α : Type} {key : String} {P : List Str → Prop}

theorem local_of_field {f : Field} (h : FieldLocal (fun p => P (f.key :: p)) f) : ItemLocal P (.field f) where
  field g hg := by obtain rfl := Item.field.inj hg; exact h
  flat g hg := by cases hg

theorem local_of_flat {f : Flat} (h : FlatLocal P f) : ItemLocal P (.flat f) where
  field g hg := by cases hg
  flat g hg := by obtain rfl := Item.flat.inj hg; exact h

theorem req_local {c : Codec α} (h : LocalOn (fun p => P (key.toList :: p)) c) : ItemLocal P (req key c) :=
  local_of_field fun p v w x y hp _ hv hx hy => h p v w x y hp hv hx hy

instance {c : Codec α} [h : Local c] : ItemEverywhere (req key c) := ⟨req_local h.all⟩

theorem edited_ne_unit {p : List Str} (hp : p ≠ []) {v w : Content} (h : Edited p v w) : v ≠ .unit := by
  cases h with
  | here => exact absurd rfl hp
  | _ => nofun

theorem opt_local {c : Codec α} (h : LocalOn (fun p => P (key.toList :: p)) c) : ItemLocal P (opt key c) :=
  local_of_field fun p v w x y hp hn hv hx hy => by
    change (option c).de v = .ok x at hx
    change (option c).de w = .ok y at hy
    rw [option_de (edited_ne_unit hn hv)] at hx
    rw [option_de (edited_ne_unit hn hv.symm)] at hy
    obtain ⟨x, h1, rfl⟩ := Outcome.map_eq_ok.1 hx
    obtain ⟨y, h2, rfl⟩ := Outcome.map_eq_ok.1 hy
    exact h p v w x y hp hv h1 h2

instance {c : Codec α} [h : Local c] : ItemEverywhere (opt key c) := ⟨opt_local h.all⟩

theorem noMap_local {f : Field} (h : NoMap f.codec) : ItemLocal P (.field f) :=
  local_of_field fun _ _ _ x _ _ hn hv hx _ => absurd hx (NoMap.no hn hv x)

instance {c : Codec (Option α)} [h : NoMap c] : ItemEverywhere (optWith key c) := ⟨noMap_local h⟩

instance : ItemEverywhere (flag key) := ⟨noMap_local (inferInstanceAs (NoMap bool))⟩

instance : ItemEverywhere (flagTrue key) := ⟨noMap_local (inferInstanceAs (NoMap bool))⟩

/-- If there are no items, then what is written is an empty mapping, or it is not read from mappings. -/
class EmptyMap (c : Codec (List α)) : Prop where
  ser : ∀ es x, c.de (.map es) = .ok x → c.ser [] = .map []

instance {c : Codec (List α)} [h : NoMap c] : EmptyMap c := ⟨fun es x hx => absurd hx (h.map es x)⟩
instance {k : Key} {c : Codec α} : EmptyMap (map k c) := ⟨fun _ _ _ => rfl⟩
instance {E : Env} : EmptyMap (Codecs.extraHosts E) := ⟨fun _ _ _ => rfl⟩
instance {E : Env} : EmptyMap (additionalContexts E) := ⟨fun _ _ _ => rfl⟩
instance : EmptyMap valueMap := ⟨fun _ _ _ => rfl⟩
instance : EmptyMap Structs.ulimits := ⟨fun _ _ _ => rfl⟩

theorem many_local {c : Codec (List α)} [he : EmptyMap c] (h : LocalOn (fun p => P (key.toList :: p)) c) : ItemLocal P (many key c) :=
  local_of_field fun p v w x y hp hn hv hx hy => by
    have hd := h p v w x y hp hv hx hy
    have hs : c.ser [] = .map [] := by
      cases p with
      | nil => exact absurd rfl hn
      | cons k p => obtain ⟨es, _, rfl, _⟩ := edited_maps hv; exact he.ser es x hx
    have e : ∀ x : List α, (if x.isEmpty then Content.map [] else c.ser x) = c.ser x := by
      intro x
      cases x with
      | nil => exact hs.symm
      | cons => rfl
    show DifferAt p (if x.isEmpty then .map [] else c.ser x) (if y.isEmpty then .map [] else c.ser y)
    rw [e, e]
    exact hd

instance {c : Codec (List α)} [EmptyMap c] [h : Local c] : ItemEverywhere (many key c) := ⟨many_local h.all⟩

instance : ItemEverywhere (many key cpuSet) := ⟨noMap_local (inferInstanceAs (NoMap cpuSet))⟩

instance : ItemEverywhere (manyListOrMap key) := ⟨local_of_field fun p v w x y _ hn hv hx hy => by
  have hd := Local.all (c := listOrMap) p v w x y trivial hv hx hy
  have hmap : ∀ {v x}, (∃ es, v = Content.map es) → listOrMap.de v = .ok x → ∃ m, x = .map m := by
    rintro _ x ⟨es, rfl⟩ hx
    obtain ⟨m, _, rfl⟩ := Outcome.map_eq_ok.1 hx
    exact ⟨m, rfl⟩
  cases p with
  | nil => exact absurd rfl hn
  | cons k p =>
    obtain ⟨es, fs, rfl, rfl⟩ := edited_maps hv
    obtain ⟨m, rfl⟩ := hmap ⟨es, rfl⟩ hx
    obtain ⟨m', rfl⟩ := hmap ⟨fs, rfl⟩ hy
    cases m <;> cases m' <;> exact hd⟩

end

/-! ### Flattened fields -/

instance : ItemEverywhere extensions := ⟨local_of_flat fun k p es fs x y _ h hx hy => by
  obtain ⟨l, h1, rfl⟩ := Outcome.map_eq_ok.1 hx
  obtain ⟨l', h2, rfl⟩ := Outcome.map_eq_ok.1 hy
  have := OneOff.differ (ser := id) (collect_edited (k := extensionKey) (R := fun x y => DifferAt p x y) h (by
    intro v w x y hv h1 h2
    cases h1; cases h2
    exact hv.differ) h1 h2) fun _ _ h => h
  simpa using this⟩

/-- One of several settings. -/
theorem oneOf_edited {α : Type} {fields : List (Alternative α)} {k : Str} {p : List Str} {es fs : List (Str × Content)}
    (h : EditedEntry k p es fs) {entry : α → Str × Content}
    (hu : ∀ f ∈ fields, ∀ g ∈ fields, ∀ v x y, f.key = g.key → f.denotes v x → g.denotes v y → entry x = entry y)
    (hd : ∀ f ∈ fields, ∀ g ∈ fields, ∀ v w x y, f.key = g.key → f.key = k → Edited p v w → f.denotes v x → g.denotes w y →
      DifferEntry k p [entry x] [entry y])
    {x y : α} (hx : OneOf fields es x) (hy : OneOf fields fs y) : DifferEntry k p [entry x] [entry y] := by
  obtain ⟨f, hf, ⟨v, ⟨h1, h1'⟩, h2⟩, h3⟩ := hx
  obtain ⟨g, hg, ⟨w, ⟨h4, h4'⟩, h5⟩, h6⟩ := hy
  have h1 : given es f.key = [v] := h1
  have h4 : given fs g.key = [w] := h4
  have hne : ∀ {k' : Str} {es : List (Str × Content)} {v : Content}, NotGiven es k' → given es k' = [v] → v ≠ .unit → False := by
    rintro k' es v h hv hu
    have h : given es k' = [] ∨ given es k' = [.unit] := h
    rw [hv] at h
    rcases h with h | h
    · cases h
    · cases h; exact hu rfl
  have hkey : f.key = g.key := by
    by_contra hne'
    by_cases hk : k = f.key
    · have := h.given_same (k' := g.key) (hk ▸ hne')
      exact hne (h3 g hg (Ne.symm hne')) (this.trans h4) h4'
    · have := h.given_same hk
      exact hne (h6 f hf hne') (this.symm.trans h1) h1'
  by_cases hk : k = f.key
  · subst hk
    rcases h.given with ⟨v', w', h7, h8, h9⟩ | ⟨_, ⟨w', h7, h8⟩ | ⟨v', h7, h8⟩⟩
    · rw [h1] at h7; cases h7
      rw [hkey, h4] at h8; cases h8
      exact hd f hf g hg _ _ _ _ hkey rfl h9 h2 h5
    · rw [h1] at h7; cases h7
    · rw [hkey, h4] at h8; cases h8
  · have := h.given_same hk
    rw [h1, hkey, h4] at this
    cases this
    rw [hu f hf g hg _ _ _ hkey h2 h5]
    exact .refl

theorem noneOf_edited {α : Type} {fields : List (Alternative α)} {k : Str} {p : List Str} {es fs : List (Str × Content)}
    (h : EditedEntry k p es fs) {entry : α → Str × Content} (he : ∀ f ∈ fields, ∀ v x, f.denotes v x → (entry x).1 = f.key) {y : α}
    (hx : NoneOf fields es) (hy : OneOf fields fs y) : DifferEntry k p [] [entry y] := by
  obtain ⟨g, hg, ⟨w, ⟨h4, h4'⟩, h5⟩, _⟩ := hy
  have h4 : given fs g.key = [w] := h4
  have hn : given es g.key = [] ∨ given es g.key = [.unit] := hx g hg
  have hk : k = g.key := by
    by_contra hk
    rw [h.given_same hk, h4] at hn
    rcases hn with hn | hn <;> cases hn
    exact h4' rfl
  have hp : p = [] := by
    rw [← hk] at hn
    cases p with
    | nil => rfl
    | cons k' p =>
      rcases h.given with ⟨v', w', h7, h8, h9⟩ | ⟨h7, _⟩
      · obtain ⟨_, _, rfl, _⟩ := edited_maps h9
        rw [h7] at hn
        rcases hn with hn | hn <;> cases hn
      · cases h7
  subst hp
  have e : entry y = (k, (entry y).2) := Prod.ext ((he g hg _ _ h5).trans hk.symm) rfl
  rw [e]
  exact .missingLeft (.refl _) .here

/-- An optional choice. -/
theorem optionalOf_edited {α : Type} {fields : List (Alternative α)} {k : Str} {p : List Str} {es fs : List (Str × Content)}
    (h : EditedEntry k p es fs) {entry : α → Str × Content} (he : ∀ f ∈ fields, ∀ v x, f.denotes v x → (entry x).1 = f.key)
    (ho : ∀ x y, OneOf fields es x → OneOf fields fs y → DifferEntry k p [entry x] [entry y]) {x y : Option α}
    (hx : (NoneOf fields es ∧ x = none) ∨ ∃ d, OneOf fields es d ∧ x = some d)
    (hy : (NoneOf fields fs ∧ y = none) ∨ ∃ d, OneOf fields fs d ∧ y = some d) :
    DifferEntry k p (x.toList.map entry) (y.toList.map entry) := by
  rcases hx with ⟨h1, rfl⟩ | ⟨x, h1, rfl⟩ <;> rcases hy with ⟨h2, rfl⟩ | ⟨y, h2, rfl⟩
  · exact .refl
  · exact noneOf_edited h he h1 h2
  · have := noneOf_edited h.symm he h2 h1
    exact this.symm
  · exact ho x y h1 h2

/-- A choice of strings. -/
theorem textOf_edited {α : Type} {fields : List (Alternative α)} {k : Str} {p : List Str} {es fs : List (Str × Content)}
    (h : EditedEntry k p es fs) {entry : α → Str × Content}
    (he : ∀ f ∈ fields, ∀ v x, f.denotes v x → (∃ s, v = .str s) ∧ entry x = (f.key, v))
    {x y : α} (hx : OneOf fields es x) (hy : OneOf fields fs y) : DifferEntry k p [entry x] [entry y] := by
  refine oneOf_edited h (fun f hf g hg v x y hk h1 h2 => ?_) (fun f hf g hg v w x y hk hk' hv h1 h2 => ?_) hx hy
  · rw [(he f hf v x h1).2, (he g hg v y h2).2, hk]
  · rw [(he f hf v x h1).2, (he g hg w y h2).2, ← hk, hk']
    exact .value (.refl _) (.refl _) hv.differ

instance : ItemEverywhere dockerfile := ⟨local_of_flat fun k p es fs x y _ h hx hy => by
  have e : ∀ es x, Outcome.ofOption (Dockerfile.optionEntries es) = .ok x ↔
      (NoneOf dockerfileFields es ∧ x = none) ∨ ∃ d, OneOf dockerfileFields es d ∧ x = some d := fun es x => by
    have := C50_dockerfile es
    simp only [Dockerfile.deOption, entriesOf_props, Option.bind_some] at this
    exact (Outcome.ofOption_eq_ok).trans (option_iff this.1 this.2.1)
  have he : ∀ f ∈ dockerfileFields, ∀ v x, f.denotes v x → (∃ s, v = .str s) ∧ x.entry = (f.key, v) := by
    intro f hf v x hd
    simp only [dockerfileFields, List.mem_cons, List.not_mem_nil, or_false] at hf
    rcases hf with rfl | rfl <;> (obtain ⟨s, rfl, rfl⟩ := hd; exact ⟨⟨s, rfl⟩, rfl⟩)
  exact optionalOf_edited h (fun f hf v x hd => by rw [(he f hf v x hd).2]) (fun _ _ h1 h2 => textOf_edited h he h1 h2)
    ((e es x).1 hx) ((e fs y).1 hy)⟩

instance : ItemEverywhere configSource := ⟨local_of_flat fun k p es fs x y _ h hx hy => by
  have e : ∀ es x, Outcome.ofOption (ConfigSource.deEntries es) = .ok x ↔ OneOf configFields es x := fun es x => by
    have := C50_config_source es x
    simp only [ConfigSource.de, entriesOf_props, Option.bind_some] at this
    exact (Outcome.ofOption_eq_ok).trans this
  refine textOf_edited h ?_ ((e es x).1 hx) ((e fs y).1 hy)
  intro f hf v x hd
  simp only [configFields, List.mem_cons, List.not_mem_nil, or_false] at hf
  rcases hf with rfl | rfl | rfl <;> (obtain ⟨s, rfl, rfl⟩ := hd; exact ⟨⟨s, rfl⟩, rfl⟩)⟩

instance : ItemEverywhere secretSource := ⟨local_of_flat fun k p es fs x y _ h hx hy => by
  have e : ∀ es x, Outcome.ofOption (SecretSource.deEntries es) = .ok x ↔ OneOf secretFields es x := fun es x => by
    have := C50_secret_source es x
    simp only [SecretSource.de, entriesOf_props, Option.bind_some] at this
    exact (Outcome.ofOption_eq_ok).trans this
  refine textOf_edited h ?_ ((e es x).1 hx) ((e fs y).1 hy)
  intro f hf v x hd
  simp only [secretFields, List.mem_cons, List.not_mem_nil, or_false] at hf
  rcases hf with rfl | rfl <;> (obtain ⟨s, rfl, rfl⟩ := hd; exact ⟨⟨s, rfl⟩, rfl⟩)⟩

/-! ### Parts of services -/

instance : ItemsEverywhere Structs.ulimit := inferInstanceAs (ItemsEverywhere [_, _, _])

instance : Local Structs.ulimits := inferInstanceAs (Local (map _ (shortOrLong _ (struct Structs.ulimit))))

instance : ItemsEverywhere Structs.envFileConfig := inferInstanceAs (ItemsEverywhere [_, _])

instance : NoMap Structs.envFile := ⟨nofun⟩

instance : ItemsEverywhere Structs.dependency := inferInstanceAs (ItemsEverywhere [_, _, _])

instance : ItemEverywhere Structs.dependsOn := ⟨local_of_field fun p v w x y _ hn hv hx hy => by
  have hx : (shortOrLong (Codecs.set identifier) (map identifierKey (struct Structs.dependency))).de v = .ok x := hx
  have hy : (shortOrLong (Codecs.set identifier) (map identifierKey (struct Structs.dependency))).de w = .ok y := hy
  have hd := Local.all (c := shortOrLong (Codecs.set identifier) (map identifierKey (struct Structs.dependency))) p v w x y trivial hv hx hy
  cases p with
  | nil => exact absurd rfl hn
  | cons k p =>
    obtain ⟨es, fs, rfl, rfl⟩ := edited_maps hv
    obtain ⟨m, _, rfl⟩ := Outcome.map_eq_ok.1 hx
    obtain ⟨m', _, rfl⟩ := Outcome.map_eq_ok.1 hy
    cases m <;> cases m' <;> exact hd⟩

instance {E : Env} : NoMap (Structs.ports E) := ⟨nofun⟩
instance {E : Env} : NoMap (Structs.volumes E) := ⟨nofun⟩

/-! ### Structs -/

instance {E : Env} : ItemsEverywhere (Structs.ipamConfig E) := by unfold Structs.ipamConfig; infer_instance
instance {E : Env} : ItemsEverywhere (Structs.ipam E) := by unfold Structs.ipam; infer_instance
instance {E : Env} : ItemsEverywhere (Structs.network E) := by unfold Structs.network; infer_instance
instance : ItemsEverywhere Structs.volume := by unfold Structs.volume; infer_instance
instance : ItemsEverywhere Structs.config := by unfold Structs.config; infer_instance
instance : ItemsEverywhere Structs.secret := by unfold Structs.secret; infer_instance
instance : ItemsEverywhere Structs.«include» := by unfold Structs.«include»; infer_instance
instance : ItemsEverywhere Structs.bpsLimit := by unfold Structs.bpsLimit; infer_instance
instance : ItemsEverywhere Structs.iopsLimit := by unfold Structs.iopsLimit; infer_instance
instance : ItemsEverywhere Structs.weightDevice := by unfold Structs.weightDevice; infer_instance
instance : ItemsEverywhere Structs.blkioConfig := by unfold Structs.blkioConfig; infer_instance
instance : ItemsEverywhere Structs.configOrSecret := by unfold Structs.configOrSecret; infer_instance
instance {E : Env} : ItemsEverywhere (Structs.build E) := by unfold Structs.build; infer_instance
instance : ItemsEverywhere Structs.preference := by unfold Structs.preference; infer_instance
instance : ItemsEverywhere Structs.placement := by unfold Structs.placement; infer_instance
instance : ItemsEverywhere Structs.restartPolicy := by unfold Structs.restartPolicy; infer_instance
instance : ItemsEverywhere Structs.updateOrRollbackConfig := by unfold Structs.updateOrRollbackConfig; infer_instance
instance {E : Env} : ItemsEverywhere (Structs.limits E) := by unfold Structs.limits; infer_instance
instance : ItemsEverywhere Structs.discreteResourceSpec := by unfold Structs.discreteResourceSpec; infer_instance
instance : ItemsEverywhere Structs.genericResource := by unfold Structs.genericResource; infer_instance
instance : ItemsEverywhere Structs.resourceDevice := by unfold Structs.resourceDevice; infer_instance
instance {E : Env} : ItemsEverywhere (Structs.reservations E) := by unfold Structs.reservations; infer_instance
instance {E : Env} : ItemsEverywhere (Structs.resources E) := by unfold Structs.resources; infer_instance
instance {E : Env} : ItemsEverywhere (Structs.deploy E) := by unfold Structs.deploy; infer_instance
instance : ItemsEverywhere Structs.watchRule := by unfold Structs.watchRule; infer_instance
instance : ItemsEverywhere Structs.develop := by unfold Structs.develop; infer_instance
instance : ItemsEverywhere Structs.extend := by unfold Structs.extend; infer_instance
instance : ItemsEverywhere Structs.logging := by unfold Structs.logging; infer_instance
instance {E : Env} : ItemsEverywhere (Structs.port E) := by unfold Structs.port; infer_instance
instance : ItemsEverywhere Structs.common := by unfold Structs.common; infer_instance
instance : ItemsEverywhere Structs.volumeOptions := by unfold Structs.volumeOptions; infer_instance
instance : ItemsEverywhere Structs.mountVolume := by unfold Structs.mountVolume; infer_instance
instance : ItemsEverywhere Structs.bindOptions := by unfold Structs.bindOptions; infer_instance
instance : ItemsEverywhere Structs.mountBind := by unfold Structs.mountBind; infer_instance
instance : ItemsEverywhere Structs.tmpfsOptions := by unfold Structs.tmpfsOptions; infer_instance
instance : ItemsEverywhere Structs.mountTmpfs := by unfold Structs.mountTmpfs; infer_instance
instance : ItemsEverywhere Structs.mountNamedPipe := by unfold Structs.mountNamedPipe; infer_instance
instance : ItemsEverywhere Structs.mountCluster := by unfold Structs.mountCluster; infer_instance
instance {E : Env} : ItemsEverywhere (Structs.serviceNetwork E) := by unfold Structs.serviceNetwork; infer_instance

instance {E : Env} : Local (Structs.networks E) :=
  inferInstanceAs (Local (shortOrLong (Codecs.set identifier) (map identifierKey (option (struct (Structs.serviceNetwork E))))))

instance {E : Env} : ItemEverywhere (Structs.networkConfig E) := ⟨local_of_flat fun k p es fs x y _ h hx hy => by
  have hm : ∀ c n, ((Structs.networks E).de c).toOption = some n ↔ (Structs.networks E).de c = .ok n := fun _ _ => toOption_some
  have e : ∀ es x, Outcome.ofOption (NetworkConfigOf.optionEntries (fun c => ((Structs.networks E).de c).toOption) es) = .ok x ↔
      (NoneOf (networkFields fun c n => ((Structs.networks E).de c).toOption = some n) es ∧ x = none) ∨
        ∃ d, OneOf (networkFields fun c n => ((Structs.networks E).de c).toOption = some n) es d ∧ x = some d := fun es x => by
    have := C50_network_config (fun c => ((Structs.networks E).de c).toOption) es
    simp only [NetworkConfigOf.deOption, entriesOf_props, Option.bind_some] at this
    exact (Outcome.ofOption_eq_ok).trans (option_iff this.1 this.2.1)
  have hx : Outcome.ofOption (NetworkConfigOf.optionEntries (fun c => ((Structs.networks E).de c).toOption) es) = .ok x := hx
  have hy : Outcome.ofOption (NetworkConfigOf.optionEntries (fun c => ((Structs.networks E).de c).toOption) fs) = .ok y := hy
  refine optionalOf_edited (entry := NetworkConfigOf.entry (Structs.networks E).ser) h ?_ ?_ ((e es x).1 hx) ((e fs y).1 hy)
  · intro f hf v x hd
    simp only [networkFields, List.mem_cons, List.not_mem_nil, or_false] at hf
    rcases hf with rfl | rfl
    · obtain ⟨s, m, _, _, rfl⟩ := hd; rfl
    · obtain ⟨n, _, rfl⟩ := hd; rfl
  · intro x y h1 h2
    refine oneOf_edited h (entry := NetworkConfigOf.entry (Structs.networks E).ser) ?_ ?_ h1 h2
    · intro f hf g hg v x y hk h1 h2
      simp only [networkFields, List.mem_cons, List.not_mem_nil, or_false] at hf hg
      rcases hf with rfl | rfl <;> rcases hg with rfl | rfl
      · obtain ⟨s, m, rfl, h3, rfl⟩ := h1
        obtain ⟨s', m', h4, h5, rfl⟩ := h2
        cases h4
        have := ((C42_network_mode_accepts _ _).2 h3).symm.trans ((C42_network_mode_accepts _ _).2 h5)
        rw [Except.ok.inj this]
      · exact absurd (show "network_mode".toList = "networks".toList from hk) (by decide)
      · exact absurd (show "networks".toList = "network_mode".toList from hk) (by decide)
      · obtain ⟨n, h3, rfl⟩ := h1
        obtain ⟨n', h4, rfl⟩ := h2
        rw [h3] at h4; cases h4; rfl
    · intro f hf g hg v w x y hk hk' hv h1 h2
      simp only [networkFields, List.mem_cons, List.not_mem_nil, or_false] at hf hg
      rcases hf with rfl | rfl <;> rcases hg with rfl | rfl
      · obtain ⟨s, m, rfl, h3, rfl⟩ := h1
        obtain ⟨s', m', rfl, h5, rfl⟩ := h2
        subst hk'
        cases hv
        exact .value (.refl _) (.refl _) .here
      · exact absurd (show "network_mode".toList = "networks".toList from hk) (by decide)
      · exact absurd (show "networks".toList = "network_mode".toList from hk) (by decide)
      · obtain ⟨n, h3, rfl⟩ := h1
        obtain ⟨n', h4, rfl⟩ := h2
        subst hk'
        exact .value (.refl _) (.refl _) (Local.all (c := Structs.networks E) p v w n n' trivial hv ((hm _ _).1 h3) ((hm _ _).1 h4))⟩

end Proofs
