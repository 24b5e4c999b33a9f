import Verif.Proofs.StructTables

/- What the properties need to know of every struct of the library. -/

namespace Proofs
open Rust Compose Compose.Derive Compose.Codecs Compose.Structs Spec
open Props hiding mapping entriesOf_mapping

/-- The keys of the fields without a default. -/
def requiredKeys : List Item → List Str
  | [] => []
  | .field f :: is => if f.default.isNone then f.key :: requiredKeys is else requiredKeys is
  | .flat _ :: is => requiredKeys is

theorem mem_requiredKeys {is : List Item} {k : Str} :
    k ∈ requiredKeys is ↔ ∃ f, .field f ∈ is ∧ f.key = k ∧ f.default = none := by
  induction is with
  | nil => simp [requiredKeys]
  | cons i is ih =>
    cases i with
    | flat f => simp [requiredKeys, ih]
    | field f =>
      rw [requiredKeys]
      split
      · rename_i h
        rw [Option.isNone_iff_eq_none] at h
        simp only [List.mem_cons, ih]
        constructor
        · rintro (rfl | ⟨g, h1, h2⟩)
          · exact ⟨f, .inl rfl, rfl, h⟩
          · exact ⟨g, .inr h1, h2⟩
        · rintro ⟨g, h1 | h1, h2, h3⟩
          · exact .inl (by rw [← h2, Item.field.inj h1])
          · exact .inr ⟨g, h1, h2, h3⟩
      · rename_i h
        rw [Option.isNone_iff_eq_none] at h
        rw [ih]
        constructor
        · rintro ⟨g, h1, h2⟩
          exact ⟨g, by simp [h1], h2⟩
        · rintro ⟨g, h1, h2, h3⟩
          rcases List.mem_cons.1 h1 with h1 | h1
          · rw [Item.field.inj h1] at h3; exact absurd h3 h
          · exact ⟨g, h1, h2, h3⟩

/-- What becomes of keys that belong to no field, in terms of the fields. -/
def RestIs (is : List Item) : Rest → Prop
  | .ignored => noFlat is = true
  | .extensions => is.getLast? = some extensions
  | .common => is.getLast? = some (nested Structs.common)

/-- What the properties need to know. -/
structure Known (E : Env) (s : StructInfo) : Prop where
  keys : ownKeys s.fields = s.keyTexts
  good : GoodFields s.fields
  noExt : ∀ k ∈ s.keyTexts, ¬ "x-".toList <+: k
  stable : ∀ f, .flat f ∈ s.fields → Stable f
  laws : ∀ f, .flat f ∈ s.fields → SameLaws f
  written : ∀ i ∈ s.fields, ItemWritten s.keyTexts i
  atEnd : restAtEnd s.fields = true
  keyed : ∀ i ∈ s.fields, ItemKeyed (s.oneOf.map String.toList) i
  required : requiredKeys s.fields = s.required.map String.toList
  oneOf : s.oneOf = [] ∨ ∃ f, .flat f ∈ s.fields ∧ f.keys = some (s.oneOf.map String.toList)
  rest : RestIs s.fields s.rest
  panics : ∀ P, (s.timed = true → DurationPanics P ∧ PortPanics E P) → ItemsPanicOn P s.fields

theorem known {E : Env} {s : StructInfo} {own : List Str} [k : Keys s.fields own] [d : DistinctKeys own]
    (hk : s.keyTexts = own) [st : ItemsStable s.fields] [w : ItemsWritten own s.fields] (atEnd : restAtEnd s.fields = true)
    {one : List Str} (ho : s.oneOf.map String.toList = one) [kd : ItemsKeyed one s.fields]
    (required : requiredKeys s.fields = s.required.map String.toList)
    (oneOf : s.oneOf = [] ∨ ∃ f, .flat f ∈ s.fields ∧ f.keys = some (s.oneOf.map String.toList))
    (rest : RestIs s.fields s.rest)
    (panics : ∀ P, (s.timed = true → DurationPanics P ∧ PortPanics E P) → ItemsPanicOn P s.fields) : Known E s where
  keys := k.eq.trans hk.symm
  good := table_good
  noExt := hk ▸ d.no
  stable := st.stable
  laws := st.laws
  written := hk ▸ w.all
  atEnd := atEnd
  keyed := ho ▸ kd.all
  required := required
  oneOf := oneOf
  rest := rest
  panics := panics

section
variable {E : Env} {P : Str → Prop}

theorem timed_items {is : List Item} (h : DurationPanics P → PortPanics E P → ItemsPanicOn P is)
    (ht : true = true → DurationPanics P ∧ PortPanics E P) : ItemsPanicOn P is := h (ht rfl).1 (ht rfl).2
end

theorem file_known (E : Env) : Known E (file E) := by
  unfold file
  exact known (own := composeKeys) rfl rfl (one := []) rfl rfl (.inl rfl) rfl fun _ h => timed_items (fun _ _ => inferInstance) h

theorem parts_known (E : Env) : ∀ s ∈ parts E, Known E s := by
  unfold parts
  refine List.forall_mem_cons.2 ⟨known (own := ipamConfigKeys) rfl rfl (one := []) rfl rfl (.inl rfl) rfl
    (fun _ _ => inferInstance), ?_⟩
  refine List.forall_mem_cons.2 ⟨known (own := ipamKeys) rfl rfl (one := []) rfl rfl (.inl rfl) rfl
    (fun _ _ => inferInstance), ?_⟩
  refine List.forall_mem_cons.2 ⟨known (own := networkKeys) rfl rfl (one := []) rfl rfl (.inl rfl) rfl
    (fun _ _ => inferInstance), ?_⟩
  refine List.forall_mem_cons.2 ⟨known (own := volumeKeys) rfl rfl (one := []) rfl rfl (.inl rfl) rfl
    (fun _ _ => inferInstance), ?_⟩
  refine List.forall_mem_cons.2 ⟨known (own := configKeys) rfl rfl (one := ["file".toList, "environment".toList, "content".toList]) rfl rfl (.inr ⟨_, List.mem_cons_self, rfl⟩) rfl
    (fun _ _ => inferInstance), ?_⟩
  refine List.forall_mem_cons.2 ⟨known (own := secretKeys) rfl rfl (one := ["file".toList, "environment".toList]) rfl rfl (.inr ⟨_, List.mem_cons_self, rfl⟩) rfl
    (fun _ _ => inferInstance), ?_⟩
  refine List.forall_mem_cons.2 ⟨known (own := includeKeys) rfl rfl (one := []) rfl rfl (.inl rfl) rfl
    (fun _ _ => inferInstance), ?_⟩
  refine List.forall_mem_cons.2 ⟨known (own := bpsLimitKeys) rfl rfl (one := []) rfl rfl (.inl rfl) rfl
    (fun _ _ => inferInstance), ?_⟩
  refine List.forall_mem_cons.2 ⟨known (own := iopsLimitKeys) rfl rfl (one := []) rfl rfl (.inl rfl) rfl
    (fun _ _ => inferInstance), ?_⟩
  refine List.forall_mem_cons.2 ⟨known (own := weightDeviceKeys) rfl rfl (one := []) rfl rfl (.inl rfl) rfl
    (fun _ _ => inferInstance), ?_⟩
  refine List.forall_mem_cons.2 ⟨known (own := blkioConfigKeys) rfl rfl (one := []) rfl rfl (.inl rfl) rfl
    (fun _ _ => inferInstance), ?_⟩
  refine List.forall_mem_cons.2 ⟨known (own := configOrSecretKeys) rfl rfl (one := []) rfl rfl (.inl rfl) rfl
    (fun _ _ => inferInstance), ?_⟩
  refine List.forall_mem_cons.2 ⟨known (own := ulimitKeys) rfl rfl (one := []) rfl rfl (.inl rfl) rfl
    (fun _ _ => inferInstance), ?_⟩
  refine List.forall_mem_cons.2 ⟨known (own := buildKeys) rfl rfl (one := []) rfl rfl (.inl rfl) rfl
    (fun _ _ => inferInstance), ?_⟩
  refine List.forall_mem_cons.2 ⟨known (own := preferenceKeys) rfl rfl (one := []) rfl rfl (.inl rfl) rfl
    (fun _ _ => inferInstance), ?_⟩
  refine List.forall_mem_cons.2 ⟨known (own := placementKeys) rfl rfl (one := []) rfl rfl (.inl rfl) rfl
    (fun _ _ => inferInstance), ?_⟩
  refine List.forall_mem_cons.2 ⟨known (own := restartPolicyKeys) rfl rfl (one := []) rfl rfl (.inl rfl) rfl
    (fun _ h => timed_items (fun _ _ => inferInstance) h), ?_⟩
  refine List.forall_mem_cons.2 ⟨known (own := updateOrRollbackConfigKeys) rfl rfl (one := []) rfl rfl (.inl rfl) rfl
    (fun _ h => timed_items (fun _ _ => inferInstance) h), ?_⟩
  refine List.forall_mem_cons.2 ⟨known (own := limitsKeys) rfl rfl (one := []) rfl rfl (.inl rfl) rfl
    (fun _ _ => inferInstance), ?_⟩
  refine List.forall_mem_cons.2 ⟨known (own := discreteResourceSpecKeys) rfl rfl (one := []) rfl rfl (.inl rfl) rfl
    (fun _ _ => inferInstance), ?_⟩
  refine List.forall_mem_cons.2 ⟨known (own := genericResourceKeys) rfl rfl (one := []) rfl rfl (.inl rfl) rfl
    (fun _ _ => inferInstance), ?_⟩
  refine List.forall_mem_cons.2 ⟨known (own := resourceDeviceKeys) rfl rfl (one := []) rfl rfl (.inl rfl) rfl
    (fun _ _ => inferInstance), ?_⟩
  refine List.forall_mem_cons.2 ⟨known (own := reservationsKeys) rfl rfl (one := []) rfl rfl (.inl rfl) rfl
    (fun _ _ => inferInstance), ?_⟩
  refine List.forall_mem_cons.2 ⟨known (own := resourcesKeys) rfl rfl (one := []) rfl rfl (.inl rfl) rfl
    (fun _ _ => inferInstance), ?_⟩
  refine List.forall_mem_cons.2 ⟨known (own := deployKeys) rfl rfl (one := []) rfl rfl (.inl rfl) rfl
    (fun _ h => timed_items (fun _ _ => inferInstance) h), ?_⟩
  refine List.forall_mem_cons.2 ⟨known (own := watchRuleKeys) rfl rfl (one := []) rfl rfl (.inl rfl) rfl
    (fun _ _ => inferInstance), ?_⟩
  refine List.forall_mem_cons.2 ⟨known (own := developKeys) rfl rfl (one := []) rfl rfl (.inl rfl) rfl
    (fun _ _ => inferInstance), ?_⟩
  refine List.forall_mem_cons.2 ⟨known (own := envFileConfigKeys) rfl rfl (one := []) rfl rfl (.inl rfl) rfl
    (fun _ _ => inferInstance), ?_⟩
  refine List.forall_mem_cons.2 ⟨known (own := dependencyKeys) rfl rfl (one := []) rfl rfl (.inl rfl) rfl
    (fun _ _ => inferInstance), ?_⟩
  refine List.forall_mem_cons.2 ⟨known (own := extendKeys) rfl rfl (one := []) rfl rfl (.inl rfl) rfl
    (fun _ _ => inferInstance), ?_⟩
  refine List.forall_mem_cons.2 ⟨known (own := loggingKeys) rfl rfl (one := []) rfl rfl (.inl rfl) rfl
    (fun _ _ => inferInstance), ?_⟩
  refine List.forall_mem_cons.2 ⟨known (own := portKeys) rfl rfl (one := []) rfl rfl (.inl rfl) rfl
    (fun _ _ => inferInstance), ?_⟩
  refine List.forall_mem_cons.2 ⟨known (own := commonKeys) rfl rfl (one := []) rfl rfl (.inl rfl) rfl
    (fun _ _ => inferInstance), ?_⟩
  refine List.forall_mem_cons.2 ⟨known (own := volumeOptionsKeys) rfl rfl (one := []) rfl rfl (.inl rfl) rfl
    (fun _ _ => inferInstance), ?_⟩
  refine List.forall_mem_cons.2 ⟨known (own := mountVolumeKeys) rfl rfl (one := []) rfl rfl (.inl rfl) rfl
    (fun _ _ => inferInstance), ?_⟩
  refine List.forall_mem_cons.2 ⟨known (own := bindOptionsKeys) rfl rfl (one := []) rfl rfl (.inl rfl) rfl
    (fun _ _ => inferInstance), ?_⟩
  refine List.forall_mem_cons.2 ⟨known (own := mountBindKeys) rfl rfl (one := []) rfl rfl (.inl rfl) rfl
    (fun _ _ => inferInstance), ?_⟩
  refine List.forall_mem_cons.2 ⟨known (own := tmpfsOptionsKeys) rfl rfl (one := []) rfl rfl (.inl rfl) rfl
    (fun _ _ => inferInstance), ?_⟩
  refine List.forall_mem_cons.2 ⟨known (own := mountTmpfsKeys) rfl rfl (one := []) rfl rfl (.inl rfl) rfl
    (fun _ _ => inferInstance), ?_⟩
  refine List.forall_mem_cons.2 ⟨known (own := mountNamedPipeKeys) rfl rfl (one := []) rfl rfl (.inl rfl) rfl
    (fun _ _ => inferInstance), ?_⟩
  refine List.forall_mem_cons.2 ⟨known (own := mountClusterKeys) rfl rfl (one := []) rfl rfl (.inl rfl) rfl
    (fun _ _ => inferInstance), ?_⟩
  refine List.forall_mem_cons.2 ⟨known (own := serviceNetworkKeys) rfl rfl (one := []) rfl rfl (.inl rfl) rfl
    (fun _ _ => inferInstance), ?_⟩
  refine List.forall_mem_cons.2 ⟨known (own := serviceKeys) rfl rfl (one := []) rfl rfl (.inl rfl) rfl
    (fun _ h => timed_items (fun _ _ => inferInstance) h), ?_⟩
  exact fun _ h => by cases h

theorem all_known (E : Env) : ∀ s ∈ structs E, Known E s :=
  List.forall_mem_cons.2 ⟨file_known E, parts_known E⟩

theorem parts_lawful (E : Env) [EnvOk E] : ∀ s ∈ parts E, Lawful (struct s.fields) := by
  unfold parts
  refine List.forall_mem_cons.2 ⟨inferInstanceAs (Lawful (struct (Structs.ipamConfig E))), ?_⟩
  refine List.forall_mem_cons.2 ⟨inferInstanceAs (Lawful (struct (Structs.ipam E))), ?_⟩
  refine List.forall_mem_cons.2 ⟨inferInstanceAs (Lawful (struct (Structs.network E))), ?_⟩
  refine List.forall_mem_cons.2 ⟨inferInstanceAs (Lawful (struct Structs.volume)), ?_⟩
  refine List.forall_mem_cons.2 ⟨inferInstanceAs (Lawful (struct Structs.config)), ?_⟩
  refine List.forall_mem_cons.2 ⟨inferInstanceAs (Lawful (struct Structs.secret)), ?_⟩
  refine List.forall_mem_cons.2 ⟨inferInstanceAs (Lawful (struct Structs.«include»)), ?_⟩
  refine List.forall_mem_cons.2 ⟨inferInstanceAs (Lawful (struct Structs.bpsLimit)), ?_⟩
  refine List.forall_mem_cons.2 ⟨inferInstanceAs (Lawful (struct Structs.iopsLimit)), ?_⟩
  refine List.forall_mem_cons.2 ⟨inferInstanceAs (Lawful (struct Structs.weightDevice)), ?_⟩
  refine List.forall_mem_cons.2 ⟨inferInstanceAs (Lawful (struct Structs.blkioConfig)), ?_⟩
  refine List.forall_mem_cons.2 ⟨inferInstanceAs (Lawful (struct Structs.configOrSecret)), ?_⟩
  refine List.forall_mem_cons.2 ⟨inferInstanceAs (Lawful (struct Structs.ulimit)), ?_⟩
  refine List.forall_mem_cons.2 ⟨inferInstanceAs (Lawful (struct (Structs.build E))), ?_⟩
  refine List.forall_mem_cons.2 ⟨inferInstanceAs (Lawful (struct Structs.preference)), ?_⟩
  refine List.forall_mem_cons.2 ⟨inferInstanceAs (Lawful (struct Structs.placement)), ?_⟩
  refine List.forall_mem_cons.2 ⟨inferInstanceAs (Lawful (struct Structs.restartPolicy)), ?_⟩
  refine List.forall_mem_cons.2 ⟨inferInstanceAs (Lawful (struct Structs.updateOrRollbackConfig)), ?_⟩
  refine List.forall_mem_cons.2 ⟨inferInstanceAs (Lawful (struct (Structs.limits E))), ?_⟩
  refine List.forall_mem_cons.2 ⟨inferInstanceAs (Lawful (struct Structs.discreteResourceSpec)), ?_⟩
  refine List.forall_mem_cons.2 ⟨inferInstanceAs (Lawful (struct Structs.genericResource)), ?_⟩
  refine List.forall_mem_cons.2 ⟨inferInstanceAs (Lawful (struct Structs.resourceDevice)), ?_⟩
  refine List.forall_mem_cons.2 ⟨inferInstanceAs (Lawful (struct (Structs.reservations E))), ?_⟩
  refine List.forall_mem_cons.2 ⟨inferInstanceAs (Lawful (struct (Structs.resources E))), ?_⟩
  refine List.forall_mem_cons.2 ⟨inferInstanceAs (Lawful (struct (Structs.deploy E))), ?_⟩
  refine List.forall_mem_cons.2 ⟨inferInstanceAs (Lawful (struct Structs.watchRule)), ?_⟩
  refine List.forall_mem_cons.2 ⟨inferInstanceAs (Lawful (struct Structs.develop)), ?_⟩
  refine List.forall_mem_cons.2 ⟨inferInstanceAs (Lawful (struct Structs.envFileConfig)), ?_⟩
  refine List.forall_mem_cons.2 ⟨inferInstanceAs (Lawful (struct Structs.dependency)), ?_⟩
  refine List.forall_mem_cons.2 ⟨inferInstanceAs (Lawful (struct Structs.extend)), ?_⟩
  refine List.forall_mem_cons.2 ⟨inferInstanceAs (Lawful (struct Structs.logging)), ?_⟩
  refine List.forall_mem_cons.2 ⟨inferInstanceAs (Lawful (struct (Structs.port E))), ?_⟩
  refine List.forall_mem_cons.2 ⟨inferInstanceAs (Lawful (struct Structs.common)), ?_⟩
  refine List.forall_mem_cons.2 ⟨inferInstanceAs (Lawful (struct Structs.volumeOptions)), ?_⟩
  refine List.forall_mem_cons.2 ⟨inferInstanceAs (Lawful (struct Structs.mountVolume)), ?_⟩
  refine List.forall_mem_cons.2 ⟨inferInstanceAs (Lawful (struct Structs.bindOptions)), ?_⟩
  refine List.forall_mem_cons.2 ⟨inferInstanceAs (Lawful (struct Structs.mountBind)), ?_⟩
  refine List.forall_mem_cons.2 ⟨inferInstanceAs (Lawful (struct Structs.tmpfsOptions)), ?_⟩
  refine List.forall_mem_cons.2 ⟨inferInstanceAs (Lawful (struct Structs.mountTmpfs)), ?_⟩
  refine List.forall_mem_cons.2 ⟨inferInstanceAs (Lawful (struct Structs.mountNamedPipe)), ?_⟩
  refine List.forall_mem_cons.2 ⟨inferInstanceAs (Lawful (struct Structs.mountCluster)), ?_⟩
  refine List.forall_mem_cons.2 ⟨inferInstanceAs (Lawful (struct (Structs.serviceNetwork E))), ?_⟩
  refine List.forall_mem_cons.2 ⟨inferInstanceAs (Lawful (struct (Structs.service E))), ?_⟩
  exact fun _ h => by cases h

/-! ### Compose files -/

/-- Reading gives back the valid values of a type up to a relation. -/
class LawfulUpTo {α : Type} (R : α → α → Prop) (c : Codec α) : Prop where
  read : ∀ x, c.valid x → ∃ y, c.de (c.ser x) = .ok y ∧ R x y

theorem given_none_of_not_mem {es : List (Str × Content)} {k : Str} (h : k ∉ es.map (·.1)) : lastValue es k = none := by
  unfold lastValue
  rw [Option.map_eq_none_iff, List.find?_eq_none]
  intro e he
  simp only [decide_eq_true_eq]
  rintro rfl
  exact h (List.mem_map_of_mem (List.mem_reverse.1 he))

theorem getLast_of_none {is : List Item} (h : restAtEnd is = true) {f : Flat} (hf : .flat f ∈ is) (hk : f.keys = none) :
    is.getLast? = some (.flat f) := by
  induction is with
  | nil => simp at hf
  | cons i is ih =>
    cases i with
    | field g =>
      have hm : .flat f ∈ is := by simpa using hf
      rw [List.getLast?_cons, ih (by simpa [restAtEnd] using h) hm, Option.getD_some]
    | flat g =>
      simp only [restAtEnd, Bool.and_eq_true, Bool.or_eq_true] at h
      rcases List.mem_cons.1 hf with e | hm
      · rw [← Item.flat.inj e, hk] at h
        have : is = [] := by simpa using h.1
        subst this
        rw [← Item.flat.inj e]; rfl
      · rw [List.getLast?_cons, ih h.2 hm, Option.getD_some]

theorem field_mem_ownKeys {is : List Item} {f : Field} (h : .field f ∈ is) : f.key ∈ ownKeys is := by
  induction is with
  | nil => simp at h
  | cons i is ih =>
    rcases List.mem_cons.1 h with rfl | hm
    · simp [ownKeys]
    · cases i <;> simp [ownKeys, ih hm]

theorem flat_mem_ownKeys {is : List Item} {f : Flat} (h : .flat f ∈ is) {ks : List Str} (hf : f.keys = some ks) {k : Str}
    (hk : k ∈ ks) : k ∈ ownKeys is := by
  induction is with
  | nil => simp at h
  | cons i is ih =>
    rcases List.mem_cons.1 h with rfl | hm
    · simp [ownKeys, hf, hk]
    · cases i <;> simp [ownKeys, ih hm]

theorem written_allowed {own : List Str} {allowed : Str → Prop} {is : List Item} (h : ∀ i ∈ is, ItemWritten own i)
    (hl : ∀ f, .flat f ∈ is → f.keys = none → ItemWrites allowed (.flat f)) {r : Record is} (hr : recordValid is r) :
    ∀ e ∈ write is r, e.1 ∈ ownKeys is ∨ allowed e.1 := by
  refine write_keys (allowed := fun k => k ∈ ownKeys is ∨ allowed k) (fun i hi => ?_) hr
  cases i with
  | field f => exact .inl (field_mem_ownKeys hi)
  | flat f =>
    cases hk : f.keys with
    | some ks =>
      intro x hx e hm
      refine .inl (flat_mem_ownKeys hi hk ?_)
      exact ((h _ hi).some f ks rfl hk x hx).subset (List.mem_map_of_mem hm)
    | none => exact fun x hx e he => .inr (hl f hi hk x hx e he)

/-- What is written beside the keys of the fields. -/
theorem rest_writes {is : List Item} {rest : Rest} (he : restAtEnd is = true) (hr : RestIs is rest) :
    ∀ f, .flat f ∈ is → f.keys = none → ItemWrites (RestKey rest) (.flat f) := by
  intro f hf hk
  cases rest with
  | ignored => exact absurd hf (noFlat_mem hr)
  | extensions =>
    have := getLast_of_none he hf hk
    rw [show is.getLast? = some extensions from hr] at this
    rw [← Option.some.inj this]
    exact fun x hx e he => hx.2 e he
  | common =>
    have := getLast_of_none he hf hk
    rw [show is.getLast? = some (nested Structs.common) from hr] at this
    rw [← Option.some.inj this]
    intro x hx e he
    exact written_allowed (own := commonKeys) (is := Structs.common) ItemsWritten.all (allowed := ExtensionKey)
      (fun g hg hk => by
        have := getLast_of_none rfl hg hk
        rw [show Structs.common.getLast? = some extensions from rfl] at this
        rw [← Option.some.inj this]
        exact fun x hx e he => hx.2 e he) hx e he

instance {E : Env} [EnvOk E] {is : List Item} {own : List Str} [Keys is own] [DistinctKeys own] [ItemsLawful own is]
    [ItemsStable is] [ItemsWritten own is] [hx : Fact (restAtEnd is = true ∧ is.getLast? = some extensions ∧ "external".toList ∉ own)] :
    LawfulUpTo (SameResource (same is)) (resource E is) where
  read x hv := by
    cases x with
    | external name =>
      exact ⟨.external name, Outcome.ofOption_eq_ok.2 (C60_external_round_trip _ _ _ _), .external name⟩
    | compose r =>
      obtain ⟨front, back, h1, h2, h3, h4⟩ := written_split (own := own) ItemsWritten.all hx.out.1 hv
      have h2 : (front.map (·.1)).Sublist own := Keys.eq (is := is) ▸ h2
      have hn := written_nodup (DistinctKeys.nodup (own := own)) h1 h2 h3 h4
      have hd : decode is (write is r) = .ok r := have := table_lawful (is := is); decode_of_lawful hv
      have he : "external".toList ∉ (write is r).map (·.1) := by
        intro hm
        obtain ⟨e, hm, h⟩ := List.mem_map.1 hm
        rcases written_allowed (own := own) ItemsWritten.all
            (rest_writes (rest := .extensions) hx.out.1 hx.out.2.1) hv e hm with h' | ⟨⟨t, ht⟩, -⟩
        · rw [h, Keys.eq (is := is)] at h'; exact hx.out.2.2 h'
        · rw [h] at ht; exact absurd (show 'e' = 'x' from (List.cons.inj ht).1) (by decide)
      have hf : (write is r).filter (·.1 ≠ "external".toList) = write is r := by
        refine List.filter_eq_self.2 fun e hm => ?_
        simp only [ne_eq, decide_not, Bool.not_eq_eq_eq_not, Bool.not_true, decide_eq_false_iff_not]
        exact fun h => he (h ▸ List.mem_map_of_mem hm)
      have hp : (write is r).Perm (E.order (write is r)) := (EnvOk.order _).symm
      obtain ⟨r', h5, h6⟩ := decode_perm table_good ItemsStable.stable hp hn hd
      refine ⟨.compose r', Outcome.ofOption_eq_ok.2 ((C60_compose _ _ _ _).2 ?_), .compose h6⟩
      refine ⟨write is r, write is r, rfl, .inl (given_none_of_not_mem he), ?_, ?_⟩
      · rw [hf, table_iff, IndexMap.collect_ok hn]
      · rw [h5]; rfl

instance {E : Env} : Fact (restAtEnd (Structs.network E) = true ∧ (Structs.network E).getLast? = some extensions ∧
    "external".toList ∉ networkKeys) := ⟨rfl, rfl, by decide +kernel⟩
instance : Fact (restAtEnd Structs.volume = true ∧ Structs.volume.getLast? = some extensions ∧
    "external".toList ∉ volumeKeys) := ⟨rfl, rfl, by decide +kernel⟩
instance : Fact (restAtEnd Structs.config = true ∧ Structs.config.getLast? = some extensions ∧
    "external".toList ∉ configKeys) := ⟨rfl, rfl, by decide +kernel⟩
instance : Fact (restAtEnd Structs.secret = true ∧ Structs.secret.getLast? = some extensions ∧
    "external".toList ∉ secretKeys) := ⟨rfl, rfl, by decide +kernel⟩

instance {E : Env} {is : List Item} : NotUnit (resource E is) := ⟨fun x h => by
  cases x with
  | external name => cases name <;> cases h
  | compose r => cases h⟩

instance {α : Type} {R : α → α → Prop} {c : Codec α} [h : LawfulUpTo R c] [hn : NotUnit c] :
    LawfulUpTo (SameOption R) (option c) where
  read x hx := by
    cases x with
    | none => exact ⟨none, rfl, .none⟩
    | some x =>
      obtain ⟨y, h1, h2⟩ := h.read x (hx x rfl)
      refine ⟨some y, ?_, .some h2⟩
      have hu := hn.ne x
      show (option c).de (c.ser x) = _
      generalize c.ser x = v at *
      cases v with
      | unit => exact absurd rfl hu
      | _ => exact Outcome.map_eq_ok.2 ⟨y, h1, rfl⟩

theorem readEntries_same {α : Type} {R : α → α → Prop} {key : Str → Option Str} {de : Content → Outcome Unit α}
    {ser : α → Content} {m : List (Str × α)}
    (h : ∀ e ∈ m, key e.1 = some e.1 ∧ ∃ y, de (ser e.2) = .ok y ∧ R e.2 y) :
    ∃ m', readEntries key de (m.map fun e => (e.1, ser e.2)) = .ok m' ∧ SameValues R m m' := by
  induction m with
  | nil => exact ⟨[], rfl, .nil⟩
  | cons e m ih =>
    simp only [List.mem_cons, forall_eq_or_imp] at h
    obtain ⟨⟨h1, y, h2, h3⟩, h4⟩ := h
    obtain ⟨m', h5, h6⟩ := ih h4
    exact ⟨(e.1, y) :: m', by simp [readEntries, h1, h2, h5], .cons ⟨rfl, h3⟩ h6⟩

theorem sameValues_keys {α : Type} {R : α → α → Prop} {m m' : List (Str × α)} (h : SameValues R m m') :
    m.map (·.1) = m'.map (·.1) := by
  induction h with
  | nil => rfl
  | cons h _ ih => simp [h.1, ih]

instance {α : Type} {R : α → α → Prop} {k : Key} [LawfulKey k] {c : Codec α} [h : LawfulUpTo R c] :
    LawfulUpTo (SameValues R) (map k c) where
  read m hm := by
    obtain ⟨m', h1, h2⟩ := readEntries_same (R := R) (key := k.parse) (de := c.de) (ser := c.ser) (m := m)
      fun e he => ⟨LawfulKey.read _ (hm.2 e he).1, h.read _ (hm.2 e he).2⟩
    refine ⟨m', ?_, h2⟩
    show Outcome.map IndexMap.collect ((Outcome.ofOption (entriesOf (Derive.mapping _))).bind _) = _
    rw [entriesOf_mapping, Outcome.ofOption_some, Outcome.bind_ok, h1, Outcome.map_ok,
      IndexMap.collect_ok (by
        have := hm.1
        rwa [sameValues_keys h2] at this)]

/-- A field that survives as it is. -/
theorem survives_field {own : List Str} {f : Field} (h : ItemLawful own (.field f)) {x : f.Ty} (hx : f.codec.valid x) :
    (f.skip x = true → f.default = some x) ∧ (f.skip x = false → f.codec.de (f.codec.ser x) = .ok x) :=
  ⟨h.lawful.1.skipped x hx, h.lawful.1.kept x hx⟩

/-- A map that survives up to a relation. -/
theorem survives_many {α : Type} {R : α → α → Prop} {k : Key} {c : Codec α} [LawfulKey k] [LawfulUpTo R c]
    {m : IndexMap Str α} (hm : (map k c).valid m) :
    ∃ m', ((m.isEmpty = true → some [] = some m') ∧ (m.isEmpty = false → (map k c).de ((map k c).ser m) = .ok m')) ∧
      SameValues R m m' := by
  cases m with
  | nil => exact ⟨[], ⟨fun _ => rfl, (fun h => by cases h)⟩, .nil⟩
  | cons e m =>
    obtain ⟨m', h1, h2⟩ := LawfulUpTo.read (R := SameValues R) (c := map k c) (e :: m) hm
    exact ⟨m', ⟨(fun h => by cases h), fun _ => h1⟩, h2⟩

theorem compose_survives {E : Env} [EnvOk E] (r : Record (Structs.compose E)) (hr : recordValid (Structs.compose E) r) :
    ∃ r', (struct (Structs.compose E)).de ((struct (Structs.compose E)).ser r) = .ok r' ∧ SameFile same E r r' := by
  have hw : WritesOwn (ownKeys (Structs.compose E)) (Structs.compose E) r := by
    rw [Keys.eq (is := Structs.compose E)]
    exact writesOwn_of_written ItemsWritten.all hr
  obtain ⟨version, name, inc, services, networks, volumes, configs, secrets, exts, u⟩ := r
  obtain ⟨h1, h2, h3, h4, h5, h6, h7, h8, h9, -⟩ := hr
  obtain ⟨networks', n1, n2⟩ := survives_many (R := SameOption (SameResource (same (Structs.network E)))) h5
  obtain ⟨volumes', v1, v2⟩ := survives_many (R := SameOption (SameResource (same Structs.volume))) h6
  obtain ⟨configs', c1, c2⟩ := survives_many (R := SameResource (same Structs.config)) h7
  obtain ⟨secrets', s1, s2⟩ := survives_many (R := SameResource (same Structs.secret)) h8
  refine ⟨(version, name, inc, services, networks', volumes', configs', secrets', exts, u), ?_,
    rfl, rfl, rfl, rfl, n2, v2, c2, s2, rfl⟩
  show (struct (Structs.compose E)).de (Derive.mapping (write (Structs.compose E) _)) = _
  rw [struct_de_mapping]
  refine (decode_write table_good _ hw).2 ⟨?_, ?_, ?_, ?_, n1, v1, c1, s1, ?_, trivial⟩
  · exact survives_field (own := composeKeys) (inferInstanceAs (ItemLawful composeKeys (opt "version" str))) h1
  · exact survives_field (own := composeKeys) (inferInstanceAs (ItemLawful composeKeys (opt "name" projectName))) h2
  · exact survives_field (own := composeKeys) (inferInstanceAs (ItemLawful composeKeys
      (many "include" (list (shortOrLong str (struct Structs.«include»)))))) h3
  · exact survives_field (own := composeKeys) (inferInstanceAs (ItemLawful composeKeys
      (req "services" (map identifierKey (struct (Structs.service E)))))) h4
  · exact (inferInstance : ItemLawful composeKeys extensions).lawful.1.read _ h9

theorem sameValues_imp {α : Type} {R S : α → α → Prop} (h : ∀ x y, R x y → S x y) {m m' : List (Str × α)}
    (hs : SameValues R m m') : SameValues S m m' := by
  induction hs with
  | nil => exact .nil
  | cons h1 _ ih => exact .cons ⟨h1.1, h _ _ h1.2⟩ ih

theorem sameOption_imp {α : Type} {R S : α → α → Prop} (h : ∀ x y, R x y → S x y) {x y : Option α}
    (hs : SameOption R x y) : SameOption S x y := by
  cases hs with
  | none => exact .none
  | some h1 => exact .some (h _ _ h1)

theorem sameResource_imp {α : Type} {R S : α → α → Prop} (h : ∀ x y, R x y → S x y) {x y : Resource α}
    (hs : SameResource R x y) : SameResource S x y := by
  cases hs with
  | external name => exact .external name
  | compose h1 => exact .compose (h _ _ h1)

/-- The Compose files that are the same differ at most in the order of extensions. -/
theorem sameFile_differ {E : Env} {r r' : Record (Structs.compose E)} (h : SameFile same E r r') : SameCompose E r r' := by
  obtain ⟨h1, h2, h3, h4, h5, h6, h7, h8, h9⟩ := h
  have hr : ∀ {is : List Item} [ItemsStable is] (x y : Resource (Record is)), SameResource (same is) x y →
      SameResource (SameRecord is) x y := fun _ _ h => sameResource_imp (fun _ _ => same_differ ItemsStable.laws) h
  exact ⟨h1, h2, h3, h4, sameValues_imp (fun _ _ => sameOption_imp hr) h5, sameValues_imp (fun _ _ => sameOption_imp hr) h6,
    sameValues_imp hr h7, sameValues_imp hr h8, h9⟩

end Proofs
