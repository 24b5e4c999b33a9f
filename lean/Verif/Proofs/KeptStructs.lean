import Verif.Proofs.Kept

/- What is read of every struct from ordinary content is valid. -/

namespace Proofs
open Rust Compose Compose.Derive Compose.Codecs Spec Spec.Meaning
open Props hiding mapping entriesOf_mapping

instance {E : Env} : ListSafe (Structs.ipamConfig E) := ⟨fun h => by cases h⟩
instance {E : Env} : ItemsKept (Structs.ipamConfig E) := by unfold Structs.ipamConfig; infer_instance
instance {E : Env} : ListSafe (Structs.ipam E) := ⟨fun h => by cases h⟩
instance {E : Env} : ItemsKept (Structs.ipam E) := by unfold Structs.ipam; infer_instance
instance {E : Env} : ListSafe (Structs.network E) := ⟨fun h => by cases h⟩
instance {E : Env} : ItemsKept (Structs.network E) := by unfold Structs.network; infer_instance
instance : ListSafe Structs.volume := ⟨fun h => by cases h⟩
instance : ItemsKept Structs.volume := by unfold Structs.volume; infer_instance
instance : ListSafe Structs.config := ⟨fun h => by cases h⟩
instance : ItemsKept Structs.config := by unfold Structs.config; infer_instance
instance : ListSafe Structs.secret := ⟨fun h => by cases h⟩
instance : ItemsKept Structs.secret := by unfold Structs.secret; infer_instance
instance : ListSafe Structs.«include» := ⟨fun _ => by decide +kernel⟩
instance : ItemsKept Structs.«include» := by unfold Structs.«include»; infer_instance
instance : ListSafe Structs.bpsLimit := ⟨fun _ => by decide +kernel⟩
instance : ItemsKept Structs.bpsLimit := by unfold Structs.bpsLimit; infer_instance
instance : ListSafe Structs.iopsLimit := ⟨fun _ => by decide +kernel⟩
instance : ItemsKept Structs.iopsLimit := by unfold Structs.iopsLimit; infer_instance
instance : ListSafe Structs.weightDevice := ⟨fun _ => by decide +kernel⟩
instance : ItemsKept Structs.weightDevice := by unfold Structs.weightDevice; infer_instance
instance : ListSafe Structs.blkioConfig := ⟨fun _ => by decide +kernel⟩
instance : ItemsKept Structs.blkioConfig := by unfold Structs.blkioConfig; infer_instance
instance : ListSafe Structs.configOrSecret := ⟨fun h => by cases h⟩
instance : ItemsKept Structs.configOrSecret := by unfold Structs.configOrSecret; infer_instance
instance : ListSafe Structs.ulimit := ⟨fun h => by cases h⟩
instance : ItemsKept Structs.ulimit := by unfold Structs.ulimit; infer_instance
instance : Kept Structs.ulimits := inferInstanceAs (Kept (map ulimitKey (shortOrLong (limit u64Max) (struct Structs.ulimit))))
instance : EmptyKept Structs.ulimits :=
  inferInstanceAs (EmptyKept (map ulimitKey (shortOrLong (limit u64Max) (struct Structs.ulimit))))

instance {E : Env} : ListSafe (Structs.build E) := ⟨fun h => by cases h⟩
instance {E : Env} [UrlOk E] : ItemsKept (Structs.build E) := by unfold Structs.build; infer_instance
instance : Kept Structs.deployMode := inferInstanceAs (Kept (keyword _ _))
instance : Kept Structs.restartCondition := inferInstanceAs (Kept (keyword _ _))
instance : Kept Structs.failureAction := inferInstanceAs (Kept (keyword _ _))
instance : Kept Structs.order := inferInstanceAs (Kept (keyword _ _))
instance : Kept Structs.action := inferInstanceAs (Kept (keyword _ _))
instance : Kept Structs.condition := inferInstanceAs (Kept (keyword _ _))
instance : Kept Structs.cgroup := inferInstanceAs (Kept (keyword _ _))
instance : Kept Structs.uts := inferInstanceAs (Kept (keyword _ _))
instance : Kept Structs.pullPolicy := inferInstanceAs (Kept (keyword _ _))
instance : Kept Structs.restart := inferInstanceAs (Kept (keyword _ _))
instance : Kept Structs.portMode := inferInstanceAs (Kept (keyword _ _))
instance : Kept Structs.bindPropagation := inferInstanceAs (Kept (keyword _ _))

instance : ListSafe Structs.preference := ⟨fun h => by cases h⟩
instance : ItemsKept Structs.preference := by unfold Structs.preference; infer_instance
instance : ListSafe Structs.placement := ⟨fun h => by cases h⟩
instance : ItemsKept Structs.placement := by unfold Structs.placement; infer_instance
instance : ListSafe Structs.restartPolicy := ⟨fun h => by cases h⟩
instance : ItemsKept Structs.restartPolicy := by unfold Structs.restartPolicy; infer_instance
instance : ListSafe Structs.updateOrRollbackConfig := ⟨fun h => by cases h⟩
instance : ItemsKept Structs.updateOrRollbackConfig := by unfold Structs.updateOrRollbackConfig; infer_instance
instance {E : Env} : ListSafe (Structs.limits E) := ⟨fun h => by cases h⟩
instance {E : Env} : ItemsKept (Structs.limits E) := by unfold Structs.limits; infer_instance
instance : ListSafe Structs.discreteResourceSpec := ⟨fun h => by cases h⟩
instance : ItemsKept Structs.discreteResourceSpec := by unfold Structs.discreteResourceSpec; infer_instance
instance : ListSafe Structs.genericResource := ⟨fun h => by cases h⟩
instance : ItemsKept Structs.genericResource := by unfold Structs.genericResource; infer_instance
instance : ListSafe Structs.resourceDevice := ⟨fun h => by cases h⟩
instance : ItemsKept Structs.resourceDevice := by unfold Structs.resourceDevice; infer_instance
instance {E : Env} : ListSafe (Structs.reservations E) := ⟨fun h => by cases h⟩
instance {E : Env} : ItemsKept (Structs.reservations E) := by unfold Structs.reservations; infer_instance
instance {E : Env} : ListSafe (Structs.resources E) := ⟨fun h => by cases h⟩
instance {E : Env} : ItemsKept (Structs.resources E) := by unfold Structs.resources; infer_instance
instance {E : Env} : ListSafe (Structs.deploy E) := ⟨fun h => by cases h⟩
instance {E : Env} : ItemsKept (Structs.deploy E) := by unfold Structs.deploy; infer_instance
instance : ListSafe Structs.watchRule := ⟨fun h => by cases h⟩
instance : ItemsKept Structs.watchRule := by unfold Structs.watchRule; infer_instance
instance : ListSafe Structs.develop := ⟨fun _ => by decide +kernel⟩
instance : ItemsKept Structs.develop := by unfold Structs.develop; infer_instance
instance : ListSafe Structs.envFileConfig := ⟨fun _ => by decide +kernel⟩
instance : ItemsKept Structs.envFileConfig := by unfold Structs.envFileConfig; infer_instance

instance : Kept Structs.envFile where
  valid v x hv h := by
    have hl := Kept.valid (c := Codecs.list (shortOrLong str (struct Structs.envFileConfig)))
    cases v <;> simp only [Structs.envFile, Outcome.map_eq_ok, reduceCtorEq] at h <;> obtain ⟨y, h1, rfl⟩ := h
    all_goals first
      | exact hl _ _ hv h1
      | trivial

instance : ListSafe Structs.dependency := ⟨fun _ => by decide +kernel⟩
instance : ItemsKept Structs.dependency := by unfold Structs.dependency; infer_instance
instance : ListSafe Structs.extend := ⟨fun _ => by decide +kernel⟩
instance : ItemsKept Structs.extend := by unfold Structs.extend; infer_instance
instance : ListSafe Structs.logging := ⟨fun h => by cases h⟩
instance : ItemsKept Structs.logging := by unfold Structs.logging; infer_instance
instance {E : Env} : ListSafe (Structs.port E) := ⟨fun h => by cases h⟩
instance {E : Env} : ItemsKept (Structs.port E) := by unfold Structs.port; infer_instance
instance : ListSafe Structs.common := ⟨fun h => by cases h⟩
instance : ItemsKept Structs.common := by unfold Structs.common; infer_instance
instance : ListSafe Structs.volumeOptions := ⟨fun h => by cases h⟩
instance : ItemsKept Structs.volumeOptions := by unfold Structs.volumeOptions; infer_instance
instance : ListSafe Structs.mountVolume := ⟨fun h => by cases h⟩
instance : ItemsKept Structs.mountVolume := by unfold Structs.mountVolume; infer_instance
instance : ListSafe Structs.bindOptions := ⟨fun h => by cases h⟩
instance : ItemsKept Structs.bindOptions := by unfold Structs.bindOptions; infer_instance
instance : ListSafe Structs.mountBind := ⟨fun h => by cases h⟩
instance : ItemsKept Structs.mountBind := by unfold Structs.mountBind; infer_instance
instance : ListSafe Structs.tmpfsOptions := ⟨fun h => by cases h⟩
instance : ItemsKept Structs.tmpfsOptions := by unfold Structs.tmpfsOptions; infer_instance
instance : ListSafe Structs.mountTmpfs := ⟨fun h => by cases h⟩
instance : ItemsKept Structs.mountTmpfs := by unfold Structs.mountTmpfs; infer_instance
instance : ListSafe Structs.mountNamedPipe := ⟨fun h => by cases h⟩
instance : ItemsKept Structs.mountNamedPipe := by unfold Structs.mountNamedPipe; infer_instance
instance : ListSafe Structs.mountCluster := ⟨fun h => by cases h⟩
instance : ItemsKept Structs.mountCluster := by unfold Structs.mountCluster; infer_instance
instance {E : Env} : ListSafe (Structs.serviceNetwork E) := ⟨fun h => by cases h⟩
instance {E : Env} : ItemsKept (Structs.serviceNetwork E) := by unfold Structs.serviceNetwork; infer_instance

theorem outcome_of_toOption {α : Type} {o : Outcome Unit α} {x : α} (h : o.toOption = some x) : o = .ok x := by
  cases o <;> simp_all [Outcome.toOption]

instance : Kept Structs.mount where
  valid v m hv h := by
    simp only [Structs.mount, Outcome.bind_eq_ok, Outcome.ofOption_eq_ok] at h
    obtain ⟨es, h1, h2⟩ := h
    rw [entriesOf_iff] at h1
    subst h1
    have he := ordinary_filter (ordinary_entries hv) fun e => e.1 ≠ Structs.tagKey
    unfold Structs.mountRead at h2
    have hk : ∀ {is : List Item} {own : List Str} [Keys is own] [DistinctKeys own] [ItemsKept is] {es r}, OrdinaryEntries es →
        decode is es = .ok r → recordValid is r := fun he h => ItemsKept.valid _ _ _ he ((decode_ok table_good _ _).1 h)
    split at h2
    · dsimp only at h2
      split at h2
      · obtain ⟨r, h3, rfl⟩ := Outcome.map_eq_ok.1 h2; exact hk he h3
      split at h2
      · obtain ⟨r, h3, rfl⟩ := Outcome.map_eq_ok.1 h2; exact hk he h3
      split at h2
      · obtain ⟨r, h3, rfl⟩ := Outcome.map_eq_ok.1 h2; exact hk he h3
      split at h2
      · obtain ⟨r, h3, rfl⟩ := Outcome.map_eq_ok.1 h2; exact hk he h3
      split at h2
      · obtain ⟨r, h3, rfl⟩ := Outcome.map_eq_ok.1 h2; exact hk he h3
      · cases h2
    · cases h2

instance {E : Env} : Kept (Structs.volumes E) :=
  inferInstanceAs (Kept (@Codecs.set _ (Structs.volumesEq E) (shortOrLong shortVolume Structs.mount)))
instance {E : Env} : EmptyKept (Structs.volumes E) :=
  inferInstanceAs (EmptyKept (@Codecs.set _ (Structs.volumesEq E) (shortOrLong shortVolume Structs.mount)))

instance {E : Env} : Kept (Structs.ports E) :=
  inferInstanceAs (Kept (@Codecs.set _ (Structs.portsEq E) (shortOrLong (shortPort E) (struct (Structs.port E)))))
instance {E : Env} : EmptyKept (Structs.ports E) :=
  inferInstanceAs (EmptyKept (@Codecs.set _ (Structs.portsEq E) (shortOrLong (shortPort E) (struct (Structs.port E)))))

instance {E : Env} : Kept (Structs.networks E) :=
  inferInstanceAs (Kept (shortOrLong (Codecs.set identifier) (map identifierKey (option (struct (Structs.serviceNetwork E))))))

instance {E : Env} : ItemKept (Structs.networkConfig E) where
  valid es x he h := by
    have h' := Outcome.ofOption_eq_ok.1 h
    cases x with
    | none => exact ⟨fun _ h => (by cases h), fun _ h => (by cases h)⟩
    | some x =>
      have hc := (C50_network_config (fun c => ((Structs.networks E).de c).toOption) es).1 x
      simp only [NetworkConfigOf.deOption, entriesOf_props, Option.bind_some] at hc
      obtain ⟨f, hf, ⟨v, hv, hd⟩, _⟩ := hc.1 h'
      have hmem : (f.key, v) ∈ es := by
        have : v ∈ valuesOf f.key es := by rw [show valuesOf f.key es = [v] from hv.1]; simp
        obtain ⟨e, h3, rfl⟩ := List.mem_map.1 this
        obtain ⟨h4, h5⟩ := List.mem_filter.1 h3
        rw [← show e.1 = f.key by simpa using h5]; exact h4
      simp only [networkFields, List.mem_cons, List.not_mem_nil, or_false] at hf
      rcases hf with rfl | rfl
      · obtain ⟨s, m, rfl, hm, rfl⟩ := hd
        refine ⟨fun m' h => ?_, fun _ h => (by cases h)⟩
        cases h
        cases hm <;> first | trivial | assumption | (refine ⟨?_, ?_, ?_, ?_⟩ <;> assumption)
      · obtain ⟨n, hn, rfl⟩ := hd
        refine ⟨fun _ h => (by cases h), fun n' h => ?_⟩
        cases h
        exact Kept.valid (c := Structs.networks E) v n (he _ hmem).1 (outcome_of_toOption hn)

instance : ItemKept Structs.dependsOn where
  valid := by
    refine ⟨fun v x hv hn h => ?_, fun x h => ?_⟩
    · have h' : (shortOrLong (Codecs.set identifier) (map identifierKey (struct Structs.dependency))).de v = .ok x := h
      refine ⟨Kept.valid (c := shortOrLong (Codecs.set identifier) (map identifierKey (struct Structs.dependency))) v x hv h', ?_⟩
      rintro rfl
      have h2 := (Denotes.iff (c := shortOrLong (Codecs.set identifier) (map identifierKey (struct Structs.dependency)))
        (m := Meaning.shortOrLong (distinct (valid Identifier)) (entries Identifier Schemas.dependency.Means)) _ _).1 h'
      have h3 : entries Identifier Schemas.dependency.Means v [] := by
        rcases h2 with ⟨_, _, h, e⟩ | ⟨_, _, _, h⟩
        · cases e; exact h
        · cases h
      obtain ⟨es, all, rfl, h4, h5⟩ := h3
      cases h4 with
      | nil => exact hn (by decide) rfl
      | cons _ _ =>
        have := h5.1
        simp [firsts] at this
    · cases h
      exact ⟨EmptyKept.empty (c := Codecs.set identifier), fun h => by cases h⟩

set_option maxRecDepth 4000 in
instance {E : Env} : ListSafe (Structs.service E) := ⟨fun h => by cases h⟩
instance {E : Env} [UrlOk E] : ItemsKept (Structs.service E) := by
  unfold Structs.service
  dsimp only
  repeat refine items_kept inferInstance ?_
  infer_instance

instance {E : Env} [he : EnvOk E] {is : List Item} {own : List Str} [Keys is own] [DistinctKeys own] [h : ItemsKept is] :
    Kept (Structs.resource E is) where
  valid v x hv hx := by
    cases x with
    | external => trivial
    | compose r =>
      obtain ⟨es, rest, rfl, _, h2, h3⟩ := (C60_compose _ _ _ _).1 (Outcome.ofOption_eq_ok.1 hx)
      have hd : decode is (E.order rest) = .ok r := outcome_of_toOption h3
      refine h.valid _ _ r (fun e hm => ?_) ((decode_ok table_good _ _).1 hd)
      have hm' := (he.order rest).mem_iff.1 hm
      obtain ⟨a, b, h4, _⟩ := (h2.2 e.1 e.2).1 hm'
      have : e ∈ es.filter (·.1 ≠ "external".toList) := by rw [h4]; simp
      exact ordinary_entries hv e (List.mem_filter.1 this).1

instance {E : Env} : ListSafe (Structs.compose E) := ⟨fun h => by cases h⟩
instance {E : Env} [EnvOk E] [UrlOk E] : ItemsKept (Structs.compose E) := by unfold Structs.compose; infer_instance

/-! ### Files that are the same -/

theorem sameValues_valid {α : Type} {R : α → α → Prop} {k : Key} {c : Codec α} (h : ∀ x y, R x y → c.valid x → c.valid y)
    {m m' : IndexMap Str α} (hs : SameValues R m m') (hv : (map k c).valid m) : (map k c).valid m' := by
  refine ⟨sameValues_keys hs ▸ hv.1, ?_⟩
  replace hv := hv.2
  induction hs with
  | nil => exact hv
  | cons h1 _ ih =>
    rw [List.forall_mem_cons] at hv ⊢
    exact ⟨⟨h1.1 ▸ hv.1.1, h _ _ h1.2 hv.1.2⟩, ih hv.2⟩

theorem sameOption_valid {α : Type} {R : α → α → Prop} {c : Codec α} (h : ∀ x y, R x y → c.valid x → c.valid y)
    {x y : Option α} (hs : SameOption R x y) (hv : (option c).valid x) : (option c).valid y := by
  cases hs with
  | none => exact hv
  | some h1 =>
    intro y hy
    cases hy
    exact h _ _ h1 (hv _ rfl)

theorem sameResource_valid {E : Env} {is : List Item} [ItemsStable is] {x y : Resource (Record is)}
    (hs : SameResource (same is) x y) (hv : (Structs.resource E is).valid x) : (Structs.resource E is).valid y := by
  cases hs with
  | external => trivial
  | compose h => exact same_valid ItemsStable.laws h hv

theorem sameFile_valid {E : Env} {r r' : Record (Structs.compose E)} (h : SameFile same E r r')
    (hv : recordValid (Structs.compose E) r) : recordValid (Structs.compose E) r' := by
  obtain ⟨version, name, inc, services, networks, volumes, configs, secrets, exts, u⟩ := r
  obtain ⟨version', name', inc', services', networks', volumes', configs', secrets', exts', u'⟩ := r'
  obtain ⟨rfl, rfl, rfl, rfl, h5, h6, h7, h8, rfl⟩ := h
  obtain ⟨v1, v2, v3, v4, v5, v6, v7, v8, v9, -⟩ := hv
  exact ⟨v1, v2, v3, v4,
    sameValues_valid (c := option (Structs.resource E (Structs.network E)))
      (fun _ _ => sameOption_valid (c := Structs.resource E (Structs.network E)) fun _ _ => sameResource_valid) h5 v5,
    sameValues_valid (c := option (Structs.resource E Structs.volume))
      (fun _ _ => sameOption_valid (c := Structs.resource E Structs.volume) fun _ _ => sameResource_valid) h6 v6,
    sameValues_valid (c := Structs.resource E Structs.config) (fun _ _ => sameResource_valid) h7 v7,
    sameValues_valid (c := Structs.resource E Structs.secret) (fun _ _ => sameResource_valid) h8 v8, v9, trivial⟩

theorem sameValues_trans {α : Type} {R : α → α → Prop} (h : ∀ x y z, R x y → R y z → R x z) {m m' m'' : List (Str × α)}
    (hs : SameValues R m m') (hs' : SameValues R m' m'') : SameValues R m m'' := by
  unfold SameValues at *
  induction hs generalizing m'' with
  | nil => exact hs'
  | cons h1 _ ih =>
    cases hs' with
    | cons h2 h3 => exact .cons ⟨h1.1.trans h2.1, h _ _ _ h1.2 h2.2⟩ (ih h3)

theorem sameOption_trans {α : Type} {R : α → α → Prop} (h : ∀ x y z, R x y → R y z → R x z) (x y z : Option α)
    (hs : SameOption R x y) (hs' : SameOption R y z) : SameOption R x z := by
  cases hs with
  | none => exact hs'
  | some h1 =>
    cases hs' with
    | some h2 => exact .some (h _ _ _ h1 h2)

theorem sameResource_trans {is : List Item} [ItemsStable is] (x y z : Resource (Record is))
    (hs : SameResource (same is) x y) (hs' : SameResource (same is) y z) : SameResource (same is) x z := by
  cases hs with
  | external => exact hs'
  | compose h1 =>
    cases hs' with
    | compose h2 => exact .compose (same_trans ItemsStable.laws h1 h2)

theorem sameFile_trans {E : Env} {r r' r'' : Record (Structs.compose E)} (h : SameFile same E r r')
    (h' : SameFile same E r' r'') : SameFile same E r r'' := by
  obtain ⟨h1, h2, h3, h4, h5, h6, h7, h8, h9⟩ := h
  obtain ⟨g1, g2, g3, g4, g5, g6, g7, g8, g9⟩ := h'
  exact ⟨h1.trans g1, h2.trans g2, h3.trans g3, h4.trans g4,
    sameValues_trans (sameOption_trans sameResource_trans) h5 g5, sameValues_trans (sameOption_trans sameResource_trans) h6 g6,
    sameValues_trans sameResource_trans h7 g7, sameValues_trans sameResource_trans h8 g8, h9.trans g9⟩

theorem sameFile_refl {E : Env} (r : Record (Structs.compose E)) : SameFile same E r r := by
  have h : ∀ {is : List Item} [ItemsStable is] (r : Record is), same is r r := same_refl ItemsStable.laws
  have hr : ∀ {is : List Item} [ItemsStable is] (x : Resource (Record is)), SameResource (same is) x x := fun x => by
    cases x with
    | external name => exact .external name
    | compose r => exact .compose (h r)
  have ho : ∀ {is : List Item} [ItemsStable is] (x : Option (Resource (Record is))), SameOption (SameResource (same is)) x x :=
    fun x => by
      cases x with
      | none => exact .none
      | some x => exact .some (hr x)
  exact ⟨rfl, rfl, rfl, rfl, List.forall₂_same.2 fun e _ => ⟨rfl, ho e.2⟩, List.forall₂_same.2 fun e _ => ⟨rfl, ho e.2⟩,
    List.forall₂_same.2 fun e _ => ⟨rfl, hr e.2⟩, List.forall₂_same.2 fun e _ => ⟨rfl, hr e.2⟩, rfl⟩

end Proofs
