import Verif.Proofs.MeaningStructs

/- C75: what a Compose file means, down to the last field.  `Verif.Spec.Schemas` lists for every struct its keys, the
meaning of their values and what is taken if they are missing; no function of the model is used there. -/

namespace Props
open Rust Compose Compose.Derive Spec Spec.Schemas Proofs

theorem parts_denote (E : Env) : ∀ d ∈ describedParts E, Denotes (struct d.fields) d.schema.Means := by
  unfold describedParts
  refine List.forall_mem_cons.2 ⟨inferInstanceAs (Denotes (struct (Structs.ipamConfig E)) (Schemas.ipamConfig E).Means), ?_⟩
  refine List.forall_mem_cons.2 ⟨inferInstanceAs (Denotes (struct (Structs.ipam E)) (Schemas.ipam E).Means), ?_⟩
  refine List.forall_mem_cons.2 ⟨inferInstanceAs (Denotes (struct (Structs.network E)) (Schemas.network E).Means), ?_⟩
  refine List.forall_mem_cons.2 ⟨inferInstanceAs (Denotes (struct Structs.volume) Schemas.volume.Means), ?_⟩
  refine List.forall_mem_cons.2 ⟨inferInstanceAs (Denotes (struct Structs.config) Schemas.config.Means), ?_⟩
  refine List.forall_mem_cons.2 ⟨inferInstanceAs (Denotes (struct Structs.secret) Schemas.secret.Means), ?_⟩
  refine List.forall_mem_cons.2 ⟨inferInstanceAs (Denotes (struct Structs.«include») Schemas.«include».Means), ?_⟩
  refine List.forall_mem_cons.2 ⟨inferInstanceAs (Denotes (struct Structs.bpsLimit) Schemas.bpsLimit.Means), ?_⟩
  refine List.forall_mem_cons.2 ⟨inferInstanceAs (Denotes (struct Structs.iopsLimit) Schemas.iopsLimit.Means), ?_⟩
  refine List.forall_mem_cons.2 ⟨inferInstanceAs (Denotes (struct Structs.weightDevice) Schemas.weightDevice.Means), ?_⟩
  refine List.forall_mem_cons.2 ⟨inferInstanceAs (Denotes (struct Structs.blkioConfig) Schemas.blkioConfig.Means), ?_⟩
  refine List.forall_mem_cons.2 ⟨inferInstanceAs (Denotes (struct Structs.configOrSecret) Schemas.configOrSecret.Means), ?_⟩
  refine List.forall_mem_cons.2 ⟨inferInstanceAs (Denotes (struct Structs.ulimit) Schemas.ulimit.Means), ?_⟩
  refine List.forall_mem_cons.2 ⟨inferInstanceAs (Denotes (struct (Structs.build E)) (Schemas.build E).Means), ?_⟩
  refine List.forall_mem_cons.2 ⟨inferInstanceAs (Denotes (struct Structs.preference) Schemas.preference.Means), ?_⟩
  refine List.forall_mem_cons.2 ⟨inferInstanceAs (Denotes (struct Structs.placement) Schemas.placement.Means), ?_⟩
  refine List.forall_mem_cons.2 ⟨inferInstanceAs (Denotes (struct Structs.restartPolicy) Schemas.restartPolicy.Means), ?_⟩
  refine List.forall_mem_cons.2 ⟨inferInstanceAs (Denotes (struct Structs.updateOrRollbackConfig) Schemas.updateOrRollbackConfig.Means), ?_⟩
  refine List.forall_mem_cons.2 ⟨inferInstanceAs (Denotes (struct (Structs.limits E)) (Schemas.limits E).Means), ?_⟩
  refine List.forall_mem_cons.2 ⟨inferInstanceAs (Denotes (struct Structs.discreteResourceSpec) Schemas.discreteResourceSpec.Means), ?_⟩
  refine List.forall_mem_cons.2 ⟨inferInstanceAs (Denotes (struct Structs.genericResource) Schemas.genericResource.Means), ?_⟩
  refine List.forall_mem_cons.2 ⟨inferInstanceAs (Denotes (struct Structs.resourceDevice) Schemas.resourceDevice.Means), ?_⟩
  refine List.forall_mem_cons.2 ⟨inferInstanceAs (Denotes (struct (Structs.reservations E)) (Schemas.reservations E).Means), ?_⟩
  refine List.forall_mem_cons.2 ⟨inferInstanceAs (Denotes (struct (Structs.resources E)) (Schemas.resources E).Means), ?_⟩
  refine List.forall_mem_cons.2 ⟨inferInstanceAs (Denotes (struct (Structs.deploy E)) (Schemas.deploy E).Means), ?_⟩
  refine List.forall_mem_cons.2 ⟨inferInstanceAs (Denotes (struct Structs.watchRule) Schemas.watchRule.Means), ?_⟩
  refine List.forall_mem_cons.2 ⟨inferInstanceAs (Denotes (struct Structs.develop) Schemas.develop.Means), ?_⟩
  refine List.forall_mem_cons.2 ⟨inferInstanceAs (Denotes (struct Structs.envFileConfig) Schemas.envFileConfig.Means), ?_⟩
  refine List.forall_mem_cons.2 ⟨inferInstanceAs (Denotes (struct Structs.dependency) Schemas.dependency.Means), ?_⟩
  refine List.forall_mem_cons.2 ⟨inferInstanceAs (Denotes (struct Structs.extend) Schemas.extend.Means), ?_⟩
  refine List.forall_mem_cons.2 ⟨inferInstanceAs (Denotes (struct Structs.logging) Schemas.logging.Means), ?_⟩
  refine List.forall_mem_cons.2 ⟨inferInstanceAs (Denotes (struct (Structs.port E)) (Schemas.port E).Means), ?_⟩
  refine List.forall_mem_cons.2 ⟨inferInstanceAs (Denotes (struct Structs.common) Schemas.common.Means), ?_⟩
  refine List.forall_mem_cons.2 ⟨inferInstanceAs (Denotes (struct Structs.volumeOptions) Schemas.volumeOptions.Means), ?_⟩
  refine List.forall_mem_cons.2 ⟨inferInstanceAs (Denotes (struct Structs.mountVolume) Schemas.mountVolume.Means), ?_⟩
  refine List.forall_mem_cons.2 ⟨inferInstanceAs (Denotes (struct Structs.bindOptions) Schemas.bindOptions.Means), ?_⟩
  refine List.forall_mem_cons.2 ⟨inferInstanceAs (Denotes (struct Structs.mountBind) Schemas.mountBind.Means), ?_⟩
  refine List.forall_mem_cons.2 ⟨inferInstanceAs (Denotes (struct Structs.tmpfsOptions) Schemas.tmpfsOptions.Means), ?_⟩
  refine List.forall_mem_cons.2 ⟨inferInstanceAs (Denotes (struct Structs.mountTmpfs) Schemas.mountTmpfs.Means), ?_⟩
  refine List.forall_mem_cons.2 ⟨inferInstanceAs (Denotes (struct Structs.mountNamedPipe) Schemas.mountNamedPipe.Means), ?_⟩
  refine List.forall_mem_cons.2 ⟨inferInstanceAs (Denotes (struct Structs.mountCluster) Schemas.mountCluster.Means), ?_⟩
  refine List.forall_mem_cons.2 ⟨inferInstanceAs (Denotes (struct (Structs.serviceNetwork E)) (Schemas.serviceNetwork E).Means), ?_⟩
  refine List.forall_mem_cons.2 ⟨inferInstanceAs (Denotes (struct (Structs.service E)) (Schemas.service E).Means), ?_⟩
  simp

theorem described_denote (E : Env) : ∀ d ∈ described E, Denotes (struct d.fields) d.schema.Means :=
  List.forall_mem_cons.2 ⟨inferInstanceAs (Denotes (struct (Structs.compose E)) (Schemas.compose E).Means), parts_denote E⟩

/-- The tables describe all structs, in the same order. -/
theorem described_fields (E : Env) : (describedParts E).map (·.fields) = (parts E).map (·.fields) := rfl

/-- C75: a struct is read from exactly the mappings that mean it. -/
theorem C75_reads (E : Env) (d : Described) (hd : d ∈ described E) (c : Content) (r : Record d.fields) :
    (struct d.fields).de c = .ok r ↔ d.schema.Means c r := (described_denote E d hd).iff c r

/-- The table of networks. -/
theorem network_described (E : Env) : (⟨Structs.network E, Schemas.network E⟩ : Described) ∈ described E := by
  simp [described, describedParts]

example : (Schemas.network sampleEnv).Means (Derive.mapping sampleNetwork) sampleNetworkRecord :=
  (C75_reads sampleEnv _ (network_described _) _ _).1 rfl

/-- C75: a Compose file is read from exactly the mappings that mean it. -/
theorem C75_compose (E : Env) (c : Content) (r : Record (Structs.compose E)) :
    (struct (Structs.compose E)).de c = .ok r ↔ (Schemas.compose E).Means c r := Denotes.iff c r

set_option maxRecDepth 10000 in
example : ∃ r, (Schemas.compose sampleEnv).Means (Derive.mapping sampleFile) r := ⟨_, (C75_compose _ _ _).1 rfl⟩

/-- C75: a mount is read from exactly the mappings that mean it. -/
theorem C75_mount (c : Content) (m : Structs.MountOf) : Structs.mount.de c = .ok m ↔ Schemas.mount c m := Denotes.iff c m

example : Schemas.mount (Derive.mapping [("target".toList, .str "/tmp".toList), ("type".toList, .str "tmpfs".toList)])
    (.tmpfs (none, ("/tmp".toList, false, none, [], ()), ())) := (C75_mount _ _).1 rfl

/-- C75: a mapping means at most one struct. -/
theorem C75_unique (E : Env) (d : Described) (hd : d ∈ described E) (c : Content) (r r' : Record d.fields)
    (h : d.schema.Means c r) (h' : d.schema.Means c r') : r = r' := by
  rw [← C75_reads E d hd] at h h'
  rw [h] at h'
  cases h'
  rfl

example : ∀ r, (Schemas.network sampleEnv).Means (Derive.mapping sampleNetwork) r → r = sampleNetworkRecord := fun r h =>
  C75_unique sampleEnv _ (network_described _) _ _ _ h ((C75_reads sampleEnv _ (network_described _) _ _).1 rfl)

/-- C75: what is written for a value of a struct means that value. -/
theorem C75_writes (E : Env) [EnvOk E] (d : Described) (hd : d ∈ describedParts E) (r : Record d.fields)
    (hr : recordValid d.fields r) : d.schema.Means ((struct d.fields).ser r) r := by
  rw [← C75_reads E d (List.mem_cons_of_mem _ hd)]
  have : d.fields ∈ (parts E).map (·.fields) := described_fields E ▸ List.mem_map_of_mem hd
  obtain ⟨s, hs, he⟩ := List.mem_map.1 this
  obtain ⟨fields, schema⟩ := d
  subst he
  exact C71_round_trip E s hs r hr

example : Schemas.bindOptions.Means ((struct Structs.bindOptions).ser (some .shared, true, none, [("x-a".toList, .u64 1)], ()))
    (some .shared, true, none, [("x-a".toList, .u64 1)], ()) :=
  C75_writes sampleEnv ⟨Structs.bindOptions, Schemas.bindOptions⟩ (by simp [describedParts]) _
    ⟨fun _ _ => trivial, trivial, fun _ h => (by cases h),
      ⟨by decide, by simpa using ⟨⟨['a'], rfl⟩, by decide⟩⟩, trivial⟩

/-- C75: what is written for a Compose file means that file, up to the order of entries. -/
theorem C75_compose_writes (E : Env) [EnvOk E] (r : Record (Structs.compose E)) (hr : recordValid (Structs.compose E) r) :
    ∃ r', (Schemas.compose E).Means ((struct (Structs.compose E)).ser r) r' ∧ SameCompose E r r' := by
  obtain ⟨r', h1, h2⟩ := C71_compose E r hr
  exact ⟨r', (C75_compose E _ _).1 h1, h2⟩

example : ∃ r', (Schemas.compose sampleEnv).Means
      ((struct (Structs.compose sampleEnv)).ser (sampleCompose [("x-a".toList, .u64 1), ("x-b".toList, .u64 2)])) r' ∧
    SameCompose sampleEnv (sampleCompose [("x-a".toList, .u64 1), ("x-b".toList, .u64 2)]) r' :=
  C75_compose_writes sampleEnv _ sampleCompose_valid

/-- C75: what is written for a mount means that mount. -/
theorem C75_mount_writes (m : Structs.MountOf) (hm : Structs.mount.valid m) : Schemas.mount (Structs.mount.ser m) m :=
  (C75_mount _ _).1 (C71_mount m hm)

example : Schemas.mount (Structs.mount.ser (.tmpfs (none, ("/tmp".toList, true, none, [], ()), ())))
    (.tmpfs (none, ("/tmp".toList, true, none, [], ()), ())) :=
  C75_mount_writes _ ⟨fun _ h => (by cases h),
    ⟨⟨_, rfl⟩, trivial, (fun _ h => by cases h), ⟨by decide, by simp⟩, trivial⟩, trivial⟩

end Props
