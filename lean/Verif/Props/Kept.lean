import Verif.Proofs.KeptStructs
import Verif.Props.Meaning

/- C76: a file that is loaded, saved and loaded again is the same.  Nothing is assumed of the values in between: they are
those that are read. -/

namespace Props
open Rust Compose Compose.Derive Spec Spec.Schemas Proofs

theorem parts_kept (E : Env) [UrlOk E] : ∀ d ∈ describedParts E, Kept (struct d.fields) := by
  unfold describedParts
  repeat refine List.forall_mem_cons.2 ⟨by show Kept (struct _); dsimp only; infer_instance, ?_⟩
  simp

/-- C76: a struct that is read from ordinary content is read again from what is written for it. -/
theorem C76_struct (E : Env) [EnvOk E] [UrlOk E] (d : Described) (hd : d ∈ describedParts E) (c : Content)
    (r : Record d.fields) (hc : Ordinary c) (h : (struct d.fields).de c = .ok r) :
    (struct d.fields).de ((struct d.fields).ser r) = .ok r :=
  (C75_reads E d (List.mem_cons_of_mem _ hd) _ _).2 (C75_writes E d hd r ((parts_kept E d hd).valid c r hc h))

instance : UrlOk sampleEnv := ⟨fun _ _ h => (by cases h), rfl⟩

/-- A volume with labels and an option, which is a number. -/
def ordinaryVolume : List (Str × Content) :=
  [("labels".toList, .seq [.str "a=1".toList, .str "b".toList]),
    ("driver_opts".toList, Derive.mapping [("size".toList, .u64 100)]), ("x-a".toList, .map [])]

theorem ordinaryVolume_ok : Ordinary (Derive.mapping ordinaryVolume) := by
  simp [ordinaryVolume, Derive.mapping, ordinary_map, ordinary_seq, ordinary_str, ordinary_u64, listOrMapKeys]

example : ∃ r, (struct Structs.volume).de (Derive.mapping ordinaryVolume) = .ok r ∧
    (struct Structs.volume).de ((struct Structs.volume).ser r) = .ok r :=
  ⟨_, rfl, C76_struct sampleEnv ⟨Structs.volume, Schemas.volume⟩ (by simp [describedParts]) _ _ ordinaryVolume_ok rfl⟩

/-- C76 does not hold for `labels: {}`: the empty map is left out, and no map is read as an empty list. -/
theorem C76_empty_map_false : ∃ c r r', (struct Structs.volume).de c = .ok r ∧
    (struct Structs.volume).de ((struct Structs.volume).ser r) = .ok r' ∧ r ≠ r' := by
  refine ⟨Derive.mapping [("labels".toList, .map [])], _, _, rfl, rfl, fun h => ?_⟩
  have := congrArg (fun r : Record Structs.volume => r.2.2.1) h
  cases this

/-- C76 does not hold for a container with the name `ro`: its access mode `rw` is left out, and then the name is taken as an
access mode. -/
theorem C76_volumes_from_false : ∃ c x x', Codecs.volumesFrom.de c = .ok x ∧
    Codecs.volumesFrom.de (Codecs.volumesFrom.ser x) = .ok x' ∧ x ≠ x' :=
  ⟨.str "container:ro:rw".toList, _, _, rfl, rfl, by decide⟩

/-- C76: a Compose file that is read from ordinary content is read again from what is written for it, up to the order of
the extensions of top-level networks, volumes, configs and secrets. -/
theorem C76_compose (E : Env) [EnvOk E] [UrlOk E] (c : Content) (r : Record (Structs.compose E)) (hc : Ordinary c)
    (h : (struct (Structs.compose E)).de c = .ok r) :
    ∃ r', (struct (Structs.compose E)).de ((struct (Structs.compose E)).ser r) = .ok r' ∧ SameCompose E r r' :=
  C71_compose E r (Kept.valid (c := struct (Structs.compose E)) c r hc h)

theorem sampleFile_ok : Ordinary (Derive.mapping sampleFile) := by
  simp [sampleFile, sampleNetwork, Derive.mapping, ordinary_map, ordinary_seq, ordinary_str, ordinary_u64, ordinary_unit,
    ordinary_bool, listOrMapKeys]

set_option maxRecDepth 10000 in
example : ∃ r, (struct (Structs.compose sampleEnv)).de (Derive.mapping sampleFile) = .ok r ∧
    ∃ r', (struct (Structs.compose sampleEnv)).de ((struct (Structs.compose sampleEnv)).ser r) = .ok r' ∧
      SameCompose sampleEnv r r' := ⟨_, rfl, C76_compose sampleEnv _ _ sampleFile_ok rfl⟩

theorem reloaded_same {E : Env} [EnvOk E] {r : Record (Structs.compose E)} (hr : recordValid (Structs.compose E) r)
    {s : Record (Structs.compose E)} (h : Reloaded r s) : SameFile same E r s ∧ recordValid (Structs.compose E) s := by
  induction h with
  | never => exact ⟨sameFile_refl r, hr⟩
  | again _ h ih =>
    obtain ⟨t, h1, h2⟩ := compose_survives _ ih.2
    rw [h] at h1
    cases h1
    exact ⟨sameFile_trans ih.1 h2, sameFile_valid h2 ih.2⟩

/-- C76: however often a Compose file is saved and loaded, it can be saved and loaded again, and is the same up to that
order. -/
theorem C76_repeated (E : Env) [EnvOk E] [UrlOk E] (c : Content) (r s : Record (Structs.compose E)) (hc : Ordinary c)
    (h : (struct (Structs.compose E)).de c = .ok r) (hs : Reloaded r s) :
    SameCompose E r s ∧ ∃ t, (struct (Structs.compose E)).de ((struct (Structs.compose E)).ser s) = .ok t := by
  obtain ⟨h1, h2⟩ := reloaded_same (Kept.valid (c := struct (Structs.compose E)) c r hc h) hs
  obtain ⟨t, h3, _⟩ := compose_survives s h2
  exact ⟨sameFile_differ h1, t, h3⟩

set_option maxRecDepth 10000 in
example : ∃ r s, (struct (Structs.compose sampleEnv)).de (Derive.mapping sampleFile) = .ok r ∧ Reloaded r s ∧
    SameCompose sampleEnv r s := by
  obtain ⟨s, h, _⟩ := C76_compose sampleEnv _ _ sampleFile_ok rfl
  exact ⟨_, s, rfl, .again .never h, (C76_repeated sampleEnv _ _ _ sampleFile_ok rfl (.again .never h)).1⟩

/-- C76: mounts. -/
theorem C76_mount (c : Content) (m : Structs.MountOf) (hc : Ordinary c) (h : Structs.mount.de c = .ok m) :
    Structs.mount.de (Structs.mount.ser m) = .ok m := C71_mount m (Kept.valid (c := Structs.mount) c m hc h)

/-- A tmpfs mount with options. -/
def sampleTmpfs : List (Str × Content) :=
  [("target".toList, .str "/tmp".toList), ("type".toList, .str "tmpfs".toList),
    ("tmpfs".toList, Derive.mapping [("size".toList, .str "10kb".toList)])]

theorem sampleTmpfs_ok : Ordinary (Derive.mapping sampleTmpfs) := by
  simp [sampleTmpfs, Derive.mapping, ordinary_map, ordinary_str, listOrMapKeys]

example : ∃ m, Structs.mount.de (Derive.mapping sampleTmpfs) = .ok m ∧ Structs.mount.de (Structs.mount.ser m) = .ok m :=
  ⟨_, rfl, C76_mount _ _ sampleTmpfs_ok rfl⟩

end Props
