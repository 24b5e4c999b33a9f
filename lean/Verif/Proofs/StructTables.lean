import Verif.Proofs.StructKeys

/- The laws of `Verif.Proofs.StructLaws` and `Verif.Proofs.StructKeys` for the structs of the library. -/

namespace Proofs
open Rust Compose Compose.Derive Compose.Codecs Compose.Structs Spec
open Props hiding mapping entriesOf_mapping

/-- The keys of `Structs.compose E`. -/
def composeKeys : List Str :=
  ["version".toList, "name".toList, "include".toList, "services".toList, "networks".toList, "volumes".toList,
    "configs".toList, "secrets".toList]

instance {E : Env} : Keys (Structs.compose E) composeKeys := ⟨rfl, rfl⟩
instance : DistinctKeys composeKeys := ⟨by decide +kernel, by decide +kernel⟩

/-! #### `Structs.ipamConfig E` -/

instance {E : Env} : ItemsStable (Structs.ipamConfig E) := by unfold Structs.ipamConfig; infer_instance
instance {E : Env} : ItemsWritten ipamConfigKeys (Structs.ipamConfig E) := by unfold Structs.ipamConfig; infer_instance
instance {E : Env} : ItemsKeyed [] (Structs.ipamConfig E) := by unfold Structs.ipamConfig; infer_instance
instance {P : Str → Prop} {E : Env} : ItemsPanicOn P (Structs.ipamConfig E) := by unfold Structs.ipamConfig; infer_instance

/-! #### `Structs.ipam E` -/

instance {E : Env} : ItemsStable (Structs.ipam E) := by unfold Structs.ipam; infer_instance
instance {E : Env} : ItemsWritten ipamKeys (Structs.ipam E) := by unfold Structs.ipam; infer_instance
instance {E : Env} : ItemsKeyed [] (Structs.ipam E) := by unfold Structs.ipam; infer_instance
instance {P : Str → Prop} {E : Env} : ItemsPanicOn P (Structs.ipam E) := by unfold Structs.ipam; infer_instance

/-! #### `Structs.network E` -/

instance {E : Env} : ItemsStable (Structs.network E) := by unfold Structs.network; infer_instance
instance {E : Env} : ItemsWritten networkKeys (Structs.network E) := by unfold Structs.network; infer_instance
instance {E : Env} : ItemsKeyed [] (Structs.network E) := by unfold Structs.network; infer_instance
instance {P : Str → Prop} {E : Env} : ItemsPanicOn P (Structs.network E) := by unfold Structs.network; infer_instance

/-! #### `Structs.volume` -/

instance : ItemsStable Structs.volume := by unfold Structs.volume; infer_instance
instance : ItemsWritten volumeKeys Structs.volume := by unfold Structs.volume; infer_instance
instance : ItemsKeyed [] Structs.volume := by unfold Structs.volume; infer_instance
instance {P : Str → Prop} : ItemsPanicOn P Structs.volume := by unfold Structs.volume; infer_instance

/-! #### `Structs.config` -/

instance : ItemsStable Structs.config := by unfold Structs.config; infer_instance
instance : ItemsWritten configKeys Structs.config := by unfold Structs.config; infer_instance
instance : ItemsKeyed ["file".toList, "environment".toList, "content".toList] Structs.config := by unfold Structs.config; infer_instance
instance {P : Str → Prop} : ItemsPanicOn P Structs.config := by unfold Structs.config; infer_instance

/-! #### `Structs.secret` -/

instance : ItemsStable Structs.secret := by unfold Structs.secret; infer_instance
instance : ItemsWritten secretKeys Structs.secret := by unfold Structs.secret; infer_instance
instance : ItemsKeyed ["file".toList, "environment".toList] Structs.secret := by unfold Structs.secret; infer_instance
instance {P : Str → Prop} : ItemsPanicOn P Structs.secret := by unfold Structs.secret; infer_instance

/-! #### `Structs.«include»` -/

instance : ItemsStable Structs.«include» := by unfold Structs.«include»; infer_instance
instance : ItemsWritten includeKeys Structs.«include» := by unfold Structs.«include»; infer_instance
instance : ItemsKeyed [] Structs.«include» := by unfold Structs.«include»; infer_instance
instance {P : Str → Prop} : ItemsPanicOn P Structs.«include» := by unfold Structs.«include»; infer_instance

/-! #### `Structs.bpsLimit` -/

instance : ItemsStable Structs.bpsLimit := by unfold Structs.bpsLimit; infer_instance
instance : ItemsWritten bpsLimitKeys Structs.bpsLimit := by unfold Structs.bpsLimit; infer_instance
instance : ItemsKeyed [] Structs.bpsLimit := by unfold Structs.bpsLimit; infer_instance
instance {P : Str → Prop} : ItemsPanicOn P Structs.bpsLimit := by unfold Structs.bpsLimit; infer_instance

/-! #### `Structs.iopsLimit` -/

instance : ItemsStable Structs.iopsLimit := by unfold Structs.iopsLimit; infer_instance
instance : ItemsWritten iopsLimitKeys Structs.iopsLimit := by unfold Structs.iopsLimit; infer_instance
instance : ItemsKeyed [] Structs.iopsLimit := by unfold Structs.iopsLimit; infer_instance
instance {P : Str → Prop} : ItemsPanicOn P Structs.iopsLimit := by unfold Structs.iopsLimit; infer_instance

/-! #### `Structs.weightDevice` -/

instance : ItemsStable Structs.weightDevice := by unfold Structs.weightDevice; infer_instance
instance : ItemsWritten weightDeviceKeys Structs.weightDevice := by unfold Structs.weightDevice; infer_instance
instance : ItemsKeyed [] Structs.weightDevice := by unfold Structs.weightDevice; infer_instance
instance {P : Str → Prop} : ItemsPanicOn P Structs.weightDevice := by unfold Structs.weightDevice; infer_instance

/-! #### `Structs.blkioConfig` -/

instance : ItemsStable Structs.blkioConfig := by unfold Structs.blkioConfig; infer_instance
instance : ItemsWritten blkioConfigKeys Structs.blkioConfig := by unfold Structs.blkioConfig; infer_instance
instance : ItemsKeyed [] Structs.blkioConfig := by unfold Structs.blkioConfig; infer_instance
instance {P : Str → Prop} : ItemsPanicOn P Structs.blkioConfig := by unfold Structs.blkioConfig; infer_instance

/-! #### `Structs.configOrSecret` -/

instance : ItemsStable Structs.configOrSecret := by unfold Structs.configOrSecret; infer_instance
instance : ItemsWritten configOrSecretKeys Structs.configOrSecret := by unfold Structs.configOrSecret; infer_instance
instance : ItemsKeyed [] Structs.configOrSecret := by unfold Structs.configOrSecret; infer_instance
instance {P : Str → Prop} : ItemsPanicOn P Structs.configOrSecret := by unfold Structs.configOrSecret; infer_instance

/-! #### `Structs.ulimit` -/

instance : ItemsStable Structs.ulimit := by unfold Structs.ulimit; infer_instance
instance : ItemsWritten ulimitKeys Structs.ulimit := by unfold Structs.ulimit; infer_instance
instance : ItemsKeyed [] Structs.ulimit := by unfold Structs.ulimit; infer_instance
instance {P : Str → Prop} : ItemsPanicOn P Structs.ulimit := by unfold Structs.ulimit; infer_instance

instance {P : Str → Prop} : PanicsOn P Structs.ulimits :=
  inferInstanceAs (PanicsOn P (map ulimitKey (shortOrLong (limit u64Max) (struct Structs.ulimit))))

/-! #### `Structs.build E` -/

instance {E : Env} : ItemsStable (Structs.build E) := by unfold Structs.build; infer_instance
instance {E : Env} : ItemsWritten buildKeys (Structs.build E) := by unfold Structs.build; infer_instance
instance {E : Env} : ItemsKeyed [] (Structs.build E) := by unfold Structs.build; infer_instance
instance {P : Str → Prop} {E : Env} : ItemsPanicOn P (Structs.build E) := by unfold Structs.build; infer_instance

/-! #### `Structs.preference` -/

instance : ItemsStable Structs.preference := by unfold Structs.preference; infer_instance
instance : ItemsWritten preferenceKeys Structs.preference := by unfold Structs.preference; infer_instance
instance : ItemsKeyed [] Structs.preference := by unfold Structs.preference; infer_instance
instance {P : Str → Prop} : ItemsPanicOn P Structs.preference := by unfold Structs.preference; infer_instance

/-! #### `Structs.placement` -/

instance : ItemsStable Structs.placement := by unfold Structs.placement; infer_instance
instance : ItemsWritten placementKeys Structs.placement := by unfold Structs.placement; infer_instance
instance : ItemsKeyed [] Structs.placement := by unfold Structs.placement; infer_instance
instance {P : Str → Prop} : ItemsPanicOn P Structs.placement := by unfold Structs.placement; infer_instance

/-! #### `Structs.restartPolicy` -/

instance : ItemsStable Structs.restartPolicy := by unfold Structs.restartPolicy; infer_instance
instance : ItemsWritten restartPolicyKeys Structs.restartPolicy := by unfold Structs.restartPolicy; infer_instance
instance : ItemsKeyed [] Structs.restartPolicy := by unfold Structs.restartPolicy; infer_instance
instance {P : Str → Prop} [DurationPanics P] : ItemsPanicOn P Structs.restartPolicy := by unfold Structs.restartPolicy; infer_instance

/-! #### `Structs.updateOrRollbackConfig` -/

instance : ItemsStable Structs.updateOrRollbackConfig := by unfold Structs.updateOrRollbackConfig; infer_instance
instance : ItemsWritten updateOrRollbackConfigKeys Structs.updateOrRollbackConfig := by unfold Structs.updateOrRollbackConfig; infer_instance
instance : ItemsKeyed [] Structs.updateOrRollbackConfig := by unfold Structs.updateOrRollbackConfig; infer_instance
instance {P : Str → Prop} [DurationPanics P] : ItemsPanicOn P Structs.updateOrRollbackConfig := by unfold Structs.updateOrRollbackConfig; infer_instance

/-! #### `Structs.limits E` -/

instance {E : Env} : ItemsStable (Structs.limits E) := by unfold Structs.limits; infer_instance
instance {E : Env} : ItemsWritten limitsKeys (Structs.limits E) := by unfold Structs.limits; infer_instance
instance {E : Env} : ItemsKeyed [] (Structs.limits E) := by unfold Structs.limits; infer_instance
instance {P : Str → Prop} {E : Env} : ItemsPanicOn P (Structs.limits E) := by unfold Structs.limits; infer_instance

/-! #### `Structs.discreteResourceSpec` -/

instance : ItemsStable Structs.discreteResourceSpec := by unfold Structs.discreteResourceSpec; infer_instance
instance : ItemsWritten discreteResourceSpecKeys Structs.discreteResourceSpec := by unfold Structs.discreteResourceSpec; infer_instance
instance : ItemsKeyed [] Structs.discreteResourceSpec := by unfold Structs.discreteResourceSpec; infer_instance
instance {P : Str → Prop} : ItemsPanicOn P Structs.discreteResourceSpec := by unfold Structs.discreteResourceSpec; infer_instance

/-! #### `Structs.genericResource` -/

instance : ItemsStable Structs.genericResource := by unfold Structs.genericResource; infer_instance
instance : ItemsWritten genericResourceKeys Structs.genericResource := by unfold Structs.genericResource; infer_instance
instance : ItemsKeyed [] Structs.genericResource := by unfold Structs.genericResource; infer_instance
instance {P : Str → Prop} : ItemsPanicOn P Structs.genericResource := by unfold Structs.genericResource; infer_instance

/-! #### `Structs.resourceDevice` -/

instance : ItemsStable Structs.resourceDevice := by unfold Structs.resourceDevice; infer_instance
instance : ItemsWritten resourceDeviceKeys Structs.resourceDevice := by unfold Structs.resourceDevice; infer_instance
instance : ItemsKeyed [] Structs.resourceDevice := by unfold Structs.resourceDevice; infer_instance
instance {P : Str → Prop} : ItemsPanicOn P Structs.resourceDevice := by unfold Structs.resourceDevice; infer_instance

/-! #### `Structs.reservations E` -/

instance {E : Env} : ItemsStable (Structs.reservations E) := by unfold Structs.reservations; infer_instance
instance {E : Env} : ItemsWritten reservationsKeys (Structs.reservations E) := by unfold Structs.reservations; infer_instance
instance {E : Env} : ItemsKeyed [] (Structs.reservations E) := by unfold Structs.reservations; infer_instance
instance {P : Str → Prop} {E : Env} : ItemsPanicOn P (Structs.reservations E) := by unfold Structs.reservations; infer_instance

/-! #### `Structs.resources E` -/

instance {E : Env} : ItemsStable (Structs.resources E) := by unfold Structs.resources; infer_instance
instance {E : Env} : ItemsWritten resourcesKeys (Structs.resources E) := by unfold Structs.resources; infer_instance
instance {E : Env} : ItemsKeyed [] (Structs.resources E) := by unfold Structs.resources; infer_instance
instance {P : Str → Prop} {E : Env} : ItemsPanicOn P (Structs.resources E) := by unfold Structs.resources; infer_instance

/-! #### `Structs.deploy E` -/

instance {E : Env} : ItemsStable (Structs.deploy E) := by unfold Structs.deploy; infer_instance
instance {E : Env} : ItemsWritten deployKeys (Structs.deploy E) := by unfold Structs.deploy; infer_instance
instance {E : Env} : ItemsKeyed [] (Structs.deploy E) := by unfold Structs.deploy; infer_instance
instance {P : Str → Prop} {E : Env} [DurationPanics P] : ItemsPanicOn P (Structs.deploy E) := by unfold Structs.deploy; infer_instance

/-! #### `Structs.watchRule` -/

instance : ItemsStable Structs.watchRule := by unfold Structs.watchRule; infer_instance
instance : ItemsWritten watchRuleKeys Structs.watchRule := by unfold Structs.watchRule; infer_instance
instance : ItemsKeyed [] Structs.watchRule := by unfold Structs.watchRule; infer_instance
instance {P : Str → Prop} : ItemsPanicOn P Structs.watchRule := by unfold Structs.watchRule; infer_instance

/-! #### `Structs.develop` -/

instance : ItemsStable Structs.develop := by unfold Structs.develop; infer_instance
instance : ItemsWritten developKeys Structs.develop := by unfold Structs.develop; infer_instance
instance : ItemsKeyed [] Structs.develop := by unfold Structs.develop; infer_instance
instance {P : Str → Prop} : ItemsPanicOn P Structs.develop := by unfold Structs.develop; infer_instance

/-! #### `Structs.envFileConfig` -/

instance : ItemsStable Structs.envFileConfig := by unfold Structs.envFileConfig; infer_instance
instance : ItemsWritten envFileConfigKeys Structs.envFileConfig := by unfold Structs.envFileConfig; infer_instance
instance : ItemsKeyed [] Structs.envFileConfig := by unfold Structs.envFileConfig; infer_instance
instance {P : Str → Prop} : ItemsPanicOn P Structs.envFileConfig := by unfold Structs.envFileConfig; infer_instance

instance {P : Str → Prop} : PanicsOn P Structs.envFile where
  panic v hv := by
    cases v with
    | seq vs => exact PanicsOn.panic (c := Codecs.list (shortOrLong str (struct Structs.envFileConfig))) _ (map_panic.1 hv)
    | map es => cases hv
    | unit => cases hv
    | str s => exact nomatch (show Outcome.ok (EnvFiles.single s) = .panic from hv)
    | _ => cases hv

/-! #### `Structs.dependency` -/

instance : ItemsStable Structs.dependency := by unfold Structs.dependency; infer_instance
instance : ItemsWritten dependencyKeys Structs.dependency := by unfold Structs.dependency; infer_instance
instance : ItemsKeyed [] Structs.dependency := by unfold Structs.dependency; infer_instance
instance {P : Str → Prop} : ItemsPanicOn P Structs.dependency := by unfold Structs.dependency; infer_instance

instance {P : Str → Prop} : ItemPanicsOn P Structs.dependsOn :=
  field_panics ⟨fun v hv => PanicsOn.panic (c := shortOrLong (set identifier) (map identifierKey (struct Structs.dependency))) v hv⟩

/-! #### `Structs.extend` -/

instance : ItemsStable Structs.extend := by unfold Structs.extend; infer_instance
instance : ItemsWritten extendKeys Structs.extend := by unfold Structs.extend; infer_instance
instance : ItemsKeyed [] Structs.extend := by unfold Structs.extend; infer_instance
instance {P : Str → Prop} : ItemsPanicOn P Structs.extend := by unfold Structs.extend; infer_instance

/-! #### `Structs.logging` -/

instance : ItemsStable Structs.logging := by unfold Structs.logging; infer_instance
instance : ItemsWritten loggingKeys Structs.logging := by unfold Structs.logging; infer_instance
instance : ItemsKeyed [] Structs.logging := by unfold Structs.logging; infer_instance
instance {P : Str → Prop} : ItemsPanicOn P Structs.logging := by unfold Structs.logging; infer_instance

/-! #### `Structs.port E` -/

instance {E : Env} : ItemsStable (Structs.port E) := by unfold Structs.port; infer_instance
instance {E : Env} : ItemsWritten portKeys (Structs.port E) := by unfold Structs.port; infer_instance
instance {E : Env} : ItemsKeyed [] (Structs.port E) := by unfold Structs.port; infer_instance
instance {P : Str → Prop} {E : Env} : ItemsPanicOn P (Structs.port E) := by unfold Structs.port; infer_instance

instance {P : Str → Prop} {E : Env} [PortPanics E P] : PanicsOn P (Structs.ports E) :=
  inferInstanceAs (PanicsOn P (@Codecs.set _ (Structs.portsEq E) (shortOrLong (shortPort E) (struct (Structs.port E)))))

/-! #### `Structs.common` -/
instance {P : Str → Prop} : ItemsPanicOn P Structs.common := by unfold Structs.common; infer_instance

/-! #### `Structs.volumeOptions` -/

instance : ItemsStable Structs.volumeOptions := by unfold Structs.volumeOptions; infer_instance
instance : ItemsWritten volumeOptionsKeys Structs.volumeOptions := by unfold Structs.volumeOptions; infer_instance
instance : ItemsKeyed [] Structs.volumeOptions := by unfold Structs.volumeOptions; infer_instance
instance {P : Str → Prop} : ItemsPanicOn P Structs.volumeOptions := by unfold Structs.volumeOptions; infer_instance

/-! #### `Structs.mountVolume` -/

instance : ItemsStable Structs.mountVolume := by unfold Structs.mountVolume; infer_instance
instance : ItemsWritten mountVolumeKeys Structs.mountVolume := by unfold Structs.mountVolume; infer_instance
instance : ItemsKeyed [] Structs.mountVolume := by unfold Structs.mountVolume; infer_instance
instance {P : Str → Prop} : ItemsPanicOn P Structs.mountVolume := by unfold Structs.mountVolume; infer_instance

/-! #### `Structs.bindOptions` -/

instance : ItemsStable Structs.bindOptions := by unfold Structs.bindOptions; infer_instance
instance : ItemsWritten bindOptionsKeys Structs.bindOptions := by unfold Structs.bindOptions; infer_instance
instance : ItemsKeyed [] Structs.bindOptions := by unfold Structs.bindOptions; infer_instance
instance {P : Str → Prop} : ItemsPanicOn P Structs.bindOptions := by unfold Structs.bindOptions; infer_instance

/-! #### `Structs.mountBind` -/

instance : ItemsStable Structs.mountBind := by unfold Structs.mountBind; infer_instance
instance : ItemsWritten mountBindKeys Structs.mountBind := by unfold Structs.mountBind; infer_instance
instance : ItemsKeyed [] Structs.mountBind := by unfold Structs.mountBind; infer_instance
instance {P : Str → Prop} : ItemsPanicOn P Structs.mountBind := by unfold Structs.mountBind; infer_instance

/-! #### `Structs.tmpfsOptions` -/

instance : ItemsStable Structs.tmpfsOptions := by unfold Structs.tmpfsOptions; infer_instance
instance : ItemsWritten tmpfsOptionsKeys Structs.tmpfsOptions := by unfold Structs.tmpfsOptions; infer_instance
instance : ItemsKeyed [] Structs.tmpfsOptions := by unfold Structs.tmpfsOptions; infer_instance
instance {P : Str → Prop} : ItemsPanicOn P Structs.tmpfsOptions := by unfold Structs.tmpfsOptions; infer_instance

/-! #### `Structs.mountTmpfs` -/

instance : ItemsStable Structs.mountTmpfs := by unfold Structs.mountTmpfs; infer_instance
instance : ItemsWritten mountTmpfsKeys Structs.mountTmpfs := by unfold Structs.mountTmpfs; infer_instance
instance : ItemsKeyed [] Structs.mountTmpfs := by unfold Structs.mountTmpfs; infer_instance
instance {P : Str → Prop} : ItemsPanicOn P Structs.mountTmpfs := by unfold Structs.mountTmpfs; infer_instance

/-! #### `Structs.mountNamedPipe` -/

instance : ItemsStable Structs.mountNamedPipe := by unfold Structs.mountNamedPipe; infer_instance
instance : ItemsWritten mountNamedPipeKeys Structs.mountNamedPipe := by unfold Structs.mountNamedPipe; infer_instance
instance : ItemsKeyed [] Structs.mountNamedPipe := by unfold Structs.mountNamedPipe; infer_instance
instance {P : Str → Prop} : ItemsPanicOn P Structs.mountNamedPipe := by unfold Structs.mountNamedPipe; infer_instance

/-! #### `Structs.mountCluster` -/

instance : ItemsStable Structs.mountCluster := by unfold Structs.mountCluster; infer_instance
instance : ItemsWritten mountClusterKeys Structs.mountCluster := by unfold Structs.mountCluster; infer_instance
instance : ItemsKeyed [] Structs.mountCluster := by unfold Structs.mountCluster; infer_instance
instance {P : Str → Prop} : ItemsPanicOn P Structs.mountCluster := by unfold Structs.mountCluster; infer_instance

instance {P : Str → Prop} : PanicsOn P Structs.mount where
  panic v hv := by
    refine entries_panic (f := mountRead) (fun es hes => ?_) hv
    unfold mountRead at hes
    have hd : ∀ (is : List Item) [ItemsPanicOn P is], decode is (es.filter fun e => e.1 ≠ tagKey) = .panic →
        ∃ e ∈ es, ∃ s, Occurs s e.2 ∧ P s := by
      intro is _ h
      obtain ⟨e, he, hs⟩ := decode_panic (P := P) h
      exact ⟨e, (List.mem_filter.1 he).1, hs⟩
    split at hes
    · simp only at hes
      repeat' split at hes
      all_goals first
        | exact hd _ (map_panic.1 hes)
        | cases hes
    · cases hes

instance {E : Env} {P : Str → Prop} : PanicsOn P (Structs.volumes E) :=
  inferInstanceAs (PanicsOn P (@Codecs.set _ (Structs.volumesEq E) (shortOrLong shortVolume Structs.mount)))

/-! #### `Structs.serviceNetwork E` -/

instance {E : Env} : ItemsStable (Structs.serviceNetwork E) := by unfold Structs.serviceNetwork; infer_instance
instance {E : Env} : ItemsWritten serviceNetworkKeys (Structs.serviceNetwork E) := by unfold Structs.serviceNetwork; infer_instance
instance {E : Env} : ItemsKeyed [] (Structs.serviceNetwork E) := by unfold Structs.serviceNetwork; infer_instance
instance {P : Str → Prop} {E : Env} : ItemsPanicOn P (Structs.serviceNetwork E) := by unfold Structs.serviceNetwork; infer_instance

/-! #### `Structs.service E` -/

instance {E : Env} : ItemsStable (Structs.service E) := by unfold Structs.service; dsimp only; (repeat refine stable_cons (by infer_instance) ?_); infer_instance
instance {E : Env} : ItemsWritten serviceKeys (Structs.service E) := by unfold Structs.service; dsimp only; (repeat refine written_cons (by infer_instance) ?_); infer_instance
instance {E : Env} : ItemsKeyed [] (Structs.service E) := by unfold Structs.service; dsimp only; (repeat refine keyed_cons (by infer_instance) ?_); infer_instance
instance {P : Str → Prop} {E : Env} [DurationPanics P] [PortPanics E P] : ItemsPanicOn P (Structs.service E) := by unfold Structs.service; dsimp only; (repeat refine panic_cons (by infer_instance) ?_); infer_instance

/-! #### `Structs.compose E` -/

instance {E : Env} : ItemsStable (Structs.compose E) := by unfold Structs.compose; infer_instance
instance {E : Env} : ItemsWritten composeKeys (Structs.compose E) := by unfold Structs.compose; infer_instance
instance {E : Env} : ItemsKeyed [] (Structs.compose E) := by unfold Structs.compose; infer_instance
instance {P : Str → Prop} {E : Env} [DurationPanics P] [PortPanics E P] : ItemsPanicOn P (Structs.compose E) := by unfold Structs.compose; infer_instance

end Proofs
