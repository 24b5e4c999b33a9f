import Verif.Proofs.Codecs

/- The valid values of the structs are read back from what is written for them. -/

namespace Proofs
open Rust Compose Compose.Derive Compose.Codecs Compose.Structs Spec
open Props hiding mapping

/-! ### Kinds of fields -/

/-- The valid values of a field survive, in a struct with the given keys. -/
class ItemLawful (own : List Str) (i : Item) : Prop where
  lawful : FieldsLawful own [i]

/-- The valid values of all fields survive. -/
class ItemsLawful (own : List Str) (is : List Item) : Prop where
  lawful : FieldsLawful own is

instance {own : List Str} : ItemsLawful own [] := ⟨trivial⟩

instance {own : List Str} {i : Item} {is : List Item} [h : ItemLawful own i] [hs : ItemsLawful own is] :
    ItemsLawful own (i :: is) := by
  constructor
  have h := h.lawful
  have hs := hs.lawful
  cases i with
  | field f => exact ⟨h.1, hs⟩
  | flat f => exact ⟨h.1, hs⟩

theorem items_cons {own : List Str} {i : Item} {is : List Item} (_ : ItemLawful own i) (_ : ItemsLawful own is) :
    ItemsLawful own (i :: is) := inferInstance

section
variable {own : List Str} {α : Type} {key : String}

instance {c : Codec α} [Lawful c] : ItemLawful own (req key c) where
  lawful := ⟨⟨(fun _ _ h => by cases h), fun x hx _ => Lawful.read x hx⟩, trivial⟩

instance {c : Codec (Option α)} [LawfulSome c] : ItemLawful own (optWith key c) where
  lawful := by
    refine ⟨⟨fun x _ h => ?_, fun x hx h => ?_⟩, trivial⟩
    · cases x with
      | none => rfl
      | some x => cases h
    · cases x with
      | none => cases h
      | some x => exact LawfulSome.read x hx

instance {c : Codec α} [Lawful (option c)] : ItemLawful own (opt key c) := inferInstanceAs (ItemLawful own (optWith key _))

instance : ItemLawful own (flag key) where
  lawful := ⟨⟨(fun x _ h => by cases x <;> first | rfl | cases h), fun _ _ _ => rfl⟩, trivial⟩

instance : ItemLawful own (flagTrue key) where
  lawful := ⟨⟨(fun x _ h => by cases x <;> first | rfl | cases h), fun _ _ _ => rfl⟩, trivial⟩

instance {c : Codec (List α)} [Lawful c] : ItemLawful own (many key c) where
  lawful := by
    refine ⟨⟨fun x _ h => ?_, fun x hx _ => Lawful.read x hx⟩, trivial⟩
    cases x with
    | nil => rfl
    | cons x l => cases h

instance : ItemLawful own (manyListOrMap key) where
  lawful := by
    refine ⟨⟨fun x hx h => ?_, fun x hx _ => Lawful.read x hx⟩, trivial⟩
    cases x with
    | list l =>
      cases l with
      | nil => rfl
      | cons x l => cases h
    | map m =>
      cases m with
      | nil => exact absurd rfl hx.2
      | cons x l => cases h

end

/-! ### Flattened fields -/

/-- No key of the struct is that of an extension. -/
class NoExtension (own : List Str) : Prop where
  no : ∀ k ∈ own, ¬ "x-".toList <+: k

theorem readEntries_contents {key : Key} [LawfulKey key] {es : List (Str × Content)} (h : ∀ e ∈ es, key.valid e.1) :
    readEntries key.parse .ok es = .ok es := by
  have := readEntries_map (key := key.parse) (de := .ok) (ser := id) (m := es) fun e he => ⟨LawfulKey.read _ (h e he), rfl⟩
  simpa using this

instance {own : List Str} [h : NoExtension own] : ItemLawful own extensions where
  lawful := by
    refine ⟨⟨fun x hx => ?_, fun x hx => ?_⟩, trivial⟩
    · show (readEntries extensionKey.parse .ok x).map IndexMap.collect = .ok x
      rw [readEntries_contents (key := extensionKey) hx.2, Outcome.map_ok, IndexMap.collect_ok hx.1]
    · refine List.filter_eq_self.2 fun e he => ?_
      obtain ⟨⟨r, hr⟩, _⟩ := hx.2 e he
      have : e.1 ∉ own := fun hm => h.no _ hm ⟨r, hr.symm⟩
      simpa using this

instance {own : List Str} : ItemLawful own dockerfile where
  lawful := by
    refine ⟨⟨fun x _ => ?_, fun x _ => ?_⟩, trivial⟩
    · cases x with
      | none => rfl
      | some d => cases d <;> rfl
    · cases x with
      | none => rfl
      | some d => cases d <;> rfl

instance {own : List Str} : ItemLawful own configSource where
  lawful := ⟨⟨fun x _ => by cases x <;> rfl, fun x _ => by cases x <;> rfl⟩, trivial⟩

instance {own : List Str} : ItemLawful own secretSource where
  lawful := ⟨⟨fun x _ => by cases x <;> rfl, fun x _ => by cases x <;> rfl⟩, trivial⟩

/-! ### Tables -/

/-- The keys are those listed. -/
class Keys (is : List Item) (own : outParam (List Str)) : Prop where
  eq : ownKeys is = own
  last : restLast is = true

/-- A list of keys without repetition and extensions. -/
class DistinctKeys (own : List Str) : Prop where
  nodup : own.Nodup
  no : ∀ k ∈ own, ¬ "x-".toList <+: k

instance {own : List Str} [h : DistinctKeys own] : NoExtension own := ⟨h.no⟩

theorem table_good {is : List Item} {own : List Str} [h : Keys is own] [d : DistinctKeys own] : GoodFields is :=
  ⟨h.eq ▸ d.nodup, h.last⟩

theorem table_lawful {is : List Item} {own : List Str} [h : Keys is own] [DistinctKeys own] [l : ItemsLawful own is] :
    Lawful (struct is) :=
  struct_lawful table_good (h.eq ▸ l.lawful)


instance {is : List Item} : IsMap (struct is) := ⟨fun _ => ⟨_, rfl⟩⟩

/-! ### Mounts -/

/-- A field writes no other keys. -/
def ItemWrites (allowed : Str → Prop) : Item → Prop
  | .field f => allowed f.key
  | .flat f => ∀ x, f.valid x → ∀ e ∈ f.write x, allowed e.1

theorem write_keys {allowed : Str → Prop} {is : List Item} (h : ∀ i ∈ is, ItemWrites allowed i) {r : Record is}
    (hr : recordValid is r) : ∀ e ∈ write is r, allowed e.1 := by
  induction is with
  | nil => intro e he; cases he
  | cons i is ih =>
    intro e he
    obtain ⟨x, r⟩ := r
    have hi := h i (by simp)
    cases i with
    | field f =>
      have hs := fun e he => ih (fun j hj => h j (by simp [hj])) (r := r) hr.2 e he
      rcases List.mem_append.1 (show e ∈ (if f.skip x then [] else [(f.key, f.codec.ser x)]) ++ write is r from he) with he | he
      · split at he
        · cases he
        · rw [List.mem_singleton.1 he]; exact hi
      · exact hs e he
    | flat f =>
      have hs := fun e he => ih (fun j hj => h j (by simp [hj])) (r := r) hr.2 e he
      rcases List.mem_append.1 (show e ∈ f.write x ++ write is r from he) with he | he
      · exact hi x hr.1 e he
      · exact hs e he

/-! ### Tables of the library -/

/-- The keys of `Structs.ipamConfig E`. -/
def ipamConfigKeys : List Str :=
  ["subnet".toList, "ip_range".toList, "gateway".toList, "aux_addresses".toList]

instance {E : Env} : Keys (Structs.ipamConfig E) ipamConfigKeys := ⟨rfl, rfl⟩
instance : DistinctKeys ipamConfigKeys := ⟨by decide +kernel, by decide +kernel⟩
instance {E : Env} [EnvOk E] : ItemsLawful ipamConfigKeys (Structs.ipamConfig E) := by unfold Structs.ipamConfig; infer_instance
instance {E : Env} [EnvOk E] : Lawful (struct (Structs.ipamConfig E)) := table_lawful

/-- The keys of `Structs.ipam E`. -/
def ipamKeys : List Str :=
  ["driver".toList, "config".toList, "options".toList]

instance {E : Env} : Keys (Structs.ipam E) ipamKeys := ⟨rfl, rfl⟩
instance : DistinctKeys ipamKeys := ⟨by decide +kernel, by decide +kernel⟩
instance {E : Env} [EnvOk E] : ItemsLawful ipamKeys (Structs.ipam E) := by unfold Structs.ipam; infer_instance
instance {E : Env} [EnvOk E] : Lawful (struct (Structs.ipam E)) := table_lawful

/-- The keys of `Structs.network E`. -/
def networkKeys : List Str :=
  ["driver".toList, "driver_opts".toList, "attachable".toList, "enable_ipv6".toList, "ipam".toList,
    "internal".toList, "labels".toList, "name".toList]

instance {E : Env} : Keys (Structs.network E) networkKeys := ⟨rfl, rfl⟩
instance : DistinctKeys networkKeys := ⟨by decide +kernel, by decide +kernel⟩
instance {E : Env} [EnvOk E] : ItemsLawful networkKeys (Structs.network E) := by unfold Structs.network; infer_instance
instance {E : Env} [EnvOk E] : Lawful (struct (Structs.network E)) := table_lawful

/-- The keys of `Structs.volume`. -/
def volumeKeys : List Str :=
  ["driver".toList, "driver_opts".toList, "labels".toList, "name".toList]

instance : Keys Structs.volume volumeKeys := ⟨rfl, rfl⟩
instance : DistinctKeys volumeKeys := ⟨by decide +kernel, by decide +kernel⟩
instance : ItemsLawful volumeKeys Structs.volume := by unfold Structs.volume; infer_instance
instance : Lawful (struct Structs.volume) := table_lawful

/-- The keys of `Structs.config`. -/
def configKeys : List Str :=
  ["file".toList, "environment".toList, "content".toList, "labels".toList]

instance : Keys Structs.config configKeys := ⟨rfl, rfl⟩
instance : DistinctKeys configKeys := ⟨by decide +kernel, by decide +kernel⟩
instance : ItemsLawful configKeys Structs.config := by unfold Structs.config; infer_instance
instance : Lawful (struct Structs.config) := table_lawful

/-- The keys of `Structs.secret`. -/
def secretKeys : List Str :=
  ["file".toList, "environment".toList, "labels".toList, "driver".toList, "driver_opts".toList]

instance : Keys Structs.secret secretKeys := ⟨rfl, rfl⟩
instance : DistinctKeys secretKeys := ⟨by decide +kernel, by decide +kernel⟩
instance : ItemsLawful secretKeys Structs.secret := by unfold Structs.secret; infer_instance
instance : Lawful (struct Structs.secret) := table_lawful

/-- The keys of `Structs.«include»`. -/
def includeKeys : List Str :=
  ["path".toList, "project_directory".toList, "env_file".toList]

instance : Keys Structs.«include» includeKeys := ⟨rfl, rfl⟩
instance : DistinctKeys includeKeys := ⟨by decide +kernel, by decide +kernel⟩
instance : ItemsLawful includeKeys Structs.«include» := by unfold Structs.«include»; infer_instance
instance : Lawful (struct Structs.«include») := table_lawful

/-- The keys of `Structs.bpsLimit`. -/
def bpsLimitKeys : List Str :=
  ["path".toList, "rate".toList]

instance : Keys Structs.bpsLimit bpsLimitKeys := ⟨rfl, rfl⟩
instance : DistinctKeys bpsLimitKeys := ⟨by decide +kernel, by decide +kernel⟩
instance : ItemsLawful bpsLimitKeys Structs.bpsLimit := by unfold Structs.bpsLimit; infer_instance
instance : Lawful (struct Structs.bpsLimit) := table_lawful

/-- The keys of `Structs.iopsLimit`. -/
def iopsLimitKeys : List Str :=
  ["path".toList, "rate".toList]

instance : Keys Structs.iopsLimit iopsLimitKeys := ⟨rfl, rfl⟩
instance : DistinctKeys iopsLimitKeys := ⟨by decide +kernel, by decide +kernel⟩
instance : ItemsLawful iopsLimitKeys Structs.iopsLimit := by unfold Structs.iopsLimit; infer_instance
instance : Lawful (struct Structs.iopsLimit) := table_lawful

/-- The keys of `Structs.weightDevice`. -/
def weightDeviceKeys : List Str :=
  ["path".toList, "weight".toList]

instance : Keys Structs.weightDevice weightDeviceKeys := ⟨rfl, rfl⟩
instance : DistinctKeys weightDeviceKeys := ⟨by decide +kernel, by decide +kernel⟩
instance : ItemsLawful weightDeviceKeys Structs.weightDevice := by unfold Structs.weightDevice; infer_instance
instance : Lawful (struct Structs.weightDevice) := table_lawful

/-- The keys of `Structs.blkioConfig`. -/
def blkioConfigKeys : List Str :=
  ["device_read_bps".toList, "device_read_iops".toList, "device_write_bps".toList, "device_write_iops".toList,
    "weight".toList, "weight_device".toList]

instance : Keys Structs.blkioConfig blkioConfigKeys := ⟨rfl, rfl⟩
instance : DistinctKeys blkioConfigKeys := ⟨by decide +kernel, by decide +kernel⟩
instance : ItemsLawful blkioConfigKeys Structs.blkioConfig := by unfold Structs.blkioConfig; infer_instance
instance : Lawful (struct Structs.blkioConfig) := table_lawful

/-- The keys of `Structs.configOrSecret`. -/
def configOrSecretKeys : List Str :=
  ["source".toList, "target".toList, "uid".toList, "gid".toList, "mode".toList]

instance : Keys Structs.configOrSecret configOrSecretKeys := ⟨rfl, rfl⟩
instance : DistinctKeys configOrSecretKeys := ⟨by decide +kernel, by decide +kernel⟩
instance : ItemsLawful configOrSecretKeys Structs.configOrSecret := by unfold Structs.configOrSecret; infer_instance
instance : Lawful (struct Structs.configOrSecret) := table_lawful

/-- The keys of `Structs.ulimit`. -/
def ulimitKeys : List Str :=
  ["soft".toList, "hard".toList]

instance : Keys Structs.ulimit ulimitKeys := ⟨rfl, rfl⟩
instance : DistinctKeys ulimitKeys := ⟨by decide +kernel, by decide +kernel⟩
instance : ItemsLawful ulimitKeys Structs.ulimit := by unfold Structs.ulimit; infer_instance
instance : Lawful (struct Structs.ulimit) := table_lawful

instance : Lawful Structs.ulimits := inferInstanceAs (Lawful (map ulimitKey (shortOrLong (limit u64Max) (struct Structs.ulimit))))

/-- The keys of `Structs.build E`. -/
def buildKeys : List Str :=
  ["context".toList, "dockerfile".toList, "dockerfile_inline".toList, "args".toList, "ssh".toList,
    "cache_from".toList, "cache_to".toList, "additional_contexts".toList, "entitlements".toList,
    "extra_hosts".toList, "isolation".toList, "privileged".toList, "labels".toList, "no_cache".toList,
    "pull".toList, "network".toList, "shm_size".toList, "target".toList, "secrets".toList, "tags".toList,
    "ulimits".toList, "platforms".toList]

instance {E : Env} : Keys (Structs.build E) buildKeys := ⟨rfl, rfl⟩
instance : DistinctKeys buildKeys := ⟨by decide +kernel, by decide +kernel⟩
instance {E : Env} [EnvOk E] : ItemsLawful buildKeys (Structs.build E) := by unfold Structs.build; infer_instance
instance {E : Env} [EnvOk E] : Lawful (struct (Structs.build E)) := table_lawful

instance : Lawful Structs.deployMode := keyword_lawful fun x => by cases x <;> rfl
instance : NotUnit Structs.deployMode := inferInstanceAs (NotUnit (keyword _ _))
instance : Lawful Structs.restartCondition := keyword_lawful fun x => by cases x <;> rfl
instance : NotUnit Structs.restartCondition := inferInstanceAs (NotUnit (keyword _ _))
instance : Lawful Structs.failureAction := keyword_lawful fun x => by cases x <;> rfl
instance : NotUnit Structs.failureAction := inferInstanceAs (NotUnit (keyword _ _))
instance : Lawful Structs.order := keyword_lawful fun x => by cases x <;> rfl
instance : NotUnit Structs.order := inferInstanceAs (NotUnit (keyword _ _))
instance : Lawful Structs.action := keyword_lawful fun x => by cases x <;> rfl
instance : Lawful Structs.condition := keyword_lawful fun x => by cases x <;> rfl
instance : Lawful Structs.cgroup := keyword_lawful fun x => by cases x <;> rfl
instance : NotUnit Structs.cgroup := inferInstanceAs (NotUnit (keyword _ _))
instance : Lawful Structs.uts := keyword_lawful fun x => by cases x <;> rfl
instance : NotUnit Structs.uts := inferInstanceAs (NotUnit (keyword _ _))
instance : Lawful Structs.pullPolicy := keyword_lawful fun x => by cases x <;> rfl
instance : NotUnit Structs.pullPolicy := inferInstanceAs (NotUnit (keyword _ _))
instance : Lawful Structs.restart := keyword_lawful fun x => by cases x <;> rfl
instance : NotUnit Structs.restart := inferInstanceAs (NotUnit (keyword _ _))
instance : Lawful Structs.portMode := keyword_lawful fun x => by cases x <;> rfl
instance : NotUnit Structs.portMode := inferInstanceAs (NotUnit (keyword _ _))
instance : Lawful Structs.bindPropagation := keyword_lawful fun x => by cases x <;> rfl
instance : NotUnit Structs.bindPropagation := inferInstanceAs (NotUnit (keyword _ _))

/-- The keys of `Structs.preference`. -/
def preferenceKeys : List Str :=
  ["spread".toList]

instance : Keys Structs.preference preferenceKeys := ⟨rfl, rfl⟩
instance : DistinctKeys preferenceKeys := ⟨by decide +kernel, by decide +kernel⟩
instance : ItemsLawful preferenceKeys Structs.preference := by unfold Structs.preference; infer_instance
instance : Lawful (struct Structs.preference) := table_lawful

/-- The keys of `Structs.placement`. -/
def placementKeys : List Str :=
  ["constraints".toList, "preferences".toList, "max_replicas_per_node".toList]

instance : Keys Structs.placement placementKeys := ⟨rfl, rfl⟩
instance : DistinctKeys placementKeys := ⟨by decide +kernel, by decide +kernel⟩
instance : ItemsLawful placementKeys Structs.placement := by unfold Structs.placement; infer_instance
instance : Lawful (struct Structs.placement) := table_lawful

/-- The keys of `Structs.restartPolicy`. -/
def restartPolicyKeys : List Str :=
  ["condition".toList, "delay".toList, "max_attempts".toList, "window".toList]

instance : Keys Structs.restartPolicy restartPolicyKeys := ⟨rfl, rfl⟩
instance : DistinctKeys restartPolicyKeys := ⟨by decide +kernel, by decide +kernel⟩
instance : ItemsLawful restartPolicyKeys Structs.restartPolicy := by unfold Structs.restartPolicy; infer_instance
instance : Lawful (struct Structs.restartPolicy) := table_lawful

/-- The keys of `Structs.updateOrRollbackConfig`. -/
def updateOrRollbackConfigKeys : List Str :=
  ["parallelism".toList, "delay".toList, "failure_action".toList, "monitor".toList, "max_failure_ratio".toList,
    "order".toList]

instance : Keys Structs.updateOrRollbackConfig updateOrRollbackConfigKeys := ⟨rfl, rfl⟩
instance : DistinctKeys updateOrRollbackConfigKeys := ⟨by decide +kernel, by decide +kernel⟩
instance : ItemsLawful updateOrRollbackConfigKeys Structs.updateOrRollbackConfig := by unfold Structs.updateOrRollbackConfig; infer_instance
instance : Lawful (struct Structs.updateOrRollbackConfig) := table_lawful

/-- The keys of `Structs.limits E`. -/
def limitsKeys : List Str :=
  ["cpus".toList, "memory".toList, "pids".toList]

instance {E : Env} : Keys (Structs.limits E) limitsKeys := ⟨rfl, rfl⟩
instance : DistinctKeys limitsKeys := ⟨by decide +kernel, by decide +kernel⟩
instance {E : Env} [EnvOk E] : ItemsLawful limitsKeys (Structs.limits E) := by unfold Structs.limits; infer_instance
instance {E : Env} [EnvOk E] : Lawful (struct (Structs.limits E)) := table_lawful

/-- The keys of `Structs.discreteResourceSpec`. -/
def discreteResourceSpecKeys : List Str :=
  ["kind".toList, "value".toList]

instance : Keys Structs.discreteResourceSpec discreteResourceSpecKeys := ⟨rfl, rfl⟩
instance : DistinctKeys discreteResourceSpecKeys := ⟨by decide +kernel, by decide +kernel⟩
instance : ItemsLawful discreteResourceSpecKeys Structs.discreteResourceSpec := by unfold Structs.discreteResourceSpec; infer_instance
instance : Lawful (struct Structs.discreteResourceSpec) := table_lawful

/-- The keys of `Structs.genericResource`. -/
def genericResourceKeys : List Str :=
  ["discrete_resource_spec".toList]

instance : Keys Structs.genericResource genericResourceKeys := ⟨rfl, rfl⟩
instance : DistinctKeys genericResourceKeys := ⟨by decide +kernel, by decide +kernel⟩
instance : ItemsLawful genericResourceKeys Structs.genericResource := by unfold Structs.genericResource; infer_instance
instance : Lawful (struct Structs.genericResource) := table_lawful

/-- The keys of `Structs.resourceDevice`. -/
def resourceDeviceKeys : List Str :=
  ["capabilities".toList, "driver".toList, "count".toList, "device_ids".toList, "options".toList]

instance : Keys Structs.resourceDevice resourceDeviceKeys := ⟨rfl, rfl⟩
instance : DistinctKeys resourceDeviceKeys := ⟨by decide +kernel, by decide +kernel⟩
instance : ItemsLawful resourceDeviceKeys Structs.resourceDevice := by unfold Structs.resourceDevice; infer_instance
instance : Lawful (struct Structs.resourceDevice) := table_lawful

/-- The keys of `Structs.reservations E`. -/
def reservationsKeys : List Str :=
  ["cpus".toList, "memory".toList, "devices".toList, "generic_resources".toList]

instance {E : Env} : Keys (Structs.reservations E) reservationsKeys := ⟨rfl, rfl⟩
instance : DistinctKeys reservationsKeys := ⟨by decide +kernel, by decide +kernel⟩
instance {E : Env} [EnvOk E] : ItemsLawful reservationsKeys (Structs.reservations E) := by unfold Structs.reservations; infer_instance
instance {E : Env} [EnvOk E] : Lawful (struct (Structs.reservations E)) := table_lawful

/-- The keys of `Structs.resources E`. -/
def resourcesKeys : List Str :=
  ["limits".toList, "reservations".toList]

instance {E : Env} : Keys (Structs.resources E) resourcesKeys := ⟨rfl, rfl⟩
instance : DistinctKeys resourcesKeys := ⟨by decide +kernel, by decide +kernel⟩
instance {E : Env} [EnvOk E] : ItemsLawful resourcesKeys (Structs.resources E) := by unfold Structs.resources; infer_instance
instance {E : Env} [EnvOk E] : Lawful (struct (Structs.resources E)) := table_lawful

/-- The keys of `Structs.deploy E`. -/
def deployKeys : List Str :=
  ["endpoint_mode".toList, "labels".toList, "mode".toList, "placement".toList, "replicas".toList,
    "resources".toList, "restart_policy".toList, "rollback_config".toList, "update_config".toList]

instance {E : Env} : Keys (Structs.deploy E) deployKeys := ⟨rfl, rfl⟩
instance : DistinctKeys deployKeys := ⟨by decide +kernel, by decide +kernel⟩
instance {E : Env} [EnvOk E] : ItemsLawful deployKeys (Structs.deploy E) := by unfold Structs.deploy; infer_instance
instance {E : Env} [EnvOk E] : Lawful (struct (Structs.deploy E)) := table_lawful

/-- The keys of `Structs.watchRule`. -/
def watchRuleKeys : List Str :=
  ["action".toList, "ignore".toList, "path".toList, "target".toList]

instance : Keys Structs.watchRule watchRuleKeys := ⟨rfl, rfl⟩
instance : DistinctKeys watchRuleKeys := ⟨by decide +kernel, by decide +kernel⟩
instance : ItemsLawful watchRuleKeys Structs.watchRule := by unfold Structs.watchRule; infer_instance
instance : Lawful (struct Structs.watchRule) := table_lawful

/-- The keys of `Structs.develop`. -/
def developKeys : List Str :=
  ["watch".toList]

instance : Keys Structs.develop developKeys := ⟨rfl, rfl⟩
instance : DistinctKeys developKeys := ⟨by decide +kernel, by decide +kernel⟩
instance : ItemsLawful developKeys Structs.develop := by unfold Structs.develop; infer_instance
instance : Lawful (struct Structs.develop) := table_lawful

/-- The keys of `Structs.envFileConfig`. -/
def envFileConfigKeys : List Str :=
  ["path".toList, "required".toList]

instance : Keys Structs.envFileConfig envFileConfigKeys := ⟨rfl, rfl⟩
instance : DistinctKeys envFileConfigKeys := ⟨by decide +kernel, by decide +kernel⟩
instance : ItemsLawful envFileConfigKeys Structs.envFileConfig := by unfold Structs.envFileConfig; infer_instance
instance : Lawful (struct Structs.envFileConfig) := table_lawful

instance : Lawful Structs.envFile where
  read x hx := by
    cases x with
    | single p => rfl
    | list l =>
      have h := Lawful.read (c := Codecs.list (shortOrLong str (struct Structs.envFileConfig))) l hx
      show Outcome.map EnvFiles.list ((Codecs.list (shortOrLong str (struct Structs.envFileConfig))).de
        ((Codecs.list (shortOrLong str (struct Structs.envFileConfig))).ser l)) = _
      rw [h]; rfl
instance : NotUnit Structs.envFile := ⟨fun x => by cases x <;> exact nofun⟩

/-- The keys of `Structs.dependency`. -/
def dependencyKeys : List Str :=
  ["condition".toList, "restart".toList, "required".toList]

instance : Keys Structs.dependency dependencyKeys := ⟨rfl, rfl⟩
instance : DistinctKeys dependencyKeys := ⟨by decide +kernel, by decide +kernel⟩
instance : ItemsLawful dependencyKeys Structs.dependency := by unfold Structs.dependency; infer_instance
instance : Lawful (struct Structs.dependency) := table_lawful

instance {own : List Str} : ItemLawful own Structs.dependsOn where
  lawful := by
    refine ⟨⟨fun x hx h => ?_, fun x hx _ =>
      Lawful.read (c := shortOrLong (set identifier) (map identifierKey (struct Structs.dependency))) x hx.1⟩, trivial⟩
    cases x with
    | short l =>
      cases l with
      | nil => rfl
      | cons x l => cases h
    | long m =>
      cases m with
      | nil => exact absurd rfl hx.2
      | cons x l => cases h

/-- The keys of `Structs.extend`. -/
def extendKeys : List Str :=
  ["service".toList, "file".toList]

instance : Keys Structs.extend extendKeys := ⟨rfl, rfl⟩
instance : DistinctKeys extendKeys := ⟨by decide +kernel, by decide +kernel⟩
instance : ItemsLawful extendKeys Structs.extend := by unfold Structs.extend; infer_instance
instance : Lawful (struct Structs.extend) := table_lawful

/-- The keys of `Structs.logging`. -/
def loggingKeys : List Str :=
  ["driver".toList, "options".toList]

instance : Keys Structs.logging loggingKeys := ⟨rfl, rfl⟩
instance : DistinctKeys loggingKeys := ⟨by decide +kernel, by decide +kernel⟩
instance : ItemsLawful loggingKeys Structs.logging := by unfold Structs.logging; infer_instance
instance : Lawful (struct Structs.logging) := table_lawful

/-- The keys of `Structs.port E`. -/
def portKeys : List Str :=
  ["name".toList, "target".toList, "published".toList, "host_ip".toList, "protocol".toList,
    "app_protocol".toList, "mode".toList]

instance {E : Env} : Keys (Structs.port E) portKeys := ⟨rfl, rfl⟩
instance : DistinctKeys portKeys := ⟨by decide +kernel, by decide +kernel⟩
instance {E : Env} [EnvOk E] : ItemsLawful portKeys (Structs.port E) := by unfold Structs.port; infer_instance
instance {E : Env} [EnvOk E] : Lawful (struct (Structs.port E)) := table_lawful

instance {E : Env} [EnvOk E] : Lawful (Structs.ports E) :=
  inferInstanceAs (Lawful (@Codecs.set _ (Structs.portsEq E) (shortOrLong (shortPort E) (struct (Structs.port E)))))

/-- The keys of `Structs.common`. -/
def commonKeys : List Str :=
  ["target".toList, "read_only".toList, "consistency".toList]

instance : Keys Structs.common commonKeys := ⟨rfl, rfl⟩
instance : DistinctKeys commonKeys := ⟨by decide +kernel, by decide +kernel⟩
instance : ItemsLawful commonKeys Structs.common := by unfold Structs.common; infer_instance
instance : Lawful (struct Structs.common) := table_lawful

/-- No key is one of those that all mounts have, or that of an extension. -/
class NoCommon (own : List Str) : Prop where
  no : ∀ k ∈ own, k ∉ "type".toList :: commonKeys

/-- The keys that are written for the fields that all mounts have. -/
def CommonKey (k : Str) : Prop := k ∈ commonKeys ∨ "x-".toList <+: k

theorem extensions_writes {allowed : Str → Prop} (h : ∀ k, "x-".toList <+: k → allowed k) : ItemWrites allowed extensions := by
  intro x hx e he
  obtain ⟨⟨r, hr⟩, _⟩ := hx.2 e he
  exact h _ ⟨r, hr.symm⟩

theorem common_writes {r : Record Structs.common} (hr : recordValid Structs.common r) :
    ∀ e ∈ write Structs.common r, CommonKey e.1 := by
  refine write_keys (fun i hi => ?_) hr
  simp only [Structs.common, List.mem_cons, List.not_mem_nil, or_false] at hi
  rcases hi with rfl | rfl | rfl | rfl
  · exact .inl (by decide)
  · exact .inl (by decide)
  · exact .inl (by decide)
  · exact extensions_writes fun k hk => .inr hk

instance {own : List Str} [h : NoCommon own] [d : DistinctKeys own] : ItemLawful own (nested Structs.common) where
  lawful := by
    refine ⟨⟨fun x hx => ?_, fun x hx => ?_⟩, trivial⟩
    · have := Lawful.read (c := struct Structs.common) x hx
      rwa [show (struct Structs.common).ser x = Derive.mapping (write Structs.common x) from rfl, struct_de_mapping] at this
    · refine List.filter_eq_self.2 fun e he => ?_
      have : e.1 ∉ own := by
        intro hm
        rcases common_writes hx e he with h1 | h1
        · exact h.no _ hm (List.mem_cons_of_mem _ h1)
        · exact d.no _ hm h1
      simpa using this

/-- The keys of `Structs.volumeOptions`. -/
def volumeOptionsKeys : List Str :=
  ["nocopy".toList, "subpath".toList]

instance : Keys Structs.volumeOptions volumeOptionsKeys := ⟨rfl, rfl⟩
instance : DistinctKeys volumeOptionsKeys := ⟨by decide +kernel, by decide +kernel⟩
instance : ItemsLawful volumeOptionsKeys Structs.volumeOptions := by unfold Structs.volumeOptions; infer_instance
instance : Lawful (struct Structs.volumeOptions) := table_lawful

/-- The keys of `Structs.mountVolume`. -/
def mountVolumeKeys : List Str :=
  ["source".toList, "volume".toList]

instance : Keys Structs.mountVolume mountVolumeKeys := ⟨rfl, rfl⟩
instance : NoCommon mountVolumeKeys := ⟨by decide +kernel⟩
instance : DistinctKeys mountVolumeKeys := ⟨by decide +kernel, by decide +kernel⟩
instance : ItemsLawful mountVolumeKeys Structs.mountVolume := by unfold Structs.mountVolume; infer_instance
instance : Lawful (struct Structs.mountVolume) := table_lawful

/-- The keys of `Structs.bindOptions`. -/
def bindOptionsKeys : List Str :=
  ["propagation".toList, "create_host_path".toList, "selinux".toList]

instance : Keys Structs.bindOptions bindOptionsKeys := ⟨rfl, rfl⟩
instance : DistinctKeys bindOptionsKeys := ⟨by decide +kernel, by decide +kernel⟩
instance : ItemsLawful bindOptionsKeys Structs.bindOptions := by unfold Structs.bindOptions; infer_instance
instance : Lawful (struct Structs.bindOptions) := table_lawful

/-- The keys of `Structs.mountBind`. -/
def mountBindKeys : List Str :=
  ["source".toList, "bind".toList]

instance : Keys Structs.mountBind mountBindKeys := ⟨rfl, rfl⟩
instance : NoCommon mountBindKeys := ⟨by decide +kernel⟩
instance : DistinctKeys mountBindKeys := ⟨by decide +kernel, by decide +kernel⟩
instance : ItemsLawful mountBindKeys Structs.mountBind := by unfold Structs.mountBind; infer_instance
instance : Lawful (struct Structs.mountBind) := table_lawful

/-- The keys of `Structs.tmpfsOptions`. -/
def tmpfsOptionsKeys : List Str :=
  ["size".toList, "mode".toList]

instance : Keys Structs.tmpfsOptions tmpfsOptionsKeys := ⟨rfl, rfl⟩
instance : DistinctKeys tmpfsOptionsKeys := ⟨by decide +kernel, by decide +kernel⟩
instance : ItemsLawful tmpfsOptionsKeys Structs.tmpfsOptions := by unfold Structs.tmpfsOptions; infer_instance
instance : Lawful (struct Structs.tmpfsOptions) := table_lawful

/-- The keys of `Structs.mountTmpfs`. -/
def mountTmpfsKeys : List Str :=
  ["tmpfs".toList]

instance : Keys Structs.mountTmpfs mountTmpfsKeys := ⟨rfl, rfl⟩
instance : NoCommon mountTmpfsKeys := ⟨by decide +kernel⟩
instance : DistinctKeys mountTmpfsKeys := ⟨by decide +kernel, by decide +kernel⟩
instance : ItemsLawful mountTmpfsKeys Structs.mountTmpfs := by unfold Structs.mountTmpfs; infer_instance
instance : Lawful (struct Structs.mountTmpfs) := table_lawful

/-- The keys of `Structs.mountNamedPipe`. -/
def mountNamedPipeKeys : List Str :=
  ["source".toList]

instance : Keys Structs.mountNamedPipe mountNamedPipeKeys := ⟨rfl, rfl⟩
instance : NoCommon mountNamedPipeKeys := ⟨by decide +kernel⟩
instance : DistinctKeys mountNamedPipeKeys := ⟨by decide +kernel, by decide +kernel⟩
instance : ItemsLawful mountNamedPipeKeys Structs.mountNamedPipe := by unfold Structs.mountNamedPipe; infer_instance
instance : Lawful (struct Structs.mountNamedPipe) := table_lawful

/-- The keys of `Structs.mountCluster`. -/
def mountClusterKeys : List Str :=
  ["source".toList]

instance : Keys Structs.mountCluster mountClusterKeys := ⟨rfl, rfl⟩
instance : NoCommon mountClusterKeys := ⟨by decide +kernel⟩
instance : DistinctKeys mountClusterKeys := ⟨by decide +kernel, by decide +kernel⟩
instance : ItemsLawful mountClusterKeys Structs.mountCluster := by unfold Structs.mountCluster; infer_instance
instance : Lawful (struct Structs.mountCluster) := table_lawful

theorem mount_writes {is : List Item} {own : List Str} [h : NoCommon own]
    (hi : ∀ i ∈ is, ItemWrites (fun k => k ∈ own ∨ CommonKey k) i) {r : Record is} (hr : recordValid is r) :
    ∀ e ∈ write is r, e.1 ≠ tagKey := by
  intro e he hk
  rcases write_keys hi hr e he with h1 | h1 | h1
  · exact h.no _ h1 (hk ▸ List.mem_cons_self)
  · rw [hk] at h1; exact absurd h1 (by decide)
  · rw [hk] at h1; exact absurd h1 (by decide)

theorem common_item {own : List Str} : ItemWrites (fun k => k ∈ own ∨ CommonKey k) (nested Structs.common) :=
  fun _ hx e he => .inr (common_writes hx e he)

theorem mountRead_tag {tag : Str} {es : List (Str × Content)} (h : ∀ e ∈ es, e.1 ≠ tagKey) :
    mountRead ((tagKey, .str tag) :: es) =
      if tag = "volume".toList then (decode mountVolume es).map .volume
      else if tag = "bind".toList then (decode mountBind es).map .bind
      else if tag = "tmpfs".toList then (decode mountTmpfs es).map .tmpfs
      else if tag = "npipe".toList then (decode mountNamedPipe es).map .namedPipe
      else if tag = "cluster".toList then (decode mountCluster es).map .cluster
      else .err () := by
  have h1 : es.filter (fun e => e.1 = tagKey) = [] := by
    rw [List.filter_eq_nil_iff]; intro e he; simpa using h e he
  have h2 : es.filter (fun e => e.1 ≠ tagKey) = es := by
    rw [List.filter_eq_self]; intro e he; simpa using h e he
  unfold mountRead
  rw [List.filter_cons, List.filter_cons, if_pos (by simp), if_neg (by simp), h1, h2]

theorem decode_of_lawful {is : List Item} [Lawful (struct is)] {r : Record is} (hr : recordValid is r) :
    decode is (write is r) = .ok r := by
  have := Lawful.read (c := struct is) r hr
  rwa [show (struct is).ser r = Derive.mapping (write is r) from rfl, struct_de_mapping] at this

instance : Lawful Structs.mount where
  read m hm := by
    show (Outcome.ofOption (entriesOf (Derive.mapping (mountWrite m)))).bind mountRead = .ok m
    rw [entriesOf_mapping, Outcome.ofOption_some, Outcome.bind_ok]
    cases m with
    | volume r =>
      have h := mount_writes (is := mountVolume) (own := mountVolumeKeys) (fun i hi => by
        simp only [mountVolume, List.mem_cons, List.not_mem_nil, or_false] at hi
        rcases hi with rfl | rfl | rfl
        · exact .inl (by decide)
        · exact .inl (by decide)
        · exact common_item) hm
      simp only [mountWrite]
      rw [mountRead_tag h, if_pos rfl, decode_of_lawful hm]; rfl
    | bind r =>
      have h := mount_writes (is := mountBind) (own := mountBindKeys) (fun i hi => by
        simp only [mountBind, List.mem_cons, List.not_mem_nil, or_false] at hi
        rcases hi with rfl | rfl | rfl
        · exact .inl (by decide)
        · exact .inl (by decide)
        · exact common_item) hm
      simp only [mountWrite]
      rw [mountRead_tag h, if_neg (by decide), if_pos rfl, decode_of_lawful hm]; rfl
    | tmpfs r =>
      have h := mount_writes (is := mountTmpfs) (own := mountTmpfsKeys) (fun i hi => by
        simp only [mountTmpfs, List.mem_cons, List.not_mem_nil, or_false] at hi
        rcases hi with rfl | rfl
        · exact .inl (by decide)
        · exact common_item) hm
      simp only [mountWrite]
      rw [mountRead_tag h, if_neg (by decide), if_neg (by decide), if_pos rfl, decode_of_lawful hm]; rfl
    | namedPipe r =>
      have h := mount_writes (is := mountNamedPipe) (own := mountNamedPipeKeys) (fun i hi => by
        simp only [mountNamedPipe, List.mem_cons, List.not_mem_nil, or_false] at hi
        rcases hi with rfl | rfl
        · exact .inl (by decide)
        · exact common_item) hm
      simp only [mountWrite]
      rw [mountRead_tag h, if_neg (by decide), if_neg (by decide), if_neg (by decide), if_pos rfl, decode_of_lawful hm]; rfl
    | cluster r =>
      have h := mount_writes (is := mountCluster) (own := mountClusterKeys) (fun i hi => by
        simp only [mountCluster, List.mem_cons, List.not_mem_nil, or_false] at hi
        rcases hi with rfl | rfl
        · exact .inl (by decide)
        · exact common_item) hm
      simp only [mountWrite]
      rw [mountRead_tag h, if_neg (by decide), if_neg (by decide), if_neg (by decide), if_neg (by decide), if_pos rfl,
        decode_of_lawful hm]; rfl

instance : IsMap Structs.mount := ⟨fun _ => ⟨_, rfl⟩⟩

instance {E : Env} : Lawful (Structs.volumes E) :=
  inferInstanceAs (Lawful (@Codecs.set _ (Structs.volumesEq E) (shortOrLong shortVolume Structs.mount)))

/-- The keys of `Structs.serviceNetwork E`. -/
def serviceNetworkKeys : List Str :=
  ["aliases".toList, "ipv4_address".toList, "ipv6_address".toList, "link_local_ips".toList, "mac_address".toList,
    "driver_opts".toList, "priority".toList]

instance {E : Env} : Keys (Structs.serviceNetwork E) serviceNetworkKeys := ⟨rfl, rfl⟩
instance : DistinctKeys serviceNetworkKeys := ⟨by decide +kernel, by decide +kernel⟩
instance {E : Env} [EnvOk E] : ItemsLawful serviceNetworkKeys (Structs.serviceNetwork E) := by unfold Structs.serviceNetwork; infer_instance
instance {E : Env} [EnvOk E] : Lawful (struct (Structs.serviceNetwork E)) := table_lawful

instance {E : Env} [EnvOk E] : Lawful (Structs.networks E) :=
  inferInstanceAs (Lawful (shortOrLong (set identifier) (map identifierKey (option (struct (Structs.serviceNetwork E))))))
instance {E : Env} : NotUnit (Structs.networks E) :=
  inferInstanceAs (NotUnit (shortOrLong (set identifier) (map identifierKey (option (struct (Structs.serviceNetwork E))))))

theorem optionEntries_of_de {N : Type} {f : Content → Option N} {e : Str × Content} {n : NetworkConfigOf N}
    (h : NetworkConfigOf.de f (Props.mapping [e]) = some n) : NetworkConfigOf.optionEntries f [e] = some (some n) := by
  change (match (some [e]).bind (NetworkConfigOf.optionEntries f) with | some (some d) => some d | _ => none) = some n at h
  rw [Option.bind_some] at h
  split at h
  · rename_i d hd
    rw [hd, Option.some.inj h]
  · cases h

instance {E : Env} {own : List Str} [EnvOk E] : ItemLawful own (Structs.networkConfig E) where
  lawful := by
    have hr := C50_round_trip (fun c => ((Structs.networks E).de c).toOption) (Structs.networks E).ser
    refine ⟨⟨fun x hx => ?_, fun x hx => ?_⟩, trivial⟩
    · cases x with
      | none => rfl
      | some n =>
        have : NetworkConfigOf.optionEntries (fun c => ((Structs.networks E).de c).toOption)
            [n.entry (Structs.networks E).ser] = some (some n) := by
          refine optionEntries_of_de ?_
          cases n with
          | networkMode m => exact hr.2.2.1 m ((C42_network_mode_round_trip m).2 (hx.1 m rfl))
          | networks n =>
            exact hr.2.2.2.1 n (Outcome.toOption_eq_some.2 (Lawful.read n (hx.2 n rfl))) (NotUnit.ne n)
        show Outcome.ofOption (NetworkConfigOf.optionEntries _ [n.entry (Structs.networks E).ser]) = _
        rw [this]; rfl
    · cases x with
      | none => rfl
      | some n => cases n <;> rfl

/-- The keys of `Structs.service E`. -/
def serviceKeys : List Str :=
  ["attach".toList, "build".toList, "blkio_config".toList, "cpu_count".toList, "cpu_percent".toList,
    "cpu_shares".toList, "cpu_period".toList, "cpu_quota".toList, "cpu_rt_runtime".toList, "cpu_rt_period".toList,
    "cpus".toList, "cpuset".toList, "cap_add".toList, "cap_drop".toList, "cgroup".toList, "cgroup_parent".toList,
    "command".toList, "configs".toList, "container_name".toList, "credential_spec".toList, "depends_on".toList,
    "deploy".toList, "develop".toList, "device_cgroup_rules".toList, "devices".toList, "dns".toList,
    "dns_opt".toList, "dns_search".toList, "domainname".toList, "entrypoint".toList, "env_file".toList,
    "environment".toList, "expose".toList, "extends".toList, "annotations".toList, "external_links".toList,
    "extra_hosts".toList, "group_add".toList, "healthcheck".toList, "hostname".toList, "image".toList,
    "init".toList, "ipc".toList, "uts".toList, "isolation".toList, "labels".toList, "links".toList,
    "logging".toList, "network_mode".toList, "networks".toList, "mac_address".toList, "mem_limit".toList,
    "mem_reservation".toList, "mem_swappiness".toList, "memswap_limit".toList, "oom_kill_disable".toList,
    "oom_score_adj".toList, "pid".toList, "pids_limit".toList, "platform".toList, "ports".toList,
    "privileged".toList, "profiles".toList, "pull_policy".toList, "read_only".toList, "restart".toList,
    "runtime".toList, "scale".toList, "secrets".toList, "security_opt".toList, "shm_size".toList,
    "stdin_open".toList, "stop_grace_period".toList, "stop_signal".toList, "storage_opt".toList, "sysctls".toList,
    "tmpfs".toList, "tty".toList, "ulimits".toList, "user".toList, "userns_mode".toList, "volumes".toList,
    "volumes_from".toList, "working_dir".toList]

instance {E : Env} : Keys (Structs.service E) serviceKeys := ⟨rfl, rfl⟩
instance : DistinctKeys serviceKeys := ⟨by decide +kernel, by decide +kernel⟩
instance {E : Env} [EnvOk E] : ItemsLawful serviceKeys (Structs.service E) := by unfold Structs.service; dsimp only; (repeat refine items_cons (by infer_instance) ?_); infer_instance
instance {E : Env} [EnvOk E] : Lawful (struct (Structs.service E)) := table_lawful

end Proofs
