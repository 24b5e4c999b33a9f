import Verif.Proofs.Meaning
import Verif.Props.Structs

/- The tables of fields in the model agree with the tables in `Verif.Spec.Schemas`, so the structs are read from exactly
the mappings that denote them. -/

namespace Proofs
open Rust Compose Compose.Derive Compose.Codecs Spec Spec.Meaning
open Props hiding mapping entriesOf_mapping

/-- The two tables have the same keys and are made of the same entries. -/
structure Agrees (is : List Item) (s : Schema (Record is)) : Prop where
  keys : s.keys = ownKeys is
  plain : s.plain = noFlat is
  stands : ∀ own es r, StandsFor own es is r ↔ s.Stands own es r

theorem denotes_struct {is : List Item} {own : List Str} {s : Schema (Record is)} [Keys is own] [DistinctKeys own]
    (h : Agrees is s) : Denotes (struct is) s.Means where
  iff v r := by
    unfold Schema.Means
    rw [struct_de_iff table_good]
    simp only [h.stands, h.keys, h.plain]

theorem agrees_nil : Agrees [] Schema.nil := ⟨rfl, rfl, fun _ _ _ => Iff.rfl⟩

section
variable {α : Type} {is : List Item} {s : Schema (Record is)} {key : String}

theorem agrees_field {c : Codec α} {d : Option α} {skip : α → Bool} {m : Meaning α} [hd : Denotes c m] (h : Agrees is s) :
    Agrees (.field ⟨key.toList, α, c, d, skip⟩ :: is) (Schema.field key m d s) where
  keys := by
    show key.toList :: s.keys = key.toList :: ownKeys is
    rw [h.keys]
  plain := h.plain
  stands own es r := by
    obtain ⟨x, r⟩ := r
    exact and_congr (or_congr_left (exists_congr fun v => and_congr_right fun _ => hd.iff v x)) (h.stands own es r)

theorem agrees_req {c : Codec α} {m : Meaning α} [Denotes c m] (h : Agrees is s) :
    Agrees (req key c :: is) (Schema.required key m s) := agrees_field h

theorem agrees_optWith {c : Codec (Option α)} {m : Meaning (Option α)} [Denotes c m] (h : Agrees is s) :
    Agrees (optWith key c :: is) (Schema.optional' key m s) := agrees_field h

theorem agrees_opt {c : Codec α} {m : Meaning α} [Denotes c m] (h : Agrees is s) :
    Agrees (opt key c :: is) (Schema.optional key m s) := agrees_field h

/-- An optional field whose type has its own way to write `None`. -/
theorem agrees_optWith' {c : Codec (Option α)} {m : Meaning α} [Denotes c (orNull m)] (h : Agrees is s) :
    Agrees (optWith key c :: is) (Schema.optional key m s) := agrees_field h

theorem agrees_flag (h : Agrees is s) : Agrees (flag key :: is) (Schema.flag key false s) := agrees_field h

theorem agrees_flagTrue (h : Agrees is s) : Agrees (flagTrue key :: is) (Schema.flag key true s) := agrees_field h

theorem agrees_many {c : Codec (List α)} {m : Meaning (List α)} [Denotes c m] (h : Agrees is s) :
    Agrees (many key c :: is) (Schema.many key m s) := agrees_field h

theorem agrees_listOrMap (h : Agrees is s) : Agrees (manyListOrMap key :: is) (Schema.listOrMap key s) := agrees_field h

theorem agrees_group {f : Flat} {keys : List String} {means : List (Str × Content) → f.Ty → Prop}
    (hk : f.keys = some (keys.map String.toList))
    (hr : ∀ es x, f.read (es.filter fun e => e.1 ∈ keys.map String.toList) = .ok x ↔ means es x) (h : Agrees is s) :
    Agrees (.flat f :: is) (Schema.group keys means s) where
  keys := by
    show keys.map String.toList ++ s.keys = f.keys.getD [] ++ ownKeys is
    rw [h.keys, hk]; rfl
  plain := rfl
  stands own es r := by
    obtain ⟨x, r⟩ := r
    have he : entriesFor own f es = es.filter fun e => e.1 ∈ keys.map String.toList := by unfold entriesFor; rw [hk]
    exact and_congr ((iff_of_eq (congrArg (fun l => f.read l = .ok x) he)).trans (hr es x)) (h.stands own es r)

theorem agrees_rest {f : Flat} {means : List (Str × Content) → f.Ty → Prop} (hk : f.keys = none)
    (hr : ∀ es x, f.read es = .ok x ↔ means es x) (h : Agrees is s) :
    Agrees (.flat f :: is) (Schema.rest means s) where
  keys := by
    show s.keys = f.keys.getD [] ++ ownKeys is
    rw [h.keys, hk]; rfl
  plain := rfl
  stands own es r := by
    obtain ⟨x, r⟩ := r
    have he : entriesFor own f es = es.filter fun e => e.1 ∉ own := by unfold entriesFor; rw [hk]
    exact and_congr ((iff_of_eq (congrArg (fun l => f.read l = .ok x) he)).trans (hr _ x)) (h.stands own es r)
end

/-! ### Flattened fields -/

theorem valuesOf_filter {es : List (Str × Content)} {keys : List Str} {k : Str} (h : k ∈ keys) :
    valuesOf k (es.filter fun e => e.1 ∈ keys) = valuesOf k es := by
  unfold valuesOf
  rw [List.filter_filter]
  congr 1
  apply List.filter_congr
  intro e _
  by_cases he : e.1 = k
  · simp [he, h]
  · simp [he]

theorem notGiven_filter {es : List (Str × Content)} {keys : List Str} {k : Str} (h : k ∈ keys) :
    NotGiven (es.filter fun e => e.1 ∈ keys) k ↔ NotGiven es k := by
  unfold NotGiven; rw [valuesOf_filter h]

theorem oneOf_filter {α : Type} {fields : List (Alternative α)} {es : List (Str × Content)} {keys : List Str} {x : α}
    (h : ∀ f ∈ fields, f.key ∈ keys) : OneOf fields (es.filter fun e => e.1 ∈ keys) x ↔ OneOf fields es x := by
  unfold OneOf Given
  refine exists_congr fun f => and_congr_right fun hf => and_congr (by rw [valuesOf_filter (h f hf)]) ?_
  exact forall_congr' fun g => forall_congr' fun hg => by rw [notGiven_filter (h g hg)]

theorem noneOf_filter {α : Type} {fields : List (Alternative α)} {es : List (Str × Content)} {keys : List Str}
    (h : ∀ f ∈ fields, f.key ∈ keys) : NoneOf fields (es.filter fun e => e.1 ∈ keys) ↔ NoneOf fields es :=
  forall_congr' fun f => forall_congr' fun hf => notGiven_filter (h f hf)

theorem entriesOf_props {es : List (Str × Content)} : entriesOf (Props.mapping es) = some es := Props.entriesOf_mapping

theorem option_iff {α : Type} {p : Option (Option α)} {one : α → Prop} {none' : Prop} {o : Option α}
    (h1 : ∀ d, p = some (some d) ↔ one d) (h2 : p = some none ↔ none') :
    p = some o ↔ (none' ∧ o = none) ∨ ∃ x, one x ∧ o = some x := by
  cases o with
  | none => simp [h2]
  | some d => simp [h1]

section
variable {is : List Item} {s : Schema (Record is)}

theorem agrees_dockerfile (h : Agrees is s) :
    Agrees (dockerfile :: is) (Schema.atMostOne dockerfileFields ["dockerfile", "dockerfile_inline"] s) := by
  refine agrees_group rfl (fun es x => ?_) h
  have hk : ∀ f ∈ dockerfileFields, f.key ∈ ["dockerfile", "dockerfile_inline"].map String.toList := by
    simp [dockerfileFields]
  have := C50_dockerfile (es.filter fun e => e.1 ∈ ["dockerfile", "dockerfile_inline"].map String.toList)
  simp only [Dockerfile.deOption, entriesOf_props, Option.bind_some, oneOf_filter hk, noneOf_filter hk] at this
  exact (Outcome.ofOption_eq_ok).trans (option_iff this.1 this.2.1)

theorem agrees_networkConfig {E : Env} {m : Meaning (Structs.Networks E)} [hd : Denotes (Structs.networks E) m]
    (h : Agrees is s) :
    Agrees (Structs.networkConfig E :: is) (Schema.atMostOne (networkFields m) ["network_mode", "networks"] s) := by
  refine agrees_group rfl (fun es x => ?_) h
  have hk : ∀ f ∈ networkFields m, f.key ∈ ["network_mode", "networks"].map String.toList := by
    simp [networkFields]
  have := C50_network_config (fun c => ((Structs.networks E).de c).toOption)
    (es.filter fun e => e.1 ∈ ["network_mode", "networks"].map String.toList)
  have hm : (fun c n => ((Structs.networks E).de c).toOption = some n) = m := by
    funext c n
    rw [← hd.iff]
    cases (Structs.networks E).de c <;> simp [Outcome.toOption]
  rw [hm] at this
  simp only [NetworkConfigOf.deOption, entriesOf_props, Option.bind_some, oneOf_filter hk, noneOf_filter hk] at this
  exact (Outcome.ofOption_eq_ok).trans (option_iff this.1 this.2.1)

theorem agrees_configSource (h : Agrees is s) :
    Agrees (configSource :: is) (Schema.exactlyOne configFields ["file", "environment", "content"] s) := by
  refine agrees_group rfl (fun es x => ?_) h
  have hk : ∀ f ∈ configFields, f.key ∈ ["file", "environment", "content"].map String.toList := by simp [configFields]
  have := C50_config_source (es.filter fun e => e.1 ∈ ["file", "environment", "content"].map String.toList)
  simp only [ConfigSource.de, entriesOf_props, Option.bind_some, oneOf_filter hk] at this
  exact (Outcome.ofOption_eq_ok).trans (this x)

theorem agrees_secretSource (h : Agrees is s) :
    Agrees (secretSource :: is) (Schema.exactlyOne secretFields ["file", "environment"] s) := by
  refine agrees_group rfl (fun es x => ?_) h
  have hk : ∀ f ∈ secretFields, f.key ∈ ["file", "environment"].map String.toList := by simp [secretFields]
  have := C50_secret_source (es.filter fun e => e.1 ∈ ["file", "environment"].map String.toList)
  simp only [SecretSource.de, entriesOf_props, Option.bind_some, oneOf_filter hk] at this
  exact (Outcome.ofOption_eq_ok).trans (this x)
end

instance : DenotesKey extensionKey ExtensionKey := ⟨fun s x => toOption_iff.trans (C03_extension_key_accepts s x)⟩

/-- Any content. -/
def anyContent : Codec Content := ⟨id, .ok, fun _ => True⟩

instance : Denotes anyContent Eq := ⟨fun v x => by simp [anyContent]⟩

theorem forall₂_self {es l : List (Str × Content)} {K : Str → Prop} :
    List.Forall₂ (fun e a => K e.1 ∧ a.1 = e.1 ∧ e.2 = a.2) es l ↔ (∀ e ∈ es, K e.1) ∧ es = l := by
  induction es generalizing l with
  | nil => simp [eq_comm]
  | cons e es ih =>
    simp only [List.forall₂_cons_left_iff, ih, List.forall_mem_cons]
    constructor
    · rintro ⟨a, l, ⟨h1, h2, h3⟩, ⟨h4, rfl⟩, rfl⟩; exact ⟨⟨h1, h4⟩, by rw [show e = a from Prod.ext h2.symm h3]⟩
    · rintro ⟨⟨h1, h2⟩, rfl⟩; exact ⟨e, es, ⟨h1, rfl, rfl⟩, ⟨h2, rfl⟩, rfl⟩

theorem agrees_extensions : Agrees [extensions] Schema.extensions := by
  refine agrees_rest rfl (fun es x => ?_) agrees_nil
  show (readEntries extensionKey.parse anyContent.de es).map IndexMap.collect = .ok x ↔ _
  simp only [Outcome.map_eq_ok, readEntries_iff (c := anyContent) (m := Eq) (k := extensionKey) (K := ExtensionKey), forall₂_self,
    table_iff]
  constructor
  · rintro ⟨_, ⟨h, rfl⟩, rfl⟩; exact ⟨h, rfl⟩
  · rintro ⟨h, rfl⟩; exact ⟨_, ⟨h, rfl⟩, rfl⟩

theorem agrees_nested {is : List Item} {own : List Str} {s : Schema (Record is)} [Keys is own] [DistinctKeys own]
    (h : Agrees is s) : Agrees [nested is] (Schema.inner s) := by
  refine agrees_rest rfl (fun es x => ?_) agrees_nil
  exact (decode_ok table_good es x).trans ((h.stands _ es x).trans (iff_of_eq (congrArg (fun k => s.Stands k es x) h.keys.symm)))

/-! ### Tables of the library -/

/-- One field after the other. -/
macro "agree" : tactic => `(tactic| (
  try dsimp only
  repeat first
    | exact agrees_nil
    | exact agrees_extensions
    | refine agrees_opt ?_
    | refine agrees_many ?_
    | refine agrees_flag ?_
    | refine agrees_flagTrue ?_
    | refine agrees_listOrMap ?_
    | refine agrees_req ?_
    | refine agrees_optWith ?_
    | refine agrees_optWith' ?_
    | refine agrees_dockerfile ?_
    | refine agrees_configSource ?_
    | refine agrees_secretSource ?_
    | refine agrees_networkConfig ?_))

instance : Denotes (map mapKey stringOrNumber) Schemas.driverOpts :=
  inferInstanceAs (Denotes (map mapKey stringOrNumber) (entries MapKey Meaning.stringOrNumber))

theorem agrees_ipamConfig {E : Env} : Agrees (Structs.ipamConfig E) (Schemas.ipamConfig E) := by
  unfold Structs.ipamConfig Schemas.ipamConfig; agree
instance {E : Env} : Denotes (struct (Structs.ipamConfig E)) (Schemas.ipamConfig E).Means := denotes_struct agrees_ipamConfig

theorem agrees_ipam {E : Env} : Agrees (Structs.ipam E) (Schemas.ipam E) := by
  unfold Structs.ipam Schemas.ipam; agree
instance {E : Env} : Denotes (struct (Structs.ipam E)) (Schemas.ipam E).Means := denotes_struct agrees_ipam

theorem agrees_network {E : Env} : Agrees (Structs.network E) (Schemas.network E) := by
  unfold Structs.network Schemas.network; agree
instance {E : Env} : Denotes (struct (Structs.network E)) (Schemas.network E).Means := denotes_struct agrees_network

theorem agrees_volume : Agrees Structs.volume Schemas.volume := by
  unfold Structs.volume Schemas.volume; agree
instance : Denotes (struct Structs.volume) Schemas.volume.Means := denotes_struct agrees_volume

theorem agrees_config : Agrees Structs.config Schemas.config := by
  unfold Structs.config Schemas.config; agree
instance : Denotes (struct Structs.config) Schemas.config.Means := denotes_struct agrees_config

theorem agrees_secret : Agrees Structs.secret Schemas.secret := by
  unfold Structs.secret Schemas.secret; agree
instance : Denotes (struct Structs.secret) Schemas.secret.Means := denotes_struct agrees_secret

theorem agrees_include : Agrees Structs.«include» Schemas.«include» := by
  unfold Structs.«include» Schemas.«include»; agree
instance : Denotes (struct Structs.«include») Schemas.«include».Means := denotes_struct agrees_include

theorem agrees_bpsLimit : Agrees Structs.bpsLimit Schemas.bpsLimit := by
  unfold Structs.bpsLimit Schemas.bpsLimit; agree
instance : Denotes (struct Structs.bpsLimit) Schemas.bpsLimit.Means := denotes_struct agrees_bpsLimit

theorem agrees_iopsLimit : Agrees Structs.iopsLimit Schemas.iopsLimit := by
  unfold Structs.iopsLimit Schemas.iopsLimit; agree
instance : Denotes (struct Structs.iopsLimit) Schemas.iopsLimit.Means := denotes_struct agrees_iopsLimit

theorem agrees_weightDevice : Agrees Structs.weightDevice Schemas.weightDevice := by
  unfold Structs.weightDevice Schemas.weightDevice; agree
instance : Denotes (struct Structs.weightDevice) Schemas.weightDevice.Means := denotes_struct agrees_weightDevice

theorem agrees_blkioConfig : Agrees Structs.blkioConfig Schemas.blkioConfig := by
  unfold Structs.blkioConfig Schemas.blkioConfig; agree
instance : Denotes (struct Structs.blkioConfig) Schemas.blkioConfig.Means := denotes_struct agrees_blkioConfig

theorem agrees_configOrSecret : Agrees Structs.configOrSecret Schemas.configOrSecret := by
  unfold Structs.configOrSecret Schemas.configOrSecret; agree
instance : Denotes (struct Structs.configOrSecret) Schemas.configOrSecret.Means := denotes_struct agrees_configOrSecret

instance : Denotes (list (shortOrLong identifier (struct Structs.configOrSecret))) Schemas.configsOrSecrets :=
  inferInstanceAs (Denotes _ (items (Meaning.shortOrLong (valid Identifier) Schemas.configOrSecret.Means)))

theorem agrees_ulimit : Agrees Structs.ulimit Schemas.ulimit := by
  unfold Structs.ulimit Schemas.ulimit; agree
instance : Denotes (struct Structs.ulimit) Schemas.ulimit.Means := denotes_struct agrees_ulimit

instance : Denotes Structs.ulimits Schemas.ulimits :=
  inferInstanceAs (Denotes (map ulimitKey (shortOrLong (limit u64Max) (struct Structs.ulimit)))
    (entries UlimitResource (Meaning.shortOrLong (Meaning.limit (2 ^ 64 - 1)) Schemas.ulimit.Means)))

theorem agrees_build {E : Env} : Agrees (Structs.build E) (Schemas.build E) := by
  unfold Structs.build Schemas.build; agree
instance {E : Env} : Denotes (struct (Structs.build E)) (Schemas.build E).Means := denotes_struct agrees_build

instance : Denotes Structs.deployMode (word [("global", .global), ("replicated", .replicated)]) :=
  keyword_denotes rfl (by decide)
instance : Denotes Structs.restartCondition (word [("none", .none), ("on-failure", .onFailure), ("any", .any)]) :=
  keyword_denotes rfl (by decide)
instance : Denotes Structs.failureAction (word [("continue", .continue), ("pause", .pause)]) :=
  keyword_denotes rfl (by decide)
instance : Denotes Structs.order (word [("stop-first", .stopFirst), ("start-first", .startFirst)]) :=
  keyword_denotes rfl (by decide)
instance : Denotes Structs.action (word [("rebuild", .rebuild), ("sync", .sync), ("sync+restart", .syncAndRestart)]) :=
  keyword_denotes rfl (by decide)
instance : Denotes Structs.condition (word [("service_started", .serviceStarted), ("service_healthy", .serviceHealthy),
    ("service_completed_successfully", .serviceCompletedSuccessfully)]) :=
  keyword_denotes rfl (by decide)
instance : Denotes Structs.cgroup (word [("host", .host), ("private", .private)]) :=
  keyword_denotes rfl (by decide)
instance : Denotes Structs.uts (word [("host", .host)]) :=
  keyword_denotes rfl (by decide)
instance : Denotes Structs.pullPolicy (word [("always", .always), ("never", .never), ("missing", .missing),
    ("if_not_present", .missing), ("build", .build)]) :=
  keyword_denotes rfl (by decide)
instance : Denotes Structs.restart (word [("no", .no), ("always", .always), ("on-failure", .onFailure),
    ("unless-stopped", .unlessStopped)]) :=
  keyword_denotes rfl (by decide)
instance : Denotes Structs.portMode (word [("host", .host), ("ingress", .ingress)]) :=
  keyword_denotes rfl (by decide)
instance : Denotes Structs.bindPropagation (word [("private", .private), ("shared", .shared), ("slave", .slave),
    ("unbindable", .unbindable), ("rprivate", .rPrivate), ("rshared", .rShared), ("rslave", .rSlave),
    ("runbindable", .rUnbindable)]) :=
  keyword_denotes rfl (by decide)

theorem agrees_preference : Agrees Structs.preference Schemas.preference := by
  unfold Structs.preference Schemas.preference; agree
instance : Denotes (struct Structs.preference) Schemas.preference.Means := denotes_struct agrees_preference

theorem agrees_placement : Agrees Structs.placement Schemas.placement := by
  unfold Structs.placement Schemas.placement; agree
instance : Denotes (struct Structs.placement) Schemas.placement.Means := denotes_struct agrees_placement

theorem agrees_restartPolicy : Agrees Structs.restartPolicy Schemas.restartPolicy := by
  unfold Structs.restartPolicy Schemas.restartPolicy; agree
instance : Denotes (struct Structs.restartPolicy) Schemas.restartPolicy.Means := denotes_struct agrees_restartPolicy

theorem agrees_updateOrRollbackConfig : Agrees Structs.updateOrRollbackConfig Schemas.updateOrRollbackConfig := by
  unfold Structs.updateOrRollbackConfig Schemas.updateOrRollbackConfig; agree
instance : Denotes (struct Structs.updateOrRollbackConfig) Schemas.updateOrRollbackConfig.Means := denotes_struct agrees_updateOrRollbackConfig

theorem agrees_limits {E : Env} : Agrees (Structs.limits E) (Schemas.limits E) := by
  unfold Structs.limits Schemas.limits; agree
instance {E : Env} : Denotes (struct (Structs.limits E)) (Schemas.limits E).Means := denotes_struct agrees_limits

theorem agrees_discreteResourceSpec : Agrees Structs.discreteResourceSpec Schemas.discreteResourceSpec := by
  unfold Structs.discreteResourceSpec Schemas.discreteResourceSpec; agree
instance : Denotes (struct Structs.discreteResourceSpec) Schemas.discreteResourceSpec.Means := denotes_struct agrees_discreteResourceSpec

theorem agrees_genericResource : Agrees Structs.genericResource Schemas.genericResource := by
  unfold Structs.genericResource Schemas.genericResource; agree
instance : Denotes (struct Structs.genericResource) Schemas.genericResource.Means := denotes_struct agrees_genericResource

theorem agrees_resourceDevice : Agrees Structs.resourceDevice Schemas.resourceDevice := by
  unfold Structs.resourceDevice Schemas.resourceDevice; agree
instance : Denotes (struct Structs.resourceDevice) Schemas.resourceDevice.Means := denotes_struct agrees_resourceDevice

theorem agrees_reservations {E : Env} : Agrees (Structs.reservations E) (Schemas.reservations E) := by
  unfold Structs.reservations Schemas.reservations; agree
instance {E : Env} : Denotes (struct (Structs.reservations E)) (Schemas.reservations E).Means := denotes_struct agrees_reservations

theorem agrees_resources {E : Env} : Agrees (Structs.resources E) (Schemas.resources E) := by
  unfold Structs.resources Schemas.resources; agree
instance {E : Env} : Denotes (struct (Structs.resources E)) (Schemas.resources E).Means := denotes_struct agrees_resources

theorem agrees_deploy {E : Env} : Agrees (Structs.deploy E) (Schemas.deploy E) := by
  unfold Structs.deploy Schemas.deploy; agree
instance {E : Env} : Denotes (struct (Structs.deploy E)) (Schemas.deploy E).Means := denotes_struct agrees_deploy

theorem agrees_watchRule : Agrees Structs.watchRule Schemas.watchRule := by
  unfold Structs.watchRule Schemas.watchRule; agree
instance : Denotes (struct Structs.watchRule) Schemas.watchRule.Means := denotes_struct agrees_watchRule

theorem agrees_develop : Agrees Structs.develop Schemas.develop := by
  unfold Structs.develop Schemas.develop; agree
instance : Denotes (struct Structs.develop) Schemas.develop.Means := denotes_struct agrees_develop

theorem agrees_envFileConfig : Agrees Structs.envFileConfig Schemas.envFileConfig := by
  unfold Structs.envFileConfig Schemas.envFileConfig; agree
instance : Denotes (struct Structs.envFileConfig) Schemas.envFileConfig.Means := denotes_struct agrees_envFileConfig

instance : Denotes Structs.envFile Schemas.envFile where
  iff v x := by
    unfold Schemas.envFile
    have h := Denotes.iff (c := Codecs.list (shortOrLong str (struct Structs.envFileConfig)))
      (m := items (Meaning.shortOrLong Meaning.string Schemas.envFileConfig.Means)) v
    have h' := Denotes.iff (c := str) (m := Meaning.string) v
    simp only [← h, ← h']
    cases v <;> simp [Structs.envFile, str, Codecs.list, Codecs.text, eq_comm (a := x)]

theorem agrees_dependency : Agrees Structs.dependency Schemas.dependency := by
  unfold Structs.dependency Schemas.dependency; agree
instance : Denotes (struct Structs.dependency) Schemas.dependency.Means := denotes_struct agrees_dependency

theorem agrees_dependsOn {is : List Item} {s : Schema (Record is)} (h : Agrees is s) :
    Agrees (Structs.dependsOn :: is) (Schema.field "depends_on" Schemas.dependsOn (some (.short [])) s) := by
  have : Denotes { shortOrLong (Codecs.set identifier) (map identifierKey (struct Structs.dependency)) with
      valid := fun d => (shortOrLong (Codecs.set identifier) (map identifierKey (struct Structs.dependency))).valid d ∧
        d ≠ .long [] } Schemas.dependsOn :=
    ⟨fun v x => Denotes.iff (c := shortOrLong (Codecs.set identifier) (map identifierKey (struct Structs.dependency)))
      (m := Meaning.shortOrLong (distinct (valid Identifier)) (entries Identifier Schemas.dependency.Means)) v x⟩
  exact agrees_field h

theorem agrees_extend : Agrees Structs.extend Schemas.extend := by
  unfold Structs.extend Schemas.extend; agree
instance : Denotes (struct Structs.extend) Schemas.extend.Means := denotes_struct agrees_extend

theorem agrees_logging : Agrees Structs.logging Schemas.logging := by
  unfold Structs.logging Schemas.logging; agree
instance : Denotes (struct Structs.logging) Schemas.logging.Means := denotes_struct agrees_logging

theorem agrees_port {E : Env} : Agrees (Structs.port E) (Schemas.port E) := by
  unfold Structs.port Schemas.port; agree
instance {E : Env} : Denotes (struct (Structs.port E)) (Schemas.port E).Means := denotes_struct agrees_port

theorem agrees_common : Agrees Structs.common Schemas.common := by
  unfold Structs.common Schemas.common; agree
instance : Denotes (struct Structs.common) Schemas.common.Means := denotes_struct agrees_common

theorem agrees_volumeOptions : Agrees Structs.volumeOptions Schemas.volumeOptions := by
  unfold Structs.volumeOptions Schemas.volumeOptions; agree
instance : Denotes (struct Structs.volumeOptions) Schemas.volumeOptions.Means := denotes_struct agrees_volumeOptions

theorem agrees_mountVolume : Agrees Structs.mountVolume Schemas.mountVolume := by
  unfold Structs.mountVolume Schemas.mountVolume; agree; exact agrees_nested agrees_common
instance : Denotes (struct Structs.mountVolume) Schemas.mountVolume.Means := denotes_struct agrees_mountVolume

theorem agrees_bindOptions : Agrees Structs.bindOptions Schemas.bindOptions := by
  unfold Structs.bindOptions Schemas.bindOptions; agree
instance : Denotes (struct Structs.bindOptions) Schemas.bindOptions.Means := denotes_struct agrees_bindOptions

theorem agrees_mountBind : Agrees Structs.mountBind Schemas.mountBind := by
  unfold Structs.mountBind Schemas.mountBind; agree; exact agrees_nested agrees_common
instance : Denotes (struct Structs.mountBind) Schemas.mountBind.Means := denotes_struct agrees_mountBind

theorem agrees_tmpfsOptions : Agrees Structs.tmpfsOptions Schemas.tmpfsOptions := by
  unfold Structs.tmpfsOptions Schemas.tmpfsOptions; agree
instance : Denotes (struct Structs.tmpfsOptions) Schemas.tmpfsOptions.Means := denotes_struct agrees_tmpfsOptions

theorem agrees_mountTmpfs : Agrees Structs.mountTmpfs Schemas.mountTmpfs := by
  unfold Structs.mountTmpfs Schemas.mountTmpfs; agree; exact agrees_nested agrees_common
instance : Denotes (struct Structs.mountTmpfs) Schemas.mountTmpfs.Means := denotes_struct agrees_mountTmpfs

theorem agrees_mountNamedPipe : Agrees Structs.mountNamedPipe Schemas.mountNamedPipe := by
  unfold Structs.mountNamedPipe Schemas.mountNamedPipe; agree; exact agrees_nested agrees_common
instance : Denotes (struct Structs.mountNamedPipe) Schemas.mountNamedPipe.Means := denotes_struct agrees_mountNamedPipe

theorem agrees_mountCluster : Agrees Structs.mountCluster Schemas.mountCluster := by
  unfold Structs.mountCluster Schemas.mountCluster; agree; exact agrees_nested agrees_common
instance : Denotes (struct Structs.mountCluster) Schemas.mountCluster.Means := denotes_struct agrees_mountCluster

theorem agrees_serviceNetwork {E : Env} : Agrees (Structs.serviceNetwork E) (Schemas.serviceNetwork E) := by
  unfold Structs.serviceNetwork Schemas.serviceNetwork; agree
instance {E : Env} : Denotes (struct (Structs.serviceNetwork E)) (Schemas.serviceNetwork E).Means := denotes_struct agrees_serviceNetwork

theorem decode_iff {is : List Item} {own : List Str} {s : Schema (Record is)} [Keys is own] [DistinctKeys own]
    (h : Agrees is s) (es : List (Str × Content)) (r : Record is) : decode is es = .ok r ↔ s.Stands s.keys es r := by
  rw [decode_ok table_good, h.stands, h.keys]

theorem mount_iff {tag : Str} {es : List (Str × Content)} {m : Structs.MountOf} :
    MountText tag es m ↔ Schemas.Mount tag es m := by
  constructor
  · rintro (h | h | h | h | h)
    · exact .volume ((agrees_mountVolume.stands _ _ _).1 h)
    · exact .bind ((agrees_mountBind.stands _ _ _).1 h)
    · exact .tmpfs ((agrees_mountTmpfs.stands _ _ _).1 h)
    · exact .namedPipe ((agrees_mountNamedPipe.stands _ _ _).1 h)
    · exact .cluster ((agrees_mountCluster.stands _ _ _).1 h)
  · rintro (h | h | h | h | h)
    · exact .volume ((agrees_mountVolume.stands _ _ _).2 h)
    · exact .bind ((agrees_mountBind.stands _ _ _).2 h)
    · exact .tmpfs ((agrees_mountTmpfs.stands _ _ _).2 h)
    · exact .namedPipe ((agrees_mountNamedPipe.stands _ _ _).2 h)
    · exact .cluster ((agrees_mountCluster.stands _ _ _).2 h)

instance : Denotes Structs.mount Schemas.mount where
  iff v m := by
    unfold Schemas.mount
    simp only [C70_mount, mount_iff]
    rfl

instance {E : Env} : Denotes (Structs.volumes E) (distinctBy (EqualForm EqualShortVolume (EqualMount E)) (Meaning.shortOrLong (Meaning.text ShortVolumeText) Schemas.mount)) :=
  inferInstanceAs (Denotes (@Codecs.set _ (Structs.volumesEq E) (shortOrLong shortVolume Structs.mount)) _)

instance {E : Env} : Denotes (Structs.ports E) (distinctBy (EqualForm Eq (EqualPort E)) (Meaning.shortOrLong (Schemas.shortPort E) (Schemas.port E).Means)) :=
  inferInstanceAs (Denotes (@Codecs.set _ (Structs.portsEq E) (shortOrLong (shortPort E) (struct (Structs.port E)))) _)

instance {E : Env} : Denotes (Structs.networks E) (Schemas.networks E) :=
  inferInstanceAs (Denotes (shortOrLong (Codecs.set identifier) (map identifierKey (option (struct (Structs.serviceNetwork E)))))
    (Meaning.shortOrLong (distinct (valid Identifier)) (entries Identifier (orNull (Schemas.serviceNetwork E).Means))))

theorem agrees_service {E : Env} : Agrees (Structs.service E) (Schemas.service E) := by
  unfold Structs.service Schemas.service; agree; refine agrees_dependsOn ?_; agree

instance {E : Env} : Denotes (struct (Structs.service E)) (Schemas.service E).Means := denotes_struct agrees_service

theorem denotes_resource {E : Env} {is : List Item} {own : List Str} {s : Schema (Record is)} [Keys is own] [DistinctKeys own]
    (h : Agrees is s) : Denotes (Structs.resource E is) (resourceMeans E.order s) where
  iff v x := by
    have hd : ∀ es y, (decode is es).toOption = some y ↔ s.Stands s.keys es y := by
      intro es y
      rw [← decode_iff h]
      cases decode is es <;> simp [Outcome.toOption]
    unfold resourceMeans
    show Outcome.ofOption _ = .ok x ↔ _
    rw [Outcome.ofOption_eq_ok]
    cases x with
    | external name =>
      rw [C60_external]
      constructor
      · rintro ⟨es, h1, h2⟩; exact ⟨es, h1, .inl ⟨name, rfl, h2⟩⟩
      · rintro ⟨es, h1, ⟨_, h, h2⟩ | ⟨_, _, h, _⟩⟩
        · cases h; exact ⟨es, h1, h2⟩
        · cases h
    | compose y =>
      rw [C60_compose]
      simp only [hd]
      constructor
      · rintro ⟨es, rest, h1, h2, h3, h4⟩; exact ⟨es, h1, .inr ⟨rest, y, rfl, h2, h3, h4⟩⟩
      · rintro ⟨es, h1, ⟨_, h, h2⟩ | ⟨rest, _, h, h2, h3, h4⟩⟩
        · cases h
        · cases h; exact ⟨es, rest, h1, h2, h3, h4⟩

instance {E : Env} : Denotes (Structs.resource E (Structs.network E)) (resourceMeans E.order (Schemas.network E)) :=
  denotes_resource agrees_network
instance {E : Env} : Denotes (Structs.resource E Structs.volume) (resourceMeans E.order Schemas.volume) :=
  denotes_resource agrees_volume
instance {E : Env} : Denotes (Structs.resource E Structs.config) (resourceMeans E.order Schemas.config) :=
  denotes_resource agrees_config
instance {E : Env} : Denotes (Structs.resource E Structs.secret) (resourceMeans E.order Schemas.secret) :=
  denotes_resource agrees_secret

theorem agrees_compose {E : Env} : Agrees (Structs.compose E) (Schemas.compose E) := by
  unfold Structs.compose Schemas.compose; agree
instance {E : Env} : Denotes (struct (Structs.compose E)) (Schemas.compose E).Means := denotes_struct agrees_compose

end Proofs
