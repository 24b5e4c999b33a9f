import Verif.Proofs.LonghandBack
import Verif.Props.Loaded

/- C97: the short syntax of a setting means what its long syntax says. -/

namespace Props
open Rust Compose Compose.Derive Compose.Codecs Compose.Structs Spec Spec.Longhand Proofs

/-- Rewriting that is exact. -/
theorem exactly {α : Type} {c : Codec α} {g : Content → Content} {h : α → α} (t : Turns c g h) (b : Back c g) (v : Content) (y : α) :
    c.de (g v) = .ok y ↔ ∃ x, c.de v = .ok x ∧ y = h x := by
  constructor
  · intro hy
    obtain ⟨x, hx⟩ := b v y hy
    have := t v x hx
    rw [hy] at this
    cases this
    exact ⟨x, hx, rfl⟩
  · rintro ⟨x, hx, rfl⟩
    exact t v x hx

/-! ### Settings -/

/-- C97: configs and secrets: `- name` means `- source: name`. -/
theorem C97_configs (v : Content) (y : List (ShortOrLong Str (Record configOrSecret))) :
    (Codecs.list (shortOrLong identifier (struct configOrSecret))).de (longConfigs v) = .ok y ↔
      ∃ x, (Codecs.list (shortOrLong identifier (struct configOrSecret))).de v = .ok x ∧
        y = x.map fun c => .long (c.intoLong configOrSecretOfName) := exactly turns_configs back_configs v y

example : longConfigs (.seq [.str "conf".toList]) = .seq [Derive.mapping [("source".toList, .str "conf".toList)]] := rfl

/-- C97: limits: `name: n` means `name: {soft: n, hard: n}`. -/
theorem C97_ulimits (v : Content) (y : IndexMap Str (ShortOrLong (Limit Nat) (Record ulimit))) :
    ulimits.de (longUlimits v) = .ok y ↔
      ∃ x : IndexMap Str _, ulimits.de v = .ok x ∧ y = x.map fun e => (e.1, .long (e.2.intoLong ulimitOfLimit)) :=
  exactly turns_ulimits back_ulimits v y

example : longUlimits (Derive.mapping [("nproc".toList, .u64 5)]) =
    Derive.mapping [("nproc".toList, Derive.mapping [("soft".toList, .u64 5), ("hard".toList, .u64 5)])] := rfl

/-- C97: builds: `build: path` means `build: {context: path}`. -/
theorem C97_build (E : Env) (v : Content) (y : ShortOrLong Context (Record (build E))) :
    (shortOrLong (context E) (struct (build E))).de (longBuild v) = .ok y ↔
      ∃ x, (shortOrLong (context E) (struct (build E))).de v = .ok x ∧
        y = .long (longBuildFields E (x.intoLong (buildOfContext E))) := exactly turns_build back_build v y

example : longBuild (.str "./app".toList) = Derive.mapping [("context".toList, .str "./app".toList)] := rfl

/-- C97: included files: `- path` means `- path: path`. -/
theorem C97_include (v : Content) (y : List (ShortOrLong Str (Record «include»))) :
    (Codecs.list (shortOrLong str (struct «include»))).de (longInclude v) = .ok y ↔
      ∃ x, (Codecs.list (shortOrLong str (struct «include»))).de v = .ok x ∧
        y = x.map fun i => .long (i.intoLong includeOfPath) := exactly turns_includes back_includes v y

example : longInclude (.seq [.str "a.yaml".toList]) = .seq [Derive.mapping [("path".toList, .str "a.yaml".toList)]] := rfl

/-- C97: environment files: `env_file: path` means `env_file: [path]`, and `- path` means `- path: path`. -/
theorem C97_env_file (v : Content) (y : EnvFiles) :
    envFile.de (longEnvFile v) = .ok y ↔
      ∃ x, envFile.de v = .ok x ∧ y = .list (x.intoList.map fun f => .long (f.intoLong envFileConfigOfPath)) :=
  exactly turns_envFile back_envFile v y

example : longEnvFile (.str ".env".toList) = .seq [Derive.mapping [("path".toList, .str ".env".toList)]] := rfl

/-- C97: dependencies: `- name` means `name: {condition: service_started}`. -/
theorem C97_depends_on (v : Content) (y : DependsOn) :
    (shortOrLong (Codecs.set identifier) (map identifierKey (struct dependency))).de (longDependsOn v) = .ok y ↔
      ∃ x, (shortOrLong (Codecs.set identifier) (map identifierKey (struct dependency))).de v = .ok x ∧
        (x = .short [] ∧ y = .short [] ∨ x ≠ .short [] ∧ y = .long (x.intoMap dependencyDefault)) := by
  rw [exactly turns_dependsOn back_dependsOn v y]
  refine exists_congr fun x => and_congr_right fun _ => ?_
  match x with
  | .short [] => simp [longDependencies]
  | .short (a :: l) => simp [longDependencies]
  | .long m => simp [longDependencies]

example : longDependsOn (.seq [.str "db".toList]) =
    Derive.mapping [("db".toList, Derive.mapping [("condition".toList, .str "service_started".toList)])] := rfl

/-- C97: networks: `- name` means `name: null`. -/
theorem C97_networks (E : Env) (v : Content) (y : Networks E) :
    (networks E).de (longNetworks v) = .ok y ↔ ∃ x, (networks E).de v = .ok x ∧ y = .long (x.intoMap none) :=
  exactly turns_networks back_networks v y

example : longNetworks (.seq [.str "back".toList]) = Derive.mapping [("back".toList, .unit)] := rfl

/-- C97: volumes: `path` means `{type: volume, target: path}`, `name:path` means `{type: volume, source: name, target: path}`,
and `host:path` means `{type: bind, source: host, target: path, bind: {create_host_path: true}}`, with `read_only` and
`selinux` from the options.  What is the same in long syntax is taken once. -/
theorem C97_volumes (E : Env) [ValueEqOk E] (v : Content) (y : IndexSet (ShortOrLong ShortVolume MountOf)) :
    (volumes E).de (longVolumes v) = .ok y ↔
      ∃ x, (volumes E).de v = .ok x ∧ y = Meaning.firstsBy (EqualForm EqualShortVolume (EqualMount E)) ((volumesOfShort x).map .long) := by
  rw [exactly turns_volumes back_volumes v y]
  simp only [collectNew_eq (volumesEq E) (EqualForm EqualShortVolume (EqualMount E))]

example : longVolumes (.seq [.str "data:/var:ro".toList]) =
    .seq [Derive.mapping [("type".toList, .str "volume".toList), ("source".toList, .str "data".toList),
      ("target".toList, .str "/var".toList), ("read_only".toList, .bool true)]] := rfl

/-- C97: ports: a short port means one long port for every port of its range, with its address and protocol. -/
theorem C97_ports (E : Env) [EnvOk E] [ValueEqOk E] (v : Content)
    (y : IndexSet (ShortOrLong (ShortPort E.ip.Ty) (Record (port E)))) :
    (Structs.ports E).de (longPorts E v) = .ok y ↔
      ∃ x, (Structs.ports E).de v = .ok x ∧ y = Meaning.firstsBy (EqualForm Eq (EqualPort E)) ((portsIntoLong E x).map .long) := by
  rw [exactly turns_ports back_ports v y]
  simp only [collectNew_eq (portsEq E) (EqualForm Eq (EqualPort E))]

example : longPorts sampleEnv (.seq [.str "8000-8001:80-81".toList]) =
    .seq [Derive.mapping [("target".toList, .u64 80), ("published".toList, .u64 8000)],
      Derive.mapping [("target".toList, .u64 81), ("published".toList, .u64 8001)]] := rfl

/-! ### Services and files -/

/-- C97: a service is read without short syntax exactly if it is read with it; its settings are converted, other fields are
the same. -/
theorem C97_service (E : Env) [EnvOk E] [ValueEqOk E] (v : Content) (y : Record (service E)) :
    (struct (service E)).de (longService E v) = .ok y ↔
      ∃ x, (struct (service E)).de v = .ok x ∧ y = longServiceFields E x := exactly turns_service back_service v y

/-- C97: a file is read without short syntax exactly if it is read with it; included files and the settings of services are
converted, everything else is the same. -/
theorem C97_file (E : Env) [EnvOk E] [ValueEqOk E] (v : Content) (y : Record (compose E)) :
    (struct (compose E)).de (longFile E v) = .ok y ↔
      ∃ x, (struct (compose E)).de v = .ok x ∧ y = longFileFields E x := exactly turns_file back_file v y

theorem longBuildFields_rest (E : Env) (r : Record (build E)) :
    (Load.rest 17 (build E) (longBuildFields E r)).1 = longConfigList (Load.rest 17 (build E) r).1 ∧
    (Load.rest 19 (build E) (longBuildFields E r)).1 = longUlimitMap (Load.rest 19 (build E) r).1 := ⟨rfl, rfl⟩

set_option maxRecDepth 4000 in
theorem longServiceFields_rest (E : Env) (r : Record (service E)) :
    (Load.rest 1 (service E) (longServiceFields E r)).1 = Option.map (longBuildValue E) (Load.rest 1 (service E) r).1 ∧
    (Load.rest 17 (service E) (longServiceFields E r)).1 = longConfigList (Load.rest 17 (service E) r).1 ∧
    (Load.rest 20 (service E) (longServiceFields E r)).1 = longDependencies (Load.rest 20 (service E) r).1 ∧
    (Load.rest 30 (service E) (longServiceFields E r)).1 = Option.map longEnvFiles (Load.rest 30 (service E) r).1 ∧
    (Load.rest 48 (service E) (longServiceFields E r)).1 = Option.map longNetworkConfig (Load.rest 48 (service E) r).1 ∧
    (Load.rest 59 (service E) (longServiceFields E r)).1 = longPortSet E (Load.rest 59 (service E) r).1 ∧
    (Load.rest 67 (service E) (longServiceFields E r)).1 = longConfigList (Load.rest 67 (service E) r).1 ∧
    (Load.rest 77 (service E) (longServiceFields E r)).1 = longUlimitMap (Load.rest 77 (service E) r).1 ∧
    (Load.rest 80 (service E) (longServiceFields E r)).1 = longVolumeSet E (Load.rest 80 (service E) r).1 :=
  ⟨rfl, rfl, rfl, rfl, rfl, rfl, rfl, rfl, rfl⟩

theorem collectNew_sublist {α : Type} [RustEq α] (l : List α) : (IndexSet.collectNew l).Sublist l := by
  induction l using List.reverseRecOn with
  | nil => exact .slnil
  | append_singleton l x ih =>
    rw [Proofs.collectNew_append _ l [x], List.foldl_cons, List.foldl_nil, IndexSet.insertNew]
    split
    · exact ih.trans (List.sublist_append_left _ _)
    · exact ih.append (.refl _)

/-- C97: nothing in a file that was read without short syntax is in short form. -/
theorem C97_no_short (E : Env) (r : Record (compose E)) : FileIsLong E (longFileFields E r) := by
  have hl : ∀ {S L : Type} (f : S → L) (l : List (ShortOrLong S L)), ItemsLong (l.map (long f)) := by
    intro S L f l x hx
    obtain ⟨y, -, rfl⟩ := List.mem_map.1 hx
    exact ⟨_, rfl⟩
  have hv : ∀ {S L : Type} (f : S → L) (l : List (Str × ShortOrLong S L)), ValuesLong (l.map fun e => (e.1, long f e.2)) := by
    intro S L f l x hx
    obtain ⟨y, -, rfl⟩ := List.mem_map.1 hx
    exact ⟨_, rfl⟩
  have hc : ∀ {S L : Type} (e : RustEq (ShortOrLong S L)) (l : List L), ItemsLong (IndexSet.collectNew (l.map (ShortOrLong.long (S := S)))) := by
    intro S L e l x hx
    obtain ⟨y, -, rfl⟩ := List.mem_map.1 ((collectNew_sublist _).subset hx)
    exact ⟨_, rfl⟩
  have ho : ∀ {α : Type} {p : α → Prop} {f : α → α}, (∀ x, p (f x)) → ∀ o : Option α, IfAny p (o.map f) := by
    intro α p f h o x hx
    obtain ⟨y, -, rfl⟩ := Option.map_eq_some_iff.1 hx
    exact h y
  obtain ⟨version, name, includes, services, rest⟩ := r
  refine ⟨hl _ _, ?_⟩
  intro n s hs
  obtain ⟨⟨n', s'⟩, -, he⟩ := List.mem_map.1 hs
  cases he
  exact {
    build := ho (p := BuildIsLong E) (fun b => by
      have h := longBuildFields_rest E (b.intoLong (buildOfContext E))
      refine ⟨_, rfl, ?_, ?_⟩
      · rw [h.1]; exact hl _ _
      · rw [h.2]; exact hv _ _) _
    configs := hl _ _
    dependsOn := by
      have : ∀ d, DependenciesLong (longDependencies d) := by
        intro d
        match d with
        | .short [] => exact .inl rfl
        | .short (_ :: _) => exact .inr ⟨_, rfl⟩
        | .long _ => exact .inr ⟨_, rfl⟩
      exact this _
    envFile := ho (p := EnvFilesLong) (fun e => ⟨_, rfl, hl _ _⟩) _
    networks := ho (p := NetworksLong) (fun n networks h => by
      cases n
      · cases h
      · cases h; exact ⟨_, rfl⟩) _
    ports := hc (portsEq E) _
    secrets := hl _ _
    ulimits := hv _ _
    volumes := hc (volumesEq E) _ }

/-! ### The conversions -/

/-- C97: the conversions of volumes and ports are those of C22 and C18. -/
theorem C97_conversions (E : Env) :
    (∀ v, Load.mount (mountOfShort v) = v.intoLong Content) ∧
    ∀ p : ShortPort E.ip.Ty, (portsOfShort E p).map (portFields E) = p.intoLongIter Content := by
  constructor
  · rintro ⟨path, o⟩
    cases o with
    | none => rfl
    | some o => obtain ⟨_ | _, _, _⟩ := o <;> rfl
  · intro p
    unfold portsOfShort ShortPort.intoLongIter
    rw [List.map_map]
    rfl

example : mountOfShort ⟨"/var".toList, some ⟨.volume "data".toList, true, none⟩⟩ =
    mountOfShort ⟨"/var".toList, some ⟨.volume "data".toList, true, some .shared⟩⟩ := rfl

/-! ### Validation -/

theorem firstUndefined_eq {R : Type} (m : List (Str × R)) (l : List Str) :
    firstUndefined m l = match l.find? fun n => !containsKey m n with
      | some n => .error n
      | none => .ok () := by
  induction l with
  | nil => rfl
  | cons n l ih =>
    rw [firstUndefined, List.find?_cons]
    by_cases h : containsKey m n = true
    · simp [h, ih]
    · simp [h]

theorem firstUndefined_collectNew {R : Type} (m : List (Str × R)) (l : List Str) :
    firstUndefined m (IndexSet.collectNew l) = firstUndefined m l := by
  rw [firstUndefined_eq, firstUndefined_eq]
  congr 1
  induction l using List.reverseRecOn with
  | nil => rfl
  | append_singleton l x ih =>
    rw [Proofs.collectNew_append _ l [x], List.foldl_cons, List.foldl_nil, IndexSet.insertNew, List.find?_append]
    split
    · rename_i ha
      rw [ih]
      obtain ⟨y, h1, h2⟩ := List.any_eq_true.1 ha
      obtain rfl : x = y := by simpa [RustEq.eq] using h2
      have hx := (collectNew_sublist l).subset h1
      cases hf : l.find? fun n => !containsKey m n with
      | some z => rfl
      | none =>
        have := List.find?_eq_none.1 hf x hx
        simp [this]
    · rw [List.find?_append, ih]

theorem longNetworks_keys {E : Env} {R : Type} (m : List (Str × R)) (n : Networks E) :
    firstUndefined m (longNetworkMap n).keys = firstUndefined m n.keys := by
  cases n with
  | short l =>
    have : (longNetworkMap (E := E) (.short l)).keys = IndexSet.collectNew l := by
      simp only [longNetworkMap, ShortOrLong.intoMap, ShortOrLong.keys, Proofs.collect_keys, List.map_map]
      exact List.map_id _
    rw [this]
    exact firstUndefined_collectNew m l
  | long l => rfl

theorem sourceOf_long (l : List (ShortOrLong Str (Record configOrSecret))) :
    ((longConfigList l).map (Load.longForm Load.configOrSecret)).map Service.sourceOf =
      (l.map (Load.longForm Load.configOrSecret)).map Service.sourceOf := by
  unfold longConfigList
  rw [List.map_map, List.map_map, List.map_map]
  apply List.map_congr_left
  intro x _
  cases x <;> rfl

theorem sourceVolume_long (x : ShortOrLong ShortVolume MountOf) :
    sourceVolume (Load.longForm Load.mount (long mountOfShort x)) = sourceVolume (Load.longForm Load.mount x) := by
  cases x with
  | short v =>
    obtain ⟨p, o⟩ := v
    cases o with
    | none => rfl
    | some o => obtain ⟨_ | _, _, _⟩ := o <;> rfl
  | long m => rfl

theorem volumes_sublist (E : Env) (l : List (ShortOrLong ShortVolume MountOf)) :
    (((longVolumeSet E l).map (Load.longForm Load.mount)).filterMap sourceVolume).Sublist
      ((l.map (Load.longForm Load.mount)).filterMap sourceVolume) := by
  have h : (((volumesOfShort l).map (ShortOrLong.long (S := ShortVolume))).map (Load.longForm Load.mount)).filterMap sourceVolume =
      (l.map (Load.longForm Load.mount)).filterMap sourceVolume := by
    unfold volumesOfShort
    rw [List.map_map, List.map_map, List.filterMap_map, List.filterMap_map]
    apply List.filterMap_congr
    intro x _
    exact sourceVolume_long x
  rw [← h]
  let _ := volumesEq E
  exact ((collectNew_sublist ((volumesOfShort l).map ShortOrLong.long)).map (Load.longForm Load.mount)).filterMap sourceVolume

/-- C97: without short syntax networks, configs and secrets are validated with the same result, and volumes that are accepted
still are. -/
theorem C97_validation (E : Env) (r : Record (compose E)) :
    (Load.file E (longFileFields E r)).validateNetworks = (Load.file E r).validateNetworks ∧
    (Load.file E (longFileFields E r)).validateConfigs = (Load.file E r).validateConfigs ∧
    (Load.file E (longFileFields E r)).validateSecrets = (Load.file E r).validateSecrets ∧
    ((Load.file E r).validateVolumes = .ok () → (Load.file E (longFileFields E r)).validateVolumes = .ok ()) := by
  obtain ⟨version, name, includes, services, networks, volumes, configs, secrets, rest⟩ := r
  have each : ∀ (kind : ResourceKind) (check : Service NetworkMode (Record (serviceNetwork E)) Content → Except Str Unit),
      (∀ s, check (Load.service E (longServiceFields E s)) = check (Load.service E s)) → ∀ l : List (Str × Record (service E)),
      File.eachService kind check ((l.map fun e => (e.1, longServiceFields E e.2)).map fun e => (e.1, Load.service E e.2)) =
        File.eachService kind check (l.map fun e => (e.1, Load.service E e.2)) := by
    intro kind check h l
    induction l with
    | nil => rfl
    | cons e l ih =>
      rw [List.map_cons, List.map_cons, List.map_cons]
      unfold File.eachService
      rw [h, ih]
  refine ⟨each _ _ (fun s => ?_) _, each _ _ (fun s => ?_) _, each _ _ (fun s => ?_) _, ?_⟩
  · have : (Load.service E (longServiceFields E s)).networkConfig =
        (((Load.rest 48 (service E) s).1 : Option (NetworkConfigOf (Networks E))).map longNetworkConfig).map (Load.networkConfig E) := rfl
    have h2 : (Load.service E s).networkConfig =
        ((Load.rest 48 (service E) s).1 : Option (NetworkConfigOf (Networks E))).map (Load.networkConfig E) := rfl
    unfold Service.validateNetworks
    rw [this, h2]
    generalize (Load.rest 48 (service E) s).1 = n
    cases n with
    | none => rfl
    | some n => cases n with
      | networkMode => rfl
      | networks n => exact longNetworks_keys _ n
  · exact congrArg (firstUndefined (Load.keys configs)) (sourceOf_long (Load.rest 17 (service E) s).1)
  · exact congrArg (firstUndefined (Load.keys secrets)) (sourceOf_long (Load.rest 67 (service E) s).1)
  · rw [C25_validate_volumes, C25_validate_volumes]
    intro h v hv
    refine h v (le_trans hv (List.Sublist.count_le v ?_))
    show List.Sublist (List.flatMap _ ((services.map fun e => (e.1, longServiceFields E e.2)).map fun e => (e.1, Load.service E e.2)))
      (List.flatMap _ (services.map fun e => (e.1, Load.service E e.2)))
    have one : ∀ s, (mountedVolumes (Load.service E (longServiceFields E s))).Sublist (mountedVolumes (Load.service E s)) := by
      intro s
      have h1 : mountedVolumes (Load.service E (longServiceFields E s)) =
        ((longVolumeSet E (Load.rest 80 (service E) s).1).map (Load.longForm Load.mount)).filterMap sourceVolume := rfl
      have h2 : mountedVolumes (Load.service E s) =
        (((Load.rest 80 (service E) s).1 : List (ShortOrLong ShortVolume MountOf)).map (Load.longForm Load.mount)).filterMap sourceVolume := rfl
      rw [h1, h2]
      exact volumes_sublist E _
    generalize services = l
    change List (Str × Record (service E)) at l
    induction l with
    | nil => exact .refl _
    | cons e l ih => exact (one e.2).append ih

/-- C97: a file that is valid is valid without short syntax. -/
theorem C97_stays_valid (E : Env) (r : Record (compose E)) (h : (Load.file E r).validateAll = .ok ()) :
    (Load.file E (longFileFields E r)).validateAll = .ok () := by
  have hv := C97_validation E r
  rw [C27_validate_all_ok] at h ⊢
  exact ⟨hv.1.trans h.1, hv.2.2.2 h.2.1, hv.2.1.trans h.2.2.1, hv.2.2.1.trans h.2.2.2⟩

/-! ### Examples -/

/-- The text of a value. -/
def textOf : Content → Option Str
  | .str s => some s
  | _ => none

/-- An environment whose extension values are compared by their text. -/
def textEnv : Env := { sampleEnv with valueEq := fun a b => textOf a = textOf b }

instance : EnvOk textEnv where
  ip := sampleText_reads
  ip4 := sampleText_reads
  ip6 := sampleText_reads
  ipNet := sampleText_reads
  no_slash x := by cases x <;> decide
  no_bracket x := by cases x <;> decide
  order := List.reverse_perm

instance : ValueEqOk textEnv where
  refl v := by simp [textEnv]
  trans v w x h1 h2 := by simp only [textEnv, decide_eq_true_eq] at *; exact h1.trans h2

/-- A service in short syntax. -/
def sampleShorthand : Content := Derive.mapping
  [("build".toList, .str "./app".toList),
    ("configs".toList, .seq [.str "conf".toList]),
    ("depends_on".toList, .seq [.str "db".toList]),
    ("env_file".toList, .str ".env".toList),
    ("networks".toList, .seq [.str "back".toList]),
    ("ports".toList, .seq [.str "8000-8001:80-81".toList]),
    ("ulimits".toList, Derive.mapping [("nproc".toList, .u64 5)]),
    ("volumes".toList, .seq [.str "data:/var:ro".toList])]

/-- The same service in long syntax. -/
def sampleLonghand : Content := Derive.mapping
  [("build".toList, Derive.mapping [("context".toList, .str "./app".toList)]),
    ("configs".toList, .seq [Derive.mapping [("source".toList, .str "conf".toList)]]),
    ("depends_on".toList, Derive.mapping [("db".toList, Derive.mapping [("condition".toList, .str "service_started".toList)])]),
    ("env_file".toList, .seq [Derive.mapping [("path".toList, .str ".env".toList)]]),
    ("networks".toList, Derive.mapping [("back".toList, .unit)]),
    ("ports".toList, .seq [
      Derive.mapping [("target".toList, .u64 80), ("published".toList, .u64 8000)],
      Derive.mapping [("target".toList, .u64 81), ("published".toList, .u64 8001)]]),
    ("ulimits".toList, Derive.mapping [("nproc".toList, Derive.mapping [("soft".toList, .u64 5), ("hard".toList, .u64 5)])]),
    ("volumes".toList, .seq [Derive.mapping [("type".toList, .str "volume".toList), ("source".toList, .str "data".toList),
      ("target".toList, .str "/var".toList), ("read_only".toList, .bool true)]])]

example : longService textEnv sampleShorthand = sampleLonghand := rfl

set_option maxRecDepth 10000 in
example : ∃ x, (struct (service textEnv)).de sampleShorthand = .ok x ∧
    (struct (service textEnv)).de sampleLonghand = .ok (longServiceFields textEnv x) ∧
    (Load.service textEnv x).volumes = [.short ⟨"/var".toList, some ⟨.volume "data".toList, true, none⟩⟩] ∧
    (Load.service textEnv (longServiceFields textEnv x)).volumes =
      [.long (.volume ⟨some "data".toList, none, { target := "/var".toList, readOnly := true }⟩)] := ⟨_, rfl, rfl, rfl, rfl⟩

/-- A service that mounts a volume twice at one place, with and without a label. -/
def sampleLabelled : Content := Derive.mapping
  [("services".toList, Derive.mapping
      [("db".toList, Derive.mapping
          [("volumes".toList, .seq [.str "data:/var".toList, .str "data:/var:z".toList])])])]

set_option maxRecDepth 10000 in
/-- C97: validation may accept a file only without short syntax, because a label is lost and then two volumes are one. -/
theorem C97_validation_not_back : ∃ r, (struct (compose textEnv)).de sampleLabelled = .ok r ∧
    (Load.file textEnv r).validateAll = .error ⟨none, "data".toList, .volume⟩ ∧
    (Load.file textEnv (longFileFields textEnv r)).validateAll = .ok () := ⟨_, rfl, rfl, rfl⟩

set_option maxRecDepth 10000 in
/-- A file with one service in short syntax is converted, and nothing is in short form any more. -/
example : ∃ r, (struct (compose textEnv)).de (Derive.mapping [("services".toList, Derive.mapping [("web".toList, sampleShorthand)])]) = .ok r ∧
    (struct (compose textEnv)).de (longFile textEnv (Derive.mapping [("services".toList, Derive.mapping [("web".toList, sampleShorthand)])])) =
      .ok (longFileFields textEnv r) ∧ FileIsLong textEnv (longFileFields textEnv r) :=
  ⟨_, rfl, rfl, C97_no_short textEnv _⟩

end Props
