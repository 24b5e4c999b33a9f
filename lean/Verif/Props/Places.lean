import Verif.Proofs.Places
import Verif.Props.Structs

/- C100: keys everywhere in a Compose file. -/

namespace Props
open Rust Compose Compose.Derive Compose.Codecs Compose.Structs Spec Proofs

/-- C100: where a Compose file is read, every mapping that stands at one of its places is read as what belongs there. -/
theorem C100_read (E : Env) [EnvOk E] (file : Content) (r : Record (compose E)) (hr : (struct (compose E)).de file = .ok r)
    (place : List Step) (reads : Content → Prop) (hp : (place, reads) ∈ places E) (es : List (Content × Content))
    (h : StandsAt place file (.map es)) : reads (.map es) :=
  places_hold E _ hp file r hr es h

/-- C100: where a Compose file is read, every mapping that stands at the place of a struct follows the rules about the keys of
that struct. -/
theorem C100_keys (E : Env) [EnvOk E] (file : Content) (r : Record (compose E)) (hr : (struct (compose E)).de file = .ok r)
    (s : StructInfo) (hs : s ∈ structs E) (place : List Step) (hp : (place, ReadBy (struct s.fields)) ∈ places E)
    (es : List (Content × Content)) (h : StandsAt place file (.map es)) : ∃ fs, .map es = Derive.mapping fs ∧ KeysOk s fs := by
  obtain ⟨x, hx⟩ := C100_read E file r hr place _ hp es h
  obtain ⟨fs, h1, -⟩ := (C70_reads E s hs _ x).1 hx
  replace h1 := (givenAs_other (fun _ h => by cases h)).1 h1
  rw [h1] at hx
  exact ⟨fs, h1, C70_given_once E s hs fs x hx, C70_required E s hs fs x hx, C70_one_of E s hs fs x hx, fun hr =>
    C70_other_keys E s hs hr fs x hx⟩

/-- A file with limits in the `deploy` section of a service. -/
def limitsFile (limits : List (Str × Content)) : Content :=
  Derive.mapping [("services".toList, Derive.mapping [("web".toList, Derive.mapping [("deploy".toList,
    Derive.mapping [("resources".toList, Derive.mapping [("limits".toList, Derive.mapping limits)])])])])]

/-- The limits of resources. -/
def limitsInfo (E : Env) : StructInfo := ⟨Structs.limits E, ["cpus", "memory", "pids"], [], [], .extensions, false⟩

theorem limits_at (limits : List (Str × Content)) :
    StandsAt (inDeploy [.key "resources", .key "limits"]) (limitsFile limits) (Derive.mapping limits) :=
  .key (a := []) (b := []) (by simp) (.anyKey (k := .str "web".toList) List.mem_cons_self (.key (a := []) (b := []) (by simp)
    (.key (a := []) (b := []) (by simp) (.key (a := []) (b := []) (by simp) .here))))

/-- The file is read. -/
example : ∃ r, (struct (compose sampleEnv)).de (limitsFile [("pids".toList, .u64 5), ("x-a".toList, .unit)]) = .ok r := ⟨_, rfl⟩

/-- With a misspelt key it is not. -/
example (E : Env) [EnvOk E] (k : Str) (v : Content) (hk : k ∉ ["cpus".toList, "memory".toList, "pids".toList]) (hx : ¬ ExtensionKey k)
    (before after : List (Str × Content)) (r : Record (compose E)) :
    (struct (compose E)).de (limitsFile (before ++ (k, v) :: after)) ≠ .ok r := fun hr => by
  obtain ⟨fs, h1, h2⟩ := C100_keys E _ r hr (limitsInfo E) (by simp [structs, parts, limitsInfo])
    (inDeploy [.key "resources", .key "limits"]) (nth 25 rfl) _ (limits_at _)
  cases Proofs.mapping_inj h1
  rcases h2.known nofun (k, v) (List.mem_append_right _ List.mem_cons_self) with h3 | h3
  · exact hk h3
  · exact hx h3

/-- C100: where a Compose file is read, the keys of a top-level network, volume, config or secret are strings.  They are
`external` and `name` only, or they are `external`, the keys of the struct and extensions, and one of those keys of which
exactly one must be given is there. -/
theorem C100_resource (E : Env) [EnvOk E] (file : Content) (r : Record (compose E)) (hr : (struct (compose E)).de file = .ok r)
    (s : StructInfo) (hs : s ∈ structs E) (place : List Step) (hp : (place, ReadBy (resource E s.fields)) ∈ places E)
    (hrest : s.rest = .extensions) (es : List (Content × Content)) (h : StandsAt place file (.map es)) :
    ∃ fs, .map es = Derive.mapping fs ∧
      ((∀ e ∈ fs, e.1 ∈ ["external".toList, "name".toList]) ∨
        (∀ e ∈ fs, e.1 = "external".toList ∨ e.1 ∈ s.keyTexts ∨ ExtensionKey e.1) ∧
          (∀ k ∈ s.required, k.toList ∈ fs.map (·.1)) ∧ (s.oneOf ≠ [] → ∃ k ∈ s.oneOf, k.toList ∈ fs.map (·.1))) := by
  obtain ⟨x, hx⟩ := C100_read E file r hr place _ hp es h
  have hx : Resource.deserialize E.order (fun es => (decode s.fields es).toOption) (.map es) = some x := Outcome.ofOption_eq_ok.1 hx
  obtain ⟨m, h1, h2⟩ := Option.bind_eq_some_iff.1 hx
  obtain ⟨fs, h3, rfl⟩ := Option.map_eq_some_iff.1 h1
  refine ⟨fs, entriesOf_iff.1 (show entriesOf (.map es) = some fs from h3), ?_⟩
  have there : ∀ e ∈ fs, ∃ v, (e.1, v) ∈ IndexMap.collect fs := fun e he => by
    simp only [← IndexMap.get_eq_some (IndexMap.ok_collect fs), IndexMap.get_collect]
    cases hf : fs.reverse.find? (fun x => decide (x.1 = e.1)) with
    | none => exact absurd (decide_eq_true rfl) (List.find?_eq_none.1 hf e (List.mem_reverse.2 he))
    | some x => exact ⟨_, rfl⟩
  have back : ∀ e ∈ IndexMap.collect fs, e.1 ∈ fs.map (·.1) := fun e he => by
    rw [← IndexMap.get_eq_some (k := e.1) (v := e.2) (IndexMap.ok_collect fs), IndexMap.get_collect] at he
    obtain ⟨x, h4, -⟩ := Option.map_eq_some_iff.1 he
    exact List.mem_map.2 ⟨x, List.mem_reverse.1 (List.mem_of_find?_eq_some h4), of_decide_eq_true (List.find?_some (p := fun x : Str × Content => decide (x.1 = e.1)) h4)⟩
  cases fromMap_readAs (IndexMap.ok_collect _) h2 with
  | external h4 =>
    refine .inl fun e he => ?_
    obtain ⟨v, hv⟩ := there e he
    have := congrArg Prod.fst (List.mem_singleton.1 (h4.mem_iff.1 hv))
    exact this ▸ List.mem_cons_self
  | named h4 =>
    refine .inl fun e he => ?_
    obtain ⟨v, hv⟩ := there e he
    exact List.mem_map_of_mem (f := Prod.fst) (h4.mem_iff.1 hv)
  | compose h4 h5 =>
    have h6 : (struct s.fields).de (Derive.mapping (E.order ((IndexMap.collect fs).filter (·.1 ≠ "external".toList)))) = .ok _ :=
      (struct_de_mapping _ _).trans (toOption_some.1 h5)
    have mem : ∀ e, e ∈ E.order ((IndexMap.collect fs).filter (·.1 ≠ "external".toList)) ↔
        e ∈ IndexMap.collect fs ∧ e.1 ≠ "external".toList := fun e => by
      rw [(EnvOk.order (E := E) _).mem_iff, List.mem_filter, decide_eq_true_iff]
    refine .inr ⟨fun e he => ?_, fun k hk => ?_, fun ho => ?_⟩
    · obtain ⟨v, hv⟩ := there e he
      by_cases hk : e.1 = "external".toList
      · exact .inl hk
      · have := C70_other_keys E s hs (by rw [hrest]; decide) _ _ h6 (e.1, v) ((mem _).2 ⟨hv, hk⟩)
        rw [hrest] at this
        exact .inr this
    · obtain ⟨v, hv⟩ := C70_required E s hs _ _ h6 k hk
      exact back (k.toList, v) ((mem _).1 (mem_given.1 (hv ▸ List.mem_singleton.2 rfl))).1
    · obtain ⟨k, hk, ⟨v, hv⟩, -⟩ := C70_one_of E s hs _ _ h6 ho
      exact ⟨k, hk, back (k.toList, v) ((mem _).1 (mem_given.1 (show v ∈ valuesOf _ _ from hv.1 ▸ List.mem_singleton.2 rfl))).1⟩

/-- A network that is not external. -/
def networkFile (network : List (Str × Content)) : Content :=
  Derive.mapping [("services".toList, Derive.mapping []), ("networks".toList, Derive.mapping [("net".toList, Derive.mapping network)])]

theorem network_at (network : List (Str × Content)) :
    StandsAt [.key "networks", .anyKey] (networkFile network) (Derive.mapping network) :=
  .key (a := [(.str "services".toList, .map [])]) (b := []) (by simp) (.anyKey (k := .str "net".toList) List.mem_cons_self .here)

/-- It is read, also where a key is repeated; `external: true` excludes other settings. -/
example : (∃ r, (struct (compose sampleEnv)).de (networkFile [("internal".toList, .bool true), ("internal".toList, .bool false)]) = .ok r) ∧
    (struct (compose sampleEnv)).de (networkFile [("internal".toList, .bool true), ("external".toList, .bool true)]) = .err () :=
  ⟨⟨_, rfl⟩, rfl⟩

/-- With a misspelt key it is not. -/
example (E : Env) [EnvOk E] (v : Content) (before after : List (Str × Content)) (r : Record (compose E)) :
    (struct (compose E)).de (networkFile (before ++ ("internl".toList, v) :: after)) ≠ .ok r := fun hr => by
  obtain ⟨fs, h1, h2⟩ := C100_resource E _ r hr (networkInfo E) (networkInfo_mem E) _ (nth 2 rfl) rfl _ (network_at _)
  cases Proofs.mapping_inj h1
  rcases h2 with h2 | ⟨h2, -⟩
  · exact absurd (h2 _ (List.mem_append_right _ List.mem_cons_self)) (by dsimp only; decide)
  · rcases h2 _ (List.mem_append_right _ List.mem_cons_self) with h3 | h3 | ⟨⟨t, h3⟩, -⟩
    · exact absurd h3 (by dsimp only; decide)
    · exact absurd (show "internl".toList ∈ (networkInfo sampleEnv).keyTexts from h3) (by decide)
    · exact absurd (Option.some.inj (congrArg List.head? h3)) (by decide)

/-- C100: where a Compose file is read, a mount in the long syntax has one type, which is one of the five types, and its other
entries follow the rules about the keys of that type. -/
theorem C100_mount (E : Env) [EnvOk E] (file : Content) (r : Record (compose E)) (hr : (struct (compose E)).de file = .ok r)
    (es : List (Content × Content)) (h : StandsAt (inService [.key "volumes", .item]) file (.map es)) :
    ∃ fs, .map es = Derive.mapping fs ∧ ∃ t ∈ mountTypes, given fs "type".toList = [.str t.1.toList] ∧
      ∀ s ∈ structs E, s.fields = t.2 → KeysOk s (fs.filter fun e => e.1 ≠ "type".toList) := by
  obtain ⟨x, hx⟩ := C100_read E file r hr _ (ReadBy mount) (nth 43 rfl) es h
  obtain ⟨fs, h1, h2⟩ := Outcome.bind_eq_ok.1 hx
  obtain ⟨t, h3, h4, y, h5⟩ := mount_decoded h2
  refine ⟨fs, entriesOf_iff.1 (Outcome.ofOption_eq_ok.1 h1), t, h3, h4, fun s hs ht => ?_⟩
  obtain ⟨tag, is⟩ := t
  subst ht
  have hx : (struct s.fields).de (Derive.mapping (fs.filter fun e => e.1 ≠ "type".toList)) = .ok y := (struct_de_mapping _ _).trans h5
  exact ⟨C70_given_once E s hs _ y hx, C70_required E s hs _ y hx, C70_one_of E s hs _ y hx, fun hr =>
    C70_other_keys E s hs hr _ y hx⟩

/-- A file with one service. -/
def serviceFile (service : List (Str × Content)) : Content :=
  Derive.mapping [("services".toList, Derive.mapping [("web".toList, Derive.mapping service)])]

set_option maxRecDepth 4000 in
/-- A bind mount; a tmpfs mount must not have a source. -/
example : StandsAt (inService [.key "volumes", .item])
      (serviceFile [("volumes".toList, .seq [Derive.mapping [("source".toList, .str "/a".toList), ("type".toList, .str "bind".toList),
        ("target".toList, .str "/b".toList)]])])
      (Derive.mapping [("source".toList, .str "/a".toList), ("type".toList, .str "bind".toList), ("target".toList, .str "/b".toList)]) ∧
    (∃ r, (struct (compose sampleEnv)).de
      (serviceFile [("volumes".toList, .seq [Derive.mapping [("source".toList, .str "/a".toList), ("type".toList, .str "bind".toList),
        ("target".toList, .str "/b".toList)]])]) = .ok r) ∧
    (struct (compose sampleEnv)).de
      (serviceFile [("volumes".toList, .seq [Derive.mapping [("source".toList, .str "/a".toList), ("type".toList, .str "tmpfs".toList),
        ("target".toList, .str "/b".toList)]])]) = .err () :=
  ⟨.key (a := []) (b := []) (by simp) (.anyKey (k := .str "web".toList) List.mem_cons_self (.key (a := []) (b := []) (by simp)
    (.item List.mem_cons_self .here))), ⟨_, rfl⟩, rfl⟩

/-- C100: where a Compose file is read, the keys of a healthcheck are those of healthchecks, each at most once, or
extensions. -/
theorem C100_healthcheck (E : Env) [EnvOk E] (file : Content) (r : Record (compose E)) (hr : (struct (compose E)).de file = .ok r)
    (es : List (Content × Content)) (h : StandsAt (inService [.key "healthcheck"]) file (.map es)) :
    ∃ fs, .map es = Derive.mapping fs ∧ ∀ e ∈ fs, (e.1 ∈ ["test", "interval", "timeout", "retries", "start_period", "start_interval",
      "disable"].map String.toList ∧ given fs e.1 = [e.2]) ∨ ExtensionKey e.1 := by
  obtain ⟨x, hx⟩ := C100_read E file r hr _ (ReadBy healthcheck) (nth 37 rfl) es h
  obtain ⟨fs, h1, h2⟩ := (Denotes.iff (c := healthcheck) (m := Meaning.healthcheck) _ _).1 hx
  refine ⟨fs, h1, ?_⟩
  have one : ∀ {k : Str} {v : Content}, (k, v) ∈ fs → given fs k = [] ∨ (∃ w, given fs k = [w]) → given fs k = [v] := fun hm h => by
    rcases h with h | ⟨w, h⟩ <;> rw [← mem_given, h] at hm
    · cases hm
    · rw [h, List.mem_singleton.1 hm]
  have opt : ∀ {α : Type} {k : Str} {d : Content → α → Prop} {o : Option α}, OptField fs k d o →
      given fs k = [] ∨ ∃ w, given fs k = [w] := fun h => h.imp (fun h => h.1) fun ⟨v, _, h, _⟩ => ⟨v, h⟩
  rintro ⟨k, v⟩ he
  rcases h2 with ⟨-, rfl | rfl | rfl⟩ | ⟨c, -, hc⟩
  · cases List.mem_singleton.1 he; exact .inl ⟨by decide, rfl⟩
  · cases List.mem_singleton.1 he; exact .inl ⟨by decide, rfl⟩
  · rcases List.mem_cons.1 he with h | h
    · cases h; exact .inl ⟨by decide, rfl⟩
    · cases List.mem_singleton.1 h; exact .inl ⟨by decide, rfl⟩
  · refine (hc.keys _ he).imp_left fun hk => ?_
    simp only [healthKeys, List.mem_cons, List.not_mem_nil, or_false] at hk
    rcases hk with rfl | rfl | rfl | rfl | rfl | rfl | rfl
    · exact ⟨by dsimp only; decide, one he (hc.disable.imp_right fun h => ⟨_, h⟩)⟩
    · exact ⟨by dsimp only; decide, one he (opt hc.test)⟩
    · exact ⟨by dsimp only; decide, one he (opt hc.interval)⟩
    · exact ⟨by dsimp only; decide, one he (opt hc.timeout)⟩
    · exact ⟨by dsimp only; decide, one he (opt hc.retries)⟩
    · exact ⟨by dsimp only; decide, one he (opt hc.startPeriod)⟩
    · exact ⟨by dsimp only; decide, one he (opt hc.startInterval)⟩

/-- A healthcheck, and one with a misspelt key. -/
example : StandsAt (inService [.key "healthcheck"])
      (serviceFile [("healthcheck".toList, Derive.mapping [("test".toList, .str "true".toList), ("retries".toList, .u64 3)])])
      (Derive.mapping [("test".toList, .str "true".toList), ("retries".toList, .u64 3)]) ∧
    (∃ r, (struct (compose sampleEnv)).de
      (serviceFile [("healthcheck".toList, Derive.mapping [("test".toList, .str "true".toList), ("retries".toList, .u64 3)])]) = .ok r) ∧
    (struct (compose sampleEnv)).de
      (serviceFile [("healthcheck".toList, Derive.mapping [("test".toList, .str "true".toList), ("retry".toList, .u64 3)])]) = .err () :=
  ⟨.key (a := []) (b := []) (by simp) (.anyKey (k := .str "web".toList) List.mem_cons_self (.key (a := []) (b := []) (by simp) .here)),
    ⟨_, rfl⟩, rfl⟩

/-- C100: where a Compose file is read, a credential spec has one of the keys `config`, `file` and `registry`, and its other
keys are extensions. -/
theorem C100_credential_spec (E : Env) [EnvOk E] (file : Content) (r : Record (compose E)) (hr : (struct (compose E)).de file = .ok r)
    (es : List (Content × Content)) (h : StandsAt (inService [.key "credential_spec"]) file (.map es)) :
    ∃ before k v after, .map es = Derive.mapping (before ++ (k, v) :: after) ∧
      k ∈ ["config", "file", "registry"].map String.toList ∧ ∀ e ∈ before ++ after, ExtensionKey e.1 := by
  obtain ⟨x, hx⟩ := C100_read E file r hr _ (ReadBy credentialSpec) (nth 19 rfl) es h
  obtain ⟨b, ⟨k, v⟩, a, h1, h2, -, h3, -⟩ := (Denotes.iff (c := credentialSpec) (m := Meaning.credentialSpec) _ _).1 hx
  refine ⟨b, k, v, a, h1, ?_, h3⟩
  generalize x.kind = kind at h2
  cases h2 <;> decide

/-- A credential spec, and one with two keys. -/
example : StandsAt (inService [.key "credential_spec"])
      (serviceFile [("credential_spec".toList, Derive.mapping [("x-a".toList, .u64 1), ("file".toList, .str "a".toList)])])
      (Derive.mapping [("x-a".toList, .u64 1), ("file".toList, .str "a".toList)]) ∧
    (∃ r, (struct (compose sampleEnv)).de
      (serviceFile [("credential_spec".toList, Derive.mapping [("x-a".toList, .u64 1), ("file".toList, .str "a".toList)])]) = .ok r) ∧
    (struct (compose sampleEnv)).de
      (serviceFile [("credential_spec".toList, Derive.mapping [("config".toList, .str "b".toList), ("file".toList, .str "a".toList)])]) =
        .err () :=
  ⟨.key (a := []) (b := []) (by simp) (.anyKey (k := .str "web".toList) List.mem_cons_self (.key (a := []) (b := []) (by simp) .here)),
    ⟨_, rfl⟩, rfl⟩

end Props
