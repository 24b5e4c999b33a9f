import Verif.Spec.AsShort
import Verif.Props.ListOrMap

/- C51: short syntaxes are taken only when nothing is lost. -/

namespace Props
open Rust Compose Spec

theorem others_all_iff {fs : List OtherField} (h : ∀ f ∈ fs, FaithfulField f) (xs : Others fs) :
    Others.all fs xs = true ↔ xs = Others.default fs := by
  induction fs with
  | nil => simp [Others.all, Others.default]; rfl
  | cons f fs ih =>
    obtain ⟨x, xs⟩ := xs
    have h1 := h f (by simp) x
    have h2 := ih (fun g hg => h g (by simp [hg])) xs
    simp only [Others.all, Bool.and_eq_true, h1, h2, Others.default]
    constructor
    · rintro ⟨rfl, rfl⟩; rfl
    · intro h; exact ⟨congrArg Prod.fst h, congrArg Prod.snd h⟩

/-- **C51** for every struct deriving the conversions: it has a short syntax exactly if it is what the short syntax is
converted to. -/
theorem C51_derived {S : Type} {fs : List OtherField} (h : ∀ f ∈ fs, FaithfulField f) (x : S × Others fs) (s : S) :
    deriveAsShort fs x = some s ↔ x = deriveFromShort fs s := by
  obtain ⟨a, xs⟩ := x
  have h1 := others_all_iff h xs
  unfold deriveAsShort deriveFromShort
  dsimp only
  constructor
  · intro hs
    split at hs
    · rename_i ht; rw [h1] at ht; simp only [Option.some.injEq] at hs; rw [ht, hs]
    · cases hs
  · intro e
    have e1 : a = s := congrArg Prod.fst e
    have e2 : xs = Others.default fs := congrArg Prod.snd e
    rw [if_pos (h1.2 e2), e1]

example : deriveAsShort [OtherField.option Nat, .bool] ("a".toList, (none, false, ())) = some "a".toList ∧
    deriveAsShort [OtherField.option Nat, .bool] ("a".toList, (some 1, false, ())) = none := ⟨rfl, rfl⟩

/-- **C51** for every struct deriving the conversions whose short field is optional. -/
theorem C51_derived_optional {S : Type} {fs : List OtherField} (h : ∀ f ∈ fs, FaithfulField f)
    (x : Option S × Others fs) (s : S) :
    deriveAsShortOptional fs x = some s ↔ x = deriveFromShortOptional fs s := by
  obtain ⟨a, xs⟩ := x
  have h1 := others_all_iff h xs
  unfold deriveAsShortOptional deriveFromShortOptional
  dsimp only
  constructor
  · intro hs
    split at hs
    · rename_i ht; rw [h1] at ht; rw [ht, hs]
    · cases hs
  · intro e
    have e1 : a = some s := congrArg Prod.fst e
    have e2 : xs = Others.default fs := congrArg Prod.snd e
    rw [if_pos (h1.2 e2), e1]

example : deriveAsShortOptional [OtherField.option Nat, .bool] (some "a".toList, (none, false, ())) = some "a".toList ∧
    deriveAsShortOptional (S := Str) [OtherField.option Nat, .bool] (none, (none, false, ())) = none := ⟨rfl, rfl⟩

/-- **C51** the types of fields the derive macro knows are all faithful. -/
theorem C51_known_fields (T : Type) :
    FaithfulField (.option T) ∧ FaithfulField .bool ∧ FaithfulField (.list T) := by
  refine ⟨fun v => ?_, fun v => ?_, fun v => ?_⟩
  · cases v <;> simp [OtherField.option]
  · cases v <;> simp [OtherField.bool]
  · cases v <;> simp [OtherField.list]

example : ∀ f ∈ [OtherField.option Nat, .bool, .list Str], FaithfulField f := by
  have h := C51_known_fields
  simp [(h Nat).1, (h Nat).2.1, (h Str).2.2]

example : deriveAsShort [OtherField.option Nat, .bool] ("a".toList, (none, false, ())) = some "a".toList := rfl
example : deriveAsShort [OtherField.option Nat, .bool] ("a".toList, (none, true, ())) = none := rfl

/-- **C51** an env file. -/
theorem C51_env_file (x : EnvFileConfig) (s : Str) : x.asShort = some s ↔ x = ⟨s, true⟩ := by
  obtain ⟨p, r⟩ := x
  cases r <;> simp [EnvFileConfig.asShort]

example : (EnvFileConfig.mk ".env".toList true).asShort = some ".env".toList ∧
    (EnvFileConfig.mk ".env".toList false).asShort = none := ⟨rfl, rfl⟩

/-- **C51** a ulimit. -/
theorem C51_ulimit (x : Ulimit) (l : Limit Nat) : x.asShort = some l ↔ x = ⟨l, l, []⟩ := by
  obtain ⟨a, b, e⟩ := x
  simp only [Ulimit.asShort, Bool.and_eq_true, decide_eq_true_eq, List.isEmpty_iff, Option.ite_none_right_eq_some,
    Option.some.injEq, Ulimit.mk.injEq]
  constructor
  · rintro ⟨⟨rfl, h⟩, rfl⟩; exact ⟨rfl, rfl, h⟩
  · rintro ⟨rfl, rfl, h⟩; exact ⟨⟨rfl, h⟩, rfl⟩

/-- **C51** a config or a secret of a service. -/
theorem C51_config_or_secret {V : Type} (x : ConfigOrSecret V) (s : Str) :
    x.asShort = some s ↔ x = ⟨s, none, none, none, none, []⟩ := by
  obtain ⟨a, t, u, g, m, e⟩ := x
  simp only [ConfigOrSecret.asShort, Bool.and_eq_true, Option.isNone_iff_eq_none, List.isEmpty_iff,
    Option.ite_none_right_eq_some, Option.some.injEq, ConfigOrSecret.mk.injEq]
  tauto

example : (ConfigOrSecret.mk "conf".toList none none none none [] : ConfigOrSecret Unit).asShort = some "conf".toList ∧
    (ConfigOrSecret.mk "conf".toList none (some 0) none none [] : ConfigOrSecret Unit).asShort = none := ⟨rfl, rfl⟩

/-- **C51** a range of container ports. -/
theorem C51_port_ranges (x : ShortRanges) (r : Range) : x.asShort = some r ↔ x = ⟨none, r⟩ := by
  obtain ⟨h, c⟩ := x
  simp only [ShortRanges.asShort, Option.isNone_iff_eq_none, Option.ite_none_right_eq_some, Option.some.injEq,
    ShortRanges.mk.injEq]

example : (ShortRanges.mk none ⟨80, some 81⟩).asShort = some ⟨80, some 81⟩ ∧
    (ShortRanges.mk (some ⟨90, none⟩) ⟨80, none⟩).asShort = none := ⟨rfl, rfl⟩

/-- **C51** an included project: besides what the short syntax is converted to, a list of that one path. -/
theorem C51_include (x : Include) (p : Str) :
    x.asShort = some p ↔ x = ⟨.item p, none, none⟩ ∨ x = ⟨.list [p], none, none⟩ := by
  obtain ⟨path, d, e⟩ := x
  simp only [Include.asShort, Bool.and_eq_true, Option.isNone_iff_eq_none, Option.ite_none_right_eq_some,
    Include.mk.injEq]
  have h : path.asItem = some p ↔ path = .item p ∨ path = .list [p] := by
    rcases path with v | l
    · simp [ItemOrList.asItem]
    · rcases l with _ | ⟨a, _ | ⟨b, l⟩⟩ <;> simp [ItemOrList.asItem]
  rw [h]; tauto

example : (Include.mk (.item "a".toList) none none).asShort = some "a".toList ∧
    (Include.mk (.list ["a".toList, "b".toList]) none none).asShort = none ∧
    (Include.mk (.item "a".toList) (some "d".toList) none).asShort = none := ⟨rfl, rfl, rfl⟩

/-- **C51** the conversions from the short syntaxes. -/
theorem C51_from_short (s : Str) (l : Limit Nat) :
    EnvFileConfig.fromShort s = ⟨s, true⟩ ∧ Ulimit.fromShort l = ⟨l, l, []⟩ ∧
    ConfigOrSecret.fromShort (V := Content) s = ⟨s, none, none, none, none, []⟩ ∧ Include.fromShort s = ⟨.item s, none, none⟩ :=
  ⟨rfl, rfl, rfl, rfl⟩

/-- **C51** `build`: the context alone is the short syntax exactly if the other fields have no value; build arguments
and labels may then be an empty list or an empty mapping. -/
theorem C51_build {Ip Pf Ul Sec Net : Type} (x : Option Context × Others (buildOthers Ip Pf Ul Sec Net)) (c : Context) :
    deriveAsShortOptional _ x = some c ↔
      ∃ args labels, NothingListed args ∧ NothingListed labels ∧
        x = (some c, (none, args, [], [], [], [], [], [], none, false, labels, false, false, none, none, none, [],
          [], [], [], [], ())) := by
  obtain ⟨ctx, d, args, ssh, cf, ct, ac, en, eh, iso, priv, labels, nc, pull, net, shm, tgt, sec, tags, ul, pf, ext, u⟩ := x
  have hl : ∀ l : ListOrMap, l.isEmpty = true ↔ NothingListed l := by
    intro l
    cases l <;> simp [ListOrMap.isEmpty, NothingListed]
  unfold deriveAsShortOptional
  constructor
  · intro h
    split at h
    · rename_i ht
      simp only [Others.all, buildOthers, Bool.and_eq_true] at ht
      obtain ⟨h0, h1, h2, h3, h4, h5, h6, h7, h8, h9, h10, h11, h12, h13, h14, h15, h16, h17, h18, h19, h20, _⟩ := ht
      obtain rfl := Option.isNone_iff_eq_none.1 h0
      obtain rfl := List.isEmpty_iff.1 h2
      obtain rfl := List.isEmpty_iff.1 h3
      obtain rfl := List.isEmpty_iff.1 h4
      obtain rfl := List.isEmpty_iff.1 h5
      obtain rfl := List.isEmpty_iff.1 h6
      obtain rfl := List.isEmpty_iff.1 h7
      obtain rfl := Option.isNone_iff_eq_none.1 h8
      obtain rfl : priv = false := by cases priv; rfl; cases h9
      obtain rfl : nc = false := by cases nc; rfl; cases h11
      obtain rfl : pull = false := by cases pull; rfl; cases h12
      obtain rfl := Option.isNone_iff_eq_none.1 h13
      obtain rfl := Option.isNone_iff_eq_none.1 h14
      obtain rfl := Option.isNone_iff_eq_none.1 h15
      obtain rfl := List.isEmpty_iff.1 h16
      obtain rfl := List.isEmpty_iff.1 h17
      obtain rfl := List.isEmpty_iff.1 h18
      obtain rfl := List.isEmpty_iff.1 h19
      obtain rfl := List.isEmpty_iff.1 h20
      have ha := (hl _).1 h1
      have hb := (hl _).1 h10
      exact ⟨args, labels, ha, hb, by dsimp only at h; rw [h]; rfl⟩
    · cases h
  · rintro ⟨a, b, ha, hb, e⟩
    cases e
    rw [if_pos]
    have ha' := (hl _).2 ha
    have hb' := (hl _).2 hb
    simp [Others.all, buildOthers, OtherField.option, OtherField.bool, OtherField.list, OtherField.listOrMap, ha', hb']

example : deriveAsShortOptional (buildOthers Unit Unit Unit Unit Unit)
    (some (Context.path "./app".toList), (none, .map [], [], [], [], [], [], [], none, false, .list [], false, false, none, none, none, [],
      [], [], [], [], ())) = some (Context.path "./app".toList) :=
  (C51_build _ _).2 ⟨_, _, .inr rfl, .inl rfl, rfl⟩

/-- **C51** `depends_on`: the long syntax can be written as a list of services exactly if each of them has just to be
started, is not restarted and is required. -/
theorem C51_depends_on (m : IndexMap Str Dependency) (ks : List Str) :
    dependsOnShort m = some ks ↔ m = ks.map fun k => (k, ⟨.serviceStarted, false, true⟩) := by
  unfold dependsOnShort
  simp only [List.all_eq_true, decide_eq_true_eq, Option.ite_none_right_eq_some, Option.some.injEq]
  constructor
  · rintro ⟨h, rfl⟩
    rw [List.map_map]
    conv_lhs => rw [← List.map_id m]
    exact List.map_congr_left fun e he => by
      obtain ⟨k, v⟩ := e
      have := h _ he
      simp only [Dependency.default] at this
      simp [this]
  · rintro rfl
    refine ⟨?_, by simp [List.map_map, Function.comp_def]⟩
    intro e he
    obtain ⟨k, _, rfl⟩ := List.mem_map.1 he
    rfl

example : dependsOnShort [("db".toList, ⟨.serviceStarted, false, true⟩)] = some ["db".toList] ∧
    dependsOnShort [("db".toList, ⟨.serviceStarted, true, true⟩)] = none := by decide

/-- **C51** `networks`: the long syntax can be written as a list of networks exactly if no setting is given for any. -/
theorem C51_networks {A B C : Type} (m : IndexMap Str (Option (NetworkAttachment A B C))) (ks : List Str) :
    networksShort m = some ks ↔ ks = m.map (·.1) ∧ ∀ k n, (k, some n) ∈ m → NoSettings n := by
  unfold networksShort
  have hn : ∀ n : NetworkAttachment A B C, n.isEmpty = true ↔ NoSettings n := by
    intro n
    obtain ⟨a, b, c, d, e, f, g, h⟩ := n
    simp only [NetworkAttachment.isEmpty, NoSettings, Bool.and_eq_true, Option.isNone_iff_eq_none, List.isEmpty_iff,
      NetworkAttachment.mk.injEq]
    tauto
  simp only [List.all_eq_true, Option.ite_none_right_eq_some, Option.some.injEq]
  constructor
  · rintro ⟨h, rfl⟩
    refine ⟨rfl, fun k n hm => (hn n).1 ?_⟩
    simpa using h _ hm
  · rintro ⟨rfl, h⟩
    refine ⟨?_, rfl⟩
    rintro ⟨k, _ | n⟩ he
    · rfl
    · simpa using (hn n).2 (h k n he)

example : networksShort (A := Nat) (B := Nat) (C := Nat) [("n".toList, none), ("m".toList, some { NetworkAttachment.default with priority := some 1 })] =
    none := by simp [networksShort, NetworkAttachment.isEmpty, NetworkAttachment.default]

/-- **C51** a list of keys converts to the mapping whose short syntax it is. -/
theorem C51_keys_into_map {V : Type} (d : V) (ks : IndexSet Str) (h : ks.Nodup) :
    ShortOrLong.intoMap d (.short ks) = ks.map (fun k => (k, d)) := by
  have : IndexMap.Ok (ks.map fun k => (k, d)) := by
    simpa [IndexMap.Ok, List.map_map, Function.comp_def] using h
  exact IndexMap.collect_ok this

example : ShortOrLong.intoMap 5 (.short ["a".toList, "b".toList]) = [("a".toList, 5), ("b".toList, 5)] :=
  C51_keys_into_map _ _ (by decide)

/-- **C51** a mapping whose short syntax exists converts to it and back unchanged: no dependency is lost or changed. -/
theorem C51_depends_on_round_trip (m : IndexMap Str Dependency) (hm : (m.map (·.1)).Nodup) (ks : List Str)
    (h : dependsOnShort m = some ks) : ShortOrLong.intoMap Dependency.default (.short ks) = m := by
  have e := (C51_depends_on m ks).1 h
  have hk : ks.Nodup := by
    rw [e] at hm
    simpa [List.map_map, Function.comp_def] using hm
  rw [C51_keys_into_map _ ks hk, e]
  rfl

example : ShortOrLong.intoMap Dependency.default (.short ["db".toList, "web".toList]) =
    [("db".toList, .default), ("web".toList, .default)] :=
  C51_depends_on_round_trip _ (by decide) _ (by decide)

/-- **C51** dependencies in either syntax have the keys as short syntax exactly if they mean the default dependency on
each of them. -/
theorem C51_depends_on_either (x : ShortOrLong (IndexSet Str) (IndexMap Str Dependency)) (hx : x.keys.Nodup)
    (ks : List Str) :
    x.asShortIter dependsOnShort = some ks ↔
      x.intoMap Dependency.default = ks.map fun k => (k, Dependency.default) := by
  cases x with
  | short s =>
    rw [C51_keys_into_map _ s hx]
    simp only [ShortOrLong.asShortIter, Option.some.injEq]
    refine ⟨by rintro rfl; rfl, fun h => ?_⟩
    simpa [List.map_map, Function.comp_def] using congrArg (List.map (·.1)) h
  | long l => exact C51_depends_on l ks

example : ShortOrLong.asShortIter dependsOnShort (.long [("db".toList, .default)]) = some ["db".toList] :=
  (C51_depends_on_either _ (by decide) _).2 (by decide)

/-- **C51** the same for networks, where no configuration and an empty configuration mean the same. -/
theorem C51_networks_either {A B C : Type}
    (x : ShortOrLong (IndexSet Str) (IndexMap Str (Option (NetworkAttachment A B C)))) (hx : x.keys.Nodup)
    (ks : List Str) :
    x.asShortIter networksShort = some ks ↔
      (x.intoMap none).map (·.1) = ks ∧ ∀ k n, (k, some n) ∈ x.intoMap none → NoSettings n := by
  cases x with
  | short s =>
    rw [C51_keys_into_map _ s hx]
    simp [ShortOrLong.asShortIter, List.map_map, Function.comp_def]
  | long l => rw [ShortOrLong.asShortIter, C51_networks, eq_comm]; rfl

example : ShortOrLong.asShortIter (networksShort (A := Nat) (B := Nat) (C := Nat)) (.long [("n".toList, none)]) = some ["n".toList] :=
  (C51_networks_either _ (by decide) _).2 ⟨rfl, by rintro k n h; simp [ShortOrLong.intoMap] at h⟩

/-- **C51** in either syntax the keys are those of the converted mapping. -/
theorem C51_keys {V : Type} (d : V) (x : ShortOrLong (IndexSet Str) (IndexMap Str V)) (h : x.keys.Nodup) :
    (x.intoMap d).map (·.1) = x.keys := by
  cases x with
  | short s =>
    have h' : s.Nodup := h
    rw [C51_keys_into_map d s h']; simp [ShortOrLong.keys, List.map_map, Function.comp_def]
  | long l => rfl

example : ((ShortOrLong.long [("b".toList, 1), ("a".toList, 2)]).intoMap 0).map (·.1) = ["b".toList, "a".toList] :=
  C51_keys _ _ (by decide)

/-- **C51** the short syntax of a value in either syntax: if the long syntax has one exactly when it is made from it, a
value has a short syntax exactly if it is converted to the same long syntax. -/
theorem C51_either {S L : Type} (asShort : L → Option S) (fromShort : S → L)
    (h : ∀ l s, asShort l = some s ↔ l = fromShort s) (hinj : Function.Injective fromShort)
    (x : ShortOrLong S L) (s : S) :
    x.asShort asShort = some s ↔ x.intoLong fromShort = fromShort s := by
  cases x with
  | short t => simp [ShortOrLong.asShort, ShortOrLong.intoLong, hinj.eq_iff]
  | long l => simp [ShortOrLong.asShort, ShortOrLong.intoLong, h]

example : (∀ l s, Ulimit.asShort l = some s ↔ l = Ulimit.fromShort s) ∧ Function.Injective Ulimit.fromShort :=
  ⟨C51_ulimit, fun a b h => congrArg Ulimit.soft h⟩

example : dependsOnShort [("db".toList, .default), ("web".toList, .default)] = some ["db".toList, "web".toList] := by
  decide
example : dependsOnShort [("db".toList, ⟨.serviceHealthy, false, true⟩)] = none := by decide
example : (Include.mk (.list ["a".toList]) none none).asShort = some "a".toList := by decide
example : (Ulimit.mk (.value 1) (.value 2) []).asShort = none := by simp [Ulimit.asShort]
example : networksShort (A := Nat) (B := Nat) (C := Nat) [("n".toList, none), ("m".toList, some .default)] =
    some ["n".toList, "m".toList] := by simp [networksShort, NetworkAttachment.isEmpty, NetworkAttachment.default]

end Props
