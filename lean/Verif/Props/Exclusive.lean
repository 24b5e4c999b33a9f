import Verif.Spec.Exclusive
import Verif.Props.Healthcheck
import Verif.Props.Modes
import Verif.Props.Keys

namespace Props
open Rust Compose Spec

/-! ### C50: fields of which exactly one may be set -/

theorem entriesOf_mapping {es : List (Str × Content)} : entriesOf (mapping es) = some es :=
  stringKeys_iff.2 rfl

theorem entriesOf_iff {c : Content} {es : List (Str × Content)} : entriesOf c = some es ↔ c = mapping es := by
  constructor
  · intro h
    cases c with
    | map entries => rw [entriesOf, stringKeys_iff] at h; rw [h]; rfl
    | _ => cases h
  · rintro rfl; exact entriesOf_mapping

theorem scanField_iff {β : Type} {de : Content → Option β} {key : Str} {st o : Option β} {es : List (Str × Content)} :
    scanField de key st es = some o ↔
      (valuesOf key es = [] ∧ o = st) ∨ ∃ v x, valuesOf key es = [v] ∧ st = none ∧ de v = some x ∧ o = some x := by
  induction es generalizing st with
  | nil =>
    simp only [scanField, valuesOf, List.filter_nil, List.map_nil, true_and, Option.some.injEq, reduceCtorEq, false_and,
      exists_false, or_false]
    exact eq_comm
  | cons e es ih =>
    obtain ⟨k, v⟩ := e
    rw [scanField]
    by_cases hk : k = key
    · subst hk
      rw [if_pos rfl, valuesOf_eq]
      cases st with
      | some s => simp
      | none =>
        simp only [Option.isSome_none, Bool.false_eq_true, if_false, reduceCtorEq, false_and, false_or, List.cons.injEq,
          true_and]
        cases hv : de v with
        | none =>
          simp only [reduceCtorEq, false_iff]
          rintro ⟨v', x, ⟨rfl, -⟩, h, -⟩
          rw [hv] at h; cases h
        | some x =>
          simp only [ih, reduceCtorEq, false_and, and_false, exists_false, or_false]
          constructor
          · rintro ⟨h1, rfl⟩; exact ⟨v, x, ⟨rfl, h1⟩, hv, rfl⟩
          · rintro ⟨v', x', ⟨rfl, h1⟩, h2, rfl⟩
            rw [hv] at h2
            exact ⟨h1, h2.symm⟩
    · rw [if_neg hk, valuesOf_ne hk]
      exact ih

theorem optionOf_some {α : Type} {de : Content → Option α} {v : Content} {x : α} :
    optionOf de v = some (some x) ↔ v ≠ .unit ∧ de v = some x := by
  cases v <;> simp [optionOf]

theorem optionOf_none {α : Type} {de : Content → Option α} {v : Content} : optionOf de v = some none ↔ v = .unit := by
  cases v <;> simp [optionOf]

theorem flatOption_some {α : Type} {de : Content → Option α} {key : Str} {es : List (Str × Content)} {x : α} :
    flatOption de key es = some (some x) ↔ ∃ v, Given es key v ∧ de v = some x := by
  unfold flatOption Given
  rw [Option.map_eq_some_iff]
  constructor
  · rintro ⟨o, h1, h2⟩
    rcases scanField_iff.1 h1 with ⟨-, rfl⟩ | ⟨v, y, h3, -, h4, rfl⟩
    · cases h2
    · cases h2
      obtain ⟨h5, h6⟩ := optionOf_some.1 h4
      exact ⟨v, ⟨h3, h5⟩, h6⟩
  · rintro ⟨v, ⟨h3, h5⟩, h6⟩
    exact ⟨some (some x), scanField_iff.2 (.inr ⟨v, _, h3, rfl, optionOf_some.2 ⟨h5, h6⟩, rfl⟩), rfl⟩

theorem flatOption_none {α : Type} {de : Content → Option α} {key : Str} {es : List (Str × Content)} :
    flatOption de key es = some none ↔ NotGiven es key := by
  unfold flatOption NotGiven
  rw [Option.map_eq_some_iff]
  constructor
  · rintro ⟨o, h1, h2⟩
    rcases scanField_iff.1 h1 with ⟨h, rfl⟩ | ⟨v, y, h3, -, h4, rfl⟩
    · exact .inl h
    · cases h2
      rw [optionOf_none.1 h4] at h3
      exact .inr h3
  · rintro (h | h)
    · exact ⟨none, scanField_iff.2 (.inl ⟨h, rfl⟩), rfl⟩
    · exact ⟨some none, scanField_iff.2 (.inr ⟨_, _, h, rfl, rfl, rfl⟩), rfl⟩

/-- Given and not given exclude each other. -/
theorem _root_.Spec.Given.not {es : List (Str × Content)} {key : Str} {v : Content} (h : Given es key v) : ¬ NotGiven es key := by
  rintro (h' | h')
  · have := h.1; rw [h'] at this; cases this
  · have := h.1; rw [h'] at this; cases this; exact h.2 rfl

private theorem oneOf_two {α : Type} {k1 k2 : Str} (hk : k1 ≠ k2) {d1 d2 : Content → α → Prop} {es : List (Str × Content)}
    {x : α} :
    OneOf [⟨k1, d1⟩, ⟨k2, d2⟩] es x ↔
      ((∃ v, Given es k1 v ∧ d1 v x) ∧ NotGiven es k2) ∨ (NotGiven es k1 ∧ ∃ v, Given es k2 v ∧ d2 v x) := by
  unfold OneOf
  simp only [List.mem_cons, List.not_mem_nil, or_false, exists_eq_or_imp, exists_eq_left, forall_eq_or_imp, forall_eq, ne_eq,
    not_true_eq_false, false_implies, true_and, and_true]
  simp only [hk, Ne.symm hk, not_false_eq_true, forall_const, and_true, true_and]
  rw [and_comm (a := NotGiven es k1)]

private theorem oneOf_three {α : Type} {k1 k2 k3 : Str} (h12 : k1 ≠ k2) (h13 : k1 ≠ k3) (h23 : k2 ≠ k3)
    {d1 d2 d3 : Content → α → Prop} {es : List (Str × Content)} {x : α} :
    OneOf [⟨k1, d1⟩, ⟨k2, d2⟩, ⟨k3, d3⟩] es x ↔
      ((∃ v, Given es k1 v ∧ d1 v x) ∧ NotGiven es k2 ∧ NotGiven es k3) ∨
        (NotGiven es k1 ∧ (∃ v, Given es k2 v ∧ d2 v x) ∧ NotGiven es k3) ∨
        (NotGiven es k1 ∧ NotGiven es k2 ∧ ∃ v, Given es k3 v ∧ d3 v x) := by
  unfold OneOf
  simp only [List.mem_cons, List.not_mem_nil, or_false, exists_eq_or_imp, exists_eq_left, forall_eq_or_imp, forall_eq, ne_eq,
    not_true_eq_false, false_implies, true_and, and_true]
  simp only [h12, h13, h23, Ne.symm h12, Ne.symm h13, Ne.symm h23, not_false_eq_true, forall_const, and_true, true_and]
  constructor
  · rintro (h | ⟨a, b, c⟩ | ⟨a, b, c⟩)
    · exact .inl h
    · exact .inr (.inl ⟨b, a, c⟩)
    · exact .inr (.inr ⟨b, c, a⟩)
  · rintro (h | ⟨a, b, c⟩ | ⟨a, b, c⟩)
    · exact .inl h
    · exact .inr (.inl ⟨b, a, c⟩)
    · exact .inr (.inr ⟨c, a, b⟩)

private theorem noneOf_two {α : Type} {k1 k2 : Str} {d1 d2 : Content → α → Prop} {es : List (Str × Content)} :
    NoneOf [⟨k1, d1⟩, ⟨k2, d2⟩] es ↔ NotGiven es k1 ∧ NotGiven es k2 := by
  unfold NoneOf
  simp

private theorem deString_iff {v : Content} {s : Str} : deString v = some s ↔ v = .str s := by
  cases v <;> simp [deString]

private theorem given_string {α : Type} {es : List (Str × Content)} {key : Str} {f : Str → α} {x : α} :
    (∃ v, Given es key v ∧ ∃ s, v = .str s ∧ x = f s) ↔
      ∃ s, flatOption deString key es = some (some s) ∧ x = f s := by
  simp only [flatOption_some, deString_iff]
  constructor
  · rintro ⟨v, h, s, h1, h2⟩; exact ⟨s, ⟨v, h, h1⟩, h2⟩
  · rintro ⟨s, ⟨v, h, h1⟩, h2⟩; exact ⟨v, h, s, h1, h2⟩

/-- **C50**. `dockerfile` and `dockerfile_inline`: the one that is given is taken, both are an error, and where one is
required so is none. -/
theorem C50_dockerfile (es : List (Str × Content)) :
    (∀ d, Dockerfile.deOption (mapping es) = some (some d) ↔ OneOf dockerfileFields es d) ∧
      (Dockerfile.deOption (mapping es) = some none ↔ NoneOf dockerfileFields es) ∧
      ∀ d, Dockerfile.de (mapping es) = some d ↔ OneOf dockerfileFields es d := by
  have h1 : ∀ d, Dockerfile.deOption (mapping es) = some (some d) ↔ OneOf dockerfileFields es d := by
    intro d
    unfold Dockerfile.deOption dockerfileFields
    rw [entriesOf_mapping, oneOf_two (by decide), given_string, given_string, ← flatOption_none (de := deString),
      ← flatOption_none (de := deString)]
    simp only [Option.bind_some, Dockerfile.optionEntries]
    generalize flatOption deString "dockerfile".toList es = a
    generalize flatOption deString "dockerfile_inline".toList es = b
    rcases a with _ | _ | a <;> rcases b with _ | _ | b <;> simp [eq_comm]
  refine ⟨h1, ?_, ?_⟩
  · unfold Dockerfile.deOption dockerfileFields
    rw [entriesOf_mapping, noneOf_two, ← flatOption_none (de := deString), ← flatOption_none (de := deString)]
    simp only [Option.bind_some, Dockerfile.optionEntries]
    generalize flatOption deString "dockerfile".toList es = a
    generalize flatOption deString "dockerfile_inline".toList es = b
    rcases a with _ | _ | a <;> rcases b with _ | _ | b <;> simp [eq_comm]
  · intro d
    rw [← h1, Dockerfile.de]
    rcases Dockerfile.deOption (mapping es) with _ | _ | x <;> simp

example : OneOf dockerfileFields [("args".toList, .unit), ("dockerfile".toList, .str "a".toList)] (.file "a".toList) :=
  ((C50_dockerfile _).1 _).1 rfl

private theorem networkMode_de {v : Content} {m : NetworkMode} :
    NetworkMode.de v = some m ↔ ∃ s, v = .str s ∧ NetworkModeText s m := by
  cases v with
  | str s =>
    rw [NetworkMode.de]
    simp only [Content.str.injEq, exists_eq_left']
    rw [← C42_network_mode_accepts]
    cases NetworkMode.parse s <;> simp [Except.toOption]
  | _ => simp [NetworkMode.de]

/-- **C50**. `network_mode` and `networks`. -/
theorem C50_network_config {N : Type} (deNetworks : Content → Option N) (es : List (Str × Content)) :
    (∀ d, NetworkConfigOf.deOption deNetworks (mapping es) = some (some d) ↔ OneOf (networkFields fun c n => deNetworks c = some n) es d) ∧
      (NetworkConfigOf.deOption deNetworks (mapping es) = some none ↔ NoneOf (networkFields fun c n => deNetworks c = some n) es) ∧
      ∀ d, NetworkConfigOf.de deNetworks (mapping es) = some d ↔ OneOf (networkFields fun c n => deNetworks c = some n) es d := by
  have h1 : ∀ d, NetworkConfigOf.deOption deNetworks (mapping es) = some (some d) ↔ OneOf (networkFields fun c n => deNetworks c = some n) es d := by
    intro d
    unfold NetworkConfigOf.deOption networkFields
    have e1 : (∃ v, Given es "network_mode".toList v ∧ ∃ s m, v = .str s ∧ NetworkModeText s m ∧ d = .networkMode m) ↔
        ∃ m, flatOption NetworkMode.de "network_mode".toList es = some (some m) ∧ d = .networkMode m := by
      simp only [flatOption_some, networkMode_de]
      constructor
      · rintro ⟨v, h, s, m, h1, h2, h3⟩; exact ⟨m, ⟨v, h, s, h1, h2⟩, h3⟩
      · rintro ⟨m, ⟨v, h, s, h1, h2⟩, h3⟩; exact ⟨v, h, s, m, h1, h2, h3⟩
    have e2 : (∃ v, Given es "networks".toList v ∧ ∃ n, deNetworks v = some n ∧ d = .networks n) ↔
        ∃ n, flatOption deNetworks "networks".toList es = some (some n) ∧ d = .networks n := by
      simp only [flatOption_some]
      constructor
      · rintro ⟨v, h, n, h1, h2⟩; exact ⟨n, ⟨v, h, h1⟩, h2⟩
      · rintro ⟨n, ⟨v, h, h1⟩, h2⟩; exact ⟨v, h, n, h1, h2⟩
    rw [entriesOf_mapping, oneOf_two (by decide), e1, e2, ← flatOption_none (de := deNetworks) (key := "networks".toList),
      ← flatOption_none (de := NetworkMode.de) (key := "network_mode".toList)]
    simp only [Option.bind_some, NetworkConfigOf.optionEntries]
    generalize flatOption NetworkMode.de "network_mode".toList es = a
    generalize flatOption deNetworks "networks".toList es = b
    rcases a with _ | _ | a <;> rcases b with _ | _ | b <;> simp [eq_comm]
  refine ⟨h1, ?_, ?_⟩
  · unfold NetworkConfigOf.deOption networkFields
    rw [entriesOf_mapping, noneOf_two, ← flatOption_none (de := NetworkMode.de) (key := "network_mode".toList),
      ← flatOption_none (de := deNetworks) (key := "networks".toList)]
    simp only [Option.bind_some, NetworkConfigOf.optionEntries]
    generalize flatOption NetworkMode.de "network_mode".toList es = a
    generalize flatOption deNetworks "networks".toList es = b
    rcases a with _ | _ | a <;> rcases b with _ | _ | b <;> simp [eq_comm]
  · intro d
    rw [← h1, NetworkConfigOf.de]
    rcases NetworkConfigOf.deOption deNetworks (mapping es) with _ | _ | x <;> simp

example : OneOf (networkFields fun (_ : Content) (n : Unit) => some () = some n)
    [("network_mode".toList, .str "service:db".toList)] (.networkMode (.service "db".toList)) :=
  ((C50_network_config (fun _ => some ()) _).1 _).1 rfl

/-- **C50**. A config's `file`, `environment` and `content`. -/
theorem C50_config_source (es : List (Str × Content)) (d : ConfigSource) :
    ConfigSource.de (mapping es) = some d ↔ OneOf configFields es d := by
  unfold ConfigSource.de configFields
  rw [entriesOf_mapping, oneOf_three (by decide) (by decide) (by decide), given_string, given_string, given_string,
    ← flatOption_none (de := deString), ← flatOption_none (de := deString), ← flatOption_none (de := deString)]
  simp only [Option.bind_some, ConfigSource.deEntries]
  generalize flatOption deString "file".toList es = a
  generalize flatOption deString "environment".toList es = b
  generalize flatOption deString "content".toList es = c
  rcases a with _ | _ | a <;> rcases b with _ | _ | b <;> rcases c with _ | _ | c <;> simp [eq_comm]

example : OneOf configFields [("file".toList, .str "a".toList)] (.file "a".toList) := (C50_config_source _ _).1 rfl

/-- **C50**. A secret's `file` and `environment`. -/
theorem C50_secret_source (es : List (Str × Content)) (d : SecretSource) :
    SecretSource.de (mapping es) = some d ↔ OneOf secretFields es d := by
  unfold SecretSource.de secretFields
  rw [entriesOf_mapping, oneOf_two (by decide), given_string, given_string,
    ← flatOption_none (de := deString), ← flatOption_none (de := deString)]
  simp only [Option.bind_some, SecretSource.deEntries]
  generalize flatOption deString "file".toList es = a
  generalize flatOption deString "environment".toList es = b
  rcases a with _ | _ | a <;> rcases b with _ | _ | b <;> simp [eq_comm]

example : OneOf secretFields [("environment".toList, .str "A".toList)] (.environment "A".toList) := (C50_secret_source _ _).1 rfl

/-- **C50**. In each of these, giving two of the fields is an error. -/
theorem C50_both_error {N : Type} (deNetworks : Content → Option N) (es : List (Str × Content)) (v w : Content) :
    (Given es "dockerfile".toList v → Given es "dockerfile_inline".toList w →
      Dockerfile.deOption (mapping es) = none ∧ Dockerfile.de (mapping es) = none) ∧
      (Given es "network_mode".toList v → Given es "networks".toList w →
        NetworkConfigOf.deOption deNetworks (mapping es) = none ∧ NetworkConfigOf.de deNetworks (mapping es) = none) ∧
      (∀ k ∈ ["file".toList, "environment".toList, "content".toList],
        ∀ l ∈ ["file".toList, "environment".toList, "content".toList], k ≠ l → Given es k v → Given es l w →
          ConfigSource.de (mapping es) = none) ∧
      (Given es "file".toList v → Given es "environment".toList w → SecretSource.de (mapping es) = none) := by
  have key : ∀ {α : Type} {fields : List (Alternative α)} {f g : Alternative α}, f ∈ fields → g ∈ fields → f.key ≠ g.key →
      Given es f.key v → Given es g.key w → (∀ x, ¬ OneOf fields es x) ∧ ¬ NoneOf fields es := by
    intro α fields f g hf hg hne h1 h2
    refine ⟨?_, fun h => h1.not (h f hf)⟩
    rintro x ⟨a, ha, -, h⟩
    by_cases hfa : f.key = a.key
    · exact h2.not (h g hg (fun h => hne (hfa.trans h.symm)))
    · exact h1.not (h f hf hfa)
  refine ⟨fun h1 h2 => ?_, fun h1 h2 => ?_, ?_, fun h1 h2 => ?_⟩
  · have := key (fields := dockerfileFields) (f := dockerfileFields[0]) (g := dockerfileFields[1]) (by simp) (by simp)
      (by decide) h1 h2
    obtain ⟨e1, e2, e3⟩ := C50_dockerfile es
    constructor
    · rcases h : Dockerfile.deOption (mapping es) with _ | _ | x
      · rfl
      · exact absurd (e2.1 h) this.2
      · exact absurd ((e1 x).1 h) (this.1 x)
    · rcases h : Dockerfile.de (mapping es) with _ | x
      · rfl
      · exact absurd ((e3 x).1 h) (this.1 x)
  · have := key (fields := networkFields fun c n => deNetworks c = some n) (f := (networkFields fun c n => deNetworks c = some n).head (by simp [networkFields]))
      (g := (networkFields fun c n => deNetworks c = some n).getLast (by simp [networkFields])) (by simp) (by simp) (by simp [networkFields]) h1 h2
    obtain ⟨e1, e2, e3⟩ := C50_network_config deNetworks es
    constructor
    · rcases h : NetworkConfigOf.deOption deNetworks (mapping es) with _ | _ | x
      · rfl
      · exact absurd (e2.1 h) this.2
      · exact absurd ((e1 x).1 h) (this.1 x)
    · rcases h : NetworkConfigOf.de deNetworks (mapping es) with _ | x
      · rfl
      · exact absurd ((e3 x).1 h) (this.1 x)
  · intro k hk l hl hne h1 h2
    have hmem : ∀ k ∈ ["file".toList, "environment".toList, "content".toList], ∃ f ∈ configFields, f.key = k := by
      intro k hk
      simp only [List.mem_cons, List.not_mem_nil, or_false] at hk
      rcases hk with rfl | rfl | rfl
      · exact ⟨configFields[0], by simp, rfl⟩
      · exact ⟨configFields[1], by simp, rfl⟩
      · exact ⟨configFields[2], by simp, rfl⟩
    obtain ⟨f, hf, rfl⟩ := hmem k hk
    obtain ⟨g, hg, rfl⟩ := hmem l hl
    have := key hf hg hne h1 h2
    rcases h : ConfigSource.de (mapping es) with _ | x
    · rfl
    · exact absurd ((C50_config_source es x).1 h) (this.1 x)
  · have := key (fields := secretFields) (f := secretFields[0]) (g := secretFields[1]) (by simp) (by simp) (by decide) h1 h2
    rcases h : SecretSource.de (mapping es) with _ | x
    · rfl
    · exact absurd ((C50_secret_source es x).1 h) (this.1 x)

/-! #### Credential specs -/

private theorem deIdentifier_iff {v : Content} {i : Str} : deIdentifier v = some i ↔ v = .str i ∧ Identifier i := by
  cases v with
  | str s =>
    rw [deIdentifier]
    cases h : identifierNew s with
    | error e =>
      simp only [Except.toOption, reduceCtorEq, Content.str.injEq, false_iff]
      rintro ⟨rfl, h2⟩
      rw [(C01_identifier_accepts _ _).2 ⟨h2, rfl⟩] at h
      cases h
    | ok i' =>
      obtain ⟨h1, rfl⟩ := (C01_identifier_accepts _ _).1 h
      simp only [Except.toOption, Option.some.injEq, Content.str.injEq]
      constructor
      · rintro rfl; exact ⟨rfl, h1⟩
      · exact fun h => h.1
  | _ => simp [deIdentifier]

private theorem extensionKey_no_kind {e : Str × Content} {k : CredentialKind} (h : KindEntry e k) : ¬ ExtensionKey e.1 := by
  rintro ⟨⟨r, h1⟩, -⟩
  have := congrArg (List.head? ·) h1
  revert this
  cases h <;> simp

private theorem step_iff {s s' : Option CredentialKind × IndexMap Str Content} {e : Str × Content} :
    CredentialSpec.step s e = some s' ↔
      (s.1 = none ∧ ∃ k, KindEntry e k ∧ s' = (some k, s.2)) ∨
        (ExtensionKey e.1 ∧ e.1 ∉ s.2.map (·.1) ∧ s' = (s.1, s.2 ++ [e])) := by
  obtain ⟨k, ext⟩ := s
  obtain ⟨key, v⟩ := e
  have hkind : ∀ {k' : CredentialKind}, KindEntry (key, v) k' → ¬ ExtensionKey key := fun h => extensionKey_no_kind h
  unfold CredentialSpec.step
  simp only
  by_cases h1 : key = "config".toList
  · subst h1
    rw [if_pos rfl]
    cases k with
    | some k =>
      simp only [Option.isNone_some, Bool.false_eq_true, if_false, reduceCtorEq, false_and, false_or, false_iff]
      rintro ⟨⟨⟨r, h⟩, -⟩, -⟩
      have := congrArg (List.head? ·) h
      simp at this
    | none =>
      simp only [Option.isNone_none, if_true, true_and, Option.map_eq_some_iff, deIdentifier_iff]
      constructor
      · rintro ⟨i, ⟨rfl, hi⟩, rfl⟩; exact .inl ⟨_, .config hi, rfl⟩
      · rintro (⟨k', h, rfl⟩ | ⟨h, -⟩)
        · generalize hp : (("config".toList, v) : Str × Content) = p at h
          cases h with
          | config hi => cases hp; exact ⟨_, ⟨rfl, hi⟩, rfl⟩
          | file => exact absurd (congrArg Prod.fst hp) (by simp)
          | registry => exact absurd (congrArg Prod.fst hp) (by simp)
        · obtain ⟨⟨r, h⟩, -⟩ := h
          have := congrArg (List.head? ·) h
          simp at this
  rw [if_neg h1]
  by_cases h2 : key = "file".toList
  · subst h2
    rw [if_pos rfl]
    cases k with
    | some k =>
      simp only [Option.isNone_some, Bool.false_eq_true, if_false, reduceCtorEq, false_and, false_or, false_iff]
      rintro ⟨⟨⟨r, h⟩, -⟩, -⟩
      have := congrArg (List.head? ·) h
      simp at this
    | none =>
      simp only [Option.isNone_none, if_true, true_and, Option.map_eq_some_iff, deString_iff]
      constructor
      · rintro ⟨i, rfl, rfl⟩; exact .inl ⟨_, .file, rfl⟩
      · rintro (⟨k', h, rfl⟩ | ⟨h, -⟩)
        · generalize hp : (("file".toList, v) : Str × Content) = p at h
          cases h with
          | config hi => exact absurd (congrArg Prod.fst hp) (by simp)
          | file => cases hp; exact ⟨_, rfl, rfl⟩
          | registry => exact absurd (congrArg Prod.fst hp) (by simp)
        · obtain ⟨⟨r, h⟩, -⟩ := h
          have := congrArg (List.head? ·) h
          simp at this
  rw [if_neg h2]
  by_cases h3 : key = "registry".toList
  · subst h3
    rw [if_pos rfl]
    cases k with
    | some k =>
      simp only [Option.isNone_some, Bool.false_eq_true, if_false, reduceCtorEq, false_and, false_or, false_iff]
      rintro ⟨⟨⟨r, h⟩, -⟩, -⟩
      have := congrArg (List.head? ·) h
      simp at this
    | none =>
      simp only [Option.isNone_none, if_true, true_and, Option.map_eq_some_iff, deString_iff]
      constructor
      · rintro ⟨i, rfl, rfl⟩; exact .inl ⟨_, .registry, rfl⟩
      · rintro (⟨k', h, rfl⟩ | ⟨h, -⟩)
        · generalize hp : (("registry".toList, v) : Str × Content) = p at h
          cases h with
          | config hi => exact absurd (congrArg Prod.fst hp) (by simp)
          | file => exact absurd (congrArg Prod.fst hp) (by simp)
          | registry => cases hp; exact ⟨_, rfl, rfl⟩
        · obtain ⟨⟨r, h⟩, -⟩ := h
          have := congrArg (List.head? ·) h
          simp at this
  rw [if_neg h3]
  have hnk : ∀ k', ¬ KindEntry (key, v) k' := by
    intro k' h
    cases h
    · exact h1 rfl
    · exact h2 rfl
    · exact h3 rfl
  simp only [hnk, false_and, exists_false, and_false, false_or]
  cases he : extensionKeyNew key with
  | error e =>
    simp only [reduceCtorEq, false_iff]
    rintro ⟨h, -⟩
    rw [(C03_extension_key_accepts _ _).2 ⟨h, rfl⟩] at he
    cases he
  | ok key' =>
    obtain ⟨h, rfl⟩ := (C03_extension_key_accepts _ _).1 he
    simp only
    cases hg : IndexMap.get ext key' with
    | some x =>
      have : key' ∈ ext.map (·.1) := by
        by_contra hc
        rw [IndexMap.get_eq_none.2 hc] at hg; cases hg
      simp [this]
    | none =>
      rw [IndexMap.get_eq_none] at hg
      simp only [Option.isSome_none, Bool.false_eq_true, if_false, Option.some.injEq, h, hg, not_false_eq_true, true_and]
      rw [IndexMap.insert_new hg]
      exact eq_comm

private theorem run_some {k k' : CredentialKind} {ext ext' : IndexMap Str Content} {es : List (Str × Content)}
    (hn : (ext.map (·.1)).Nodup) :
    CredentialSpec.run (some k, ext) es = some (some k', ext') ↔
      k' = k ∧ ext' = ext ++ es ∧ (∀ e ∈ es, ExtensionKey e.1) ∧ (ext'.map (·.1)).Nodup := by
  induction es generalizing ext with
  | nil =>
    simp only [CredentialSpec.run, Option.some.injEq, Prod.mk.injEq, List.append_nil, List.not_mem_nil, false_implies,
      implies_true, true_and]
    constructor
    · rintro ⟨rfl, rfl⟩; exact ⟨rfl, rfl, hn⟩
    · rintro ⟨rfl, rfl, -⟩; exact ⟨rfl, rfl⟩
  | cons e es ih =>
    rw [CredentialSpec.run]
    constructor
    · intro h
      cases hs : CredentialSpec.step (some k, ext) e with
      | none => rw [hs] at h; cases h
      | some s =>
        rw [hs] at h
        rcases step_iff.1 hs with ⟨h1, -⟩ | ⟨h1, h2, rfl⟩
        · cases h1
        · have hn' : ((ext ++ [e]).map (·.1)).Nodup := by
            simp only [List.map_append, List.map_cons, List.map_nil, List.nodup_append]
            exact ⟨hn, by simp, by rintro a ha b hb rfl; simp at hb; exact h2 (hb ▸ ha)⟩
          obtain ⟨h3, h4, h5, h6⟩ := (ih hn').1 h
          exact ⟨h3, by rw [h4]; simp, by simpa [h1] using h5, h6⟩
    · rintro ⟨rfl, rfl, h3, h4⟩
      have h2 : e.1 ∉ ext.map (·.1) := by
        rw [List.map_append, List.nodup_append] at h4
        exact fun hm => h4.2.2 _ hm e.1 (by simp) rfl
      have hn' : ((ext ++ [e]).map (·.1)).Nodup := by
        simp only [List.map_append, List.map_cons, List.map_nil, List.nodup_append]
        exact ⟨hn, by simp, by rintro a ha b hb rfl; simp at hb; exact h2 (hb ▸ ha)⟩
      rw [step_iff.2 (.inr ⟨h3 e (by simp), h2, rfl⟩)]
      exact (ih hn').2 ⟨rfl, by simp, fun e he => h3 e (by simp [he]), h4⟩

private theorem run_none {k' : CredentialKind} {ext ext' : IndexMap Str Content} {es : List (Str × Content)}
    (hn : (ext.map (·.1)).Nodup) :
    CredentialSpec.run (none, ext) es = some (some k', ext') ↔
      ∃ before e after, es = before ++ e :: after ∧ KindEntry e k' ∧ ext' = ext ++ (before ++ after) ∧
        (∀ e ∈ before ++ after, ExtensionKey e.1) ∧ (ext'.map (·.1)).Nodup := by
  induction es generalizing ext with
  | nil => simp [CredentialSpec.run]
  | cons e es ih =>
    rw [CredentialSpec.run]
    constructor
    · intro h
      cases hs : CredentialSpec.step (none, ext) e with
      | none => rw [hs] at h; cases h
      | some s =>
        rw [hs] at h
        rcases step_iff.1 hs with ⟨-, k, h1, rfl⟩ | ⟨h1, h2, rfl⟩
        · obtain ⟨rfl, rfl, h3, h4⟩ := (run_some hn).1 h
          exact ⟨[], e, es, rfl, h1, by simp, by simpa using h3, h4⟩
        · have hn' : ((ext ++ [e]).map (·.1)).Nodup := by
            simp only [List.map_append, List.map_cons, List.map_nil, List.nodup_append]
            exact ⟨hn, by simp, by rintro a ha b hb rfl; simp at hb; exact h2 (hb ▸ ha)⟩
          obtain ⟨b, x, a, rfl, h4, h5, h6, h7⟩ := (ih hn').1 h
          exact ⟨e :: b, x, a, rfl, h4, by rw [h5]; simp, by simpa [h1] using h6, h7⟩
    · rintro ⟨b, x, a, h1, h2, rfl, h3, h4⟩
      cases b with
      | nil =>
        cases h1
        rw [step_iff.2 (.inl ⟨rfl, k', h2, rfl⟩)]
        exact (run_some hn).2 ⟨rfl, by simp, by simpa using h3, h4⟩
      | cons y b =>
        simp only [List.cons_append, List.cons.injEq] at h1
        obtain ⟨rfl, rfl⟩ := h1
        have h5 : e.1 ∉ ext.map (·.1) := by
          rw [List.map_append, List.nodup_append] at h4
          exact fun hm => h4.2.2 _ hm e.1 (by simp) rfl
        have hn' : ((ext ++ [e]).map (·.1)).Nodup := by
          simp only [List.map_append, List.map_cons, List.map_nil, List.nodup_append]
          exact ⟨hn, by simp, by rintro a ha b hb rfl; simp at hb; exact h5 (hb ▸ ha)⟩
        rw [step_iff.2 (.inr ⟨h3 e (by simp), h5, rfl⟩)]
        exact (ih hn').2 ⟨b, x, a, rfl, h2, by simp, fun e he => h3 e (by simp at he ⊢; tauto), h4⟩

/-- **C50**. A credential spec has exactly one of `config`, `file` and `registry`; all other entries are extensions with
distinct keys, which are kept. -/
theorem C50_credential_spec (es : List (Str × Content)) (x : CredentialSpec) :
    CredentialSpec.de (mapping es) = some x ↔
      ∃ before e after, es = before ++ e :: after ∧ KindEntry e x.kind ∧ x.extensions = before ++ after ∧
        (∀ e ∈ before ++ after, ExtensionKey e.1) ∧ ((before ++ after).map (·.1)).Nodup := by
  obtain ⟨kind, ext⟩ := x
  have := run_none (k' := kind) (ext := []) (ext' := ext) (es := es) (by simp)
  unfold CredentialSpec.de
  rw [entriesOf_mapping, Option.bind_some]
  refine Iff.trans (b := CredentialSpec.run (none, []) es = some (some kind, ext)) ?_ (this.trans ?_)
  · rcases CredentialSpec.run (none, []) es with _ | ⟨_ | k, e⟩ <;> simp
  · constructor
    · rintro ⟨b, e, a, h1, h2, h3, h4, h5⟩
      simp only [List.nil_append] at h3
      exact ⟨b, e, a, h1, h2, h3, h4, h3 ▸ h5⟩
    · rintro ⟨b, e, a, h1, h2, h3, h4, h5⟩
      simp only at h3
      exact ⟨b, e, a, h1, h2, by simpa using h3, h4, h3 ▸ h5⟩

example : ∃ before e after,
    [("x-a".toList, Content.unit), ("config".toList, .str "web".toList)] = before ++ e :: after ∧
      KindEntry e (.config "web".toList) ∧ [("x-a".toList, Content.unit)] = before ++ after ∧
      (∀ e ∈ before ++ after, ExtensionKey e.1) ∧ ((before ++ after).map (·.1)).Nodup :=
  (C50_credential_spec _ ⟨.config "web".toList, [("x-a".toList, .unit)]⟩).1 rfl

/-- **C50**. Only mappings with string keys are accepted. -/
theorem C50_mapping_only {N : Type} (deNetworks : Content → Option N) (c : Content) (hc : ∀ es, c ≠ mapping es) :
    Dockerfile.deOption c = none ∧ Dockerfile.de c = none ∧ NetworkConfigOf.deOption deNetworks c = none ∧
      NetworkConfigOf.de deNetworks c = none ∧ ConfigSource.de c = none ∧ SecretSource.de c = none ∧
      CredentialSpec.de c = none := by
  have h : entriesOf c = none := by
    cases h : entriesOf c with
    | none => rfl
    | some es => exact absurd (entriesOf_iff.1 h) (hc es)
  simp [Dockerfile.deOption, Dockerfile.de, NetworkConfigOf.deOption, NetworkConfigOf.de, ConfigSource.de, SecretSource.de,
    CredentialSpec.de, h]

example : SecretSource.de (.seq [.str "file".toList, .str "a".toList]) = none :=
  (C50_mapping_only (N := Unit) (fun _ => none) _ (fun _ h => by cases h)).2.2.2.2.2.1

/-- **C50**. What is written is read back. -/
theorem C50_round_trip {N : Type} (deNetworks : Content → Option N) (serNetworks : N → Content) :
    (∀ d : Dockerfile, Dockerfile.de (mapping [d.entry]) = some d ∧ Dockerfile.deOption (mapping [d.entry]) = some (some d)) ∧
      Dockerfile.deOption (mapping []) = some none ∧
      (∀ m : NetworkMode, NetworkMode.parse m.display = .ok m →
        NetworkConfigOf.de deNetworks (mapping [(NetworkConfigOf.networkMode m).entry serNetworks]) = some (.networkMode m)) ∧
      (∀ n : N, deNetworks (serNetworks n) = some n → serNetworks n ≠ .unit →
        NetworkConfigOf.de deNetworks (mapping [(NetworkConfigOf.networks n).entry serNetworks]) = some (.networks n)) ∧
      (∀ s : ConfigSource, ConfigSource.de (mapping [s.entry]) = some s) ∧
      (∀ s : SecretSource, SecretSource.de (mapping [s.entry]) = some s) ∧
      ∀ x : CredentialSpec, (∀ id, x.kind = .config id → Identifier id) → (∀ e ∈ x.extensions, ExtensionKey e.1) →
        (x.extensions.map (·.1)).Nodup → CredentialSpec.de x.ser = some x := by
  refine ⟨fun d => by cases d <;> exact ⟨rfl, rfl⟩, rfl, ?_, ?_, fun s => by cases s <;> rfl, fun s => by cases s <;> rfl, ?_⟩
  · intro m hm
    rw [(C50_network_config deNetworks _).2.2]
    refine ⟨(networkFields fun c n => deNetworks c = some n).head (by simp [networkFields]), by simp, ⟨_, ⟨rfl, Content.noConfusion⟩, _, m, rfl, ?_, rfl⟩, ?_⟩
    · exact (C42_network_mode_accepts _ _).1 hm
    · intro g hg hne
      simp only [networkFields, List.mem_cons, List.not_mem_nil, or_false] at hg
      rcases hg with rfl | rfl
      · exact absurd rfl hne
      · exact .inl rfl
  · intro n hn hu
    rw [(C50_network_config deNetworks _).2.2]
    refine ⟨(networkFields fun c n => deNetworks c = some n).getLast (by simp [networkFields]), by simp, ⟨_, ⟨rfl, hu⟩, n, hn, rfl⟩, ?_⟩
    intro g hg hne
    simp only [networkFields, List.mem_cons, List.not_mem_nil, or_false] at hg
    rcases hg with rfl | rfl
    · exact .inl rfl
    · exact absurd rfl hne
  · intro x h1 h2 h3
    refine (C50_credential_spec _ _).2 ⟨[], x.kind.entry, x.extensions, rfl, ?_, rfl, h2, h3⟩
    cases hk : x.kind with
    | config id => exact .config (h1 id hk)
    | file => exact .file
    | registry => exact .registry

/-! Instances. -/

example : Dockerfile.deOption (mapping [("args".toList, .unit), ("dockerfile".toList, .str "a".toList),
    ("dockerfile_inline".toList, .unit)]) = some (some (.file "a".toList)) := rfl

example : ConfigSource.de (mapping [("file".toList, .str "a".toList), ("content".toList, .str "b".toList)]) = none :=
  (C50_both_error (N := Unit) (fun _ => none) _ (.str "a".toList) (.str "b".toList)).2.2.1 "file".toList (by simp)
    "content".toList (by simp) (by decide) ⟨rfl, by simp⟩ ⟨rfl, by simp⟩

example : CredentialSpec.de (mapping [("x-a".toList, .unit), ("config".toList, .str "web".toList), ("x-b".toList, .u64 1)]) =
    some ⟨.config "web".toList, [("x-a".toList, .unit), ("x-b".toList, .u64 1)]⟩ := rfl

example : CredentialSpec.de (mapping [("x-a".toList, .unit), ("file".toList, .str "web".toList), ("x-a".toList, .u64 1)]) =
    none := rfl

example : NetworkConfigOf.de (N := Unit) (fun _ => some ()) (mapping [("network_mode".toList, .str "service:db".toList)]) =
    some (.networkMode (.service "db".toList)) := rfl

end Props
