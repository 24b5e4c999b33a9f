import Verif.Proofs.StructLaws

/- Which keys may be given for the structs of the library. -/

namespace Proofs
open Rust Compose Compose.Derive Compose.Codecs Compose.Structs Spec
open Props hiding mapping entriesOf_mapping

/-! ### Which keys may be given -/

theorem given_filter {es : List (Str × Content)} {p : Str → Prop} [DecidablePred p] {k : Str} (h : p k) :
    given (es.filter fun e => p e.1) k = given es k := by
  unfold given
  rw [List.filter_filter]
  congr 1
  refine List.filter_congr fun e _ => ?_
  by_cases he : e.1 = k
  · subst he; simp [h]
  · simp [he]

theorem given_filter_not {es : List (Str × Content)} {k : Str} : given (es.filter fun e => e.1 ≠ k) k = [] := by
  unfold given
  rw [List.filter_filter, List.map_eq_nil_iff, List.filter_eq_nil_iff]
  intro e _
  by_cases he : e.1 = k <;> simp [he]

theorem flatOption_length {α : Type} {de : Content → Option α} {k : Str} {es : List (Str × Content)} {o : Option α}
    (h : flatOption de k es = some o) : (given es k).length ≤ 1 := by
  unfold flatOption at h
  obtain ⟨x, h1, -⟩ := Option.map_eq_some_iff.1 h
  rw [given_eq_valuesOf]
  rcases scanField_iff.1 h1 with ⟨h, -⟩ | ⟨v, y, h, -⟩ <;> simp [h]

theorem flatOption_filter {α : Type} {de : Content → Option α} {k k' : Str} {es : List (Str × Content)} {o : Option α}
    (h : flatOption de k es = some o) :
    flatOption de k (es.filter fun e => e.1 ≠ k') = some (if k = k' then none else o) := by
  split
  · rename_i e
    subst e
    rw [flatOption_none]
    exact .inl given_filter_not
  · rename_i e
    rw [← h]
    exact flatOption_congr (given_filter (p := fun x => x ≠ k') e)

theorem ite_none {α : Type} {p : Prop} [Decidable p] {o : Option α} (h : o = none) : (if p then none else o) = none := by
  rw [h, ite_self]

/-- How a flattened field uses its keys: no key is given twice; a key may be left out; exactly one of the keys `one` is
given.  A flattened field without keys accepts further extensions. -/
class ItemKeyed (one : List Str) (i : Item) : Prop where
  once : ∀ f ks, i = .flat f → f.keys = some ks → ∀ es x, f.read es = .ok x → ∀ k ∈ ks, (given es k).length ≤ 1
  omits : ∀ f ks, i = .flat f → f.keys = some ks → ∀ es x, f.read es = .ok x → ∀ k ∈ ks, k ∉ one →
    ∃ y, f.read (es.filter fun e => e.1 ≠ k) = .ok y
  one : ∀ f ks, i = .flat f → f.keys = some ks → ∀ es x, f.read es = .ok x → ∀ k ∈ ks, k ∈ one →
    ks = one ∧ ∃ k ∈ one, (∃ v, Given es k v) ∧ ∀ k' ∈ one, k' ≠ k → NotGiven es k'
  extend : ∀ f, i = .flat f → f.keys = none → ∀ es x, f.read es = .ok x → ∀ k v, ExtensionKey k → k ∉ es.map (·.1) →
    ∃ y, f.read (es ++ [(k, v)]) = .ok y

/-- The same for all fields. -/
class ItemsKeyed (one : List Str) (is : List Item) : Prop where
  all : ∀ i ∈ is, ItemKeyed one i

instance {one : List Str} : ItemsKeyed one [] := ⟨fun _ h => by cases h⟩

instance {one : List Str} {i : Item} {is : List Item} [h : ItemKeyed one i] [hs : ItemsKeyed one is] :
    ItemsKeyed one (i :: is) :=
  ⟨fun j hj => (List.mem_cons.1 hj).elim (fun e => e ▸ h) (hs.all j)⟩

theorem keyed_cons {one : List Str} {i : Item} {is : List Item} (_ : ItemKeyed one i) (_ : ItemsKeyed one is) :
    ItemsKeyed one (i :: is) := inferInstance

theorem field_keyed {one : List Str} {f : Field} : ItemKeyed one (.field f) :=
  ⟨(fun _ _ h => by cases h), (fun _ _ h => by cases h), (fun _ _ h => by cases h), (fun _ h => by cases h)⟩

section
variable {one : List Str} {α : Type} {key : String}
instance {c : Codec α} : ItemKeyed one (req key c) := field_keyed
instance {c : Codec (Option α)} : ItemKeyed one (optWith key c) := field_keyed
instance {c : Codec α} : ItemKeyed one (opt key c) := field_keyed
instance : ItemKeyed one (flag key) := field_keyed
instance : ItemKeyed one (flagTrue key) := field_keyed
instance {c : Codec (List α)} : ItemKeyed one (many key c) := field_keyed
instance : ItemKeyed one (manyListOrMap key) := field_keyed
instance : ItemKeyed one Structs.dependsOn := field_keyed
end

theorem keyed_of {one : List Str} {f : Flat} {ks : List Str} (hk : f.keys = some ks)
    (h1 : ∀ es x, f.read es = .ok x → ∀ k ∈ ks, (given es k).length ≤ 1)
    (h2 : ∀ es x, f.read es = .ok x → ∀ k ∈ ks, k ∉ one → ∃ y, f.read (es.filter fun e => e.1 ≠ k) = .ok y)
    (h3 : ∀ es x, f.read es = .ok x → ∀ k ∈ ks, k ∈ one →
      ks = one ∧ ∃ k ∈ one, (∃ v, Given es k v) ∧ ∀ k' ∈ one, k' ≠ k → NotGiven es k') : ItemKeyed one (.flat f) where
  once g ks' e hk' := by
    obtain rfl := Item.flat.inj e; obtain rfl := Option.some.inj (hk.symm.trans hk'); exact h1
  omits g ks' e hk' := by
    obtain rfl := Item.flat.inj e; obtain rfl := Option.some.inj (hk.symm.trans hk'); exact h2
  one g ks' e hk' := by
    obtain rfl := Item.flat.inj e; obtain rfl := Option.some.inj (hk.symm.trans hk'); exact h3
  extend g e hk' := by
    obtain rfl := Item.flat.inj e; rw [hk] at hk'; cases hk'

theorem dockerfile_ok {es : List (Str × Content)} {x : Option Dockerfile} (h : Dockerfile.optionEntries es = some x) :
    ∃ a b, flatOption deString "dockerfile".toList es = some a ∧ flatOption deString "dockerfile_inline".toList es = some b ∧
      (a = none ∨ b = none) := by
  unfold Dockerfile.optionEntries at h
  split at h <;> simp_all

theorem dockerfile_of {es : List (Str × Content)} {a b : Option Str}
    (ha : flatOption deString "dockerfile".toList es = some a) (hb : flatOption deString "dockerfile_inline".toList es = some b)
    (h : a = none ∨ b = none) : ∃ y, Dockerfile.optionEntries es = some y := by
  unfold Dockerfile.optionEntries
  rw [ha, hb]
  rcases a with - | a <;> rcases b with - | b <;> simp_all

instance : ItemKeyed [] dockerfile := keyed_of rfl
  (fun es x h k hk => by
    obtain ⟨a, b, ha, hb, -⟩ := dockerfile_ok (Outcome.ofOption_eq_ok.1 h)
    simp only [List.mem_cons, List.not_mem_nil, or_false] at hk
    rcases hk with rfl | rfl
    · exact flatOption_length ha
    · exact flatOption_length hb)
  (fun es x h k hk _ => by
    obtain ⟨a, b, ha, hb, hab⟩ := dockerfile_ok (Outcome.ofOption_eq_ok.1 h)
    obtain ⟨y, hy⟩ := dockerfile_of (flatOption_filter (k' := k) ha) (flatOption_filter (k' := k) hb)
      (hab.imp ite_none ite_none)
    exact ⟨y, Outcome.ofOption_eq_ok.2 hy⟩)
  (fun _ _ _ _ _ h => by cases h)

theorem networkConfig_ok {N : Type} {de : Content → Option N} {es : List (Str × Content)} {x : Option (NetworkConfigOf N)}
    (h : NetworkConfigOf.optionEntries de es = some x) :
    ∃ a b, flatOption NetworkMode.de "network_mode".toList es = some a ∧ flatOption de "networks".toList es = some b ∧
      (a = none ∨ b = none) := by
  unfold NetworkConfigOf.optionEntries at h
  split at h <;> simp_all

theorem networkConfig_of {N : Type} {de : Content → Option N} {es : List (Str × Content)} {a : Option NetworkMode} {b : Option N}
    (ha : flatOption NetworkMode.de "network_mode".toList es = some a) (hb : flatOption de "networks".toList es = some b)
    (h : a = none ∨ b = none) : ∃ y, NetworkConfigOf.optionEntries de es = some y := by
  unfold NetworkConfigOf.optionEntries
  rw [ha, hb]
  rcases a with - | a <;> rcases b with - | b <;> simp_all

instance {E : Env} : ItemKeyed [] (Structs.networkConfig E) := keyed_of rfl
  (fun es x h k hk => by
    obtain ⟨a, b, ha, hb, -⟩ := networkConfig_ok (Outcome.ofOption_eq_ok.1 h)
    simp only [List.mem_cons, List.not_mem_nil, or_false] at hk
    rcases hk with rfl | rfl
    · exact flatOption_length ha
    · exact flatOption_length hb)
  (fun es x h k hk _ => by
    obtain ⟨a, b, ha, hb, hab⟩ := networkConfig_ok (Outcome.ofOption_eq_ok.1 h)
    obtain ⟨y, hy⟩ := networkConfig_of (flatOption_filter (k' := k) ha) (flatOption_filter (k' := k) hb)
      (hab.imp ite_none ite_none)
    exact ⟨y, Outcome.ofOption_eq_ok.2 hy⟩)
  (fun _ _ _ _ _ h => by cases h)

theorem configSource_ok {es : List (Str × Content)} {x : ConfigSource} (h : ConfigSource.deEntries es = some x) :
    ∃ a b c, flatOption deString "file".toList es = some a ∧ flatOption deString "environment".toList es = some b ∧
      flatOption deString "content".toList es = some c ∧
      ((a.isSome ∧ b = none ∧ c = none) ∨ (a = none ∧ b.isSome ∧ c = none) ∨ (a = none ∧ b = none ∧ c.isSome)) := by
  unfold ConfigSource.deEntries at h
  split at h <;> simp_all

theorem flatOption_isSome {α : Type} {de : Content → Option α} {k : Str} {es : List (Str × Content)} {o : Option α}
    (h : flatOption de k es = some o) (ho : o.isSome) : ∃ v, Given es k v := by
  obtain ⟨x, rfl⟩ := Option.isSome_iff_exists.1 ho
  obtain ⟨v, hv, -⟩ := flatOption_some.1 h
  exact ⟨v, hv⟩

instance : ItemKeyed ["file".toList, "environment".toList, "content".toList] configSource := keyed_of rfl
  (fun es x h k hk => by
    obtain ⟨a, b, c, ha, hb, hc, -⟩ := configSource_ok (Outcome.ofOption_eq_ok.1 h)
    simp only [List.mem_cons, List.not_mem_nil, or_false] at hk
    rcases hk with rfl | rfl | rfl
    · exact flatOption_length ha
    · exact flatOption_length hb
    · exact flatOption_length hc)
  (fun _ _ _ _ h h' => absurd h h')
  (fun es x h k hk _ => by
    obtain ⟨a, b, c, ha, hb, hc, h⟩ := configSource_ok (Outcome.ofOption_eq_ok.1 h)
    refine ⟨rfl, ?_⟩
    rcases h with ⟨h1, rfl, rfl⟩ | ⟨rfl, h1, rfl⟩ | ⟨rfl, rfl, h1⟩
    · refine ⟨"file".toList, by decide, flatOption_isSome ha h1, ?_⟩
      simp only [List.mem_cons, List.not_mem_nil, or_false]
      rintro k' (rfl | rfl | rfl) hk'
      · exact absurd rfl hk'
      · exact flatOption_none.1 hb
      · exact flatOption_none.1 hc
    · refine ⟨"environment".toList, by decide, flatOption_isSome hb h1, ?_⟩
      simp only [List.mem_cons, List.not_mem_nil, or_false]
      rintro k' (rfl | rfl | rfl) hk'
      · exact flatOption_none.1 ha
      · exact absurd rfl hk'
      · exact flatOption_none.1 hc
    · refine ⟨"content".toList, by decide, flatOption_isSome hc h1, ?_⟩
      simp only [List.mem_cons, List.not_mem_nil, or_false]
      rintro k' (rfl | rfl | rfl) hk'
      · exact flatOption_none.1 ha
      · exact flatOption_none.1 hb
      · exact absurd rfl hk')

theorem secretSource_ok {es : List (Str × Content)} {x : SecretSource} (h : SecretSource.deEntries es = some x) :
    ∃ a b, flatOption deString "file".toList es = some a ∧ flatOption deString "environment".toList es = some b ∧
      ((a.isSome ∧ b = none) ∨ (a = none ∧ b.isSome)) := by
  unfold SecretSource.deEntries at h
  split at h <;> simp_all

instance : ItemKeyed ["file".toList, "environment".toList] secretSource := keyed_of rfl
  (fun es x h k hk => by
    obtain ⟨a, b, ha, hb, -⟩ := secretSource_ok (Outcome.ofOption_eq_ok.1 h)
    simp only [List.mem_cons, List.not_mem_nil, or_false] at hk
    rcases hk with rfl | rfl
    · exact flatOption_length ha
    · exact flatOption_length hb)
  (fun _ _ _ _ h h' => absurd h h')
  (fun es x h k hk _ => by
    obtain ⟨a, b, ha, hb, h⟩ := secretSource_ok (Outcome.ofOption_eq_ok.1 h)
    refine ⟨rfl, ?_⟩
    rcases h with ⟨h1, rfl⟩ | ⟨rfl, h1⟩
    · refine ⟨"file".toList, by decide, flatOption_isSome ha h1, ?_⟩
      simp only [List.mem_cons, List.not_mem_nil, or_false]
      rintro k' (rfl | rfl) hk'
      · exact absurd rfl hk'
      · exact flatOption_none.1 hb
    · refine ⟨"environment".toList, by decide, flatOption_isSome hb h1, ?_⟩
      simp only [List.mem_cons, List.not_mem_nil, or_false]
      rintro k' (rfl | rfl) hk'
      · exact flatOption_none.1 ha
      · exact absurd rfl hk')

theorem rest_keyed {one : List Str} {f : Flat} (hk : f.keys = none)
    (h : ∀ es x, f.read es = .ok x → ∀ k v, ExtensionKey k → k ∉ es.map (·.1) → ∃ y, f.read (es ++ [(k, v)]) = .ok y) :
    ItemKeyed one (.flat f) where
  once g ks' e hk' := by obtain rfl := Item.flat.inj e; rw [hk] at hk'; cases hk'
  omits g ks' e hk' := by obtain rfl := Item.flat.inj e; rw [hk] at hk'; cases hk'
  one g ks' e hk' := by obtain rfl := Item.flat.inj e; rw [hk] at hk'; cases hk'
  extend g e _ := by obtain rfl := Item.flat.inj e; exact h

theorem extensions_ok {es x : List (Str × Content)}
    (h : (readEntries extensionKey.parse .ok es).map IndexMap.collect = .ok x) : ∀ e ∈ es, ExtensionKey e.1 := by
  obtain ⟨m, h1, -⟩ := Outcome.map_eq_ok.1 h
  exact (readExtensions_ok.1 h1).2

theorem extensions_of {es : List (Str × Content)} (h : ∀ e ∈ es, ExtensionKey e.1) :
    (readEntries extensionKey.parse .ok es).map IndexMap.collect = .ok (IndexMap.collect es) := by
  rw [readExtensions_ok.2 ⟨rfl, h⟩]; rfl

instance {one : List Str} : ItemKeyed one extensions := rest_keyed rfl fun es x h k v hk _ => by
  have h1 := extensions_ok h
  exact ⟨_, extensions_of fun e he => by
    rcases List.mem_append.1 he with he | he
    · exact h1 e he
    · rw [List.mem_singleton.1 he]; exact hk⟩

theorem standsFor_extend {own : List Str} {one : List Str} {is : List Item} (hi : ∀ i ∈ is, ItemKeyed one i)
    (hs : ∀ k ∈ ownKeys is, k ∈ own) {es : List (Str × Content)} {r : Record is} (hr : StandsFor own es is r) {k : Str}
    {v : Content} (hk : ExtensionKey k) (hn : k ∉ es.map (·.1)) (ho : k ∉ own) :
    ∃ r', StandsFor own (es ++ [(k, v)]) is r' := by
  induction is with
  | nil => exact ⟨(), trivial⟩
  | cons i is ih =>
    obtain ⟨x, r⟩ := r
    cases i with
    | field f =>
      obtain ⟨r', hr'⟩ := ih (fun j hj => hi j (by simp [hj])) (fun k hk => hs k (by simp [ownKeys, hk])) hr.2
      have hf : ¬ k = f.key := fun h => ho (h ▸ hs f.key (by simp [ownKeys]))
      refine ⟨(x, r'), ?_, hr'⟩
      have hg : given (es ++ [(k, v)]) f.key = given es f.key := by simp [given_append, given, hf]
      rw [hg]; exact hr.1
    | flat f =>
      obtain ⟨r', hr'⟩ := ih (fun j hj => hi j (by simp [hj])) (fun k hk => hs k (by simp [ownKeys, hk])) hr.2
      cases hf : f.keys with
      | some ks =>
        refine ⟨(x, r'), ?_, hr'⟩
        have h1 : k ∉ ks := fun h => ho (hs k (by simp [ownKeys, hf, h]))
        rw [entriesFor_append, entriesFor_nil (es := [(k, v)]), List.append_nil]
        · exact hr.1
        · intro e he
          rw [List.mem_singleton.1 he]
          simpa [Owned, hf] using h1
      | none =>
        have h2 := hr.1
        have h3 : entriesFor own f (es ++ [(k, v)]) = entriesFor own f es ++ [(k, v)] := by
          rw [entriesFor_append]; congr 1; simp [entriesFor, hf, ho]
        obtain ⟨y, hy⟩ := (hi (.flat f) (by simp)).extend f rfl hf _ _ h2 k v hk fun hm => by
          obtain ⟨e, he, rfl⟩ := List.mem_map.1 hm
          simp only [entriesFor, hf] at he
          exact hn (List.mem_map_of_mem (List.mem_filter.1 he).1)
        exact ⟨(y, r'), by rw [h3]; exact hy, hr'⟩

instance : ItemsKeyed [] Structs.common := by unfold Structs.common; infer_instance

instance {one : List Str} : ItemKeyed one (nested Structs.common) := rest_keyed rfl fun es x h k v hk hn => by
  have hg := table_good (is := Structs.common)
  obtain ⟨y, hy⟩ := standsFor_extend (one := []) ItemsKeyed.all (fun _ h => h) ((decode_ok hg _ _).1 h) (v := v) hk hn (by
    intro hm
    rw [Keys.eq (is := Structs.common)] at hm
    exact DistinctKeys.no _ hm ⟨hk.1.choose, hk.1.choose_spec.symm⟩)
  exact ⟨y, (decode_ok hg _ _).2 hy⟩

theorem standsFor_omit {own : List Str} {one : List Str} {is : List Item} (hi : ∀ i ∈ is, ItemKeyed one i)
    (hs : ∀ k ∈ ownKeys is, k ∈ own) {es : List (Str × Content)} {r : Record is} (hr : StandsFor own es is r) {k : Str}
    (hk : ∀ f, .field f ∈ is → f.key = k → f.default ≠ none) (ho : k ∉ one) (hm : k ∈ own) :
    ∃ r', StandsFor own (es.filter fun e => e.1 ≠ k) is r' := by
  induction is with
  | nil => exact ⟨(), trivial⟩
  | cons i is ih =>
    obtain ⟨x, r⟩ := r
    cases i with
    | field f =>
      obtain ⟨r', hr'⟩ := ih (fun j hj => hi j (by simp [hj])) (fun k hk => hs k (by simp [ownKeys, hk])) hr.2
        (fun g hg => hk g (by simp [hg]))
      by_cases h : f.key = k
      · obtain ⟨y, hy⟩ := Option.ne_none_iff_exists'.1 (hk f (by simp) h)
        exact ⟨(y, r'), .inr ⟨by rw [h]; exact given_filter_not, hy⟩, hr'⟩
      · refine ⟨(x, r'), ?_, hr'⟩
        rw [given_filter (p := fun y => y ≠ k) h]; exact hr.1
    | flat f =>
      obtain ⟨r', hr'⟩ := ih (fun j hj => hi j (by simp [hj])) (fun k hk => hs k (by simp [ownKeys, hk])) hr.2
        (fun g hg => hk g (by simp [hg]))
      have h2 := hr.1
      cases hf : f.keys with
      | some ks =>
        have h3 : entriesFor own f (es.filter fun e => e.1 ≠ k) = (entriesFor own f es).filter fun e => e.1 ≠ k := by
          simp only [entriesFor, hf, List.filter_filter]
          refine List.filter_congr fun e _ => ?_
          rw [Bool.and_comm]
        by_cases h : k ∈ ks
        · obtain ⟨y, hy⟩ := (hi (.flat f) (by simp)).omits f ks rfl hf _ _ h2 k h ho
          exact ⟨(y, r'), by rw [h3]; exact hy, hr'⟩
        · refine ⟨(x, r'), ?_, hr'⟩
          rw [h3, List.filter_eq_self.2]
          · exact h2
          · intro e he
            simp only [entriesFor, hf, List.mem_filter] at he
            simp only [decide_eq_true_eq]
            rintro rfl
            exact h (by simpa using he.2)
      | none =>
        refine ⟨(x, r'), ?_, hr'⟩
        have h3 : entriesFor own f (es.filter fun e => e.1 ≠ k) = entriesFor own f es := by
          simp only [entriesFor, hf, List.filter_filter]
          refine List.filter_congr fun e _ => ?_
          by_cases he : e.1 = k
          · simp [he, hm]
          · simp [he]
        rw [h3]; exact h2

theorem standsFor_once {own : List Str} {one : List Str} {is : List Item} (hi : ∀ i ∈ is, ItemKeyed one i)
    {es : List (Str × Content)} {r : Record is} (hr : StandsFor own es is r) :
    ∀ k ∈ ownKeys is, (given es k).length ≤ 1 := by
  induction is with
  | nil => simp [ownKeys]
  | cons i is ih =>
    obtain ⟨x, r⟩ := r
    intro k hk
    cases i with
    | field f =>
      rcases List.mem_cons.1 hk with rfl | hk
      · rcases hr.1 with ⟨v, h, -⟩ | ⟨h, -⟩ <;> simp [h]
      · exact ih (fun j hj => hi j (by simp [hj])) hr.2 k hk
    | flat f =>
      rcases List.mem_append.1 hk with hk | hk
      · cases hf : f.keys with
        | none => simp [hf] at hk
        | some ks =>
          have h1 := (hi (.flat f) (by simp)).once f ks rfl hf _ _ hr.1 k (by simpa [hf] using hk)
          have hk : k ∈ ks := by simpa [hf] using hk
          simp only [entriesFor, hf] at h1
          rwa [given_filter (p := fun x => x ∈ ks) hk] at h1
      · exact ih (fun j hj => hi j (by simp [hj])) hr.2 k hk

theorem standsFor_exact {own : List Str} {one : List Str} {is : List Item} (hi : ∀ i ∈ is, ItemKeyed one i)
    {es : List (Str × Content)} {r : Record is} (hr : StandsFor own es is r) {f : Flat} (hf : .flat f ∈ is)
    (hk : f.keys = some one) (hone : one ≠ []) :
    ∃ k ∈ one, (∃ v, Given es k v) ∧ ∀ k' ∈ one, k' ≠ k → NotGiven es k' := by
  induction is with
  | nil => simp at hf
  | cons i is ih =>
    obtain ⟨x, r⟩ := r
    have hs : ∀ j ∈ is, ItemKeyed one j := fun j hj => hi j (by simp [hj])
    cases i with
    | field g => exact ih hs hr.2 (by simpa using hf)
    | flat g =>
      rcases List.mem_cons.1 hf with h | h
      · obtain rfl := Item.flat.inj h
        obtain ⟨k, hk1⟩ := List.exists_mem_of_ne_nil _ hone
        obtain ⟨-, k, hk2, ⟨v, hv⟩, h2⟩ := (hi (.flat f) (by simp)).one f one rfl hk _ _ hr.1 k hk1 hk1
        simp only [entriesFor, hk] at hv h2
        refine ⟨k, hk2, ⟨v, ?_⟩, fun k' hk' hne => ?_⟩
        · exact ⟨(given_filter (p := fun x => x ∈ one) hk2).symm.trans hv.1, hv.2⟩
        · have h3 := h2 k' hk' hne
          have h4 := given_filter (es := es) (p := fun x => x ∈ one) hk'
          exact h3.imp (fun h => h4.symm.trans h) fun h => h4.symm.trans h
      · exact ih hs hr.2 h

theorem standsFor_flat {own : List Str} {is : List Item} {es : List (Str × Content)} {r : Record is}
    (hr : StandsFor own es is r) {f : Flat} (hf : .flat f ∈ is) : ∃ x, f.read (entriesFor own f es) = .ok x := by
  induction is with
  | nil => simp at hf
  | cons i is ih =>
    obtain ⟨x, r⟩ := r
    cases i with
    | field g => exact ih hr.2 (by simpa using hf)
    | flat g =>
      rcases List.mem_cons.1 hf with h | h
      · obtain rfl := Item.flat.inj h
        exact ⟨x, hr.1⟩
      · exact ih hr.2 h

end Proofs
