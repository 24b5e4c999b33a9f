import Verif.Spec.Longhand
import Verif.Proofs.StructTables
import Verif.Proofs.MeaningStructs

/- Rewriting a document at some places changes what is read at these places only. -/

namespace Proofs
open Rust Compose Compose.Derive Compose.Codecs Spec Spec.Longhand
open Props hiding mapping entriesOf_mapping

/-- If a document is read, the rewritten one is read as the changed value. -/
def Turns {α : Type} (c : Codec α) (g : Content → Content) (h : α → α) : Prop :=
  ∀ v x, c.de v = .ok x → c.de (g v) = .ok (h x)

theorem Turns.comp {α : Type} {c : Codec α} {g g' : Content → Content} {h h' : α → α} (t' : Turns c g' h') (t : Turns c g h) :
    Turns c (fun v => g' (g v)) (fun x => h' (h x)) := fun v x hx => t' _ _ (t v x hx)

/-! ### Collections -/

section
variable {α β : Type} {c : Codec α} {g : Content → Content} {h : α → α}

theorem turns_readAll (t : Turns c g h) : ∀ (vs : List Content) (l : List α), readAll c.de vs = .ok l →
    readAll c.de (vs.map g) = .ok (l.map h)
  | [], l, hl => by
    obtain rfl : [] = l := by simpa [readAll] using hl
    rfl
  | v :: vs, l, hl => by
    simp only [readAll, Outcome.bind_eq_ok, Outcome.map_eq_ok] at hl
    obtain ⟨x, h1, xs, h2, rfl⟩ := hl
    simp [readAll, t v x h1, turns_readAll t vs xs h2]

theorem turns_list (t : Turns c g h) : Turns (Codecs.list c) (eachItem g) (List.map h) := by
  intro v l hl
  cases v <;> simp only [Codecs.list, reduceCtorEq] at hl
  exact turns_readAll t _ _ hl

theorem turns_option (t : Turns c g h) (hn : ∀ x, c.de .unit ≠ .ok x) (hg : g .unit = .unit) :
    Turns (option c) g (Option.map h) := by
  have key : ∀ v x, c.de v = .ok x → (option c).de (g v) = .ok (some (h x)) := by
    intro v x hx
    have h1 := t v x hx
    cases hv : g v <;> rw [hv] at h1 <;> simp [option, h1]
    exact hn _ h1
  intro v o ho
  cases v <;> simp only [option, Outcome.map_eq_ok, Outcome.ok.injEq] at ho
  · subst ho; rw [hg]; rfl
  all_goals (obtain ⟨x, h1, rfl⟩ := ho; exact key _ _ h1)

theorem entriesOf_eachValue {v : Content} : entriesOf (eachValue g v) = (entriesOf v).map (List.map fun e => (e.1, g e.2)) := by
  cases v <;> simp only [eachValue, entriesOf, Option.map_none]
  rename_i es
  induction es with
  | nil => rfl
  | cons e es ih =>
    obtain ⟨k, v⟩ := e
    cases k <;> simp only [List.map_cons, stringKeys, Option.map_none]
    rw [ih]
    cases stringKeys es <;> rfl

theorem insert_mapped {K V : Type} [DecidableEq K] (f : V → V) (m : IndexMap K V) (k : K) (v : V) :
    IndexMap.insert (m.map fun e => (e.1, f e.2)) k (f v) = (IndexMap.insert m k v).map fun e => (e.1, f e.2) := by
  induction m with
  | nil => rfl
  | cons e m ih =>
    obtain ⟨k', v'⟩ := e
    simp only [List.map_cons, IndexMap.insert]
    split
    · rfl
    · rw [ih]; rfl

theorem collect_mapped {K V : Type} [DecidableEq K] (f : V → V) (es : List (K × V)) :
    IndexMap.collect (es.map fun e => (e.1, f e.2)) = (IndexMap.collect es).map fun e => (e.1, f e.2) := by
  unfold IndexMap.collect
  have : ∀ m : IndexMap K V, (es.map fun e => (e.1, f e.2)).foldl (fun m e => IndexMap.insert m e.1 e.2) (m.map fun e => (e.1, f e.2)) =
      (es.foldl (fun m e => IndexMap.insert m e.1 e.2) m).map fun e => (e.1, f e.2) := by
    induction es with
    | nil => intro m; rfl
    | cons e es ih => intro m; rw [List.map_cons, List.foldl_cons, List.foldl_cons, insert_mapped, ih]
  exact this []

theorem turns_map {key : Key} (t : Turns c g h) : Turns (map key c) (eachValue g) (List.map fun e => (e.1, h e.2)) := by
  have hr : ∀ es l, readEntries key.parse c.de es = .ok l →
      readEntries key.parse c.de (es.map fun e => (e.1, g e.2)) = .ok (l.map fun e => (e.1, h e.2)) := by
    intro es
    induction es with
    | nil => intro l hl; obtain rfl : [] = l := by simpa [readEntries] using hl
             rfl
    | cons e es ih =>
      intro l hl
      obtain ⟨k, v⟩ := e
      simp only [readEntries, Outcome.bind_eq_ok, Outcome.map_eq_ok] at hl
      obtain ⟨k', h1, x, h2, xs, h3, rfl⟩ := hl
      simp [readEntries, h1, t v x h2, ih xs h3]
  intro v m hm
  simp only [map, Outcome.map_eq_ok, Outcome.bind_eq_ok, Outcome.ofOption_eq_ok, entriesOf_eachValue] at hm ⊢
  obtain ⟨l, ⟨es, h1, h2⟩, rfl⟩ := hm
  exact ⟨_, ⟨_, by rw [h1]; rfl, hr _ _ h2⟩, collect_mapped ..⟩

theorem turns_shortOrLong {S L : Type} {s : Codec S} {l : Codec L} {g : Content → Content} {f : S → L}
    (hm : ∀ v, ∃ es, g v = .map es) (hn : ∀ x, s.de .unit ≠ .ok x) (ht : ∀ v x, s.de v = .ok x → l.de (g v) = .ok (f x)) :
    Turns (shortOrLong s l) (unlessMapping g) (long f) := by
  have key : ∀ v x, s.de v = .ok x → (shortOrLong s l).de (g v) = .ok (.long (f x)) := by
    intro v x hx
    have h1 := ht v x hx
    obtain ⟨es, he⟩ := hm v
    rw [he] at h1 ⊢
    simp [shortOrLong, h1]
  intro v x hx
  cases v <;> simp only [shortOrLong, Outcome.map_eq_ok] at hx <;> obtain ⟨y, h1, rfl⟩ := hx
  case map es => simp [unlessMapping, shortOrLong, h1, long, ShortOrLong.intoLong]
  case unit => exact absurd h1 (hn _)
  all_goals exact key _ _ h1

end

/-! ### Structs -/

/-- Change the value of a key. -/
def setAt (k : Str) (g : Content → Content) (es : List (Str × Content)) : List (Str × Content) :=
  es.map fun e => (e.1, if e.1 = k then g e.2 else e.2)

theorem entriesOf_atKey {k : String} {g : Content → Content} {v : Content} :
    entriesOf (atKey k g v) = (entriesOf v).map (setAt k.toList g) := by
  cases v <;> simp only [atKey, entriesOf, Option.map_none]
  rename_i es
  induction es with
  | nil => rfl
  | cons e es ih =>
    obtain ⟨k, v⟩ := e
    cases k <;> simp only [List.map_cons, stringKeys, Option.map_none]
    rw [ih]
    cases stringKeys es <;> rfl

theorem given_setAt {k : Str} {g : Content → Content} {es : List (Str × Content)} : given (setAt k g es) k = (given es k).map g := by
  induction es with
  | nil => rfl
  | cons e es ih =>
    obtain ⟨k', v⟩ := e
    unfold setAt at ih ⊢
    rw [List.map_cons, given_cons, given_cons, ih]
    by_cases h : k' = k <;> simp [h]

theorem given_setAt_ne {k k' : Str} {g : Content → Content} {es : List (Str × Content)} (h : k' ≠ k) :
    given (setAt k g es) k' = given es k' := by
  induction es with
  | nil => rfl
  | cons e es ih =>
    obtain ⟨k₀, v⟩ := e
    unfold setAt at ih ⊢
    rw [List.map_cons, given_cons, given_cons, ih]
    by_cases h0 : k₀ = k'
    · have : ¬ k₀ = k := fun e => h (h0.symm.trans e)
      simp [this]
    · simp [h0]

theorem filter_setAt {k : Str} {g : Content → Content} {es : List (Str × Content)} (p : Str → Bool) :
    (setAt k g es).filter (fun e => p e.1) = setAt k g (es.filter fun e => p e.1) := by
  unfold setAt
  rw [List.filter_map]
  rfl

theorem setAt_absent {k : Str} {g : Content → Content} {es : List (Str × Content)} (h : ∀ e ∈ es, e.1 ≠ k) : setAt k g es = es := by
  unfold setAt
  conv_rhs => rw [← List.map_id es]
  apply List.map_congr_left
  intro e he
  simp [h e he]

theorem entriesFor_setAt {own : List Str} {f : Flat} {k : Str} {g : Content → Content} {es : List (Str × Content)} :
    entriesFor own f (setAt k g es) = setAt k g (entriesFor own f es) := by
  unfold entriesFor
  cases f.keys with
  | none => exact filter_setAt fun s => s ∉ own
  | some ks => exact filter_setAt fun s => s ∈ ks

theorem standsFor_other {own : List Str} {k : Str} (hk : k ∈ own) {g : Content → Content} {es : List (Str × Content)}
    {is : List Item} (hn : k ∉ ownKeys is) (r : Record is) (h : StandsFor own es is r) : StandsFor own (setAt k g es) is r := by
  induction is with
  | nil => trivial
  | cons i is ih =>
    obtain ⟨x, r⟩ := r
    cases i with
    | field f =>
      simp only [ownKeys, List.mem_cons, not_or] at hn
      obtain ⟨h1, h2⟩ := h
      refine ⟨?_, ih hn.2 r h2⟩
      rw [given_setAt_ne fun e => hn.1 e.symm]
      exact h1
    | flat f =>
      simp only [ownKeys, List.mem_append, not_or] at hn
      obtain ⟨h1, h2⟩ := h
      refine ⟨?_, ih hn.2 r h2⟩
      rw [entriesFor_setAt, setAt_absent]
      · exact h1
      · intro e he
        unfold entriesFor at he
        cases hks : f.keys with
        | none =>
          rw [hks] at he
          have := (List.mem_filter.1 he).2
          rintro rfl
          simp [hk] at this
        | some ks =>
          rw [hks] at he
          have := (List.mem_filter.1 he).2
          rintro rfl
          simp at this
          exact hn.1 (by simpa [hks] using this)

/-- What happens at a place if the value of a key is rewritten. -/
def TurnsAt (k : Str) (g : Content → Content) : (i : Item) → (i.Ty → i.Ty) → Prop
  | .field f, h => f.key = k ∧ Turns f.codec g h ∧ ∀ x, f.default = some x → h x = x
  | .flat f, h => ∃ ks, f.keys = some ks ∧ k ∈ ks ∧ ∀ es x, f.read es = .ok x → f.read (setAt k g es) = .ok (h x)

theorem standsFor_place {own : List Str} {k : Str} (hk : k ∈ own) {g : Content → Content} {es : List (Str × Content)} {i : Item}
    {h : i.Ty → i.Ty} (ht : TurnsAt k g i h) {is : List Item} (p : Place i is) (hn : (ownKeys is).Nodup) (r : Record is)
    (hr : StandsFor own es is r) : StandsFor own (setAt k g es) is (p.change h r) := by
  have mem : ∀ {is : List Item}, Place i is → k ∈ ownKeys is := by
    intro is p
    induction p with
    | here =>
      cases i with
      | field f => obtain ⟨rfl, -⟩ := ht; simp [ownKeys]
      | flat f => obtain ⟨ks, h1, h2, -⟩ := ht; simp [ownKeys, h1, h2]
    | @there j is p ih => cases j <;> simp [ownKeys, ih]
  induction p with
  | here =>
    obtain ⟨x, r⟩ := r
    cases i with
    | field f =>
      obtain ⟨rfl, h1, h2⟩ := ht
      simp only [ownKeys, List.nodup_cons] at hn
      obtain ⟨h3, h4⟩ := hr
      refine ⟨?_, standsFor_other hk hn.1 r h4⟩
      rw [given_setAt]
      rcases h3 with ⟨v, h5, h6⟩ | ⟨h5, h6⟩
      · exact .inl ⟨g v, by rw [h5]; rfl, h1 v x h6⟩
      · refine .inr ⟨by rw [h5]; rfl, ?_⟩
        rw [h2 x h6]
        exact h6
    | flat f =>
      obtain ⟨ks, h1, h2, h3⟩ := ht
      simp only [ownKeys, List.nodup_append, h1, Option.getD_some] at hn
      obtain ⟨h4, h5⟩ := hr
      refine ⟨?_, standsFor_other hk (fun hm => hn.2.2 k h2 k hm rfl) r h5⟩
      rw [entriesFor_setAt]
      exact h3 _ _ h4
  | @there j is p ih =>
    obtain ⟨x, r⟩ := r
    have hm := mem p
    cases j with
    | field f =>
      simp only [ownKeys, List.nodup_cons] at hn
      obtain ⟨h3, h4⟩ := hr
      refine ⟨?_, ih hn.2 r h4⟩
      have : f.key ≠ k := by rintro rfl; exact hn.1 hm
      rw [given_setAt_ne this]
      exact h3
    | flat f =>
      simp only [ownKeys, List.nodup_append] at hn
      obtain ⟨h3, h4⟩ := hr
      refine ⟨?_, ih hn.2.1 r h4⟩
      have := standsFor_other (g := g) (es := es) (is := [.flat f]) hk
        (by simp only [ownKeys, List.append_nil]; exact fun h => hn.2.2 k h k hm rfl) (x, ()) ⟨h3, trivial⟩
      exact this.1

theorem turns_struct {is : List Item} {own : List Str} [hk : Keys is own] [DistinctKeys own] {k : String} {g : Content → Content}
    {i : Item} {h : i.Ty → i.Ty} (hf : noFlat is = false) (p : Place i is) (ht : TurnsAt k.toList g i h) (hm : k.toList ∈ own) :
    Turns (struct is) (atKey k g) (p.change h) := by
  intro v r hr
  rw [struct_de_flat table_good hf] at hr ⊢
  obtain ⟨es, h1, h2⟩ := hr
  have h1 : entriesOf v = some es := entriesOf_iff.2 h1
  refine ⟨setAt k.toList g es, ?_, standsFor_place (hk.eq ▸ hm) ht p table_good.distinct r h2⟩
  exact entriesOf_iff.1 (by rw [entriesOf_atKey, h1]; rfl)

/-! ### Settings -/

/-- Reading a mapping with a few given keys. -/
theorem struct_mappingOf {is : List Item} {own : List Str} [hk : Keys is own] [DistinctKeys own] {es : List (String × Content)}
    {r : Record is} (h : StandsFor own (es.map fun e => (e.1.toList, e.2)) is r) : (struct is).de (mappingOf es) = .ok r := by
  have : mappingOf es = Derive.mapping (es.map fun e => (e.1.toList, e.2)) := by
    unfold mappingOf Derive.mapping
    rw [List.map_map]
    rfl
  rw [this, struct_de_mapping, decode_ok table_good, hk.eq]
  exact h

/-- A field whose key is not given. -/
local macro "left_out" : term => `(Or.inr ⟨by simp [given], rfl⟩)

/-- No entries are left. -/
local macro "nothing_else" : term => `(by simp [extensions, entriesFor, Item.Ty, readEntries, IndexMap.collect, configOrSecretKeys, ulimitKeys, buildKeys])

theorem configOrSecret_long {v : Content} {x : Str} (h : identifier.de v = .ok x) :
    (struct Structs.configOrSecret).de (Longhand.configOrSecret v) = .ok (Structs.configOrSecretOfName x) :=
  struct_mappingOf ⟨.inl ⟨v, by simp [given], h⟩, left_out, left_out, left_out, left_out, nothing_else, trivial⟩

theorem ulimit_long {v : Content} {x : Limit Nat} (h : (limit u64Max).de v = .ok x) :
    (struct Structs.ulimit).de (Longhand.ulimit v) = .ok (Structs.ulimitOfLimit x) :=
  struct_mappingOf ⟨.inl ⟨v, by simp [given], h⟩, .inl ⟨v, by simp [given], h⟩, nothing_else, trivial⟩

theorem envFile_long {v : Content} {x : Str} (h : str.de v = .ok x) :
    (struct Structs.envFileConfig).de (Longhand.envFile v) = .ok (Structs.envFileConfigOfPath x) :=
  struct_mappingOf ⟨.inl ⟨v, by simp [given], h⟩, left_out, trivial⟩

theorem str_iff {v : Content} {x : Str} : str.de v = .ok x ↔ v = .str x := by
  cases v <;> simp [str, text]

theorem include_long {v : Content} {x : Str} (h : str.de v = .ok x) :
    (struct Structs.include).de (Longhand.included v) = .ok (Structs.includeOfPath x) := by
  rw [str_iff] at h
  subst h
  exact struct_mappingOf ⟨.inl ⟨.str x, by simp [given], rfl⟩, left_out, left_out, trivial⟩

theorem build_long {E : Env} {v : Content} {x : Context} (h : (context E).de v = .ok x) :
    (struct (Structs.build E)).de (Longhand.build v) = .ok (Structs.buildOfContext E x) := by
  obtain ⟨s, rfl⟩ : ∃ s, v = .str s := by cases v <;> simp [context, text] at h ⊢
  refine struct_mappingOf ⟨.inl ⟨.str s, by simp [given], by simp [option, h]⟩,
    by simp [entriesFor]; rfl, left_out, left_out, left_out, left_out, left_out,
    left_out, left_out, left_out, left_out, left_out, left_out, left_out,
    left_out, left_out, left_out, left_out, left_out, left_out, left_out, nothing_else, trivial⟩

theorem identifier_iff {v : Content} {x : Str} : identifier.de v = .ok x ↔ v = .str x ∧ Identifier x := by
  cases v <;> simp [identifier, text]
  rename_i s
  rw [toOption_iff, C01_identifier_accepts]
  constructor
  · rintro ⟨h, rfl⟩; exact ⟨rfl, h⟩
  · rintro ⟨rfl, h⟩; exact ⟨h, rfl⟩

theorem names_iff {vs : List Content} {l : List Str} :
    readAll identifier.de vs = .ok l ↔ vs = l.map Content.str ∧ ∀ x ∈ l, Identifier x := by
  induction vs generalizing l with
  | nil => cases l <;> simp [readAll]
  | cons v vs ih =>
    simp only [readAll, Outcome.bind_eq_ok, Outcome.map_eq_ok, ih, identifier_iff]
    constructor
    · rintro ⟨x, ⟨rfl, h1⟩, xs, ⟨rfl, h2⟩, rfl⟩; simp [h1]; exact h2
    · rintro ⟨h1, h2⟩
      cases l with
      | nil => simp at h1
      | cons x xs =>
        simp at h1 h2
        exact ⟨x, ⟨h1.1, h2.1⟩, xs, ⟨h1.2, h2.2⟩, rfl⟩

/-- Names that are all read with the same value. -/
theorem map_names {α : Type} {c : Codec α} {d : Content} {x : α} (h : c.de d = .ok x) {l : List Str} (hl : ∀ s ∈ l, Identifier s) :
    (map identifierKey c).de (.map (l.map fun s => (.str s, d))) = .ok (IndexMap.collect (l.map fun s => (s, x))) := by
  have h1 : entriesOf (.map (l.map fun s => (Content.str s, d))) = some (l.map fun s => (s, d)) := by
    have := Proofs.entriesOf_mapping (l.map fun s => (s, d))
    unfold Derive.mapping at this
    rwa [List.map_map] at this
  have h2 : readEntries identifierKey.parse c.de (l.map fun s => (s, d)) = .ok (l.map fun s => (s, x)) := by
    clear h1
    induction l with
    | nil => rfl
    | cons s l ih =>
      obtain ⟨h3, h4⟩ := List.forall_mem_cons.1 hl
      have : identifierKey.parse s = some s := toOption_iff.2 ((C01_identifier_accepts _ _).2 ⟨h3, rfl⟩)
      simp [readEntries, this, h, ih h4]
  simp only [map, h1, Outcome.ofOption_some, Outcome.bind_ok, h2, Outcome.map_ok]

theorem collect_keys {V : Type} (x : V) (l : List Str) :
    IndexMap.collect (l.map fun s => (s, x)) = (IndexSet.collectNew l).map fun s => (s, x) := by
  have one : ∀ (m : List Str) (s : Str),
      IndexMap.insert (m.map fun s => (s, x)) s x = (IndexSet.insertNew m s).map fun s => (s, x) := by
    intro m s
    unfold IndexSet.insertNew
    induction m with
    | nil => rfl
    | cons k m ih =>
      simp only [List.map_cons, IndexMap.insert, List.any_cons]
      by_cases hk : k = s
      · subst hk; simp [RustEq.eq]
      · have : ¬ s = k := fun e => hk e.symm
        rw [if_neg hk, ih]
        simp only [RustEq.eq, this, decide_false, Bool.false_or]
        split <;> rfl
  have all : ∀ (l m : List Str), (l.map fun s => (s, x)).foldl (fun m e => IndexMap.insert m e.1 e.2) (m.map fun s => (s, x)) =
      (l.foldl IndexSet.insertNew m).map fun s => (s, x) := by
    intro l
    induction l with
    | nil => intro m; rfl
    | cons s l ih => intro m; rw [List.map_cons, List.foldl_cons, List.foldl_cons, one, ih]
  exact all l []

theorem collect_names {V : Type} (x : V) (l : List Str) :
    IndexMap.collect ((IndexSet.collectNew l).map fun s => (s, x)) = IndexMap.collect (l.map fun s => (s, x)) := by
  rw [collect_keys x l, IndexMap.collect_ok]
  rw [← collect_keys]
  exact IndexMap.ok_collect _

theorem dependency_long : (struct Structs.dependency).de (mappingOf [("condition", asText "service_started")]) =
    .ok Structs.dependencyDefault :=
  struct_mappingOf ⟨.inl ⟨asText "service_started", by simp [given], rfl⟩, left_out, left_out, trivial⟩

theorem collectNew_cons_ne {α : Type} [RustEq α] (x : α) (l : List α) : IndexSet.collectNew (x :: l) ≠ [] := by
  rw [IndexSet.collectNew, List.foldl_cons]
  have : ∀ (l m : List α), m ≠ [] → l.foldl IndexSet.insertNew m ≠ [] := by
    intro l
    induction l with
    | nil => intro m h; exact h
    | cons y l ih =>
      intro m h
      refine ih _ ?_
      unfold IndexSet.insertNew
      split
      · exact h
      · simp
  exact this l _ (by simp [IndexSet.insertNew])

theorem turns_dependsOn : Turns (shortOrLong (Codecs.set identifier) (map identifierKey (struct Structs.dependency))) longDependsOn
    longDependencies := by
  intro v x hx
  cases v <;> simp only [shortOrLong, Codecs.set, Outcome.map_eq_ok, reduceCtorEq, false_and, exists_false] at hx
  case seq vs =>
    obtain ⟨_, ⟨l, h1, rfl⟩, rfl⟩ := hx
    rw [names_iff] at h1
    obtain ⟨rfl, h2⟩ := h1
    cases l with
    | nil => rfl
    | cons n l =>
      have hne := collectNew_cons_ne n l
      have h3 := map_names dependency_long h2
      rw [← collect_names] at h3
      have h4 : longDependsOn (.seq ((n :: l).map Content.str)) =
          .map ((n :: l).map fun s => (.str s, mappingOf [("condition", asText "service_started")])) := by
        simp [longDependsOn, Longhand.dependsOn]
      rw [h4]
      simp only [shortOrLong, h3, Outcome.map_ok]
      cases hc : IndexSet.collectNew (n :: l) with
      | nil => exact absurd hc hne
      | cons a b => rfl
  case map es =>
    obtain ⟨m, h1, rfl⟩ := hx
    simp [longDependsOn, shortOrLong, h1, longDependencies, ShortOrLong.intoMap]

theorem turns_networks {E : Env} : Turns (Structs.networks E) longNetworks longNetworkMap := by
  intro v x hx
  cases v <;> simp only [Structs.networks, shortOrLong, Codecs.set, Outcome.map_eq_ok, reduceCtorEq, false_and, exists_false] at hx
  case seq vs =>
    obtain ⟨_, ⟨l, h1, rfl⟩, rfl⟩ := hx
    rw [names_iff] at h1
    obtain ⟨rfl, h2⟩ := h1
    have h3 := map_names (c := option (struct (Structs.serviceNetwork E))) (d := .unit) (x := none) rfl h2
    rw [← collect_names] at h3
    have h4 : longNetworks (.seq (l.map Content.str)) = .map (l.map fun s => (.str s, .unit)) := by
      simp [longNetworks, Longhand.networks]
    rw [h4]
    simp only [Structs.networks, shortOrLong, h3, Outcome.map_ok]
    rfl
  case map es =>
    obtain ⟨m, h1, rfl⟩ := hx
    simp [longNetworks, Structs.networks, shortOrLong, h1, longNetworkMap, ShortOrLong.intoMap]

theorem turns_envFileItem : Turns (shortOrLong str (struct Structs.envFileConfig)) (unlessMapping Longhand.envFile)
    (Longhand.long Structs.envFileConfigOfPath) :=
  turns_shortOrLong (fun _ => ⟨_, rfl⟩) (fun _ h => by simp [str_iff] at h) fun _ _ => envFile_long

theorem turns_envFile : Turns Structs.envFile longEnvFile longEnvFiles := by
  intro v x hx
  cases v <;> simp only [Structs.envFile, Outcome.map_eq_ok, reduceCtorEq, str_iff, false_and, exists_false] at hx
  case str s =>
    obtain ⟨_, h1, rfl⟩ := hx
    cases h1
    have h2 := turns_envFileItem (.str s) (.short s) rfl
    have h3 : unlessMapping Longhand.envFile (.str s) = Longhand.envFile (.str s) := rfl
    rw [h3] at h2
    simp only [longEnvFile, Structs.envFile, Codecs.list, readAll, h2, Outcome.bind_ok, Outcome.map_ok]
    rfl
  case seq vs =>
    obtain ⟨l, h1, rfl⟩ := hx
    have h2 := turns_list turns_envFileItem (.seq vs) l h1
    simp only [longEnvFile, eachItem, Structs.envFile] at h2 ⊢
    rw [h2]
    rfl

theorem turns_configs : Turns (Codecs.list (shortOrLong identifier (struct Structs.configOrSecret))) longConfigs
    (List.map (Longhand.long Structs.configOrSecretOfName)) :=
  turns_list (turns_shortOrLong (fun _ => ⟨_, rfl⟩) (fun _ h => by simp [identifier_iff] at h) fun _ _ => configOrSecret_long)

theorem turns_ulimits : Turns Structs.ulimits longUlimits (List.map fun e => (e.1, Longhand.long Structs.ulimitOfLimit e.2)) :=
  turns_map (turns_shortOrLong (fun _ => ⟨_, rfl⟩)
    (fun _ h => by simp [limit, plain, Limit.deserialize] at h) fun _ _ => ulimit_long)

theorem turns_includes : Turns (Codecs.list (shortOrLong str (struct Structs.include))) longInclude
    (List.map (Longhand.long Structs.includeOfPath)) := by
  refine turns_list fun v x hx => ?_
  have h := turns_shortOrLong (s := str) (l := struct Structs.include) (g := included) (fun _ => ⟨_, rfl⟩)
    (fun _ h => by simp [str_iff] at h) (fun _ _ => include_long) v x hx
  cases v <;> simp only [shortOrLong, Outcome.map_eq_ok, str_iff, reduceCtorEq, false_and, exists_false] at hx
  all_goals exact h

end Proofs
