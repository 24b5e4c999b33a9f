import Verif.Proofs.LonghandService

/- A document whose rewritten form is read is read itself. -/

namespace Proofs
open Rust Compose Compose.Derive Compose.Codecs Spec Spec.Longhand
open Props hiding mapping entriesOf_mapping

/-- What is read after rewriting is read before. -/
def Back {α : Type} (c : Codec α) (g : Content → Content) : Prop := ∀ v y, c.de (g v) = .ok y → ∃ x, c.de v = .ok x

/-! ### Collections -/

section
variable {α β : Type} {c : Codec α} {g : Content → Content}

theorem back_readAll (t : Back c g) : ∀ (vs : List Content) (l : List α), readAll c.de (vs.map g) = .ok l →
    ∃ l, readAll c.de vs = .ok l
  | [], _, _ => ⟨[], rfl⟩
  | v :: vs, l, hl => by
    simp only [List.map_cons, readAll, Outcome.bind_eq_ok, Outcome.map_eq_ok] at hl
    obtain ⟨x, h1, xs, h2, rfl⟩ := hl
    obtain ⟨x', h3⟩ := t v x h1
    obtain ⟨xs', h4⟩ := back_readAll t vs xs h2
    exact ⟨x' :: xs', by simp [readAll, h3, h4]⟩

theorem back_list (t : Back c g) : Back (Codecs.list c) (eachItem g) := by
  intro v l hl
  cases v <;> simp only [Codecs.list, eachItem, reduceCtorEq] at hl
  exact back_readAll t _ _ hl

theorem back_option (t : Back c g) (hu : ∀ v, g v = .unit → v = .unit) : Back (option c) g := by
  intro v o ho
  by_cases hv : g v = .unit
  · obtain rfl := hu v hv
    exact ⟨none, rfl⟩
  · have : ∀ w, w ≠ Content.unit → (option c).de w = (c.de w).map some := by intro w hw; cases w <;> simp [option] at hw ⊢
    rw [this _ hv] at ho
    obtain ⟨x, h1, rfl⟩ := Outcome.map_eq_ok.1 ho
    obtain ⟨y, h2⟩ := t v x h1
    by_cases hv' : v = .unit
    · subst hv'; exact ⟨none, rfl⟩
    · exact ⟨some y, by rw [this _ hv', h2]; rfl⟩

theorem back_map {key : Key} (t : Back c g) : Back (map key c) (eachValue g) := by
  have hr : ∀ es l, readEntries key.parse c.de (es.map fun e => (e.1, g e.2)) = .ok l →
      ∃ l, readEntries key.parse c.de es = .ok l := by
    intro es
    induction es with
    | nil => intro l _; exact ⟨[], rfl⟩
    | cons e es ih =>
      intro l hl
      obtain ⟨k, v⟩ := e
      simp only [List.map_cons, readEntries, Outcome.bind_eq_ok, Outcome.map_eq_ok] at hl
      obtain ⟨k', h1, x, h2, xs, h3, rfl⟩ := hl
      obtain ⟨x', h4⟩ := t v x h2
      obtain ⟨xs', h5⟩ := ih xs h3
      exact ⟨(k', x') :: xs', by simp [readEntries, h1, h4, h5]⟩
  intro v m hm
  simp only [map, Outcome.map_eq_ok, Outcome.bind_eq_ok, Outcome.ofOption_eq_ok, entriesOf_eachValue, Option.map_eq_some_iff] at hm ⊢
  obtain ⟨l, ⟨_, ⟨es, h1, rfl⟩, h2⟩, -⟩ := hm
  obtain ⟨l', h3⟩ := hr _ _ h2
  exact ⟨_, l', ⟨es, h1, h3⟩, rfl⟩

theorem back_shortOrLong {S L : Type} {s : Codec S} {l : Codec L} {g : Content → Content} (hm : ∀ v, ∃ es, g v = .map es)
    (ht : ∀ v y, l.de (g v) = .ok y → v ≠ .unit → ∃ x, s.de v = .ok x) : Back (shortOrLong s l) (unlessMapping g) := by
  have key : ∀ v y, v ≠ .unit → (shortOrLong s l).de (g v) = .ok y → ∃ x, s.de v = .ok x := by
    intro v y hv h
    obtain ⟨es, he⟩ := hm v
    rw [he] at h
    simp only [shortOrLong, Outcome.map_eq_ok] at h
    obtain ⟨z, h, -⟩ := h
    exact ht v z (by rw [he]; exact h) hv
  intro v y hy
  cases v <;> simp only [unlessMapping] at hy
  case map => exact ⟨_, hy⟩
  case unit => exact ⟨_, hy⟩
  all_goals
    obtain ⟨x, hx⟩ := key _ _ (by simp) hy
    exact ⟨.short x, by simp [shortOrLong, hx]⟩

end

/-! ### Structs -/

theorem standsFor_other_back {own : List Str} {k : Str} (hk : k ∈ own) {g : Content → Content} {es : List (Str × Content)}
    {is : List Item} (hn : k ∉ ownKeys is) (r : Record is) (h : StandsFor own (setAt k g es) is r) : StandsFor own es is r := by
  induction is with
  | nil => trivial
  | cons i is ih =>
    obtain ⟨x, r⟩ := r
    cases i with
    | field f =>
      simp only [ownKeys, List.mem_cons, not_or] at hn
      obtain ⟨h1, h2⟩ := h
      refine ⟨?_, ih hn.2 r h2⟩
      rw [given_setAt_ne fun e => hn.1 e.symm] at h1
      exact h1
    | flat f =>
      simp only [ownKeys, List.mem_append, not_or] at hn
      obtain ⟨h1, h2⟩ := h
      refine ⟨?_, ih hn.2 r h2⟩
      rw [entriesFor_setAt, setAt_absent] at h1
      · exact h1
      · intro e he
        unfold entriesFor at he
        cases hks : f.keys with
        | none =>
          rw [hks] at he
          have := (List.mem_filter.1 he).2
          rintro rfl
          simp [hk] at this
        | some ks =>
          rw [hks] at he
          have := (List.mem_filter.1 he).2
          rintro rfl
          simp at this
          exact hn.1 (by simpa [hks] using this)

/-- What is read at a place after rewriting is read before. -/
def BackAt (k : Str) (g : Content → Content) : Item → Prop
  | .field f => f.key = k ∧ Back f.codec g
  | .flat f => ∃ ks, f.keys = some ks ∧ k ∈ ks ∧ ∀ es x, f.read (setAt k g es) = .ok x → ∃ x, f.read es = .ok x

theorem standsFor_back {own : List Str} {k : Str} (hk : k ∈ own) {g : Content → Content} {es : List (Str × Content)} {i : Item}
    (ht : BackAt k g i) {is : List Item} (p : Place i is) (hn : (ownKeys is).Nodup) (r : Record is)
    (hr : StandsFor own (setAt k g es) is r) : ∃ r, StandsFor own es is r := by
  have mem : ∀ {is : List Item}, Place i is → k ∈ ownKeys is := by
    intro is p
    induction p with
    | here =>
      cases i with
      | field f => obtain ⟨rfl, -⟩ := ht; simp [ownKeys]
      | flat f => obtain ⟨ks, h1, h2, -⟩ := ht; simp [ownKeys, h1, h2]
    | @there j is p ih => cases j <;> simp [ownKeys, ih]
  induction p with
  | here =>
    obtain ⟨x, r⟩ := r
    cases i with
    | field f =>
      obtain ⟨rfl, h1⟩ := ht
      simp only [ownKeys, List.nodup_cons] at hn
      obtain ⟨h3, h4⟩ := hr
      rw [given_setAt] at h3
      rcases h3 with ⟨v, h5, h6⟩ | ⟨h5, h6⟩
      · obtain ⟨w, h7, rfl⟩ : ∃ w, given es f.key = [w] ∧ g w = v := by
          match hg : given es f.key, h5 with
          | [w], h5 => exact ⟨w, rfl, by simpa using h5⟩
        obtain ⟨y, h8⟩ := h1 w x h6
        exact ⟨(y, r), .inl ⟨w, h7, h8⟩, standsFor_other_back hk hn.1 r h4⟩
      · exact ⟨(x, r), .inr ⟨by simpa using h5, h6⟩, standsFor_other_back hk hn.1 r h4⟩
    | flat f =>
      obtain ⟨ks, h1, h2, h3⟩ := ht
      simp only [ownKeys, List.nodup_append, h1, Option.getD_some] at hn
      obtain ⟨h4, h5⟩ := hr
      rw [entriesFor_setAt] at h4
      obtain ⟨y, h6⟩ := h3 _ _ h4
      exact ⟨(y, r), h6, standsFor_other_back hk (fun hm => hn.2.2 k h2 k hm rfl) r h5⟩
  | @there j is p ih =>
    obtain ⟨x, r⟩ := r
    have hm := mem p
    cases j with
    | field f =>
      simp only [ownKeys, List.nodup_cons] at hn
      obtain ⟨h3, h4⟩ := hr
      obtain ⟨r', h5⟩ := ih hn.2 r h4
      have : f.key ≠ k := by rintro rfl; exact hn.1 hm
      rw [given_setAt_ne this] at h3
      exact ⟨(x, r'), h3, h5⟩
    | flat f =>
      simp only [ownKeys, List.nodup_append] at hn
      obtain ⟨h3, h4⟩ := hr
      obtain ⟨r', h5⟩ := ih hn.2.1 r h4
      have := standsFor_other_back (g := g) (es := es) (is := [.flat f]) hk
        (by simp only [ownKeys, List.append_nil]; exact fun h => hn.2.2 k h k hm rfl) (x, ()) ⟨h3, trivial⟩
      exact ⟨(x, r'), this.1, h5⟩

theorem back_struct {is : List Item} {own : List Str} [hk : Keys is own] [DistinctKeys own] {k : String} {g : Content → Content}
    {i : Item} (hf : noFlat is = false) (p : Place i is) (ht : BackAt k.toList g i) (hm : k.toList ∈ own) :
    Back (struct is) (atKey k g) := by
  intro v r hr
  rw [struct_de_flat table_good hf] at hr
  obtain ⟨es, h1, h2⟩ := hr
  have h1 : entriesOf (atKey k g v) = some es := entriesOf_iff.2 h1
  rw [entriesOf_atKey] at h1
  obtain ⟨es, h3, rfl⟩ := Option.map_eq_some_iff.1 h1
  obtain ⟨r', h4⟩ := standsFor_back (hk.eq ▸ hm) ht p table_good.distinct r h2
  exact ⟨r', (struct_de_flat table_good hf).2 ⟨es, entriesOf_iff.1 h3, h4⟩⟩

/-! ### Settings -/

/-- The value of a key of a mapping that is read. -/
theorem given_back {α : Type} {key : String} {c : Codec α} {d : Option α} {sk : α → Bool} {is : List Item} {own : List Str}
    [hk : Keys is own] [DistinctKeys own] (p : Place (.field ⟨key.toList, α, c, d, sk⟩) is) {es : List (String × Content)} {v : Content}
    (hg : given (es.map fun e => (e.1.toList, e.2)) key.toList = [v]) {r : Record is} (h : (struct is).de (mappingOf es) = .ok r) :
    ∃ x, c.de v = .ok x := by
  have : mappingOf es = Derive.mapping (es.map fun e => (e.1.toList, e.2)) := by
    unfold mappingOf Derive.mapping
    rw [List.map_map]
    rfl
  rw [this, struct_de_mapping, decode_ok table_good, hk.eq] at h
  clear hk this
  induction p with
  | here =>
    rcases h.1 with ⟨w, h1, h2⟩ | ⟨h1, -⟩
    · rw [hg] at h1
      cases h1
      exact ⟨_, h2⟩
    · rw [hg] at h1
      cases h1
  | @there j is p ih =>
    refine ih (r := r.2) ?_
    cases j
    · exact h.2
    · exact h.2

theorem back_configs : Back (Codecs.list (shortOrLong identifier (struct Structs.configOrSecret))) longConfigs :=
  back_list (back_shortOrLong (fun _ => ⟨_, rfl⟩) fun v y h _ =>
    given_back (is := Structs.configOrSecret) (key := "source") (c := identifier) (own := configOrSecretKeys) (v := v) .here (by simp [given]) h)

theorem back_ulimits : Back Structs.ulimits longUlimits :=
  back_map (back_shortOrLong (fun _ => ⟨_, rfl⟩) fun v y h _ =>
    given_back (is := Structs.ulimit) (key := "soft") (c := limit u64Max) (own := ulimitKeys) (v := v) .here (by simp [given]) h)

theorem back_envFileItem : Back (shortOrLong str (struct Structs.envFileConfig)) (unlessMapping Longhand.envFile) :=
  back_shortOrLong (fun _ => ⟨_, rfl⟩) fun v y h _ =>
    given_back (is := Structs.envFileConfig) (key := "path") (c := str) (v := v) .here (by simp [given]) h

theorem back_envFile : Back Structs.envFile longEnvFile := by
  intro v y hy
  cases v with
  | str s => exact ⟨.single s, rfl⟩
  | seq vs =>
    simp only [longEnvFile, eachItem, Structs.envFile, Outcome.map_eq_ok] at hy
    obtain ⟨l, h1, -⟩ := hy
    obtain ⟨l', h2⟩ := back_list back_envFileItem (.seq vs) l h1
    exact ⟨.list l', by simp [Structs.envFile, h2]⟩
  | _ => exact ⟨y, hy⟩

theorem back_includes : Back (Codecs.list (shortOrLong str (struct Structs.include))) longInclude := by
  refine back_list fun v y hy => ?_
  cases v with
  | str s => exact ⟨.short s, rfl⟩
  | _ => exact ⟨y, hy⟩

theorem back_build {E : Env} : Back (shortOrLong (context E) (struct (Structs.build E))) longBuild := by
  have h0 : Back (shortOrLong (context E) (struct (Structs.build E))) (unlessMapping Longhand.build) :=
    back_shortOrLong (fun _ => ⟨_, rfl⟩) fun v y h hv => by
      obtain ⟨x, hx⟩ := given_back (is := Structs.build E) (key := "context") (c := option (context E)) (own := buildKeys) (v := v) .here
        (by simp [given]) h
      cases v <;> simp [option, Outcome.map_eq_ok] at hx hv
      all_goals (obtain ⟨z, hz, -⟩ := hx; exact ⟨z, hz⟩)
  have lift : ∀ {k : String} {g : Content → Content}, Back (struct (Structs.build E)) (atKey k g) →
      Back (shortOrLong (context E) (struct (Structs.build E))) (atKey k g) := by
    intro k g hb v y hy
    cases v with
    | map es =>
      simp only [atKey, shortOrLong, Outcome.map_eq_ok] at hy
      obtain ⟨z, h1, -⟩ := hy
      obtain ⟨x, h2⟩ := hb (.map es) z h1
      exact ⟨.long x, by simp [shortOrLong, h2]⟩
    | _ => exact ⟨y, hy⟩
  have h1 := lift (back_struct (own := buildKeys) (k := "secrets") rfl
    (Place.nth 17 (many "secrets" (Codecs.list (shortOrLong identifier (struct Structs.configOrSecret)))) (is := Structs.build E) rfl)
    ⟨rfl, back_configs⟩ (by decide +kernel))
  have h2 := lift (back_struct (own := buildKeys) (k := "ulimits") rfl
    (Place.nth 19 (many "ulimits" Structs.ulimits) (is := Structs.build E) rfl) ⟨rfl, back_ulimits⟩ (by decide +kernel))
  intro v y hy
  obtain ⟨y, hy⟩ := h2 _ y hy
  obtain ⟨y, hy⟩ := h1 _ y hy
  exact h0 v y hy

/-- Names that are the keys of a mapping. -/
theorem names_back {α : Type} {c : Codec α} {d : Content} {vs : List Content} {m : IndexMap Str α}
    (h : (map identifierKey c).de (.map (vs.map fun v => (v, d))) = .ok m) : ∃ l, readAll identifier.de vs = .ok l := by
  simp only [map, Outcome.map_eq_ok, Outcome.bind_eq_ok, Outcome.ofOption_eq_ok] at h
  obtain ⟨l, ⟨es, h1, h2⟩, -⟩ := h
  clear m
  induction vs generalizing es l with
  | nil => exact ⟨[], rfl⟩
  | cons v vs ih =>
    cases v with
    | str s =>
      simp only [entriesOf, List.map_cons, stringKeys, Option.map_eq_some_iff] at h1 ih
      obtain ⟨es', h3, rfl⟩ := h1
      simp only [readEntries, Outcome.bind_eq_ok, Outcome.map_eq_ok, Outcome.ofOption_eq_ok] at h2
      obtain ⟨k, h4, x, h5, r, h6, rfl⟩ := h2
      obtain ⟨l', h7⟩ := ih r es' h3 h6
      have h8 : identifier.de (.str s) = .ok k := by
        simp only [identifierKey] at h4
        simp [identifier, text, h4]
      exact ⟨k :: l', by simp [readAll, h8, h7]⟩
    | _ => simp [entriesOf, stringKeys] at h1

theorem back_dependsOn : Back (shortOrLong (Codecs.set identifier) (map identifierKey (struct Structs.dependency))) longDependsOn := by
  intro v y hy
  cases v with
  | seq vs =>
    cases vs with
    | nil => exact ⟨y, hy⟩
    | cons w vs =>
      simp only [longDependsOn, Longhand.dependsOn, shortOrLong, Outcome.map_eq_ok] at hy
      obtain ⟨m, h1, -⟩ := hy
      obtain ⟨l, h2⟩ := names_back h1
      exact ⟨.short (IndexSet.collectNew l), by simp [shortOrLong, Codecs.set, h2]⟩
  | _ => exact ⟨y, hy⟩

theorem back_networks {E : Env} : Back (Structs.networks E) longNetworks := by
  intro v y hy
  cases v with
  | seq vs =>
    simp only [longNetworks, Longhand.networks, Structs.networks, shortOrLong, Outcome.map_eq_ok] at hy
    obtain ⟨m, h1, -⟩ := hy
    obtain ⟨l, h2⟩ := names_back h1
    exact ⟨.short (IndexSet.collectNew l), by simp [Structs.networks, shortOrLong, Codecs.set, h2]⟩
  | _ => exact ⟨y, hy⟩

theorem back_set {α : Type} [RustEq α] {c : Codec α} {g : Content → List Content} (hg : ∀ v l, readAll c.de (g v) = .ok l → ∃ x, c.de v = .ok x)
    {vs : List Content} {y : IndexSet α} (h : (Codecs.set c).de (.seq (vs.flatMap g)) = .ok y) : ∃ x, (Codecs.set c).de (.seq vs) = .ok x := by
  have split : ∀ (vs ws : List Content) (l : List α), readAll c.de (vs ++ ws) = .ok l →
      (∃ l, readAll c.de vs = .ok l) ∧ ∃ l, readAll c.de ws = .ok l := by
    intro vs
    induction vs with
    | nil => intro ws l h; exact ⟨⟨[], rfl⟩, l, h⟩
    | cons v vs ih =>
      intro ws l h
      simp only [List.cons_append, readAll, Outcome.bind_eq_ok, Outcome.map_eq_ok] at h
      obtain ⟨x, h1, xs, h2, rfl⟩ := h
      obtain ⟨⟨l1, h3⟩, h4⟩ := ih ws xs h2
      exact ⟨⟨x :: l1, by simp [readAll, h1, h3]⟩, h4⟩
  have all : ∀ (vs : List Content) (l : List α), readAll c.de (vs.flatMap g) = .ok l → ∃ l, readAll c.de vs = .ok l := by
    intro vs
    induction vs with
    | nil => intro l _; exact ⟨[], rfl⟩
    | cons v vs ih =>
      intro l h
      rw [List.flatMap_cons] at h
      obtain ⟨⟨l1, h1⟩, l2, h2⟩ := split _ _ _ h
      obtain ⟨x, h3⟩ := hg v l1 h1
      obtain ⟨xs, h4⟩ := ih l2 h2
      exact ⟨x :: xs, by simp [readAll, h3, h4]⟩
  simp only [Codecs.set, Outcome.map_eq_ok] at h ⊢
  obtain ⟨l, h1, -⟩ := h
  obtain ⟨l', h2⟩ := all _ _ h1
  exact ⟨_, l', h2, rfl⟩

theorem short_of {S L : Type} {s : Codec S} {l : Codec L} {v : Content} {x : S} (hm : ∀ es, v ≠ .map es) (h : s.de v = .ok x) :
    (shortOrLong s l).de v = .ok (.short x) := by
  cases v <;> simp [shortOrLong, h] at hm ⊢

theorem back_volumes {E : Env} : Back (Structs.volumes E) longVolumes := by
  intro v y hy
  cases v with
  | seq vs =>
    have hy : (@Codecs.set _ (Structs.volumesEq E) (shortOrLong shortVolume Structs.mount)).de (.seq (vs.map longVolume)) = .ok y := hy
    rw [← flatMap_one] at hy
    refine @back_set _ (Structs.volumesEq E) _ (fun v => [longVolume v]) ?_ _ _ hy
    intro v l hl
    cases h : shortVolume.de v with
    | ok x =>
      refine ⟨.short x, short_of ?_ h⟩
      rintro es rfl
      cases h
    | _ =>
      simp only [longVolume, h, readAll, Outcome.bind_eq_ok, Outcome.map_eq_ok] at hl
      obtain ⟨x, h1, -⟩ := hl
      exact ⟨x, h1⟩
  | _ => exact ⟨y, hy⟩

theorem back_ports {E : Env} : Back (Structs.ports E) (longPorts E) := by
  intro v y hy
  cases v with
  | seq vs =>
    refine @back_set _ (Structs.portsEq E) _ (longPort E) ?_ _ _ hy
    intro v l hl
    cases h : (shortPort E).de v with
    | ok x =>
      refine ⟨.short x, short_of ?_ h⟩
      rintro es rfl
      cases h
    | _ =>
      simp only [longPort, h, readAll, Outcome.bind_eq_ok, Outcome.map_eq_ok] at hl
      obtain ⟨x, h1, -⟩ := hl
      exact ⟨x, h1⟩
  | _ => exact ⟨y, hy⟩

theorem scanField_back {β : Type} {de : Content → Option β} {k : Str} {g : Content → Content}
    (t : ∀ v x, de (g v) = some x → ∃ y, de v = some y) (es : List (Str × Content)) : ∀ (s s' r : Option β), s.isSome = s'.isSome →
    scanField de k s (setAt k g es) = some r → ∃ r', scanField de k s' es = some r' := by
  induction es with
  | nil => intro s s' r _ _; exact ⟨s', rfl⟩
  | cons e es ih =>
    intro s s' r hss hs
    obtain ⟨k', v⟩ := e
    unfold setAt at ih hs
    rw [List.map_cons] at hs
    unfold scanField at hs ⊢
    by_cases hk : k' = k
    · simp only [hk, if_true, hss] at hs ⊢
      cases s' with
      | some _ => simp at hs
      | none =>
        simp only [Option.isSome_none, Bool.false_eq_true, if_false] at hs ⊢
        cases hv : de (g v) with
        | none => simp [hv] at hs
        | some x =>
          simp only [hv] at hs
          obtain ⟨y, hy⟩ := t v x hv
          simp only [hy]
          exact ih (some x) (some y) _ rfl hs
    · simp only [hk, if_false] at hs ⊢
      exact ih _ _ _ hss hs

theorem back_networkConfig {E : Env} : BackAt "networks".toList longNetworks (Structs.networkConfig E) := by
  refine ⟨_, rfl, by simp, ?_⟩
  intro es x hx
  have hx : NetworkConfigOf.optionEntries (fun c => ((Structs.networks E).de c).toOption) (setAt "networks".toList longNetworks es) = some x :=
    Outcome.ofOption_eq_ok.1 hx
  obtain ⟨a, b, ha, hb, hab⟩ := networkConfig_ok hx
  have ha' : flatOption NetworkMode.de "network_mode".toList es = some a := by
    unfold flatOption at ha ⊢
    rwa [scanField_other (by decide)] at ha
  obtain ⟨b', hb'⟩ : ∃ b', flatOption (fun c => ((Structs.networks E).de c).toOption) "networks".toList es = some b' := by
    unfold flatOption at hb ⊢
    obtain ⟨o, h1, rfl⟩ := Option.map_eq_some_iff.1 hb
    obtain ⟨o', h2⟩ := scanField_back (by
      intro v x hv
      by_cases hu : v = .unit
      · subst hu; exact ⟨none, rfl⟩
      · have hl : longNetworks v ≠ .unit := by
          cases v <;> simp [longNetworks, Longhand.networks] at hu ⊢
        have un : ∀ w, w ≠ Content.unit → optionOf (fun c => ((Structs.networks E).de c).toOption) w =
            (((Structs.networks E).de w).toOption).map some := by intro w hw; cases w <;> simp [optionOf] at hw ⊢
        rw [un _ hl] at hv
        rw [un _ hu]
        obtain ⟨y, h2, -⟩ := Option.map_eq_some_iff.1 hv
        obtain ⟨z, h3⟩ := back_networks v y (Outcome.toOption_eq_some.1 h2)
        exact ⟨some z, by rw [Outcome.toOption_eq_some.2 h3]; rfl⟩) es none none o rfl h1
    exact ⟨_, Option.map_eq_some_iff.2 ⟨o', h2, rfl⟩⟩
  have hb2 := networks_setAt hb'
  rw [hb] at hb2
  obtain ⟨y, hy⟩ := networkConfig_of ha' hb' (by
    rcases hab with h | h
    · exact .inl h
    · right
      cases b' with
      | none => rfl
      | some _ => simp [h] at hb2)
  exact ⟨y, Outcome.ofOption_eq_ok.2 hy⟩

/-! ### Services and files -/

theorem unit_of_atKey {k : String} {g : Content → Content} {v : Content} (h : atKey k g v = .unit) : v = .unit := by
  cases v <;> simp [atKey] at h ⊢

theorem unit_of_build {v : Content} (h : longBuild v = .unit) : v = .unit := by
  have h := unit_of_atKey (unit_of_atKey h)
  cases v <;> simp [unlessMapping, Longhand.build, mappingOf] at h ⊢

theorem unit_of_envFile {v : Content} (h : longEnvFile v = .unit) : v = .unit := by
  cases v <;> simp [longEnvFile, eachItem] at h ⊢

theorem back_service {E : Env} : Back (struct (Structs.service E)) (longService E) := by
  have t1 := back_struct (is := Structs.service E) (own := serviceKeys) (k := "build") rfl (Place.nth 1 (opt "build" (shortOrLong (context E) (struct (Structs.build E)))) rfl) ⟨rfl, back_option back_build fun _ => unit_of_build⟩ (by decide +kernel)
  have t2 := back_struct (is := Structs.service E) (own := serviceKeys) (k := "configs") rfl (Place.nth 17 (many "configs" (Codecs.list (shortOrLong identifier (struct Structs.configOrSecret)))) rfl) ⟨rfl, back_configs⟩ (by decide +kernel)
  have t3 := back_struct (is := Structs.service E) (own := serviceKeys) (k := "depends_on") rfl (Place.nth 20 Structs.dependsOn rfl) ⟨rfl, back_dependsOn⟩ (by decide +kernel)
  have t4 := back_struct (is := Structs.service E) (own := serviceKeys) (k := "env_file") rfl (Place.nth 30 (opt "env_file" Structs.envFile) rfl) ⟨rfl, back_option back_envFile fun _ => unit_of_envFile⟩ (by decide +kernel)
  have t5 := back_struct (is := Structs.service E) (own := serviceKeys) (k := "networks") rfl (Place.nth 48 (Structs.networkConfig E) rfl) back_networkConfig (by decide +kernel)
  have t6 := back_struct (is := Structs.service E) (own := serviceKeys) (k := "ports") rfl (Place.nth 59 (many "ports" (Structs.ports E)) rfl) ⟨rfl, back_ports⟩ (by decide +kernel)
  have t7 := back_struct (is := Structs.service E) (own := serviceKeys) (k := "secrets") rfl (Place.nth 67 (many "secrets" (Codecs.list (shortOrLong identifier (struct Structs.configOrSecret)))) rfl) ⟨rfl, back_configs⟩ (by decide +kernel)
  have t8 := back_struct (is := Structs.service E) (own := serviceKeys) (k := "ulimits") rfl (Place.nth 77 (many "ulimits" Structs.ulimits) rfl) ⟨rfl, back_ulimits⟩ (by decide +kernel)
  have t9 := back_struct (is := Structs.service E) (own := serviceKeys) (k := "volumes") rfl (Place.nth 80 (many "volumes" (Structs.volumes E)) rfl) ⟨rfl, back_volumes⟩ (by decide +kernel)
  intro v y h
  obtain ⟨y, h⟩ := t1 _ y h
  obtain ⟨y, h⟩ := t2 _ y h
  obtain ⟨y, h⟩ := t3 _ y h
  obtain ⟨y, h⟩ := t4 _ y h
  obtain ⟨y, h⟩ := t5 _ y h
  obtain ⟨y, h⟩ := t6 _ y h
  obtain ⟨y, h⟩ := t7 _ y h
  obtain ⟨y, h⟩ := t8 _ y h
  exact t9 _ y h

theorem back_file {E : Env} : Back (struct (Structs.compose E)) (longFile E) := by
  have t1 := back_struct (is := Structs.compose E) (own := composeKeys) (k := "include") (g := longInclude) rfl (.there (.there .here))
    ⟨rfl, back_includes⟩ (by decide +kernel)
  have t2 := back_struct (is := Structs.compose E) (own := composeKeys) (k := "services") (g := eachValue (longService E)) rfl
    (.there (.there (.there .here))) ⟨rfl, back_map back_service⟩ (by decide +kernel)
  intro v y h
  obtain ⟨y, h⟩ := t1 _ y h
  exact t2 _ y h

end Proofs
