import Verif.Props.ListOrMap

namespace Props
open Rust Compose Spec

/-! ### C60: external resources -/

/-- A mapping with string keys. -/
def mapping (es : List (Str × Content)) : Content := .map (es.map fun e => (.str e.1, e.2))

theorem stringKeys_iff {xs : List (Content × Content)} {es : List (Str × Content)} :
    stringKeys xs = some es ↔ xs = es.map fun e => (.str e.1, e.2) := by
  induction xs generalizing es with
  | nil => cases es <;> simp [stringKeys]
  | cons x xs ih =>
    obtain ⟨k, v⟩ := x
    have hno : ∀ (k : Content), (∀ s, k ≠ .str s) →
        (stringKeys ((k, v) :: xs) = some es ↔ (k, v) :: xs = es.map fun e => (.str e.1, e.2)) := by
      intro k hk
      have h1 : stringKeys ((k, v) :: xs) = none := by
        cases k with
        | str s => exact absurd rfl (hk s)
        | _ => rfl
      rw [h1]
      simp only [reduceCtorEq, false_iff]
      cases es with
      | nil => simp
      | cons e es => simp only [List.map_cons, List.cons.injEq, Prod.mk.injEq]; exact fun h => hk _ h.1.1
    cases k with
    | str s =>
      rw [stringKeys, Option.map_eq_some_iff]
      constructor
      · rintro ⟨es', h, rfl⟩
        rw [ih.1 h]; rfl
      · cases es with
        | nil => intro h; simp at h
        | cons e es =>
          intro h
          simp only [List.map_cons, List.cons.injEq, Prod.mk.injEq, Content.str.injEq] at h
          obtain ⟨⟨rfl, rfl⟩, h⟩ := h
          exact ⟨es, ih.2 h, rfl⟩
    | _ => exact hno _ (by simp)

theorem readMap_iff {c : Content} {m : IndexMap Str Content} :
    Resource.readMap c = some m ↔ ∃ es, c = mapping es ∧ m = IndexMap.collect es := by
  unfold mapping
  cases c with
  | map xs =>
    rw [Resource.readMap, Option.map_eq_some_iff]
    constructor
    · rintro ⟨es, h, rfl⟩; exact ⟨es, by rw [stringKeys_iff.1 h], rfl⟩
    · rintro ⟨es, h, rfl⟩; cases h; exact ⟨es, stringKeys_iff.2 rfl, rfl⟩
  | _ => simp [Resource.readMap]

theorem mapping_inj {a b : List (Str × Content)} (h : mapping a = mapping b) : a = b := by
  unfold mapping at h
  have h := Content.map.inj h
  exact List.map_injective_iff.2 (by rintro ⟨a, b⟩ ⟨c, d⟩ h; simpa using h) h

theorem firsts_filter {α : Type} [DecidableEq α] (p : α → Bool) (l : List α) :
    firsts (l.filter p) = (firsts l).filter p := by
  induction l with
  | nil => rfl
  | cons x l ih =>
    by_cases hp : p x = true
    · rw [List.filter_cons_of_pos hp, firsts, firsts, ih, List.filter_cons_of_pos hp, List.filter_filter,
        List.filter_filter]
      congr 1
      apply List.filter_congr
      intro y _; rw [Bool.and_comm]
    · rw [List.filter_cons_of_neg hp, ih, firsts, List.filter_cons_of_neg hp, List.filter_filter]
      apply List.filter_congr
      intro y _
      by_cases hy : y = x
      · subst hy; simp [hp]
      · simp [hy]

theorem collect_filter {V : Type} (p : Str → Bool) (es : List (Str × V)) :
    (IndexMap.collect es).filter (fun e => p e.1) = IndexMap.collect (es.filter fun e => p e.1) := by
  have hmap : ∀ l : List (Str × V), (l.filter fun e => p e.1).map (·.1) = (l.map (·.1)).filter p := by
    intro l; rw [List.filter_map]; rfl
  have hkeys : ((IndexMap.collect es).filter (fun e => p e.1)).map (·.1) =
      (IndexMap.collect (es.filter fun e => p e.1)).map (·.1) := by
    rw [hmap, keys_collect, keys_collect, hmap, firsts_filter]
  refine eq_of_keys hkeys ?_ ?_
  · rw [hkeys, keys_collect]; exact nodup_firsts _
  · rintro ⟨k, v⟩ he
    rw [List.mem_filter] at he
    obtain ⟨he, hp⟩ := he
    obtain ⟨before, after, rfl, h⟩ := mem_collect.1 he
    rw [mem_collect]
    refine ⟨before.filter (fun e => p e.1), after.filter (fun e => p e.1), ?_, ?_⟩
    · rw [List.filter_append, List.filter_cons_of_pos (by exact hp)]
    · rw [hmap, List.mem_filter]; exact fun h' => h h'.1

theorem get_collect_last {V : Type} (es : List (Str × V)) (k : Str) :
    IndexMap.get (IndexMap.collect es) k = lastValue es k := by
  rw [IndexMap.get_collect]; rfl

theorem lastValue_filter {V : Type} {p : Str → Bool} {es : List (Str × V)} {k : Str} (hk : p k = true) :
    lastValue (es.filter fun e => p e.1) k = lastValue es k := by
  unfold lastValue
  rw [← List.filter_reverse, List.find?_filter]
  congr 2
  funext e
  by_cases h : e.1 = k <;> simp [h, hk]

/-- A resource that is read from every mapping. -/
def exampleDe (es : List (Str × Content)) : Option Nat := some es.length

/-- Reading an external resource: a mapping with `external: true`, possibly a string `name`, and nothing else. -/
theorem C60_external {T : Type} (order : IndexMap Str Content → List (Str × Content))
    (de : List (Str × Content) → Option T) (c : Content) (name : Option Str) :
    Resource.deserialize order de c = some (.external name) ↔
      ∃ es, c = mapping es ∧ lastValue es "external".toList = some (.bool true) ∧
        lastValue es "name".toList = name.map .str ∧ ∀ e ∈ es, e.1 = "external".toList ∨ e.1 = "name".toList := by
  have main : ∀ es, Resource.fromMap order de (IndexMap.collect es) = some (.external name) ↔
      lastValue es "external".toList = some (.bool true) ∧
        lastValue es "name".toList = name.map .str ∧ ∀ e ∈ es, e.1 = "external".toList ∨ e.1 = "name".toList := by
    intro es
    unfold Resource.fromMap
    have hne : "name".toList ≠ "external".toList := by decide
    generalize "external".toList = E at *
    generalize "name".toList = N at *
    rw [get_collect_last]
    have hmap : ∀ o : Option T, o.map Resource.compose ≠ some (.external name) := by
      intro o; cases o <;> simp
    match he : lastValue es E with
    | none => simp only [reduceCtorEq, false_and, iff_false]; exact hmap _
    | some (.bool false) => simp only [Option.some.injEq, Content.bool.injEq, Bool.false_eq_true, false_and, iff_false]; exact hmap _
    | some (.unit) => simp
    | some (.u64 _) => simp
    | some (.i64 _) => simp
    | some (.f64 _) => simp
    | some (.str _) => simp
    | some (.seq _) => simp
    | some (.map _) => simp
    | some (.bool true) =>
      simp only [true_and]
      rw [collect_filter (fun k => decide (k ≠ E)), get_collect_last,
        lastValue_filter (p := fun k => decide (k ≠ E)) (by simpa using hne),
        collect_filter (fun k => decide (k ≠ N))]
      have hempty : IndexMap.collect (List.filter (fun e => decide (e.1 ≠ N))
          (es.filter fun e => decide (e.1 ≠ E))) = [] ↔
          ∀ e ∈ es, e.1 = E ∨ e.1 = N := by
        have h0 : ∀ l : List (Str × Content), IndexMap.collect l = [] ↔ l = [] := by
          intro l
          constructor
          · intro h
            have := keys_collect l
            rw [h] at this
            cases l with
            | nil => rfl
            | cons x l => simp [firsts] at this
          · rintro rfl; rfl
        rw [h0, List.filter_eq_nil_iff]
        constructor
        · intro h e he
          by_cases h1 : e.1 = E
          · exact .inl h1
          · have := h e (List.mem_filter.2 ⟨he, by simpa using h1⟩)
            right; simpa using this
        · intro h e he
          rw [List.mem_filter] at he
          obtain ⟨h1, h2⟩ := he
          simp only [decide_eq_true_eq] at h2
          rcases h e h1 with h3 | h3
          · exact absurd h3 h2
          · simp [h3]
      match hn : lastValue es N with
      | none =>
        simp only
        by_cases hx : ∀ e ∈ es, e.1 = E ∨ e.1 = N
        · rw [if_pos (hempty.2 hx), and_iff_left hx]; cases name <;> simp
        · rw [if_neg (fun h => hx (hempty.1 h))]; simp only [reduceCtorEq, false_iff]; exact fun h => hx h.2
      | some (.str s) =>
        simp only
        by_cases hx : ∀ e ∈ es, e.1 = E ∨ e.1 = N
        · rw [if_pos (hempty.2 hx), and_iff_left hx]; cases name <;> simp
        · rw [if_neg (fun h => hx (hempty.1 h))]; simp only [reduceCtorEq, false_iff]; exact fun h => hx h.2
      | some (.unit) => cases name <;> simp
      | some (.bool _) => cases name <;> simp
      | some (.u64 _) => cases name <;> simp
      | some (.i64 _) => cases name <;> simp
      | some (.f64 _) => cases name <;> simp
      | some (.seq _) => cases name <;> simp
      | some (.map _) => cases name <;> simp
  rw [Resource.deserialize, Option.bind_eq_some_iff]
  constructor
  · rintro ⟨m, h1, h2⟩
    obtain ⟨es, rfl, rfl⟩ := readMap_iff.1 h1
    exact ⟨es, rfl, (main es).1 h2⟩
  · rintro ⟨es, rfl, h⟩
    exact ⟨_, readMap_iff.2 ⟨es, rfl, rfl⟩, (main es).2 h⟩

example : Resource.deserialize id exampleDe (mapping [("name".toList, .str "n".toList), ("external".toList, .bool true)]) =
    some (.external (some "n".toList)) :=
  (C60_external _ _ _ _).2 ⟨_, rfl, rfl, rfl, by decide⟩

/-- Reading any other resource: a mapping whose `external` is absent or false, and whose other entries, in some order,
are those of the inner type. -/
theorem C60_compose {T : Type} (order : IndexMap Str Content → List (Str × Content))
    (de : List (Str × Content) → Option T) (c : Content) (t : T) :
    Resource.deserialize order de c = some (.compose t) ↔
      ∃ es rest, c = mapping es ∧
        (lastValue es "external".toList = none ∨ lastValue es "external".toList = some (.bool false)) ∧
        Table (es.filter (·.1 ≠ "external".toList)) rest ∧ de (order rest) = some t := by
  have main : ∀ es, Resource.fromMap order de (IndexMap.collect es) = some (.compose t) ↔
      (lastValue es "external".toList = none ∨ lastValue es "external".toList = some (.bool false)) ∧
        de (order (IndexMap.collect (es.filter (·.1 ≠ "external".toList)))) = some t := by
    intro es
    unfold Resource.fromMap
    generalize "external".toList = E at *
    generalize "name".toList = N at *
    rw [get_collect_last, collect_filter (fun k => decide (k ≠ E))]
    have hmap : ∀ o : Option T, o.map Resource.compose = some (.compose t) ↔ o = some t := by
      intro o; cases o <;> simp
    match he : lastValue es E with
    | none => simp only [true_or, true_and]; exact hmap _
    | some (.bool false) => simp only [or_true, true_and]; exact hmap _
    | some (.unit) => simp
    | some (.u64 _) => simp
    | some (.i64 _) => simp
    | some (.f64 _) => simp
    | some (.str _) => simp
    | some (.seq _) => simp
    | some (.map _) => simp
    | some (.bool true) =>
      simp only [reduceCtorEq, Option.some.injEq, Content.bool.injEq, Bool.true_eq_false, or_self, false_and, iff_false]
      intro h
      split at h
      · split at h <;> cases h
      · split at h <;> cases h
      · cases h
  rw [Resource.deserialize, Option.bind_eq_some_iff]
  constructor
  · rintro ⟨m, h1, h2⟩
    obtain ⟨es, rfl, rfl⟩ := readMap_iff.1 h1
    obtain ⟨h3, h4⟩ := (main es).1 h2
    exact ⟨es, _, rfl, h3, table_collect _, h4⟩
  · rintro ⟨es, rest, rfl, h1, h2, h3⟩
    rw [table_iff] at h2
    subst h2
    exact ⟨_, readMap_iff.2 ⟨es, rfl, rfl⟩, (main es).2 ⟨h1, h3⟩⟩

example : ∃ es rest, mapping [("external".toList, .bool false), ("driver".toList, .str "d".toList)] = mapping es ∧
    (lastValue es "external".toList = none ∨ lastValue es "external".toList = some (.bool false)) ∧
    Table (es.filter (·.1 ≠ "external".toList)) rest ∧ exampleDe (id rest) = some 1 :=
  (C60_compose id exampleDe _ 1).1 (by decide)

/-- What is written for an external resource is read back, whatever the inner type. -/
theorem C60_external_round_trip {T : Type} (order : IndexMap Str Content → List (Str × Content))
    (de : List (Str × Content) → Option T) (ser : T → Content) (name : Option Str) :
    Resource.deserialize order de (Resource.serialize ser (.external name)) = some (.external name) := by
  rw [C60_external]
  cases name with
  | none => exact ⟨[("external".toList, .bool true)], rfl, rfl, rfl, by simp⟩
  | some name =>
    exact ⟨[("external".toList, .bool true), ("name".toList, .str name)], rfl, rfl, rfl, by simp⟩

example : Resource.deserialize id exampleDe (Resource.serialize (fun (_ : Nat) => .unit) (.external (some "n".toList))) =
    some (.external (some "n".toList)) := C60_external_round_trip _ _ _ _

/-- What is written for another resource is read back, if the inner type is written as a mapping without `external` and
does not mind the order of the entries. -/
theorem C60_compose_round_trip {T : Type} (order : IndexMap Str Content → List (Str × Content))
    (horder : ∀ m, (order m).Perm m) (de : List (Str × Content) → Option T) (ser : T → Content) (t : T)
    (es : List (Str × Content)) (hes : ser t = mapping es) (hk : (es.map (·.1)).Nodup)
    (hext : "external".toList ∉ es.map (·.1)) (hde : ∀ es', es'.Perm es → de es' = some t) :
    Resource.deserialize order de (Resource.serialize ser (.compose t)) = some (.compose t) := by
  rw [C60_compose]
  have hf : es.filter (·.1 ≠ "external".toList) = es := by
    rw [List.filter_eq_self]
    intro e he
    simp only [ne_eq, decide_eq_true_eq]
    exact fun h => hext (List.mem_map.2 ⟨e, he, h⟩)
  refine ⟨es, es, hes, .inl ?_, ?_, hde _ (horder es)⟩
  · rw [← get_collect_last]
    rw [IndexMap.get_eq_none, IndexMap.collect_ok hk]
    exact hext
  · rw [hf, table_iff, IndexMap.collect_ok hk]

example : Resource.deserialize id exampleDe (mapping [("external".toList, .bool true)]) = some (.external none) := by
  decide
example : Resource.deserialize id exampleDe
    (mapping [("name".toList, .str "n".toList), ("external".toList, .bool true)]) =
    some (.external (some "n".toList)) := by decide
example : Resource.deserialize id exampleDe
    (mapping [("external".toList, .bool true), ("driver".toList, .str "d".toList)]) = none := by decide
example : Resource.deserialize id exampleDe
    (mapping [("external".toList, .bool false), ("driver".toList, .str "d".toList)]) = some (.compose 1) := by decide
example : Resource.deserialize id exampleDe (mapping [("external".toList, .str "true".toList)]) = none := by decide

end Props
