import Mathlib.Data.List.Nodup

/-
Model of `indexmap::IndexMap` and `IndexSet`: the entries in insertion order.  A well-formed map has no key twice.
-/

namespace Rust

/-- `indexmap::IndexMap<K, V>`. -/
abbrev IndexMap (K V : Type) := List (K × V)

namespace IndexMap

variable {K V : Type} [DecidableEq K]

/-- `IndexMap::get`. -/
def get (m : IndexMap K V) (k : K) : Option V := (m.find? (·.1 = k)).map (·.2)

/-- `IndexMap::insert`: an equal key keeps its place and takes the new value; a new key goes to the end. -/
def insert : IndexMap K V → K → V → IndexMap K V
  | [], k, v => [(k, v)]
  | (k', v') :: m, k, v => if k' = k then (k', v) :: m else (k', v') :: insert m k v

/-- `FromIterator`/`Extend`: insert the entries one after the other. -/
def collect (entries : List (K × V)) : IndexMap K V := entries.foldl (fun m e => insert m e.1 e.2) []

/-- `IndexMap::shift_remove`: take an entry out, keeping the order of the others. -/
def shiftRemove (m : IndexMap K V) (k : K) : Option (V × IndexMap K V) :=
  (get m k).map fun v => (v, m.filter (·.1 ≠ k))

/-- `IndexMap::shift_insert` at index 0: an equal key is moved to the front and takes the new value; a new key is put at
the front. -/
def shiftInsertFront (m : IndexMap K V) (k : K) (v : V) : IndexMap K V := (k, v) :: m.filter (·.1 ≠ k)

/-- No key occurs twice. -/
def Ok (m : IndexMap K V) : Prop := (m.map (·.1)).Nodup

omit [DecidableEq K] in
@[simp] theorem ok_nil : Ok ([] : IndexMap K V) := List.nodup_nil

theorem insert_new {m : IndexMap K V} {k : K} {v : V} (h : k ∉ m.map (·.1)) : insert m k v = m ++ [(k, v)] := by
  induction m with
  | nil => rfl
  | cons e m ih =>
    obtain ⟨k', v'⟩ := e
    simp only [List.map_cons, List.mem_cons, not_or] at h
    rw [insert, if_neg (fun e => h.1 e.symm), ih h.2]
    rfl

theorem keys_insert (m : IndexMap K V) (k : K) (v : V) :
    (insert m k v).map (·.1) = if k ∈ m.map (·.1) then m.map (·.1) else m.map (·.1) ++ [k] := by
  induction m with
  | nil => rfl
  | cons e m ih =>
    obtain ⟨k', v'⟩ := e
    rw [insert]
    by_cases hk : k' = k
    · simp [hk]
    · rw [if_neg hk, List.map_cons, ih]
      have : ¬ k = k' := fun e => hk e.symm
      by_cases hm : k ∈ m.map (·.1)
      · simp only [List.map_cons, List.mem_cons]
        rw [if_pos hm, if_pos (.inr hm)]
      · simp only [List.map_cons, List.mem_cons]
        rw [if_neg hm, if_neg (by simp [this, hm])]
        rfl

theorem ok_insert {m : IndexMap K V} (h : Ok m) (k : K) (v : V) : Ok (insert m k v) := by
  unfold Ok at *
  rw [keys_insert]
  split
  · exact h
  · rename_i hk
    rw [List.nodup_append]
    exact ⟨h, by simp, by rintro a ha b hb rfl; simp at hb; exact hk (hb ▸ ha)⟩

theorem ok_foldl (es : List (K × V)) (m : IndexMap K V) (h : Ok m) :
    Ok (es.foldl (fun m e => insert m e.1 e.2) m) := by
  induction es generalizing m with
  | nil => exact h
  | cons e es ih => exact ih _ (ok_insert h _ _)

theorem ok_collect (es : List (K × V)) : Ok (collect es) := ok_foldl es [] ok_nil

theorem foldl_insert_new (es : List (K × V)) (m : IndexMap K V) (h : Ok (m ++ es)) :
    es.foldl (fun m e => insert m e.1 e.2) m = m ++ es := by
  induction es generalizing m with
  | nil => simp
  | cons e es ih =>
    rw [List.foldl_cons, insert_new, ih]
    · simp
    · simpa using h
    · unfold Ok at h
      rw [List.map_append, List.nodup_append] at h
      intro hm
      exact h.2.2 _ hm e.1 (by simp) rfl

/-- Entries without a repeated key are collected as they are. -/
theorem collect_ok {es : List (K × V)} (h : Ok es) : collect es = es := by
  simpa [collect] using foldl_insert_new es [] (by simpa using h)

theorem get_insert (m : IndexMap K V) (k k' : K) (v : V) :
    get (insert m k v) k' = if k = k' then some v else get m k' := by
  induction m with
  | nil => simp only [insert, get, List.find?]; by_cases h : k = k' <;> simp [h]
  | cons e m ih =>
    obtain ⟨k₀, v₀⟩ := e
    rw [insert]
    by_cases h0 : k₀ = k
    · rw [if_pos h0]
      subst h0
      simp only [get, List.find?_cons]
      by_cases h : k₀ = k' <;> simp [h]
    · rw [if_neg h0]
      simp only [get, List.find?_cons] at ih ⊢
      by_cases h : k₀ = k'
      · subst h
        rw [if_neg (fun e => h0 e.symm)]
        simp
      · simp only [h, decide_false]
        exact ih

theorem get_foldl (es : List (K × V)) (m : IndexMap K V) (k : K) :
    get (es.foldl (fun m e => insert m e.1 e.2) m) k =
      ((es.reverse.find? (·.1 = k)).map (·.2)).or (get m k) := by
  induction es generalizing m with
  | nil => simp
  | cons e es ih =>
    rw [List.foldl_cons, ih, get_insert, List.reverse_cons, List.find?_append]
    cases h : es.reverse.find? (·.1 = k) with
    | some x => simp
    | none =>
      simp only [Option.map_none, Option.none_or, List.find?_cons, List.find?_nil]
      by_cases hk : e.1 = k <;> simp [hk]

/-- The value of a key is the last one given for it. -/
theorem get_collect (es : List (K × V)) (k : K) :
    get (collect es) k = (es.reverse.find? (·.1 = k)).map (·.2) := by
  have := get_foldl es [] k
  simpa [collect, get] using this

theorem get_eq_some {m : IndexMap K V} (h : Ok m) {k : K} {v : V} : get m k = some v ↔ (k, v) ∈ m := by
  unfold get
  constructor
  · intro hf
    rw [Option.map_eq_some_iff] at hf
    obtain ⟨⟨a, b⟩, h1, rfl⟩ := hf
    have h2 := List.find?_some h1
    simp only [decide_eq_true_eq] at h2
    subst h2
    exact List.mem_of_find?_eq_some h1
  · intro hm
    cases hf : m.find? (fun x => decide (x.1 = k)) with
    | none =>
      rw [List.find?_eq_none] at hf
      exact absurd (by simp) (hf _ hm)
    | some x =>
      have h2 := List.find?_some hf
      have h3 := List.mem_of_find?_eq_some hf
      simp only [decide_eq_true_eq] at h2
      have := List.inj_on_of_nodup_map h h3 hm h2
      simp [this]

theorem get_eq_none {m : IndexMap K V} {k : K} : get m k = none ↔ k ∉ m.map (·.1) := by
  unfold get
  rw [Option.map_eq_none_iff, List.find?_eq_none]
  simp only [decide_eq_true_eq, List.mem_map, not_exists, not_and]

/-- An equal key is replaced in place: without a repeated key, `insert` of a present key changes only its value. -/
theorem mem_insert {m : IndexMap K V} (h : Ok m) {k : K} {v : V} {e : K × V} :
    e ∈ insert m k v ↔ e = (k, v) ∨ (e ∈ m ∧ e.1 ≠ k) := by
  obtain ⟨a, b⟩ := e
  rw [← get_eq_some (ok_insert h k v), get_insert, ← get_eq_some h]
  by_cases hk : k = a
  · subst hk; simp [eq_comm]
  · rw [if_neg hk]
    have : a ≠ k := fun e => hk e.symm
    simp [this]

end IndexMap

/-- `indexmap::IndexSet<T>`: the items in insertion order. -/
abbrev IndexSet (T : Type) := List T

namespace IndexSet

variable {T : Type} [DecidableEq T]

/-- `IndexSet::insert`: an equal item stays where it is. -/
def insert (s : IndexSet T) (x : T) : IndexSet T := if x ∈ s then s else s ++ [x]

/-- `FromIterator`. -/
def collect (items : List T) : IndexSet T := items.foldl insert []

/-- `IndexSet::shift_remove`. -/
def shiftRemove (s : IndexSet T) (x : T) : IndexSet T := s.filter (· ≠ x)

theorem nodup_insert {s : IndexSet T} (h : s.Nodup) (x : T) : (insert s x).Nodup := by
  unfold insert
  split
  · exact h
  · rename_i hx
    rw [List.nodup_append]
    exact ⟨h, by simp, by rintro a ha b hb rfl; simp at hb; exact hx (hb ▸ ha)⟩

theorem nodup_foldl (items : List T) (s : IndexSet T) (h : s.Nodup) : (items.foldl insert s).Nodup := by
  induction items generalizing s with
  | nil => exact h
  | cons x items ih => exact ih _ (nodup_insert h x)

theorem nodup_collect (items : List T) : (collect items).Nodup := nodup_foldl items [] List.nodup_nil

theorem foldl_insert_new (items : List T) (s : IndexSet T) (h : (s ++ items).Nodup) :
    items.foldl insert s = s ++ items := by
  induction items generalizing s with
  | nil => simp
  | cons x items ih =>
    have hx : x ∉ s := by
      rw [List.nodup_append] at h
      intro hm
      exact h.2.2 _ hm x (by simp) rfl
    rw [List.foldl_cons, insert, if_neg hx, ih _ (by simpa using h)]
    simp

/-- Items without repetition are collected as they are. -/
theorem collect_nodup {items : List T} (h : items.Nodup) : collect items = items := by
  simpa [collect] using foldl_insert_new items [] (by simpa using h)

theorem mem_foldl (items : List T) (s : IndexSet T) (x : T) : x ∈ items.foldl insert s ↔ x ∈ s ∨ x ∈ items := by
  induction items generalizing s with
  | nil => simp
  | cons y items ih =>
    rw [List.foldl_cons, ih, insert]
    split
    · rename_i hy
      simp only [List.mem_cons]
      constructor
      · rintro (h | h)
        · exact .inl h
        · exact .inr (.inr h)
      · rintro (h | rfl | h)
        · exact .inl h
        · exact .inl hy
        · exact .inr h
    · simp [or_assoc]

/-- No item is lost. -/
theorem mem_collect {items : List T} {x : T} : x ∈ collect items ↔ x ∈ items := by
  simpa [collect] using mem_foldl items [] x

end IndexSet

/-- The `==` of a type that is kept in an `IndexSet` (`PartialEq::eq`).  Hashing is not modelled here: the library requires that
equal items have equal hashes, see C78. -/
class RustEq (T : Type) where
  eq : T → T → Bool

/-- `#[derive(PartialEq)]` on types whose parts are compared by value. -/
instance (priority := low) RustEq.ofDecEq {T : Type} [DecidableEq T] : RustEq T := ⟨fun x y => x = y⟩

namespace IndexSet

variable {T : Type} [RustEq T]

/-- `IndexSet::insert`, for items compared with `==`: an item that is equal to one of the set is dropped. -/
def insertNew (s : IndexSet T) (x : T) : IndexSet T := if s.any (RustEq.eq x) then s else s ++ [x]

/-- `FromIterator`, for items compared with `==`. -/
def collectNew (items : List T) : IndexSet T := items.foldl insertNew []

/-- No item is equal to an earlier one. -/
def Fresh (s : List T) : Prop := s.Pairwise fun x y => RustEq.eq y x = false

theorem fresh_insertNew {s : IndexSet T} (h : Fresh s) (x : T) : Fresh (insertNew s x) := by
  unfold insertNew
  split
  · exact h
  · rename_i hx
    refine List.pairwise_append.2 ⟨h, List.pairwise_singleton .., fun a ha b hb => ?_⟩
    obtain rfl := List.mem_singleton.1 hb
    simpa using fun h' => hx (List.any_eq_true.2 ⟨a, ha, h'⟩)

theorem fresh_foldl (items : List T) (s : IndexSet T) (h : Fresh s) : Fresh (items.foldl insertNew s) := by
  induction items generalizing s with
  | nil => exact h
  | cons x items ih => exact ih _ (fresh_insertNew h x)

theorem fresh_collectNew (items : List T) : Fresh (collectNew items) := fresh_foldl items [] .nil

theorem foldl_insertNew_fresh (items : List T) (s : IndexSet T) (h : Fresh (s ++ items)) :
    items.foldl insertNew s = s ++ items := by
  induction items generalizing s with
  | nil => simp
  | cons x items ih =>
    have hx : ¬ s.any (RustEq.eq x) = true := by
      intro hm
      obtain ⟨y, hy, he⟩ := List.any_eq_true.1 hm
      rw [(List.pairwise_append.1 h).2.2 y hy x List.mem_cons_self] at he
      cases he
    rw [List.foldl_cons, insertNew, if_neg hx, ih _ (by simpa using h)]
    simp

/-- Items without repetition are collected as they are. -/
theorem collectNew_fresh {items : List T} (h : Fresh items) : collectNew items = items := by
  simpa [collectNew] using foldl_insertNew_fresh items [] (by simpa using h)

theorem mem_foldl_insertNew (items : List T) (s : IndexSet T) (x : T) (h : x ∈ items.foldl insertNew s) : x ∈ s ∨ x ∈ items := by
  induction items generalizing s with
  | nil => exact .inl h
  | cons y items ih =>
    rw [List.foldl_cons] at h
    rcases ih _ h with h | h
    · unfold insertNew at h
      split at h
      · exact .inl h
      · rcases List.mem_append.1 h with h | h
        · exact .inl h
        · exact .inr (List.mem_singleton.1 h ▸ List.mem_cons_self)
    · exact .inr (List.mem_cons_of_mem _ h)

/-- Nothing is added. -/
theorem mem_collectNew {items : List T} {x : T} (h : x ∈ collectNew items) : x ∈ items := by
  rcases mem_foldl_insertNew items [] x h with h | h
  · cases h
  · exact h

end IndexSet

end Rust
