import Verif.Std.Content
import Verif.Std.Str

/-
Model of `Value::apply_merge` of `serde_yaml` 0.9, which /repo calls in src/options.rs:102-107 if the option `apply_merge` is
set.  `serde_yaml` is not part of /repo and its source code was not at hand: this is written from memory of version 0.9 and
was not compared with it, so that it does what is said here is part of what is trusted.  A `Value` is a `Content`; values
with tags are left out.
-/

namespace Rust

mutual
/-- `PartialEq for Value`.  Simplified: two floats are equal if they have the same bits, and mappings if they have the same
entries in the same order.  It is only used for the keys of mappings. -/
def Content.same : Content → Content → Bool
  | .unit, .unit => true
  | .bool a, .bool b => a == b
  | .u64 a, .u64 b => a == b
  | .i64 a, .i64 b => a == b
  | .f64 a, .f64 b => a == b
  | .str a, .str b => a == b
  | .seq a, .seq b => sameItems a b
  | .map a, .map b => sameEntries a b
  | _, _ => false
/-- The items of two sequences. -/
def sameItems : List Content → List Content → Bool
  | [], [] => true
  | a :: as, b :: bs => a.same b && sameItems as bs
  | _, _ => false
/-- The entries of two mappings. -/
def sameEntries : List (Content × Content) → List (Content × Content) → Bool
  | [], [] => true
  | (k, v) :: as, (l, w) :: bs => k.same l && v.same w && sameEntries as bs
  | _, _ => false
end

mutual
theorem Content.same_iff : ∀ a b : Content, a.same b = true ↔ a = b
  | .unit, b => by cases b <;> simp [Content.same]
  | .bool _, b => by cases b <;> simp [Content.same]
  | .u64 _, b => by cases b <;> simp [Content.same]
  | .i64 _, b => by cases b <;> simp [Content.same]
  | .f64 _, b => by cases b <;> simp [Content.same]
  | .str _, b => by cases b <;> simp [Content.same]
  | .seq as, b => by cases b <;> simp [Content.same, sameItems_iff as]
  | .map as, b => by cases b <;> simp [Content.same, sameEntries_iff as]
theorem sameItems_iff : ∀ a b : List Content, sameItems a b = true ↔ a = b
  | [], b => by cases b <;> simp [sameItems]
  | a :: as, b => by cases b <;> simp [sameItems, Content.same_iff a, sameItems_iff as]
theorem sameEntries_iff : ∀ a b : List (Content × Content), sameEntries a b = true ↔ a = b
  | [], b => by cases b <;> simp [sameEntries]
  | (k, v) :: as, b => by
    rcases b with _ | ⟨⟨l, w⟩, b⟩
    · simp [sameEntries]
    · simp [sameEntries, Content.same_iff k, Content.same_iff v, sameEntries_iff as]
end

instance : DecidableEq Content := fun a b => decidable_of_iff _ (Content.same_iff a b)

/-- The errors of `apply_merge`. -/
inductive MergeError
  | scalarInMerge | scalarInMergeElement | sequenceInMergeElement
  deriving DecidableEq, Repr

/-- The key `<<`. -/
def mergeKey : Content := .str str!"<<"

/-- `Mapping::remove`, which is `IndexMap::swap_remove`: the last entry takes the place of the removed one. -/
def swapRemove : List (Content × Content) → Content → Option (Content × List (Content × Content))
  | [], _ => none
  | (k, v) :: es, key =>
    if k = key then
      match es.getLast? with
      | none => some (v, [])
      | some last => some (v, last :: es.dropLast)
    else (swapRemove es key).map fun (w, es) => (w, (k, v) :: es)

/-- `mapping.entry(k).or_insert(v)`. -/
def orInsert (mapping : List (Content × Content)) (e : Content × Content) : List (Content × Content) :=
  if e.1 ∈ mapping.map (·.1) then mapping else mapping ++ [e]

/-- The loop over the entries of a merged mapping. -/
def orInsertAll (mapping merge : List (Content × Content)) : List (Content × Content) := merge.foldl orInsert mapping

/-- The loop over the items of a merged sequence. -/
def mergeItems (mapping : List (Content × Content)) : List Content → Except MergeError (List (Content × Content))
  | [] => .ok mapping
  | .map merge :: items => mergeItems (orInsertAll mapping merge) items
  | .seq _ :: _ => .error .sequenceInMergeElement
  | _ :: _ => .error .scalarInMergeElement

/-- What is done with the entries of one mapping. -/
def mergeEntries (mapping : List (Content × Content)) : Except MergeError (List (Content × Content)) :=
  match swapRemove mapping mergeKey with
  | none => .ok mapping
  | some (.map merge, mapping) => .ok (orInsertAll mapping merge)
  | some (.seq items, mapping) => mergeItems mapping items
  | some _ => .error .scalarInMerge

/-- Something is done with all items of a list, from the last one to the first one: nodes are pushed onto a stack in order
and taken from its end. -/
def fromLast {α β ε : Type} : (l : List α) → (∀ x ∈ l, Except ε β) → Except ε (List β)
  | [], _ => .ok []
  | x :: l, f =>
    match fromLast l fun y hy => f y (List.mem_cons_of_mem _ hy) with
    | .error e => .error e
    | .ok ys =>
      match f x List.mem_cons_self with
      | .error e => .error e
      | .ok y => .ok (y :: ys)

theorem mem_of_swapRemove {es fs : List (Content × Content)} {key v : Content} (h : swapRemove es key = some (v, fs)) :
    (key, v) ∈ es ∧ ∀ e ∈ fs, e ∈ es := by
  induction es generalizing fs with
  | nil => cases h
  | cons e es ih =>
    obtain ⟨k, w⟩ := e
    rw [swapRemove] at h
    split at h
    · next hk =>
      subst hk
      cases hl : es.getLast? with
      | none =>
        rw [hl] at h
        cases h
        exact ⟨List.mem_cons_self, fun _ h => by cases h⟩
      | some last =>
        rw [hl] at h
        cases h
        refine ⟨List.mem_cons_self, fun e he => List.mem_cons_of_mem _ ?_⟩
        rcases List.mem_cons.1 he with rfl | he
        · exact List.mem_of_getLast? hl
        · exact List.dropLast_subset _ he
    · obtain ⟨⟨w', es'⟩, hs, he⟩ := Option.map_eq_some_iff.1 h
      cases he
      refine ⟨List.mem_cons_of_mem _ (ih hs).1, fun e he => ?_⟩
      rcases List.mem_cons.1 he with rfl | he
      · exact List.mem_cons_self
      · exact List.mem_cons_of_mem _ ((ih hs).2 e he)

theorem mem_orInsertAll {es fs : List (Content × Content)} {e : Content × Content} (h : e ∈ orInsertAll es fs) : e ∈ es ∨ e ∈ fs := by
  induction fs generalizing es with
  | nil => exact .inl h
  | cons f fs ih =>
    rcases ih (es := orInsert es f) h with h | h
    · unfold orInsert at h
      split at h
      · exact .inl h
      · rcases List.mem_append.1 h with h | h
        · exact .inl h
        · exact .inr (List.mem_singleton.1 h ▸ List.mem_cons_self)
    · exact .inr (List.mem_cons_of_mem _ h)

theorem mem_mergeItems {es fs : List (Content × Content)} {items : List Content} (h : mergeItems es items = .ok fs) {e : Content × Content}
    (he : e ∈ fs) : e ∈ es ∨ ∃ f, .map f ∈ items ∧ e ∈ f := by
  induction items generalizing es with
  | nil => cases h; exact .inl he
  | cons i items ih =>
    cases i with
    | map f =>
      rcases ih (es := orInsertAll es f) h with h | ⟨g, hg, h⟩
      · rcases mem_orInsertAll h with h | h
        · exact .inl h
        · exact .inr ⟨f, List.mem_cons_self, h⟩
      · exact .inr ⟨g, List.mem_cons_of_mem _ hg, h⟩
    | _ => cases h

theorem sizeOf_entry {e : Content × Content} {es : List (Content × Content)} (h : e ∈ es) : sizeOf e.2 < sizeOf (Content.map es) := by
  have := List.sizeOf_lt_of_mem h
  obtain ⟨k, v⟩ := e
  simp only [Prod.mk.sizeOf_spec, Content.map.sizeOf_spec] at *
  omega

theorem sizeOf_item {v : Content} {vs : List Content} (h : v ∈ vs) : sizeOf v < sizeOf (Content.seq vs) := by
  have := List.sizeOf_lt_of_mem h
  simp only [Content.seq.sizeOf_spec]
  omega

theorem sizeOf_mergeEntries {es fs : List (Content × Content)} (h : mergeEntries es = .ok fs) {e : Content × Content} (he : e ∈ fs) :
    sizeOf e.2 < sizeOf (Content.map es) := by
  unfold mergeEntries at h
  split at h
  · cases h; exact sizeOf_entry he
  · next merge mapping hs =>
    cases h
    obtain ⟨h1, h2⟩ := mem_of_swapRemove hs
    rcases mem_orInsertAll he with he | he
    · exact sizeOf_entry (h2 e he)
    · exact Nat.lt_trans (sizeOf_entry he) (sizeOf_entry h1)
  · next items mapping hs =>
    obtain ⟨h1, h2⟩ := mem_of_swapRemove hs
    rcases mem_mergeItems h he with he | ⟨f, hf, he⟩
    · exact sizeOf_entry (h2 e he)
    · exact Nat.lt_trans (sizeOf_entry he) (Nat.lt_trans (sizeOf_item hf) (sizeOf_entry h1))
  · cases h

/-- `Value::apply_merge`.  Simplified: the code keeps the nodes still to be visited on a stack and changes them in place; here
the function calls itself for the values of a mapping, after merging into it, and for the items of a sequence, in the order
in which they are taken from the stack. -/
def applyMerge : Content → Except MergeError Content
  | .map es =>
    match h : mergeEntries es with
    | .error e => .error e
    | .ok fs =>
      match fromLast fs fun e _ => (applyMerge e.2).map fun v => (e.1, v) with
      | .error e => .error e
      | .ok fs => .ok (.map fs)
  | .seq vs =>
    match fromLast vs fun v _ => applyMerge v with
    | .error e => .error e
    | .ok vs => .ok (.seq vs)
  | c => .ok c
termination_by c => sizeOf c
decreasing_by
  · exact sizeOf_mergeEntries h ‹_›
  · exact sizeOf_item ‹_›

end Rust
