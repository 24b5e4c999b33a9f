import Verif.Model.Lookup
import Verif.Props.Compare
import Verif.Props.Keys
import Verif.Props.Resource
import Verif.Proofs.Image

/- C87: values of the types used as keys are found by their text. -/

namespace Props
open Rust Compose Spec

/-- What the maps rely on. -/
private structure ByText {S : Type} (T : KeyType S) : Prop where
  new : ∀ s a, T.new s = some a → T.borrow a = s
  same : ∀ s t a b, T.new s = some a → T.new t = some b → (a = b ↔ s = t)
  eq : ∀ a b, T.eq a b = true ↔ T.borrow a = T.borrow b
  eqStr : ∀ a t, T.eqStr a t = true ↔ T.borrow a = t
  cmp : ∀ a b, T.cmp a b = compareStr (T.borrow a) (T.borrow b)
  hash : ∀ f a, T.hash f a = f (T.borrow a)

private theorem byText_key {S ε : Type} {new : Str → Except ε Str} (h : ∀ s t, new s = .ok t → t = s) :
    ByText (TextKey.type S new) := by
  have hn : ∀ s a, (TextKey.type S new).new s = some a → a = TextKey.mk s := by
    intro s a ha
    have ha' : (new s).toOption.map TextKey.mk = some a := ha
    obtain ⟨t, ht, rfl⟩ := Option.map_eq_some_iff.1 ha'
    cases hs : new s with
    | error e => rw [hs] at ht; cases ht
    | ok u => rw [hs] at ht; cases ht; rw [h s t hs]
  refine ⟨fun s a ha => by rw [hn s a ha]; rfl, fun s t a b ha hb => ?_, fun a b => ?_, fun a t => ?_, fun _ _ => rfl,
    fun _ _ => rfl⟩
  · rw [hn s a ha, hn t b hb]; exact ⟨fun e => congrArg TextKey.inner e, fun e => e ▸ rfl⟩
  · exact beq_iff_eq
  · exact beq_iff_eq

private theorem toOption_ok {ε α : Type} {e : Except ε α} {a : α} (h : e.toOption = some a) : e = .ok a := by
  cases e with
  | error _ => cases h
  | ok b => cases h; rfl

private theorem byText (S : Type) (T : KeyType S) (hT : T ∈ keyTypes S) : ByText T := by
  simp only [keyTypes, List.mem_cons, List.not_mem_nil, or_false] at hT
  rcases hT with rfl | rfl | rfl | rfl | rfl | rfl | rfl | rfl | rfl | rfl | rfl
  · exact byText_key fun s t h => ((C01_identifier_accepts s t).1 h).2
  · exact byText_key fun s t h => ((C03_map_key_accepts s t).1 h).2
  · exact byText_key fun s t h => ((C03_extension_key_accepts s t).1 h).2
  · exact byText_key fun s t h => ((C04_hostname_accepts s t).1 h).2
  · exact byText_key fun s t h => ((C06_ulimit_resource_accepts s t).1 h).2
  · exact byText_key fun s t h => ((C05_user_name_accepts s t).1 h).2
  · exact byText_key fun s t h => ((C06_cache_option_accepts s t).1 h).2
  · exact byText_key fun s t h => (Proofs.tagNew_iff.1 h).2
  · exact byText_key fun s t h => (Proofs.digestNew_iff.1 h).2
  · have hn : ∀ s a, (Image.Name.new s).toOption = some a → a = ⟨s, (Proofs.registryOf s).map byteLen⟩ :=
      fun s a h => (Proofs.nameNew_iff.1 (toOption_ok h)).2
    refine ⟨fun s a h => by rw [hn s a h]; rfl, fun s t a b ha hb => ?_, fun _ _ => beq_iff_eq, fun _ _ => beq_iff_eq,
      fun _ _ => rfl, fun _ _ => rfl⟩
    rw [hn s a ha, hn t b hb]
    exact ⟨fun e => congrArg Image.Name.inner e, fun e => by rw [e]⟩
  · have hi : ∀ s a, (Image.parse s).toOption = some a → a.inner = s := by
      intro s a h
      obtain ⟨name, t, rfl, -, -, -, rfl⟩ := Proofs.parse_iff.1 (toOption_ok h)
      rfl
    refine ⟨hi, fun s t a b ha hb => ⟨?_, ?_⟩, fun _ _ => beq_iff_eq, fun _ _ => beq_iff_eq, fun _ _ => rfl, fun _ _ => rfl⟩
    · rintro rfl; rw [← hi s a ha, hi t a hb]
    · rintro rfl; rw [ha] at hb; exact Option.some.inj hb

/-- C87: values made from texts are identical, equal, equal to a text, and ordered, exactly as the texts are; and they are
hashed like them. -/
theorem C87_agree {S : Type} (T : KeyType S) (hT : T ∈ keyTypes S) (s t : Str) (a b : T.Ty) (ha : T.new s = some a)
    (hb : T.new t = some b) :
    T.borrow a = s ∧ (a = b ↔ s = t) ∧ (T.eq a b = true ↔ s = t) ∧ (∀ u, T.eqStr a u = true ↔ s = u) ∧
    (T.cmp a b = .lt ↔ Before s t) ∧ (T.cmp a b = .eq ↔ s = t) ∧ (T.cmp a b = .gt ↔ Before t s) ∧
    ∀ hashStr, T.hash hashStr a = hashStr s := by
  have h := byText S T hT
  have e1 := h.new s a ha
  have e2 := h.new t b hb
  refine ⟨e1, h.same s t a b ha hb, ?_, fun u => ?_, ?_, ?_, ?_, fun f => ?_⟩
  · rw [h.eq, e1, e2]
  · rw [h.eqStr, e1]
  · rw [h.cmp, e1, e2, compareStr_lt]
  · rw [h.cmp, e1, e2, compareStr_eq]
  · rw [h.cmp, e1, e2, ← compareStr_lt, ← compareStr_swap]; cases compareStr t s <;> simp [Ordering.swap]
  · rw [h.hash, e1]

/-- The key of an extension is borrowed as its text, and its hash is that of the text. -/
example : (TextKey.type Nat extensionKeyNew).borrow ⟨"x-a".toList⟩ = "x-a".toList ∧
    ∀ hashStr, (TextKey.type Nat extensionKeyNew).hash hashStr ⟨"x-a".toList⟩ = hashStr "x-a".toList :=
  have h := C87_agree (TextKey.type Nat extensionKeyNew) (by simp [keyTypes]) "x-a".toList "x-b".toList ⟨"x-a".toList⟩ ⟨"x-b".toList⟩ rfl rfl
  ⟨h.1, h.2.2.2.2.2.2.2⟩

section Tables
variable {S V : Type} [DecidableEq S] (T : KeyType S) (hashStr : Str → S → S) (seed : S)

/-- The entries of a table, with the texts of their keys. -/
private def texts (m : HashTable S T.Ty V) : List (Str × V) := m.map fun e => (T.borrow e.2.1, e.2.2)

private def Hashed (m : HashTable S T.Ty V) : Prop := ∀ e ∈ m, e.1 = hashStr (T.borrow e.2.1) seed

private theorem found {T : KeyType S} {hashStr : Str → S → S} {seed : S} (h : ByText T) {e : S × T.Ty × V} {k : T.Ty}
    (he : e.1 = hashStr (T.borrow e.2.1) seed) :
    (decide (e.1 = T.hash hashStr k seed) && T.eq e.2.1 k) = decide (T.borrow e.2.1 = T.borrow k) := by
  rw [Bool.eq_iff_iff, Bool.and_eq_true, decide_eq_true_eq, decide_eq_true_eq, h.eq, h.hash, he]
  exact ⟨fun x => x.2, fun x => ⟨by rw [x], x⟩⟩

private theorem insert_replace {K : Type} [DecidableEq K] (m : List (K × V)) (hm : (m.map (·.1)).Nodup) (k : K) (v : V)
    (hk : k ∈ m.map (·.1)) : IndexMap.insert m k v = m.map fun e => if e.1 = k then (e.1, v) else e := by
  induction m with
  | nil => simp at hk
  | cons e m ih =>
    obtain ⟨k', v'⟩ := e
    rw [List.map_cons, List.nodup_cons] at hm
    rw [IndexMap.insert, List.map_cons]
    by_cases h : k' = k
    · subst h
      rw [if_pos rfl, if_pos rfl]
      congr 1
      conv_lhs => rw [← List.map_id m]
      refine List.map_congr_left fun e he => ?_
      rw [if_neg]
      · rfl
      · intro h; rw [← h] at hm; exact hm.1 (List.mem_map.2 ⟨e, he, rfl⟩)
    · rw [if_neg h, if_neg h]
      congr 1
      refine ih hm.2 ((List.mem_cons.1 hk).resolve_left fun e => h e.symm)

private theorem insert_step {T : KeyType S} {hashStr : Str → S → S} {seed : S} (h : ByText T)
    {m : HashTable S T.Ty V} (hm : Hashed T hashStr seed m) (hn : ((texts T m).map (·.1)).Nodup) (k : T.Ty) (v : V) :
    Hashed T hashStr seed (m.insert T hashStr seed k v) ∧
    texts T (m.insert T hashStr seed k v) = IndexMap.insert (texts T m) (T.borrow k) v := by
  have hany : (m.any fun e => decide (e.1 = T.hash hashStr k seed) && T.eq e.2.1 k) = true ↔
      T.borrow k ∈ (texts T m).map (·.1) := by
    rw [List.any_eq_true]
    simp only [texts, List.map_map, List.mem_map, Function.comp]
    constructor
    · rintro ⟨e, he, h1⟩
      rw [found h (hm e he), decide_eq_true_eq] at h1
      exact ⟨e, he, h1⟩
    · rintro ⟨e, he, h1⟩
      exact ⟨e, he, by rw [found h (hm e he), decide_eq_true_eq]; exact h1⟩
  unfold HashTable.insert
  by_cases hk : T.borrow k ∈ (texts T m).map (·.1)
  · dsimp only
    rw [if_pos (hany.2 hk)]
    constructor
    · intro e he
      obtain ⟨e', he', rfl⟩ := List.mem_map.1 he
      split
      · exact hm e' he'
      · exact hm e' he'
    · rw [insert_replace _ hn _ _ hk, texts, texts, List.map_map, List.map_map]
      refine List.map_congr_left fun e he => ?_
      simp only [Function.comp, found h (hm e he), decide_eq_true_eq]
      split <;> rfl
  · dsimp only
    rw [if_neg (fun x => hk (hany.1 x))]
    constructor
    · intro e he
      rcases List.mem_append.1 he with he | he
      · exact hm e he
      · obtain rfl := List.mem_singleton.1 he
        exact congrFun (h.hash hashStr k) seed
    · rw [IndexMap.insert_new hk]; simp [texts]

private theorem table {T : KeyType S} {hashStr : Str → S → S} {seed : S} (h : ByText T) (es : List (T.Ty × V)) :
    Hashed T hashStr seed (HashTable.ofEntries T hashStr seed es) ∧
    texts T (HashTable.ofEntries T hashStr seed es) = IndexMap.collect (es.map fun e => (T.borrow e.1, e.2)) := by
  induction es using List.reverseRecOn with
  | nil => exact ⟨nofun, rfl⟩
  | append_singleton es e ih =>
    have hn : ((texts T (HashTable.ofEntries T hashStr seed es)).map (·.1)).Nodup := by
      rw [ih.2, keys_collect]; exact nodup_firsts _
    have := insert_step h ih.1 hn e.1 e.2
    have e1 : HashTable.ofEntries T hashStr seed (es ++ [e]) =
        HashTable.insert T hashStr seed (HashTable.ofEntries T hashStr seed es) e.1 e.2 := by
      rw [HashTable.ofEntries, List.foldl_append]; rfl
    rw [e1]
    refine ⟨this.1, ?_⟩
    rw [this.2, ih.2, List.map_append, IndexMap.collect, IndexMap.collect, List.foldl_append]
    rfl

omit [DecidableEq S] in
private theorem find_congr {α : Type} {p q : α → Bool} {l : List α} (h : ∀ a ∈ l, p a = q a) : l.find? p = l.find? q := by
  induction l with
  | nil => rfl
  | cons a l ih =>
    rw [List.find?_cons, List.find?_cons, h a List.mem_cons_self, ih fun b hb => h b (List.mem_cons_of_mem _ hb)]

/-- C87: in a map filled with keys made from texts, whatever the hash function, getting the entry for a text gives the last
value that was inserted with this text. -/
theorem C87_lookup (hT : T ∈ keyTypes S) (es : List (Str × T.Ty × V)) (h : ∀ e ∈ es, T.new e.1 = some e.2.1) (t : Str) :
    HashTable.getStr T hashStr seed (HashTable.ofEntries T hashStr seed (es.map (·.2))) t =
      lastValue (es.map fun e => (e.1, e.2.2)) t := by
  have hb := byText S T hT
  obtain ⟨h1, h2⟩ := table (hashStr := hashStr) (seed := seed) hb (es.map (·.2))
  have he : (es.map (·.2)).map (fun e => (T.borrow e.1, e.2)) = es.map fun e => (e.1, e.2.2) := by
    rw [List.map_map]
    exact List.map_congr_left fun e he => by rw [Function.comp, hb.new _ _ (h e he)]
  rw [he] at h2
  rw [← get_collect_last, ← h2, IndexMap.get, texts, List.find?_map, Option.map_map, HashTable.getStr]
  congr 1
  refine find_congr fun e he => ?_
  rw [Bool.eq_iff_iff, Bool.and_eq_true, decide_eq_true_eq, beq_iff_eq, Function.comp, decide_eq_true_eq, h1 e he]
  exact ⟨fun x => x.2, fun x => ⟨congrArg (hashStr · seed) x, x⟩⟩

/-- C87: such a map has one entry for every text, in the order in which the texts first came. -/
theorem C87_entries (hT : T ∈ keyTypes S) (es : List (Str × T.Ty × V)) (h : ∀ e ∈ es, T.new e.1 = some e.2.1) :
    Table (es.map fun e => (e.1, e.2.2))
      ((HashTable.ofEntries T hashStr seed (es.map (·.2))).map fun e => (T.borrow e.2.1, e.2.2)) := by
  have hb := byText S T hT
  have he : (es.map (·.2)).map (fun e => (T.borrow e.1, e.2)) = es.map fun e => (e.1, e.2.2) := by
    rw [List.map_map]
    exact List.map_congr_left fun e he => by rw [Function.comp, hb.new _ _ (h e he)]
  rw [table_iff, ← he]
  exact (table hb _).2

end Tables

/-- The hash of a text is its length: many texts have the same. -/
example : HashTable.getStr (TextKey.type Nat identifierNew) (fun s h => h + s.length) 0
    (HashTable.ofEntries (TextKey.type Nat identifierNew) (fun s h => h + s.length) 0
      [(⟨"web".toList⟩, 1), (⟨"app".toList⟩, 2), (⟨"web".toList⟩, 3)]) "web".toList = some 3 := by decide
example : ∃ T ∈ keyTypes Nat, ∃ a : T.Ty, T.new "x-a".toList = some a ∧ T.borrow a = "x-a".toList :=
  ⟨TextKey.type Nat extensionKeyNew, by simp [keyTypes], ⟨"x-a".toList⟩, rfl, rfl⟩

/-- The theorems apply to such entries, whatever the hash function. -/
example (hashStr : Str → Nat → Nat) (seed : Nat) : HashTable.getStr (TextKey.type Nat identifierNew) hashStr seed
    (HashTable.ofEntries (TextKey.type Nat identifierNew) hashStr seed
      [(⟨"web".toList⟩, 1), (⟨"app".toList⟩, 2), (⟨"web".toList⟩, 3)]) "web".toList = some 3 :=
  (C87_lookup (TextKey.type Nat identifierNew) hashStr seed (by simp [keyTypes])
    [("web".toList, ⟨"web".toList⟩, 1), ("app".toList, ⟨"app".toList⟩, 2), ("web".toList, ⟨"web".toList⟩, 3)]
    (by simp only [List.forall_mem_cons]; exact ⟨rfl, rfl, rfl, fun _ h => by cases h⟩) "web".toList).trans (by decide)

end Props
