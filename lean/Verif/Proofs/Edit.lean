import Verif.Spec.Edit
import Verif.Proofs.Order

/- Reading documents in which one setting has been edited. -/

namespace Proofs
open Rust Compose Compose.Derive Compose.Codecs Spec
open Props hiding mapping entriesOf_mapping

/-! ### Documents -/

theorem _root_.Spec.Edited.symm {p : List Str} {v w : Content} (h : Edited p v w) : Edited p w v := by
  induction h with
  | here => exact .here
  | value h _ ih => exact .value h ih
  | add h => exact .remove h
  | remove h => exact .add h

theorem _root_.Spec.DifferAt.symm {p : List Str} {v w : Content} (h : DifferAt p v w) : DifferAt p w v := by
  induction h with
  | here => exact .here
  | same => exact .same
  | order h => exact .order h.symm
  | value h1 h2 _ ih => exact .value h2 h1 ih
  | missingLeft h _ ih => exact .missingRight h ih
  | missingRight h _ ih => exact .missingLeft h ih

theorem _root_.Spec.Edited.differ {p : List Str} {v w : Content} (h : Edited p v w) : DifferAt p v w := by
  induction h with
  | here => exact .here
  | value _ _ ih => exact .value List.perm_middle List.perm_middle ih
  | add _ => exact .missingLeft List.perm_middle .here
  | remove _ => exact .missingRight List.perm_middle .here

/-- Where the path leads into a document, there are mappings. -/
theorem edited_maps {k : Str} {p : List Str} {v w : Content} (h : Edited (k :: p) v w) : ∃ es fs, v = .map es ∧ w = .map fs := by
  cases h <;> exact ⟨_, _, rfl, rfl⟩

/-! ### Entries with strings as keys -/

/-- The same for the entries of a mapping whose keys are strings. -/
inductive EditedEntry (k : Str) : List Str → List (Str × Content) → List (Str × Content) → Prop
  | value {a b : List (Str × Content)} {p : List Str} {v w : Content} : k ∉ (a ++ b).map (·.1) → Edited p v w →
      EditedEntry k p (a ++ (k, v) :: b) (a ++ (k, w) :: b)
  | add {a b : List (Str × Content)} {w : Content} : k ∉ (a ++ b).map (·.1) → EditedEntry k [] (a ++ b) (a ++ (k, w) :: b)
  | remove {a b : List (Str × Content)} {v : Content} : k ∉ (a ++ b).map (·.1) → EditedEntry k [] (a ++ (k, v) :: b) (a ++ b)

theorem EditedEntry.symm {k : Str} {p : List Str} {es fs : List (Str × Content)} (h : EditedEntry k p es fs) : EditedEntry k p fs es := by
  cases h with
  | value h1 h2 => exact .value h1 h2.symm
  | add h => exact .remove h
  | remove h => exact .add h

theorem fresh_strs {k : Str} {a b : List (Str × Content)}
    (h : Content.str k ∉ ((a.map fun e => (Content.str e.1, e.2)) ++ b.map fun e => (Content.str e.1, e.2)).map (·.1)) :
    k ∉ (a ++ b).map (·.1) := by
  intro hk
  refine h ?_
  rw [← List.map_append, List.map_map]
  obtain ⟨e, he, rfl⟩ := List.mem_map.1 hk
  exact List.mem_map.2 ⟨e, he, rfl⟩

theorem mapping_inj {es fs : List (Str × Content)} (h : Derive.mapping es = Derive.mapping fs) : es = fs := by
  have := congrArg entriesOf h
  rw [entriesOf_mapping, entriesOf_mapping] at this
  exact Option.some.inj this

theorem edited_mapping {k : Str} {p : List Str} {es fs : List (Str × Content)}
    (h : Edited (k :: p) (Derive.mapping es) (Derive.mapping fs)) : EditedEntry k p es fs := by
  generalize hv : Derive.mapping es = v at h
  generalize hw : Derive.mapping fs = w at h
  cases h with
  | @value a b _ _ v w h1 h2 =>
    obtain ⟨a, x, b, rfl, hx, rfl, rfl⟩ := mapping_eq hv
    cases hx
    have : fs = a ++ (k, w) :: b := mapping_inj (hw.trans (by simp [Derive.mapping]))
    subst this
    exact .value (fresh_strs h1) h2
  | @add a b _ w h1 =>
    obtain ⟨a, x, b, rfl, hx, rfl, rfl⟩ := mapping_eq hw
    cases hx
    have : es = a ++ b := mapping_inj (hv.trans (by simp [Derive.mapping]))
    subst this
    exact .add (fresh_strs h1)
  | @remove a b _ w h1 =>
    obtain ⟨a, x, b, rfl, hx, rfl, rfl⟩ := mapping_eq hv
    cases hx
    have : fs = a ++ b := mapping_inj (hw.trans (by simp [Derive.mapping]))
    subst this
    exact .remove (fresh_strs h1)

theorem fresh_filter {k : Str} {a b : List (Str × Content)} {p : Str × Content → Bool} (h : k ∉ (a ++ b).map (·.1)) :
    k ∉ (a.filter p ++ b.filter p).map (·.1) := by
  rw [← List.filter_append]
  exact fun hk => h ((List.filter_sublist.map _).subset hk)

theorem EditedEntry.filter {k : Str} {p : List Str} {es fs : List (Str × Content)} (h : EditedEntry k p es fs) {q : Str → Bool}
    (hq : q k = true) : EditedEntry k p (es.filter fun e => q e.1) (fs.filter fun e => q e.1) := by
  cases h with
  | value h1 h2 =>
    simp only [List.filter_append, List.filter_cons, hq, if_true]
    exact .value (fresh_filter h1) h2
  | add h1 =>
    simp only [List.filter_append, List.filter_cons, hq, if_true]
    exact .add (fresh_filter h1)
  | remove h1 =>
    simp only [List.filter_append, List.filter_cons, hq, if_true]
    exact .remove (fresh_filter h1)

theorem EditedEntry.filter_same {k : Str} {p : List Str} {es fs : List (Str × Content)} (h : EditedEntry k p es fs) {q : Str → Bool}
    (hq : q k = false) : (es.filter fun e => q e.1) = fs.filter fun e => q e.1 := by
  cases h <;> simp only [List.filter_append, List.filter_cons, hq] <;> rfl

theorem EditedEntry.given_same {k k' : Str} {p : List Str} {es fs : List (Str × Content)} (h : EditedEntry k p es fs) (hk : k ≠ k') :
    given es k' = given fs k' :=
  congrArg (List.map Prod.snd) (h.filter_same (q := fun e => decide (e = k')) (by simpa using hk))

theorem given_fresh {k : Str} {es : List (Str × Content)} (h : k ∉ es.map (·.1)) : given es k = [] := by
  unfold given
  rw [List.map_eq_nil_iff, List.filter_eq_nil_iff]
  intro e he
  have : e.1 ≠ k := fun h' => h (h' ▸ List.mem_map_of_mem he)
  simpa using this

/-- What is given for the key itself. -/
theorem EditedEntry.given {k : Str} {p : List Str} {es fs : List (Str × Content)} (h : EditedEntry k p es fs) :
    (∃ v w, Spec.given es k = [v] ∧ Spec.given fs k = [w] ∧ Edited p v w) ∨
      (p = [] ∧ ((∃ w, Spec.given es k = [] ∧ Spec.given fs k = [w]) ∨ ∃ v, Spec.given es k = [v] ∧ Spec.given fs k = [])) := by
  have hf : ∀ {a b : List (Str × Content)}, k ∉ (a ++ b).map (·.1) → Spec.given a k = [] ∧ Spec.given b k = [] := fun h => by
    simp only [List.map_append, List.mem_append, not_or] at h
    exact ⟨given_fresh h.1, given_fresh h.2⟩
  cases h with
  | value h1 h2 => simp [given_append, given_cons, hf h1, h2]
  | add h1 => simp [given_append, given_cons, hf h1]
  | remove h1 => simp [given_append, given_cons, hf h1]

/-- Lists of entries differ at most at a path that begins with a key. -/
inductive DifferEntry (k : Str) (p : List Str) (es fs : List (Str × Content)) : Prop
  | order : es.Perm fs → DifferEntry k p es fs
  | value {others : List (Str × Content)} {v w : Content} : es.Perm ((k, v) :: others) → fs.Perm ((k, w) :: others) → DifferAt p v w →
      DifferEntry k p es fs
  | missingLeft {w : Content} : fs.Perm ((k, w) :: es) → DifferAt p (.map []) w → DifferEntry k p es fs
  | missingRight {v : Content} : es.Perm ((k, v) :: fs) → DifferAt p v (.map []) → DifferEntry k p es fs

namespace DifferEntry
variable {k : Str} {p : List Str} {es fs gs es' fs' : List (Str × Content)}

theorem mapping (h : DifferEntry k p es fs) : DifferAt (k :: p) (Derive.mapping es) (Derive.mapping fs) := by
  cases h with
  | order h => exact .order (h.map _)
  | value h1 h2 h3 => exact .value (h1.map _) (h2.map _) h3
  | missingLeft h1 h2 => exact .missingLeft (h1.map _) h2
  | missingRight h1 h2 => exact .missingRight (h1.map _) h2

theorem perm (h : DifferEntry k p es fs) (he : es.Perm es') (hf : fs.Perm fs') : DifferEntry k p es' fs' := by
  cases h with
  | order h => exact .order (he.symm.trans (h.trans hf))
  | value h1 h2 h3 => exact .value (he.symm.trans h1) (hf.symm.trans h2) h3
  | missingLeft h1 h2 => exact .missingLeft (hf.symm.trans (h1.trans (he.cons _))) h2
  | missingRight h1 h2 => exact .missingRight (he.symm.trans (h1.trans (hf.cons _))) h2

theorem symm (h : DifferEntry k p es fs) : DifferEntry k p fs es := by
  cases h with
  | order h => exact .order h.symm
  | value h1 h2 h3 => exact .value h2 h1 h3.symm
  | missingLeft h1 h2 => exact .missingRight h1 h2.symm
  | missingRight h1 h2 => exact .missingLeft h1 h2.symm

theorem append_right (h : DifferEntry k p es fs) (gs : List (Str × Content)) : DifferEntry k p (es ++ gs) (fs ++ gs) := by
  cases h with
  | order h => exact .order (h.append_right _)
  | value h1 h2 h3 => exact .value (h1.append_right _) (h2.append_right _) h3
  | missingLeft h1 h2 => exact .missingLeft (h1.append_right _) h2
  | missingRight h1 h2 => exact .missingRight (h1.append_right _) h2

theorem append_left (h : DifferEntry k p es fs) (gs : List (Str × Content)) : DifferEntry k p (gs ++ es) (gs ++ fs) :=
  (h.append_right gs).perm List.perm_append_comm List.perm_append_comm

theorem refl : DifferEntry k p es es := .order (.refl _)

/-- An entry that is left out counts as an empty mapping. -/
theorem entry {a b : Bool} {v w : Content} (h : DifferAt p (if a then .map [] else v) (if b then .map [] else w)) :
    DifferEntry k p (if a then [] else [(k, v)]) (if b then [] else [(k, w)]) := by
  cases a <;> cases b
  · exact .value (.refl _) (.refl _) h
  · exact .missingRight (.refl _) h
  · exact .missingLeft (.refl _) h
  · exact .refl

end DifferEntry

theorem EditedEntry.differ {k : Str} {p : List Str} {es fs : List (Str × Content)} (h : EditedEntry k p es fs) : DifferEntry k p es fs := by
  cases h with
  | value _ h => exact .value List.perm_middle List.perm_middle h.differ
  | add _ => exact .missingLeft List.perm_middle .here
  | remove _ => exact .missingRight List.perm_middle .here

/-! ### Types -/

/-- If the setting at a path of a document is edited, where the path satisfies a condition, then the documents that are
written of what is read differ at most there. -/
def LocalOn {α : Type} (P : List Str → Prop) (c : Codec α) : Prop :=
  ∀ p v w x y, P p → Edited p v w → c.de v = .ok x → c.de w = .ok y → DifferAt p (c.ser x) (c.ser y)

/-- The same for all paths. -/
class Local {α : Type} (c : Codec α) : Prop where
  all : LocalOn (fun _ => True) c

/-- Mappings are not read. -/
class NoMap {α : Type} (c : Codec α) : Prop where
  map : ∀ es x, c.de (.map es) ≠ .ok x

theorem Local.any {α : Type} {c : Codec α} [h : Local c] (P : List Str → Prop) : LocalOn P c :=
  fun p v w x y _ hv => h.all p v w x y trivial hv

instance {α : Type} {c : Codec α} [h : Scalar c] : NoMap c := ⟨h.map⟩

theorem NoMap.no {α : Type} {c : Codec α} [h : NoMap c] {p : List Str} (hp : p ≠ []) {v w : Content} (hv : Edited p v w) (x : α) :
    c.de v ≠ .ok x := by
  cases p with
  | nil => exact absurd rfl hp
  | cons k p => obtain ⟨es, _, rfl, _⟩ := edited_maps hv; exact h.map es x

theorem localOn_of {α : Type} {P : List Str → Prop} {c : Codec α}
    (h : ∀ k p es fs x y, P (k :: p) → Edited (k :: p) (.map es) (.map fs) → c.de (.map es) = .ok x → c.de (.map fs) = .ok y →
      DifferAt (k :: p) (c.ser x) (c.ser y)) : LocalOn P c := by
  intro p v w x y hp hv hx hy
  cases p with
  | nil => exact .here
  | cons k p =>
    obtain ⟨es, fs, rfl, rfl⟩ := edited_maps hv
    exact h k p es fs x y hp hv hx hy

instance {α : Type} {c : Codec α} [h : NoMap c] : Local c := ⟨localOn_of fun _ _ es _ x _ _ _ hx => absurd hx (h.map es x)⟩

/-! ### Structs -/

/-- The same for a field, which may be left out. -/
def FieldLocal (P : List Str → Prop) (f : Field) : Prop :=
  ∀ p v w x y, P p → p ≠ [] → Edited p v w → f.codec.de v = .ok x → f.codec.de w = .ok y →
    DifferAt p (if f.skip x then .map [] else f.codec.ser x) (if f.skip y then .map [] else f.codec.ser y)

/-- The same for a flattened field. -/
def FlatLocal (P : List Str → Prop) (f : Flat) : Prop :=
  ∀ k p es fs x y, P (k :: p) → EditedEntry k p es fs → f.read es = .ok x → f.read fs = .ok y → DifferEntry k p (f.write x) (f.write y)

/-- The same for a field of either kind. -/
structure ItemLocal (P : List Str → Prop) (i : Item) : Prop where
  field : ∀ f, i = .field f → FieldLocal (fun p => P (f.key :: p)) f
  flat : ∀ f, i = .flat f → FlatLocal P f

/-- A key belongs to a field. -/
def Belongs (own : List Str) (k : Str) : Item → Prop
  | .field f => f.key = k
  | .flat f => match f.keys with
    | some ks => k ∈ ks
    | none => k ∉ own

theorem entriesFor_same {own : List Str} {f : Flat} {k : Str} {p : List Str} {es fs : List (Str × Content)} (h : EditedEntry k p es fs)
    (hb : ¬ Belongs own k (.flat f)) : entriesFor own f es = entriesFor own f fs := by
  unfold entriesFor
  simp only [Belongs] at hb
  cases hf : f.keys with
  | none =>
    rw [hf] at hb
    have := h.filter_same (q := fun k => decide (k ∉ own)) (by simpa using hb)
    simpa using this
  | some ks =>
    rw [hf] at hb
    exact h.filter_same (q := fun k => decide (k ∈ ks)) (by simpa using hb)

theorem entriesFor_edited {own : List Str} {f : Flat} {k : Str} {p : List Str} {es fs : List (Str × Content)} (h : EditedEntry k p es fs)
    (hb : Belongs own k (.flat f)) : EditedEntry k p (entriesFor own f es) (entriesFor own f fs) := by
  unfold entriesFor
  simp only [Belongs] at hb
  cases hf : f.keys with
  | none =>
    rw [hf] at hb
    have := h.filter (q := fun k => decide (k ∉ own)) (by simpa using hb)
    simpa using this
  | some ks =>
    rw [hf] at hb
    exact h.filter (q := fun k => decide (k ∈ ks)) (by simpa using hb)

theorem standsFor_cons {own : List Str} {i : Item} {is : List Item} {es : List (Str × Content)} {x : i.Ty} {r : Record is} :
    StandsFor own es (i :: is) (x, r) ↔ StandsFor own es [i] (x, ()) ∧ StandsFor own es is r := by
  cases i <;> exact ⟨fun h => ⟨⟨h.1, trivial⟩, h.2⟩, fun h => ⟨h.1.1, h.2⟩⟩

theorem standsFor_unique {own : List Str} {is : List Item} {es fs : List (Str × Content)}
    (hf : ∀ f, .field f ∈ is → given es f.key = given fs f.key) (hl : ∀ f, .flat f ∈ is → entriesFor own f es = entriesFor own f fs)
    {r r' : Record is} (hr : StandsFor own es is r) (hr' : StandsFor own fs is r') : r = r' := by
  induction is with
  | nil => rfl
  | cons i is ih =>
    obtain ⟨x, r⟩ := r
    obtain ⟨y, r'⟩ := r'
    have hrest := ih (fun f h => hf f (List.mem_cons_of_mem _ h)) (fun f h => hl f (List.mem_cons_of_mem _ h))
      (standsFor_cons.1 hr).2 (standsFor_cons.1 hr').2
    subst hrest
    congr 1
    cases i with
    | field f =>
      have h := hf f (List.mem_cons_self ..)
      rcases hr.1 with ⟨v, h1, h2⟩ | ⟨h1, h2⟩ <;> rcases hr'.1 with ⟨w, h3, h4⟩ | ⟨h3, h4⟩ <;> rw [h, h3] at h1 <;> cases h1
      · rw [h2] at h4; exact Outcome.ok.inj h4
      · rw [h2] at h4; exact Option.some.inj h4
    | flat f =>
      have h := hr.1
      rw [hl f (List.mem_cons_self ..), hr'.1] at h
      exact (Outcome.ok.inj h).symm

theorem standsFor_same {own : List Str} {k : Str} {p : List Str} {is : List Item} {es fs : List (Str × Content)} (h : EditedEntry k p es fs)
    (hb : ∀ i ∈ is, ¬ Belongs own k i) {r r' : Record is} (hr : StandsFor own es is r) (hr' : StandsFor own fs is r') : r = r' :=
  standsFor_unique (fun f hf => h.given_same fun e => hb _ hf e.symm) (fun _ hf => entriesFor_same h (hb _ hf)) hr hr'

theorem belongs_one {own : List Str} {k : Str} {is : List Item} (hn : (ownKeys is).Nodup) (ho : ∀ k ∈ ownKeys is, k ∈ own)
    (hl : restLast is = true) : is.Pairwise fun i j => ¬ (Belongs own k i ∧ Belongs own k j) := by
  have hmem : ∀ {is : List Item} {j : Item}, j ∈ is → Belongs own k j → k ∈ ownKeys is ∨ (k ∉ own ∧ ∃ f, j = .flat f) := by
    intro is j hj hb
    induction is with
    | nil => cases hj
    | cons i is ih =>
      rcases List.mem_cons.1 hj with rfl | hj
      · cases j with
        | field f => exact .inl (hb ▸ List.mem_cons_self ..)
        | flat f =>
          cases hf : f.keys with
          | none => simp only [Belongs, hf] at hb; exact .inr ⟨hb, f, rfl⟩
          | some ks => simp only [Belongs, hf] at hb; exact .inl (by simp [ownKeys, hf, hb])
      · refine (ih hj).imp ?_ id
        intro h
        cases i <;> simp [ownKeys, h]
  induction is with
  | nil => exact .nil
  | cons i is ih =>
    refine List.pairwise_cons.2 ⟨fun j hj ⟨hi, hb⟩ => ?_, ?_⟩
    · cases i with
      | field f =>
        obtain rfl : f.key = k := hi
        rw [ownKeys, List.nodup_cons] at hn
        rcases hmem hj hb with h | h
        · exact hn.1 h
        · exact h.1 (ho _ (List.mem_cons_self ..))
      | flat f =>
        cases hf : f.keys with
        | none =>
          simp only [Belongs, hf] at hi
          rcases hmem hj hb with h | ⟨_, g, rfl⟩
          · exact hi (ho _ (by simp [ownKeys, h]))
          · simp only [restLast, hf] at hl
            clear ih hmem hn ho hb
            induction is with
            | nil => cases hj
            | cons i is ih =>
              cases i with
              | field _ =>
                rcases List.mem_cons.1 hj with h | h
                · cases h
                · exact ih h hl
              | flat _ => cases hl
        | some ks =>
          simp only [Belongs, hf] at hi
          simp only [ownKeys, hf, Option.getD_some, List.nodup_append] at hn
          rcases hmem hj hb with h | h
          · exact hn.2.2 k hi k h rfl
          · exact h.1 (ho _ (by simp [ownKeys, hf, hi]))
    · refine ih ?_ (fun k h => ho k (by cases i <;> simp [ownKeys, h])) ?_
      · cases i with
        | field f => exact (List.nodup_cons.1 hn).2
        | flat f => exact (List.nodup_append.1 hn).2.1
      · cases i with
        | field f => exact hl
        | flat f =>
          simp only [restLast, Bool.and_eq_true] at hl
          exact hl.2

theorem standsFor_edited {P : List Str → Prop} {own : List Str} {k : Str} {p : List Str} {is : List Item} (hp : P (k :: p))
    (hi : ∀ i ∈ is, ItemLocal P i) (hb : is.Pairwise fun i j => ¬ (Belongs own k i ∧ Belongs own k j))
    {es fs : List (Str × Content)} (h : EditedEntry k p es fs) {r r' : Record is} (hr : StandsFor own es is r)
    (hr' : StandsFor own fs is r') : DifferEntry k p (write is r) (write is r') := by
  induction is with
  | nil => exact .refl
  | cons i is ih =>
    obtain ⟨hi, his⟩ := List.forall_mem_cons.1 hi
    obtain ⟨hb1, hb2⟩ := List.pairwise_cons.1 hb
    obtain ⟨x, r⟩ := r
    obtain ⟨y, r'⟩ := r'
    by_cases hk : Belongs own k i
    · have hrest : r = r' := standsFor_same h (fun j hj hj' => hb1 j hj ⟨hk, hj'⟩) (standsFor_cons.1 hr).2
        (standsFor_cons.1 hr').2
      subst hrest
      cases i with
      | field f =>
        obtain rfl : f.key = k := hk
        refine DifferEntry.append_right (DifferEntry.entry ?_) _
        cases p with
        | nil => exact .here
        | cons k' p =>
          rcases h.given with ⟨v, w, h1, h2, h3⟩ | ⟨h1, _⟩
          · rcases hr.1 with ⟨v', h4, h5⟩ | ⟨h4, _⟩ <;> rw [h1] at h4 <;> cases h4
            rcases hr'.1 with ⟨w', h6, h7⟩ | ⟨h6, _⟩ <;> rw [h2] at h6 <;> cases h6
            exact hi.field f rfl _ v w x y hp (by simp) h3 h5 h7
          · cases h1
      | flat f => exact DifferEntry.append_right (hi.flat f rfl k p _ _ x y hp (entriesFor_edited h hk) hr.1 hr'.1) _
    · have hx : x = y := by
        have := standsFor_same h (is := [i]) (by simpa using hk) (standsFor_cons.1 hr).1 (standsFor_cons.1 hr').1
        exact congrArg Prod.fst this
      subst hx
      have := ih his hb2 (standsFor_cons.1 hr).2 (standsFor_cons.1 hr').2
      cases i <;> exact this.append_left _

theorem decode_edited {P : List Str → Prop} {k : Str} {p : List Str} {is : List Item} (hg : GoodFields is) (hp : P (k :: p))
    (hi : ∀ i ∈ is, ItemLocal P i) {es fs : List (Str × Content)} (h : EditedEntry k p es fs) {r r' : Record is}
    (hr : decode is es = .ok r) (hr' : decode is fs = .ok r') : DifferEntry k p (write is r) (write is r') :=
  standsFor_edited hp hi (belongs_one hg.distinct (fun _ h => h) hg.last) h ((decode_ok hg _ _).1 hr) ((decode_ok hg _ _).1 hr')

theorem struct_local {P : List Str → Prop} {is : List Item} (hg : GoodFields is) (hi : ∀ i ∈ is, ItemLocal P i) :
    LocalOn P (struct is) := by
  refine localOn_of fun k p es fs r r' hp hv hr hr' => ?_
  rw [struct_de_other (fun _ h => by cases h)] at hr hr'
  obtain ⟨es', h1, h2⟩ := Outcome.bind_eq_ok.1 hr
  obtain ⟨fs', h3, h4⟩ := Outcome.bind_eq_ok.1 hr'
  rw [entriesOf_iff.1 (Outcome.ofOption_eq_ok.1 h1), entriesOf_iff.1 (Outcome.ofOption_eq_ok.1 h3)] at hv
  exact (decode_edited hg hp hi (edited_mapping hv) h2 h4).mapping

theorem nested_local {P : List Str → Prop} {is : List Item} (hg : GoodFields is) (hi : ∀ i ∈ is, ItemLocal P i) :
    ItemLocal P (nested is) where
  field f hf := by cases hf
  flat f hf := by
    obtain rfl := Item.flat.inj hf
    exact fun k p es fs x y hp h hx hy => decode_edited hg hp hi h hx hy

/-- The same for the fields of a struct, for all paths. -/
class ItemEverywhere (i : Item) : Prop where
  all : ItemLocal (fun _ => True) i

/-- The same for all fields of a struct. -/
class ItemsEverywhere (is : List Item) : Prop where
  all : ∀ i ∈ is, ItemEverywhere i

instance : ItemsEverywhere [] := ⟨fun _ h => by cases h⟩

instance {i : Item} {is : List Item} [h : ItemEverywhere i] [hs : ItemsEverywhere is] : ItemsEverywhere (i :: is) :=
  ⟨List.forall_mem_cons.2 ⟨h, hs.all⟩⟩

theorem ItemEverywhere.any {i : Item} (P : List Str → Prop) [h : ItemEverywhere i] : ItemLocal P i where
  field f hf p v w x y _ := h.all.field f hf p v w x y trivial
  flat f hf k p es fs x y _ := h.all.flat f hf k p es fs x y trivial

instance {is : List Item} {own : List Str} [Keys is own] [DistinctKeys own] [h : ItemsEverywhere is] : Local (struct is) :=
  ⟨struct_local table_good fun i hi => (h.all i hi).all⟩

instance {is : List Item} {own : List Str} [Keys is own] [DistinctKeys own] [h : ItemsEverywhere is] : ItemEverywhere (nested is) :=
  ⟨nested_local table_good fun i hi => (h.all i hi).all⟩

end Proofs
