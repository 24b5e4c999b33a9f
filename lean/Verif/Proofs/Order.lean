import Verif.Spec.Order
import Verif.Proofs.StructKnown
import Verif.Props.Structs
import Verif.Props.ListOrMap

/- Reading documents that differ in the order of their keys. -/

namespace Proofs
open Rust Compose Compose.Derive Compose.Codecs Spec
open Props hiding mapping entriesOf_mapping

/-! ### Documents -/

theorem _root_.Spec.Exchanged.mono {F G : Fixed} {v w : Content} (h : Exchanged F v w) (hg : ∀ p k, G p k → F p k) : Exchanged G v w := by
  induction h generalizing G with
  | here h1 h2 => exact .here h1 fun h => h2 ⟨hg _ _ h.1, hg _ _ h.2⟩
  | item _ ih => exact .item (ih fun p k => hg _ k)
  | value _ ih => exact .value (ih fun p k => hg _ k)

theorem _root_.Spec.Exchanged.free {F : Fixed} {v w : Content} (h : Exchanged F v w) : Exchanged Fixed.nothing v w :=
  h.mono fun _ _ h => h.elim

theorem _root_.Spec.Exchanged.symm {F : Fixed} {v w : Content} (h : Exchanged F v w) : Exchanged F w v := by
  induction h with
  | here h1 h2 => exact .here h1.symm fun h => h2 h.symm
  | item _ ih => exact .item ih
  | value _ ih => exact .value ih

theorem _root_.Spec.Reordered.symm {F : Fixed} {v w : Content} (h : Reordered F v w) : Reordered F w v := by
  induction h with
  | refl => exact .refl
  | tail _ h ih => exact .head h.symm ih

theorem _root_.Spec.Reordered.mono {F G : Fixed} {v w : Content} (h : Reordered F v w) (hg : ∀ p k, G p k → F p k) : Reordered G v w := by
  induction h with
  | refl => exact .refl
  | tail _ h ih => exact .tail ih (h.mono hg)

/-- What mappings and sequences become. -/
theorem exchanged_map {F : Fixed} {es : List (Content × Content)} {w : Content} (h : Exchanged F (.map es) w) :
    ∃ fs, w = .map fs := by
  generalize hv : Content.map es = v at h
  cases h <;> first | exact ⟨_, rfl⟩ | cases hv

theorem exchanged_seq {F : Fixed} {vs : List Content} {w : Content} (h : Exchanged F (.seq vs) w) :
    ∃ a v b v', vs = a ++ v :: b ∧ w = .seq (a ++ v' :: b) ∧ Exchanged (F.after .item) v v' := by
  generalize hv : Content.seq vs = v at h
  cases h with
  | item h => cases hv; exact ⟨_, _, _, _, rfl, rfl, h⟩
  | _ => cases hv

theorem reordered_item {a b : List Content} {v w : Content} (h : SameButOrder v w) :
    SameButOrder (.seq (a ++ v :: b)) (.seq (a ++ w :: b)) := by
  induction h with
  | refl => exact .refl
  | tail _ h ih => exact .tail ih (.item h)

theorem reordered_value {a b : List (Content × Content)} {k v w : Content} (h : SameButOrder v w) :
    SameButOrder (.map (a ++ (k, v) :: b)) (.map (a ++ (k, w) :: b)) := by
  induction h with
  | refl => exact .refl
  | tail _ h ih => exact .tail ih (.value h)

theorem exchanged_context {F : Fixed} {a b es fs : List (Content × Content)} (h : Exchanged F (.map es) (.map fs)) :
    Exchanged F (.map (a ++ es ++ b)) (.map (a ++ fs ++ b)) := by
  generalize hv : Content.map es = v at h
  generalize hw : Content.map fs = w at h
  cases h with
  | @here _ a' b' k k' v v' h1 h2 =>
    cases hv; cases hw
    have := Exchanged.here (F := F) (a := a ++ a') (b := b' ++ b) (v := v) (v' := v') h1 h2
    simpa using this
  | item => cases hv
  | @value _ a' b' k v w h =>
    cases hv; cases hw
    have := Exchanged.value (a := a ++ a') (b := b' ++ b) h
    simpa using this

theorem reordered_context {a b es fs : List (Content × Content)} (h : SameButOrder (.map es) (.map fs)) :
    SameButOrder (.map (a ++ es ++ b)) (.map (a ++ fs ++ b)) := by
  generalize hv : Content.map fs = w at h
  induction h generalizing fs with
  | refl => cases hv; exact .refl
  | @tail x y h1 h2 ih =>
    subst hv
    obtain ⟨gs, rfl⟩ := exchanged_map h2.symm
    exact .tail (ih rfl) (exchanged_context h2)

theorem reordered_append {a a' b b' : List (Content × Content)} (h : SameButOrder (.map a) (.map a'))
    (h' : SameButOrder (.map b) (.map b')) : SameButOrder (.map (a ++ b)) (.map (a' ++ b')) := by
  have h1 := reordered_context (a := []) (b := b) h
  have h2 := reordered_context (a := a') (b := []) h'
  simp only [List.nil_append, List.append_nil] at h1 h2
  exact h1.trans h2

theorem reordered_cons {k v w : Content} {es fs : List (Content × Content)} (h : SameButOrder v w)
    (h' : SameButOrder (.map es) (.map fs)) : SameButOrder (.map ((k, v) :: es)) (.map ((k, w) :: fs)) :=
  reordered_append (a := [(k, v)]) (a' := [(k, w)]) (reordered_value (a := []) (b := []) h) h'

theorem reordered_items {vs ws : List Content} (h : List.Forall₂ SameButOrder vs ws) :
    SameButOrder (.seq vs) (.seq ws) := by
  suffices ∀ a, SameButOrder (.seq (a ++ vs)) (.seq (a ++ ws)) from this []
  induction h with
  | nil => exact fun a => .refl
  | @cons _ y _ _ h _ ih =>
    intro a
    refine (reordered_item h).trans ?_
    have := ih (a ++ [y])
    rwa [List.append_assoc, List.append_assoc] at this

theorem reordered_perm {es fs : List (Content × Content)} (h : es.Perm fs) (hn : (es.map (·.1)).Nodup) :
    SameButOrder (.map es) (.map fs) := by
  induction h with
  | nil => exact .refl
  | cons e _ ih => exact reordered_cons .refl (ih (List.nodup_cons.1 hn).2)
  | swap e e' l =>
    refine .single (.here (a := []) ?_ fun h => h.1)
    rintro h
    simp [h] at hn
  | trans h1 _ ih1 ih2 => exact (ih1 hn).trans (ih2 ((h1.map _).nodup hn))

/-- Whether something is an empty sequence or mapping. -/
def blank : Content → Bool
  | .seq vs => vs.isEmpty
  | .map es => es.isEmpty
  | _ => false

theorem exchanged_blank {F : Fixed} {v w : Content} (h : Exchanged F v w) : blank v = blank w := by
  cases h with
  | @here _ a => cases a <;> rfl
  | @item _ a => cases a <;> rfl
  | @value _ a => cases a <;> rfl

theorem reordered_blank {F : Fixed} {v w : Content} (h : Reordered F v w) : blank v = blank w := by
  induction h with
  | refl => rfl
  | tail _ h ih => exact ih.trans (exchanged_blank h)

/-! ### Entries with strings as keys -/

/-- The same for the entries of a mapping whose keys are strings. -/
inductive Moved (F : Fixed) : List (Str × Content) → List (Str × Content) → Prop
  | swap {a b : List (Str × Content)} {k k' : Str} {v v' : Content} : k ≠ k' → ¬ (F [] (.str k) ∧ F [] (.str k')) →
      Moved F (a ++ (k, v) :: (k', v') :: b) (a ++ (k', v') :: (k, v) :: b)
  | value {a b : List (Str × Content)} {k : Str} {v w : Content} : Exchanged (F.after (.key (.str k))) v w →
      Moved F (a ++ (k, v) :: b) (a ++ (k, w) :: b)

theorem mapping_eq {es : List (Str × Content)} {a b : List (Content × Content)} {k v : Content}
    (h : Derive.mapping es = .map (a ++ (k, v) :: b)) :
    ∃ a' x b', es = a' ++ (x, v) :: b' ∧ k = .str x ∧ a = (a'.map fun e => (Content.str e.1, e.2)) ∧
      b = b'.map fun e => (Content.str e.1, e.2) := by
  have h := Content.map.inj h
  obtain ⟨a', r, rfl, rfl, hr⟩ := List.map_eq_append_iff.1 h
  obtain ⟨⟨x, y⟩, b', rfl, hx, rfl⟩ := List.map_eq_cons_iff.1 hr
  cases hx
  exact ⟨a', x, b', rfl, rfl, rfl, rfl⟩

theorem exchanged_mapping {F : Fixed} {es : List (Str × Content)} {w : Content} (h : Exchanged F (Derive.mapping es) w) :
    ∃ fs, w = Derive.mapping fs ∧ Moved F es fs := by
  generalize hv : Derive.mapping es = v at h
  cases h with
  | @here _ a b k k' v v' h1 h2 =>
    obtain ⟨a, x, b, rfl, rfl, rfl, hb⟩ := mapping_eq hv
    obtain ⟨⟨x', u⟩, b, rfl, hx, rfl⟩ := List.map_eq_cons_iff.1 hb.symm
    cases hx
    exact ⟨a ++ (x', u) :: (x, v) :: b, by simp [Derive.mapping], .swap (fun e => h1 (congrArg Content.str e)) h2⟩
  | item => cases hv
  | @value _ a b k v w h =>
    obtain ⟨a, x, b, rfl, rfl, rfl, rfl⟩ := mapping_eq hv
    exact ⟨a ++ (x, w) :: b, by simp [Derive.mapping], .value h⟩

theorem Moved.filter {F : Fixed} {es fs : List (Str × Content)} (h : Moved F es fs) (p : Str → Bool) :
    es.filter (fun e => p e.1) = fs.filter (fun e => p e.1) ∨
      Moved F (es.filter fun e => p e.1) (fs.filter fun e => p e.1) := by
  cases h with
  | @swap a b k k' v v' h1 h2 =>
    cases hk : p k <;> cases hk' : p k' <;> simp only [List.filter_append, List.filter_cons, hk, hk', if_true]
    · exact .inl rfl
    · exact .inl rfl
    · exact .inl rfl
    · exact .inr (.swap h1 h2)
  | @value a b k v w h =>
    cases hk : p k <;> simp only [List.filter_append, List.filter_cons, hk, if_true]
    · exact .inl rfl
    · exact .inr (.value h)

theorem Moved.keys {F : Fixed} {es fs : List (Str × Content)} (h : Moved F es fs) : (es.map (·.1)).Perm (fs.map (·.1)) := by
  cases h with
  | swap => simpa using (List.Perm.swap ..).append_left _
  | value => simp

theorem Moved.given {F : Fixed} {es fs : List (Str × Content)} (h : Moved F es fs) (k : Str) :
    given es k = given fs k ∨ ∃ a b v w, given es k = a ++ v :: b ∧ given fs k = a ++ w :: b ∧
      Exchanged (F.after (.key (.str k))) v w := by
  cases h with
  | @swap a b k1 k2 v v' h1 h2 =>
    left
    rw [given_append, given_append, given_cons, given_cons, given_cons, given_cons]
    split_ifs with h3 h4
    · exact absurd (h3.trans h4.symm) h1
    all_goals rfl
  | @value a b k1 v w h =>
    rw [given_append, given_append, given_cons, given_cons]
    split_ifs with h3
    · subst h3; exact .inr ⟨_, _, v, w, rfl, rfl, h⟩
    · exact .inl rfl

/-! ### Types -/

/-- If entries of a document change places, then it is still read, and the value is written with at most the order of
entries changed. -/
def OrderFree {α : Type} (F : Fixed) (c : Codec α) : Prop :=
  ∀ v w x, Exchanged F v w → c.de v = .ok x → ∃ y, c.de w = .ok y ∧ SameButOrder (c.ser x) (c.ser y)

/-- The same for any change of order. -/
class Unordered {α : Type} (c : Codec α) : Prop where
  free : OrderFree Fixed.nothing c

/-- Nothing is read from a document that contains a mapping with two entries. -/
class Rigid {α : Type} (c : Codec α) : Prop where
  no : ∀ F v w x, Exchanged F v w → c.de v ≠ .ok x

/-- Neither sequences nor mappings are read. -/
class Scalar {α : Type} (c : Codec α) : Prop where
  seq : ∀ vs x, c.de (.seq vs) ≠ .ok x
  map : ∀ es x, c.de (.map es) ≠ .ok x

theorem Unordered.any {α : Type} {c : Codec α} [h : Unordered c] (F : Fixed) : OrderFree F c :=
  fun v w x hv => h.free v w x hv.free

theorem OrderFree.all {α : Type} {F : Fixed} {c : Codec α} (h : OrderFree F c) {v w : Content} {x : α} (hv : Reordered F v w)
    (hx : c.de v = .ok x) : ∃ y, c.de w = .ok y ∧ SameButOrder (c.ser x) (c.ser y) := by
  induction hv with
  | refl => exact ⟨x, hx, .refl⟩
  | tail _ h1 ih =>
    obtain ⟨y, h2, h3⟩ := ih
    obtain ⟨z, h4, h5⟩ := h _ _ y h1 h2
    exact ⟨z, h4, h3.trans h5⟩

instance {α : Type} {c : Codec α} [h : Scalar c] : Rigid c := ⟨fun _ _ _ x hv => by
  cases hv with
  | here => exact h.map _ x
  | item => exact h.seq _ x
  | value => exact h.map _ x⟩

instance {α : Type} {c : Codec α} [h : Rigid c] : Unordered c := ⟨fun v w x hv hx => absurd hx (h.no _ v w x hv)⟩

/-! ### Structs -/

/-- The same for a field: it is also left out as before. -/
def FieldFree (F : Fixed) (f : Field) : Prop :=
  ∀ v w x, Exchanged F v w → f.codec.de v = .ok x →
    ∃ y, f.codec.de w = .ok y ∧ f.skip x = f.skip y ∧ SameButOrder (f.codec.ser x) (f.codec.ser y)

/-- The same for a flattened field. -/
def FlatFree (F : Fixed) (f : Flat) : Prop :=
  ∀ es fs x, Moved F es fs → f.read es = .ok x →
    ∃ y, f.read fs = .ok y ∧ SameButOrder (Derive.mapping (f.write x)) (Derive.mapping (f.write y))

/-- The same for a field of either kind. -/
structure ItemFree (F : Fixed) (i : Item) : Prop where
  field : ∀ f, i = .field f → FieldFree (F.after (.key (.str f.key))) f
  flat : ∀ f, i = .flat f → FlatFree F f

theorem entriesFor_moved {F : Fixed} {own : List Str} {f : Flat} {es fs : List (Str × Content)} (h : Moved F es fs) :
    entriesFor own f es = entriesFor own f fs ∨ Moved F (entriesFor own f es) (entriesFor own f fs) := by
  unfold entriesFor
  cases f.keys with
  | none => simpa using h.filter fun k => decide (k ∉ own)
  | some ks => exact h.filter fun k => decide (k ∈ ks)

theorem singleton_split {α : Type} {x v : α} {a b : List α} (h : [x] = a ++ v :: b) : a = [] ∧ b = [] ∧ x = v := by
  cases a with
  | nil => simp at h; exact ⟨rfl, h.2, h.1⟩
  | cons _ a => simp at h

theorem standsFor_moved {F : Fixed} {own : List Str} {is : List Item} (hi : ∀ i ∈ is, ItemFree F i)
    {es fs : List (Str × Content)} (h : Moved F es fs) {r : Record is} (hr : StandsFor own es is r) :
    ∃ r', StandsFor own fs is r' ∧ SameButOrder (Derive.mapping (write is r)) (Derive.mapping (write is r')) := by
  induction is with
  | nil => exact ⟨(), trivial, .refl⟩
  | cons i is ih =>
    obtain ⟨hi, his⟩ := List.forall_mem_cons.1 hi
    obtain ⟨x, r⟩ := r
    cases i with
    | field f =>
      obtain ⟨r', h1, h2⟩ := ih his hr.2
      have key : ∃ y, ((∃ v, given fs f.key = [v] ∧ f.codec.de v = .ok y) ∨ (given fs f.key = [] ∧ f.default = some y)) ∧
          f.skip x = f.skip y ∧ SameButOrder (f.codec.ser x) (f.codec.ser y) := by
        rcases h.given f.key with hg | ⟨a, b, v, w, h3, h4, h5⟩
        · exact ⟨x, hg ▸ hr.1, rfl, .refl⟩
        · rcases hr.1 with ⟨v', h6, h7⟩ | ⟨h6, _⟩
          · obtain ⟨rfl, rfl, rfl⟩ := singleton_split (h6.symm.trans h3)
            obtain ⟨y, h8, h9⟩ := hi.field f rfl v' w x h5 h7
            exact ⟨y, .inl ⟨w, h4, h8⟩, h9⟩
          · rw [h6] at h3; simp at h3
      obtain ⟨y, h3, h4, h5⟩ := key
      refine ⟨(y, r'), ⟨h3, h1⟩, ?_⟩
      simp only [write, Derive.mapping, List.map_append]
      refine reordered_append ?_ h2
      rw [h4]
      split
      · exact .refl
      · exact reordered_cons h5 .refl
    | flat f =>
      obtain ⟨r', h1, h2⟩ := ih his hr.2
      have key : ∃ y, f.read (entriesFor own f fs) = .ok y ∧
          SameButOrder (Derive.mapping (f.write x)) (Derive.mapping (f.write y)) := by
        rcases entriesFor_moved (own := own) (f := f) h with he | he
        · exact ⟨x, he ▸ hr.1, .refl⟩
        · exact hi.flat f rfl _ _ x he hr.1
      obtain ⟨y, h3, h4⟩ := key
      refine ⟨(y, r'), ⟨h3, h1⟩, ?_⟩
      simp only [write, Derive.mapping, List.map_append]
      exact reordered_append h4 h2

theorem decode_moved {F : Fixed} {is : List Item} (hg : GoodFields is) (hi : ∀ i ∈ is, ItemFree F i)
    {es fs : List (Str × Content)} (h : Moved F es fs) {r : Record is} (hr : decode is es = .ok r) :
    ∃ r', decode is fs = .ok r' ∧ SameButOrder (Derive.mapping (write is r)) (Derive.mapping (write is r')) := by
  obtain ⟨r', h1, h2⟩ := standsFor_moved hi h ((decode_ok hg _ _).1 hr)
  exact ⟨r', (decode_ok hg _ _).2 h1, h2⟩

/-- The same for what gives the entries of a struct. -/
theorem exchanged_given {F : Fixed} {p : Prop} (hl : p → F = Fixed.nothing) {ks : List Str} {v w : Content} {es : List (Str × Content)}
    (h : Exchanged F v w) (hv : GivenAs p ks v es) : ∃ fs, GivenAs p ks w fs ∧ Moved F es fs := by
  cases hv with
  | mapping =>
    obtain ⟨fs, rfl, hm⟩ := exchanged_mapping h
    exact ⟨fs, .mapping, hm⟩
  | @list vs hp hn =>
    generalize hc : Content.seq vs = c at h
    cases h with
    | here => cases hc
    | value => cases hc
    | @item _ a b v w h =>
      cases hc
      obtain rfl := hl hp
      have hlt : a.length < ks.length := by simp at hn; omega
      have hz : ∀ u : Content, ks.zip (a ++ u :: b) = (ks.take a.length).zip a ++ (ks[a.length], u) :: (ks.drop (a.length + 1)).zip b :=
        fun u => by
        conv_lhs => rw [← List.take_append_drop a.length ks, List.drop_eq_getElem_cons hlt,
          List.zip_append (by simp; omega), List.zip_cons_cons]
      exact ⟨_, .list hp (by simpa using hn), by rw [hz, hz]; exact .value h⟩

theorem struct_free {F : Fixed} {is : List Item} (hg : GoodFields is) (hl : noFlat is = true → F = Fixed.nothing)
    (hi : ∀ i ∈ is, ItemFree F i) : OrderFree F (struct is) := by
  intro v w r hv hr
  obtain ⟨es, h0, h⟩ := (struct_de_iff hg).1 hr
  obtain ⟨fs, h3, hm⟩ := exchanged_given hl hv h0
  obtain ⟨r', h1, h2⟩ := standsFor_moved hi hm h
  exact ⟨r', (struct_de_iff hg).2 ⟨fs, h3, h1⟩, h2⟩

theorem nested_free {F : Fixed} {is : List Item} (hg : GoodFields is) (hi : ∀ i ∈ is, ItemFree F i) : ItemFree F (nested is) where
  field f hf := by cases hf
  flat f hf := by
    obtain rfl := Item.flat.inj hf
    exact fun es fs x h hx => decode_moved hg hi h hx

/-- The same for the fields of a struct, for any change of order. -/
class ItemUnordered (i : Item) : Prop where
  free : ItemFree Fixed.nothing i

/-- The same for all fields of a struct. -/
class ItemsUnordered (is : List Item) : Prop where
  all : ∀ i ∈ is, ItemUnordered i

instance : ItemsUnordered [] := ⟨fun _ h => by cases h⟩

instance {i : Item} {is : List Item} [h : ItemUnordered i] [hs : ItemsUnordered is] : ItemsUnordered (i :: is) :=
  ⟨List.forall_mem_cons.2 ⟨h, hs.all⟩⟩

theorem Moved.mono {F G : Fixed} {es fs : List (Str × Content)} (h : Moved F es fs) (hg : ∀ p k, G p k → F p k) : Moved G es fs := by
  cases h with
  | swap h1 h2 => exact .swap h1 fun h => h2 ⟨hg _ _ h.1, hg _ _ h.2⟩
  | value h => exact .value (h.mono fun p k => hg _ k)

theorem Moved.free {F : Fixed} {es fs : List (Str × Content)} (h : Moved F es fs) : Moved Fixed.nothing es fs :=
  h.mono fun _ _ h => h.elim

theorem ItemUnordered.any {i : Item} (F : Fixed) [h : ItemUnordered i] : ItemFree F i where
  field f hf v w x hv := h.free.field f hf v w x (hv.mono fun _ _ h => h.elim)
  flat f hf es fs x hm := h.free.flat f hf es fs x hm.free

instance {is : List Item} {own : List Str} [Keys is own] [DistinctKeys own] [h : ItemsUnordered is] : Unordered (struct is) :=
  ⟨struct_free table_good (fun _ => rfl) fun i hi => (h.all i hi).free⟩

end Proofs
