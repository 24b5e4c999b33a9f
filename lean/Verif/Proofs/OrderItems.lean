import Verif.Proofs.OrderTypes
import Verif.Proofs.MeaningStructs

/- Reading the fields of structs from documents that differ in the order of their keys. -/

namespace Proofs
open Rust Compose Compose.Derive Compose.Codecs Spec
open Props hiding mapping entriesOf_mapping

/-! ### Fields -/

section
variable {α : Type} {key : String} {F : Fixed}

theorem item_of_field {f : Field} (h : FieldFree (F.after (.key (.str f.key))) f) : ItemFree F (.field f) where
  field g hg := by obtain rfl := Item.field.inj hg; exact h
  flat g hg := by cases hg

theorem item_of_flat {f : Flat} (h : FlatFree F f) : ItemFree F (.flat f) where
  field g hg := by cases hg
  flat g hg := by obtain rfl := Item.flat.inj hg; exact h

theorem req_free {c : Codec α} (h : OrderFree (F.after (.key (.str key.toList))) c) : ItemFree F (req key c) :=
  item_of_field fun v w x hv hx => (h v w x hv hx).imp fun _ h => ⟨h.1, rfl, h.2⟩

instance {c : Codec α} [h : Unordered c] : ItemUnordered (req key c) := ⟨req_free h.free⟩

theorem opt_free {c : Codec α} (h : OrderFree (F.after (.key (.str key.toList))) c) : ItemFree F (opt key c) :=
  item_of_field fun v w x hv hx => by
    change (option c).de v = .ok x at hx
    rw [option_de (exchanged_ne_unit hv)] at hx
    obtain ⟨x, h1, rfl⟩ := Outcome.map_eq_ok.1 hx
    obtain ⟨y, h2, h3⟩ := h v w x hv h1
    refine ⟨some y, ?_, rfl, h3⟩
    show (option c).de w = .ok (some y)
    rw [option_de (exchanged_ne_unit hv.symm), h2]; rfl

instance {c : Codec α} [h : Unordered c] : ItemUnordered (opt key c) := ⟨opt_free h.free⟩

instance {c : Codec (Option α)} [h : Rigid c] : ItemUnordered (optWith key c) :=
  ⟨item_of_field fun v w x hv hx => absurd hx (h.no _ v w x hv)⟩

instance : ItemUnordered (flag key) := ⟨item_of_field fun v w x hv hx => absurd hx (Rigid.no (c := bool) _ v w x hv)⟩

instance : ItemUnordered (flagTrue key) := ⟨item_of_field fun v w x hv hx => absurd hx (Rigid.no (c := bool) _ v w x hv)⟩

/-- Collections that are written as sequences or mappings of their items. -/
class Listed (c : Codec (List α)) : Prop where
  eq : ∀ x, x.isEmpty = blank (c.ser x)

instance {c : Codec α} : Listed (list c) := ⟨fun x => by cases x <;> rfl⟩
instance [RustEq α] {c : Codec α} : Listed (Codecs.set c) := ⟨fun x => by cases x <;> rfl⟩
instance {k : Key} {c : Codec α} : Listed (map k c) := ⟨fun x => by cases x <;> rfl⟩
instance {E : Env} : Listed (Codecs.extraHosts E) := ⟨fun x => by cases x <;> rfl⟩
instance {E : Env} : Listed (additionalContexts E) := ⟨fun x => by cases x <;> rfl⟩
instance : Listed valueMap := ⟨fun x => by cases x <;> rfl⟩
instance : Listed Structs.ulimits := ⟨fun x => by cases x <;> rfl⟩
instance {E : Env} : Listed (Structs.ports E) := ⟨fun x => by cases x <;> rfl⟩
instance {E : Env} : Listed (Structs.volumes E) := ⟨fun x => by cases x <;> rfl⟩

theorem many_free {c : Codec (List α)} [hl : Listed c] (h : OrderFree (F.after (.key (.str key.toList))) c) : ItemFree F (many key c) :=
  item_of_field fun v w x hv hx => by
    obtain ⟨y, h1, h2⟩ := h v w x hv hx
    exact ⟨y, h1, (hl.eq x).trans ((reordered_blank h2).trans (hl.eq y).symm), h2⟩

instance {c : Codec (List α)} [Listed c] [h : Unordered c] : ItemUnordered (many key c) := ⟨many_free h.free⟩

instance : ItemUnordered (many key cpuSet) := ⟨item_of_field fun v w x hv hx => absurd hx (Rigid.no (c := cpuSet) _ v w x hv)⟩

instance : ItemUnordered (manyListOrMap key) := ⟨item_of_field fun v w x hv hx => by
  obtain ⟨m, m', rfl, h1, h2, h3⟩ := listOrMap_moved hv.free hx
  obtain ⟨y, h4, h5⟩ := Unordered.any (c := listOrMap) _ v w _ hv hx
  rw [h1] at h4; cases h4
  refine ⟨_, h1, ?_, h5⟩
  cases m with
  | nil => rw [List.nil_perm.1 h2]
  | cons e m =>
    cases m' with
    | nil => cases h2.length_eq
    | cons e' m' => rfl⟩

end

/-! ### Flattened fields -/

theorem extensions_moved {F : Fixed} {es fs : List (Str × Content)} (h : Moved F es fs) {x : IndexMap Str Content}
    (hx : (readEntries extensionKey.parse .ok es).map IndexMap.collect = .ok x) :
    ∃ y, (readEntries extensionKey.parse .ok fs).map IndexMap.collect = .ok y ∧
      SameButOrder (Derive.mapping x) (Derive.mapping y) := by
  obtain ⟨l, h1, rfl⟩ := Outcome.map_eq_ok.1 hx
  obtain ⟨l', h2, h3⟩ := readEntries_moved h h1 fun k v w x hv hx => ⟨w, rfl⟩
  refine ⟨IndexMap.collect l', by rw [h2]; rfl, ?_⟩
  have := ser_moved (c := anyContent) (IndexMap.ok_collect l) (m' := IndexMap.collect l')
    (collected_moved (R := fun x y => SameButOrder x y) (fun _ => .refl) ?_)
  · simpa [anyContent] using this
  · rcases h3 with ⟨a, b, e, e', h8, h9, h10, _⟩ | ⟨a, b, k, v, w, x, y, h8, h9, h10, h11, h12⟩
    · exact .inl ⟨a, b, e, e', h8, h9, h10⟩
    · cases h11; cases h12
      exact .inr ⟨a, b, k, v, w, h8, h9, .single h10.free⟩

instance : ItemUnordered extensions := ⟨item_of_flat fun _ _ _ h hx => extensions_moved h hx⟩

theorem given_moved {F : Fixed} {es fs : List (Str × Content)} (h : Moved F es fs) {k : Str} {v : Content} (hv : Given es k v) :
    ∃ w, Given fs k w ∧ (w = v ∨ Exchanged (F.after (.key (.str k))) v w) := by
  obtain ⟨h1, h2⟩ := hv
  have h1 : given es k = [v] := h1
  rcases h.given k with h | ⟨a, b, v', w, h3, h4, h5⟩
  · exact ⟨v, ⟨h.symm.trans h1, h2⟩, .inl rfl⟩
  · obtain ⟨rfl, rfl, rfl⟩ := singleton_split (h1.symm.trans h3)
    exact ⟨w, ⟨h4, exchanged_ne_unit h5.symm⟩, .inr h5⟩

theorem notGiven_moved {F : Fixed} {es fs : List (Str × Content)} (h : Moved F es fs) {k : Str} (hv : NotGiven es k) : NotGiven fs k := by
  have hv : given es k = [] ∨ given es k = [.unit] := hv
  show given fs k = [] ∨ given fs k = [.unit]
  rcases h.given k with h | ⟨a, b, v', w, h3, h4, h5⟩
  · rwa [← h]
  · rw [h3] at hv
    rcases hv with h | h
    · simp at h
    · obtain ⟨rfl, rfl, rfl⟩ := singleton_split h.symm; cases h5

theorem noneOf_moved {α : Type} {fields : List (Alternative α)} {F : Fixed} {es fs : List (Str × Content)} (h : Moved F es fs)
    (hn : NoneOf fields es) : NoneOf fields fs := fun f hf => notGiven_moved h (hn f hf)

theorem oneOf_moved {α : Type} {fields : List (Alternative α)} {F : Fixed} {es fs : List (Str × Content)} (h : Moved F es fs)
    {R : α → α → Prop} (hr : ∀ x, R x x)
    (hd : ∀ f ∈ fields, ∀ v w x, Exchanged (F.after (.key (.str f.key))) v w → f.denotes v x → ∃ y, f.denotes w y ∧ R x y)
    {x : α} (hx : OneOf fields es x) : ∃ y, OneOf fields fs y ∧ R x y := by
  obtain ⟨f, hf, ⟨v, h1, h2⟩, h3⟩ := hx
  obtain ⟨w, h4, h5⟩ := given_moved h h1
  rcases h5 with rfl | h5
  · exact ⟨x, ⟨f, hf, ⟨w, h4, h2⟩, fun g hg hn => notGiven_moved h (h3 g hg hn)⟩, hr x⟩
  · obtain ⟨y, h6, h7⟩ := hd f hf v w x h5 h2
    exact ⟨y, ⟨f, hf, ⟨w, h4, h6⟩, fun g hg hn => notGiven_moved h (h3 g hg hn)⟩, h7⟩

instance : ItemUnordered dockerfile := ⟨item_of_flat fun es fs x h hx => by
  have e : ∀ es x, Outcome.ofOption (Dockerfile.optionEntries es) = .ok x ↔
      (NoneOf dockerfileFields es ∧ x = none) ∨ ∃ d, OneOf dockerfileFields es d ∧ x = some d := fun es x => by
    have := C50_dockerfile es
    simp only [Dockerfile.deOption, entriesOf_props, Option.bind_some] at this
    exact (Outcome.ofOption_eq_ok).trans (option_iff this.1 this.2.1)
  refine ⟨x, (e fs x).2 ?_, .refl⟩
  rcases (e es x).1 hx with ⟨h1, h2⟩ | ⟨d, h1, h2⟩
  · exact .inl ⟨noneOf_moved h h1, h2⟩
  · obtain ⟨d', h3, rfl⟩ := oneOf_moved h (R := Eq) (fun _ => rfl) (by
      intro f hf v w x hv hd
      simp only [dockerfileFields, List.mem_cons, List.not_mem_nil, or_false] at hf
      rcases hf with rfl | rfl <;> (obtain ⟨s, rfl, _⟩ := hd; cases hv)) h1
    exact .inr ⟨d, h3, h2⟩⟩

instance : ItemUnordered configSource := ⟨item_of_flat fun es fs x h hx => by
  have e : ∀ es x, Outcome.ofOption (ConfigSource.deEntries es) = .ok x ↔ OneOf configFields es x := fun es x => by
    have := C50_config_source es x
    simp only [ConfigSource.de, entriesOf_props, Option.bind_some] at this
    exact (Outcome.ofOption_eq_ok).trans this
  obtain ⟨y, h3, rfl⟩ := oneOf_moved h (R := Eq) (fun _ => rfl) (by
    intro f hf v w x hv hd
    simp only [configFields, List.mem_cons, List.not_mem_nil, or_false] at hf
    rcases hf with rfl | rfl | rfl <;> (obtain ⟨s, rfl, _⟩ := hd; cases hv)) ((e es x).1 hx)
  exact ⟨x, (e fs x).2 h3, .refl⟩⟩

instance : ItemUnordered secretSource := ⟨item_of_flat fun es fs x h hx => by
  have e : ∀ es x, Outcome.ofOption (SecretSource.deEntries es) = .ok x ↔ OneOf secretFields es x := fun es x => by
    have := C50_secret_source es x
    simp only [SecretSource.de, entriesOf_props, Option.bind_some] at this
    exact (Outcome.ofOption_eq_ok).trans this
  obtain ⟨y, h3, rfl⟩ := oneOf_moved h (R := Eq) (fun _ => rfl) (by
    intro f hf v w x hv hd
    simp only [secretFields, List.mem_cons, List.not_mem_nil, or_false] at hf
    rcases hf with rfl | rfl <;> (obtain ⟨s, rfl, _⟩ := hd; cases hv)) ((e es x).1 hx)
  exact ⟨x, (e fs x).2 h3, .refl⟩⟩

instance {is : List Item} {own : List Str} [Keys is own] [DistinctKeys own] [h : ItemsUnordered is] : ItemUnordered (nested is) :=
  ⟨nested_free table_good fun i hi => (h.all i hi).free⟩

/-! ### Parts of services -/

instance : ItemsUnordered Structs.ulimit := inferInstanceAs (ItemsUnordered [_, _, _])

instance : Unordered Structs.ulimits := inferInstanceAs (Unordered (map _ (shortOrLong _ (struct Structs.ulimit))))

instance : ItemsUnordered Structs.envFileConfig := inferInstanceAs (ItemsUnordered [_, _])

instance : Unordered Structs.envFile := ⟨fun v w x hv hx => by
  rcases exchanged_isMap hv with ⟨es, fs, rfl, rfl⟩ | ⟨vs, ws, rfl, rfl⟩
  · cases hx
  · obtain ⟨x, h1, rfl⟩ := Outcome.map_eq_ok.1 hx
    obtain ⟨y, h2, h3⟩ := Unordered.free (c := Codecs.list (shortOrLong str (struct Structs.envFileConfig))) _ _ x hv h1
    exact ⟨.list y, Outcome.map_eq_ok.2 ⟨y, h2, rfl⟩, h3⟩⟩

instance : ItemsUnordered Structs.dependency := inferInstanceAs (ItemsUnordered [_, _, _])

instance : ItemUnordered Structs.dependsOn := ⟨item_of_field fun v w x hv hx => by
  have hx : (shortOrLong (Codecs.set identifier) (map identifierKey (struct Structs.dependency))).de v = .ok x := hx
  obtain ⟨y, h1, h2⟩ := Unordered.any (c := shortOrLong (Codecs.set identifier) (map identifierKey (struct Structs.dependency)))
    _ v w x hv hx
  refine ⟨y, h1, ?_, h2⟩
  have : ∀ d : Structs.DependsOn, (match d with | .short l => l.isEmpty | .long m => m.isEmpty) =
      blank ((shortOrLong (Codecs.set identifier) (map identifierKey (struct Structs.dependency))).ser d) := by
    rintro (l | m)
    · cases l <;> rfl
    · cases m <;> rfl
  exact (this x).trans ((reordered_blank h2).trans (this y).symm)⟩

/-! ### Resources -/

/-- Tables that differ in the order of their entries, or in the order of entries within their values. -/
def NearTable (m m' : List (Str × Content)) : Prop :=
  m.Perm m' ∨ List.Forall₂ (fun e e' => e.1 = e'.1 ∧ SameButOrder e.2 e'.2) m m'

theorem nearTable_of {F : Fixed} {es fs : List (Str × Content)} (h : Moved F es fs) : NearTable (IndexMap.collect es) (IndexMap.collect fs) := by
  refine collected_moved (R := SameButOrder) (fun _ => .refl) ?_
  cases h with
  | swap h1 _ => exact .inl ⟨_, _, _, _, rfl, rfl, h1⟩
  | value h => exact .inr ⟨_, _, _, _, _, rfl, rfl, .single h.free⟩

theorem NearTable.filter {m m' : List (Str × Content)} (h : NearTable m m') (p : Str → Bool) :
    NearTable (m.filter fun e => p e.1) (m'.filter fun e => p e.1) := by
  rcases h with h | h
  · exact .inl (h.filter _)
  · refine .inr ?_
    induction h with
    | nil => exact .nil
    | @cons e e' l l' h1 _ ih =>
      rw [List.filter_cons, List.filter_cons, ← h1.1]
      split
      · exact .cons h1 ih
      · exact ih

theorem NearTable.same {m m' : List (Str × Content)} (h : NearTable m m') (hn : (m.map (·.1)).Nodup) :
    SameButOrder (Derive.mapping m) (Derive.mapping m') := by
  rcases h with h | h
  · exact mapping_perm h hn
  · exact reordered_forall₂ h

theorem NearTable.get {m m' : IndexMap Str Content} (h : NearTable m m') (hn : IndexMap.Ok m) (k : Str) :
    (IndexMap.get m k = none ∧ IndexMap.get m' k = none) ∨
      ∃ v w, IndexMap.get m k = some v ∧ IndexMap.get m' k = some w ∧ SameButOrder v w := by
  rcases h with h | h
  · have hn' : IndexMap.Ok m' := ((h.map Prod.fst).nodup_iff).1 hn
    have : IndexMap.get m k = IndexMap.get m' k := by
      refine Option.ext fun v => ?_
      rw [IndexMap.get_eq_some hn, IndexMap.get_eq_some hn', h.mem_iff]
    rw [← this]
    cases IndexMap.get m k with
    | none => exact .inl ⟨rfl, rfl⟩
    | some v => exact .inr ⟨v, v, rfl, rfl, .refl⟩
  · clear hn
    induction h with
    | nil => exact .inl ⟨rfl, rfl⟩
    | @cons e e' l l' h1 _ ih =>
      unfold IndexMap.get at ih ⊢
      rw [List.find?_cons, List.find?_cons, ← h1.1]
      split
      · exact .inr ⟨_, _, rfl, rfl, h1.2⟩
      · exact ih

theorem sameButOrder_scalar {v w : Content} (h : SameButOrder v w) (hs : ∀ w, ¬ Exchanged Fixed.nothing v w) : w = v := by
  induction h using Relation.ReflTransGen.head_induction_on with
  | refl => rfl
  | head h1 _ _ => exact absurd h1 (hs _)

theorem NearTable.length {m m' : List (Str × Content)} (h : NearTable m m') : m = [] ↔ m' = [] := by
  rcases h with h | h
  · constructor
    · rintro rfl; exact List.nil_perm.1 h
    · rintro rfl; exact List.perm_nil.1 h
  · cases h <;> simp

theorem ok_filter {V : Type} {m : IndexMap Str V} (h : IndexMap.Ok m) (p : Str × V → Bool) : IndexMap.Ok (m.filter p) :=
  h.sublist (List.filter_sublist.map _)

theorem toOption_some {α : Type} {o : Outcome Unit α} {x : α} : o.toOption = some x ↔ o = .ok x := by
  cases o <;> simp [Outcome.toOption]

theorem resource_inner {E : Env} [EnvOk E] {is : List Item} {own : List Str} [Keys is own] [DistinctKeys own] [ItemsUnordered is]
    {a b : List (Str × Content)} (h : NearTable a b) (hn : (a.map (·.1)).Nodup) {x : Resource (Record is)}
    (hx : (decode is (E.order a)).toOption.map Resource.compose = some x) :
    ∃ y, (decode is (E.order b)).toOption.map Resource.compose = some y ∧
      SameButOrder (Resource.serialize (struct is).ser x) (Resource.serialize (struct is).ser y) := by
  obtain ⟨r, h3, rfl⟩ := Option.map_eq_some_iff.1 hx
  have hn' : (b.map (·.1)).Nodup := by
    rcases h with h | h
    · exact ((h.map (·.1)).nodup_iff).1 hn
    · rw [forall₂_same_keys (R := fun e e' => e.1 = e'.1 ∧ SameButOrder e.2 e'.2) (fun e f h => h.1.symm) h]; exact hn
  have hre : SameButOrder (Derive.mapping (E.order a)) (Derive.mapping (E.order b)) :=
    ((mapping_perm (EnvOk.order a).symm hn).symm.trans (h.same hn)).trans (mapping_perm (EnvOk.order b).symm hn')
  have hd : ∀ es, (struct is).de (Derive.mapping es) = decode is es := by
    intro es
    show (Outcome.ofOption (entriesOf _)).bind _ = _
    rw [entriesOf_mapping]; rfl
  obtain ⟨r', h4, h5⟩ := (Unordered.free (c := struct is)).all hre ((hd _).trans (toOption_some.1 h3))
  exact ⟨.compose r', by rw [toOption_some.2 ((hd _).symm.trans h4)]; rfl, h5⟩

theorem resource_free {E : Env} [EnvOk E] {is : List Item} {own : List Str} [Keys is own] [DistinctKeys own] [ItemsUnordered is] :
    OrderFree Fixed.nothing (Structs.resource E is) := by
  intro v w x hv hx
  have hx : Resource.deserialize E.order (fun es => (decode is es).toOption) v = some x := Outcome.ofOption_eq_ok.1 hx
  obtain ⟨m, h1, h2⟩ := Option.bind_eq_some_iff.1 hx
  have hm : ∃ es, v = Derive.mapping es ∧ m = IndexMap.collect es := by
    cases v with
    | map e =>
      obtain ⟨es, h3, h4⟩ := Option.map_eq_some_iff.1 h1
      exact ⟨es, entriesOf_iff.1 h3, h4.symm⟩
    | _ => cases h1
  obtain ⟨es, rfl, rfl⟩ := hm
  obtain ⟨fs, rfl, hmv⟩ := exchanged_mapping hv
  have hn := nearTable_of hmv
  have hok := IndexMap.ok_collect es
  have hw : ∀ y, Resource.fromMap E.order (fun es => (decode is es).toOption) (IndexMap.collect fs) = some y →
      (Structs.resource E is).de (Derive.mapping fs) = .ok y := by
    intro y hy
    refine Outcome.ofOption_eq_ok.2 ?_
    have : Resource.readMap (Derive.mapping fs) = some (IndexMap.collect fs) :=
      Option.map_eq_some_iff.2 ⟨fs, (entriesOf_mapping (es := fs)), rfl⟩
    unfold Resource.deserialize
    rw [this]; exact hy
  generalize IndexMap.collect es = m at h2 hn hok
  generalize IndexMap.collect fs = m' at hw hn
  have hb : ∀ {b w}, SameButOrder (.bool b) w → w = .bool b := fun h => sameButOrder_scalar h nofun
  have hst : ∀ {s w}, SameButOrder (.str s) w → w = .str s := fun h => sameButOrder_scalar h nofun
  have hrest := hn.filter fun k => decide (k ≠ "external".toList)
  have hrok := ok_filter hok fun e => decide (e.1 ≠ "external".toList)
  have compose := fun x => resource_inner (E := E) (is := is) (x := x) hrest hrok
  suffices ∃ y, Resource.fromMap E.order (fun es => (decode is es).toOption) m' = some y ∧
      SameButOrder (Resource.serialize (struct is).ser x) (Resource.serialize (struct is).ser y) by
    obtain ⟨y, h3, h4⟩ := this
    exact ⟨y, hw y h3, h4⟩
  unfold Resource.fromMap at h2 ⊢
  dsimp only at h2 ⊢
  rcases hn.get hok "external".toList with ⟨g1, g2⟩ | ⟨v, v', g1, g2, g3⟩
  · rw [g1] at h2; rw [g2]; exact compose x h2
  · rw [g1] at h2; rw [g2]
    cases v with
    | bool b =>
      rw [hb g3]
      cases b with
      | false => exact compose x h2
      | true =>
        have hl := (hrest.filter fun k => decide (k ≠ "name".toList)).length
        rcases hrest.get hrok "name".toList with ⟨n1, n2⟩ | ⟨u, u', n1, n2, n3⟩
        · simp only [n1] at h2; simp only [n2]
          split at h2
          · rename_i hc; rw [if_pos (hl.1 hc)]; exact ⟨x, h2, .refl⟩
          · cases h2
        · simp only [n1] at h2; simp only [n2]
          cases u with
          | str s =>
            rw [hst n3]
            dsimp only at h2 ⊢
            split at h2
            · rename_i hc; rw [if_pos (hl.1 hc)]; exact ⟨x, h2, .refl⟩
            · cases h2
          | _ => cases h2
    | _ => cases h2

instance {E : Env} [EnvOk E] {is : List Item} {own : List Str} [Keys is own] [DistinctKeys own] [ItemsUnordered is] :
    Unordered (Structs.resource E is) := ⟨resource_free⟩

end Proofs
