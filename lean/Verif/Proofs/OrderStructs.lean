import Verif.Proofs.OrderItems
import Verif.Spec.Order

/- Reading structs and whole files from documents that differ in the order of their keys. -/

namespace Proofs
open Rust Compose Compose.Derive Compose.Codecs Spec
open Props hiding mapping entriesOf_mapping

/-! ### Structs in which the order of keys does not matter -/

instance {E : Env} : ItemsUnordered (Structs.ipamConfig E) := by unfold Structs.ipamConfig; infer_instance
instance {E : Env} : ItemsUnordered (Structs.ipam E) := by unfold Structs.ipam; infer_instance
instance {E : Env} : ItemsUnordered (Structs.network E) := by unfold Structs.network; infer_instance
instance : ItemsUnordered Structs.volume := by unfold Structs.volume; infer_instance
instance : ItemsUnordered Structs.config := by unfold Structs.config; infer_instance
instance : ItemsUnordered Structs.secret := by unfold Structs.secret; infer_instance
instance : ItemsUnordered Structs.«include» := by unfold Structs.«include»; infer_instance
instance : ItemsUnordered Structs.bpsLimit := by unfold Structs.bpsLimit; infer_instance
instance : ItemsUnordered Structs.iopsLimit := by unfold Structs.iopsLimit; infer_instance
instance : ItemsUnordered Structs.weightDevice := by unfold Structs.weightDevice; infer_instance
instance : ItemsUnordered Structs.blkioConfig := by unfold Structs.blkioConfig; infer_instance
instance : ItemsUnordered Structs.configOrSecret := by unfold Structs.configOrSecret; infer_instance
instance {E : Env} : ItemsUnordered (Structs.build E) := by unfold Structs.build; infer_instance
instance : ItemsUnordered Structs.preference := by unfold Structs.preference; infer_instance
instance : ItemsUnordered Structs.placement := by unfold Structs.placement; infer_instance
instance : ItemsUnordered Structs.restartPolicy := by unfold Structs.restartPolicy; infer_instance
instance : ItemsUnordered Structs.updateOrRollbackConfig := by unfold Structs.updateOrRollbackConfig; infer_instance
instance {E : Env} : ItemsUnordered (Structs.limits E) := by unfold Structs.limits; infer_instance
instance : ItemsUnordered Structs.discreteResourceSpec := by unfold Structs.discreteResourceSpec; infer_instance
instance : ItemsUnordered Structs.genericResource := by unfold Structs.genericResource; infer_instance
instance : ItemsUnordered Structs.resourceDevice := by unfold Structs.resourceDevice; infer_instance
instance {E : Env} : ItemsUnordered (Structs.reservations E) := by unfold Structs.reservations; infer_instance
instance {E : Env} : ItemsUnordered (Structs.resources E) := by unfold Structs.resources; infer_instance
instance {E : Env} : ItemsUnordered (Structs.deploy E) := by unfold Structs.deploy; infer_instance
instance : ItemsUnordered Structs.watchRule := by unfold Structs.watchRule; infer_instance
instance : ItemsUnordered Structs.develop := by unfold Structs.develop; infer_instance
instance : ItemsUnordered Structs.extend := by unfold Structs.extend; infer_instance
instance : ItemsUnordered Structs.logging := by unfold Structs.logging; infer_instance
instance {E : Env} : ItemsUnordered (Structs.port E) := by unfold Structs.port; infer_instance
instance : ItemsUnordered Structs.common := by unfold Structs.common; infer_instance
instance : ItemsUnordered Structs.volumeOptions := by unfold Structs.volumeOptions; infer_instance
instance : ItemsUnordered Structs.mountVolume := by unfold Structs.mountVolume; infer_instance
instance : ItemsUnordered Structs.bindOptions := by unfold Structs.bindOptions; infer_instance
instance : ItemsUnordered Structs.mountBind := by unfold Structs.mountBind; infer_instance
instance : ItemsUnordered Structs.tmpfsOptions := by unfold Structs.tmpfsOptions; infer_instance
instance : ItemsUnordered Structs.mountTmpfs := by unfold Structs.mountTmpfs; infer_instance
instance : ItemsUnordered Structs.mountNamedPipe := by unfold Structs.mountNamedPipe; infer_instance
instance : ItemsUnordered Structs.mountCluster := by unfold Structs.mountCluster; infer_instance
instance {E : Env} : ItemsUnordered (Structs.serviceNetwork E) := by unfold Structs.serviceNetwork; infer_instance

instance {E : Env} : Unordered (Structs.networks E) :=
  inferInstanceAs (Unordered (shortOrLong (Codecs.set identifier) (map identifierKey (option (struct (Structs.serviceNetwork E))))))

instance {E : Env} : ItemUnordered (Structs.networkConfig E) := ⟨item_of_flat fun es fs x h hx => by
  have hm : ∀ c n, ((Structs.networks E).de c).toOption = some n ↔ (Structs.networks E).de c = .ok n := fun _ _ => toOption_some
  have e : ∀ es x, Outcome.ofOption (NetworkConfigOf.optionEntries (fun c => ((Structs.networks E).de c).toOption) es) = .ok x ↔
      (NoneOf (networkFields fun c n => ((Structs.networks E).de c).toOption = some n) es ∧ x = none) ∨
        ∃ d, OneOf (networkFields fun c n => ((Structs.networks E).de c).toOption = some n) es d ∧ x = some d := fun es x => by
    have := C50_network_config (fun c => ((Structs.networks E).de c).toOption) es
    simp only [NetworkConfigOf.deOption, entriesOf_props, Option.bind_some] at this
    exact (Outcome.ofOption_eq_ok).trans (option_iff this.1 this.2.1)
  have hx : Outcome.ofOption (NetworkConfigOf.optionEntries (fun c => ((Structs.networks E).de c).toOption) es) = .ok x := hx
  show ∃ y, Outcome.ofOption (NetworkConfigOf.optionEntries (fun c => ((Structs.networks E).de c).toOption) fs) = .ok y ∧ _
  rcases (e es x).1 hx with ⟨h1, h2⟩ | ⟨d, h1, h2⟩
  · exact ⟨x, (e fs x).2 (.inl ⟨noneOf_moved h h1, h2⟩), .refl⟩
  · obtain ⟨d', h3, h4⟩ := oneOf_moved h
      (R := fun (a b : NetworkConfigOf (Structs.Networks E)) => SameButOrder (Derive.mapping [a.entry (Structs.networks E).ser]) (Derive.mapping [b.entry (Structs.networks E).ser]))
      (fun _ => .refl) (by
        intro f hf v w x hv hd
        simp only [networkFields, List.mem_cons, List.not_mem_nil, or_false] at hf
        rcases hf with rfl | rfl
        · obtain ⟨s, _, rfl, _⟩ := hd; cases hv
        · obtain ⟨n, h5, rfl⟩ := hd
          obtain ⟨n', h6, h7⟩ := Unordered.any (c := Structs.networks E) _ v w n hv ((hm _ _).1 h5)
          exact ⟨.networks n', ⟨n', (hm _ _).2 h6, rfl⟩, reordered_value (a := []) (b := []) h7⟩) h1
    subst h2
    exact ⟨some d', (e fs _).2 (.inr ⟨d', h3, rfl⟩), h4⟩⟩

/-! ### Mounts -/

theorem mount_moved {es fs : List (Str × Content)} (h : Moved Fixed.nothing es fs) {m : Structs.MountOf}
    (hm : Structs.mountRead es = .ok m) :
    ∃ m', Structs.mountRead fs = .ok m' ∧ SameButOrder (Derive.mapping (Structs.mountWrite m)) (Derive.mapping (Structs.mountWrite m')) := by
  have ht : ∀ tag, (∃ k, es.filter (fun e => e.1 = Structs.tagKey) = [(k, .str tag)]) → es.filter (fun e => e.1 = Structs.tagKey) =
      fs.filter (fun e => e.1 = Structs.tagKey) := by
    rintro tag ⟨k, hk⟩
    rcases h.filter fun k => decide (k = Structs.tagKey) with h | h
    · exact h
    · rw [hk] at h
      generalize hl : (fs.filter fun e => decide (e.1 = Structs.tagKey)) = l at h
      generalize hl' : [(k, Content.str tag)] = l' at h
      cases h with
      | @swap a => rcases a with _ | ⟨_, _ | _⟩ <;> simp at hl'
      | value h =>
        obtain ⟨-, -, h1⟩ := singleton_split hl'
        cases h1; cases h
  have hd : ∀ {is : List Item} {own : List Str} [Keys is own] [DistinctKeys own] [ItemsUnordered is] (f : Record is → Structs.MountOf)
      (pre : Str × Content), (∀ r, Structs.mountWrite (f r) = pre :: write is r) → ∀ m,
      (decode is (es.filter fun e => e.1 ≠ Structs.tagKey)).map f = .ok m →
      ∃ m', (decode is (fs.filter fun e => e.1 ≠ Structs.tagKey)).map f = .ok m' ∧
        SameButOrder (Derive.mapping (Structs.mountWrite m)) (Derive.mapping (Structs.mountWrite m')) := by
    intro is own _ _ hi f pre hf m hm
    obtain ⟨r, h1, rfl⟩ := Outcome.map_eq_ok.1 hm
    rcases h.filter fun k => decide (k ≠ Structs.tagKey) with h | h
    · have h : (es.filter fun e => e.1 ≠ Structs.tagKey) = (fs.filter fun e => e.1 ≠ Structs.tagKey) := by simpa using h
      rw [h] at h1
      exact ⟨f r, Outcome.map_eq_ok.2 ⟨r, h1, rfl⟩, .refl⟩
    · obtain ⟨r', h2, h3⟩ := decode_moved (is := is) table_good (fun i hi' => (hi.all i hi').free) h (by simpa using h1)
      refine ⟨f r', Outcome.map_eq_ok.2 ⟨r', by simpa using h2, rfl⟩, ?_⟩
      rw [hf, hf]
      exact reordered_cons .refl h3
  unfold Structs.mountRead at hm ⊢
  split at hm
  · rename_i k tag hk
    rw [← ht tag ⟨k, hk⟩, hk]
    dsimp only at hm ⊢
    split
    · rw [if_pos (by assumption)] at hm; exact hd _ _ (fun _ => rfl) m hm
    rw [if_neg (by assumption)] at hm
    split
    · rw [if_pos (by assumption)] at hm; exact hd _ _ (fun _ => rfl) m hm
    rw [if_neg (by assumption)] at hm
    split
    · rw [if_pos (by assumption)] at hm; exact hd _ _ (fun _ => rfl) m hm
    rw [if_neg (by assumption)] at hm
    split
    · rw [if_pos (by assumption)] at hm; exact hd _ _ (fun _ => rfl) m hm
    rw [if_neg (by assumption)] at hm
    split
    · rw [if_pos (by assumption)] at hm; exact hd _ _ (fun _ => rfl) m hm
    rw [if_neg (by assumption)] at hm
    cases hm
  · cases hm

instance : Unordered Structs.mount := ⟨fun v w m hv hm => by
  obtain ⟨es, h1, h2⟩ := Outcome.bind_eq_ok.1 hm
  obtain ⟨fs, h3, h4⟩ := entriesOf_exchanged hv (Outcome.ofOption_eq_ok.1 h1)
  obtain ⟨m', h5, h6⟩ := mount_moved h4 h2
  refine ⟨m', ?_, h6⟩
  show (Outcome.ofOption (entriesOf w)).bind _ = _
  rw [h3]; exact h5⟩

/-! ### Equality of ports and mounts -/

/-- What two values read from documents have in common if two entries change places in the documents. -/
structure NearItem (F : Fixed) (i : Item) (R : i.Ty → i.Ty → Prop) : Prop where
  refl : ∀ x, R x x
  field : ∀ f (h : i = .field f) v w x y, Exchanged (F.after (.key (.str f.key))) v w → f.codec.de v = .ok x → f.codec.de w = .ok y →
    R (h ▸ x) (h ▸ y)
  flat : ∀ f (h : i = .flat f) es fs x y, Moved F es fs → f.read es = .ok x → f.read fs = .ok y → R (h ▸ x) (h ▸ y)

inductive NearItems (F : Fixed) : (is : List Item) → (Record is → Record is → Prop) → Prop
  | nil : NearItems F [] fun _ _ => True
  | cons {i : Item} {is : List Item} {R : i.Ty → i.Ty → Prop} {S : Record is → Record is → Prop} :
      NearItem F i R → NearItems F is S → NearItems F (i :: is) fun x y => R x.1 y.1 ∧ S x.2 y.2

theorem NearItems.refl {F : Fixed} {is : List Item} {R : Record is → Record is → Prop} (h : NearItems F is R) (r : Record is) : R r r := by
  induction h with
  | nil => trivial
  | cons h _ ih => exact ⟨h.refl _, ih _⟩

theorem NearItems.stands {F : Fixed} {own : List Str} {is : List Item} {R : Record is → Record is → Prop} (h : NearItems F is R)
    {es fs : List (Str × Content)} (hm : Moved F es fs) {x y : Record is} (hx : StandsFor own es is x) (hy : StandsFor own fs is y) :
    R x y := by
  induction h with
  | nil => trivial
  | @cons i is R S h _ ih =>
    obtain ⟨x, xs⟩ := x
    obtain ⟨y, ys⟩ := y
    cases i with
    | field f =>
      obtain ⟨hx1, hx2⟩ := hx
      obtain ⟨hy1, hy2⟩ := hy
      refine ⟨?_, ih hx2 hy2⟩
      rcases hm.given f.key with hg | ⟨a, b, v, w, h3, h4, h5⟩
      · rcases hx1 with ⟨v, h1, h2⟩ | ⟨h1, h2⟩ <;> rcases hy1 with ⟨w, h3, h4⟩ | ⟨h3, h4⟩
        · rw [hg, h3] at h1; cases h1; rw [h2] at h4; cases h4; exact h.refl _
        · rw [hg, h3] at h1; cases h1
        · rw [hg, h3] at h1; cases h1
        · rw [h2] at h4; cases h4; exact h.refl _
      · rcases hx1 with ⟨v', h1, h2⟩ | ⟨h1, h2⟩
        · obtain ⟨rfl, rfl, rfl⟩ := singleton_split (h1.symm.trans h3)
          rcases hy1 with ⟨w', h6, h7⟩ | ⟨h6, h7⟩
          · rw [h4] at h6; cases h6
            exact h.field f rfl _ _ x y h5 h2 h7
          · rw [h4] at h6; cases h6
        · rw [h3] at h1; simp at h1
    | flat f =>
      obtain ⟨hx1, hx2⟩ := hx
      obtain ⟨hy1, hy2⟩ := hy
      refine ⟨?_, ih hx2 hy2⟩
      rcases entriesFor_moved (own := own) (f := f) hm with he | he
      · rw [he, hy1] at hx1; cases hx1; exact h.refl _
      · exact h.flat f rfl _ _ x y he hx1 hy1

theorem NearItems.decode {F : Fixed} {is : List Item} {own : List Str} [Keys is own] [DistinctKeys own]
    {R : Record is → Record is → Prop} (h : NearItems F is R)
    {es fs : List (Str × Content)} (hm : Moved F es fs) {x y : Record is} (hx : decode is es = .ok x) (hy : Derive.decode is fs = .ok y) :
    R x y := h.stands hm ((decode_ok table_good _ _).1 hx) ((decode_ok table_good _ _).1 hy)

theorem NearItems.struct {F : Fixed} {is : List Item} {own : List Str} [Keys is own] [DistinctKeys own]
    {R : Record is → Record is → Prop} (hf : noFlat is = false) (h : NearItems F is R) {v w : Content} (hv : Exchanged F v w)
    {x y : Record is} (hx : (struct is).de v = .ok x) (hy : (Derive.struct is).de w = .ok y) : R x y := by
  obtain ⟨es, rfl, h1⟩ := (struct_de_flat table_good hf).1 hx
  obtain ⟨fs, rfl, h2⟩ := exchanged_mapping hv
  obtain ⟨fs', h3, h4⟩ := (struct_de_flat table_good hf).1 hy
  have : fs' = fs := by
    have := congrArg entriesOf h3
    rw [entriesOf_mapping, entriesOf_mapping] at this
    exact (Option.some.inj this).symm
  subst this
  exact h.stands h2 h1 h4

end Proofs
