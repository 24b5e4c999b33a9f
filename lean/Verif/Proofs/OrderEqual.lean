import Verif.Proofs.OrderStructs

/- Which ports and mounts are equal does not depend on the order of the keys in a document, other than that of extensions. -/

namespace Proofs
open Rust Compose Compose.Derive Compose.Codecs Spec
open Props hiding mapping entriesOf_mapping

section
variable {α : Type} {key : String} {F : Fixed}

theorem nearReq {c : Codec α} [hc : Rigid c] : NearItem F (req key c) Eq where
  refl _ := rfl
  field f h v w x y hv hx _ := by
    obtain rfl := Item.field.inj h
    exact absurd hx (hc.no _ v w x hv)
  flat f h := by cases h

theorem nearOpt {c : Codec α} [hc : Rigid c] : NearItem F (opt key c) Eq where
  refl _ := rfl
  field f h v w x y hv hx _ := by
    obtain rfl := Item.field.inj h
    exact absurd hx (Rigid.no (c := option c) _ v w x hv)
  flat f h := by cases h

theorem nearFlag : NearItem F (flag key) Eq where
  refl _ := rfl
  field f h v w x y hv hx _ := by
    obtain rfl := Item.field.inj h
    exact absurd hx (Rigid.no (c := bool) _ v w x hv)
  flat f h := by cases h

/-- Both missing, or both there and related. -/
inductive NearOption (R : α → α → Prop) : Option α → Option α → Prop
  | none : NearOption R none none
  | some {x y : α} : R x y → NearOption R (some x) (some y)

theorem near_option_refl {R : α → α → Prop} (h : ∀ x, R x x) : ∀ x, NearOption R x x
  | none => .none
  | some x => .some (h x)

theorem nearStruct {is : List Item} {own : List Str} [Keys is own] [DistinctKeys own] {R : Record is → Record is → Prop}
    (hl : noFlat is = false) (h : NearItems (F.after (.key (.str key.toList))) is R) :
    NearItem F (opt key (struct is)) (NearOption R) where
  refl := near_option_refl h.refl
  field f hf v w x y hv hx hy := by
    obtain rfl := Item.field.inj hf
    have hx : (option (struct is)).de v = .ok x := hx
    have hy : (option (struct is)).de w = .ok y := hy
    rw [option_de (exchanged_ne_unit hv)] at hx
    rw [option_de (exchanged_ne_unit hv.symm)] at hy
    obtain ⟨x, h1, rfl⟩ := Outcome.map_eq_ok.1 hx
    obtain ⟨y, h2, rfl⟩ := Outcome.map_eq_ok.1 hy
    exact .some (h.struct hl hv h1 h2)
  flat f h := by cases h

theorem nearNested {is : List Item} {own : List Str} [Keys is own] [DistinctKeys own] {R : Record is → Record is → Prop}
    (h : NearItems F is R) : NearItem F (nested is) R where
  refl := h.refl
  field f h := by cases h
  flat f hf es fs x y hm hx hy := by
    obtain rfl := Item.flat.inj hf
    exact h.decode hm hx hy

/-- Extensions in the same order whose values differ in the order of entries. -/
def NearExtensions (m m' : List (Str × Content)) : Prop := List.Forall₂ (fun e e' => e.1 = e'.1 ∧ SameButOrder e.2 e'.2) m m'

theorem nearExtensions (hF : ∀ k, IsExtension k → F [] k) : NearItem F extensions NearExtensions where
  refl x := List.forall₂_same.2 fun _ _ => ⟨rfl, .refl⟩
  field f h := by cases h
  flat f hf es fs x y hm hx hy := by
    obtain rfl := Item.flat.inj hf
    have hx : (readEntries extensionKey.parse .ok es).map IndexMap.collect = .ok x := hx
    have hy : (readEntries extensionKey.parse .ok fs).map IndexMap.collect = .ok y := hy
    obtain ⟨l, h1, rfl⟩ := Outcome.map_eq_ok.1 hx
    obtain ⟨l', h2, rfl⟩ := Outcome.map_eq_ok.1 hy
    obtain ⟨l'', h3, h4⟩ := readEntries_moved hm h1 fun k v w x hv hx => ⟨w, rfl⟩
    rw [h2] at h3; cases h3
    have hl : ∀ e ∈ l, ExtensionKey e.1 := by
      obtain ⟨rfl, h5⟩ := readExtensions_ok.1 h1
      exact h5
    rcases h4 with ⟨a, b, e, e', rfl, rfl, h10, h11⟩ | ⟨a, b, k, v, w, x, y, rfl, rfl, h10, h11, h12⟩
    · exact absurd ⟨hF _ ⟨_, rfl, hl e (by simp)⟩, hF _ ⟨_, rfl, hl e' (by simp)⟩⟩ h11
    · cases h11; cases h12
      refine collect_forall₂ (List.rel_append ?_ (.cons ⟨rfl, .single h10.free⟩ ?_)) <;>
        exact List.forall₂_same.2 fun _ _ => ⟨rfl, .refl⟩

theorem extensionsEq_near {E : Env} [hE : ValueEqUnordered E] {a b : List (Str × Content)} (h : NearExtensions a b) (z : List (Str × Content)) :
    Structs.extensionsEq E a z = Structs.extensionsEq E b z ∧ Structs.extensionsEq E z a = Structs.extensionsEq E z b := by
  induction h generalizing z with
  | nil => exact ⟨rfl, rfl⟩
  | @cons e e' l l' h1 _ ih =>
    obtain ⟨k, v⟩ := e
    obtain ⟨k', v'⟩ := e'
    obtain ⟨rfl : k = k', h2⟩ := h1
    cases z with
    | nil => exact ⟨rfl, rfl⟩
    | cons f z =>
      obtain ⟨k', u⟩ := f
      simp only [Structs.extensionsEq]
      rw [(ih z).1, (ih z).2, (hE.same v v' u h2).1, (hE.same v v' u h2).2]
      exact ⟨rfl, rfl⟩

end

section
variable {E : Env} {F : Fixed}

theorem port_near (hF : ∀ k, IsExtension k → F [] k) : NearItems F (Structs.port E) fun x y =>
    x.1 = y.1 ∧ x.2.1 = y.2.1 ∧ x.2.2.1 = y.2.2.1 ∧ x.2.2.2.1 = y.2.2.2.1 ∧ x.2.2.2.2.1 = y.2.2.2.2.1 ∧
      x.2.2.2.2.2.1 = y.2.2.2.2.2.1 ∧ x.2.2.2.2.2.2.1 = y.2.2.2.2.2.2.1 ∧
      NearExtensions x.2.2.2.2.2.2.2.1 y.2.2.2.2.2.2.2.1 ∧ True :=
  .cons nearOpt <| .cons nearReq <| .cons nearOpt <| .cons nearOpt <| .cons nearOpt <| .cons nearOpt <| .cons nearOpt <|
    .cons (nearExtensions hF) .nil

theorem portEq_near [ValueEqUnordered E] (hF : ∀ k, IsExtension k → F [] k) {v w : Content} (hv : Exchanged F v w)
    {x y : Record (Structs.port E)} (hx : (struct (Structs.port E)).de v = .ok x) (hy : (struct (Structs.port E)).de w = .ok y)
    (z : Record (Structs.port E)) :
    Structs.portEq E x z = Structs.portEq E y z ∧ Structs.portEq E z x = Structs.portEq E z y := by
  have h := (port_near hF).struct rfl hv hx hy
  obtain ⟨a1, a2, a3, a4, a5, a6, a7, a8, ⟨⟩⟩ := x
  obtain ⟨b1, b2, b3, b4, b5, b6, b7, b8, ⟨⟩⟩ := y
  obtain ⟨h1, h2, h3, h4, h5, h6, h7, h8, -⟩ := h
  dsimp only at h1 h2 h3 h4 h5 h6 h7 h8
  subst h1 h2 h3 h4 h5 h6 h7
  obtain ⟨c1, c2, c3, c4, c5, c6, c7, c8, ⟨⟩⟩ := z
  have := extensionsEq_near (E := E) h8 c8
  simp only [Structs.portEq, this.1, this.2, and_self]

theorem common_near (hF : ∀ k, IsExtension k → F [] k) : NearItems F Structs.common fun x y =>
    x.1 = y.1 ∧ x.2.1 = y.2.1 ∧ x.2.2.1 = y.2.2.1 ∧ NearExtensions x.2.2.2.1 y.2.2.2.1 ∧ True :=
  .cons nearReq <| .cons nearFlag <| .cons nearOpt <| .cons (nearExtensions hF) .nil

/-- The relation of `common_near`. -/
def NearCommon (x y : Record Structs.common) : Prop :=
  x.1 = y.1 ∧ x.2.1 = y.2.1 ∧ x.2.2.1 = y.2.2.1 ∧ NearExtensions x.2.2.2.1 y.2.2.2.1 ∧ True

theorem commonEq_near [ValueEqUnordered E] {x y : Record Structs.common} (h : NearCommon x y) (z : Record Structs.common) :
    Structs.commonEq E x z = Structs.commonEq E y z ∧ Structs.commonEq E z x = Structs.commonEq E z y := by
  obtain ⟨a1, a2, a3, a4, ⟨⟩⟩ := x
  obtain ⟨b1, b2, b3, b4, ⟨⟩⟩ := y
  obtain ⟨h1, h2, h3, h8, -⟩ := h
  dsimp only at h1 h2 h3 h8
  subst h1 h2 h3
  obtain ⟨c1, c2, c3, c4, ⟨⟩⟩ := z
  have := extensionsEq_near (E := E) h8 c4
  simp only [Structs.commonEq, this.1, this.2, and_self]

/-- The relation of `volumeOptions_near`. -/
def NearVolumeOptions (x y : Record Structs.volumeOptions) : Prop :=
  x.1 = y.1 ∧ x.2.1 = y.2.1 ∧ NearExtensions x.2.2.1 y.2.2.1 ∧ True

theorem volumeOptions_near (hF : ∀ k, IsExtension k → F [] k) : NearItems F Structs.volumeOptions NearVolumeOptions :=
  .cons nearFlag <| .cons nearOpt <| .cons (nearExtensions hF) .nil

theorem volumeOptionsEq_near [ValueEqUnordered E] {x y : Record Structs.volumeOptions} (h : NearVolumeOptions x y)
    (z : Record Structs.volumeOptions) :
    Structs.volumeOptionsEq E x z = Structs.volumeOptionsEq E y z ∧ Structs.volumeOptionsEq E z x = Structs.volumeOptionsEq E z y := by
  obtain ⟨a1, a2, a4, ⟨⟩⟩ := x
  obtain ⟨b1, b2, b4, ⟨⟩⟩ := y
  obtain ⟨h1, h2, h8, -⟩ := h
  dsimp only at h1 h2 h8
  subst h1 h2
  obtain ⟨c1, c2, c4, ⟨⟩⟩ := z
  have := extensionsEq_near (E := E) h8 c4
  simp only [Structs.volumeOptionsEq, this.1, this.2, and_self]

/-- The relation of `bindOptions_near`. -/
def NearBindOptions (x y : Record Structs.bindOptions) : Prop :=
  x.1 = y.1 ∧ x.2.1 = y.2.1 ∧ x.2.2.1 = y.2.2.1 ∧ NearExtensions x.2.2.2.1 y.2.2.2.1 ∧ True

theorem bindOptions_near (hF : ∀ k, IsExtension k → F [] k) : NearItems F Structs.bindOptions NearBindOptions :=
  .cons nearOpt <| .cons nearFlag <| .cons nearOpt <| .cons (nearExtensions hF) .nil

theorem bindOptionsEq_near [ValueEqUnordered E] {x y : Record Structs.bindOptions} (h : NearBindOptions x y)
    (z : Record Structs.bindOptions) :
    Structs.bindOptionsEq E x z = Structs.bindOptionsEq E y z ∧ Structs.bindOptionsEq E z x = Structs.bindOptionsEq E z y := by
  obtain ⟨a1, a2, a3, a4, ⟨⟩⟩ := x
  obtain ⟨b1, b2, b3, b4, ⟨⟩⟩ := y
  obtain ⟨h1, h2, h3, h8, -⟩ := h
  dsimp only at h1 h2 h3 h8
  subst h1 h2 h3
  obtain ⟨c1, c2, c3, c4, ⟨⟩⟩ := z
  have := extensionsEq_near (E := E) h8 c4
  simp only [Structs.bindOptionsEq, this.1, this.2, and_self]

/-- The relation of `tmpfsOptions_near`. -/
def NearTmpfsOptions (x y : Record Structs.tmpfsOptions) : Prop :=
  x.1 = y.1 ∧ x.2.1 = y.2.1 ∧ NearExtensions x.2.2.1 y.2.2.1 ∧ True

theorem tmpfsOptions_near (hF : ∀ k, IsExtension k → F [] k) : NearItems F Structs.tmpfsOptions NearTmpfsOptions :=
  .cons nearOpt <| .cons nearOpt <| .cons (nearExtensions hF) .nil

theorem tmpfsOptionsEq_near [ValueEqUnordered E] {x y : Record Structs.tmpfsOptions} (h : NearTmpfsOptions x y)
    (z : Record Structs.tmpfsOptions) :
    Structs.tmpfsOptionsEq E x z = Structs.tmpfsOptionsEq E y z ∧ Structs.tmpfsOptionsEq E z x = Structs.tmpfsOptionsEq E z y := by
  obtain ⟨a1, a2, a4, ⟨⟩⟩ := x
  obtain ⟨b1, b2, b4, ⟨⟩⟩ := y
  obtain ⟨h1, h2, h8, -⟩ := h
  dsimp only at h1 h2 h8
  subst h1 h2
  obtain ⟨c1, c2, c4, ⟨⟩⟩ := z
  have := extensionsEq_near (E := E) h8 c4
  simp only [Structs.tmpfsOptionsEq, this.1, this.2, and_self]

theorem optionEq_near {α : Type} {R : α → α → Prop} {eq : α → α → Bool} (h : ∀ x y, R x y → ∀ z, eq x z = eq y z ∧ eq z x = eq z y)
    {x y : Option α} (hx : NearOption R x y) (z : Option α) :
    Structs.optionEq eq x z = Structs.optionEq eq y z ∧ Structs.optionEq eq z x = Structs.optionEq eq z y := by
  cases hx with
  | none => exact ⟨rfl, rfl⟩
  | some hx =>
    cases z with
    | none => exact ⟨rfl, rfl⟩
    | some z => exact h _ _ hx z

/-- Mounts of the same type that are equal up to the order of entries within extensions. -/
inductive NearMount : Structs.MountOf → Structs.MountOf → Prop
  | volume {x y : Record Structs.mountVolume} :
      (x.1 = y.1 ∧ NearOption NearVolumeOptions x.2.1 y.2.1 ∧ NearCommon x.2.2.1 y.2.2.1 ∧ True) → NearMount (.volume x) (.volume y)
  | bind {x y : Record Structs.mountBind} :
      (x.1 = y.1 ∧ NearOption NearBindOptions x.2.1 y.2.1 ∧ NearCommon x.2.2.1 y.2.2.1 ∧ True) → NearMount (.bind x) (.bind y)
  | tmpfs {x y : Record Structs.mountTmpfs} :
      (NearOption NearTmpfsOptions x.1 y.1 ∧ NearCommon x.2.1 y.2.1 ∧ True) → NearMount (.tmpfs x) (.tmpfs y)
  | namedPipe {x y : Record Structs.mountNamedPipe} :
      (x.1 = y.1 ∧ NearCommon x.2.1 y.2.1 ∧ True) → NearMount (.namedPipe x) (.namedPipe y)
  | cluster {x y : Record Structs.mountCluster} :
      (x.1 = y.1 ∧ NearCommon x.2.1 y.2.1 ∧ True) → NearMount (.cluster x) (.cluster y)

theorem mountEq_near [ValueEqUnordered E] {x y : Structs.MountOf} (h : NearMount x y) (z : Structs.MountOf) :
    Structs.mountEq E x z = Structs.mountEq E y z ∧ Structs.mountEq E z x = Structs.mountEq E z y := by
  cases h with
  | @volume x y h =>
    obtain ⟨a1, a2, a3, ⟨⟩⟩ := x
    obtain ⟨b1, b2, b3, ⟨⟩⟩ := y
    obtain ⟨h1, h2, h3, -⟩ := h
    dsimp only at h1 h2 h3
    subst h1
    cases z with
    | volume z =>
      obtain ⟨c1, c2, c3, ⟨⟩⟩ := z
      have e := optionEq_near (fun _ _ h => volumeOptionsEq_near (E := E) h) h2 c2
      have e' := commonEq_near (E := E) h3 c3
      simp only [Structs.mountEq, e.1, e.2, e'.1, e'.2, and_self]
    | _ => exact ⟨rfl, rfl⟩
  | @bind x y h =>
    obtain ⟨a1, a2, a3, ⟨⟩⟩ := x
    obtain ⟨b1, b2, b3, ⟨⟩⟩ := y
    obtain ⟨h1, h2, h3, -⟩ := h
    dsimp only at h1 h2 h3
    subst h1
    cases z with
    | bind z =>
      obtain ⟨c1, c2, c3, ⟨⟩⟩ := z
      have e := optionEq_near (fun _ _ h => bindOptionsEq_near (E := E) h) h2 c2
      have e' := commonEq_near (E := E) h3 c3
      simp only [Structs.mountEq, e.1, e.2, e'.1, e'.2, and_self]
    | _ => exact ⟨rfl, rfl⟩
  | @tmpfs x y h =>
    obtain ⟨a2, a3, ⟨⟩⟩ := x
    obtain ⟨b2, b3, ⟨⟩⟩ := y
    obtain ⟨h2, h3, -⟩ := h
    dsimp only at h2 h3
    cases z with
    | tmpfs z =>
      obtain ⟨c2, c3, ⟨⟩⟩ := z
      have e := optionEq_near (fun _ _ h => tmpfsOptionsEq_near (E := E) h) h2 c2
      have e' := commonEq_near (E := E) h3 c3
      simp only [Structs.mountEq, e.1, e.2, e'.1, e'.2, and_self]
    | _ => exact ⟨rfl, rfl⟩
  | @namedPipe x y h =>
    obtain ⟨a1, a3, ⟨⟩⟩ := x
    obtain ⟨b1, b3, ⟨⟩⟩ := y
    obtain ⟨h1, h3, -⟩ := h
    dsimp only at h1 h3
    subst h1
    cases z with
    | namedPipe z =>
      obtain ⟨c1, c3, ⟨⟩⟩ := z
      have e' := commonEq_near (E := E) h3 c3
      simp only [Structs.mountEq, e'.1, e'.2, and_self]
    | _ => exact ⟨rfl, rfl⟩
  | @cluster x y h =>
    obtain ⟨a1, a3, ⟨⟩⟩ := x
    obtain ⟨b1, b3, ⟨⟩⟩ := y
    obtain ⟨h1, h3, -⟩ := h
    dsimp only at h1 h3
    subst h1
    cases z with
    | cluster z =>
      obtain ⟨c1, c3, ⟨⟩⟩ := z
      have e' := commonEq_near (E := E) h3 c3
      simp only [Structs.mountEq, e'.1, e'.2, and_self]
    | _ => exact ⟨rfl, rfl⟩

/-- The keys that have to stay in their order in a mount. -/
structure MountFixed (F : Fixed) : Prop where
  here : ∀ k, IsExtension k → F [] k
  volume : ∀ k, IsExtension k → F [.key (.str "volume".toList)] k
  bind : ∀ k, IsExtension k → F [.key (.str "bind".toList)] k
  tmpfs : ∀ k, IsExtension k → F [.key (.str "tmpfs".toList)] k

theorem mountRead_near (hF : MountFixed F) {es fs : List (Str × Content)} (h : Moved F es fs) {x y : Structs.MountOf}
    (hx : Structs.mountRead es = .ok x) (hy : Structs.mountRead fs = .ok y) : NearMount x y := by
  have refl : NearMount x x := by
    have hc : ∀ c, NearCommon c c := (common_near (F := fun _ _ => True) fun _ _ => trivial).refl
    cases x with
    | volume r => exact .volume ⟨rfl, near_option_refl (volumeOptions_near (F := fun _ _ => True) fun _ _ => trivial).refl _, hc _, trivial⟩
    | bind r => exact .bind ⟨rfl, near_option_refl (bindOptions_near (F := fun _ _ => True) fun _ _ => trivial).refl _, hc _, trivial⟩
    | tmpfs r => exact .tmpfs ⟨near_option_refl (tmpfsOptions_near (F := fun _ _ => True) fun _ _ => trivial).refl _, hc _, trivial⟩
    | namedPipe r => exact .namedPipe ⟨rfl, hc _, trivial⟩
    | cluster r => exact .cluster ⟨rfl, hc _, trivial⟩
  have ht : ∀ tag, (∃ k, es.filter (fun e => e.1 = Structs.tagKey) = [(k, .str tag)]) → es.filter (fun e => e.1 = Structs.tagKey) =
      fs.filter (fun e => e.1 = Structs.tagKey) := by
    rintro tag ⟨k, hk⟩
    rcases h.filter fun k => decide (k = Structs.tagKey) with h | h
    · exact h
    · rw [hk] at h
      generalize hl : (fs.filter fun e => decide (e.1 = Structs.tagKey)) = l at h
      generalize hl' : [(k, Content.str tag)] = l' at h
      cases h with
      | @swap a => rcases a with _ | ⟨_, _ | _⟩ <;> simp at hl'
      | value h =>
        obtain ⟨-, -, h1⟩ := singleton_split hl'
        cases h1; cases h
  unfold Structs.mountRead at hx hy
  split at hx
  · rename_i k tag hk
    rw [← ht tag ⟨k, hk⟩, hk] at hy
    dsimp only at hx hy
    rcases h.filter fun k => decide (k ≠ Structs.tagKey) with he | he
    · have he : (es.filter fun e => e.1 ≠ Structs.tagKey) = (fs.filter fun e => e.1 ≠ Structs.tagKey) := by simpa using he
      rw [he] at hx
      rw [hx] at hy; cases hy
      exact refl
    · have he : Moved F (es.filter fun e => e.1 ≠ Structs.tagKey) (fs.filter fun e => e.1 ≠ Structs.tagKey) := by simpa using he
      generalize (es.filter fun e => e.1 ≠ Structs.tagKey) = a at hx he
      generalize (fs.filter fun e => e.1 ≠ Structs.tagKey) = b at hy he
      split at hx
      · rw [if_pos (by assumption)] at hy
        obtain ⟨r, h1, rfl⟩ := Outcome.map_eq_ok.1 hx
        obtain ⟨s, h2, rfl⟩ := Outcome.map_eq_ok.1 hy
        exact .volume ((NearItems.cons nearOpt (.cons (nearStruct rfl (volumeOptions_near hF.volume))
          (.cons (nearNested (common_near hF.here)) .nil))).decode (is := Structs.mountVolume) he h1 h2)
      rw [if_neg (by assumption)] at hy
      split at hx
      · rw [if_pos (by assumption)] at hy
        obtain ⟨r, h1, rfl⟩ := Outcome.map_eq_ok.1 hx
        obtain ⟨s, h2, rfl⟩ := Outcome.map_eq_ok.1 hy
        exact .bind ((NearItems.cons nearReq (.cons (nearStruct rfl (bindOptions_near hF.bind))
          (.cons (nearNested (common_near hF.here)) .nil))).decode (is := Structs.mountBind) he h1 h2)
      rw [if_neg (by assumption)] at hy
      split at hx
      · rw [if_pos (by assumption)] at hy
        obtain ⟨r, h1, rfl⟩ := Outcome.map_eq_ok.1 hx
        obtain ⟨s, h2, rfl⟩ := Outcome.map_eq_ok.1 hy
        exact .tmpfs ((NearItems.cons (nearStruct rfl (tmpfsOptions_near hF.tmpfs))
          (.cons (nearNested (common_near hF.here)) .nil)).decode (is := Structs.mountTmpfs) he h1 h2)
      rw [if_neg (by assumption)] at hy
      split at hx
      · rw [if_pos (by assumption)] at hy
        obtain ⟨r, h1, rfl⟩ := Outcome.map_eq_ok.1 hx
        obtain ⟨s, h2, rfl⟩ := Outcome.map_eq_ok.1 hy
        exact .namedPipe ((NearItems.cons nearReq (.cons (nearNested (common_near hF.here)) .nil)).decode
          (is := Structs.mountNamedPipe) he h1 h2)
      rw [if_neg (by assumption)] at hy
      split at hx
      · rw [if_pos (by assumption)] at hy
        obtain ⟨r, h1, rfl⟩ := Outcome.map_eq_ok.1 hx
        obtain ⟨s, h2, rfl⟩ := Outcome.map_eq_ok.1 hy
        exact .cluster ((NearItems.cons nearReq (.cons (nearNested (common_near hF.here)) .nil)).decode
          (is := Structs.mountCluster) he h1 h2)
      cases hx
  · cases hx

theorem mount_near (hF : MountFixed F) {v w : Content} (hv : Exchanged F v w) {x y : Structs.MountOf}
    (hx : Structs.mount.de v = .ok x) (hy : Structs.mount.de w = .ok y) : NearMount x y := by
  obtain ⟨es, h1, h2⟩ := Outcome.bind_eq_ok.1 hx
  obtain ⟨fs, h3, h4⟩ := entriesOf_exchanged hv (Outcome.ofOption_eq_ok.1 h1)
  have hy : (Outcome.ofOption (entriesOf w)).bind Structs.mountRead = .ok y := hy
  rw [h3] at hy
  exact mountRead_near hF h4 h2 hy

/-! ### Sets of ports and volumes -/

theorem ports_free [ValueEqUnordered E] (hF : ∀ k, IsExtension k → F [.item] k) : OrderFree F (Structs.ports E) := by
  refine @set_free _ _ F (Structs.portsEq E) (Unordered.any _) ?_
  intro v w x y hv hx hy z
  rcases exchanged_isMap hv with ⟨es, fs, rfl, rfl⟩ | ⟨vs, ws, rfl, rfl⟩
  · obtain ⟨x, h1, rfl⟩ := Outcome.map_eq_ok.1 hx
    obtain ⟨y, h2, rfl⟩ := Outcome.map_eq_ok.1 hy
    cases z with
    | short z => exact ⟨rfl, rfl⟩
    | long z => exact portEq_near (F := F.after .item) hF hv h1 h2 z
  · have hx : ((shortPort E).de (.seq vs)).map ShortOrLong.short = .ok x := hx
    obtain ⟨x, h1, rfl⟩ := Outcome.map_eq_ok.1 hx
    exact absurd h1 (Rigid.no (c := shortPort E) _ _ _ x hv)

theorem volumes_free [ValueEqUnordered E] (hF : MountFixed (F.after .item)) : OrderFree F (Structs.volumes E) := by
  refine @set_free _ _ F (Structs.volumesEq E) (Unordered.any _) ?_
  intro v w x y hv hx hy z
  rcases exchanged_isMap hv with ⟨es, fs, rfl, rfl⟩ | ⟨vs, ws, rfl, rfl⟩
  · obtain ⟨x, h1, rfl⟩ := Outcome.map_eq_ok.1 hx
    obtain ⟨y, h2, rfl⟩ := Outcome.map_eq_ok.1 hy
    cases z with
    | short z => exact ⟨rfl, rfl⟩
    | long z => exact mountEq_near (mount_near hF hv h1 h2) z
  · have hx : (shortVolume.de (.seq vs)).map ShortOrLong.short = .ok x := hx
    obtain ⟨x, h1, rfl⟩ := Outcome.map_eq_ok.1 hx
    exact absurd h1 (Rigid.no (c := shortVolume) _ _ _ x hv)

end

/-! ### Services and files -/

/-- As `ItemUnordered`, for the order of some keys only. -/
class FreeItem (F : Fixed) (i : Item) : Prop where
  free : ItemFree F i

/-- As `ItemsUnordered`, for the order of some keys only. -/
class FreeItems (F : Fixed) (is : List Item) : Prop where
  all : ∀ i ∈ is, ItemFree F i

instance {F : Fixed} : FreeItems F [] := ⟨fun _ h => by cases h⟩

instance instFreeItemsCons {F : Fixed} {i : Item} {is : List Item} [h : FreeItem F i] [hs : FreeItems F is] : FreeItems F (i :: is) :=
  ⟨List.forall_mem_cons.2 ⟨h.free, hs.all⟩⟩

instance (priority := low) {F : Fixed} {i : Item} [ItemUnordered i] : FreeItem F i := ⟨ItemUnordered.any F⟩

instance : FreeItem ServiceFixed (opt "healthcheck" healthcheck) := ⟨opt_free (healthcheck_free .disable .test)⟩

instance {E : Env} [ValueEqUnordered E] : FreeItem ServiceFixed (many "ports" (Structs.ports E)) :=
  ⟨many_free (ports_free fun _ h => .port h)⟩

instance {E : Env} [ValueEqUnordered E] : FreeItem ServiceFixed (many "volumes" (Structs.volumes E)) :=
  ⟨many_free (volumes_free ⟨fun _ h => .volume h, fun _ h => .volumeOptions h, fun _ h => .bindOptions h, fun _ h => .tmpfsOptions h⟩)⟩

set_option synthInstance.maxHeartbeats 400000 in
set_option synthInstance.maxSize 4096 in
instance {E : Env} [ValueEqUnordered E] : FreeItems ServiceFixed (Structs.service E) := by
  unfold Structs.service
  dsimp only
  repeat' first | exact inferInstanceAs (FreeItems _ []) | refine @instFreeItemsCons _ _ _ ?_ ?_ | infer_instance

theorem service_free {E : Env} [ValueEqUnordered E] : OrderFree ServiceFixed (struct (Structs.service E)) :=
  struct_free table_good (fun h => by cases h) (FreeItems.all)

instance {E : Env} [ValueEqUnordered E] : FreeItem FileFixed (req "services" (map identifierKey (struct (Structs.service E)))) :=
  ⟨req_free (map_free fun name v w x hv hx => service_free v w x (hv.mono fun q k h => ⟨_, q, rfl, h⟩) hx)⟩

instance {E : Env} [EnvOk E] [ValueEqUnordered E] : FreeItems FileFixed (Structs.compose E) := by unfold Structs.compose; infer_instance

theorem compose_free {E : Env} [EnvOk E] [ValueEqUnordered E] : OrderFree FileFixed (struct (Structs.compose E)) :=
  struct_free table_good (fun h => by cases h) (FreeItems.all)

end Proofs
