import Verif.Proofs.Structs
import Mathlib.Data.List.Forall2

/- Order of entries, panics, and what is left out, for the structs of the library. -/

namespace Proofs
open Rust Compose Compose.Derive Compose.Codecs Compose.Structs Spec
open Props hiding mapping entriesOf_mapping

/-! ### Order of entries -/

theorem given_eq_valuesOf (es : List (Str × Content)) (k : Str) : given es k = valuesOf k es := rfl

theorem given_length {es : List (Str × Content)} (hn : (es.map (·.1)).Nodup) (k : Str) : (given es k).length ≤ 1 := by
  have h : ((es.filter fun e => e.1 = k).map (·.1)).Nodup := hn.sublist (List.filter_sublist.map _)
  have h2 : ∀ e ∈ (es.filter fun e => e.1 = k), e.1 = k := fun e he => by simpa using (List.mem_filter.1 he).2
  unfold given
  rw [List.length_map]
  generalize (es.filter fun e => e.1 = k) = l at h h2
  match l, h, h2 with
  | [], _, _ => simp
  | [_], _, _ => simp
  | a :: b :: l, h, h2 =>
    have h3 := h2 a (by simp)
    have h4 := h2 b (by simp)
    simp [h3, h4] at h

theorem given_eq_of_perm {es es' : List (Str × Content)} (h : es.Perm es') (hn : (es.map (·.1)).Nodup) (k : Str) :
    given es k = given es' k := by
  have h1 := given_perm h k
  have h2 := given_length hn k
  match hg : given es k with
  | [] => rw [hg] at h1; exact (List.nil_perm.1 h1).symm
  | [v] => rw [hg] at h1; exact List.singleton_perm.1 h1
  | _ :: _ :: _ => rw [hg] at h2; simp at h2

theorem flatOption_congr {α : Type} {de : Content → Option α} {k : Str} {es es' : List (Str × Content)}
    (h : given es k = given es' k) : flatOption de k es = flatOption de k es' := by
  unfold flatOption
  congr 1
  refine Option.ext fun o => ?_
  rw [scanField_iff, scanField_iff, ← given_eq_valuesOf, ← given_eq_valuesOf, h]

/-- Values of a flattened field that are the same differ at most in the order of extensions, and are valid together. -/
structure SameLaws (f : Flat) : Prop where
  refl : ∀ x, f.same x x
  differ : ∀ x y, f.same x y → SameFlat x y
  valid : ∀ x y, f.same x y → f.valid x → f.valid y
  trans : ∀ x y z, f.same x y → f.same y z → f.same x z

theorem sameLaws_eq {f : Flat} (hr : ∀ x, f.same x x) (h : ∀ x y, f.same x y → x = y) : SameLaws f where
  refl := hr
  differ x y hs := by cases h x y hs; exact .refl x
  valid x y hs hv := by cases h x y hs; exact hv
  trans x y z h1 h2 := by cases h x y h1; exact h2

/-- A flattened field, if it is one, does not depend on the order of the entries. -/
class ItemStable (i : Item) : Prop where
  stable : ∀ f, i = .flat f → Stable f
  laws : ∀ f, i = .flat f → SameLaws f

/-- No flattened field depends on the order of the entries. -/
class ItemsStable (is : List Item) : Prop where
  stable : ∀ f, .flat f ∈ is → Stable f
  laws : ∀ f, .flat f ∈ is → SameLaws f

instance : ItemsStable [] := ⟨fun _ h => (by cases h), fun _ h => (by cases h)⟩

instance {i : Item} {is : List Item} [h : ItemStable i] [hs : ItemsStable is] : ItemsStable (i :: is) :=
  ⟨fun f hf => (List.mem_cons.1 hf).elim (fun e => h.stable f e.symm) (hs.stable f),
    fun f hf => (List.mem_cons.1 hf).elim (fun e => h.laws f e.symm) (hs.laws f)⟩

theorem same_differ {is : List Item} (h : ∀ f, .flat f ∈ is → SameLaws f) {r r' : Record is} (hs : same is r r') :
    SameRecord is r r' := by
  induction is with
  | nil => trivial
  | cons i is ih =>
    have h' := ih (fun f hf => h f (List.mem_cons_of_mem _ hf)) (r := r.2) (r' := r'.2)
    cases i with
    | field f => exact ⟨hs.1, h' hs.2⟩
    | flat f => exact ⟨(h f List.mem_cons_self).differ _ _ hs.1, h' hs.2⟩

theorem same_valid {is : List Item} (h : ∀ f, .flat f ∈ is → SameLaws f) {r r' : Record is} (hs : same is r r')
    (hv : recordValid is r) : recordValid is r' := by
  induction is with
  | nil => trivial
  | cons i is ih =>
    have h' := ih (fun f hf => h f (List.mem_cons_of_mem _ hf)) (r := r.2) (r' := r'.2)
    cases i with
    | field f => exact ⟨hs.1 ▸ hv.1, h' hs.2 hv.2⟩
    | flat f => exact ⟨(h f List.mem_cons_self).valid _ _ hs.1 hv.1, h' hs.2 hv.2⟩

theorem same_refl {is : List Item} (h : ∀ f, .flat f ∈ is → SameLaws f) (r : Record is) : same is r r := by
  induction is with
  | nil => trivial
  | cons i is ih =>
    have h' := ih (fun f hf => h f (List.mem_cons_of_mem _ hf)) r.2
    cases i with
    | field f => exact ⟨rfl, h'⟩
    | flat f => exact ⟨(h f List.mem_cons_self).refl _, h'⟩

theorem same_trans {is : List Item} (h : ∀ f, .flat f ∈ is → SameLaws f) {r r' r'' : Record is} (hs : same is r r')
    (hs' : same is r' r'') : same is r r'' := by
  induction is with
  | nil => trivial
  | cons i is ih =>
    have h' := ih (fun f hf => h f (List.mem_cons_of_mem _ hf)) (r := r.2) (r' := r'.2) (r'' := r''.2)
    cases i with
    | field f => exact ⟨hs.1.trans hs'.1, h' hs.2 hs'.2⟩
    | flat f => exact ⟨(h f List.mem_cons_self).trans _ _ _ hs.1 hs'.1, h' hs.2 hs'.2⟩

theorem stable_cons {i : Item} {is : List Item} (_ : ItemStable i) (_ : ItemsStable is) : ItemsStable (i :: is) := inferInstance

section
variable {α : Type} {key : String}
instance {c : Codec α} : ItemStable (req key c) := ⟨fun _ h => (by cases h), fun _ h => (by cases h)⟩
instance {c : Codec (Option α)} : ItemStable (optWith key c) := ⟨fun _ h => (by cases h), fun _ h => (by cases h)⟩
instance {c : Codec α} : ItemStable (opt key c) := ⟨fun _ h => (by cases h), fun _ h => (by cases h)⟩
instance : ItemStable (flag key) := ⟨fun _ h => (by cases h), fun _ h => (by cases h)⟩
instance : ItemStable (flagTrue key) := ⟨fun _ h => (by cases h), fun _ h => (by cases h)⟩
instance {c : Codec (List α)} : ItemStable (many key c) := ⟨fun _ h => (by cases h), fun _ h => (by cases h)⟩
instance : ItemStable (manyListOrMap key) := ⟨fun _ h => (by cases h), fun _ h => (by cases h)⟩
instance : ItemStable Structs.dependsOn := ⟨fun _ h => (by cases h), fun _ h => (by cases h)⟩
end

theorem stable_of_eq {f : Flat} (h : ∀ es es', (∀ k, given es k = given es' k) → f.read es = f.read es')
    (hr : ∀ x, f.same x x) : Stable f := fun es es' x hp hn hx =>
  ⟨x, by rw [← h es es' (given_eq_of_perm hp hn)]; exact hx, hr x⟩

instance : ItemStable dockerfile := ⟨fun f hf => (by
  obtain rfl := Item.flat.inj hf
  refine stable_of_eq (fun es es' h => ?_) fun _ => rfl
  show Outcome.ofOption (Dockerfile.optionEntries es) = Outcome.ofOption (Dockerfile.optionEntries es')
  simp only [Dockerfile.optionEntries, flatOption_congr (h _)]),
  fun f hf => by obtain rfl := Item.flat.inj hf; exact sameLaws_eq (fun _ => rfl) fun _ _ h => h⟩

instance : ItemStable configSource := ⟨fun f hf => (by
  obtain rfl := Item.flat.inj hf
  refine stable_of_eq (fun es es' h => ?_) fun _ => rfl
  show Outcome.ofOption (ConfigSource.deEntries es) = Outcome.ofOption (ConfigSource.deEntries es')
  simp only [ConfigSource.deEntries, flatOption_congr (h _)]),
  fun f hf => by obtain rfl := Item.flat.inj hf; exact sameLaws_eq (fun _ => rfl) fun _ _ h => h⟩

instance : ItemStable secretSource := ⟨fun f hf => (by
  obtain rfl := Item.flat.inj hf
  refine stable_of_eq (fun es es' h => ?_) fun _ => rfl
  show Outcome.ofOption (SecretSource.deEntries es) = Outcome.ofOption (SecretSource.deEntries es')
  simp only [SecretSource.deEntries, flatOption_congr (h _)]),
  fun f hf => by obtain rfl := Item.flat.inj hf; exact sameLaws_eq (fun _ => rfl) fun _ _ h => h⟩

instance {E : Env} : ItemStable (Structs.networkConfig E) := ⟨fun f hf => (by
  obtain rfl := Item.flat.inj hf
  refine stable_of_eq (fun es es' h => ?_) fun _ => rfl
  show Outcome.ofOption (NetworkConfigOf.optionEntries _ es) = Outcome.ofOption (NetworkConfigOf.optionEntries _ es')
  simp only [NetworkConfigOf.optionEntries, flatOption_congr (h _)]),
  fun f hf => by obtain rfl := Item.flat.inj hf; exact sameLaws_eq (fun _ => rfl) fun _ _ h => h⟩

/-- The extensions are read exactly from entries whose keys are those of extensions. -/
theorem readExtensions_ok {es m : List (Str × Content)} :
    readEntries extensionKey.parse .ok es = .ok m ↔ m = es ∧ ∀ e ∈ es, ExtensionKey e.1 := by
  constructor
  · intro h
    induction es generalizing m with
    | nil => cases h; simp
    | cons e es ih =>
      obtain ⟨k, v⟩ := e
      simp only [readEntries, Outcome.bind_eq_ok, Outcome.map_eq_ok, Outcome.ofOption_eq_ok] at h
      obtain ⟨k', h1, v', h2, r, h3, rfl⟩ := h
      obtain ⟨rfl, h4⟩ := ih h3
      cases h2
      have h5 : extensionKeyNew k = .ok k' := by
        change (extensionKeyNew k).toOption = some k' at h1
        cases hk : extensionKeyNew k with
        | error e => rw [hk] at h1; cases h1
        | ok a => rw [hk] at h1; cases h1; rfl
      obtain ⟨h6, rfl⟩ := (C03_extension_key_accepts k k').1 h5
      refine ⟨rfl, fun e he => ?_⟩
      rcases List.mem_cons.1 he with rfl | he
      · exact h6
      · exact h4 e he
  · rintro ⟨rfl, h⟩
    exact readEntries_contents (key := extensionKey) h

instance : ItemStable extensions := ⟨fun f hf => (by
  obtain rfl := Item.flat.inj hf
  intro es es' x hp hn hx
  obtain ⟨m, h1, rfl⟩ := Outcome.map_eq_ok.1
    (show (readEntries extensionKey.parse .ok es).map IndexMap.collect = .ok x from hx)
  obtain ⟨rfl, h2⟩ := readExtensions_ok.1 h1
  have h3 := readExtensions_ok.2 ⟨rfl, fun e he => h2 e (hp.mem_iff.2 he)⟩
  refine ⟨es', ?_, ?_⟩
  · show (readEntries extensionKey.parse .ok es').map IndexMap.collect = .ok es'
    rw [h3, Outcome.map_ok, IndexMap.collect_ok ((hp.map _).nodup_iff.1 hn)]
  · show List.Perm (IndexMap.collect m) es'
    rw [IndexMap.collect_ok hn]; exact hp),
  fun f hf => by
    obtain rfl := Item.flat.inj hf
    exact {
      refl := fun _ => List.Perm.refl _
      differ := fun _ _ h => .extensions h
      valid := fun _ _ (h : List.Perm _ _) hv =>
        ⟨(h.map _).nodup_iff.1 hv.1, fun e he => hv.2 e (h.mem_iff.2 he)⟩
      trans := fun _ _ _ (h : List.Perm _ _) h' => h.trans h' }⟩

instance : ItemsStable Structs.common := by unfold Structs.common; infer_instance

instance : ItemStable (nested Structs.common) := ⟨fun f hf => (by
  obtain rfl := Item.flat.inj hf
  intro es es' x hp hn hx
  exact decode_perm table_good ItemsStable.stable hp hn hx),
  fun f hf => by
    obtain rfl := Item.flat.inj hf
    exact {
      refl := fun _ => same_refl ItemsStable.laws _
      differ := fun (a, b, c, m, _) (a', b', c', m', _) h => by
        obtain ⟨rfl, rfl, rfl, h, -⟩ := h
        exact .common h
      valid := fun _ _ h hv => same_valid ItemsStable.laws h hv
      trans := fun _ _ _ h h' => same_trans ItemsStable.laws h h' }⟩

/-! ### Panics -/

/-- Reading panics only because of a string of the given kind. -/
class PanicsOn (P : Str → Prop) {α : Type} (c : Codec α) : Prop where
  panic : ∀ v, c.de v = .panic → ∃ s, Occurs s v ∧ P s

theorem ofOption_ne_panic {α : Type} (o : Option α) : Outcome.ofOption o ≠ .panic := by cases o <;> exact nofun

theorem map_panic {α β : Type} {f : α → β} {o : Outcome Unit α} : o.map f = .panic ↔ o = .panic := by
  cases o <;> simp [Outcome.map]

theorem bind_panic {α β : Type} {f : α → Outcome Unit β} {o : Outcome Unit α} :
    o.bind f = .panic ↔ o = .panic ∨ ∃ a, o = .ok a ∧ f a = .panic := by
  cases o <;> simp [Outcome.bind]

section
variable {P : Str → Prop} {α : Type}

instance {c : Codec α} [h : PanicsOn P c] : PanicsOn P (option c) where
  panic v hv := by
    cases v with
    | unit => cases hv
    | _ => exact h.panic _ (map_panic.1 hv)

theorem readAll_panic {de : Content → Outcome Unit α} {vs : List Content} (h : readAll de vs = .panic) :
    ∃ v ∈ vs, de v = .panic := by
  induction vs with
  | nil => cases h
  | cons v vs ih =>
    rcases bind_panic.1 h with h | ⟨_, _, h⟩
    · exact ⟨v, by simp, h⟩
    · obtain ⟨w, hw, h⟩ := ih (map_panic.1 h)
      exact ⟨w, by simp [hw], h⟩

theorem seq_panic {c : Codec α} [h : PanicsOn P c] {vs : List Content} (hv : readAll c.de vs = .panic) :
    ∃ s, Occurs s (.seq vs) ∧ P s := by
  obtain ⟨v, hm, hv⟩ := readAll_panic hv
  obtain ⟨s, h1, h2⟩ := h.panic v hv
  exact ⟨s, .item hm h1, h2⟩

instance {c : Codec α} [PanicsOn P c] : PanicsOn P (list c) where
  panic v hv := by
    cases v with
    | seq vs => exact seq_panic (c := c) hv
    | _ => cases hv

instance [RustEq α] {c : Codec α} [PanicsOn P c] : PanicsOn P (set c) where
  panic v hv := by
    cases v with
    | seq vs => exact seq_panic (c := c) (map_panic.1 hv)
    | _ => cases hv

theorem readEntries_panic {key : Str → Option Str} {de : Content → Outcome Unit α} {es : List (Str × Content)}
    (h : readEntries key de es = .panic) : ∃ e ∈ es, de e.2 = .panic := by
  induction es with
  | nil => cases h
  | cons e es ih =>
    rcases bind_panic.1 h with h | ⟨_, _, h⟩
    · exact absurd h (ofOption_ne_panic _)
    · rcases bind_panic.1 h with h | ⟨_, _, h⟩
      · exact ⟨e, by simp, h⟩
      · obtain ⟨w, hw, h⟩ := ih (map_panic.1 h)
        exact ⟨w, by simp [hw], h⟩

theorem occurs_mapping {s : Str} {es : List (Str × Content)} {e : Str × Content} (he : e ∈ es) (h : Occurs s e.2) :
    Occurs s (Derive.mapping es) :=
  .value (k := .str e.1) (v := e.2) (List.mem_map.2 ⟨e, he, rfl⟩) h

theorem entries_panic {β : Type} {f : List (Str × Content) → Outcome Unit β}
    (h : ∀ es, f es = .panic → ∃ e ∈ es, ∃ s, Occurs s e.2 ∧ P s) {v : Content}
    (hv : (Outcome.ofOption (entriesOf v)).bind f = .panic) : ∃ s, Occurs s v ∧ P s := by
  rcases bind_panic.1 hv with hv | ⟨es, h1, h2⟩
  · exact absurd hv (ofOption_ne_panic _)
  · obtain ⟨e, he, s, h3, h4⟩ := h es h2
    obtain rfl : v = Derive.mapping es := entriesOf_iff.1 (Outcome.ofOption_eq_ok.1 h1)
    exact ⟨s, occurs_mapping he h3, h4⟩

instance {k : Key} {c : Codec α} [h : PanicsOn P c] : PanicsOn P (map k c) where
  panic v hv := by
    refine entries_panic (f := readEntries k.parse c.de) (fun es hes => ?_) (map_panic.1 hv)
    obtain ⟨e, he, h1⟩ := readEntries_panic hes
    exact ⟨e, he, h.panic _ h1⟩

instance {β : Type} {c : Codec α} {l : Codec β} [hc : PanicsOn P c] [hl : PanicsOn P l] : PanicsOn P (shortOrLong c l) where
  panic v hv := by
    cases v with
    | map es => exact hl.panic _ (map_panic.1 hv)
    | _ => exact hc.panic _ (map_panic.1 hv)

instance [RustEq α] {c : Codec α} [h : PanicsOn P c] : PanicsOn P (itemOrList c) where
  panic v hv := by
    cases v with
    | seq vs => exact seq_panic (c := c) (map_panic.1 hv)
    | map es => cases hv
    | unit => cases hv
    | _ => exact h.panic _ (map_panic.1 hv)

instance {parse : Str → Option α} {sh : α → Str} {valid : α → Prop} : PanicsOn P (text parse sh valid) where
  panic v hv := by
    cases v with
    | str s => exact absurd hv (ofOption_ne_panic _)
    | _ => cases hv

instance {ser : α → Content} {de : Content → Option α} {valid : α → Prop} : PanicsOn P (plain ser de valid) where
  panic _ hv := absurd hv (ofOption_ne_panic _)

instance {write : α → Str} {words : List (Str × α)} : PanicsOn P (keyword write words) :=
  inferInstanceAs (PanicsOn P (text _ _ _))

instance {t : TextType} : PanicsOn P (foreign t) := inferInstanceAs (PanicsOn P (text _ _ _))

instance : PanicsOn P Codecs.str := inferInstanceAs (PanicsOn P (text _ _ _))
instance : PanicsOn P Codecs.bool := inferInstanceAs (PanicsOn P (plain _ _ _))
instance {max : Nat} : PanicsOn P (Codecs.unsigned max) := inferInstanceAs (PanicsOn P (plain _ _ _))
instance : PanicsOn P Codecs.u16 := inferInstanceAs (PanicsOn P (unsigned _))
instance : PanicsOn P Codecs.u32 := inferInstanceAs (PanicsOn P (unsigned _))
instance : PanicsOn P Codecs.u64 := inferInstanceAs (PanicsOn P (unsigned _))
instance : PanicsOn P Codecs.identifier := inferInstanceAs (PanicsOn P (text _ _ _))
instance : PanicsOn P Codecs.hostname := inferInstanceAs (PanicsOn P (text _ _ _))
instance : PanicsOn P Codecs.projectName := inferInstanceAs (PanicsOn P (text _ _ _))
instance : PanicsOn P Codecs.absolutePath := inferInstanceAs (PanicsOn P (text _ _ _))
instance : PanicsOn P Codecs.hostPath := inferInstanceAs (PanicsOn P (text _ _ _))
instance : PanicsOn P Codecs.percent := inferInstanceAs (PanicsOn P (plain _ _ _))
instance : PanicsOn P Codecs.oomScoreAdj := inferInstanceAs (PanicsOn P (plain _ _ _))
instance : PanicsOn P Codecs.weight := inferInstanceAs (PanicsOn P (plain _ _ _))
instance {E : Env} : PanicsOn P (Codecs.cpus E) := inferInstanceAs (PanicsOn P (plain _ _ _))
instance : PanicsOn P Codecs.durationUs := inferInstanceAs (PanicsOn P (plain _ _ _))
instance : PanicsOn P Codecs.byteValue := inferInstanceAs (PanicsOn P (plain _ _ _))
instance : PanicsOn P Codecs.byteLimit := inferInstanceAs (PanicsOn P (plain _ _ _))
instance {max : Nat} : PanicsOn P (Codecs.limit max) := inferInstanceAs (PanicsOn P (plain _ _ _))
instance : PanicsOn P Codecs.cpuSet := inferInstanceAs (PanicsOn P (text _ _ _))
instance : PanicsOn P Codecs.image := inferInstanceAs (PanicsOn P (text _ _ _))
instance : PanicsOn P Codecs.link := inferInstanceAs (PanicsOn P (text _ _ _))
instance : PanicsOn P Codecs.ipc := inferInstanceAs (PanicsOn P (text _ _ _))
instance : PanicsOn P Codecs.endpointMode := inferInstanceAs (PanicsOn P (text _ _ _))
instance : PanicsOn P Codecs.capability := inferInstanceAs (PanicsOn P (text _ _ _))
instance : PanicsOn P Codecs.driver := inferInstanceAs (PanicsOn P (text _ _ _))
instance : PanicsOn P Codecs.volumesFrom := inferInstanceAs (PanicsOn P (text _ _ _))
instance : PanicsOn P Codecs.device := inferInstanceAs (PanicsOn P (text _ _ _))
instance : PanicsOn P Codecs.cgroupRule := inferInstanceAs (PanicsOn P (text _ _ _))
instance : PanicsOn P Codecs.macAddress := inferInstanceAs (PanicsOn P (text _ _ _))
instance : PanicsOn P Codecs.platform := inferInstanceAs (PanicsOn P (text _ _ _))
instance : PanicsOn P Codecs.shortVolume := inferInstanceAs (PanicsOn P (text _ _ _))
instance : PanicsOn P Codecs.selinux := inferInstanceAs (PanicsOn P (text _ _ _))
instance : PanicsOn P Codecs.sshAuth := inferInstanceAs (PanicsOn P (text _ _ _))
instance {E : Env} : PanicsOn P (Codecs.context E) := inferInstanceAs (PanicsOn P (text _ _ _))
instance : PanicsOn P Codecs.cache := inferInstanceAs (PanicsOn P (text _ _ _))
instance : PanicsOn P Codecs.buildNetwork := inferInstanceAs (PanicsOn P (text _ _ _))
instance : PanicsOn P Codecs.user := inferInstanceAs (PanicsOn P (text _ _ _))
instance : PanicsOn P Codecs.idOrName := inferInstanceAs (PanicsOn P (plain _ _ _))
instance : PanicsOn P Codecs.count := inferInstanceAs (PanicsOn P (plain _ _ _))
instance : PanicsOn P Codecs.protocol := inferInstanceAs (PanicsOn P (text _ _ _))
instance : PanicsOn P Codecs.value := inferInstanceAs (PanicsOn P (plain _ _ _))
instance : PanicsOn P Codecs.stringOrNumber := inferInstanceAs (PanicsOn P (plain _ _ _))
instance : PanicsOn P Codecs.valueMap := inferInstanceAs (PanicsOn P (map _ _))
instance : PanicsOn P Codecs.credentialSpec := inferInstanceAs (PanicsOn P (plain _ _ _))
instance : PanicsOn P Codecs.displayU32 := inferInstanceAs (PanicsOn P (option _))
instance : PanicsOn P Structs.deployMode := inferInstanceAs (PanicsOn P (keyword _ _))
instance : PanicsOn P Structs.restartCondition := inferInstanceAs (PanicsOn P (keyword _ _))
instance : PanicsOn P Structs.failureAction := inferInstanceAs (PanicsOn P (keyword _ _))
instance : PanicsOn P Structs.order := inferInstanceAs (PanicsOn P (keyword _ _))
instance : PanicsOn P Structs.action := inferInstanceAs (PanicsOn P (keyword _ _))
instance : PanicsOn P Structs.condition := inferInstanceAs (PanicsOn P (keyword _ _))
instance : PanicsOn P Structs.cgroup := inferInstanceAs (PanicsOn P (keyword _ _))
instance : PanicsOn P Structs.uts := inferInstanceAs (PanicsOn P (keyword _ _))
instance : PanicsOn P Structs.pullPolicy := inferInstanceAs (PanicsOn P (keyword _ _))
instance : PanicsOn P Structs.restart := inferInstanceAs (PanicsOn P (keyword _ _))
instance : PanicsOn P Structs.portMode := inferInstanceAs (PanicsOn P (keyword _ _))
instance : PanicsOn P Structs.bindPropagation := inferInstanceAs (PanicsOn P (keyword _ _))

instance : PanicsOn P range where
  panic v hv := by
    change deserializeFromStrOrU16 _ _ v = .panic at hv
    unfold deserializeFromStrOrU16 at hv
    split at hv
    · split at hv <;> cases hv
    · split at hv <;> cases hv
    · rename_i s
      cases h : Range.fromStr s <;> simp [h, Outcome.ofExcept] at hv
    · cases hv

instance : PanicsOn P Codecs.expose where
  panic v hv := by
    change deserializeFromStrOrU16 _ _ v = .panic at hv
    unfold deserializeFromStrOrU16 at hv
    split at hv
    · split at hv <;> cases hv
    · split at hv <;> cases hv
    · rename_i s
      cases h : Expose.fromStr s <;> simp [h, Outcome.ofExcept] at hv
    · cases hv

instance : PanicsOn P listOrMap where
  panic v hv := by
    cases v with
    | seq vs => exact PanicsOn.panic (c := set str) _ (map_panic.1 hv)
    | map es => exact PanicsOn.panic (c := valueMap) _ (map_panic.1 hv)
    | _ => cases hv

instance : PanicsOn P command where
  panic v hv := by
    cases v with
    | seq vs => exact PanicsOn.panic (c := list str) _ (map_panic.1 hv)
    | map es => cases hv
    | unit => cases hv
    | str s => exact nomatch (show Outcome.ok (Command.string s) = .panic from hv)
    | _ => cases hv

instance {E : Env} : PanicsOn P (Codecs.extraHosts E) where
  panic v hv := by
    rcases bind_panic.1 hv with hv | ⟨_, _, hv⟩
    · exact PanicsOn.panic (c := listOrMap) _ hv
    · exact absurd hv (ofOption_ne_panic _)

instance {E : Env} : PanicsOn P (additionalContexts E) where
  panic v hv := by
    rcases bind_panic.1 hv with hv | ⟨_, _, hv⟩
    · exact PanicsOn.panic (c := listOrMap) _ hv
    · exact absurd (map_panic.1 hv) (ofOption_ne_panic _)

end

/-- Strings for which reading a duration panics are among the given strings. -/
class DurationPanics (P : Str → Prop) : Prop where
  mem : ∀ s, durationParse s = .panic → P s

/-- Strings for which reading a short port panics are among the given strings. -/
class PortPanics (E : Env) (P : Str → Prop) : Prop where
  mem : ∀ s, ShortPort.fromStr (fun s => (E.ip.parse s).elim (Except.error ()) Except.ok) s = .panic → P s

theorem deserializeDuration_panic {v : Content} (h : deserializeDuration v = .panic) :
    ∃ s, v = .str s ∧ durationParse s = .panic := by
  unfold deserializeDuration at h
  split at h
  · split at h <;> cases h
  · split at h <;> cases h
  · rename_i s
    refine ⟨s, rfl, ?_⟩
    cases hs : durationParse s <;> simp [hs] at h ⊢
  · cases h

instance {P : Str → Prop} [h : DurationPanics P] : PanicsOn P duration where
  panic v hv := by
    obtain ⟨s, rfl, hs⟩ := deserializeDuration_panic hv
    exact ⟨s, .here, h.mem s hs⟩

instance {E : Env} {P : Str → Prop} [h : PortPanics E P] : PanicsOn P (shortPort E) where
  panic v hv := by
    change deserializeFromStrOrU16 _ _ v = .panic at hv
    unfold deserializeFromStrOrU16 at hv
    split at hv
    · split at hv <;> cases hv
    · split at hv <;> cases hv
    · rename_i s
      refine ⟨s, .here, h.mem s ?_⟩
      split at hv
      · cases hv
      · cases hv
      · assumption
    · cases hv

theorem durationOnce_panic {o : Option Duration} {v : Content} (h : durationOnce o v = .panic) :
    ∃ s, v = .str s ∧ durationParse s = .panic := by
  unfold durationOnce at h
  split at h
  · cases h
  · exact deserializeDuration_panic h

theorem step_panic {s : HealthState} {e : Str × Content} (h : s.step e = .panic) :
    ∃ t, e.2 = .str t ∧ durationParse t = .panic := by
  obtain ⟨k, v⟩ := e
  simp only [HealthState.step] at h
  repeat' split at h
  all_goals first
    | (rename_i hd; exact durationOnce_panic hd)
    | cases h

theorem run_panic {s : HealthState} {es : List (Str × Content)} (h : s.run es = .panic) :
    ∃ e ∈ es, ∃ t, e.2 = .str t ∧ durationParse t = .panic := by
  induction es generalizing s with
  | nil => cases h
  | cons e es ih =>
    rw [HealthState.run] at h
    split at h
    · obtain ⟨e', he, ht⟩ := ih h
      exact ⟨e', by simp [he], ht⟩
    · cases h
    · rename_i hs
      exact ⟨e, by simp, step_panic hs⟩

theorem finish_ne_panic (s : HealthState) : s.finish ≠ .panic := by
  unfold HealthState.finish
  split
  · split <;> exact nofun
  · exact nofun

instance {P : Str → Prop} [h : DurationPanics P] : PanicsOn P healthcheck where
  panic v hv := by
    change Healthcheck.deserialize v = .panic at hv
    cases v with
    | map xs =>
      simp only [Healthcheck.deserialize] at hv
      split at hv
      · cases hv
      · rename_i es hes
        split at hv
        · exact absurd hv (finish_ne_panic _)
        · cases hv
        · rename_i hr
          obtain ⟨e, he, t, h1, h2⟩ := run_panic hr
          rw [stringKeys_iff] at hes
          refine ⟨t, ?_, h.mem t h2⟩
          rw [hes]
          exact occurs_mapping (es := es) he (h1 ▸ .here)
    | _ => cases hv

/-- Reading a field panics only because of a string of the given kind. -/
class ItemPanicsOn (P : Str → Prop) (i : Item) : Prop where
  field : ∀ f, i = .field f → PanicsOn P f.codec
  flat : ∀ f, i = .flat f → ∀ es, f.read es = .panic → ∃ e ∈ es, ∃ s, Occurs s e.2 ∧ P s

/-- The same for all fields. -/
class ItemsPanicOn (P : Str → Prop) (is : List Item) : Prop where
  all : ∀ i ∈ is, ItemPanicsOn P i

instance {P : Str → Prop} : ItemsPanicOn P [] := ⟨fun _ h => by cases h⟩

instance {P : Str → Prop} {i : Item} {is : List Item} [h : ItemPanicsOn P i] [hs : ItemsPanicOn P is] :
    ItemsPanicOn P (i :: is) :=
  ⟨fun j hj => (List.mem_cons.1 hj).elim (fun e => e ▸ h) (hs.all j)⟩

theorem panic_cons {P : Str → Prop} {i : Item} {is : List Item} (_ : ItemPanicsOn P i) (_ : ItemsPanicOn P is) :
    ItemsPanicOn P (i :: is) := inferInstance

theorem field_panics {P : Str → Prop} {f : Field} (h : PanicsOn P f.codec) : ItemPanicsOn P (.field f) :=
  ⟨fun _ e => Item.field.inj e ▸ h, (fun _ e => by cases e)⟩

section
variable {P : Str → Prop} {α : Type} {key : String}
instance {c : Codec α} [h : PanicsOn P c] : ItemPanicsOn P (req key c) := field_panics h
instance {c : Codec (Option α)} [h : PanicsOn P c] : ItemPanicsOn P (optWith key c) := field_panics h
instance {c : Codec α} [h : PanicsOn P c] : ItemPanicsOn P (opt key c) := field_panics (inferInstanceAs (PanicsOn P (option c)))
instance : ItemPanicsOn P (flag key) := field_panics (inferInstanceAs (PanicsOn P Codecs.bool))
instance : ItemPanicsOn P (flagTrue key) := field_panics (inferInstanceAs (PanicsOn P Codecs.bool))
instance {c : Codec (List α)} [h : PanicsOn P c] : ItemPanicsOn P (many key c) := field_panics h
instance : ItemPanicsOn P (manyListOrMap key) := field_panics (inferInstanceAs (PanicsOn P listOrMap))

theorem flat_panics {f : Flat} (h : ∀ es, f.read es ≠ .panic) : ItemPanicsOn P (.flat f) :=
  ⟨(fun _ e => by cases e), fun _ e es hes => by obtain rfl := Item.flat.inj e; exact absurd hes (h es)⟩

instance : ItemPanicsOn P dockerfile := flat_panics fun _ => ofOption_ne_panic _
instance : ItemPanicsOn P configSource := flat_panics fun _ => ofOption_ne_panic _
instance : ItemPanicsOn P secretSource := flat_panics fun _ => ofOption_ne_panic _
instance {E : Env} : ItemPanicsOn P (Structs.networkConfig E) := flat_panics fun _ => ofOption_ne_panic _
instance : ItemPanicsOn P extensions := flat_panics fun es h => by
  obtain ⟨_, _, h⟩ := readEntries_panic (map_panic.1 h)
  cases h
end

theorem put_panic {P : Str → Prop} {is : List Item} (h : ∀ i ∈ is, ItemPanicsOn P i) {k : Str} {v : Content} {ss : Slots is}
    (hp : put is k v ss = some .panic) : ∃ s, Occurs s v ∧ P s := by
  induction is with
  | nil => simp [put] at hp
  | cons i is ih =>
    have hs : ∀ j ∈ is, ItemPanicsOn P j := fun j hj => h j (by simp [hj])
    cases i with
    | field f =>
      obtain ⟨s, ss⟩ := ss
      rw [put] at hp
      split at hp
      · have hp := Option.some.inj hp
        split at hp
        · cases hp
        · exact ((h _ (by simp)).field f rfl).panic v (map_panic.1 hp)
      · obtain ⟨o, h1, h2⟩ := Option.map_eq_some_iff.1 hp
        exact ih hs (ss := ss) (by rw [h1, map_panic.1 h2])
    | flat f => exact ih hs (ss := ss) hp

theorem loop_panic {P : Str → Prop} {is : List Item} (h : ∀ i ∈ is, ItemPanicsOn P i) {ss : Slots is}
    {rest es : List (Str × Content)} (hl : loop is ss rest es = .panic) : ∃ e ∈ es, ∃ s, Occurs s e.2 ∧ P s := by
  induction es generalizing ss rest with
  | nil => simp [loop] at hl
  | cons e es ih =>
    obtain ⟨k, v⟩ := e
    rw [loop] at hl
    split at hl
    · obtain ⟨e, he, hs⟩ := ih hl
      exact ⟨e, by simp [he], hs⟩
    · obtain ⟨e, he, hs⟩ := ih hl
      exact ⟨e, by simp [he], hs⟩
    · cases hl
    · rename_i hp
      exact ⟨(k, v), by simp, put_panic h hp⟩

theorem build_panic {P : Str → Prop} {is : List Item} (h : ∀ i ∈ is, ItemPanicsOn P i) {ss : Slots is}
    {rest : List (Str × Content)} (hb : Derive.build is ss rest = .panic) : ∃ e ∈ rest, ∃ s, Occurs s e.2 ∧ P s := by
  induction is generalizing rest with
  | nil => cases hb
  | cons i is ih =>
    have hs : ∀ j ∈ is, ItemPanicsOn P j := fun j hj => h j (by simp [hj])
    cases i with
    | field f =>
      obtain ⟨s, ss⟩ := ss
      rw [Derive.build] at hb
      split at hb
      · exact ih hs (ss := ss) (map_panic.1 hb)
      · cases hb
    | flat f =>
      have hf := (h _ (by simp)).flat f rfl
      rw [Derive.build] at hb
      split at hb
      · rcases bind_panic.1 hb with hb | ⟨_, _, hb⟩
        · exact hf _ hb
        · exact ih hs (ss := ss) (map_panic.1 hb)
      · rcases bind_panic.1 hb with hb | ⟨_, _, hb⟩
        · obtain ⟨e, he, hs⟩ := hf _ hb
          exact ⟨e, (List.mem_filter.1 he).1, hs⟩
        · obtain ⟨e, he, hs⟩ := ih hs (ss := ss) (map_panic.1 hb)
          exact ⟨e, (List.mem_filter.1 he).1, hs⟩

theorem decode_panic {P : Str → Prop} {is : List Item} [h : ItemsPanicOn P is] {es : List (Str × Content)}
    (hd : decode is es = .panic) : ∃ e ∈ es, ∃ s, Occurs s e.2 ∧ P s := by
  rcases bind_panic.1 hd with hd | ⟨⟨ss, rest⟩, h1, h2⟩
  · exact loop_panic h.all hd
  · simp only at h2
    split at h2
    · obtain ⟨e, he, hs⟩ := build_panic h.all h2
      refine ⟨e, ?_, hs⟩
      have : ∀ (is : List Item) (ss : Slots is) rest es ss' rest', loop is ss rest es = .ok (ss', rest') →
          ∀ e ∈ rest', e ∈ rest ∨ e ∈ es := by
        intro is ss rest es
        induction es generalizing ss rest with
        | nil =>
          intro ss' rest' h e he
          obtain ⟨rfl, rfl⟩ := Prod.mk.inj (Outcome.ok.inj h)
          exact .inl he
        | cons x es ih =>
          obtain ⟨k, v⟩ := x
          intro ss' rest' h e he
          rw [loop] at h
          split at h
          · rcases ih _ _ _ _ h e he with h | h
            · rcases List.mem_append.1 h with h | h
              · exact .inl h
              · exact .inr (by rw [List.mem_singleton.1 h]; simp)
            · exact .inr (by simp [h])
          · rcases ih _ _ _ _ h e he with h | h
            · exact .inl h
            · exact .inr (by simp [h])
          · cases h
          · cases h
      rcases this is _ _ _ _ _ h1 e he with h | h
      · cases h
      · exact h
    · cases h2

theorem decodeSeq_panic {P : Str → Prop} {is : List Item} (h : ∀ i ∈ is, ItemPanicsOn P i) {vs : List Content}
    (hd : decodeSeq is vs = .panic) : ∃ v ∈ vs, ∃ s, Occurs s v ∧ P s := by
  induction is generalizing vs with
  | nil => cases vs <;> cases hd
  | cons i is ih =>
    have hs : ∀ j ∈ is, ItemPanicsOn P j := fun j hj => h j (by simp [hj])
    cases i with
    | flat f => cases hd
    | field f =>
      cases vs with
      | nil =>
        rw [decodeSeq] at hd
        split at hd
        · exact ih hs (map_panic.1 hd)
        · cases hd
      | cons v vs =>
        rcases bind_panic.1 hd with hd | ⟨_, _, hd⟩
        · exact ⟨v, by simp, ((h _ (by simp)).field f rfl).panic v hd⟩
        · obtain ⟨w, hw, h⟩ := ih hs (map_panic.1 hd)
          exact ⟨w, by simp [hw], h⟩

instance {P : Str → Prop} {is : List Item} [h : ItemsPanicOn P is] : PanicsOn P (struct is) where
  panic v hv := by
    cases v with
    | seq vs =>
      have hv : (if is.all Item.isField then decodeSeq is vs else .err ()) = .panic := hv
      split at hv
      · obtain ⟨w, hw, s, h1, h2⟩ := decodeSeq_panic h.all hv
        exact ⟨s, .item hw h1, h2⟩
      · cases hv
    | _ => exact entries_panic (f := decode is) (fun _ hes => decode_panic hes) hv

instance {P : Str → Prop} {is : List Item} [ItemsPanicOn P is] : ItemPanicsOn P (nested is) :=
  ⟨(fun _ e => by cases e), fun _ e es hes => by obtain rfl := Item.flat.inj e; exact decode_panic hes⟩

instance {P : Str → Prop} {E : Env} {is : List Item} : PanicsOn P (resource E is) := ⟨fun _ h => absurd h (ofOption_ne_panic _)⟩

/-! ### What is written -/

/-- A field is left out exactly if it has its default.  A flattened field writes its keys in order and once; if it has no
keys of its own, it writes no keys of other fields. -/
class ItemWritten (own : List Str) (i : Item) : Prop where
  field : ∀ f, i = .field f → ∀ x, f.codec.valid x → (f.skip x = true ↔ f.default = some x)
  some : ∀ f ks, i = .flat f → f.keys = some ks → ∀ x, f.valid x → ((f.write x).map (·.1)).Sublist ks
  none : ∀ f, i = .flat f → f.keys = none → ∀ x, f.valid x → ((f.write x).map (·.1)).Nodup ∧ ∀ e ∈ f.write x, e.1 ∉ own

/-- The same for all fields. -/
class ItemsWritten (own : List Str) (is : List Item) : Prop where
  all : ∀ i ∈ is, ItemWritten own i

instance {own : List Str} : ItemsWritten own [] := ⟨fun _ h => by cases h⟩

instance {own : List Str} {i : Item} {is : List Item} [h : ItemWritten own i] [hs : ItemsWritten own is] :
    ItemsWritten own (i :: is) :=
  ⟨fun j hj => (List.mem_cons.1 hj).elim (fun e => e ▸ h) (hs.all j)⟩

theorem written_cons {own : List Str} {i : Item} {is : List Item} (_ : ItemWritten own i) (_ : ItemsWritten own is) :
    ItemsWritten own (i :: is) := inferInstance

theorem field_written {own : List Str} {f : Field} (h : ∀ x, f.codec.valid x → (f.skip x = true ↔ f.default = .some x)) :
    ItemWritten own (.field f) :=
  ⟨fun _ e => Item.field.inj e ▸ h, (fun _ _ e => by cases e), (fun _ e => by cases e)⟩

theorem keyed_written {own : List Str} {f : Flat} {ks : List Str} (hk : f.keys = .some ks)
    (h : ∀ x, f.valid x → ((f.write x).map (·.1)).Sublist ks) : ItemWritten own (.flat f) where
  field _ e := by cases e
  some g ks' e hk' := by
    obtain rfl := Item.flat.inj e
    rw [hk] at hk'
    obtain rfl := Option.some.inj hk'
    exact h
  none g e hk' := by
    obtain rfl := Item.flat.inj e
    rw [hk] at hk'; cases hk'

theorem rest_written {own : List Str} {f : Flat} (hk : f.keys = .none)
    (h : ∀ x, f.valid x → ((f.write x).map (·.1)).Nodup ∧ ∀ e ∈ f.write x, e.1 ∉ own) : ItemWritten own (.flat f) where
  field _ e := by cases e
  some g ks e hk' := by
    obtain rfl := Item.flat.inj e
    rw [hk] at hk'; cases hk'
  none g e _ := by obtain rfl := Item.flat.inj e; exact h

section
variable {own : List Str} {α : Type} {key : String}
instance {c : Codec α} : ItemWritten own (req key c) := field_written fun x _ => ⟨(fun h => by cases h), (fun h => by cases h)⟩
instance {c : Codec (Option α)} : ItemWritten own (optWith key c) := field_written fun x _ =>
  ⟨fun h => congrArg some (Option.isNone_iff_eq_none.1 h).symm, fun h => Option.isNone_iff_eq_none.2 (Option.some.inj h).symm⟩
instance {c : Codec α} : ItemWritten own (opt key c) := inferInstanceAs (ItemWritten own (optWith key _))
instance : ItemWritten own (flag key) := field_written fun x _ => by
  cases x <;> exact ⟨(fun h => by first | rfl | cases h), (fun h => by first | rfl | cases h)⟩
instance : ItemWritten own (flagTrue key) := field_written fun x _ => by
  cases x <;> exact ⟨(fun h => by first | rfl | cases h), (fun h => by first | rfl | cases h)⟩
instance {c : Codec (List α)} : ItemWritten own (many key c) := field_written fun x _ =>
  ⟨fun h => congrArg some (List.isEmpty_iff.1 h).symm, fun h => List.isEmpty_iff.2 (Option.some.inj h).symm⟩
instance : ItemWritten own (manyListOrMap key) := field_written fun x hx => by
  match x, hx with
  | .list [], _ => exact ⟨fun _ => rfl, fun _ => rfl⟩
  | .list (a :: l), _ => exact ⟨(fun h => by cases h), (fun h => by cases h)⟩
  | .map [], hx => exact absurd rfl hx.2
  | .map (a :: l), _ => exact ⟨(fun h => by cases h), (fun h => by cases h)⟩
instance : ItemWritten own Structs.dependsOn := field_written fun x hx => by
  match x, hx with
  | .short [], _ => exact ⟨fun _ => rfl, fun _ => rfl⟩
  | .short (a :: l), _ => exact ⟨(fun h => by cases h), (fun h => by cases h)⟩
  | .long [], hx => exact absurd rfl hx.2
  | .long (a :: l), _ => exact ⟨(fun h => by cases h), (fun h => by cases h)⟩

instance : ItemWritten own dockerfile := keyed_written rfl fun x _ => by
  match x with
  | .none => exact List.nil_sublist _
  | .some (.file p) => exact List.Sublist.cons_cons _ (List.nil_sublist _)
  | .some (.inline p) => exact List.Sublist.cons _ (List.Sublist.cons_cons _ (List.nil_sublist _))
instance : ItemWritten own configSource := keyed_written rfl fun x _ => by
  match x with
  | .file p => exact List.Sublist.cons_cons _ (List.nil_sublist _)
  | .environment p => exact List.Sublist.cons _ (List.Sublist.cons_cons _ (List.nil_sublist _))
  | .content p => exact List.Sublist.cons _ (List.Sublist.cons _ (List.Sublist.cons_cons _ (List.nil_sublist _)))
instance : ItemWritten own secretSource := keyed_written rfl fun x _ => by
  match x with
  | .file p => exact List.Sublist.cons_cons _ (List.nil_sublist _)
  | .environment p => exact List.Sublist.cons _ (List.Sublist.cons_cons _ (List.nil_sublist _))
instance {E : Env} : ItemWritten own (Structs.networkConfig E) := keyed_written rfl fun x _ => by
  match x with
  | .none => exact List.nil_sublist _
  | .some (.networkMode p) => exact List.Sublist.cons_cons _ (List.nil_sublist _)
  | .some (.networks p) => exact List.Sublist.cons _ (List.Sublist.cons_cons _ (List.nil_sublist _))
instance [h : NoExtension own] : ItemWritten own extensions := rest_written rfl fun x hx => by
  refine ⟨hx.1, fun e he hm => ?_⟩
  obtain ⟨⟨r, hr⟩, _⟩ := hx.2 e he
  exact h.no _ hm ⟨r, hr.symm⟩
end

/-- A flattened field without keys of its own comes last. -/
def restAtEnd : List Item → Bool
  | [] => true
  | .field _ :: is => restAtEnd is
  | .flat f :: is => (f.keys.isSome || is.isEmpty) && restAtEnd is

theorem written_split {own : List Str} {is : List Item} (h : ∀ i ∈ is, ItemWritten own i) (he : restAtEnd is = true)
    {r : Record is} (hr : recordValid is r) :
    ∃ front back, write is r = front ++ back ∧ (front.map (·.1)).Sublist (ownKeys is) ∧ (back.map (·.1)).Nodup ∧
      (∀ e ∈ back, e.1 ∉ own) := by
  induction is with
  | nil => exact ⟨[], [], rfl, by simp [ownKeys], by simp, by simp⟩
  | cons i is ih =>
    have hs : ∀ j ∈ is, ItemWritten own j := fun j hj => h j (by simp [hj])
    obtain ⟨x, r⟩ := r
    cases i with
    | field f =>
      obtain ⟨front, back, h1, h2, h3⟩ := ih hs (by simpa [restAtEnd] using he) (r := r) hr.2
      refine ⟨(if f.skip x then [] else [(f.key, f.codec.ser x)]) ++ front, back, ?_, ?_, h3⟩
      · show (if f.skip x then [] else [(f.key, f.codec.ser x)]) ++ write is r = _
        rw [h1, List.append_assoc]
      · rw [ownKeys]
        split
        · exact List.Sublist.cons _ h2
        · exact List.Sublist.cons_cons _ h2
    | flat f =>
      simp only [restAtEnd, Bool.and_eq_true] at he
      have hf := h (.flat f) (by simp)
      cases hk : f.keys with
      | some ks =>
        obtain ⟨front, back, h1, h2, h3⟩ := ih hs he.2 (r := r) hr.2
        refine ⟨f.write x ++ front, back, ?_, ?_, h3⟩
        · show f.write x ++ write is r = _
          rw [h1, List.append_assoc]
        · rw [ownKeys, hk, Option.getD_some, List.map_append]
          exact (hf.some f ks rfl hk x hr.1).append h2
      | none =>
        have hi : is = [] := by simpa [hk] using he.1
        subst hi
        obtain ⟨h1, h2⟩ := hf.none f rfl hk x hr.1
        exact ⟨[], f.write x, List.append_nil _, List.nil_sublist _, h1, h2⟩

theorem written_nodup {own : List Str} (hn : own.Nodup) {es front back : List (Str × Content)} (h1 : es = front ++ back)
    (h2 : (front.map (·.1)).Sublist own) (h3 : (back.map (·.1)).Nodup) (h4 : ∀ e ∈ back, e.1 ∉ own) :
    (es.map (·.1)).Nodup := by
  rw [h1, List.map_append, List.nodup_append]
  refine ⟨hn.sublist h2, h3, ?_⟩
  rintro a ha b hb rfl
  obtain ⟨e, he, rfl⟩ := List.mem_map.1 hb
  exact h4 e he (h2.subset ha)

instance : ItemsWritten commonKeys Structs.common := by unfold Structs.common; infer_instance

theorem common_nodup {r : Record Structs.common} (hr : recordValid Structs.common r) :
    ((write Structs.common r).map (·.1)).Nodup := by
  obtain ⟨front, back, h1, h2, h3, h4⟩ := written_split (own := commonKeys) ItemsWritten.all rfl hr
  exact written_nodup (DistinctKeys.nodup (own := commonKeys)) h1 h2 h3 h4

instance {own : List Str} [h : NoCommon own] [d : DistinctKeys own] : ItemWritten own (nested Structs.common) :=
  rest_written rfl fun x hx => ⟨common_nodup hx, fun e he hm => by
    rcases common_writes hx e he with h1 | h1
    · exact h.no _ hm (List.mem_cons_of_mem _ h1)
    · exact d.no _ hm h1⟩

theorem writesOwn_of_written {own : List Str} {is : List Item} (h : ∀ i ∈ is, ItemWritten own i) {r : Record is}
    (hr : recordValid is r) : WritesOwn own is r := by
  induction is with
  | nil => trivial
  | cons i is ih =>
    have hs : ∀ j ∈ is, ItemWritten own j := fun j hj => h j (by simp [hj])
    obtain ⟨x, r⟩ := r
    cases i with
    | field f => exact ih hs hr.2
    | flat f =>
      refine ⟨fun e he => ?_, ih hs hr.2⟩
      have hf := h (.flat f) (by simp)
      cases hk : f.keys with
      | some ks =>
        simp only [Owned, hk]
        exact (hf.some f ks rfl hk x hr.1).subset (List.mem_map_of_mem he)
      | none =>
        simp only [Owned, hk]
        exact (hf.none f rfl hk x hr.1).2 e he

theorem omits_write {own : List Str} {is : List Item} (hn : (ownKeys is).Nodup) (hs : ∀ k ∈ ownKeys is, k ∈ own)
    (hl : restLast is = true) (h : ∀ i ∈ is, ItemWritten own i) {r : Record is} (hr : recordValid is r)
    (pre : List (Str × Content)) (hp : ∀ e ∈ pre, ∀ i ∈ is, ¬ Owned own i e.1) :
    OmitsDefaults (pre ++ write is r) is r := by
  have hw := writesOwn_of_written h hr
  induction is generalizing pre with
  | nil => trivial
  | cons i is ih =>
    have hi : ∀ j ∈ is, ItemWritten own j := fun j hj => h j (by simp [hj])
    obtain ⟨x, r⟩ := r
    cases i with
    | field f =>
      have hd := @owned_disjoint own (.field f) is hn hs hl
      have hw' : WritesOwn own is r := hw
      have h1 : given (pre ++ write (.field f :: is) (x, r)) f.key = if f.skip x then [] else [f.codec.ser x] := by
        rw [given_append, given_nil (fun e he => hp e he (.field f) (by simp)), write, given_append,
          given_nil (es := write is r)]
        · split <;> simp [given]
        · intro e he h2
          obtain ⟨j, hj, h3⟩ := write_owned hw' e he
          exact hd (k := e.1) h2 hj h3
      have hx := (h (.field f) (by simp)).field f rfl x hr.1
      have h2 := ih (List.nodup_cons.1 hn).2 (fun k hk => hs k (by simp [ownKeys, hk])) (by simpa [restLast] using hl) hi
        (r := r) hr.2 (pre ++ if f.skip x then [] else [(f.key, f.codec.ser x)]) (by
          intro e he j hj
          rcases List.mem_append.1 he with he | he
          · exact hp e he j (by simp [hj])
          · split at he
            · simp at he
            · simp only [List.mem_singleton] at he
              subst he
              exact hd (k := f.key) rfl hj) hw'
      refine ⟨fun hd => ?_, fun hd => ?_, ?_⟩
      · rw [h1, if_pos (hx.2 hd)]
      · rw [h1, if_neg fun h => hd (hx.1 h)]
      · rw [show write (.field f :: is) (x, r) =
          (if f.skip x then [] else [(f.key, f.codec.ser x)]) ++ write is r from rfl, ← List.append_assoc]
        exact h2
    | flat f =>
      have hd := @owned_disjoint own (.flat f) is hn hs hl
      obtain ⟨hw1, hw2⟩ := hw
      have h2 := ih (List.nodup_append.1 hn).2.1 (fun k hk => hs k (by simp [ownKeys, hk]))
        (by simp only [restLast, Bool.and_eq_true] at hl; exact hl.2) hi (r := r) hr.2 (pre ++ f.write x) (by
          intro e he j hj
          rcases List.mem_append.1 he with he | he
          · exact hp e he j (by simp [hj])
          · exact hd (hw1 e he) hj) hw2
      show OmitsDefaults (pre ++ (f.write x ++ write is r)) is r
      rw [← List.append_assoc]
      exact h2

end Proofs
