import Verif.Proofs.Order
import Verif.Proofs.Meaning

/- Reading values of the types of the fields from documents that differ in the order of their keys. -/

namespace Proofs
open Rust Compose Compose.Derive Compose.Codecs Spec
open Props hiding mapping entriesOf_mapping

/-! ### Scalars -/

instance {α : Type} {p : Str → Option α} {s : α → Str} {V : α → Prop} : Scalar (text p s V) := ⟨nofun, nofun⟩

theorem scalar_of_denotes {α : Type} {c : Codec α} {m : Meaning α} [h : Denotes c m] (hs : ∀ vs x, ¬ m (.seq vs) x)
    (hm : ∀ es x, ¬ m (.map es) x) : Scalar c :=
  ⟨fun vs x hx => hs vs x ((h.iff _ _).1 hx), fun es x hx => hm es x ((h.iff _ _).1 hx)⟩

instance : Scalar str := inferInstanceAs (Scalar (text _ _ _))
instance {α : Type} {w : α → Str} {ws : List (Str × α)} : Scalar (keyword w ws) := inferInstanceAs (Scalar (text _ _ _))
instance {t : TextType} : Scalar (foreign t) := inferInstanceAs (Scalar (text _ _ _))
instance : Scalar identifier := inferInstanceAs (Scalar (text _ _ _))
instance : Scalar hostname := inferInstanceAs (Scalar (text _ _ _))
instance : Scalar projectName := inferInstanceAs (Scalar (text _ _ _))
instance : Scalar absolutePath := inferInstanceAs (Scalar (text _ _ _))
instance : Scalar hostPath := inferInstanceAs (Scalar (text _ _ _))
instance : Scalar cpuSet := inferInstanceAs (Scalar (text _ _ _))
instance : Scalar image := inferInstanceAs (Scalar (text _ _ _))
instance : Scalar link := inferInstanceAs (Scalar (text _ _ _))
instance : Scalar ipc := inferInstanceAs (Scalar (text _ _ _))
instance : Scalar endpointMode := inferInstanceAs (Scalar (text _ _ _))
instance : Scalar capability := inferInstanceAs (Scalar (text _ _ _))
instance : Scalar driver := inferInstanceAs (Scalar (text _ _ _))
instance : Scalar volumesFrom := inferInstanceAs (Scalar (text _ _ _))
instance : Scalar device := inferInstanceAs (Scalar (text _ _ _))
instance : Scalar cgroupRule := inferInstanceAs (Scalar (text _ _ _))
instance : Scalar macAddress := inferInstanceAs (Scalar (text _ _ _))
instance : Scalar platform := inferInstanceAs (Scalar (text _ _ _))
instance : Scalar shortVolume := inferInstanceAs (Scalar (text _ _ _))
instance : Scalar selinux := inferInstanceAs (Scalar (text _ _ _))
instance : Scalar sshAuth := inferInstanceAs (Scalar (text _ _ _))
instance {E : Env} : Scalar (context E) := inferInstanceAs (Scalar (text _ _ _))
instance : Scalar cache := inferInstanceAs (Scalar (text _ _ _))
instance : Scalar buildNetwork := inferInstanceAs (Scalar (text _ _ _))
instance : Scalar user := inferInstanceAs (Scalar (text _ _ _))
instance : Scalar protocol := inferInstanceAs (Scalar (text _ _ _))
instance : Scalar Structs.deployMode := inferInstanceAs (Scalar (text _ _ _))
instance : Scalar Structs.restartCondition := inferInstanceAs (Scalar (text _ _ _))
instance : Scalar Structs.failureAction := inferInstanceAs (Scalar (text _ _ _))
instance : Scalar Structs.order := inferInstanceAs (Scalar (text _ _ _))
instance : Scalar Structs.action := inferInstanceAs (Scalar (text _ _ _))
instance : Scalar Structs.condition := inferInstanceAs (Scalar (text _ _ _))
instance : Scalar Structs.cgroup := inferInstanceAs (Scalar (text _ _ _))
instance : Scalar Structs.uts := inferInstanceAs (Scalar (text _ _ _))
instance : Scalar Structs.pullPolicy := inferInstanceAs (Scalar (text _ _ _))
instance : Scalar Structs.restart := inferInstanceAs (Scalar (text _ _ _))
instance : Scalar Structs.portMode := inferInstanceAs (Scalar (text _ _ _))
instance : Scalar Structs.bindPropagation := inferInstanceAs (Scalar (text _ _ _))
instance : Scalar bool := ⟨nofun, nofun⟩
instance {n : Nat} : Scalar (unsigned n) := ⟨nofun, nofun⟩
instance : Scalar u16 := inferInstanceAs (Scalar (unsigned _))
instance : Scalar u32 := inferInstanceAs (Scalar (unsigned _))
instance : Scalar u64 := inferInstanceAs (Scalar (unsigned _))
instance : Scalar percent := ⟨nofun, nofun⟩
instance : Scalar oomScoreAdj := ⟨nofun, nofun⟩
instance : Scalar weight := ⟨nofun, nofun⟩
instance {E : Env} : Scalar (cpus E) := ⟨nofun, nofun⟩
instance : Scalar duration := ⟨nofun, nofun⟩
instance : Scalar durationUs := ⟨nofun, nofun⟩
instance : Scalar byteValue := ⟨nofun, nofun⟩
instance : Scalar byteLimit := ⟨nofun, nofun⟩
instance {n : Nat} : Scalar (limit n) := ⟨nofun, nofun⟩
instance : Scalar idOrName := ⟨nofun, nofun⟩
instance : Scalar count := ⟨nofun, nofun⟩
instance : Scalar range := ⟨nofun, nofun⟩
instance {E : Env} : Scalar (shortPort E) := ⟨nofun, nofun⟩
instance : Scalar expose := ⟨nofun, nofun⟩
instance : Scalar value := ⟨nofun, nofun⟩
instance : Scalar stringOrNumber := ⟨nofun, nofun⟩
instance : Scalar displayU32 := ⟨nofun, nofun⟩

theorem forall₂_append_left {α β : Type} {R : α → β → Prop} {a b : List α} {l : List β} (h : List.Forall₂ R (a ++ b) l) :
    ∃ la lb, List.Forall₂ R a la ∧ List.Forall₂ R b lb ∧ l = la ++ lb := by
  induction a generalizing l with
  | nil => exact ⟨[], l, .nil, h, rfl⟩
  | cons x a ih =>
    obtain ⟨y, l, h1, h2, rfl⟩ := List.forall₂_cons_left_iff.1 h
    obtain ⟨la, lb, h3, h4, rfl⟩ := ih h2
    exact ⟨y :: la, lb, .cons h1 h3, h4, rfl⟩

/-! ### Collections -/

section
variable {α : Type} {c : Codec α} {F : Fixed}

theorem exchanged_ne_unit {v w : Content} (h : Exchanged F v w) : v ≠ .unit := by cases h <;> nofun

theorem option_de {v : Content} (h : v ≠ .unit) : (option c).de v = (c.de v).map some := by
  cases v <;> first | rfl | exact absurd rfl h

theorem option_free (h : OrderFree F c) : OrderFree F (option c) := by
  intro v w x hv hx
  rw [option_de (exchanged_ne_unit hv)] at hx
  obtain ⟨x, h1, rfl⟩ := Outcome.map_eq_ok.1 hx
  obtain ⟨y, h2, h3⟩ := h v w x hv h1
  exact ⟨some y, by rw [option_de (exchanged_ne_unit hv.symm), h2]; rfl, h3⟩

instance [h : Unordered c] : Unordered (option c) := ⟨option_free h.free⟩

instance [h : Rigid c] : Rigid (option c) := ⟨fun F v w x hv hx => by
  rw [option_de (exchanged_ne_unit hv)] at hx
  obtain ⟨x, h1, rfl⟩ := Outcome.map_eq_ok.1 hx
  exact h.no F v w x hv h1⟩

theorem readAll_forall₂ {de : Content → Outcome Unit α} {vs : List Content} {l : List α} :
    readAll de vs = .ok l ↔ List.Forall₂ (fun v x => de v = .ok x) vs l :=
  have : Denotes (⟨fun _ => .unit, de, fun _ => True⟩ : Codec α) (fun v x => de v = .ok x) := ⟨fun _ _ => Iff.rfl⟩
  readAll_iff (c := ⟨fun _ => .unit, de, fun _ => True⟩) (m := fun v x => de v = .ok x)

theorem readAll_split {de : Content → Outcome Unit α} {a b : List Content} {v : Content} {l : List α}
    (h : readAll de (a ++ v :: b) = .ok l) :
    ∃ la x lb, l = la ++ x :: lb ∧ de v = .ok x ∧ ∀ w y, de w = .ok y → readAll de (a ++ w :: b) = .ok (la ++ y :: lb) := by
  obtain ⟨la, r, h1, h2, rfl⟩ := forall₂_append_left (readAll_forall₂.1 h)
  obtain ⟨x, lb, h3, h4, rfl⟩ := List.forall₂_cons_left_iff.1 h2
  exact ⟨la, x, lb, rfl, h3, fun w y hw => readAll_forall₂.2 (List.rel_append h1 (.cons hw h4))⟩

theorem list_free (h : OrderFree (F.after .item) c) : OrderFree F (list c) := by
  intro v w l hv hl
  cases v with
  | seq vs =>
    obtain ⟨a, v, b, v', rfl, rfl, hv'⟩ := exchanged_seq hv
    obtain ⟨la, x, lb, rfl, h1, h2⟩ := readAll_split hl
    obtain ⟨y, h3, h4⟩ := h v v' x hv' h1
    refine ⟨la ++ y :: lb, h2 v' y h3, ?_⟩
    simpa [list] using reordered_item h4
  | _ => cases hl

instance [h : Unordered c] : Unordered (list c) := ⟨list_free h.free⟩

instance [h : Rigid c] : Rigid (list c) := ⟨fun F v w l hv hl => by
  cases v with
  | seq vs =>
    obtain ⟨a, v, b, v', rfl, rfl, hv'⟩ := exchanged_seq hv
    obtain ⟨la, x, lb, rfl, h1, h2⟩ := readAll_split hl
    exact h.no _ v v' x hv' h1
  | _ => cases hl⟩

instance [RustEq α] [h : Rigid c] : Rigid (Codecs.set c) := ⟨fun F v w l hv hl => by
  cases v with
  | seq vs =>
    obtain ⟨a, v, b, v', rfl, rfl, hv'⟩ := exchanged_seq hv
    obtain ⟨l, hl', _⟩ := Outcome.map_eq_ok.1 hl
    obtain ⟨la, x, lb, rfl, h1, h2⟩ := readAll_split hl'
    exact h.no _ v v' x hv' h1
  | _ => cases hl⟩

instance [RustEq α] [h : Rigid c] [hs : Scalar c] : Rigid (Codecs.itemOrList c) := ⟨fun F v w l hv hl => by
  cases v with
  | seq vs =>
    obtain ⟨a, v, b, v', rfl, rfl, hv'⟩ := exchanged_seq hv
    obtain ⟨l, hl', _⟩ := Outcome.map_eq_ok.1 hl
    obtain ⟨la, x, lb, rfl, h1, h2⟩ := readAll_split hl'
    exact h.no _ v v' x hv' h1
  | map es => cases hl
  | _ => cases hv⟩

theorem collectNew_congr [RustEq α] {la lb : List α} {x y : α}
    (h : ∀ z, RustEq.eq x z = RustEq.eq y z ∧ RustEq.eq z x = RustEq.eq z y) :
    List.Forall₂ (fun a b => a = b ∨ (a = x ∧ b = y)) (IndexSet.collectNew (la ++ x :: lb))
      (IndexSet.collectNew (la ++ y :: lb)) := by
  have hs : ∀ {s t : List α}, List.Forall₂ (fun a b => a = b ∨ (a = x ∧ b = y)) s t →
      ∀ z, s.any (RustEq.eq z) = t.any (RustEq.eq z) := by
    intro s t h1 z
    induction h1 with
    | nil => rfl
    | cons h2 _ ih =>
      rw [List.any_cons, List.any_cons, ih]
      rcases h2 with rfl | ⟨rfl, rfl⟩
      · rfl
      · rw [(h z).2]
  have hi : ∀ {s t : List α} (z : α), List.Forall₂ (fun a b => a = b ∨ (a = x ∧ b = y)) s t →
      List.Forall₂ (fun a b => a = b ∨ (a = x ∧ b = y)) (IndexSet.insertNew s z) (IndexSet.insertNew t z) := by
    intro s t z h1
    unfold IndexSet.insertNew
    rw [hs h1]
    split
    · exact h1
    · exact List.rel_append h1 (.cons (.inl rfl) .nil)
  have hf : ∀ (l : List α) {s t : List α}, List.Forall₂ (fun a b => a = b ∨ (a = x ∧ b = y)) s t →
      List.Forall₂ (fun a b => a = b ∨ (a = x ∧ b = y)) (l.foldl IndexSet.insertNew s) (l.foldl IndexSet.insertNew t) := by
    intro l
    induction l with
    | nil => exact fun h => h
    | cons z l ih => exact fun h => ih (hi z h)
  have hrefl : ∀ l : List α, List.Forall₂ (fun a b => a = b ∨ (a = x ∧ b = y)) l l := fun l =>
    List.forall₂_same.2 fun _ _ => .inl rfl
  unfold IndexSet.collectNew
  rw [List.foldl_append, List.foldl_append, List.foldl_cons, List.foldl_cons]
  refine hf lb ?_
  unfold IndexSet.insertNew
  have : (fun z => RustEq.eq x z) = RustEq.eq y := funext fun z => (h z).1
  have e : ∀ s : List α, s.any (RustEq.eq x) = s.any (RustEq.eq y) := fun s => by rw [← this]
  rw [e]
  split
  · exact hrefl _
  · exact List.rel_append (hrefl _) (.cons (.inr ⟨rfl, rfl⟩) .nil)

/-- Sets of items of which the order of entries does not matter for `==` either. -/
theorem set_free [RustEq α] (h : OrderFree (F.after .item) c)
    (he : ∀ v w x y, Exchanged (F.after .item) v w → c.de v = .ok x → c.de w = .ok y →
      ∀ z, RustEq.eq x z = RustEq.eq y z ∧ RustEq.eq z x = RustEq.eq z y) : OrderFree F (Codecs.set c) := by
  intro v w l hv hl
  cases v with
  | seq vs =>
    obtain ⟨a, v, b, v', rfl, rfl, hv'⟩ := exchanged_seq hv
    obtain ⟨l, hl', rfl⟩ := Outcome.map_eq_ok.1 hl
    obtain ⟨la, x, lb, rfl, h1, h2⟩ := readAll_split hl'
    obtain ⟨y, h3, h4⟩ := h v v' x hv' h1
    refine ⟨IndexSet.collectNew (la ++ y :: lb), ?_, ?_⟩
    · show (readAll c.de (a ++ v' :: b)).map _ = _
      rw [h2 v' y h3]; rfl
    · refine reordered_items ?_
      rw [List.forall₂_map_left_iff, List.forall₂_map_right_iff]
      refine (collectNew_congr (he v v' x y hv' h1 h3)).imp ?_
      rintro _ _ (rfl | ⟨rfl, rfl⟩)
      · exact .refl
      · exact h4
  | _ => cases hl

/-! ### Mappings -/

/-- The keys that are read are read as themselves. -/
class OwnText (k : Key) : Prop where
  eq : ∀ s t, k.parse s = some t → t = s

theorem ownText_of {k : Key} {K : Str → Prop} (h : DenotesKey k K) : OwnText k := ⟨fun s t hs => ((h.iff s t).1 hs).2⟩

instance : OwnText identifierKey := ownText_of (K := Identifier) inferInstance
instance : OwnText mapKey := ownText_of (K := MapKey) inferInstance
instance : OwnText hostnameKey := ownText_of (K := Hostname) inferInstance
instance : OwnText ulimitKey := ownText_of (K := UlimitResource) inferInstance
instance : OwnText extensionKey := ⟨fun s t hs => ((C03_extension_key_accepts s t).1 (toOption_iff.1 hs)).2⟩

theorem readEntries_forall₂ {k : Key} [hk : OwnText k] {de : Content → Outcome Unit α} {es : List (Str × Content)}
    {l : List (Str × α)} :
    readEntries k.parse de es = .ok l ↔
      List.Forall₂ (fun e a => k.parse e.1 = some a.1 ∧ a.1 = e.1 ∧ de e.2 = .ok a.2) es l := by
  induction es generalizing l with
  | nil => simp [readEntries, eq_comm]
  | cons e es ih =>
    obtain ⟨k, v⟩ := e
    simp only [readEntries, Outcome.bind_eq_ok, Outcome.map_eq_ok, Outcome.ofOption_eq_ok, ih, List.forall₂_cons_left_iff]
    constructor
    · rintro ⟨k', h1, x, h2, xs, h3, rfl⟩; exact ⟨(_, x), xs, ⟨h1, hk.eq _ _ h1, h2⟩, h3, rfl⟩
    · rintro ⟨⟨k', x⟩, xs, ⟨h1, h2, h4⟩, h3, rfl⟩
      exact ⟨_, h1, x, h4, xs, h3, rfl⟩

theorem perm_of_get {V : Type} {m m' : IndexMap Str V} (h : IndexMap.Ok m) (h' : IndexMap.Ok m')
    (hg : ∀ k, IndexMap.get m k = IndexMap.get m' k) : m.Perm m' := by
  refine (List.perm_ext_iff_of_nodup (List.Nodup.of_map _ h) (List.Nodup.of_map _ h')).2 ?_
  rintro ⟨k, v⟩
  rw [← IndexMap.get_eq_some h, ← IndexMap.get_eq_some h', hg]

theorem collect_swap {V : Type} {a b : List (Str × V)} {e e' : Str × V} (h : e.1 ≠ e'.1) :
    (IndexMap.collect (a ++ e :: e' :: b)).Perm (IndexMap.collect (a ++ e' :: e :: b)) := by
  refine perm_of_get (IndexMap.ok_collect _) (IndexMap.ok_collect _) fun k => ?_
  rw [IndexMap.get_collect, IndexMap.get_collect]
  simp only [List.reverse_append, List.reverse_cons, List.append_assoc, List.singleton_append, List.find?_append,
    List.find?_cons, List.cons_append, List.nil_append]
  congr 2
  by_cases h1 : e.1 = k
  · have h2 : ¬ e'.1 = k := fun h2 => h (h1.trans h2.symm)
    simp [h1, h2]
  · simp [h1]

theorem insert_forall₂ {V : Type} {R : V → V → Prop} {m m' : IndexMap Str V}
    (h : List.Forall₂ (fun e e' => e.1 = e'.1 ∧ R e.2 e'.2) m m') (k : Str) {v v' : V} (hv : R v v') :
    List.Forall₂ (fun e e' => e.1 = e'.1 ∧ R e.2 e'.2) (IndexMap.insert m k v) (IndexMap.insert m' k v') := by
  induction h with
  | nil => exact .cons ⟨rfl, hv⟩ .nil
  | @cons e e' l l' h1 h2 ih =>
    obtain ⟨x, y⟩ := e
    obtain ⟨x', y'⟩ := e'
    obtain ⟨rfl : x = x', h3⟩ := h1
    rw [IndexMap.insert, IndexMap.insert]
    split
    · exact .cons ⟨rfl, hv⟩ h2
    · exact .cons ⟨rfl, h3⟩ ih

theorem collect_forall₂ {V : Type} {R : V → V → Prop} {es es' : List (Str × V)}
    (h : List.Forall₂ (fun e e' => e.1 = e'.1 ∧ R e.2 e'.2) es es') :
    List.Forall₂ (fun e e' => e.1 = e'.1 ∧ R e.2 e'.2) (IndexMap.collect es) (IndexMap.collect es') := by
  suffices ∀ m m' : IndexMap Str V, List.Forall₂ (fun e e' => e.1 = e'.1 ∧ R e.2 e'.2) m m' →
      List.Forall₂ (fun e e' => e.1 = e'.1 ∧ R e.2 e'.2) (es.foldl (fun m e => IndexMap.insert m e.1 e.2) m)
        (es'.foldl (fun m e => IndexMap.insert m e.1 e.2) m') from this [] [] .nil
  induction h with
  | nil => exact fun _ _ h => h
  | @cons e e' l l' h1 h2 ih =>
    intro m m' hm
    rw [List.foldl_cons, List.foldl_cons, ← h1.1]
    exact ih _ _ (insert_forall₂ hm e.1 h1.2)

theorem reordered_forall₂ {es fs : List (Str × Content)}
    (h : List.Forall₂ (fun e e' => e.1 = e'.1 ∧ SameButOrder e.2 e'.2) es fs) :
    SameButOrder (Derive.mapping es) (Derive.mapping fs) := by
  induction h with
  | nil => exact .refl
  | @cons e e' l l' h1 h2 ih =>
    show SameButOrder (.map ((.str e.1, e.2) :: l.map _)) (.map ((.str e'.1, e'.2) :: l'.map _))
    rw [← h1.1]
    exact reordered_cons h1.2 ih

theorem mapping_perm {es fs : List (Str × Content)} (h : es.Perm fs) (hn : (es.map (·.1)).Nodup) :
    SameButOrder (Derive.mapping es) (Derive.mapping fs) := by
  refine reordered_perm (h.map _) ?_
  rw [List.map_map]
  have : (Prod.fst ∘ fun e : Str × Content => (Content.str e.1, e.2)) = Content.str ∘ Prod.fst := rfl
  rw [this, ← List.map_map]
  exact hn.map fun a b h => Content.str.inj h

/-- Entries that are read as entries of a table: the tables differ in their order, or they differ in one value. -/
theorem readEntries_moved {k : Key} [OwnText k] {de : Content → Outcome Unit α} {es fs : List (Str × Content)} (h : Moved F es fs)
    {l : List (Str × α)} (hl : readEntries k.parse de es = .ok l)
    (hd : ∀ (k : Str) v w x, Exchanged (F.after (.key (.str k))) v w → de v = .ok x → ∃ y, de w = .ok y) :
    ∃ l', readEntries k.parse de fs = .ok l' ∧
      ((∃ a b e e', l = a ++ e :: e' :: b ∧ l' = a ++ e' :: e :: b ∧ e.1 ≠ e'.1 ∧
          ¬ (F [] (.str e.1) ∧ F [] (.str e'.1))) ∨
        ∃ a b k v w x y, l = a ++ (k, x) :: b ∧ l' = a ++ (k, y) :: b ∧ Exchanged (F.after (.key (.str k))) v w ∧
          de v = .ok x ∧ de w = .ok y) := by
  have hl := readEntries_forall₂.1 hl
  cases h with
  | @swap a b k1 k2 v v' h1 h2 =>
    obtain ⟨la, r, h3, h4, rfl⟩ := forall₂_append_left hl
    obtain ⟨e, r, h5, h6, rfl⟩ := List.forall₂_cons_left_iff.1 h4
    obtain ⟨e', lb, h7, h8, rfl⟩ := List.forall₂_cons_left_iff.1 h6
    refine ⟨la ++ e' :: e :: lb, readEntries_forall₂.2 (List.rel_append h3 (.cons h7 (.cons h5 h8))), .inl ⟨la, lb, e, e', rfl, rfl, ?_, ?_⟩⟩
    · rw [h5.2.1, h7.2.1]; exact h1
    · rw [h5.2.1, h7.2.1]; exact h2
  | @value a b k1 v w h1 =>
    obtain ⟨la, r, h3, h4, rfl⟩ := forall₂_append_left hl
    obtain ⟨⟨k2, x⟩, lb, ⟨h5, h6, h7⟩, h8, rfl⟩ := List.forall₂_cons_left_iff.1 h4
    obtain rfl : k2 = k1 := h6
    obtain ⟨y, hy⟩ := hd _ v w x h1 h7
    exact ⟨la ++ (k2, y) :: lb, readEntries_forall₂.2 (List.rel_append h3 (.cons ⟨h5, rfl, hy⟩ h8)),
      .inr ⟨la, lb, k2, v, w, x, y, rfl, rfl, h1, h7, hy⟩⟩

theorem entriesOf_exchanged {v w : Content} (h : Exchanged F v w) {es : List (Str × Content)} (he : entriesOf v = some es) :
    ∃ fs, entriesOf w = some fs ∧ Moved F es fs := by
  obtain rfl := entriesOf_iff.1 he
  obtain ⟨fs, rfl, hm⟩ := exchanged_mapping h
  exact ⟨fs, entriesOf_iff.2 rfl, hm⟩

theorem collected_moved {m m' : List (Str × α)} {R : α → α → Prop} (hr : ∀ x, R x x)
    (h : (∃ a b e e', m = a ++ e :: e' :: b ∧ m' = a ++ e' :: e :: b ∧ e.1 ≠ e'.1) ∨
      ∃ a b k x y, m = a ++ (k, x) :: b ∧ m' = a ++ (k, y) :: b ∧ R x y) :
    (IndexMap.collect m).Perm (IndexMap.collect m') ∨
      List.Forall₂ (fun e e' => e.1 = e'.1 ∧ R e.2 e'.2) (IndexMap.collect m) (IndexMap.collect m') := by
  rcases h with ⟨a, b, e, e', rfl, rfl, h⟩ | ⟨a, b, k, x, y, rfl, rfl, h⟩
  · exact .inl (collect_swap h)
  · refine .inr (collect_forall₂ (List.rel_append ?_ (.cons ⟨rfl, h⟩ ?_))) <;>
    exact List.forall₂_same.2 fun _ _ => ⟨rfl, hr _⟩

theorem ser_moved {m m' : IndexMap Str α} (hn : IndexMap.Ok m)
    (h : m.Perm m' ∨ List.Forall₂ (fun e e' => e.1 = e'.1 ∧ SameButOrder (c.ser e.2) (c.ser e'.2)) m m') :
    SameButOrder (Derive.mapping (m.map fun e => (e.1, c.ser e.2))) (Derive.mapping (m'.map fun e => (e.1, c.ser e.2))) := by
  rcases h with h | h
  · refine mapping_perm (h.map _) ?_
    rw [List.map_map]; exact hn
  · refine reordered_forall₂ ?_
    rw [List.forall₂_map_left_iff, List.forall₂_map_right_iff]
    exact h

theorem map_free {k : Key} [OwnText k] (h : ∀ k : Str, OrderFree (F.after (.key (.str k))) c) : OrderFree F (map k c) := by
  intro v w m hv hm
  obtain ⟨l, h1, rfl⟩ := Outcome.map_eq_ok.1 hm
  obtain ⟨es, h2, h3⟩ := Outcome.bind_eq_ok.1 h1
  obtain ⟨fs, h4, h5⟩ := entriesOf_exchanged hv (Outcome.ofOption_eq_ok.1 h2)
  obtain ⟨l', h6, h7⟩ := readEntries_moved h5 h3 fun k v w x hv hx => (h k v w x hv hx).imp fun _ h => h.1
  refine ⟨IndexMap.collect l', ?_, ser_moved (IndexMap.ok_collect _)
    (collected_moved (R := fun x y => SameButOrder (c.ser x) (c.ser y)) (fun _ => .refl) ?_)⟩
  · simp only [Codecs.map, h4, Outcome.ofOption_some, Outcome.bind_ok, h6, Outcome.map_ok]
  · rcases h7 with ⟨a, b, e, e', h8, h9, h10, _⟩ | ⟨a, b, k, v, w, x, y, h8, h9, h10, h11, h12⟩
    · exact .inl ⟨a, b, e, e', h8, h9, h10⟩
    · obtain ⟨y', h13, h14⟩ := h k v w x h10 h11
      rw [h12] at h13
      cases h13
      exact .inr ⟨a, b, k, x, y, h8, h9, h14⟩

instance {k : Key} [OwnText k] [h : Unordered c] : Unordered (map k c) := ⟨map_free fun _ => h.any _⟩

theorem exchanged_isMap {v w : Content} (h : Exchanged F v w) : (∃ es fs, v = .map es ∧ w = .map fs) ∨ ∃ vs ws, v = .seq vs ∧ w = .seq ws := by
  cases h
  · exact .inl ⟨_, _, rfl, rfl⟩
  · exact .inr ⟨_, _, rfl, rfl⟩
  · exact .inl ⟨_, _, rfl, rfl⟩

theorem shortOrLong_free {S L : Type} {s : Codec S} {l : Codec L} (hs : OrderFree F s) (hl : OrderFree F l) :
    OrderFree F (shortOrLong s l) := by
  intro v w x hv hx
  rcases exchanged_isMap hv with ⟨es, fs, rfl, rfl⟩ | ⟨vs, ws, rfl, rfl⟩
  · obtain ⟨x, h1, rfl⟩ := Outcome.map_eq_ok.1 hx
    obtain ⟨y, h2, h3⟩ := hl _ _ x hv h1
    exact ⟨.long y, Outcome.map_eq_ok.2 ⟨y, h2, rfl⟩, h3⟩
  · obtain ⟨x, h1, rfl⟩ := Outcome.map_eq_ok.1 hx
    obtain ⟨y, h2, h3⟩ := hs _ _ x hv h1
    exact ⟨.short y, Outcome.map_eq_ok.2 ⟨y, h2, rfl⟩, h3⟩

instance {S L : Type} {s : Codec S} {l : Codec L} [hs : Unordered s] [hl : Unordered l] : Unordered (shortOrLong s l) :=
  ⟨shortOrLong_free hs.free hl.free⟩

end

/-! ### Other types -/

instance : Unordered valueMap := inferInstanceAs (Unordered (map _ _))

instance : Unordered listOrMap := ⟨fun v w x hv hx => by
  rcases exchanged_isMap hv with ⟨es, fs, rfl, rfl⟩ | ⟨vs, ws, rfl, rfl⟩
  · obtain ⟨x, h1, rfl⟩ := Outcome.map_eq_ok.1 hx
    obtain ⟨y, h2, h3⟩ := Unordered.free (c := valueMap) _ _ x hv h1
    exact ⟨.map y, Outcome.map_eq_ok.2 ⟨y, h2, rfl⟩, h3⟩
  · obtain ⟨x, h1, rfl⟩ := Outcome.map_eq_ok.1 hx
    exact absurd h1 (Rigid.no (c := Codecs.set str) _ _ _ x hv)⟩

instance : Rigid command := ⟨fun F v w x hv hx => by
  rcases exchanged_isMap hv with ⟨es, fs, rfl, rfl⟩ | ⟨vs, ws, rfl, rfl⟩
  · cases hx
  · obtain ⟨x, h1, rfl⟩ := Outcome.map_eq_ok.1 hx
    exact Rigid.no (c := Codecs.list str) _ _ _ x hv h1⟩

/-- A list or mapping in which entries change places is a mapping of scalars, which change places as well. -/
theorem listOrMap_moved {v w : Content} (hv : Exchanged Fixed.nothing v w) {x : ListOrMap} (hx : listOrMap.de v = .ok x) :
    ∃ m m', x = .map m ∧ listOrMap.de w = .ok (.map m') ∧ m.Perm m' ∧ (m.map (·.1)).Nodup := by
  rcases exchanged_isMap hv with ⟨es, fs, rfl, rfl⟩ | ⟨vs, ws, rfl, rfl⟩
  · obtain ⟨x, h1, rfl⟩ := Outcome.map_eq_ok.1 hx
    obtain ⟨l, h0, rfl⟩ := Outcome.map_eq_ok.1 h1
    obtain ⟨es', h2, h3⟩ := Outcome.bind_eq_ok.1 h0
    obtain ⟨fs', h4, h5⟩ := entriesOf_exchanged hv (Outcome.ofOption_eq_ok.1 h2)
    obtain ⟨l', h6, h7⟩ := readEntries_moved (k := mapKey) h5 h3 fun k v w x hv hx => absurd hx (Rigid.no (c := option value) _ v w x hv)
    refine ⟨_, IndexMap.collect l', rfl, ?_, ?_, IndexMap.ok_collect _⟩
    · refine Outcome.map_eq_ok.2 ⟨_, ?_, rfl⟩
      simp only [valueMap, Codecs.map, h4, Outcome.ofOption_some, Outcome.bind_ok, h6, Outcome.map_ok]
    · rcases h7 with ⟨a, b, e, e', rfl, rfl, h10, _⟩ | ⟨a, b, k, v, w, x, y, h8, h9, h10, h11, h12⟩
      · exact collect_swap h10
      · exact absurd h11 (Rigid.no (c := option value) _ v w x h10)
  · obtain ⟨x, h1, rfl⟩ := Outcome.map_eq_ok.1 hx
    exact absurd h1 (Rigid.no (c := Codecs.set str) _ _ _ x hv)

theorem perm_forall₂ {α β : Type} {R : α → β → Prop} {l l' : List α} (h : l.Perm l') {m : List β} (hm : List.Forall₂ R l m) :
    ∃ m', List.Forall₂ R l' m' ∧ m.Perm m' := by
  obtain ⟨m', h1, h2⟩ := List.perm_comp_forall₂ h.symm hm
  exact ⟨m', h1, h2.symm⟩

theorem asMap_moved {v w : Content} (hv : Exchanged Fixed.nothing v w) {ft : FloatText} {ds : List Char} {m : List (Str × Option Value)}
    (hm : Meaning.asMap ft ds v m) : ∃ m', Meaning.asMap ft ds w m' ∧ m.Perm m' ∧ (m.map (·.1)).Nodup := by
  obtain ⟨x, h1, h2⟩ := hm
  obtain ⟨m0, m', rfl, h3, h4, h5⟩ := listOrMap_moved hv ((Denotes.iff (c := listOrMap) _ _).2 h1)
  rcases h2 with h2 | ⟨l, es, h2, _⟩
  · cases h2
    exact ⟨m', ⟨_, (Denotes.iff (c := listOrMap) _ _).1 h3, .inl rfl⟩, h4, h5⟩
  · cases h2

theorem forall₂_same_keys {V W : Type} {R : Str × V → Str × W → Prop} (h : ∀ e f, R e f → f.1 = e.1) {l : List (Str × V)}
    {m : List (Str × W)} (hm : List.Forall₂ R l m) : m.map (·.1) = l.map (·.1) := by
  induction hm with
  | nil => rfl
  | cons h1 _ ih => rw [List.map_cons, List.map_cons, ih, h _ _ h1]

instance {E : Env} : Unordered (Codecs.extraHosts E) := ⟨fun v w x hv hx => by
  obtain ⟨m, h1, h2⟩ := (Denotes.iff (c := Codecs.extraHosts E) (m := Meaning.extraHosts E) _ _).1 hx
  obtain ⟨m', h3, h4, h5⟩ := asMap_moved hv h1
  obtain ⟨y, h6, h7⟩ := perm_forall₂ h4 h2
  refine ⟨y, (Denotes.iff (c := Codecs.extraHosts E) (m := Meaning.extraHosts E) _ _).2 ⟨m', h3, h6⟩, mapping_perm (h7.map _) ?_⟩
  rw [List.map_map]
  have := forall₂_same_keys (fun e f (h : IsHost E.ip.parse e f) => h.1) h2
  rw [← this] at h5
  exact h5⟩

instance {E : Env} : Unordered (Codecs.additionalContexts E) := ⟨fun v w x hv hx => by
  obtain ⟨m, h1, h2⟩ := (Denotes.iff (c := Codecs.additionalContexts E) (m := Meaning.additionalContexts E) _ _).1 hx
  obtain ⟨m', h3, h4, h5⟩ := asMap_moved hv h1
  obtain ⟨y, h6, h7⟩ := perm_forall₂ h4 h2
  refine ⟨y, (Denotes.iff (c := Codecs.additionalContexts E) (m := Meaning.additionalContexts E) _ _).2 ⟨m', h3, h6⟩, mapping_perm (h7.map _) ?_⟩
  rw [List.map_map]
  have := forall₂_same_keys (fun e f (h : Meaning.NamedContext E e f) => by cases h <;> rfl) h2
  rw [← this] at h5
  exact h5⟩

theorem Moved.mapping {F : Fixed} {es fs : List (Str × Content)} (h : Moved F es fs) :
    Exchanged F (Derive.mapping es) (Derive.mapping fs) := by
  cases h with
  | swap h1 h2 =>
    simp only [Derive.mapping, List.map_append, List.map_cons]
    exact .here (fun h => h1 (Content.str.inj h)) h2
  | value h =>
    simp only [Derive.mapping, List.map_append, List.map_cons]
    exact .value h

theorem Moved.filtered {F : Fixed} {es fs : List (Str × Content)} (h : Moved F es fs) (p : Str → Bool) :
    SameButOrder (Derive.mapping (es.filter fun e => p e.1)) (Derive.mapping (fs.filter fun e => p e.1)) := by
  rcases h.filter p with h | h
  · rw [h]; exact .refl
  · exact .single h.free.mapping

theorem Moved.nodup {F : Fixed} {es fs : List (Str × Content)} (h : Moved F es fs) (p : Str → Bool)
    (hn : ((es.filter fun e => p e.1).map (·.1)).Nodup) : ((fs.filter fun e => p e.1).map (·.1)).Nodup := by
  rcases h.filter p with h | h
  · rwa [← h]
  · exact (h.keys.nodup_iff).1 hn

open Classical in
theorem credentialSpec_iff {v : Content} {x : CredentialSpec} : Meaning.credentialSpec v x ↔
    ∃ es e, v = Derive.mapping es ∧ (es.filter fun e => decide (¬ ExtensionKey e.1)) = [e] ∧ KindEntry e x.kind ∧
      x.extensions = (es.filter fun e => decide (ExtensionKey e.1)) ∧ (x.extensions.map (·.1)).Nodup := by
  have hk : ∀ {e k}, KindEntry e k → ¬ ExtensionKey e.1 := by
    rintro e k (h | _ | _) <;> (rintro ⟨⟨s, hs⟩, _⟩; simp at hs)
  constructor
  · rintro ⟨b, e, a, h1, h2, h3, h4, h5⟩
    have hb : ∀ e ∈ b, ExtensionKey e.1 := fun e he => h4 e (List.mem_append_left _ he)
    have ha : ∀ e ∈ a, ExtensionKey e.1 := fun e he => h4 e (List.mem_append_right _ he)
    have hn := hk h2
    refine ⟨_, e, h1, ?_, h2, ?_, h3 ▸ h5⟩
    · rw [List.filter_append, List.filter_cons_of_pos (by simpa using hn), List.filter_eq_nil_iff.2 (by simpa using fun a b h => hb (a, b) h),
        List.filter_eq_nil_iff.2 (by simpa using fun a b h => ha (a, b) h)]; rfl
    · rw [h3, List.filter_append, List.filter_cons_of_neg (by simpa using hn), List.filter_eq_self.2 (by simpa using fun a b h => hb (a, b) h),
        List.filter_eq_self.2 (by simpa using fun a b h => ha (a, b) h)]
  · rintro ⟨es, e, rfl, h1, h2, h3, h4⟩
    obtain ⟨b, a, rfl, hb, he, ha⟩ := List.filter_eq_cons_iff.1 h1
    have ha := List.filter_eq_nil_iff.1 ha
    have hn := hk h2
    have hb' : ∀ e ∈ b, ExtensionKey e.1 := fun e he => by simpa using hb e he
    have ha' : ∀ e ∈ a, ExtensionKey e.1 := fun e he => by simpa using ha e he
    have h5 : x.extensions = b ++ a := by
      rw [h3, List.filter_append, List.filter_cons_of_neg (by simpa using hn), List.filter_eq_self.2 (by simpa using fun a b h => hb' (a, b) h),
        List.filter_eq_self.2 (by simpa using fun c d h => ha' (c, d) h)]
    exact ⟨b, e, a, rfl, h2, h5, fun e he => (List.mem_append.1 he).elim (hb' e) (ha' e), h5 ▸ h4⟩

open Classical in
instance : Unordered Codecs.credentialSpec := ⟨fun v w x hv hx => by
  obtain ⟨es, e, rfl, h1, h2, h3, h4⟩ := credentialSpec_iff.1 ((Denotes.iff (c := Codecs.credentialSpec) _ _).1 hx)
  obtain ⟨fs, rfl, hm⟩ := exchanged_mapping hv
  have h5 : (fs.filter fun e => decide (¬ ExtensionKey e.1)) = [e] := by
    rcases hm.filter fun k => decide (¬ ExtensionKey k) with h | h
    · rw [← h, h1]
    · rw [h1] at h
      generalize hl : (fs.filter fun e => decide (¬ ExtensionKey e.1)) = l at h
      generalize hl' : [e] = l' at h
      cases h with
      | @swap a => rcases a with _ | ⟨_, _ | _⟩ <;> simp at hl'
      | value h =>
        obtain ⟨rfl, rfl, rfl⟩ := singleton_split hl'
        generalize x.kind = k at h2
        cases h2 <;> cases h
  refine ⟨⟨x.kind, fs.filter fun e => decide (ExtensionKey e.1)⟩,
    (Denotes.iff (c := Codecs.credentialSpec) _ _).2 (credentialSpec_iff.2 ⟨fs, e, rfl, h5, h2, rfl, ?_⟩), ?_⟩
  · rw [h3] at h4
    exact hm.nodup (fun k => decide (ExtensionKey k)) h4
  · show SameButOrder (Derive.mapping (x.kind.entry :: x.extensions)) (Derive.mapping (x.kind.entry :: _))
    rw [h3]
    exact reordered_cons .refl (hm.filtered fun k => decide (ExtensionKey k))⟩

theorem optField_moved {F : Fixed} {es fs : List (Str × Content)} (h : Moved F es fs) {α : Type} {k : Str} {R : Content → α → Prop}
    {o : Option α} (hr : ∀ F v w x, Exchanged F v w → ¬ R v x) (ho : OptField es k R o) : OptField fs k R o := by
  have e : valuesOf k es = given es k := rfl
  have e' : valuesOf k fs = given fs k := rfl
  unfold OptField at ho ⊢
  rw [e] at ho
  rw [e']
  rcases h.given k with h | ⟨a, b, v, w, h1, h2, h3⟩
  · rwa [← h]
  · rw [h1] at ho
    rcases ho with ⟨h, _⟩ | ⟨v', x, h, h4, _⟩
    · simp at h
    · obtain ⟨rfl, rfl, rfl⟩ := singleton_split h.symm
      exact absurd h4 (hr _ _ _ _ h3)

theorem exchanged_strs {F : Fixed} {l : List Str} {w : Content} : ¬ Exchanged F (.seq (l.map .str)) w := by
  intro h
  obtain ⟨a, v, b, v', h1, _, h2⟩ := exchanged_seq h
  obtain ⟨s, _, rfl⟩ := List.mem_map.1 (h1 ▸ List.mem_append_right _ (List.mem_cons_self ..))
  cases h2

theorem reordered_after {a es fs : List (Str × Content)} (h : SameButOrder (Derive.mapping es) (Derive.mapping fs)) :
    SameButOrder (Derive.mapping (a ++ es)) (Derive.mapping (a ++ fs)) := by
  unfold Derive.mapping
  rw [List.map_append, List.map_append]
  exact reordered_append .refl h

theorem healthcheck_free {F : Fixed} (hd : F [] (.str "disable".toList)) (ht : F [] (.str "test".toList)) : OrderFree F Codecs.healthcheck := by
  intro v w x hv hx
  obtain ⟨es, rfl, h⟩ := (Denotes.iff (c := Codecs.healthcheck) (m := Meaning.healthcheck) _ _).1 hx
  obtain ⟨fs, rfl, hm⟩ := exchanged_mapping hv
  have hno : ∀ {F w}, ¬ Exchanged F noTest w := exchanged_strs (l := ["NONE".toList])
  rcases h with ⟨rfl, h⟩ | ⟨c, rfl, h⟩
  · exfalso
    rcases h with rfl | rfl | rfl
    · generalize hl : [("disable".toList, Content.bool true)] = l at hm
      cases hm with
      | @swap a => rcases a with _ | ⟨_, _ | _⟩ <;> simp at hl
      | value h => obtain ⟨-, -, h1⟩ := singleton_split hl; cases h1; cases h
    · generalize hl : [("test".toList, noTest)] = l at hm
      cases hm with
      | @swap a => rcases a with _ | ⟨_, _ | _⟩ <;> simp at hl
      | value h => obtain ⟨-, -, h1⟩ := singleton_split hl; cases h1; exact hno h
    · generalize hl : [("disable".toList, Content.bool false), ("test".toList, noTest)] = l at hm
      cases hm with
      | @swap a b k k' v v' h1 h2 =>
        rcases a with _ | ⟨_, _ | ⟨_, _ | _⟩⟩ <;> simp at hl
        obtain ⟨⟨rfl, _⟩, ⟨rfl, _⟩, _⟩ := hl
        exact h2 ⟨hd, ht⟩
      | value h =>
        rename_i a b k v w
        rcases a with _ | ⟨_, _ | ⟨_, _ | _⟩⟩ <;> simp at hl
        · obtain ⟨⟨rfl, rfl⟩, _⟩ := hl; cases h
        · obtain ⟨_, ⟨rfl, rfl⟩, _⟩ := hl; exact hno h
  · have hD : ∀ F v w (x : Duration), Exchanged F v w → ¬ DurationValue v x := by
      rintro F v w x h (⟨h' | h'⟩ | _)
      · rw [h'] at h; cases h
      · rw [h'.2] at h; cases h
      · cases h
    have hU : ∀ F v w (x : Nat), Exchanged F v w → ¬ U64Value v x := by
      rintro F v w x h ⟨h' | h', _⟩
      · rw [h'] at h; cases h
      · rw [h'.2] at h; cases h
    refine ⟨.command { c with extensions := fs.filter (·.1 ∉ healthKeys) },
      (Denotes.iff (c := Codecs.healthcheck) (m := Meaning.healthcheck) _ _).2 ⟨fs, rfl, .inr ⟨_, rfl, ?_⟩⟩, ?_⟩
    · refine ⟨?_, ?_, optField_moved hm ?_ h.test, optField_moved hm hD h.interval, optField_moved hm hD h.timeout,
        optField_moved hm hU h.retries, optField_moved hm hD h.startPeriod, optField_moved hm hD h.startInterval, rfl, ?_⟩
      · intro e he
        have : e.1 ∈ es.map (·.1) := hm.keys.mem_iff.2 (List.mem_map_of_mem he)
        obtain ⟨e', h1, h2⟩ := List.mem_map.1 this
        rw [← h2]; exact h.keys e' h1
      · rcases hm.given "disable".toList with h1 | ⟨a, b, v, w, h1, h2, h3⟩
        · have := h.disable
          rwa [show valuesOf "disable".toList es = valuesOf "disable".toList fs from h1] at this
        · exfalso
          have := h.disable
          rw [show valuesOf "disable".toList es = _ from h1] at this
          rcases this with h | h
          · simp at h
          · obtain ⟨-, -, rfl⟩ := singleton_split h.symm; cases h3
      · rintro F v w x h (_ | ⟨args⟩ | _)
        · cases h
        · exact exchanged_strs (l := "CMD".toList :: _) h
        · exact exchanged_strs (l := ["CMD-SHELL".toList, _]) h
      · have := h.distinct
        rw [h.extensions] at this
        exact hm.nodup (fun k => decide (k ∉ healthKeys)) this
    · have := hm.filtered fun k => decide (k ∉ healthKeys)
      rw [← h.extensions] at this
      exact reordered_after this

end Proofs
