import Verif.Proofs.Edit
import Verif.Proofs.OrderTypes

/- Reading values of the types of the fields from documents in which one setting has been edited. -/

namespace Proofs
open Rust Compose Compose.Derive Compose.Codecs Spec
open Props hiding mapping entriesOf_mapping

/-! ### Types that are not read from mappings -/

section
variable {α : Type} {c : Codec α}

instance [h : NoMap c] : NoMap (option c) := ⟨fun es x hx => by
  obtain ⟨x, h1, rfl⟩ := Outcome.map_eq_ok.1 ((option_de (c := c) (v := .map es) nofun).symm.trans hx)
  exact h.map es x h1⟩

instance : NoMap (list c) := ⟨nofun⟩
instance [RustEq α] : NoMap (Codecs.set c) := ⟨nofun⟩
instance [RustEq α] : NoMap (itemOrList c) := ⟨nofun⟩
instance : NoMap command := ⟨nofun⟩

theorem option_local {P : List Str → Prop} (h : LocalOn P c) : LocalOn P (option c) := by
  refine localOn_of fun k p es fs x y hp hv hx hy => ?_
  rw [option_de (v := .map es) nofun] at hx
  rw [option_de (v := .map fs) nofun] at hy
  obtain ⟨x, h1, rfl⟩ := Outcome.map_eq_ok.1 hx
  obtain ⟨y, h2, rfl⟩ := Outcome.map_eq_ok.1 hy
  exact h _ _ _ x y hp hv h1 h2

instance [h : Local c] : Local (option c) := ⟨option_local h.all⟩

theorem shortOrLong_local {P : List Str → Prop} {S L : Type} {s : Codec S} {l : Codec L} (hl : LocalOn P l) :
    LocalOn P (shortOrLong s l) := by
  refine localOn_of fun k p es fs x y hp hv hx hy => ?_
  obtain ⟨x, h1, rfl⟩ := Outcome.map_eq_ok.1 hx
  obtain ⟨y, h2, rfl⟩ := Outcome.map_eq_ok.1 hy
  exact hl _ _ _ x y hp hv h1 h2

instance {S L : Type} {s : Codec S} {l : Codec L} [hl : Local l] : Local (shortOrLong s l) := ⟨shortOrLong_local hl.all⟩

/-! ### Mappings -/

/-- Tables that differ at most in one entry.  It is missing from one of them only if the path ends there. -/
inductive OneOff (k : Str) (p : List Str) (R : α → α → Prop) : List (Str × α) → List (Str × α) → Prop
  | value {a b : List (Str × α)} {x y : α} : R x y → OneOff k p R (a ++ (k, x) :: b) (a ++ (k, y) :: b)
  | add {a b : List (Str × α)} {y : α} : p = [] → OneOff k p R (a ++ b) (a ++ (k, y) :: b)
  | remove {a b : List (Str × α)} {x : α} : p = [] → OneOff k p R (a ++ (k, x) :: b) (a ++ b)

theorem insert_apart {k k' : Str} (h : k ≠ k') (v : α) (a b : List (Str × α)) :
    ∃ a' b', (∀ x, IndexMap.insert (a ++ (k, x) :: b) k' v = a' ++ (k, x) :: b') ∧ IndexMap.insert (a ++ b) k' v = a' ++ b' := by
  induction a with
  | nil =>
    refine ⟨[], IndexMap.insert b k' v, fun x => ?_, rfl⟩
    show IndexMap.insert ((k, x) :: b) k' v = _
    rw [IndexMap.insert, if_neg h]; rfl
  | cons e a ih =>
    obtain ⟨a', b', h1, h2⟩ := ih
    obtain ⟨k2, x2⟩ := e
    by_cases hk : k2 = k'
    · refine ⟨(k2, v) :: a, b, fun x => ?_, ?_⟩ <;> simp only [List.cons_append, IndexMap.insert, if_pos hk]
    · refine ⟨(k2, x2) :: a', b', fun x => ?_, ?_⟩ <;> simp only [List.cons_append, IndexMap.insert, if_neg hk, h1, h2]

theorem collect_apart {k : Str} {a b : List (Str × α)} (h : k ∉ (a ++ b).map (·.1)) :
    ∃ a' b', (∀ x, IndexMap.collect (a ++ (k, x) :: b) = a' ++ (k, x) :: b') ∧ IndexMap.collect (a ++ b) = a' ++ b' := by
  rw [List.map_append, List.mem_append, not_or] at h
  have ha : k ∉ (IndexMap.collect a).map (·.1) := by
    intro hk
    obtain ⟨e, he, hek⟩ := List.mem_map.1 hk
    have := (IndexMap.get_eq_some (IndexMap.ok_collect a) (k := e.1) (v := e.2)).2 he
    rw [IndexMap.get_collect] at this
    obtain ⟨e', h1, _⟩ := Option.map_eq_some_iff.1 this
    have h2 := List.mem_reverse.1 (List.mem_of_find?_eq_some h1)
    have h3 := List.find?_some h1
    simp only [decide_eq_true_eq] at h3
    exact h.1 (List.mem_map.2 ⟨e', h2, h3.trans hek⟩)
  have hb := h.2
  suffices ∀ (b : List (Str × α)), k ∉ b.map (·.1) → ∀ A B, ∃ a' b',
      (∀ x, b.foldl (fun m e => IndexMap.insert m e.1 e.2) (A ++ (k, x) :: B) = a' ++ (k, x) :: b') ∧
        b.foldl (fun m e => IndexMap.insert m e.1 e.2) (A ++ B) = a' ++ b' by
    obtain ⟨a', b', h1, h2⟩ := this b hb (IndexMap.collect a) []
    refine ⟨a', b', fun x => ?_, ?_⟩
    · rw [← h1, ← IndexMap.insert_new ha]
      simp only [IndexMap.collect, List.foldl_append, List.foldl_cons]
    · rw [← h2, List.append_nil]
      simp only [IndexMap.collect, List.foldl_append]
  intro b hb
  induction b with
  | nil => exact fun A B => ⟨A, B, fun _ => rfl, rfl⟩
  | cons e b ih =>
    intro A B
    simp only [List.map_cons, List.mem_cons, not_or] at hb
    obtain ⟨A', B', h1, h2⟩ := insert_apart hb.1 e.2 A B
    obtain ⟨a', b', h3, h4⟩ := ih hb.2 A' B'
    refine ⟨a', b', fun x => ?_, ?_⟩
    · rw [List.foldl_cons, h1, h3]
    · rw [List.foldl_cons, h2, h4]

theorem readEntries_append {key : Str → Option Str} {de : Content → Outcome Unit α} {a b : List (Str × Content)} {l : List (Str × α)}
    (h : readEntries key de (a ++ b) = .ok l) :
    ∃ la lb, readEntries key de a = .ok la ∧ readEntries key de b = .ok lb ∧ l = la ++ lb := by
  induction a generalizing l with
  | nil => exact ⟨[], l, rfl, h, rfl⟩
  | cons e a ih =>
    obtain ⟨k, v⟩ := e
    simp only [List.cons_append, readEntries, Outcome.bind_eq_ok, Outcome.map_eq_ok] at h ⊢
    obtain ⟨k', h1, x, h2, xs, h3, rfl⟩ := h
    obtain ⟨la, lb, h4, h5, rfl⟩ := ih h3
    exact ⟨(k', x) :: la, lb, ⟨k', h1, x, h2, la, h4, rfl⟩, h5, rfl⟩

theorem readEntries_cons {k : Key} [hk : OwnText k] {de : Content → Outcome Unit α} {key : Str} {v : Content} {b : List (Str × Content)}
    {l : List (Str × α)} (h : readEntries k.parse de ((key, v) :: b) = .ok l) :
    ∃ x lb, de v = .ok x ∧ readEntries k.parse de b = .ok lb ∧ l = (key, x) :: lb := by
  simp only [readEntries, Outcome.bind_eq_ok, Outcome.map_eq_ok, Outcome.ofOption_eq_ok] at h
  obtain ⟨k', h1, x, h2, lb, h3, rfl⟩ := h
  rw [hk.eq _ _ h1]
  exact ⟨x, lb, h2, h3, rfl⟩

theorem readEntries_keys {k : Key} [OwnText k] {de : Content → Outcome Unit α} {es : List (Str × Content)} {l : List (Str × α)}
    (h : readEntries k.parse de es = .ok l) : l.map (·.1) = es.map (·.1) :=
  forall₂_same_keys (fun _ _ h => h.2.1) (readEntries_forall₂.1 h)

/-- Entries that are read as entries of a table. -/
theorem collect_edited {k : Key} [OwnText k] {de : Content → Outcome Unit α} {key : Str} {p : List Str} {es fs : List (Str × Content)}
    (h : EditedEntry key p es fs) {R : α → α → Prop} (hr : ∀ v w x y, Edited p v w → de v = .ok x → de w = .ok y → R x y)
    {l l' : List (Str × α)} (hl : readEntries k.parse de es = .ok l) (hl' : readEntries k.parse de fs = .ok l') :
    OneOff key p R (IndexMap.collect l) (IndexMap.collect l') := by
  have same : ∀ {e : List (Str × Content)} {m m' : List (Str × α)}, readEntries k.parse de e = .ok m → readEntries k.parse de e = .ok m' →
      m = m' := fun h h' => Outcome.ok.inj (h.symm.trans h')
  have fresh : ∀ {a b : List (Str × Content)} {la lb : List (Str × α)}, key ∉ (a ++ b).map (·.1) → readEntries k.parse de a = .ok la →
      readEntries k.parse de b = .ok lb → key ∉ (la ++ lb).map (·.1) := fun h h1 h2 => by
    rw [List.map_append, readEntries_keys h1, readEntries_keys h2, ← List.map_append]; exact h
  cases h with
  | @value a b _ v w h1 h2 =>
    obtain ⟨la, lr, h3, h4, rfl⟩ := readEntries_append hl
    obtain ⟨x, lb, h5, h6, rfl⟩ := readEntries_cons h4
    obtain ⟨la', lr', h7, h8, rfl⟩ := readEntries_append hl'
    obtain ⟨y, lb', h9, h10, rfl⟩ := readEntries_cons h8
    obtain rfl := same h3 h7
    obtain rfl := same h6 h10
    obtain ⟨A, B, hA, _⟩ := collect_apart (fresh h1 h3 h6)
    rw [hA, hA]
    exact .value (hr _ _ _ _ h2 h5 h9)
  | add h1 =>
    obtain ⟨la, lb, h3, h6, rfl⟩ := readEntries_append hl
    obtain ⟨la', lr', h7, h8, rfl⟩ := readEntries_append hl'
    obtain ⟨y, lb', h9, h10, rfl⟩ := readEntries_cons h8
    obtain rfl := same h3 h7
    obtain rfl := same h6 h10
    obtain ⟨A, B, hA, hB⟩ := collect_apart (fresh h1 h3 h6)
    rw [hA, hB]
    exact .add rfl
  | remove h1 =>
    obtain ⟨la, lb, h3, h6, rfl⟩ := readEntries_append hl'
    obtain ⟨la', lr', h7, h8, rfl⟩ := readEntries_append hl
    obtain ⟨y, lb', h9, h10, rfl⟩ := readEntries_cons h8
    obtain rfl := same h3 h7
    obtain rfl := same h6 h10
    obtain ⟨A, B, hA, hB⟩ := collect_apart (fresh h1 h3 h6)
    rw [hA, hB]
    exact .remove rfl

theorem OneOff.differ {k : Str} {p : List Str} {R : α → α → Prop} {m m' : List (Str × α)} (h : OneOff k p R m m') {ser : α → Content}
    (hr : ∀ x y, R x y → DifferAt p (ser x) (ser y)) :
    DifferEntry k p (m.map fun e => (e.1, ser e.2)) (m'.map fun e => (e.1, ser e.2)) := by
  cases h with
  | value h => simp only [List.map_append, List.map_cons]; exact .value List.perm_middle List.perm_middle (hr _ _ h)
  | add h => subst h; simp only [List.map_append, List.map_cons]; exact .missingLeft List.perm_middle .here
  | remove h => subst h; simp only [List.map_append, List.map_cons]; exact .missingRight List.perm_middle .here

theorem map_oneOff {k : Key} [OwnText k] {key : Str} {p : List Str} {R : α → α → Prop}
    (hr : ∀ v w x y, Edited p v w → c.de v = .ok x → c.de w = .ok y → R x y) {v w : Content} (hv : Edited (key :: p) v w)
    {m m' : IndexMap Str α} (hm : (map k c).de v = .ok m) (hm' : (map k c).de w = .ok m') : OneOff key p R m m' := by
  obtain ⟨l, h1, rfl⟩ := Outcome.map_eq_ok.1 hm
  obtain ⟨es, h2, h3⟩ := Outcome.bind_eq_ok.1 h1
  obtain ⟨l', h4, rfl⟩ := Outcome.map_eq_ok.1 hm'
  obtain ⟨fs, h5, h6⟩ := Outcome.bind_eq_ok.1 h4
  rw [entriesOf_iff.1 (Outcome.ofOption_eq_ok.1 h2), entriesOf_iff.1 (Outcome.ofOption_eq_ok.1 h5)] at hv
  exact collect_edited (edited_mapping hv) hr h3 h6

theorem map_local {P : List Str → Prop} {k : Key} [OwnText k] (h : ∀ key, LocalOn (fun p => P (key :: p)) c) : LocalOn P (map k c) :=
  localOn_of fun key p _ _ _ _ hp hv hx hy =>
    (OneOff.differ (map_oneOff (R := fun x y => DifferAt p (c.ser x) (c.ser y)) (fun v w x y => h key p v w x y hp) hv hx hy)
      fun _ _ h => h).mapping

instance {k : Key} [OwnText k] [h : Local c] : Local (map k c) := ⟨map_local fun _ => h.all⟩

end

instance : Local valueMap := inferInstanceAs (Local (map _ _))

instance : Local listOrMap := ⟨localOn_of fun k p es fs x y hp hv hx hy => by
  obtain ⟨x, h1, rfl⟩ := Outcome.map_eq_ok.1 hx
  obtain ⟨y, h2, rfl⟩ := Outcome.map_eq_ok.1 hy
  exact Local.all (c := valueMap) _ _ _ x y hp hv h1 h2⟩

/-! ### Other types -/

theorem asMap_oneOff {ft : FloatText} {ds : List Char} {k : Str} {p : List Str} {es fs : List (Content × Content)}
    (hv : Edited (k :: p) (.map es) (.map fs)) {m m' : List (Str × Option Value)} (hm : Meaning.asMap ft ds (.map es) m)
    (hm' : Meaning.asMap ft ds (.map fs) m') : OneOff k [] (fun _ _ => True) m m' ∧ (p ≠ [] → False) := by
  have hmap : ∀ {es m}, Meaning.asMap ft ds (.map es) m → valueMap.de (.map es) = .ok m := by
    rintro es m ⟨x, h1, h2⟩
    obtain ⟨y, h3, rfl⟩ := Outcome.map_eq_ok.1 ((Denotes.iff (c := listOrMap) _ _).2 h1)
    rcases h2 with h2 | ⟨l, es, h2, _⟩
    · cases h2; exact h3
    · cases h2
  have hp : p = [] := by
    by_contra hp
    have := map_oneOff (R := fun _ _ => False) (fun v w x y hv hx _ => (NoMap.no (c := option value) hp hv x hx).elim) hv
      (hmap hm) (hmap hm')
    cases this with
    | value h => exact h
    | add h => exact hp h
    | remove h => exact hp h
  subst hp
  exact ⟨map_oneOff (fun _ _ _ _ _ _ _ => trivial) hv (hmap hm) (hmap hm'), fun h => h rfl⟩

theorem forall₂_unique {α β : Type} {R : α → β → Prop} (h : ∀ a b b', R a b → R a b' → b = b') {l : List α} {m m' : List β}
    (hm : List.Forall₂ R l m) (hm' : List.Forall₂ R l m') : m = m' := by
  induction hm generalizing m' with
  | nil => cases hm'; rfl
  | cons h1 _ ih =>
    cases hm' with
    | cons h2 h3 => rw [h _ _ _ h1 h2, ih h3]

theorem OneOff.forall₂ {α β : Type} {k : Str} {R : Str × α → Str × β → Prop} (h : ∀ a b b', R a b → R a b' → b = b')
    (hk : ∀ a b, R a b → b.1 = a.1) {m m' : List (Str × α)} (hm : OneOff k [] (fun _ _ => True) m m') {y y' : List (Str × β)}
    (hy : List.Forall₂ R m y) (hy' : List.Forall₂ R m' y') : OneOff k [] (fun _ _ => True) y y' := by
  have one : ∀ {b : List (Str × α)} {x : α} {l : List (Str × β)}, List.Forall₂ R ((k, x) :: b) l →
      ∃ z lb, List.Forall₂ R b lb ∧ l = (k, z) :: lb := by
    intro b x l hl
    obtain ⟨⟨k', z⟩, lb, h1, h2, rfl⟩ := List.forall₂_cons_left_iff.1 hl
    obtain rfl : k' = k := hk _ _ h1
    exact ⟨z, lb, h2, rfl⟩
  cases hm with
  | value =>
    obtain ⟨la, lr, h1, h2, rfl⟩ := forall₂_append_left hy
    obtain ⟨x, lb, h3, rfl⟩ := one h2
    obtain ⟨la', lr', h4, h5, rfl⟩ := forall₂_append_left hy'
    obtain ⟨y, lb', h6, rfl⟩ := one h5
    obtain rfl := forall₂_unique h h1 h4
    obtain rfl := forall₂_unique h h3 h6
    exact .value trivial
  | add =>
    obtain ⟨la, lb, h1, h3, rfl⟩ := forall₂_append_left hy
    obtain ⟨la', lr', h4, h5, rfl⟩ := forall₂_append_left hy'
    obtain ⟨y, lb', h6, rfl⟩ := one h5
    obtain rfl := forall₂_unique h h1 h4
    obtain rfl := forall₂_unique h h3 h6
    exact .add rfl
  | remove =>
    obtain ⟨la, lb, h1, h3, rfl⟩ := forall₂_append_left hy'
    obtain ⟨la', lr', h4, h5, rfl⟩ := forall₂_append_left hy
    obtain ⟨y, lb', h6, rfl⟩ := one h5
    obtain rfl := forall₂_unique h h1 h4
    obtain rfl := forall₂_unique h h3 h6
    exact .remove rfl

instance {E : Env} : Local (Codecs.extraHosts E) := ⟨localOn_of fun k p es fs x y _ hv hx hy => by
  obtain ⟨m, h1, h2⟩ := (Denotes.iff (c := Codecs.extraHosts E) (m := Meaning.extraHosts E) _ _).1 hx
  obtain ⟨m', h3, h4⟩ := (Denotes.iff (c := Codecs.extraHosts E) (m := Meaning.extraHosts E) _ _).1 hy
  obtain ⟨h5, h6⟩ := asMap_oneOff hv h1 h3
  cases p with
  | cons => exact (h6 (by simp)).elim
  | nil =>
    exact (OneOff.differ (OneOff.forall₂ (R := IsHost E.ip.parse) (fun a b b' h h' => Except.ok.inj ((extraHost_iff.2 h).symm.trans (extraHost_iff.2 h')))
      (fun _ _ h => h.1) h5 h2 h4) fun _ _ _ => .here).mapping⟩

instance {E : Env} : Local (Codecs.additionalContexts E) := ⟨localOn_of fun k p es fs x y _ hv hx hy => by
  obtain ⟨m, h1, h2⟩ := (Denotes.iff (c := Codecs.additionalContexts E) (m := Meaning.additionalContexts E) _ _).1 hx
  obtain ⟨m', h3, h4⟩ := (Denotes.iff (c := Codecs.additionalContexts E) (m := Meaning.additionalContexts E) _ _).1 hy
  obtain ⟨h5, h6⟩ := asMap_oneOff hv h1 h3
  cases p with
  | cons => exact (h6 (by simp)).elim
  | nil =>
    exact (OneOff.differ (OneOff.forall₂ (R := Meaning.NamedContext E) (fun a b b' h h' => (namedContext_iff.2 h).symm.trans (namedContext_iff.2 h'))
      (fun _ _ h => by cases h <;> rfl) h5 h2 h4) fun _ _ _ => .here).mapping⟩

open Classical in
instance : Local Codecs.credentialSpec := ⟨localOn_of fun k p vs ws x y _ hv hx hy => by
  obtain ⟨es, e, he, h1, h2, h3, h4⟩ := credentialSpec_iff.1 ((Denotes.iff (c := Codecs.credentialSpec) _ _).1 hx)
  obtain ⟨fs, f, hf, g1, g2, g3, g4⟩ := credentialSpec_iff.1 ((Denotes.iff (c := Codecs.credentialSpec) _ _).1 hy)
  rw [he, hf] at hv
  have h := edited_mapping hv
  have hentry : ∀ {e x}, KindEntry e x → x.entry = e := by rintro _ _ (_ | _ | _) <;> rfl
  refine DifferEntry.mapping (es := x.kind.entry :: x.extensions) (fs := y.kind.entry :: y.extensions) ?_
  rw [hentry h2, hentry g2, h3, g3]
  by_cases hk : ExtensionKey k
  · have hn := h.filter_same (q := fun k => decide (¬ ExtensionKey k)) (by simpa using hk)
    rw [h1, g1] at hn
    rw [List.cons.inj hn |>.1]
    exact (h.filter (q := fun k => decide (ExtensionKey k)) (by simpa using hk)).differ.append_left [f]
  · rw [h.filter_same (q := fun k => decide (ExtensionKey k)) (by simpa using hk)]
    have hn := h.filter (q := fun k => decide (¬ ExtensionKey k)) (by simpa using hk)
    rw [h1, g1] at hn
    exact hn.differ.append_right _⟩

/-! ### Health checks -/

theorem optField_same {es fs : List (Str × Content)} {α : Type} {n : Str} {R : Content → α → Prop} {o o' : Option α}
    (hr : ∀ v x y, R v x → R v y → x = y) (he : given es n = given fs n) (ho : OptField es n R o) (ho' : OptField fs n R o') : o = o' := by
  have e : valuesOf n es = given es n := rfl
  have e' : valuesOf n fs = given fs n := rfl
  unfold OptField at ho ho'
  rw [e, he] at ho
  rw [e'] at ho'
  rcases ho with ⟨h1, rfl⟩ | ⟨v, x, h1, h2, rfl⟩ <;> rcases ho' with ⟨h3, rfl⟩ | ⟨w, y, h3, h4, rfl⟩
  · rfl
  · rw [h1] at h3; cases h3
  · rw [h1] at h3; cases h3
  · rw [h1] at h3; cases h3; rw [hr _ _ _ h2 h4]

theorem optField_edited {es fs : List (Str × Content)} {α : Type} {n : String} {p : List Str} {R : Content → α → Prop} {o o' : Option α}
    {ser : α → Content} (hr : ∀ v x, R (.map v) x → False) (h : EditedEntry n.toList p es fs) (ho : OptField es n.toList R o)
    (ho' : OptField fs n.toList R o') : DifferEntry n.toList p (optEntry n ser o) (optEntry n ser o') := by
  have hp : p = [] := by
    cases p with
    | nil => rfl
    | cons k p =>
      rcases h.given with ⟨v, w, h1, h2, h3⟩ | ⟨h1, _⟩
      · obtain ⟨es, fs, rfl, rfl⟩ := edited_maps h3
        rcases ho with ⟨h4, _⟩ | ⟨v, x, h4, h5, _⟩
        · rw [show valuesOf _ _ = _ from h1] at h4; cases h4
        · rw [show valuesOf _ _ = _ from h1] at h4; cases h4; exact (hr _ _ h5).elim
      · cases h1
  subst hp
  cases o <;> cases o'
  · exact .refl
  · exact .missingLeft (.refl _) .here
  · exact .missingRight (.refl _) .here
  · exact .value (.refl _) (.refl _) .here

theorem command_edited {k : Str} {p : List Str} {es fs : List (Str × Content)} (h : EditedEntry k p es fs) {c d : HealthCommand}
    (hc : CommandFields es c) (hd : CommandFields fs d) :
    DifferAt (k :: p) (Healthcheck.serialize (.command c)) (Healthcheck.serialize (.command d)) := by
  have uD : ∀ v (x y : Duration), DurationValue v x → DurationValue v y → x = y := fun v x y h h' =>
    Option.some.inj (Outcome.ok.inj ((durationValue_iff.2 h).symm.trans (durationValue_iff.2 h')))
  have uU : ∀ v (x y : Nat), U64Value v x → U64Value v y → x = y := fun v x y h h' => by
    obtain ⟨h, -⟩ := h
    obtain ⟨h', -⟩ := h'
    unfold IsInteger at h h'
    rcases h with h | ⟨h0, h⟩ <;> rcases h' with h' | ⟨h1, h'⟩ <;> rw [h] at h' <;> cases h' <;> omega
  have uT : ∀ v x y, TestValue v x → TestValue v y → x = y := by
    intro v x y h h'
    cases h with
    | shell => cases h'; rfl
    | @cmd args =>
      generalize hv : Content.seq (.str "CMD".toList :: args.map .str) = v at h'
      cases h' with
      | shell => cases hv
      | @cmd args' =>
        have hv := (List.cons.inj (Content.seq.inj hv)).2
        have := congrArg (List.map fun c => match c with | .str s => s | _ => []) hv
        simp only [List.map_map, Function.comp_def, List.map_id'] at this
        rw [this]
      | cmdShell => simp at hv
    | @cmdShell t =>
      generalize hv : Content.seq [.str "CMD-SHELL".toList, .str t] = v at h'
      cases h' with
      | shell => cases hv
      | cmd => simp at hv
      | cmdShell => simp at hv; rw [hv]
  have nD : ∀ v (x : Duration), DurationValue (.map v) x → False := by
    rintro v x (⟨h | h⟩ | _)
    · cases h
    · cases h.2
  have nU : ∀ v (x : Nat), U64Value (.map v) x → False := by
    rintro v x ⟨h | h, _⟩
    · cases h
    · cases h.2
  have nT : ∀ v x, TestValue (.map v) x → False := nofun
  refine DifferEntry.mapping ?_
  have s1 := fun hk => optField_same uT (h.given_same hk) hc.test hd.test
  have s2 := fun hk => optField_same uD (h.given_same hk) hc.interval hd.interval
  have s3 := fun hk => optField_same uD (h.given_same hk) hc.timeout hd.timeout
  have s4 := fun hk => optField_same uU (h.given_same hk) hc.retries hd.retries
  have s5 := fun hk => optField_same uD (h.given_same hk) hc.startPeriod hd.startPeriod
  have s6 := fun hk => optField_same uD (h.given_same hk) hc.startInterval hd.startInterval
  by_cases hk : k ∈ healthKeys
  · have s7 : c.extensions = d.extensions := by
      have := h.filter_same (q := fun k => decide (k ∉ healthKeys)) (by simpa using hk)
      rw [hc.extensions, hd.extensions]
      simpa using this
    simp only [healthKeys, List.mem_cons, List.not_mem_nil, or_false] at hk
    rcases hk with rfl | rfl | rfl | rfl | rfl | rfl | rfl
    · rw [s1 (by decide), s2 (by decide), s3 (by decide), s4 (by decide), s5 (by decide), s6 (by decide), s7]
      exact .refl
    · rw [s2 (by decide), s3 (by decide), s4 (by decide), s5 (by decide), s6 (by decide), s7]
      exact (((((((optField_edited nT h hc.test hd.test).append_right _).append_right _).append_right _).append_right _).append_right
        _).append_right _)
    · rw [s1 (by decide), s3 (by decide), s4 (by decide), s5 (by decide), s6 (by decide), s7]
      exact (((((((optField_edited nD h hc.interval hd.interval).append_left _).append_right _).append_right _).append_right
        _).append_right _).append_right _)
    · rw [s1 (by decide), s2 (by decide), s4 (by decide), s5 (by decide), s6 (by decide), s7]
      exact ((((((optField_edited nD h hc.timeout hd.timeout).append_left _).append_right _).append_right _).append_right
        _).append_right _)
    · rw [s1 (by decide), s2 (by decide), s3 (by decide), s5 (by decide), s6 (by decide), s7]
      exact (((((optField_edited nU h hc.retries hd.retries).append_left _).append_right _).append_right _).append_right _)
    · rw [s1 (by decide), s2 (by decide), s3 (by decide), s4 (by decide), s6 (by decide), s7]
      exact ((((optField_edited nD h hc.startPeriod hd.startPeriod).append_left _).append_right _).append_right _)
    · rw [s1 (by decide), s2 (by decide), s3 (by decide), s4 (by decide), s5 (by decide), s7]
      exact (((optField_edited nD h hc.startInterval hd.startInterval).append_left _).append_right _)
  · have hne : ∀ n ∈ healthKeys, k ≠ n := fun n hn e => hk (e ▸ hn)
    rw [s1 (hne _ (by simp [healthKeys])), s2 (hne _ (by simp [healthKeys])), s3 (hne _ (by simp [healthKeys])),
      s4 (hne _ (by simp [healthKeys])), s5 (hne _ (by simp [healthKeys])), s6 (hne _ (by simp [healthKeys]))]
    refine DifferEntry.append_left ?_ _
    have := (h.filter (q := fun k => decide (k ∉ healthKeys)) (by simpa using hk)).differ
    rw [hc.extensions, hd.extensions]
    simpa using this

/-- A health check in which at most `disable` is given. -/
theorem no_settings {fs : List (Str × Content)} (hfs : ∀ e ∈ fs, e.1 = "disable".toList) {d : HealthCommand} (hd : CommandFields fs d) :
    Healthcheck.serialize (.command d) = .map [] := by
  have none : ∀ {α : Type} {n : Str} {R : Content → α → Prop} {o : Option α}, n ≠ "disable".toList → OptField fs n R o → o = none := by
    rintro α n R o hn (⟨_, h⟩ | ⟨v, x, h, _⟩)
    · exact h
    · have : v ∈ valuesOf n fs := h ▸ List.mem_singleton_self v
      obtain ⟨e, h1, _⟩ := List.mem_map.1 this
      obtain ⟨h1, h2⟩ := List.mem_filter.1 h1
      exact absurd ((of_decide_eq_true h2).symm.trans (hfs e h1)) hn
  have hext : d.extensions = [] := by
    rw [hd.extensions, List.filter_eq_nil_iff]
    intro e he h
    exact of_decide_eq_true h (hfs e he ▸ List.mem_cons_self ..)
  unfold Healthcheck.serialize
  dsimp only
  rw [none (by decide) hd.test, none (by decide) hd.interval, none (by decide) hd.timeout, none (by decide) hd.retries,
    none (by decide) hd.startPeriod, none (by decide) hd.startInterval, hext]
  rfl

/-- A health check that is disabled in one of two documents. -/
theorem disabled_edited {k : Str} {p : List Str} (hk : k ≠ "test".toList) {es fs : List (Str × Content)} (h : EditedEntry k p es fs)
    (he : es = [("disable".toList, .bool true)] ∨ es = [("test".toList, noTest)] ∨
        es = [("disable".toList, .bool false), ("test".toList, noTest)]) {d : HealthCommand} (hd : CommandFields fs d) :
    DifferAt (k :: p) (Healthcheck.serialize .disable) (Healthcheck.serialize (.command d)) := by
  have hno : given es "test".toList = [noTest] → False := by
    intro h1
    rw [h.given_same hk] at h1
    rcases hd.test with ⟨h2, _⟩ | ⟨v, x, h2, h3, _⟩
    · rw [show valuesOf _ _ = _ from h1] at h2; cases h2
    · rw [show valuesOf _ _ = _ from h1] at h2
      cases h2
      generalize hv : noTest = v at h3
      cases h3 <;> simp [noTest] at hv
  rcases he with rfl | rfl | rfl
  · by_cases hk' : k = "disable".toList
    · subst hk'
      have hfs : fs = [] ∨ ∃ w, fs = [("disable".toList, w)] := by
        generalize hes : [("disable".toList, Content.bool true)] = es at h
        cases h with
        | @value a b _ v w h1 h2 =>
          obtain ⟨rfl, rfl, _⟩ := singleton_split hes; exact .inr ⟨w, rfl⟩
        | @add a b w h1 =>
          rw [← hes] at h1; simp at h1
        | @remove a b v h1 =>
          obtain ⟨rfl, rfl, _⟩ := singleton_split hes; exact .inl rfl
      have hd' := no_settings (fun e he => by
        rcases hfs with rfl | ⟨w, rfl⟩
        · cases he
        · rw [List.mem_singleton.1 he]) hd
      rw [hd']
      have hp : p = [] := by
        cases p with
        | nil => rfl
        | cons k p =>
          rcases h.given with ⟨v, w, h1, h2, h3⟩ | ⟨h1, _⟩
          · obtain ⟨es, fs, rfl, rfl⟩ := edited_maps h3
            cases h1
          · cases h1
      subst hp
      exact .missingRight (.refl _) .here
    · exfalso
      have := hd.disable
      rw [show valuesOf _ _ = _ from (h.given_same hk').symm] at this
      rcases this with h | h <;> cases h
  · exact (hno rfl).elim
  · exact (hno rfl).elim

theorem healthcheck_local : LocalOn (fun p => p.head? ≠ some "test".toList) Codecs.healthcheck := by
  refine localOn_of fun k p vs ws x y hp hv hx hy => ?_
  obtain ⟨es, he, h⟩ := (Denotes.iff (c := Codecs.healthcheck) (m := Meaning.healthcheck) _ _).1 hx
  obtain ⟨fs, hf, g⟩ := (Denotes.iff (c := Codecs.healthcheck) (m := Meaning.healthcheck) _ _).1 hy
  rw [show Content.map vs = Derive.mapping es from he, show Content.map ws = Derive.mapping fs from hf] at hv
  have hm := edited_mapping hv
  have hk : k ≠ "test".toList := by simpa using hp
  rcases h with ⟨rfl, h⟩ | ⟨c, rfl, h⟩ <;> rcases g with ⟨rfl, g⟩ | ⟨d, rfl, g⟩
  · exact .same
  · exact disabled_edited hk hm h g
  · exact (disabled_edited hk hm.symm g h).symm
  · exact command_edited hm h g

end Proofs
