import Verif.Spec.Compared
import Verif.Proofs.Equality
import Verif.Proofs.Codecs
import Verif.Props.Structs

/- C78: equality, hashes and sets. -/

namespace Props
open Rust Compose Compose.Derive Spec

namespace Equality

variable {E : Env} {S : Type} {H : Hashers E S}

theorem hash_option {α : Type} {f : α → S → S} {same : α → α → Prop} (h : ∀ x y, same x y → f x = f y) {a b : Option α}
    (hab : Option.Rel same a b) : H.option f a = H.option f b := by
  funext s
  rcases hab with hab | _
  · simp only [Hashers.option, h _ _ hab]
  · rfl

theorem hash_extensions (h : PartsHash H) {a b : List (Str × Content)} (hab : EqualExtensions E a b) :
    H.extensions a = H.extensions b := by
  funext s
  unfold Hashers.extensions
  rw [hab.length_eq]
  generalize H.number b.length s = s
  induction hab generalizing s with
  | nil => rfl
  | cons he _ ih => rw [List.foldl_cons, List.foldl_cons, he.1, h.value _ _ he.2, ih]

theorem hash_sshAuth (h : PartsHash H) (a b : SshAuth) (hab : EqualSshAuth a b) : H.sshAuth a = H.sshAuth b := by
  funext s
  rcases hab with _ | ⟨h1, h2⟩
  · rfl
  · simp only [Hashers.sshAuth, h1, h.path _ _ h2]

theorem hash_device (h : PartsHash H) (a b : Device) (hab : EqualDevice a b) : H.device a = H.device b := by
  funext s
  simp only [Hashers.device, h.path _ _ hab.host, h.path _ _ hab.container, hab.permissions]

theorem hash_shortVolume (h : PartsHash H) (a b : ShortVolume) (hab : EqualShortVolume a b) :
    H.shortVolume a = H.shortVolume b := by
  funext s
  simp only [Hashers.shortVolume, h.path _ _ hab.container]
  refine congrFun (hash_option (f := H.shortOptions) ?_ hab.options) _
  rintro o p ⟨h1, h2, h3⟩
  funext s
  simp only [Hashers.shortOptions, h2, h3]
  have : H.source o.source = H.source p.source := by
    funext s
    revert h1
    generalize o.source = x
    generalize p.source = y
    intro h1
    rcases h1 with h1 | _
    · simp only [Hashers.source, h.path _ _ h1]
    · rfl
  rw [this]

theorem hash_port (h : PartsHash H) (a b : Record (Structs.port E)) (hab : EqualPort E a b) : H.port a = H.port b := by
  funext s
  rcases hab with ⟨hx⟩
  simp only [Hashers.port, hash_extensions h hx]

theorem hash_common (h : PartsHash H) (a b : Record Structs.common) (hab : EqualCommon E a b) : H.common a = H.common b := by
  funext s
  rcases hab with ⟨hp, hx⟩
  simp only [Hashers.common, hash_extensions h hx, h.path _ _ hp]

theorem hash_volumeOptions (h : PartsHash H) (a b : Record Structs.volumeOptions) (hab : EqualVolumeOptions E a b) :
    H.volumeOptions a = H.volumeOptions b := by
  funext s
  rcases hab with ⟨hp, hx⟩
  simp only [Hashers.volumeOptions, hash_extensions h hx, hash_option h.path hp]

theorem hash_bindOptions (h : PartsHash H) (a b : Record Structs.bindOptions) (hab : EqualBindOptions E a b) :
    H.bindOptions a = H.bindOptions b := by
  funext s
  rcases hab with ⟨hx⟩
  simp only [Hashers.bindOptions, hash_extensions h hx]

theorem hash_tmpfsOptions (h : PartsHash H) (a b : Record Structs.tmpfsOptions) (hab : EqualTmpfsOptions E a b) :
    H.tmpfsOptions a = H.tmpfsOptions b := by
  funext s
  rcases hab with ⟨hx⟩
  simp only [Hashers.tmpfsOptions, hash_extensions h hx]

theorem hash_mount (h : PartsHash H) (a b : Structs.MountOf) (hab : EqualMount E a b) : H.mount a = H.mount b := by
  funext s
  cases hab with
  | volume h1 h2 => simp only [Hashers.mount, hash_option (hash_volumeOptions h) h1, hash_common h _ _ h2]
  | bind h0 h1 h2 => simp only [Hashers.mount, h.path _ _ h0, hash_option (hash_bindOptions h) h1, hash_common h _ _ h2]
  | tmpfs h1 h2 => simp only [Hashers.mount, hash_option (hash_tmpfsOptions h) h1, hash_common h _ _ h2]
  | namedPipe h0 h2 => simp only [Hashers.mount, h.path _ _ h0, hash_common h _ _ h2]
  | cluster h2 => simp only [Hashers.mount, hash_common h _ _ h2]

theorem hash_form {A B : Type} {f : A → S → S} {g : B → S → S} {P : A → A → Prop} {Q : B → B → Prop}
    (h1 : ∀ x y, P x y → f x = f y) (h2 : ∀ x y, Q x y → g x = g y) (a b : ShortOrLong A B) (hab : EqualForm P Q a b) :
    H.shortOrLong f g a = H.shortOrLong f g b := by
  funext s
  rcases hab with hab | hab
  · simp only [Hashers.shortOrLong, h1 _ _ hab]
  · simp only [Hashers.shortOrLong, h2 _ _ hab]

/-! ### Equivalence -/

theorem equiv_path : Equivalence EqualPath := ⟨fun _ => rfl, fun h => h.symm, fun h h' => h.trans h'⟩

theorem equiv_option {α : Type} {same : α → α → Prop} (h : Equivalence same) : Equivalence (Option.Rel same) where
  refl a := by
    cases a with
    | none => exact .none
    | some x => exact .some (h.refl x)
  symm {a b} hab := by
    rcases hab with hab | _
    · exact .some (h.symm hab)
    · exact .none
  trans {a b c} hab hbc := by
    rcases hab with hab | _
    · rcases hbc with hbc | _
      exact .some (h.trans hab hbc)
    · exact hbc

theorem equiv_sshAuth : Equivalence EqualSshAuth where
  refl a := by
    cases a with
    | default => exact .default
    | id i => exact .id rfl rfl
  symm {a b} h := by
    rcases h with _ | ⟨h1, h2⟩
    · exact .default
    · exact .id h1.symm (equiv_path.symm h2)
  trans {a b c} h h' := by
    rcases h with _ | ⟨h1, h2⟩
    · exact h'
    · rcases h' with _ | ⟨h3, h4⟩
      exact .id (h1.trans h3) (equiv_path.trans h2 h4)

theorem equiv_device : Equivalence EqualDevice where
  refl a := ⟨rfl, rfl, rfl⟩
  symm h := ⟨h.1.symm, h.2.symm, h.3.symm⟩
  trans h h' := ⟨h.1.trans h'.1, h.2.trans h'.2, h.3.trans h'.3⟩

theorem equiv_source : Equivalence EqualSource where
  refl a := by
    cases a with
    | hostPath p => exact .hostPath rfl
    | volume n => exact .volume
  symm {a b} h := by
    rcases h with h | _
    · exact .hostPath (equiv_path.symm h)
    · exact .volume
  trans {a b c} h h' := by
    rcases h with h | _
    · rcases h' with h' | _
      exact .hostPath (equiv_path.trans h h')
    · exact h'

theorem equiv_shortVolume : Equivalence EqualShortVolume := by
  have ho : Equivalence fun (o p : VolumeShortOptions) =>
      EqualSource o.source p.source ∧ o.readOnly = p.readOnly ∧ o.selinux = p.selinux :=
    ⟨fun o => ⟨equiv_source.refl _, rfl, rfl⟩, fun h => ⟨equiv_source.symm h.1, h.2.1.symm, h.2.2.symm⟩,
      fun h h' => ⟨equiv_source.trans h.1 h'.1, h.2.1.trans h'.2.1, h.2.2.trans h'.2.2⟩⟩
  have := equiv_option ho
  exact ⟨fun a => ⟨rfl, this.refl _⟩, fun h => ⟨h.1.symm, this.symm h.2⟩, fun h h' => ⟨h.1.trans h'.1, this.trans h.2 h'.2⟩⟩

theorem equiv_extensions (h : Equivalence fun v w => E.valueEq v w = true) : Equivalence (EqualExtensions E) where
  refl a := List.forall₂_same.2 fun e _ => ⟨rfl, h.refl e.2⟩
  symm {a b} hab := by
    refine List.Forall₂.flip (List.Forall₂.imp ?_ hab)
    exact fun e f he => ⟨he.1.symm, h.symm he.2⟩
  trans {a b c} hab hbc := by
    induction hab generalizing c with
    | nil => exact hbc
    | cons he _ ih =>
      cases hbc with
      | cons hf hbc => exact .cons ⟨he.1.trans hf.1, h.trans he.2 hf.2⟩ (ih hbc)

theorem equiv_port (h : Equivalence fun v w => E.valueEq v w = true) : Equivalence (EqualPort E) where
  refl a := by
    obtain ⟨n, t, p, i, r, l, m, x, ⟨⟩⟩ := a
    exact .fields ((equiv_extensions h).refl _)
  symm {a b} hab := by
    rcases hab with ⟨hab⟩
    exact .fields ((equiv_extensions h).symm hab)
  trans {a b c} hab hbc := by
    rcases hab with ⟨hab⟩
    rcases hbc with ⟨hbc⟩
    exact .fields ((equiv_extensions h).trans hab hbc)

theorem equiv_common (h : Equivalence fun v w => E.valueEq v w = true) : Equivalence (EqualCommon E) where
  refl a := by
    obtain ⟨n, t, p, x, ⟨⟩⟩ := a
    exact .fields rfl ((equiv_extensions h).refl _)
  symm {a b} hab := by
    rcases hab with ⟨hp, hab⟩
    exact .fields (equiv_path.symm hp) ((equiv_extensions h).symm hab)
  trans {a b c} hab hbc := by
    rcases hab with ⟨hp, hab⟩
    rcases hbc with ⟨hq, hbc⟩
    exact .fields (equiv_path.trans hp hq) ((equiv_extensions h).trans hab hbc)

theorem equiv_volumeOptions (h : Equivalence fun v w => E.valueEq v w = true) : Equivalence (EqualVolumeOptions E) where
  refl a := by
    obtain ⟨n, t, x, ⟨⟩⟩ := a
    exact .fields ((equiv_option equiv_path).refl _) ((equiv_extensions h).refl _)
  symm {a b} hab := by
    rcases hab with ⟨hp, hab⟩
    exact .fields ((equiv_option equiv_path).symm hp) ((equiv_extensions h).symm hab)
  trans {a b c} hab hbc := by
    rcases hab with ⟨hp, hab⟩
    rcases hbc with ⟨hq, hbc⟩
    exact .fields ((equiv_option equiv_path).trans hp hq) ((equiv_extensions h).trans hab hbc)

theorem equiv_bindOptions (h : Equivalence fun v w => E.valueEq v w = true) : Equivalence (EqualBindOptions E) where
  refl a := by
    obtain ⟨n, t, p, x, ⟨⟩⟩ := a
    exact .fields ((equiv_extensions h).refl _)
  symm {a b} hab := by
    rcases hab with ⟨hab⟩
    exact .fields ((equiv_extensions h).symm hab)
  trans {a b c} hab hbc := by
    rcases hab with ⟨hab⟩
    rcases hbc with ⟨hbc⟩
    exact .fields ((equiv_extensions h).trans hab hbc)

theorem equiv_tmpfsOptions (h : Equivalence fun v w => E.valueEq v w = true) : Equivalence (EqualTmpfsOptions E) where
  refl a := by
    obtain ⟨n, t, x, ⟨⟩⟩ := a
    exact .fields ((equiv_extensions h).refl _)
  symm {a b} hab := by
    rcases hab with ⟨hab⟩
    exact .fields ((equiv_extensions h).symm hab)
  trans {a b c} hab hbc := by
    rcases hab with ⟨hab⟩
    rcases hbc with ⟨hbc⟩
    exact .fields ((equiv_extensions h).trans hab hbc)

theorem equiv_mount (h : Equivalence fun v w => E.valueEq v w = true) : Equivalence (EqualMount E) where
  refl a := by
    cases a with
    | volume r =>
      obtain ⟨s, o, c, ⟨⟩⟩ := r
      exact .volume ((equiv_option (equiv_volumeOptions h)).refl o) ((equiv_common h).refl _)
    | bind r =>
      obtain ⟨s, o, c, ⟨⟩⟩ := r
      exact .bind rfl ((equiv_option (equiv_bindOptions h)).refl o) ((equiv_common h).refl _)
    | tmpfs r =>
      obtain ⟨o, c, ⟨⟩⟩ := r
      exact .tmpfs ((equiv_option (equiv_tmpfsOptions h)).refl o) ((equiv_common h).refl _)
    | namedPipe r =>
      obtain ⟨s, c, ⟨⟩⟩ := r
      exact .namedPipe rfl ((equiv_common h).refl _)
    | cluster r =>
      obtain ⟨s, c, ⟨⟩⟩ := r
      exact .cluster ((equiv_common h).refl _)
  symm {a b} hab := by
    cases hab with
    | volume h1 h2 => exact .volume ((equiv_option (equiv_volumeOptions h)).symm h1) ((equiv_common h).symm h2)
    | bind h0 h1 h2 =>
      exact .bind (equiv_path.symm h0) ((equiv_option (equiv_bindOptions h)).symm h1) ((equiv_common h).symm h2)
    | tmpfs h1 h2 => exact .tmpfs ((equiv_option (equiv_tmpfsOptions h)).symm h1) ((equiv_common h).symm h2)
    | namedPipe h0 h2 => exact .namedPipe (equiv_path.symm h0) ((equiv_common h).symm h2)
    | cluster h2 => exact .cluster ((equiv_common h).symm h2)
  trans {a b c} hab hbc := by
    cases hab with
    | volume h1 h2 =>
      cases hbc with
      | volume h3 h4 => exact .volume ((equiv_option (equiv_volumeOptions h)).trans h1 h3) ((equiv_common h).trans h2 h4)
    | bind h0 h1 h2 =>
      cases hbc with
      | bind h5 h3 h4 =>
        exact .bind (equiv_path.trans h0 h5) ((equiv_option (equiv_bindOptions h)).trans h1 h3) ((equiv_common h).trans h2 h4)
    | tmpfs h1 h2 =>
      cases hbc with
      | tmpfs h3 h4 => exact .tmpfs ((equiv_option (equiv_tmpfsOptions h)).trans h1 h3) ((equiv_common h).trans h2 h4)
    | namedPipe h0 h2 =>
      cases hbc with
      | namedPipe h5 h4 => exact .namedPipe (equiv_path.trans h0 h5) ((equiv_common h).trans h2 h4)
    | cluster h2 =>
      cases hbc with
      | cluster h4 => exact .cluster ((equiv_common h).trans h2 h4)

theorem equiv_form {A B : Type} {P : A → A → Prop} {Q : B → B → Prop} (hP : Equivalence P) (hQ : Equivalence Q) :
    Equivalence (EqualForm P Q) where
  refl a := by
    cases a with
    | short a => exact .short (hP.refl a)
    | long a => exact .long (hQ.refl a)
  symm {a b} h := by
    rcases h with h | h
    · exact .short (hP.symm h)
    · exact .long (hQ.symm h)
  trans {a b c} h h' := by
    rcases h with h | h
    · rcases h' with h' | _
      exact .short (hP.trans h h')
    · rcases h' with _ | h'
      exact .long (hQ.trans h h')

end Equality

variable {E : Env} {S : Type} (H : Hashers E S)

/-- **C78**: `==` holds exactly if all parts agree; paths agree if they have the same components, extensions if they have the
same keys in the same order with equal values. -/
theorem C78_equal (t : Compared S) (ht : t ∈ compared H) (a b : t.Ty) : t.eq a b = true ↔ t.same a b := by
  simp only [compared, List.mem_cons, List.not_mem_nil, or_false] at ht
  rcases ht with rfl | rfl | rfl | rfl | rfl | rfl | rfl | rfl | rfl | rfl | rfl | rfl
  · exact Equality.path a b
  · exact Equality.sshAuth a b
  · exact Equality.device a b
  · exact Equality.shortVolume a b
  · exact Equality.port E a b
  · exact Equality.common E a b
  · exact Equality.volumeOptions E a b
  · exact Equality.bindOptions E a b
  · exact Equality.tmpfsOptions E a b
  · exact Equality.mount E a b
  · exact EqIs.iff (e := Structs.portsEq E) a b
  · exact EqIs.iff (e := Structs.volumesEq E) a b

/-- **C78**: `==` is reflexive, symmetric and transitive, if that of the values of extensions is. -/
theorem C78_equivalence (hE : Equivalence fun v w => E.valueEq v w = true) (t : Compared S) (ht : t ∈ compared H) :
    Equivalence fun a b => t.eq a b = true := by
  have : (fun a b => t.eq a b = true) = t.same := by
    funext a b
    exact propext (C78_equal H t ht a b)
  rw [this]
  simp only [compared, List.mem_cons, List.not_mem_nil, or_false] at ht
  rcases ht with rfl | rfl | rfl | rfl | rfl | rfl | rfl | rfl | rfl | rfl | rfl | rfl
  · exact Equality.equiv_path
  · exact Equality.equiv_sshAuth
  · exact Equality.equiv_device
  · exact Equality.equiv_shortVolume
  · exact Equality.equiv_port hE
  · exact Equality.equiv_common hE
  · exact Equality.equiv_volumeOptions hE
  · exact Equality.equiv_bindOptions hE
  · exact Equality.equiv_tmpfsOptions hE
  · exact Equality.equiv_mount hE
  · exact Equality.equiv_form eq_equivalence (Equality.equiv_port hE)
  · exact Equality.equiv_form Equality.equiv_shortVolume (Equality.equiv_mount hE)

/-- **C78**: equal values have equal hashes, from every state of every hasher. -/
theorem C78_hash (hH : PartsHash H) (t : Compared S) (ht : t ∈ compared H) (a b : t.Ty) (hab : t.eq a b = true) (s : S) :
    t.hash a s = t.hash b s := by
  refine congrFun ?_ s
  have h := (C78_equal H t ht a b).1 hab
  clear hab
  simp only [compared, List.mem_cons, List.not_mem_nil, or_false] at ht
  rcases ht with rfl | rfl | rfl | rfl | rfl | rfl | rfl | rfl | rfl | rfl | rfl | rfl
  · exact hH.path a b h
  · exact Equality.hash_sshAuth hH a b h
  · exact Equality.hash_device hH a b h
  · exact Equality.hash_shortVolume hH a b h
  · exact Equality.hash_port hH a b h
  · exact Equality.hash_common hH a b h
  · exact Equality.hash_volumeOptions hH a b h
  · exact Equality.hash_bindOptions hH a b h
  · exact Equality.hash_tmpfsOptions hH a b h
  · exact Equality.hash_mount hH a b h
  · exact Equality.hash_form (fun _ _ h => by rw [h]) (Equality.hash_port hH) a b h
  · exact Equality.hash_form (Equality.hash_shortVolume hH) (Equality.hash_mount hH) a b h

/-- A hasher that counts what it is fed, with the number of components for a path. -/
def sampleHashers : Hashers sampleEnv Nat where
  tag n s := s + n
  text t s := s + t.length
  path p s := s + (Path.components p).length
  number n s := s + n
  bool b s := s + b.toNat
  value _ s := s
  ip _ s := s + 1
  range r s := s + r.start
  shortPort _ s := s
  protocol _ s := s + 1
  portMode _ s := s + 1
  permissions _ s := s + 1
  selinux _ s := s + 1
  propagation _ s := s + 1
  byteValue _ s := s + 1

/-- It meets the hypothesis. -/
example : PartsHash sampleHashers :=
  ⟨fun p q h => by funext s; simp only [sampleHashers, show Path.components p = Path.components q from h], fun _ _ _ => rfl⟩

/-- Two texts of one path have the same hash. -/
example : sampleHashers.path "/run//a/".toList 3 = sampleHashers.path "/run/a".toList 3 :=
  C78_hash sampleHashers
    ⟨fun p q h => by funext s; simp only [sampleHashers, show Path.components p = Path.components q from h], fun _ _ _ => rfl⟩
    ⟨Str, Path.eq, sampleHashers.path, EqualPath⟩ List.mem_cons_self _ _ (by decide) 3

/-- Two named pipes that are written differently and are equal. -/
example : Structs.mountEq sampleEnv
    (.namedPipe ("/run//a/".toList, ("/b/./c".toList, false, none, [("x-a".toList, .unit)], ()), ()))
    (.namedPipe ("/run/a".toList, ("/b/c".toList, false, none, [("x-a".toList, .unit)], ()), ())) = true := by decide +kernel

/-- Two that are not: the order of the extensions counts. -/
example : Structs.mountEq sampleEnv
    (.namedPipe ("/a".toList, ("/b".toList, false, none, [("x-a".toList, .unit), ("x-b".toList, .unit)], ()), ()))
    (.namedPipe ("/a".toList, ("/b".toList, false, none, [("x-b".toList, .unit), ("x-a".toList, .unit)], ()), ())) = false := by
  decide +kernel

/-- The hypothesis of `C78_equivalence` can be met. -/
example : Equivalence fun v w => ({ sampleEnv with valueEq := fun _ _ => true } : Env).valueEq v w = true :=
  ⟨fun _ => rfl, fun _ => rfl, fun _ _ => rfl⟩

/-! ### Sets -/

theorem foldl_sublist {α : Type} [RustEq α] (all acc : List α) : (all.foldl IndexSet.insertNew acc).Sublist (acc ++ all) := by
  induction all generalizing acc with
  | nil => simp
  | cons x all ih =>
    rw [List.foldl_cons]
    refine (ih _).trans ?_
    unfold IndexSet.insertNew
    split
    · exact List.Sublist.append_left (List.sublist_cons_self ..) _
    · simp

theorem foldl_covers {α : Type} [RustEq α] (hr : ∀ x : α, RustEq.eq x x = true) (all acc : List α) :
    (∀ y ∈ acc, y ∈ all.foldl IndexSet.insertNew acc) ∧
      ∀ x ∈ all, ∃ y ∈ all.foldl IndexSet.insertNew acc, RustEq.eq x y = true := by
  induction all generalizing acc with
  | nil => exact ⟨fun _ h => h, fun _ h => by cases h⟩
  | cons x all ih =>
    rw [List.foldl_cons]
    obtain ⟨h1, h2⟩ := ih (IndexSet.insertNew acc x)
    have hs : ∀ y ∈ acc, y ∈ IndexSet.insertNew acc x := by
      intro y hy
      unfold IndexSet.insertNew
      split
      · exact hy
      · exact List.mem_append_left _ hy
    refine ⟨fun y hy => h1 y (hs y hy), fun z hz => ?_⟩
    rcases List.mem_cons.1 hz with rfl | hz
    · by_cases hx : acc.any (RustEq.eq z) = true
      · obtain ⟨y, hy, he⟩ := List.any_eq_true.1 hx
        exact ⟨y, h1 y (hs y hy), he⟩
      · refine ⟨z, h1 z ?_, hr z⟩
        rw [IndexSet.insertNew, if_neg hx]
        simp
    · exact h2 z hz

/-- **C78** for reading sets: of the items of a sequence, some are left out and the order is kept; no item that is kept equals
one before it; and every item of the sequence equals one that is kept. -/
theorem C78_set {α : Type} [RustEq α] (hr : ∀ x : α, RustEq.eq x x = true) (c : Codec α) (v : Content) (l : List α)
    (h : (Codecs.set c).de v = .ok l) :
    ∃ vs all, v = .seq vs ∧ List.Forall₂ (fun v x => c.de v = .ok x) vs all ∧ l.Sublist all ∧
      l.Pairwise (fun x y => RustEq.eq y x = false) ∧ ∀ x ∈ all, ∃ y ∈ l, RustEq.eq x y = true := by
  cases v <;> simp only [Codecs.set, Outcome.map_eq_ok, reduceCtorEq] at h
  rename_i vs
  obtain ⟨all, h1, rfl⟩ := h
  refine ⟨vs, all, rfl, ?_, by simpa [IndexSet.collectNew] using foldl_sublist all [], IndexSet.fresh_collectNew all, (foldl_covers hr all []).2⟩
  clear hr
  induction vs generalizing all with
  | nil =>
    cases h1
    exact .nil
  | cons v vs ih =>
    simp only [Codecs.readAll, Outcome.bind_eq_ok, Outcome.map_eq_ok] at h1
    obtain ⟨x, h1, xs, h2, rfl⟩ := h1
    exact .cons h1 (ih xs h2)

/-- Two of three file systems are the same. -/
example : (@Codecs.set _ Path.rustEq Codecs.absolutePath).de
    (.seq [.str "/run".toList, .str "/tmp".toList, .str "/run/".toList]) = .ok ["/run".toList, "/tmp".toList] := by
  decide +kernel

/-- **C78** for an item or a list: equal exactly if both are the same item, or both are lists with the same items, in any
order. -/
theorem C78_item_or_list {T : Type} [DecidableEq T] (a b : ItemOrList T) (ha : ∀ l, a = .list l → l.Nodup)
    (hb : ∀ l, b = .list l → l.Nodup) :
    a.eq b = true ↔ a = b ∨ ∃ l m, a = .list l ∧ b = .list m ∧ ∀ x, x ∈ l ↔ x ∈ m := by
  cases a with
  | item x => cases b <;> simp [ItemOrList.eq]
  | list l =>
    cases b with
    | item y => simp [ItemOrList.eq]
    | list m =>
      have hl := ha l rfl
      have hm := hb m rfl
      simp only [ItemOrList.eq, Bool.and_eq_true, decide_eq_true_eq, List.all_eq_true, List.contains_iff_mem,
        ItemOrList.list.injEq]
      constructor
      · rintro ⟨h1, h2⟩
        refine .inr ⟨l, m, rfl, rfl, fun x => ⟨h2 x, fun hx => ?_⟩⟩
        exact ((List.subperm_of_subset hl h2).perm_of_length_le (by omega)).mem_iff.2 hx
      · rintro (rfl | ⟨_, _, rfl, rfl, h⟩)
        · exact ⟨rfl, fun _ h => h⟩
        · exact ⟨((List.perm_ext_iff_of_nodup hl hm).2 h).length_eq, fun x hx => (h x).1 hx⟩

/-- Two lists that are equal. -/
example : (ItemOrList.list [1, 2, 3]).eq (.list [3, 1, 2]) = true := rfl

end Props
