import Verif.Spec.Equality
import Verif.Spec.Meaning

/- The `==` of the items of sets is the sameness of `Verif.Spec.Equality`, and collecting a set keeps the first of the items
that are the same. -/

namespace Props
open Rust Compose Compose.Derive Spec

/-- `==` is a given relation. -/
class EqIs {α : Type} (e : RustEq α) (same : α → α → Prop) : Prop where
  iff : ∀ x y, RustEq.eq x y = true ↔ same x y

instance (priority := low) {α : Type} [DecidableEq α] : EqIs (RustEq.ofDecEq (T := α)) Eq := ⟨fun x y => by simp [RustEq.eq]⟩

namespace Equality

theorem of_dec {p : Prop} {i : Decidable p} (h : decide p = true) : p := of_decide_eq_true h

theorem path (p q : Str) : Path.eq p q = true ↔ EqualPath p q := by simp [Path.eq, EqualPath]

theorem sshAuth (a b : SshAuth) : SshAuth.eq a b = true ↔ EqualSshAuth a b := by
  constructor
  · intro h
    cases a <;> cases b <;> simp [SshAuth.eq] at h
    · exact .default
    · exact .id h.1 ((path ..).1 h.2)
  · rintro (_ | ⟨h1, h2⟩)
    · rfl
    · simp [SshAuth.eq, h1, (path ..).2 h2]

theorem device (a b : Device) : Device.eq a b = true ↔ EqualDevice a b := by
  simp only [Device.eq, Bool.and_eq_true, path, decide_eq_true_eq]
  exact ⟨fun ⟨⟨h1, h2⟩, h3⟩ => ⟨h1, h2, h3⟩, fun ⟨h1, h2, h3⟩ => ⟨⟨h1, h2⟩, h3⟩⟩

theorem source (a b : VolumeSource) : VolumeSource.eq a b = true ↔ EqualSource a b := by
  constructor
  · intro h
    cases a <;> cases b <;> simp [VolumeSource.eq] at h
    · exact .hostPath ((path ..).1 h)
    · subst h; exact .volume
  · rintro (h | _)
    · exact (path ..).2 h
    · simp [VolumeSource.eq]

theorem optionRel {α : Type} {eq : α → α → Bool} {same : α → α → Prop} (h : ∀ x y, eq x y = true ↔ same x y)
    (a b : Option α) : Structs.optionEq eq a b = true ↔ Option.Rel same a b := by
  constructor
  · intro h'
    cases a <;> cases b <;> simp [Structs.optionEq] at h'
    · exact .none
    · exact .some ((h ..).1 h')
  · rintro (h' | _)
    · exact (h ..).2 h'
    · rfl

theorem shortVolume (a b : ShortVolume) : ShortVolume.eq a b = true ↔ EqualShortVolume a b := by
  obtain ⟨p, o⟩ := a
  obtain ⟨q, o'⟩ := b
  simp only [ShortVolume.eq, Bool.and_eq_true, path]
  refine ⟨fun ⟨h1, h2⟩ => ⟨h1, ?_⟩, fun ⟨h1, h2⟩ => ⟨h1, ?_⟩⟩
  · cases o <;> cases o' <;> simp [VolumeShortOptions.eq, source] at h2
    · exact .none
    · exact .some ⟨h2.1.1, h2.1.2, h2.2⟩
  · rcases h2 with h2 | _
    · simp [VolumeShortOptions.eq, source, h2]
    · rfl

theorem extensions (E : Env) (a b : List (Str × Content)) : Structs.extensionsEq E a b = true ↔ EqualExtensions E a b := by
  unfold EqualExtensions
  induction a generalizing b with
  | nil => cases b <;> simp [Structs.extensionsEq]
  | cons e a ih =>
    obtain ⟨k, v⟩ := e
    cases b with
    | nil => simp [Structs.extensionsEq]
    | cons f b => obtain ⟨k', v'⟩ := f; simp [Structs.extensionsEq, ih]

theorem port (E : Env) (a b : Record (Structs.port E)) : Structs.portEq E a b = true ↔ EqualPort E a b := by
  obtain ⟨n, t, p, i, r, l, m, x, ⟨⟩⟩ := a
  obtain ⟨n', t', p', i', r', l', m', x', ⟨⟩⟩ := b
  constructor
  · intro h
    simp only [Structs.portEq, Bool.and_eq_true, extensions] at h
    obtain ⟨⟨⟨⟨⟨⟨⟨h1, h2⟩, h3⟩, h4⟩, h5⟩, h6⟩, h7⟩, h8⟩ := h
    obtain rfl := of_dec h1
    obtain rfl := of_dec h2
    obtain rfl := of_dec h3
    obtain rfl := of_dec h4
    obtain rfl := of_dec h5
    obtain rfl := of_dec h6
    obtain rfl := of_dec h7
    exact .fields ((extensions ..).1 h8)
  · rintro ⟨h⟩
    simp [Structs.portEq, (extensions ..).2 h]
    repeat' apply And.intro
    all_goals rfl

theorem common (E : Env) (a b : Record Structs.common) : Structs.commonEq E a b = true ↔ EqualCommon E a b := by
  obtain ⟨n, t, p, x, ⟨⟩⟩ := a
  obtain ⟨n', t', p', x', ⟨⟩⟩ := b
  constructor
  · intro h
    simp only [Structs.commonEq, Bool.and_eq_true, extensions, path] at h
    obtain ⟨⟨⟨h1, h2⟩, h3⟩, h4⟩ := h
    obtain rfl := of_dec h2
    obtain rfl := of_dec h3
    exact .fields ((path ..).1 h1) ((extensions ..).1 h4)
  · rintro ⟨h1, h⟩
    simp [Structs.commonEq, (extensions ..).2 h, (path ..).2 h1]
    repeat' apply And.intro
    all_goals rfl

theorem volumeOptions (E : Env) (a b : Record Structs.volumeOptions) :
    Structs.volumeOptionsEq E a b = true ↔ EqualVolumeOptions E a b := by
  obtain ⟨n, t, x, ⟨⟩⟩ := a
  obtain ⟨n', t', x', ⟨⟩⟩ := b
  constructor
  · intro h
    simp only [Structs.volumeOptionsEq, Bool.and_eq_true, extensions, optionRel path] at h
    obtain ⟨⟨h1, h2⟩, h4⟩ := h
    obtain rfl := of_dec h1
    exact .fields ((optionRel path ..).1 h2) ((extensions ..).1 h4)
  · rintro ⟨h1, h⟩
    simp [Structs.volumeOptionsEq, (extensions ..).2 h, (optionRel path ..).2 h1]
    repeat' apply And.intro
    all_goals rfl

theorem bindOptions (E : Env) (a b : Record Structs.bindOptions) :
    Structs.bindOptionsEq E a b = true ↔ EqualBindOptions E a b := by
  obtain ⟨n, t, s, x, ⟨⟩⟩ := a
  obtain ⟨n', t', s', x', ⟨⟩⟩ := b
  constructor
  · intro h
    simp only [Structs.bindOptionsEq, Bool.and_eq_true, extensions] at h
    obtain ⟨⟨⟨h1, h2⟩, h3⟩, h4⟩ := h
    obtain rfl := of_dec h1
    obtain rfl := of_dec h2
    obtain rfl := of_dec h3
    exact .fields ((extensions ..).1 h4)
  · rintro ⟨h⟩
    simp [Structs.bindOptionsEq, (extensions ..).2 h]
    repeat' apply And.intro
    all_goals rfl

theorem tmpfsOptions (E : Env) (a b : Record Structs.tmpfsOptions) :
    Structs.tmpfsOptionsEq E a b = true ↔ EqualTmpfsOptions E a b := by
  obtain ⟨n, t, x, ⟨⟩⟩ := a
  obtain ⟨n', t', x', ⟨⟩⟩ := b
  constructor
  · intro h
    simp only [Structs.tmpfsOptionsEq, Bool.and_eq_true, extensions] at h
    obtain ⟨⟨h1, h2⟩, h4⟩ := h
    obtain rfl := of_dec h1
    obtain rfl := of_dec h2
    exact .fields ((extensions ..).1 h4)
  · rintro ⟨h⟩
    simp [Structs.tmpfsOptionsEq, (extensions ..).2 h]
    repeat' apply And.intro
    all_goals rfl

theorem mount (E : Env) (a b : Structs.MountOf) : Structs.mountEq E a b = true ↔ EqualMount E a b := by
  constructor
  · intro h
    cases a <;> cases b <;> try (simp [Structs.mountEq] at h; done)
    · rename_i a b
      obtain ⟨s, o, c, ⟨⟩⟩ := a
      obtain ⟨s', o', c', ⟨⟩⟩ := b
      simp only [Structs.mountEq, Bool.and_eq_true, common] at h
      obtain rfl := of_dec h.1.1
      exact .volume ((optionRel (volumeOptions E) ..).1 h.1.2) ((common ..).1 h.2)
    · rename_i a b
      obtain ⟨s, o, c, ⟨⟩⟩ := a
      obtain ⟨s', o', c', ⟨⟩⟩ := b
      simp only [Structs.mountEq, Bool.and_eq_true, common, path] at h
      exact .bind ((path ..).1 h.1.1) ((optionRel (bindOptions E) ..).1 h.1.2) ((common ..).1 h.2)
    · rename_i a b
      obtain ⟨o, c, ⟨⟩⟩ := a
      obtain ⟨o', c', ⟨⟩⟩ := b
      simp only [Structs.mountEq, Bool.and_eq_true, common] at h
      exact .tmpfs ((optionRel (tmpfsOptions E) ..).1 h.1) ((common ..).1 h.2)
    · rename_i a b
      obtain ⟨s, c, ⟨⟩⟩ := a
      obtain ⟨s', c', ⟨⟩⟩ := b
      simp only [Structs.mountEq, Bool.and_eq_true, common, path] at h
      exact .namedPipe ((path ..).1 h.1) ((common ..).1 h.2)
    · rename_i a b
      obtain ⟨s, c, ⟨⟩⟩ := a
      obtain ⟨s', c', ⟨⟩⟩ := b
      simp only [Structs.mountEq, Bool.and_eq_true, common] at h
      obtain rfl := of_dec h.1
      exact .cluster ((common ..).1 h.2)
  · intro h
    cases h with
    | volume h1 h2 => simp [Structs.mountEq, (optionRel (volumeOptions E) ..).2 h1, (common ..).2 h2]; rfl
    | bind h0 h1 h2 => simp [Structs.mountEq, (path ..).2 h0, (optionRel (bindOptions E) ..).2 h1, (common ..).2 h2]
    | tmpfs h1 h2 => simp [Structs.mountEq, (optionRel (tmpfsOptions E) ..).2 h1, (common ..).2 h2]
    | namedPipe h0 h2 => simp [Structs.mountEq, (path ..).2 h0, (common ..).2 h2]
    | cluster h2 => simp [Structs.mountEq, (common ..).2 h2]; rfl

theorem form {S L : Type} {short : S → S → Bool} {long : L → L → Bool} {P : S → S → Prop} {Q : L → L → Prop}
    (h1 : ∀ x y, short x y = true ↔ P x y) (h2 : ∀ x y, long x y = true ↔ Q x y) (a b : ShortOrLong S L) :
    Structs.shortOrLongEq short long a b = true ↔ EqualForm P Q a b := by
  constructor
  · intro h
    cases a <;> cases b <;> simp only [Structs.shortOrLongEq, h1, h2, Bool.false_eq_true] at h
    · exact .short h
    · exact .long h
  · rintro (h | h)
    · exact (h1 ..).2 h
    · exact (h2 ..).2 h

end Equality

instance : EqIs Path.rustEq EqualPath := ⟨Equality.path⟩
instance : EqIs (inferInstance : RustEq SshAuth) EqualSshAuth := ⟨Equality.sshAuth⟩
instance : EqIs (inferInstance : RustEq Device) EqualDevice := ⟨Equality.device⟩
instance {E : Env} : EqIs (Structs.portsEq E) (EqualForm Eq (EqualPort E)) :=
  ⟨Equality.form (EqIs.iff (e := RustEq.ofDecEq)) (Equality.port E)⟩
instance {E : Env} : EqIs (Structs.volumesEq E) (EqualForm EqualShortVolume (EqualMount E)) :=
  ⟨Equality.form Equality.shortVolume (Equality.mount E)⟩

/-! ### Collecting -/

variable {α : Type}

theorem firstsBy_cons (same : α → α → Prop) [∀ x y, Decidable (same x y)] (x : α) (xs : List α) :
    Meaning.firstsBy same (x :: xs) = x :: Meaning.firstsBy same (xs.filter fun y => ¬ same y x) := by
  rw [Meaning.firstsBy]
  congr 2
  apply List.filter_congr
  intro y _
  simp

theorem foldl_insertNew (e : RustEq α) (same : α → α → Prop) [h : EqIs e same] (l : List α) : ∀ acc : List α,
    l.foldl IndexSet.insertNew acc =
      acc ++ Meaning.firstsBy same (l.filter fun y => !acc.any (RustEq.eq y)) := by
  classical
  induction l with
  | nil => intro acc; simp [Meaning.firstsBy]
  | cons x l ih =>
    intro acc
    rw [List.foldl_cons, ih, IndexSet.insertNew]
    by_cases hx : acc.any (RustEq.eq x) = true
    · rw [if_pos hx, List.filter_cons_of_neg (by simp [hx])]
    · rw [if_neg hx, List.filter_cons_of_pos (by simpa using hx), firstsBy_cons, List.append_assoc, List.singleton_append,
        List.filter_filter]
      congr 3
      apply List.filter_congr
      intro y _
      have := h.iff y x
      by_cases hyx : same y x
      · simp [hyx, this.2 hyx]
      · have : RustEq.eq y x = false := by simpa using fun h' => hyx (this.1 h')
        simp [hyx, this]

theorem collectNew_eq (e : RustEq α) (same : α → α → Prop) [h : EqIs e same] (l : List α) :
    IndexSet.collectNew l = Meaning.firstsBy same l := by
  rw [IndexSet.collectNew, foldl_insertNew e same]
  simp

end Props
