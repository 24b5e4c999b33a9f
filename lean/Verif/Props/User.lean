import Verif.Spec.User
import Verif.Proofs.Number
import Verif.Props.Modes

/- C45: users and groups. -/

namespace Props
open Rust Compose Spec

theorem userName_not_mem {s : Str} (h : UserName s) {c : Char}
    (hc : ((isLower c || isUpper c || c == '_' || c == '-' || c == '$') || isDigit c) = false) : c ∉ s := by
  intro hm
  have := (userName_spec.1 h).2.1 c hm
  unfold userNameChar at this
  rw [← Bool.or_eq_true, hc] at this
  cases this

/-- C45: a text is never both an id and a name. -/
theorem C45_id_not_name (s : Str) (n : Nat) : ¬ (UInt u32Max s n ∧ UserName s) := by
  rintro ⟨⟨ds, hs, hn, -⟩, h⟩
  rcases hs with rfl | rfl
  · exact (userName_spec.1 h).2.2.2.2.2 (List.all_eq_true.2 (isNumber_iff.1 hn).2)
  · exact userName_not_mem (c := '+') h (by decide) (by simp)

example : ¬ UserName "1000".toList := fun h => C45_id_not_name _ 1000 ⟨⟨"1000".toList, .inl rfl, ⟨by decide, by decide⟩, rfl, by decide⟩, h⟩

/-- C45: a text is accepted exactly as an id if it is a 32 bit number, and as a name if it is a user name. -/
theorem C45_id_or_name_accepts (s : Str) (v : IdOrName) : IdOrName.parse s = .ok v ↔ IdOrNameText s v := by
  unfold IdOrName.parse
  match h : parseUnsigned u32Max s with
  | .ok n =>
    have hn := parseUnsigned_iff.1 h
    constructor
    · intro h; cases h; exact .id hn
    · intro h
      cases h with
      | id hm => rw [hn.inj hm]
      | name hm => exact absurd ⟨hn, hm⟩ (C45_id_not_name s n)
  | .error e =>
    simp only [map_ok, C05_user_name_accepts]
    constructor
    · rintro ⟨a, ⟨hu, rfl⟩, rfl⟩; exact .name hu
    · intro hv
      cases hv with
      | id hm => rw [parseUnsigned_iff.2 hm] at h; cases h
      | name hm => exact ⟨s, ⟨hm, rfl⟩, rfl⟩

example : IdOrNameText "docker".toList (.name "docker".toList) := (C45_id_or_name_accepts _ _).1 rfl

/-- C45: a text that is a number below 2^32 always parses as the id of that number, never as a name; and a number of
2^32 or more is rejected. -/
theorem C45_number_is_id (s : Str) (h : IsNumber s) :
    (decimal s < 2 ^ 32 → IdOrName.parse s = .ok (.id (decimal s))) ∧
    (2 ^ 32 ≤ decimal s → ∃ e, IdOrName.parse s = .error e) := by
  constructor
  · intro hl
    rw [C45_id_or_name_accepts]
    exact .id ⟨s, .inl rfl, h, rfl, by simp [u32Max]; omega⟩
  · intro hl
    match hp : IdOrName.parse s with
    | .error e => exact ⟨e, rfl⟩
    | .ok v =>
      rw [C45_id_or_name_accepts] at hp
      cases hp with
      | id hm =>
        obtain ⟨ds, rfl | hs, h1, h2, h3⟩ := hm
        · simp [u32Max] at h3; omega
        · subst hs
          have := (isNumber_iff.1 h).2 '+' (by simp)
          exact absurd this (by decide)
      | name hm => exact absurd (List.all_eq_true.2 (isNumber_iff.1 h).2) (userName_spec.1 hm).2.2.2.2.2

example : IdOrName.parse "0042".toList = .ok (.id 42) :=
  (C45_number_is_id "0042".toList ⟨by decide, by decide⟩).1 (by decide)
example : ∃ e, IdOrName.parse "4294967296".toList = .error e :=
  (C45_number_is_id "4294967296".toList ⟨by decide, by decide⟩).2 (by decide)

theorem idOrName_no_colon {s : Str} {v : IdOrName} (h : IdOrNameText s v) : ':' ∉ s := by
  cases h with
  | id h => intro hm; exact absurd (h.chars _ hm) (by decide)
  | name h => exact userName_not_mem h (by decide)

/-- C45: a text is a user exactly if it is `user` or `user:group`. -/
theorem C45_user_accepts (s : Str) (u : User) : User.parse s = .ok u ↔ UserText s u := by
  unfold User.parse
  constructor
  · intro h
    match hs : splitOnce ':' s with
    | some (a, b) =>
      simp only [hs] at h
      split at h
      · cases h
      rename_i x hx
      split at h
      · cases h
      rename_i y hy
      cases h
      obtain ⟨rfl, -⟩ := splitOnce_eq_some.1 hs
      have := UserText.group ((C45_id_or_name_accepts _ _).1 hx) ((C45_id_or_name_accepts _ _).1 hy)
      simpa using this
    | none =>
      simp only [hs] at h
      split at h
      · cases h
      rename_i x hx
      cases h
      exact .user ((C45_id_or_name_accepts _ _).1 hx)
  · intro h
    cases h with
    | user h =>
      simp only [splitOnce_eq_none.2 (idOrName_no_colon h), (C45_id_or_name_accepts _ _).2 h]
    | @group a b u g h1 h2 =>
      have hs : a ++ ":".toList ++ b = a ++ ':' :: b := by simp
      simp only [(splitOnce_eq_some (a := a) (b := b)).2 ⟨hs, idOrName_no_colon h1⟩,
        (C45_id_or_name_accepts _ _).2 h1, (C45_id_or_name_accepts _ _).2 h2]

example : UserText "1000:docker".toList ⟨.id 1000, some (.name "docker".toList)⟩ := (C45_user_accepts _ _).1 rfl

theorem idOrName_display {v : IdOrName} (h : IdOrNameOk v) : IdOrNameText v.display v := by
  cases v with
  | id n => exact .id (uint_showNat h)
  | name s => exact .name h

/-- C45: an id or name prints to text that parses back to it. -/
theorem C45_id_or_name_round_trip (v : IdOrName) (h : IdOrNameOk v) : IdOrName.parse v.display = .ok v :=
  (C45_id_or_name_accepts _ _).2 (idOrName_display h)

example : IdOrName.parse (IdOrName.id 1000).display = .ok (.id 1000) :=
  C45_id_or_name_round_trip _ (by simp [IdOrNameOk, u32Max])

/-- C45: a user prints to text that parses back to it. -/
theorem C45_user_round_trip (u : User) (h : IdOrNameOk u.user) (hg : ∀ g, u.group = some g → IdOrNameOk g) :
    User.parse u.display = .ok u := by
  rw [C45_user_accepts]
  obtain ⟨u, _ | g⟩ := u
  · have := UserText.user (idOrName_display h)
    simpa [User.display] using this
  · have := UserText.group (idOrName_display h) (idOrName_display (hg g rfl))
    simpa [User.display] using this

example : User.parse (User.display ⟨.id 1000, some (.id 7)⟩) = .ok ⟨.id 1000, some (.id 7)⟩ :=
  C45_user_round_trip _ (by simp [IdOrNameOk, u32Max]) fun g hg => by cases hg; simp [IdOrNameOk, u32Max]

/-- C45: an integer is accepted exactly if it has 32 unsigned bits, as that id. -/
theorem C45_integer (v : Int) (r : IdOrName) :
    IdOrName.visitInt v = some r ↔ ∃ n : Nat, v = n ∧ n < 2 ^ 32 ∧ r = .id n := by
  unfold IdOrName.visitInt
  have hm : u32Max = 4294967295 := rfl
  constructor
  · intro h
    split at h
    · rename_i hv; cases h
      exact ⟨v.toNat, by omega, by omega, rfl⟩
    · cases h
  · rintro ⟨n, rfl, hn, rfl⟩
    rw [if_pos (by omega)]; simp

example : User.parse "1000:docker".toList = .ok ⟨.id 1000, some (.name "docker".toList)⟩ := by rfl
example : User.parse "1000:".toList = .error .empty := by rfl
example : User.parse "4294967296".toList = .error .numeric := by rfl
example : User.parse "+5".toList = .ok ⟨.id 5, none⟩ := by rfl
example : IsNumber "4294967295".toList ∧ decimal "4294967295".toList < 2 ^ 32 := by
  refine ⟨⟨by simp, by decide⟩, by decide⟩
example : IdOrNameOk (.id 1000) ∧ IdOrNameOk (.name "docker".toList) :=
  ⟨by simp [IdOrNameOk, u32Max], ((C05_user_name_accepts "docker".toList "docker".toList).1 rfl).1⟩

end Props
