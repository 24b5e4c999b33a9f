import Verif.Std.Path
import Mathlib.Tactic.Set
import Mathlib.Data.List.Basic
import Mathlib.Tactic.ByContra

/- Lemmas about paths. -/

namespace Rust

theorem split_append {c : Char} (a b : Str) : split c (a ++ c :: b) = split c a ++ split c b := by
  induction a with
  | nil => simp [split]
  | cons x xs ih =>
    rw [List.cons_append, split, split]
    split
    · rw [ih]; rfl
    · rw [ih]
      match h : split c xs with
      | [] => exact absurd h (split_ne_nil c xs)
      | p :: ps => simp

theorem joinWith_append (c : Char) (as bs : List Str) (ha : as ≠ []) (hb : bs ≠ []) :
    joinWith c (as ++ bs) = joinWith c as ++ c :: joinWith c bs := by
  match as with
  | [] => exact absurd rfl ha
  | [a] =>
    match bs with
    | [] => exact absurd rfl hb
    | b :: bs => simp [joinWith]
  | a :: a' :: as =>
    have := joinWith_append c (a' :: as) bs (by simp) hb
    simp only [List.cons_append] at this
    simp only [List.cons_append, joinWith, this, List.append_assoc]

namespace Path

/-- The components of a body. -/
def body (s : Str) : List Component := ((split '/' s).filter (fun piece => !skip piece)).map toComponent

theorem components_eq (p : Str) : components p =
    (if (front p).1 = ['/'] then [.rootDir] else if (front p).1 = ['.'] then [.curDir] else []) ++
      body (front p).2 := rfl

/-- The three shapes of a path. -/
theorem front_cases (p : Str) :
    (∃ b, p = '/' :: b ∧ front p = (['/'], b)) ∨
    (∃ b, p = '.' :: b ∧ (b = [] ∨ ∃ b', b = '/' :: b') ∧ front p = (['.'], b)) ∨
    (front p = ([], p) ∧ (∀ b, p ≠ '/' :: b) ∧ p ≠ ['.'] ∧ ∀ b, p ≠ '.' :: '/' :: b) := by
  unfold front
  split
  · exact Or.inl ⟨_, rfl, rfl⟩
  · exact Or.inr (Or.inl ⟨[], rfl, Or.inl rfl, rfl⟩)
  · exact Or.inr (Or.inl ⟨_, rfl, Or.inr ⟨_, rfl⟩, rfl⟩)
  · rename_i h1 h2 h3
    exact Or.inr (Or.inr ⟨rfl, h1, h2, h3⟩)

theorem front_other {p : Str} (h1 : ∀ b, p ≠ '/' :: b) (h2 : p ≠ ['.']) (h3 : ∀ b, p ≠ '.' :: '/' :: b) :
    front p = ([], p) := by
  unfold front
  split
  · exact absurd rfl (h1 _)
  · exact absurd rfl h2
  · exact absurd rfl (h3 _)
  · rfl

theorem front_root (b : Str) : front ('/' :: b) = (['/'], b) := rfl
theorem front_dot : front ['.'] = (['.'], []) := rfl
theorem front_dot_slash (b : Str) : front ('.' :: '/' :: b) = (['.'], '/' :: b) := rfl

theorem body_append (a b : Str) : body (a ++ '/' :: b) = body a ++ body b := by
  simp [body, split_append]

theorem body_joinWith (qs : List Str) (h : ∀ q ∈ qs, '/' ∉ q) :
    body (joinWith '/' qs) = (qs.filter (fun piece => !skip piece)).map toComponent := by
  cases qs with
  | nil => rfl
  | cons q qs => unfold body; rw [split_joinWith (by simp) h]

theorem filter_dropWhile_skip (ps : List Str) :
    (ps.dropWhile skip).filter (fun piece => !skip piece) = ps.filter (fun piece => !skip piece) := by
  induction ps with
  | nil => rfl
  | cons p ps ih =>
    by_cases h : skip p
    · simp [List.dropWhile_cons, h, ih]
    · simp [List.dropWhile_cons, h]

/-- Cutting pieces off the end of the body keeps the front. -/
theorem front_cut {p : Str} {qs rs : List Str} (h : split '/' (front p).2 = qs ++ rs) :
    front ((front p).1 ++ joinWith '/' qs) = ((front p).1, joinWith '/' qs) := by
  have hj : joinWith '/' (qs ++ rs) = (front p).2 := by rw [← h, joinWith_split]
  have hcut : joinWith '/' qs = [] ∨ (front p).2 = joinWith '/' qs ∨
      ∃ r, (front p).2 = joinWith '/' qs ++ '/' :: r := by
    by_cases hq : qs = []
    · exact Or.inl (by rw [hq]; rfl)
    · by_cases hr : rs = []
      · subst hr; rw [List.append_nil] at hj; exact Or.inr (Or.inl hj.symm)
      · rw [joinWith_append _ _ _ hq hr] at hj; exact Or.inr (Or.inr ⟨_, hj.symm⟩)
  rcases front_cases p with ⟨b, rfl, hf⟩ | ⟨b, rfl, hb, hf⟩ | ⟨hf, h1, h2, h3⟩
  · rw [hf]; rfl
  · rw [hf] at hcut ⊢
    simp only at hcut ⊢
    generalize joinWith '/' qs = j at *
    have : j = [] ∨ ∃ j', j = '/' :: j' := by
      cases j with
      | nil => exact Or.inl rfl
      | cons x xs =>
        right
        rcases hcut with hc | hc | ⟨r, hc⟩
        · cases hc
        · rcases hb with rfl | ⟨b', rfl⟩
          · cases hc
          · cases hc; exact ⟨_, rfl⟩
        · rcases hb with rfl | ⟨b', rfl⟩
          · cases hc
          · cases hc; exact ⟨_, rfl⟩
    rcases this with rfl | ⟨j', rfl⟩ <;> rfl
  · rw [hf] at hcut ⊢
    simp only [List.nil_append] at hcut ⊢
    rcases hcut with hc | hc | ⟨r, hc⟩
    · rw [hc]; rfl
    · rw [← hc]; exact hf
    · subst hc
      refine front_other ?_ ?_ ?_
      · intro b hb; rw [hb] at h1; exact h1 _ rfl
      · intro hb; rw [hb] at h3; exact h3 _ rfl
      · intro b hb; rw [hb] at h3; exact h3 _ rfl

/-- The head of the components tells the kind of path. -/
theorem rootDir_iff (p : Str) : (components p).head? = some .rootDir ↔ ∃ b, p = '/' :: b := by
  have hbody : ∀ s, (body s).head? ≠ some .rootDir := by
    intro s h
    have := List.mem_of_mem_head? h
    simp only [body, List.mem_map] at this
    obtain ⟨q, _, hq⟩ := this
    unfold toComponent at hq
    split at hq <;> cases hq
  rw [components_eq]
  rcases front_cases p with ⟨b, rfl, hf⟩ | ⟨b, rfl, hb, hf⟩ | ⟨hf, h1, h2, h3⟩
  · rw [hf]; simp
  · rw [hf]; simp
  · rw [hf]
    simp only [reduceCtorEq, if_false, List.nil_append]
    exact ⟨fun h => absurd h (hbody _), fun ⟨b, hb⟩ => absurd hb (h1 b)⟩

theorem curDir_iff (p : Str) : (components p).head? = some .curDir ↔ p = ['.'] ∨ ∃ b, p = '.' :: '/' :: b := by
  have hbody : ∀ s, (body s).head? ≠ some .curDir := by
    intro s h
    have := List.mem_of_mem_head? h
    simp only [body, List.mem_map] at this
    obtain ⟨q, _, hq⟩ := this
    unfold toComponent at hq
    split at hq <;> cases hq
  rw [components_eq]
  rcases front_cases p with ⟨b, rfl, hf⟩ | ⟨b, rfl, hb, hf⟩ | ⟨hf, h1, h2, h3⟩
  · rw [hf]; simp
  · rw [hf]
    simp only [List.cons.injEq, Char.reduceEq, and_true, if_false, if_true, List.cons_append, List.head?_cons,
      true_and, true_iff]
    exact hb
  · rw [hf]
    simp only [reduceCtorEq, if_false, List.nil_append]
    exact ⟨fun h => absurd h (hbody _), fun hb => hb.elim (absurd · h2) fun ⟨b, hb⟩ => absurd hb (h3 b)⟩

theorem parentDir_iff (p : Str) :
    (components p).head? = some .parentDir ↔ p = ['.', '.'] ∨ ∃ b, p = '.' :: '.' :: '/' :: b := by
  rw [components_eq]
  rcases front_cases p with ⟨b, rfl, hf⟩ | ⟨b, rfl, hb, hf⟩ | ⟨hf, h1, h2, h3⟩
  · rw [hf]; simp
  · rw [hf]
    rcases hb with rfl | ⟨b', rfl⟩ <;> simp
  · rw [hf]
    simp only [reduceCtorEq, if_false, List.nil_append]
    -- the first piece is the first component
    match hso : splitOnce '/' p with
    | none =>
      have hno := splitOnce_eq_none.1 hso
      have hsp := split_of_not_mem hno
      unfold body
      rw [hsp]
      by_cases hp : p = []
      · subst hp; simp [skip]
      · have : skip p = false := by simp [skip, hp, h2]
        simp only [List.filter_cons, this, Bool.not_false, if_true, List.filter_nil, List.map_cons, List.map_nil,
          List.head?_cons, Option.some.injEq, toComponent]
        constructor
        · intro h; split at h
          · rename_i h'; exact Or.inl h'
          · cases h
        · rintro (rfl | ⟨b, rfl⟩)
          · rfl
          · simp at hno
    | some (a, r) =>
      obtain ⟨rfl, ha⟩ := splitOnce_eq_some.1 hso
      have hane : a ≠ [] := by rintro rfl; exact h1 _ rfl
      have hadot : a ≠ ['.'] := by rintro rfl; exact h3 _ rfl
      have : skip a = false := by simp [skip, hane, hadot]
      unfold body
      rw [split_append_sep ha]
      simp only [List.filter_cons, this, Bool.not_false, if_true, List.map_cons, List.head?_cons,
        Option.some.injEq, toComponent]
      constructor
      · intro h; split at h
        · rename_i h'; exact Or.inr ⟨r, by rw [h']; rfl⟩
        · cases h
      · rintro (h | ⟨b, h⟩)
        · exfalso
          have : '/' ∈ (['.', '.'] : Str) := by rw [← h]; simp
          simp at this
        · have h4 : a ++ '/' :: r = ['.', '.'] ++ '/' :: b := h
          have := (splitOnce_eq_some (c := '/')).2 ⟨h4, by decide⟩
          rw [splitOnce_eq_some.2 ⟨rfl, ha⟩] at this
          cases this; rfl

/-- Taking the parent removes the last component. -/
theorem components_parent {p q : Str} (h : parent p = some q) :
    components q = (components p).dropLast ∧ components p ≠ [] := by
  unfold parent at h
  split at h
  · rename_i x rest hd
    cases h
    have hx : skip x = false := by
      have := List.head?_dropWhile_not skip (split '/' (front p).2).reverse
      rw [hd] at this; simpa using this
    set qs := (rest.dropWhile skip).reverse with hqs
    obtain ⟨pre, hpre⟩ : ∃ pre, (split '/' (front p).2).reverse = pre ++ (x :: rest) := by
      rw [← hd]; exact ⟨_, List.takeWhile_append_dropWhile.symm⟩
    obtain ⟨pre2, hpre2⟩ : ∃ pre2, rest = pre2 ++ rest.dropWhile skip :=
      ⟨_, List.takeWhile_append_dropWhile.symm⟩
    have hsp : split '/' (front p).2 = qs ++ (pre2.reverse ++ [x] ++ pre.reverse) := by
      have := congrArg List.reverse hpre
      rw [List.reverse_reverse] at this
      rw [this, hqs]
      conv_lhs => rw [hpre2]
      simp
    have hfront := front_cut hsp
    have hb : body (front p).2 = body (joinWith '/' qs) ++ [toComponent x] := by
      have h1 : body (front p).2 =
          (((split '/' (front p).2).reverse.dropWhile skip).reverse.filter (fun piece => !skip piece)).map
            toComponent := by
        unfold body
        rw [List.filter_reverse, filter_dropWhile_skip, ← List.filter_reverse, List.reverse_reverse]
      rw [h1, hd, body_joinWith qs ?_, hqs]
      · simp [List.filter_reverse, hx, filter_dropWhile_skip]
      · intro q hq
        exact not_mem_of_mem_split (s := (front p).2) (by rw [hsp]; simp [hq])
    rw [components_eq, components_eq, hfront]
    simp only [hb, ← List.append_assoc, List.dropLast_concat, true_and]
    simp
  · rename_i hd
    split at h
    · rename_i hdot
      cases h
      have hb : body (front p).2 = [] := by
        unfold body
        have := filter_dropWhile_skip (split '/' (front p).2).reverse
        rw [hd, List.filter_reverse] at this
        simp only [List.filter_nil] at this
        rw [← List.reverse_reverse (List.filter _ _), ← this]; rfl
      rw [components_eq p, hb, hdot]
      refine ⟨?_, by simp⟩
      rfl
    · cases h

/-- Without parent, there is at most one component. -/
theorem components_of_no_parent {p : Str} (h : parent p = none) :
    components p = [] ∨ components p = [.rootDir] := by
  unfold parent at h
  split at h
  · cases h
  · rename_i hd
    split at h
    · cases h
    · rename_i hdot
      have hb : body (front p).2 = [] := by
        unfold body
        have := filter_dropWhile_skip (split '/' (front p).2).reverse
        rw [hd, List.filter_reverse] at this
        simp only [List.filter_nil] at this
        rw [← List.reverse_reverse (List.filter _ _), ← this]; rfl
      rw [components_eq p, hb, if_neg hdot]
      split <;> simp

theorem components_eq_nil {p : Str} (h : components p = []) : p = [] := by
  rw [components_eq] at h
  rcases front_cases p with ⟨b, rfl, hf⟩ | ⟨b, rfl, hb, hf⟩ | ⟨hf, h1, h2, h3⟩
  · rw [hf] at h; simp at h
  · rw [hf] at h; simp at h
  · rw [hf] at h
    simp only [reduceCtorEq, if_false, List.nil_append] at h
    unfold body at h
    simp only [List.map_eq_nil_iff] at h
    match hso : splitOnce '/' p with
    | none =>
      rw [split_of_not_mem (splitOnce_eq_none.1 hso)] at h
      by_contra hp
      have : skip p = false := by simp [skip, hp, h2]
      simp [this] at h
    | some (a, r) =>
      obtain ⟨rfl, ha⟩ := splitOnce_eq_some.1 hso
      have hane : a ≠ [] := by rintro rfl; exact h1 _ rfl
      have hadot : a ≠ ['.'] := by rintro rfl; exact h3 _ rfl
      have : skip a = false := by simp [skip, hane, hadot]
      rw [split_append_sep ha] at h
      simp [this] at h

/-- Pushing a relative path appends its components, without a leading `.`. -/
theorem components_push {p q : Str} (hp : p ≠ []) (hq : ∀ b, q ≠ '/' :: b) :
    components (push p q) = components p ++ (components q).filter (· ≠ .curDir) := by
  have hnb : ∀ s, (body s).filter (· ≠ .curDir) = body s := by
    intro s
    rw [List.filter_eq_self]
    intro c hc
    simp only [body, List.mem_map] at hc
    obtain ⟨x, _, rfl⟩ := hc
    unfold toComponent
    split <;> simp
  have hqb : (components q).filter (· ≠ .curDir) = body q := by
    rw [components_eq]
    rcases front_cases q with ⟨b, rfl, hf⟩ | ⟨b, rfl, hb, hf⟩ | ⟨hf, h1, h2, h3⟩
    · exact absurd rfl (hq b)
    · rw [hf]
      simp only [List.cons.injEq, Char.reduceEq, and_true, if_false, if_true, List.filter_append, hnb]
      rcases hb with rfl | ⟨b', rfl⟩
      · rfl
      · have := body_append ['.'] b'
        rw [List.cons_append, List.nil_append] at this
        rw [this]
        have := body_append [] b'
        rw [List.nil_append] at this
        rw [this]; rfl
    · rw [hf]
      simp only [reduceCtorEq, if_false, List.nil_append, hnb]
  rw [hqb]
  have habs : isAbsolute q = false := by
    unfold isAbsolute
    cases q with
    | nil => rfl
    | cons x xs => simp; rintro rfl; exact hq xs rfl
  -- appending `/` and text to a path keeps the front
  have key : ∀ p r : Str, p ≠ [] → components (p ++ '/' :: r) = components p ++ body r := by
    intro p r hp
    rw [components_eq, components_eq]
    rcases front_cases p with ⟨b, rfl, hf⟩ | ⟨b, rfl, hb, hf⟩ | ⟨hf, h1, h2, h3⟩
    · rw [hf, List.cons_append, front_root]; simp [body_append]
    · rcases hb with rfl | ⟨b', rfl⟩
      · rw [hf]
        simp only [List.cons_append, List.nil_append, front_dot_slash]
        have := body_append [] r
        rw [List.nil_append] at this
        simp [this]
      · rw [hf]
        simp only [List.cons_append, front_dot_slash]
        have := body_append ('/' :: b') r
        rw [List.cons_append] at this
        simp [this]
    · have : front (p ++ '/' :: r) = ([], p ++ '/' :: r) := by
        refine front_other ?_ ?_ ?_
        · intro b hb
          cases p with
          | nil => exact hp rfl
          | cons x xs => cases hb; exact h1 _ rfl
        · intro hb
          have := congrArg List.length hb
          cases p with
          | nil => exact hp rfl
          | cons x xs => simp at this
        · intro b hb
          match p with
          | [] => exact hp rfl
          | [x] => cases hb; exact h2 rfl
          | x :: y :: xs => cases hb; exact h3 _ rfl
      rw [hf, this]
      simp [body_append]
  unfold push
  rw [habs]
  simp only [Bool.false_eq_true, if_false]
  split
  · exact key p q hp
  · rename_i h
    simp only [ne_eq, hp, not_false_iff, true_and, Decidable.not_not] at h
    -- `p` ends with a separator
    obtain ⟨p', rfl⟩ : ∃ p', p = p' ++ ['/'] := by
      refine ⟨p.dropLast, ?_⟩
      exact (List.dropLast_append_getLast? '/' h).symm
    rw [List.append_assoc, List.singleton_append]
    by_cases hp' : p' = []
    · subst hp'
      rw [List.nil_append, List.nil_append, components_eq, components_eq, front_root, front_root]
      simp; rfl
    · rw [key _ _ hp', show p' ++ ['/'] = p' ++ '/' :: [] from rfl, key _ _ hp']
      simp; rfl

end Path

end Rust
