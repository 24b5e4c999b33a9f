/-
Model of the `str` methods of the Rust standard library that the code calls.

A Rust string is a list of characters.  These definitions are part of the trusted base (they follow the
documentation of `core::str`); each is pinned down below by a theorem that characterises it completely.
-/

namespace Rust

deriving instance DecidableEq for Except

/-- A Rust `String` / `&str`. -/
abbrev Str := List Char

/-- `str!"abc"` is the list of characters `['a', 'b', 'c']`. -/
macro:max "str!" s:str : term => do
  let cs ← (s.getString.toList.mapM fun c => `($(Lean.Syntax.mkCharLit c)))
  `(([$(cs.toArray),*] : List Char))

/-- `str::split_once(c)`: split at the first occurrence of the character `c`. -/
def splitOnce (c : Char) : Str → Option (Str × Str)
  | [] => none
  | x :: xs =>
    if x = c then some ([], xs)
    else match splitOnce c xs with
      | some (a, b) => some (x :: a, b)
      | none => none

/-- `str::rsplit_once(c)`: split at the last occurrence of the character `c`. -/
def rsplitOnce (c : Char) : Str → Option (Str × Str)
  | [] => none
  | x :: xs =>
    match rsplitOnce c xs with
    | some (a, b) => some (x :: a, b)
    | none => if x = c then some ([], xs) else none

/-- `str::split(c)`: the pieces between occurrences of `c` (always at least one piece). -/
def split (c : Char) : Str → List Str
  | [] => [[]]
  | x :: xs =>
    if x = c then [] :: split c xs
    else match split c xs with
      | [] => [[x]]
      | p :: ps => (x :: p) :: ps

/-- `str::split_terminator(c)`: as `split`, dropping the last piece when it is empty. -/
def splitTerminator (c : Char) (s : Str) : List Str :=
  let parts := split c s
  if parts.getLast? = some [] then parts.dropLast else parts

/-- `str::splitn(2, c)` then `next`, `next`. -/
def splitn2 (c : Char) (s : Str) : Str × Option Str :=
  match splitOnce c s with
  | some (a, b) => (a, some b)
  | none => (s, none)

/-- `str::splitn(3, c)` then `next`, `next`, `next`. -/
def splitn3 (c : Char) (s : Str) : Str × Option Str × Option Str :=
  match splitOnce c s with
  | some (a, b) =>
    match splitOnce c b with
    | some (x, y) => (a, some x, some y)
    | none => (a, some b, none)
  | none => (s, none, none)

/-- `str::strip_prefix(p)`. -/
def stripPrefix : Str → Str → Option Str
  | [], s => some s
  | _ :: _, [] => none
  | p :: ps, x :: xs => if p = x then stripPrefix ps xs else none

/-- `str::strip_suffix(p)`. -/
def stripSuffix (p s : Str) : Option Str :=
  (stripPrefix p.reverse s.reverse).map List.reverse

/-- Join pieces with a separator character. -/
def joinWith (c : Char) : List Str → Str
  | [] => []
  | [p] => p
  | p :: q :: ps => p ++ c :: joinWith c (q :: ps)

/-- `str::split_once` with a set of characters: split at the first character that is in the set. -/
def splitOnceAny (cs : List Char) : Str → Option (Str × Str)
  | [] => none
  | x :: xs =>
    if x ∈ cs then some ([], xs)
    else (splitOnceAny cs xs).map fun (a, b) => (x :: a, b)

/-- `char::is_ascii_digit`. -/
def isDigit (c : Char) : Bool := '0' ≤ c && c ≤ '9'
/-- `char::is_ascii_lowercase`. -/
def isLower (c : Char) : Bool := 'a' ≤ c && c ≤ 'z'
/-- `char::is_ascii_uppercase`. -/
def isUpper (c : Char) : Bool := 'A' ≤ c && c ≤ 'Z'
/-- `char::is_ascii_alphabetic`. -/
def isAlpha (c : Char) : Bool := isLower c || isUpper c
/-- `char::is_ascii_alphanumeric`. -/
def isAlnum (c : Char) : Bool := isAlpha c || isDigit c
/-- `char::to_ascii_lowercase`. -/
def toAsciiLower (c : Char) : Char := if isUpper c then Char.ofNat (c.toNat + 32) else c
/-- `str::eq_ignore_ascii_case`. -/
def eqIgnoreAsciiCase (a b : Str) : Bool := a.map toAsciiLower = b.map toAsciiLower

/-! ### Complete characterisations -/

theorem splitOnce_eq_some {c : Char} {s a b : Str} :
    splitOnce c s = some (a, b) ↔ s = a ++ c :: b ∧ c ∉ a := by
  induction s generalizing a b with
  | nil => simp [splitOnce]
  | cons x xs ih =>
    unfold splitOnce
    split
    · rename_i h; subst h
      constructor
      · intro h; simp at h; obtain ⟨rfl, rfl⟩ := h; simp
      · rintro ⟨h1, h2⟩
        cases a with
        | nil => simp at h1; simp [h1]
        | cons y ys => simp at h1 h2; exact absurd h1.1 h2.1
    · rename_i hx
      split
      · rename_i a' b' heq
        have := (ih (a := a') (b := b')).1 heq
        obtain ⟨h1, h2⟩ := this
        constructor
        · intro h; simp at h; obtain ⟨rfl, rfl⟩ := h
          simp [h1, h2]; exact fun h => hx h.symm
        · rintro ⟨h3, h4⟩
          cases a with
          | nil => simp at h3; exact absurd h3.1 hx
          | cons y ys =>
            simp at h3 h4
            have := (ih (a := ys) (b := b)).2 ⟨h3.2, h4.2⟩
            rw [heq] at this; simp at this; simp [h3.1, this]
      · rename_i heq
        constructor
        · intro h; cases h
        · rintro ⟨h3, h4⟩
          cases a with
          | nil => simp at h3; exact absurd h3.1 hx
          | cons y ys =>
            simp at h3 h4
            have := (ih (a := ys) (b := b)).2 ⟨h3.2, h4.2⟩
            rw [heq] at this; cases this

theorem splitOnce_eq_none {c : Char} {s : Str} : splitOnce c s = none ↔ c ∉ s := by
  induction s with
  | nil => simp [splitOnce]
  | cons x xs ih =>
    unfold splitOnce
    split
    · rename_i h; simp [h]
    · rename_i hx
      split
      · rename_i a b heq
        have := splitOnce_eq_some.1 heq
        simp [this.1]
      · rename_i heq
        have := ih.1 heq
        simp [this]; exact fun h => hx h.symm

theorem splitOnceAny_eq_some {cs : List Char} {s a b : Str} :
    splitOnceAny cs s = some (a, b) ↔ ∃ c ∈ cs, s = a ++ c :: b ∧ ∀ x ∈ a, x ∉ cs := by
  induction s generalizing a with
  | nil => simp [splitOnceAny]
  | cons x xs ih =>
    rw [splitOnceAny]
    by_cases hx : x ∈ cs
    · rw [if_pos hx]
      constructor
      · intro h
        simp only [Option.some.injEq, Prod.mk.injEq] at h
        obtain ⟨rfl, rfl⟩ := h
        exact ⟨x, hx, rfl, by simp⟩
      · rintro ⟨c, hc, h1, h2⟩
        cases a with
        | nil => simp at h1; simp [h1.2]
        | cons y a =>
          simp only [List.cons_append, List.cons.injEq] at h1
          exact absurd (h1.1 ▸ hx) (h2 y (by simp))
    · rw [if_neg hx]
      constructor
      · intro h
        cases hr : splitOnceAny cs xs with
        | none => rw [hr] at h; simp at h
        | some p =>
          obtain ⟨a', b'⟩ := p
          rw [hr] at h
          simp only [Option.map_some, Option.some.injEq, Prod.mk.injEq] at h
          obtain ⟨rfl, rfl⟩ := h
          obtain ⟨c, hc, h1, h2⟩ := ih.1 hr
          refine ⟨c, hc, by simp [h1], ?_⟩
          intro y hy
          rcases List.mem_cons.1 hy with rfl | hy
          · exact hx
          · exact h2 y hy
      · rintro ⟨c, hc, h1, h2⟩
        cases a with
        | nil => simp at h1; exact absurd (h1.1 ▸ hc) hx
        | cons y a =>
          simp only [List.cons_append, List.cons.injEq] at h1
          obtain ⟨rfl, h1⟩ := h1
          rw [ih.2 ⟨c, hc, h1, fun z hz => h2 z (by simp [hz])⟩]
          rfl

theorem splitOnceAny_eq_none {cs : List Char} {s : Str} : splitOnceAny cs s = none ↔ ∀ x ∈ s, x ∉ cs := by
  induction s with
  | nil => simp [splitOnceAny]
  | cons x xs ih =>
    rw [splitOnceAny]
    by_cases hx : x ∈ cs
    · simp [hx]
    · rw [if_neg hx, Option.map_eq_none_iff, ih]
      simp [hx]

theorem rsplitOnce_eq_none {c : Char} {s : Str} : rsplitOnce c s = none ↔ c ∉ s := by
  induction s with
  | nil => simp [rsplitOnce]
  | cons x xs ih =>
    unfold rsplitOnce
    split
    · rename_i a b heq
      simp only [reduceCtorEq, List.mem_cons, not_or, false_iff, not_and, Classical.not_not]
      intro _
      exact Classical.not_not.1 fun hn => by rw [ih.2 hn] at heq; cases heq
    · rename_i heq
      have := ih.1 heq
      split
      · rename_i h; simp [h]
      · rename_i h; simp [this]; exact fun h' => h h'.symm

theorem rsplitOnce_eq_some {c : Char} {s a b : Str} :
    rsplitOnce c s = some (a, b) ↔ s = a ++ c :: b ∧ c ∉ b := by
  induction s generalizing a b with
  | nil => simp [rsplitOnce]
  | cons x xs ih =>
    unfold rsplitOnce
    split
    · rename_i a' b' heq
      obtain ⟨h1, h2⟩ := (ih (a := a') (b := b')).1 heq
      constructor
      · intro h; simp at h; obtain ⟨rfl, rfl⟩ := h; simp [h1, h2]
      · rintro ⟨h3, h4⟩
        cases a with
        | nil =>
          simp at h3
          have : c ∈ b := by rw [← h3.2, h1]; simp
          exact absurd this h4
        | cons y ys =>
          simp at h3
          have := (ih (a := ys) (b := b)).2 ⟨h3.2, h4⟩
          rw [heq] at this; simp at this; simp [h3.1, this]
    · rename_i heq
      have hn := rsplitOnce_eq_none.1 heq
      split
      · rename_i hx; subst hx
        constructor
        · intro h; simp at h; obtain ⟨rfl, rfl⟩ := h; simp [hn]
        · rintro ⟨h3, h4⟩
          cases a with
          | nil => simp at h3; simp [h3]
          | cons y ys =>
            simp at h3
            exact absurd (by rw [h3.2]; simp) hn
      · rename_i hx
        constructor
        · intro h; cases h
        · rintro ⟨h3, h4⟩
          cases a with
          | nil => simp at h3; exact absurd h3.1 hx
          | cons y ys =>
            simp at h3
            exact absurd (by rw [h3.2]; simp) hn

theorem split_ne_nil (c : Char) (s : Str) : split c s ≠ [] := by
  cases s with
  | nil => simp [split]
  | cons x xs =>
    unfold split; split
    · simp
    · split <;> simp

theorem not_mem_of_mem_split {c : Char} {s p : Str} (h : p ∈ split c s) : c ∉ p := by
  induction s generalizing p with
  | nil => simp [split] at h; simp [h]
  | cons x xs ih =>
    unfold split at h
    split at h
    · simp at h; rcases h with rfl | h
      · simp
      · exact ih h
    · rename_i hx
      split at h
      · rename_i heq; exact absurd heq (split_ne_nil c xs)
      · rename_i q qs heq
        simp at h
        rcases h with rfl | h
        · have := ih (p := q) (by rw [heq]; simp)
          simp [this]; exact fun h => hx h.symm
        · exact ih (by rw [heq]; simp [h])

theorem joinWith_split (c : Char) (s : Str) : joinWith c (split c s) = s := by
  induction s with
  | nil => simp [split, joinWith]
  | cons x xs ih =>
    unfold split
    split
    · rename_i hx
      have := split_ne_nil c xs
      match h : split c xs with
      | [] => exact absurd h this
      | p :: ps => rw [h] at ih; simp [joinWith, ih, hx]
    · match h : split c xs with
      | [] => exact absurd h (split_ne_nil c xs)
      | [p] => rw [h] at ih; simp [joinWith] at ih ⊢; exact ih
      | p :: q :: ps => rw [h] at ih; simp [joinWith] at ih ⊢; exact ih

theorem mem_joinWith {c d : Char} {ps : List Str} (h : c ∈ joinWith d ps) : c = d ∨ ∃ p ∈ ps, c ∈ p := by
  induction ps with
  | nil => cases h
  | cons p ps ih =>
    cases ps with
    | nil => exact .inr ⟨p, by simp, by simpa [joinWith] using h⟩
    | cons q qs =>
      rw [joinWith] at h
      rcases List.mem_append.1 h with h | h
      · exact .inr ⟨p, by simp, h⟩
      · rcases List.mem_cons.1 h with h | h
        · exact .inl h
        · rcases ih h with h | ⟨r, hr, h⟩
          · exact .inl h
          · exact .inr ⟨r, List.mem_cons_of_mem _ hr, h⟩

theorem split_of_not_mem {c : Char} {s : Str} (h : c ∉ s) : split c s = [s] := by
  induction s with
  | nil => rfl
  | cons x xs ih =>
    simp at h
    unfold split
    rw [if_neg (fun e => h.1 e.symm), ih h.2]

theorem split_append_sep {c : Char} {a b : Str} (h : c ∉ a) :
    split c (a ++ c :: b) = a :: split c b := by
  induction a with
  | nil => simp [split]
  | cons x xs ih =>
    simp at h
    rw [List.cons_append]
    show split c (x :: (xs ++ c :: b)) = _
    rw [split, if_neg (fun e => h.1 e.symm), ih h.2]

theorem split_joinWith {c : Char} {ps : List Str} (hne : ps ≠ []) (h : ∀ p ∈ ps, c ∉ p) :
    split c (joinWith c ps) = ps := by
  match ps with
  | [] => exact absurd rfl hne
  | [p] => exact split_of_not_mem (h p (by simp))
  | p :: q :: ps =>
    rw [joinWith, split_append_sep (h p (by simp)),
      split_joinWith (by simp) (fun r hr => h r (List.mem_cons_of_mem _ hr))]

/-- The pieces of `split` are exactly the way to write a string as separated pieces. -/
theorem split_eq_iff {c : Char} {s : Str} {ps : List Str} :
    split c s = ps ↔ ps ≠ [] ∧ (∀ p ∈ ps, c ∉ p) ∧ joinWith c ps = s := by
  constructor
  · rintro rfl
    exact ⟨split_ne_nil c s, fun _ => not_mem_of_mem_split, joinWith_split c s⟩
  · rintro ⟨h1, h2, rfl⟩
    exact split_joinWith h1 h2

theorem stripPrefix_eq_some {p s r : Str} : stripPrefix p s = some r ↔ s = p ++ r := by
  induction p generalizing s with
  | nil => simp [stripPrefix]
  | cons x xs ih =>
    cases s with
    | nil => simp [stripPrefix]
    | cons y ys =>
      unfold stripPrefix
      split
      · rename_i h; simp [ih, h]
      · rename_i h; simp; exact fun e => absurd e.symm h

theorem stripPrefix_eq_none {p s : Str} : stripPrefix p s = none ↔ ¬ ∃ r, s = p ++ r := by
  constructor
  · rintro h ⟨r, hr⟩
    rw [stripPrefix_eq_some.2 hr] at h; cases h
  · intro h
    match h' : stripPrefix p s with
    | none => rfl
    | some r => exact absurd ⟨r, stripPrefix_eq_some.1 h'⟩ h

@[simp] theorem stripPrefix_append (p r : Str) : stripPrefix p (p ++ r) = some r :=
  stripPrefix_eq_some.2 rfl

theorem stripSuffix_eq_some {p s r : Str} : stripSuffix p s = some r ↔ s = r ++ p := by
  unfold stripSuffix
  rw [Option.map_eq_some_iff]
  constructor
  · rintro ⟨a, ha, rfl⟩
    have := stripPrefix_eq_some.1 ha
    have := congrArg List.reverse this
    simpa using this
  · rintro rfl
    exact ⟨r.reverse, stripPrefix_eq_some.2 (by simp), by simp⟩

theorem stripSuffix_eq_none {p s : Str} : stripSuffix p s = none ↔ ¬ ∃ r, s = r ++ p := by
  constructor
  · rintro h ⟨r, hr⟩
    rw [stripSuffix_eq_some.2 hr] at h; cases h
  · intro h
    match h' : stripSuffix p s with
    | none => rfl
    | some r => exact absurd ⟨r, stripSuffix_eq_some.1 h'⟩ h

end Rust
