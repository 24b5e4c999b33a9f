import Verif.Spec.Regex
import Verif.Std.Int

/- Lemmas about the specification language and the character classes. -/

namespace Re
open Rust

theorem star_cls {l : List Char} {s : Str} : star (cls l) s ↔ ∀ c ∈ s, c ∈ l := by
  constructor
  · intro h
    induction h with
    | nil => simp
    | cons h1 _ ih =>
      obtain ⟨c, hc, rfl⟩ := h1
      intro x hx
      simp at hx
      rcases hx with rfl | hx
      · exact hc
      · exact ih x hx
  · intro h
    induction s with
    | nil => exact .nil
    | cons x xs ih =>
      exact star.cons (a := [x]) ⟨x, h x (by simp), rfl⟩ (ih fun c hc => h c (by simp [hc]))

theorem plus_cls {l : List Char} {s : Str} : plus (cls l) s ↔ s ≠ [] ∧ ∀ c ∈ s, c ∈ l := by
  unfold plus seq
  constructor
  · rintro ⟨a, b, ⟨c, hc, rfl⟩, hb, rfl⟩
    refine ⟨by simp, ?_⟩
    have := star_cls.1 hb
    intro x hx
    simp at hx
    rcases hx with rfl | hx
    · exact hc
    · exact this x hx
  · rintro ⟨h1, h2⟩
    cases s with
    | nil => exact absurd rfl h1
    | cons x xs =>
      exact ⟨[x], xs, ⟨x, h2 x (by simp), rfl⟩, star_cls.2 fun c hc => h2 c (by simp [hc]), rfl⟩

theorem seq_cls {l : List Char} {B : Lang} {s : Str} :
    seq (cls l) B s ↔ ∃ c cs, s = c :: cs ∧ c ∈ l ∧ B cs := by
  constructor
  · rintro ⟨a, b, ⟨c, hc, rfl⟩, hb, rfl⟩; exact ⟨c, b, rfl, hc, hb⟩
  · rintro ⟨c, cs, rfl, hc, hb⟩; exact ⟨[c], cs, ⟨c, hc, rfl⟩, hb, rfl⟩

theorem star_append {A : Lang} {s t : Str} (h1 : star A s) (h2 : star A t) : star A (s ++ t) := by
  induction h1 with
  | nil => exact h2
  | cons ha _ ih => rw [List.append_assoc]; exact .cons ha ih

theorem star_one {A : Lang} {s : Str} (h : A s) : star A s := by
  simpa using star.cons h .nil

theorem char_ext_toNat {a b : Char} (h : a.toNat = b.toNat) : a = b :=
  Char.toNat_inj.1 h

private theorem mem_range (l : List Char) (lo hi : Nat)
    (h1 : ∀ c ∈ l, lo ≤ c.toNat ∧ c.toNat ≤ hi)
    (h2 : ∀ n, n ≤ hi → lo ≤ n → ∃ c ∈ l, c.toNat = n) (c : Char) :
    c ∈ l ↔ lo ≤ c.toNat ∧ c.toNat ≤ hi := by
  constructor
  · exact h1 c
  · rintro ⟨h3, h4⟩
    obtain ⟨d, hd, he⟩ := h2 c.toNat h4 h3
    rwa [← char_ext_toNat he]

theorem isLower_iff {c : Char} : isLower c = true ↔ 97 ≤ c.toNat ∧ c.toNat ≤ 122 := by
  simp [isLower, Char.le_def, UInt32.le_iff_toNat_le]
theorem isUpper_iff {c : Char} : isUpper c = true ↔ 65 ≤ c.toNat ∧ c.toNat ≤ 90 := by
  simp [isUpper, Char.le_def, UInt32.le_iff_toNat_le]

theorem mem_lower {c : Char} : c ∈ lower ↔ isLower c = true := by
  rw [isLower_iff]
  exact mem_range _ _ _ (by decide) (by decide) c

theorem mem_upper {c : Char} : c ∈ upper ↔ isUpper c = true := by
  rw [isUpper_iff]
  exact mem_range _ _ _ (by decide) (by decide) c

theorem mem_digit {c : Char} : c ∈ digit ↔ isDigit c = true := by
  rw [isDigit_iff]
  exact mem_range _ _ _ (by decide) (by decide) c

theorem mem_alnum {c : Char} : c ∈ alnum ↔ isAlnum c = true := by
  simp [alnum, isAlnum, isAlpha, mem_lower, mem_upper, mem_digit, or_assoc]

theorem mem_lowerAlnum {c : Char} : c ∈ lowerAlnum ↔ (isLower c || isDigit c) = true := by
  simp [lowerAlnum, mem_lower, mem_digit]

end Re
