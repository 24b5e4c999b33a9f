import Verif.Std.Int
import Verif.Spec.Number
import Verif.Proofs.Regex
import Mathlib.Data.List.Induction

/- Decimal numbers: the model of integer parsing against its meaning. -/

namespace Compose
open Rust Spec

theorem mem_digits {c : Char} : c ∈ "0123456789".toList ↔ isDigit c = true := Re.mem_digit

theorem isNumber_iff {s : Str} : IsNumber s ↔ s ≠ [] ∧ ∀ c ∈ s, isDigit c = true := by
  unfold IsNumber
  simp only [mem_digits]

theorem decimal_eq {s : Str} : decimal s = digitsValue s := by
  unfold decimal digitsValue
  have : '0'.toNat = 48 := rfl
  simp only [this, Nat.mul_comm]

theorem parseUnsigned_iff {max n : Nat} {s : Str} : parseUnsigned max s = .ok n ↔ UInt max s n := by
  rw [parseUnsigned_eq_ok]
  unfold UInt
  simp only [isNumber_iff, decimal_eq, and_assoc]

theorem decimal_showNat (n : Nat) : decimal (showNat n) = n := by
  rw [decimal_eq, digitsValue_showNat]

theorem isNumber_showNat (n : Nat) : IsNumber (showNat n) :=
  isNumber_iff.2 ⟨showNat_ne_nil n, fun _ => isDigit_of_mem_showNat⟩

theorem uint_showNat {max n : Nat} (h : n ≤ max) : UInt max (showNat n) n :=
  ⟨showNat n, Or.inl rfl, isNumber_showNat n, decimal_showNat n, h⟩

theorem _root_.Spec.UInt.inj {max : Nat} {s : Str} {m n : Nat} (h1 : UInt max s m) (h2 : UInt max s n) : m = n := by
  have := parseUnsigned_iff.2 h1
  rw [parseUnsigned_iff.2 h2] at this
  exact (Except.ok.inj this).symm

/-- A written integer is not empty. -/
theorem _root_.Spec.UInt.ne_nil {max : Nat} {s : Str} {n : Nat} (h : UInt max s n) : s ≠ [] := by
  obtain ⟨ds, h | h, hn, _⟩ := h
  · rw [h]; exact hn.1
  · rw [h]; simp

/-- The characters of a written integer. -/
theorem _root_.Spec.UInt.chars {max : Nat} {s : Str} {n : Nat} (h : UInt max s n) :
    ∀ c ∈ s, isDigit c = true ∨ c = '+' := by
  obtain ⟨ds, h | h, hn, _⟩ := h
  · rw [h]; intro c hc; exact Or.inl ((isNumber_iff.1 hn).2 c hc)
  · rw [h]; intro c hc
    rcases List.mem_cons.1 hc with rfl | hc
    · exact Or.inr rfl
    · exact Or.inl ((isNumber_iff.1 hn).2 c hc)

/-- The last character of a written integer is a digit. -/
theorem _root_.Spec.UInt.last {max : Nat} {s : Str} {n : Nat} (h : UInt max s n) :
    ∃ a c, s = a ++ [c] ∧ isDigit c = true := by
  have key : ∀ ds, IsNumber ds → ∃ a c, ds = a ++ [c] ∧ isDigit c = true := by
    intro ds hn
    obtain ⟨h1, h2⟩ := isNumber_iff.1 hn
    refine ⟨ds.dropLast, ds.getLast h1, (List.dropLast_concat_getLast h1).symm, h2 _ (List.getLast_mem h1)⟩
  obtain ⟨ds, h | h, hn, _⟩ := h
  · obtain ⟨a, c, h1, h2⟩ := key ds hn
    exact ⟨a, c, h.trans h1, h2⟩
  · obtain ⟨a, c, h1, h2⟩ := key ds hn
    exact ⟨'+' :: a, c, by rw [h, h1]; rfl, h2⟩

theorem showNat_zero : showNat 0 = ['0'] := rfl

theorem showNat_step {n d : Nat} (hn : 0 < n) (hd : d < 10) : showNat (10 * n + d) = showNat n ++ showNat d :=
  (Nat.toDigits_append_toDigits (by decide) hn hd).symm

theorem showNat_digit {c : Char} (h : isDigit c = true) : showNat (c.toNat - 48) = [c] := by
  have h1 := isDigit_iff.1 h
  unfold showNat
  rw [Nat.toDigits_of_lt_base (by omega)]
  have : c = Char.ofNat c.toNat := by simp
  rw [this]
  generalize c.toNat = n at h1
  obtain ⟨h1, h2⟩ := h1
  have : n = 48 ∨ n = 49 ∨ n = 50 ∨ n = 51 ∨ n = 52 ∨ n = 53 ∨ n = 54 ∨ n = 55 ∨ n = 56 ∨ n = 57 := by omega
  rcases this with rfl | rfl | rfl | rfl | rfl | rfl | rfl | rfl | rfl | rfl <;> rfl

theorem decimal_append (s : Str) (c : Char) : decimal (s ++ [c]) = 10 * decimal s + (c.toNat - 48) := by
  unfold decimal
  rw [List.foldl_append]
  rfl

theorem decimal_pos {s : Str} (h : IsNumber s) (h0 : s.head? ≠ some '0') : 0 < decimal s := by
  cases s with
  | nil => exact absurd rfl h.1
  | cons c cs =>
    have hc := isDigit_iff.1 (mem_digits.1 (h.2 c (by simp)))
    have hne : c.toNat ≠ 48 := by
      intro e
      have : c = '0' := Char.toNat_inj.1 e
      simp [this] at h0
    have := foldl_digits_mono cs 1 (0 * 10 + (c.toNat - 48)) (by omega)
    rw [decimal_eq]
    exact this

theorem showNat_head (n : Nat) : n = 0 ∨ (showNat n).head? ≠ some '0' := by
  induction n using Nat.strongRecOn with
  | _ n ih =>
    by_cases hn : n < 10
    · have : n = 0 ∨ n = 1 ∨ n = 2 ∨ n = 3 ∨ n = 4 ∨ n = 5 ∨ n = 6 ∨ n = 7 ∨ n = 8 ∨ n = 9 := by omega
      rcases this with rfl | rfl | rfl | rfl | rfl | rfl | rfl | rfl | rfl | rfl <;> simp <;> decide
    · right
      have h1 : showNat n = showNat (n / 10) ++ showNat (n % 10) := by
        rw [← showNat_step (by omega) (by omega)]
        congr 1; omega
      rcases ih (n / 10) (by omega) with h | h
      · omega
      · rw [h1, List.head?_append]
        cases hh : showNat (n / 10) with
        | nil => exact absurd hh (showNat_ne_nil _)
        | cons c cs => rw [hh] at h; simpa using h

/-- Digits are printed back exactly when there are no superfluous zeros. -/
theorem showNat_decimal_iff {s : Str} (h : IsNumber s) :
    showNat (decimal s) = s ↔ s = ['0'] ∨ s.head? ≠ some '0' := by
  constructor
  · intro e
    rcases showNat_head (decimal s) with h0 | h0
    · left; rw [← e, h0]; rfl
    · right; rwa [e] at h0
  · rintro (rfl | h0)
    · rfl
    · induction s using List.reverseRecOn with
      | nil => exact absurd rfl h.1
      | append_singleton t c ih =>
        have hc := mem_digits.1 (h.2 c (by simp))
        have hc' := isDigit_iff.1 hc
        cases t with
        | nil =>
          rw [decimal_append]
          have : decimal [] = 0 := rfl
          rw [this, Nat.mul_zero, Nat.zero_add]
          exact showNat_digit hc
        | cons d t =>
          have ht : IsNumber (d :: t) := ⟨by simp, fun x hx => h.2 x (List.mem_append_left _ hx)⟩
          have h0' : (d :: t).head? ≠ some '0' := by simpa using h0
          rw [decimal_append, showNat_step (decimal_pos ht h0') (by omega), ih ht h0', showNat_digit hc]

end Compose
