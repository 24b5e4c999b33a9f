import Verif.Std.Str

/-
Model of Rust integer parsing (`FromStr` for `u8`, `u16`, `u32`, `u64`, `i64`, `from_str_radix`) and printing
(`Display`, `itoa`).  Follows `core::num::from_ascii_radix`: an optional sign, then at least one digit, with
overflow checked digit by digit.
-/

namespace Rust

/-- `core::num::IntErrorKind`. -/
inductive IntErr
  | empty | invalidDigit | posOverflow | negOverflow
  deriving DecidableEq, Repr

/-- `u8::MAX`. -/
def u8Max : Nat := 255
/-- `u16::MAX`. -/
def u16Max : Nat := 65535
/-- `u32::MAX`. -/
def u32Max : Nat := 4294967295
/-- `u64::MAX`. -/
def u64Max : Nat := 18446744073709551615

/-- `char::to_digit(10)`. -/
def toDigit (c : Char) : Option Nat :=
  if isDigit c then some (c.toNat - 48) else none

/-- `char::to_digit(16)`. -/
def toHexDigit (c : Char) : Option Nat :=
  if isDigit c then some (c.toNat - 48)
  else if 'a' ≤ c ∧ c ≤ 'f' then some (c.toNat - 87)
  else if 'A' ≤ c ∧ c ≤ 'F' then some (c.toNat - 55)
  else none

/-- Digit loop of `from_ascii_radix` for a non-negative number. -/
def parseDigits (dig : Char → Option Nat) (radix max : Nat) : Nat → Str → Except IntErr Nat
  | acc, [] => .ok acc
  | acc, c :: cs =>
    match dig c with
    | none => .error .invalidDigit
    | some d =>
      if max < acc * radix + d then .error .posOverflow
      else parseDigits dig radix max (acc * radix + d) cs

/-- `from_ascii_radix` for an unsigned type: a leading `+` is skipped; a lone sign is an invalid digit; `-` is
never a digit. -/
def parseRadix (dig : Char → Option Nat) (radix max : Nat) (s : Str) : Except IntErr Nat :=
  match s with
  | [] => .error .empty
  | ['+'] => .error .invalidDigit
  | '+' :: cs => parseDigits dig radix max 0 cs
  | cs => parseDigits dig radix max 0 cs

/-- `str::parse::<uN>()`. -/
def parseUnsigned (max : Nat) (s : Str) : Except IntErr Nat := parseRadix toDigit 10 max s

/-- `u8::from_str_radix(s, 16)`. -/
def parseHexU8 (s : Str) : Except IntErr Nat := parseRadix toHexDigit 16 u8Max s

/-- `i64::MAX`. -/
def i64Max : Nat := 9223372036854775807
/-- The magnitude of `i64::MIN`. -/
def i64MinAbs : Nat := 9223372036854775808

/-- `from_ascii_radix` for a signed type after a `-`: the digits are subtracted, with the check against the minimum
(given by its magnitude). -/
def parseNegative (minAbs : Nat) (cs : Str) : Except IntErr Int :=
  match parseDigits toDigit 10 minAbs 0 cs with
  | .ok n => .ok (-(n : Int))
  | .error .posOverflow => .error .negOverflow
  | .error e => .error e

/-- `from_ascii_radix` for a signed type otherwise. -/
def parsePositive (max : Nat) (cs : Str) : Except IntErr Int :=
  match parseDigits toDigit 10 max 0 cs with
  | .ok n => .ok (n : Int)
  | .error e => .error e

/-- `str::parse::<i64>()`: a sign, then digits; a lone sign is an invalid digit. -/
def parseI64 (s : Str) : Except IntErr Int :=
  match s with
  | [] => .error .empty
  | ['+'] => .error .invalidDigit
  | ['-'] => .error .invalidDigit
  | '+' :: cs => parsePositive i64Max cs
  | '-' :: cs => parseNegative i64MinAbs cs
  | cs => parsePositive i64Max cs

/-- `Display` of an unsigned integer (also `itoa`). -/
def showNat (n : Nat) : Str := Nat.toDigits 10 n

/-- `Display` of a signed integer. -/
def showInt (i : Int) : Str := if i < 0 then '-' :: showNat i.natAbs else showNat i.natAbs

/-- The number denoted by a string of decimal digits (specification). -/
def digitsValue (s : Str) : Nat := s.foldl (fun acc c => acc * 10 + (c.toNat - 48)) 0

/-! ### Lemmas -/

theorem isDigit_iff {c : Char} : isDigit c = true ↔ 48 ≤ c.toNat ∧ c.toNat ≤ 57 := by
  simp [isDigit, Char.le_def, UInt32.le_iff_toNat_le]

theorem toDigit_eq_some {c : Char} {d : Nat} :
    toDigit c = some d ↔ isDigit c = true ∧ d = c.toNat - 48 := by
  unfold toDigit
  split
  · rename_i h; simp only [Option.some.injEq, h, true_and]; exact eq_comm
  · rename_i h; simp [h]

theorem toDigit_eq_none {c : Char} : toDigit c = none ↔ isDigit c = false := by
  unfold toDigit; split <;> simp_all

theorem showNat_ne_nil (n : Nat) : showNat n ≠ [] :=
  List.ne_nil_of_length_pos Nat.length_toDigits_pos

theorem isDigit_of_mem_showNat {n : Nat} {c : Char} (h : c ∈ showNat n) : isDigit c = true := by
  have := Nat.isDigit_of_mem_toDigits (b := 10) (by decide) (by decide) h
  rw [isDigit_iff]
  simpa [Char.isDigit, UInt32.le_iff_toNat_le] using this

theorem digitsValue_showNat (n : Nat) : digitsValue (showNat n) = n := by
  have := Nat.ofDigitChars_toDigits (b := 10) (n := n) (by decide) (by decide)
  unfold Nat.ofDigitChars at this
  unfold digitsValue showNat
  simpa [Nat.mul_comm] using this

theorem foldl_digits_mono (s : Str) (a b : Nat) (h : a ≤ b) :
    a ≤ s.foldl (fun acc c => acc * 10 + (c.toNat - 48)) b := by
  induction s generalizing b with
  | nil => simpa
  | cons x xs ih => exact ih _ (by show a ≤ b * 10 + _; omega)

theorem parseDigits_ok {max : Nat} {s : Str} {acc : Nat} (hs : ∀ c ∈ s, isDigit c = true)
    (hmax : s.foldl (fun acc c => acc * 10 + (c.toNat - 48)) acc ≤ max) :
    parseDigits toDigit 10 max acc s =
      .ok (s.foldl (fun acc c => acc * 10 + (c.toNat - 48)) acc) := by
  induction s generalizing acc with
  | nil => rfl
  | cons x xs ih =>
    have hx := hs x (by simp)
    have : toDigit x = some (x.toNat - 48) := by simp [toDigit, hx]
    simp only [parseDigits, this]
    have hm := foldl_digits_mono xs _ _ (Nat.le_refl (acc * 10 + (x.toNat - 48)))
    simp only [List.foldl_cons] at hmax
    rw [if_neg (by omega)]
    exact ih (fun c hc => hs c (by simp [hc])) hmax

theorem parseDigits_eq_ok {max : Nat} {s : Str} {acc n : Nat} (hacc : acc ≤ max) :
    parseDigits toDigit 10 max acc s = .ok n ↔
      (∀ c ∈ s, isDigit c = true) ∧
        s.foldl (fun acc c => acc * 10 + (c.toNat - 48)) acc = n ∧ n ≤ max := by
  constructor
  · induction s generalizing acc with
    | nil => intro h; simp [parseDigits] at h; subst h; simp [hacc]
    | cons x xs ih =>
      intro h
      simp only [parseDigits] at h
      split at h
      · cases h
      · rename_i d hd
        obtain ⟨h1, rfl⟩ := toDigit_eq_some.1 hd
        split at h
        · cases h
        · rename_i hle
          obtain ⟨h2, h3, h4⟩ := ih (by omega) h
          refine ⟨?_, h3, h4⟩
          intro c hc
          rcases List.mem_cons.1 hc with rfl | hc
          · exact h1
          · exact h2 c hc
  · rintro ⟨h1, h2, h3⟩
    rw [parseDigits_ok h1 (by omega), h2]

/-- `parse::<uN>` accepts exactly an optional `+` and a non-empty run of digits with value at most the
maximum. -/
theorem parseUnsigned_eq_ok {max n : Nat} {s : Str} :
    parseUnsigned max s = .ok n ↔
      ∃ ds : Str, (s = ds ∨ s = '+' :: ds) ∧ ds ≠ [] ∧ (∀ c ∈ ds, isDigit c = true) ∧
        digitsValue ds = n ∧ n ≤ max := by
  unfold parseUnsigned parseRadix digitsValue
  split
  · constructor
    · intro h; cases h
    · rintro ⟨ds, h1, h2, _⟩; rcases h1 with h1 | h1
      · exact absurd h1.symm h2
      · cases h1
  · constructor
    · intro h; cases h
    · rintro ⟨ds, h1, h2, h3, _⟩; rcases h1 with h1 | h1
      · subst h1; have := h3 '+' (by simp); simp [isDigit] at this
      · simp at h1; exact absurd h1 h2
  · rename_i cs hcs
    rw [parseDigits_eq_ok (Nat.zero_le _)]
    constructor
    · rintro ⟨h1, h2, h3⟩
      refine ⟨cs, Or.inr rfl, ?_, h1, h2, h3⟩
      rintro rfl; exact hcs rfl
    · rintro ⟨ds, h1, h2, h3, h4, h5⟩
      rcases h1 with h1 | h1
      · subst h1; have := h3 '+' (by simp); simp [isDigit] at this
      · simp at h1; subst h1; exact ⟨h3, h4, h5⟩
  · rename_i h0 h1 h2
    rw [parseDigits_eq_ok (Nat.zero_le _)]
    constructor
    · rintro ⟨h3, h4, h5⟩
      exact ⟨s, Or.inl rfl, h0, h3, h4, h5⟩
    · rintro ⟨ds, h3, h4, h5, h6, h7⟩
      rcases h3 with h3 | h3
      · subst h3; exact ⟨h5, h6, h7⟩
      · exact absurd h3 (h2 ds)

/-- Printing then parsing gives the number back. -/
theorem parseUnsigned_showNat {max n : Nat} (h : n ≤ max) :
    parseUnsigned max (showNat n) = .ok n :=
  parseUnsigned_eq_ok.2 ⟨showNat n, Or.inl rfl, showNat_ne_nil n,
    fun _ => isDigit_of_mem_showNat, digitsValue_showNat n, h⟩

end Rust
