import Verif.Spec.Convert
import Verif.Props.Common
import Verif.Model.Compare

/-
C88: values convert to a number, an integer, a float or a boolean exactly if they stand for one, and nothing is lost by
converting there and back.
-/

namespace Props
open Rust Compose Spec

theorem parseDigits_error {max : Nat} {s : Str} {acc : Nat} {e : IntErr} (hs : ∀ c ∈ s, isDigit c = true)
    (h : parseDigits toDigit 10 max acc s = .error e) : e = .posOverflow := by
  induction s generalizing acc with
  | nil => cases h
  | cons c cs ih =>
    have hc : toDigit c = some (c.toNat - 48) := toDigit_eq_some.2 ⟨hs c (by simp), rfl⟩
    rw [parseDigits, hc] at h
    simp only at h
    split at h
    · cases h; rfl
    · exact ih (fun d hd => hs d (by simp [hd])) h

/-- Digits are refused exactly if the number is too large, and then because of that. -/
theorem parseDigits_error_iff {max : Nat} {s : Str} {e : IntErr} (hs : ∀ c ∈ s, isDigit c = true) :
    parseDigits toDigit 10 max 0 s = .error e ↔ e = .posOverflow ∧ max < decimal s := by
  cases hp : parseDigits toDigit 10 max 0 s with
  | ok n =>
    obtain ⟨-, h2, h3⟩ := (parseDigits_eq_ok (Nat.zero_le _)).1 hp
    have hv : decimal s = n := by rw [decimal_eq]; exact h2
    simp only [reduceCtorEq, false_iff, not_and]
    intro _; omega
  | error e' =>
    have he := parseDigits_error hs hp
    subst he
    have : max < decimal s := by
      by_contra hno
      have := (parseDigits_eq_ok (max := max) (s := s) (acc := 0) (n := decimal s) (Nat.zero_le _)).2
        ⟨hs, by rw [decimal_eq]; rfl, by omega⟩
      rw [hp] at this; cases this
    simp only [Except.error.injEq, this, and_true, eq_comm]

private theorem number_error_float {ft : FloatText} {s : Str} (h : ¬ OnlyDigits s) (e : ParseNumberError) :
    Number.parse ft s = .error e ↔ ft.parse s = none ∧ e = .float := by
  have hd : (Number.withoutSign s).any (fun c => !isDigit c) = true := by
    rw [← onlyDigits_iff] at h; simpa using h
  unfold Number.parse
  rw [if_pos hd]
  cases ft.parse s <;> simp [eq_comm]

private theorem number_error_minus {ft : FloatText} {ds : Str} (h : ∀ c ∈ ds, isDigit c = true) (e : ParseNumberError) :
    Number.parse ft ('-' :: ds) = .error e ↔
      (ds = [] ∧ e = .int .invalidDigit) ∨ (ds ≠ [] ∧ 2 ^ 63 < decimal ds ∧ e = .int .negOverflow) := by
  have hd : (Number.withoutSign ('-' :: ds)).any (fun c => !isDigit c) = false :=
    (onlyDigits_iff _).2 ⟨ds, .inr (.inr rfl), fun c hc => mem_digits.2 (h c hc)⟩
  unfold Number.parse
  rw [if_neg (by rw [hd]; simp), if_pos (by simp)]
  cases ds with
  | nil => simp [parseI64, eq_comm]
  | cons d ds =>
    have hp : parseI64 ('-' :: d :: ds) = parseNegative i64MinAbs (d :: ds) := rfl
    rw [hp, parseNegative]
    cases hq : parseDigits toDigit 10 i64MinAbs 0 (d :: ds) with
    | ok n =>
      obtain ⟨-, h2, h3⟩ := (parseDigits_eq_ok (Nat.zero_le _)).1 hq
      have hv : decimal (d :: ds) = n := by rw [decimal_eq]; exact h2
      have hm : i64MinAbs = 2 ^ 63 := by decide
      simp only [reduceCtorEq, false_and, false_or, ne_eq, not_false_eq_true, true_and, false_iff, not_and]
      intro hlt; omega
    | error e' =>
      obtain ⟨rfl, hlt⟩ := (parseDigits_error_iff h).1 hq
      have hm : i64MinAbs = 2 ^ 63 := by decide
      rw [hm] at hlt
      simp only [Except.error.injEq, hlt, reduceCtorEq, ne_eq, not_false_eq_true, true_and, false_and, false_or, eq_comm]

private theorem parseUnsigned_digits {s : Str} (h : ∀ c ∈ s, isDigit c = true) (hs : s ≠ []) :
    parseUnsigned u64Max s = parseDigits toDigit 10 u64Max 0 s := by
  cases s with
  | nil => simp at hs
  | cons c cs =>
    have hc := digit_not_sign (h c (by simp))
    unfold parseUnsigned parseRadix
    split
    · rename_i he; cases he
    · rename_i he; cases he; exact absurd rfl hc.1
    · rename_i he; cases he; exact absurd rfl hc.1
    · rfl

private theorem number_error_plain {ft : FloatText} {s : Str} (h : ∀ c ∈ s, isDigit c = true) (e : ParseNumberError) :
    Number.parse ft s = .error e ↔
      (s = [] ∧ e = .int .empty) ∨ (s ≠ [] ∧ 2 ^ 64 ≤ decimal s ∧ e = .int .posOverflow) := by
  have hd : (Number.withoutSign s).any (fun c => !isDigit c) = false :=
    (onlyDigits_iff _).2 ⟨s, .inl rfl, fun c hc => mem_digits.2 (h c hc)⟩
  have hh : s.head? ≠ some '-' := by
    cases s with
    | nil => simp
    | cons c cs => simpa using (digit_not_sign (h c (by simp))).2
  unfold Number.parse
  rw [if_neg (by rw [hd]; simp), if_neg hh]
  by_cases hs : s = []
  · subst hs; simp [parseUnsigned, parseRadix, eq_comm]
  · rw [parseUnsigned_digits h hs]
    have hm : u64Max = 2 ^ 64 - 1 := by decide
    cases hq : parseDigits toDigit 10 u64Max 0 s with
    | ok n =>
      obtain ⟨-, h2, h3⟩ := (parseDigits_eq_ok (Nat.zero_le _)).1 hq
      have hv : decimal s = n := by rw [decimal_eq]; exact h2
      simp only [reduceCtorEq, hs, false_and, false_or, ne_eq, not_false_eq_true, true_and, false_iff, not_and]
      intro hlt; omega
    | error e' =>
      obtain ⟨rfl, hlt⟩ := (parseDigits_error_iff h).1 hq
      have : 2 ^ 64 ≤ decimal s := by omega
      simp only [Except.error.injEq, hs, this, ne_eq, not_false_eq_true, true_and, false_and, false_or, eq_comm]

private theorem number_error_plus {ft : FloatText} {ds : Str} (h : ∀ c ∈ ds, isDigit c = true) (e : ParseNumberError) :
    Number.parse ft ('+' :: ds) = .error e ↔
      (ds = [] ∧ e = .int .invalidDigit) ∨ (ds ≠ [] ∧ 2 ^ 64 ≤ decimal ds ∧ e = .int .posOverflow) := by
  have hd : (Number.withoutSign ('+' :: ds)).any (fun c => !isDigit c) = false :=
    (onlyDigits_iff _).2 ⟨ds, .inr (.inl rfl), fun c hc => mem_digits.2 (h c hc)⟩
  unfold Number.parse
  rw [if_neg (by rw [hd]; simp), if_neg (by simp)]
  cases ds with
  | nil => simp [parseUnsigned, parseRadix, eq_comm]
  | cons d ds =>
    have hp : parseUnsigned u64Max ('+' :: d :: ds) = parseDigits toDigit 10 u64Max 0 (d :: ds) := rfl
    rw [hp]
    have hm : u64Max = 2 ^ 64 - 1 := by decide
    cases hq : parseDigits toDigit 10 u64Max 0 (d :: ds) with
    | ok n =>
      obtain ⟨-, h2, h3⟩ := (parseDigits_eq_ok (Nat.zero_le _)).1 hq
      have hv : decimal (d :: ds) = n := by rw [decimal_eq]; exact h2
      simp only [reduceCtorEq, false_and, false_or, ne_eq, not_false_eq_true, true_and, false_iff, not_and]
      intro hlt; omega
    | error e' =>
      obtain ⟨rfl, hlt⟩ := (parseDigits_error_iff h).1 hq
      have : 2 ^ 64 ≤ decimal (d :: ds) := by omega
      simp only [Except.error.injEq, this, reduceCtorEq, ne_eq, not_false_eq_true, true_and, false_and, false_or, eq_comm]

/-- C88: a text is refused as a number for the reason that applies to it. -/
theorem C88_number_errors (ft : FloatText) (s : Str) (e : ParseNumberError) :
    Number.parse ft s = .error e ↔ NumberTextError ft s e := by
  by_cases ho : OnlyDigits s
  · have hdig : ∀ {ds : Str}, (∀ c ∈ ds, c ∈ "0123456789".toList) → ∀ c ∈ ds, isDigit c = true :=
      fun h c hc => mem_digits.1 (h c hc)
    constructor
    · intro h
      obtain ⟨ds, rfl | rfl | rfl, hd⟩ := ho
      · rcases (number_error_plain (hdig hd) e).1 h with ⟨rfl, rfl⟩ | ⟨h1, h2, rfl⟩
        · exact .empty
        · exact .large (.inl rfl) ⟨h1, hd⟩ h2
      · rcases (number_error_plus (hdig hd) e).1 h with ⟨rfl, rfl⟩ | ⟨h1, h2, rfl⟩
        · exact .sign (.inl rfl)
        · exact .large (.inr rfl) ⟨h1, hd⟩ h2
      · rcases (number_error_minus (hdig hd) e).1 h with ⟨rfl, rfl⟩ | ⟨h1, h2, rfl⟩
        · exact .sign (.inr rfl)
        · exact .small ⟨h1, hd⟩ h2
    · intro h
      cases h with
      | empty => rfl
      | sign h =>
        rcases h with rfl | rfl
        · exact (number_error_plus (by simp) _).2 (.inl ⟨rfl, rfl⟩)
        · exact (number_error_minus (by simp) _).2 (.inl ⟨rfl, rfl⟩)
      | large h h1 h2 =>
        rcases h with rfl | rfl
        · exact (number_error_plain (hdig h1.2) _).2 (.inr ⟨h1.1, h2, rfl⟩)
        · exact (number_error_plus (hdig h1.2) _).2 (.inr ⟨h1.1, h2, rfl⟩)
      | small h1 h2 => exact (number_error_minus (hdig h1.2) _).2 (.inr ⟨h1.1, h2, rfl⟩)
      | float h _ => exact absurd ho h
  · rw [number_error_float ho]
    constructor
    · rintro ⟨h, rfl⟩; exact .float ho h
    · intro h
      cases h with
      | empty => exact absurd ⟨[], .inl rfl, by simp⟩ ho
      | sign h => exact absurd ⟨[], .inr (by simpa using h), by simp⟩ ho
      | large h h1 _ => exact absurd ⟨_, h.elim .inl (.inr ∘ .inl), h1.2⟩ ho
      | small h1 _ => exact absurd ⟨_, .inr (.inr rfl), h1.2⟩ ho
      | float _ h => exact ⟨h, rfl⟩

example : Number.parse exampleFloat "+18446744073709551616".toList = .error (.int .posOverflow) :=
  (C88_number_errors _ _ _).2 (.large (ds := "18446744073709551616".toList) (.inr rfl) ⟨by decide, by decide⟩ (by decide))
example : Number.parse exampleFloat "12e".toList = .error .float := by rfl

theorem meansNumber_iff (ft : FloatText) (v : Value) (n : Number) : v.toNumber ft = .ok n ↔ MeansNumber ft v n := by
  rw [C69_value_to_number]
  constructor
  · rintro (⟨s, rfl, h⟩ | rfl | ⟨rfl, rfl⟩ | ⟨rfl, rfl⟩)
    exacts [.text h, .number, .yes, .no]
  · rintro (h | _ | _ | _)
    exacts [.inl ⟨_, rfl, h⟩, .inr (.inl rfl), .inr (.inr (.inl ⟨rfl, rfl⟩)), .inr (.inr (.inr ⟨rfl, rfl⟩))]

theorem toNumber_error_iff (ft : FloatText) (v : Value) (e : ParseNumberError) :
    v.toNumber ft = .error e ↔ ∃ s, v = .string s ∧ NumberTextError ft s e := by
  cases v with
  | string s => simpa [Value.toNumber] using C88_number_errors ft s e
  | number n => simp [Value.toNumber]
  | bool b => simp [Value.toNumber]

/-- C88: a value converts to a number exactly if it stands for one; only a text may not. -/
theorem C88_value_to_number (ft : FloatText) (v : Value) :
    (∀ n, v.toNumber ft = .ok n ↔ MeansNumber ft v n) ∧
    ∀ e, v.toNumber ft = .error e ↔ ∃ s, v = .string s ∧ NumberTextError ft s e :=
  ⟨meansNumber_iff ft v, toNumber_error_iff ft v⟩

/-- The text of an integer is that integer. -/
example : MeansNumber exampleFloat (.string "-7".toList) (.signedInt (-7)) :=
  ((C88_value_to_number _ _).1 _).1 rfl

private theorem numberOk_of {ft : FloatText} {v : Value} {n : Number} (hv : ValueOk v) (h : MeansNumber ft v n) :
    NumberOk n := by
  cases h with
  | text h =>
    cases h with
    | unsignedInt h => obtain ⟨ds, -, -, -, h⟩ := h; show _ < _; omega
    | signedInt h1 h2 => show _ ∧ _; constructor <;> omega
    | float => trivial
  | number => exact hv
  | yes => show 1 < 2 ^ 64; decide
  | no => show 0 < 2 ^ 64; decide

/-- C88: a value converts to `u64` exactly if the number it stands for is kept as an integer that is not negative, and to
that integer. If it does not convert, the error tells why. -/
theorem C88_value_to_u64 (ft : FloatText) (v : Value) (hv : ValueOk v) :
    (∀ k, v.toU64 ft = .ok k ↔ ∃ n, MeansNumber ft v n ∧ integerOf n = some (k : Int)) ∧
    ∀ e, v.toU64 ft = .error e ↔
      (∃ s e', v = .string s ∧ NumberTextError ft s e' ∧ e = .parseNumber e') ∨
      (∃ n, MeansNumber ft v n ∧ integerOf n = none ∧ e = .tryFromNumber .floatToInt) ∨
      ∃ n i, MeansNumber ft v n ∧ integerOf n = some i ∧ i < 0 ∧ e = .tryFromNumber .tryFromInt := by
  unfold Value.toU64
  cases hn : v.toNumber ft with
  | error e' =>
    obtain ⟨s, rfl, hs⟩ := (toNumber_error_iff _ _ _).1 hn
    have hno : ∀ n, ¬ MeansNumber ft (.string s) n := by
      intro n h; rw [(meansNumber_iff _ _ _).2 h] at hn; cases hn
    refine ⟨fun k => ⟨nofun, fun ⟨n, h, _⟩ => absurd h (hno n)⟩, fun e => ⟨?_, ?_⟩⟩
    · rintro h; cases h; exact .inl ⟨s, e', rfl, hs, rfl⟩
    · rintro (⟨s', e'', h, h', rfl⟩ | ⟨n, h, _⟩ | ⟨n, i, h, _⟩)
      · cases h
        have := (toNumber_error_iff ft (.string s) e'').2 ⟨s, rfl, h'⟩
        rw [hn] at this; cases this; rfl
      · exact absurd h (hno n)
      · exact absurd h (hno n)
  | ok n =>
    have hs := (meansNumber_iff _ _ _).1 hn
    have hu : ∀ m, MeansNumber ft v m → m = n := by
      intro m h; rw [(meansNumber_iff _ _ _).2 h] at hn; cases hn; rfl
    have hno : ∀ s e', v = .string s → ¬ NumberTextError ft s e' := by
      rintro s e' rfl h; rw [(toNumber_error_iff _ _ _).2 ⟨s, rfl, h⟩] at hn; cases hn
    dsimp only
    obtain ⟨h1, -, h3, -⟩ := C69_number_to_integers n (numberOk_of hv hs)
    constructor
    · intro k
      have : (∃ m, MeansNumber ft v m ∧ integerOf m = some (k : Int)) ↔ n.toU64 = .ok k := by
        rw [h1]; exact ⟨fun ⟨m, hm, h⟩ => hu m hm ▸ h, fun h => ⟨n, hs, h⟩⟩
      rw [this]
      cases n.toU64 <;> simp
    · intro e
      cases hc : n.toU64 with
      | ok k =>
        simp only [reduceCtorEq, false_iff, not_or]
        refine ⟨fun ⟨s, e', h, h', _⟩ => hno s e' h h', fun ⟨m, hm, h, _⟩ => ?_, fun ⟨m, i, hm, h, hi, _⟩ => ?_⟩
        · cases hu m hm; rw [(h1 k).1 hc] at h; cases h
        · cases hu m hm; rw [(h1 k).1 hc] at h; cases h; omega
      | error e' =>
        simp only [Except.error.injEq]
        constructor
        · rintro rfl
          rcases (h3 e').1 hc with ⟨i, hi, hneg, rfl⟩ | ⟨hi, rfl⟩
          · exact .inr (.inr ⟨n, i, hs, hi, hneg, rfl⟩)
          · exact .inr (.inl ⟨n, hs, hi, rfl⟩)
        · rintro (⟨s, e'', h, h', _⟩ | ⟨m, hm, h, rfl⟩ | ⟨m, i, hm, h, hi, rfl⟩)
          · exact absurd h' (hno s e'' h)
          · cases hu m hm
            have := (h3 .floatToInt).2 (.inr ⟨h, rfl⟩); rw [hc] at this; cases this; rfl
          · cases hu m hm
            have := (h3 .tryFromInt).2 (.inl ⟨i, h, hi, rfl⟩); rw [hc] at this; cases this; rfl

example : ∃ n, MeansNumber exampleFloat (.string "8080".toList) n ∧ integerOf n = some ((8080 : Nat) : Int) :=
  ((C88_value_to_u64 exampleFloat (.string "8080".toList) trivial).1 8080).1 rfl

/-- C88: a value converts to `i64` exactly if the number it stands for is kept as an integer in range, and to that
integer. -/
theorem C88_value_to_i64 (ft : FloatText) (v : Value) (hv : ValueOk v) :
    (∀ i, v.toI64 ft = .ok i ↔ ∃ n, MeansNumber ft v n ∧ integerOf n = some i ∧ i < 2 ^ 63) ∧
    ∀ e, v.toI64 ft = .error e ↔
      (∃ s e', v = .string s ∧ NumberTextError ft s e' ∧ e = .parseNumber e') ∨
      (∃ n, MeansNumber ft v n ∧ integerOf n = none ∧ e = .tryFromNumber .floatToInt) ∨
      ∃ n i, MeansNumber ft v n ∧ integerOf n = some i ∧ 2 ^ 63 ≤ i ∧ e = .tryFromNumber .tryFromInt := by
  unfold Value.toI64
  cases hn : v.toNumber ft with
  | error e' =>
    obtain ⟨s, rfl, hs⟩ := (toNumber_error_iff _ _ _).1 hn
    have hno : ∀ n, ¬ MeansNumber ft (.string s) n := by
      intro n h; rw [(meansNumber_iff _ _ _).2 h] at hn; cases hn
    refine ⟨fun k => ⟨nofun, fun ⟨n, h, _⟩ => absurd h (hno n)⟩, fun e => ⟨?_, ?_⟩⟩
    · rintro h; cases h; exact .inl ⟨s, e', rfl, hs, rfl⟩
    · rintro (⟨s', e'', h, h', rfl⟩ | ⟨n, h, _⟩ | ⟨n, i, h, _⟩)
      · cases h
        have := (toNumber_error_iff ft (.string s) e'').2 ⟨s, rfl, h'⟩
        rw [hn] at this; cases this; rfl
      · exact absurd h (hno n)
      · exact absurd h (hno n)
  | ok n =>
    have hs := (meansNumber_iff _ _ _).1 hn
    have hu : ∀ m, MeansNumber ft v m → m = n := by
      intro m h; rw [(meansNumber_iff _ _ _).2 h] at hn; cases hn; rfl
    have hno : ∀ s e', v = .string s → ¬ NumberTextError ft s e' := by
      rintro s e' rfl h; rw [(toNumber_error_iff _ _ _).2 ⟨s, rfl, h⟩] at hn; cases hn
    have hok := numberOk_of hv hs
    dsimp only
    have hmin : ∀ i, integerOf n = some i → -2 ^ 63 ≤ i := by
      intro i hi
      cases n with
      | unsignedInt k => cases hi; omega
      | signedInt j => cases hi; exact hok.1
      | float x => cases hi
    obtain ⟨-, h1, -, h3⟩ := C69_number_to_integers n hok
    constructor
    · intro k
      have : (∃ m, MeansNumber ft v m ∧ integerOf m = some k ∧ k < 2 ^ 63) ↔ n.toI64 = .ok k := by
        rw [h1]
        exact ⟨fun ⟨m, hm, h, h'⟩ => by cases hu m hm; exact ⟨h, hmin k h, h'⟩, fun h => ⟨n, hs, h.1, h.2.2⟩⟩
      rw [this]
      cases n.toI64 <;> simp
    · intro e
      cases hc : n.toI64 with
      | ok k =>
        have hk := (h1 k).1 hc
        simp only [reduceCtorEq, false_iff, not_or]
        refine ⟨fun ⟨s, e', h, h', _⟩ => hno s e' h h', fun ⟨m, hm, h, _⟩ => ?_, fun ⟨m, i, hm, h, hi, _⟩ => ?_⟩
        · cases hu m hm; rw [hk.1] at h; cases h
        · cases hu m hm; rw [hk.1] at h; cases h; omega
      | error e' =>
        simp only [Except.error.injEq]
        constructor
        · rintro rfl
          rcases (h3 e').1 hc with ⟨i, hi, hneg, rfl⟩ | ⟨hi, rfl⟩
          · exact .inr (.inr ⟨n, i, hs, hi, hneg, rfl⟩)
          · exact .inr (.inl ⟨n, hs, hi, rfl⟩)
        · rintro (⟨s, e'', h, h', _⟩ | ⟨m, hm, h, rfl⟩ | ⟨m, i, hm, h, hi, rfl⟩)
          · exact absurd h' (hno s e'' h)
          · cases hu m hm
            have := (h3 .floatToInt).2 (.inr ⟨h, rfl⟩); rw [hc] at this; cases this; rfl
          · cases hu m hm
            have := (h3 .tryFromInt).2 (.inl ⟨i, h, hi, rfl⟩); rw [hc] at this; cases this; rfl

example : ∃ n, MeansNumber exampleFloat (.string "-7".toList) n ∧ integerOf n = some (-7) ∧ (-7 : Int) < 2 ^ 63 :=
  ((C88_value_to_i64 exampleFloat (.string "-7".toList) trivial).1 (-7)).1 rfl

private theorem small_iff {n : Number} (hn : NumberOk n) :
    n.toF64 = none ↔ ¬ (SmallInteger n ∨ ∃ x, n = .float x) := by
  rw [(C69_number_to_float n hn).2.1]
  cases n with
  | unsignedInt k =>
    constructor
    · rintro (⟨j, h, h'⟩ | ⟨i, h, -⟩)
      · cases h; rintro (h | ⟨x, hx⟩)
        · cases h; omega
        · cases hx
      · cases h
    · intro h
      exact .inl ⟨k, rfl, by by_contra hk; exact h (.inl (.unsigned (by omega)))⟩
  | signedInt i =>
    constructor
    · rintro (⟨j, h, h'⟩ | ⟨j, h, h'⟩)
      · cases h
      · cases h; rintro (h | ⟨x, hx⟩)
        · cases h; omega
        · cases hx
    · intro h
      exact .inr ⟨i, rfl, by by_contra hk; exact h (.inl (.signed (by omega) (by omega)))⟩
  | float x =>
    constructor
    · rintro (⟨j, h, h'⟩ | ⟨j, h, h'⟩) <;> cases h
    · intro h; exact absurd (.inr ⟨x, rfl⟩) h

/-- C88: a value converts to `f64` exactly if the number it stands for is kept as a float or is an integer of 32 bits;
the float has the value of the number. -/
theorem C88_value_to_f64 (ft : FloatText) (v : Value) (hv : ValueOk v) :
    (∀ x, v.toF64 ft = .ok x → ∃ n, MeansNumber ft v n ∧
      (n = .float x ∨ SmallInteger n ∧ floatValue x = numberValue n)) ∧
    ((∃ x, v.toF64 ft = .ok x) ↔ ∃ n, MeansNumber ft v n ∧ (SmallInteger n ∨ ∃ x, n = .float x)) ∧
    ∀ e, v.toF64 ft = .error e ↔
      (∃ s e', v = .string s ∧ NumberTextError ft s e' ∧ e = .parseNumber e') ∨
      ∃ n, MeansNumber ft v n ∧ ¬ (SmallInteger n ∨ ∃ x, n = .float x) ∧ e = .tryFromInt := by
  unfold Value.toF64
  cases hn : v.toNumber ft with
  | error e' =>
    obtain ⟨s, rfl, hs⟩ := (toNumber_error_iff _ _ _).1 hn
    have hno : ∀ n, ¬ MeansNumber ft (.string s) n := by
      intro n h; rw [(meansNumber_iff _ _ _).2 h] at hn; cases hn
    refine ⟨nofun, ⟨nofun, fun ⟨n, h, _⟩ => absurd h (hno n)⟩, fun e => ⟨?_, ?_⟩⟩
    · rintro h; cases h; exact .inl ⟨s, e', rfl, hs, rfl⟩
    · rintro (⟨s', e'', h, h', rfl⟩ | ⟨n, h, _⟩)
      · cases h
        have := (toNumber_error_iff ft (.string s) e'').2 ⟨s, rfl, h'⟩
        rw [hn] at this; cases this; rfl
      · exact absurd h (hno n)
  | ok n =>
    have hs := (meansNumber_iff _ _ _).1 hn
    have hu : ∀ m, MeansNumber ft v m → m = n := by
      intro m h; rw [(meansNumber_iff _ _ _).2 h] at hn; cases hn; rfl
    have hno : ∀ s e', v = .string s → ¬ NumberTextError ft s e' := by
      rintro s e' rfl h; rw [(toNumber_error_iff _ _ _).2 ⟨s, rfl, h⟩] at hn; cases hn
    have hok := numberOk_of hv hs
    dsimp only
    obtain ⟨h1, -, h3⟩ := C69_number_to_float n hok
    have h2 := small_iff hok
    cases hc : n.toF64 with
    | none =>
      have h2 := h2.1 hc
      refine ⟨nofun, ⟨nofun, fun ⟨m, hm, h⟩ => by cases hu m hm; exact absurd h h2⟩, fun e => ⟨?_, ?_⟩⟩
      · rintro h; cases h; exact .inr ⟨n, hs, h2, rfl⟩
      · rintro (⟨s, e'', h, h', _⟩ | ⟨m, hm, h, rfl⟩)
        · exact absurd h' (hno s e'' h)
        · rfl
    | some x =>
      have h2 : SmallInteger n ∨ ∃ x, n = .float x := by
        by_contra h; rw [h2.2 h] at hc; cases hc
      refine ⟨?_, ⟨fun _ => ⟨n, hs, h2⟩, fun _ => ⟨x, rfl⟩⟩, fun e => ⟨nofun, ?_⟩⟩
      · rintro y h; cases h
        rcases h2 with h | ⟨y, rfl⟩
        · exact ⟨n, hs, .inr ⟨h, h1 x hc⟩⟩
        · exact ⟨_, hs, .inl (by rw [h3 y rfl] at hc; cases hc; rfl)⟩
      · rintro (⟨s, e'', h, h', _⟩ | ⟨m, hm, h, _⟩)
        · exact absurd h' (hno s e'' h)
        · cases hu m hm; exact absurd h2 h

example : ∃ x, (Value.string "-7".toList).toF64 exampleFloat = .ok x :=
  (C88_value_to_f64 exampleFloat (.string "-7".toList) trivial).2.1.2
    ⟨.signedInt (-7), (meansNumber_iff _ _ _).1 rfl, .inl (.signed (by decide) (by decide))⟩

/-- C88: only booleans convert to `bool`. -/
theorem C88_value_to_bool (v : Value) :
    (∀ b, v.toBool = .ok b ↔ v = .bool b) ∧
    ∀ e, v.toBool = .error e ↔ (∀ b, v ≠ .bool b) ∧ e = .intoBool := by
  cases v <;> simp [Value.toBool, eq_comm]

example : (Value.string "true".toList).toBool = .error .intoBool := ((C88_value_to_bool _).2 _).2 ⟨nofun, rfl⟩

/-- C88: a string or number converts to the number it is or denotes. -/
theorem C88_string_or_number_to_number (ft : FloatText) (v : StringOrNumber) :
    (∀ n, v.toNumber ft = .ok n ↔ v = .number n ∨ ∃ s, v = .string s ∧ NumberText ft s n) ∧
    ∀ e, v.toNumber ft = .error e ↔ ∃ s, v = .string s ∧ NumberTextError ft s e := by
  cases v with
  | string s =>
    refine ⟨fun n => ?_, fun e => ?_⟩
    · simpa [StringOrNumber.toNumber] using C56_number_parse ft s n
    · simpa [StringOrNumber.toNumber] using C88_number_errors ft s e
  | number n => simp [StringOrNumber.toNumber]

example : NumberText exampleFloat "-7".toList (.signedInt (-7)) :=
  (((C88_string_or_number_to_number exampleFloat (.string "-7".toList)).1 (.signedInt (-7))).1 rfl).elim nofun
    fun ⟨_, h, hn⟩ => by cases h; exact hn

/-- C88: converting into a value and back loses nothing. -/
theorem C88_there_and_back (ft : FloatText) :
    (∀ k, (Value.ofU64 k).toU64 ft = .ok k) ∧
    (∀ i, (Value.ofI64 i).toI64 ft = .ok i) ∧
    (∀ x, (Value.ofF64 x).toF64 ft = .ok x) ∧
    (∀ b, (Value.ofBool b).toBool = .ok b) ∧
    (∀ n, (Value.ofNumber n).toNumber ft = .ok n) ∧
    (∀ s, (Value.ofString s).intoString ft = s) ∧
    (∀ n, (StringOrNumber.ofNumber n).toNumber ft = .ok n) ∧
    (∀ s, (StringOrNumber.ofString s).intoString ft = s) ∧
    (∀ k, (Number.ofU64 k).toU64 = .ok k) ∧
    (∀ i, (Number.ofI64 i).toI64 = .ok i) ∧
    (∀ x, (Number.ofF64 x).toF64 = some x) :=
  ⟨fun _ => rfl, fun _ => rfl, fun _ => rfl, fun _ => rfl, fun _ => rfl, fun _ => rfl, fun _ => rfl, fun _ => rfl,
    fun _ => rfl, fun _ => rfl, fun _ => rfl⟩

example : (Value.ofI64 (-7)).toI64 exampleFloat = .ok (-7) := (C88_there_and_back exampleFloat).2.1 _

/-- C88: an integer converted into a value and then to another type is kept or refused. -/
theorem C88_across (ft : FloatText) (k : Nat) (i : Int) (hk : k < 2 ^ 64) (hi : -2 ^ 63 ≤ i ∧ i < 2 ^ 63) :
    (∀ j, (Value.ofU64 k).toI64 ft = .ok j ↔ j = k ∧ k < 2 ^ 63) ∧
    (∀ j, (Value.ofI64 i).toU64 ft = .ok j ↔ (j : Int) = i) := by
  constructor
  · intro j
    rw [(C88_value_to_i64 ft (Value.ofU64 k) hk).1]
    constructor
    · rintro ⟨n, h, h', h''⟩; cases h; cases h'; exact ⟨rfl, by omega⟩
    · rintro ⟨rfl, h⟩; exact ⟨_, .number, rfl, by omega⟩
  · intro j
    rw [(C88_value_to_u64 ft (Value.ofI64 i) hi).1]
    constructor
    · rintro ⟨n, h, h'⟩; cases h; cases h'; rfl
    · rintro rfl; exact ⟨_, .number, rfl⟩

/-- The number -7 is not an unsigned integer; 7 is. -/
example : (∀ j, (Value.ofI64 (-7)).toU64 exampleFloat ≠ .ok j) ∧ (Value.ofI64 7).toU64 exampleFloat = .ok 7 := by
  have h := fun i hi => (C88_across exampleFloat 0 i (by decide) hi).2
  refine ⟨fun j e => ?_, (h 7 (by decide) 7).2 rfl⟩
  have := (h (-7) (by decide) j).1 e
  omega

/-- C88: the text of a value is the text it is, or a text that stands for the same number or boolean, as far as `f64`
reads back the floats it writes as floats. -/
theorem C88_text (ft : FloatText)
    (v : Value) (hv : ValueOk v) (n : Number) (h : MeansNumber ft v n) (hb : ∀ b, v ≠ .bool b)
    (hft : ∀ x, v = .number (.float x) → NumberText ft (ft.show x) (.float x)) :
    ∃ m, MeansNumber ft (.string (v.intoString ft)) m ∧ numberValue m = numberValue n := by
  cases h with
  | text h => exact ⟨n, .text h, rfl⟩
  | yes => exact absurd rfl (hb _)
  | no => exact absurd rfl (hb _)
  | number =>
    cases n with
    | unsignedInt k => exact ⟨_, .text (.unsignedInt (uint_show hv)), rfl⟩
    | float x => exact ⟨_, .text (hft x rfl), rfl⟩
    | signedInt i =>
      by_cases hneg : i < 0
      · refine ⟨_, .text (show NumberText ft (showInt i) (.signedInt i) from ?_), rfl⟩
        have := hv.1
        have hd : IsNumber (showNat i.natAbs) ∧ decimal (showNat i.natAbs) = i.natAbs := by
          obtain ⟨ds, h1, h2, h3, -⟩ := uint_show (n := i.natAbs) (by omega)
          rcases h1 with h1 | h1
          · rw [h1]; exact ⟨h2, h3⟩
          · exfalso
            have := isNumber_showNat i.natAbs
            rw [h1] at this
            exact absurd (this.2 '+' (by simp)) (by decide)
        rw [showInt, if_pos hneg]
        have hi : i = -(decimal (showNat i.natAbs) : Int) := by rw [hd.2]; omega
        have hr : NumberText ft ('-' :: showNat i.natAbs) (.signedInt (-(decimal (showNat i.natAbs)))) :=
          .signedInt hd.1 (by rw [hd.2]; omega)
        rwa [← hi] at hr
      · refine ⟨.unsignedInt i.natAbs, .text ?_, ?_⟩
        · show NumberText ft (showInt i) _
          rw [showInt, if_neg hneg]
          exact .unsignedInt (uint_show (by have := hv.2; omega))
        · show some _ = some _
          congr 1
          have : ((i.natAbs : Int) : ℚ) = (i : ℚ) := by congr 1; omega
          rw [← this]; rfl

example : (Value.string "-7".toList).toI64 exampleFloat = .ok (-7) ∧
    (Value.string "-7".toList).toU64 exampleFloat = .error (.tryFromNumber .tryFromInt) ∧
    (Value.string "x".toList).toU64 exampleFloat = .error (.parseNumber .float) ∧
    (Value.bool true).toU64 exampleFloat = .ok 1 ∧
    (Value.string "true".toList).toBool = .error .intoBool := by decide
example : MeansNumber exampleFloat (.string "1.5".toList) (.float (BitVec.ofNat 64 0x3FF8000000000000)) :=
  (meansNumber_iff _ _ _).1 rfl
example : ValueOk (.number (.signedInt (-9223372036854775808))) := by constructor <;> decide

end Props
