import Verif.Proofs.RoundsTo
import Verif.Proofs.Number
import Verif.Props.Build
import Mathlib.Data.List.TakeWhile

/- Reading of doubles: `F64.parse` against the texts of doubles. -/

namespace Proofs
open Rust Rust.F64 Spec Compose

theorem digitSum_eq (s : Str) : digitSum s = decimal s := by rw [decimal_eq]; rfl

theorem digits_iff {s : Str} : Digits s ↔ ∀ c ∈ s, isDigit c = true := by
  unfold Digits; simp only [mem_digits]

theorem decimalBits_iff (m : Nat) (e : Int) (x : F64) : RoundsTo (m * (10 : ℚ) ^ e) x ↔ x.toNat = decimalBits m e := by
  unfold decimalBits
  rw [← roundsTo_iff (Nat.pow_pos (by decide))]
  have : (((m * 10 ^ e.toNat : ℕ) : ℚ) / ((10 ^ (-e).toNat : ℕ) : ℚ)) = m * (10 : ℚ) ^ e := by
    push_cast
    rcases Int.le_total 0 e with h | h
    · obtain ⟨n, rfl⟩ := Int.eq_ofNat_of_zero_le h
      have : (-(n : Int)).toNat = 0 := by omega
      rw [this, Int.toNat_natCast, pow_zero, div_one, zpow_natCast]
    · obtain ⟨n, hn⟩ := Int.eq_ofNat_of_zero_le (show 0 ≤ -e by omega)
      have he : e = -(n : Int) := by omega
      subst he
      have : (-(n : Int)).toNat = 0 := by omega
      rw [this, neg_neg, Int.toNat_natCast, pow_zero, mul_one, zpow_neg, zpow_natCast, div_eq_mul_inv]
  rw [this]

/-- What follows the digits and the point. -/
def afterPoint (m : Nat) (f : Nat) : Str → Option Nat
  | [] => some (decimalBits m (-f))
  | c :: r => if c = 'e' ∨ c = 'E' then (parseExponent r).map fun e => decimalBits m (e - f) else none

theorem takeDrop {a b : Str} (ha : ∀ c ∈ a, isDigit c = true) (hb : ∀ c, b.head? = some c → isDigit c = false) :
    (a ++ b).takeWhile isDigit = a ∧ (a ++ b).dropWhile isDigit = b := by
  rw [List.takeWhile_append_of_pos ha, List.dropWhile_append_of_pos ha]
  cases b with
  | nil => simp
  | cons c b => simp [List.takeWhile_cons, List.dropWhile_cons, hb c rfl]

theorem parseNumber_noPoint {ints w : Str} (h : ∀ c ∈ ints, isDigit c = true) (hne : ints ≠ [])
    (hw : ∀ c, w.head? = some c → isDigit c = false ∧ c ≠ '.') :
    parseNumber (ints ++ w) = afterPoint (digitSum ints) 0 w := by
  obtain ⟨e1, e2⟩ := takeDrop h fun c hc => (hw c hc).1
  have hp : ¬ w.head? = some '.' := fun hc => (hw _ hc).2 rfl
  unfold parseNumber
  simp only [e1, e2, hp, if_false, and_true, if_neg hne, List.append_nil, List.length_nil]
  cases w <;> rfl

theorem parseNumber_withPoint {ints fracs w : Str} (h : ∀ c ∈ ints, isDigit c = true) (h' : ∀ c ∈ fracs, isDigit c = true)
    (hne : ints ++ fracs ≠ []) (hw : ∀ c, w.head? = some c → isDigit c = false) :
    parseNumber (ints ++ '.' :: (fracs ++ w)) = afterPoint (digitSum (ints ++ fracs)) fracs.length w := by
  obtain ⟨e1, e2⟩ := takeDrop (b := '.' :: (fracs ++ w)) h fun c hc => by cases hc; rfl
  obtain ⟨e3, e4⟩ := takeDrop h' hw
  have hn : ¬ (ints = [] ∧ fracs = []) := fun ⟨a, b⟩ => hne (by rw [a, b]; rfl)
  unfold parseNumber
  simp only [e1, e2, List.head?_cons, if_true, List.tail_cons, e3, e4, hn, if_false]
  cases w <;> rfl

theorem parseNumber_point {t w : Str} {v : ℚ} (ht : PointText t v) (hw : ∀ c, w.head? = some c → isDigit c = false ∧ c ≠ '.') :
    ∃ m f : Nat, v = m * (10 : ℚ) ^ (-(f : Int)) ∧ parseNumber (t ++ w) = afterPoint m f w := by
  obtain ⟨ints, fracs, h1, h2, h3, h4, rfl⟩ := ht
  rw [digits_iff] at h1 h2
  refine ⟨digitSum (ints ++ fracs), fracs.length, ?_, ?_⟩
  · rw [digitSum_eq, zpow_neg, zpow_natCast, div_eq_mul_inv]
  · rcases h4 with ⟨rfl, rfl⟩ | rfl
    · rw [List.append_nil] at h3
      rw [parseNumber_noPoint h1 h3 hw]
      simp
    · rw [← parseNumber_withPoint h1 h2 h3 fun c hc => (hw c hc).1]
      simp

theorem parseNumber_some {s : Str} {n : Nat} (h : parseNumber s = some n) :
    ∃ (t w : Str) (m f : Nat), s = t ++ w ∧ PointText t (m * (10 : ℚ) ^ (-(f : Int))) ∧ afterPoint m f w = some n := by
  have hs : s.takeWhile isDigit ++ s.dropWhile isDigit = s := List.takeWhile_append_dropWhile
  have hi : ∀ c ∈ s.takeWhile isDigit, isDigit c = true := fun c hc => List.mem_takeWhile_imp hc
  unfold parseNumber at h
  simp only at h
  generalize s.takeWhile isDigit = ints at *
  generalize s.dropWhile isDigit = rest at *
  by_cases hp : rest.head? = some '.'
  · obtain ⟨rest', rfl⟩ : ∃ r, rest = '.' :: r := by
      cases rest with
      | nil => cases hp
      | cons c r => cases hp; exact ⟨r, rfl⟩
    have hs' : rest'.takeWhile isDigit ++ rest'.dropWhile isDigit = rest' := List.takeWhile_append_dropWhile
    have hf : ∀ c ∈ rest'.takeWhile isDigit, isDigit c = true := fun c hc => List.mem_takeWhile_imp hc
    simp only [List.head?_cons, if_true, List.tail_cons] at h
    generalize rest'.takeWhile isDigit = fracs at *
    generalize rest'.dropWhile isDigit = w at *
    by_cases hn : ints = [] ∧ fracs = []
    · rw [if_pos hn] at h; cases h
    rw [if_neg hn] at h
    refine ⟨ints ++ ".".toList ++ fracs, w, digitSum (ints ++ fracs), fracs.length, ?_, ?_, ?_⟩
    · rw [← hs, ← hs']; simp
    · refine ⟨ints, fracs, digits_iff.2 hi, digits_iff.2 hf, ?_, .inr rfl, ?_⟩
      · intro e; exact hn (List.append_eq_nil_iff.1 e)
      · rw [digitSum_eq, zpow_neg, zpow_natCast, div_eq_mul_inv]
    · rw [← h]; cases w <;> rfl
  · simp only [hp, if_false, and_true, List.append_nil, List.length_nil] at h
    by_cases hn : ints = []
    · rw [if_pos hn] at h; cases h
    rw [if_neg hn] at h
    refine ⟨ints, rest, digitSum ints, 0, hs.symm, ?_, ?_⟩
    · refine ⟨ints, [], digits_iff.2 hi, digits_iff.2 (by simp), by simpa using hn, .inl ⟨rfl, rfl⟩, ?_⟩
      rw [digitSum_eq]; simp
    · rw [← h]; cases rest <;> rfl

theorem allDigits_iff {ds : Str} : IsNumber ds ↔ ds ≠ [] ∧ ds.all isDigit = true := by
  rw [isNumber_iff, List.all_eq_true]

theorem parseExponent_plain {ds : Str} (h : IsNumber ds) : parseExponent ds = some (decimal ds : Int) := by
  obtain ⟨h1, h2⟩ := allDigits_iff.1 h
  obtain ⟨c, r, rfl⟩ := List.exists_cons_of_ne_nil h1
  have hc : isDigit c = true := List.all_eq_true.1 h2 c (by simp)
  have a : c ≠ '-' := by rintro rfl; exact absurd hc (by decide)
  have b : c ≠ '+' := by rintro rfl; exact absurd hc (by decide)
  unfold parseExponent
  simp [a, b, digitSum_eq] 
  simpa using h2

theorem parseExponent_signed {ds : Str} (h : IsNumber ds) (c : Char) (hc : c = '+' ∨ c = '-') :
    parseExponent (c :: ds) = some (if c = '-' then -(decimal ds : Int) else decimal ds) := by
  obtain ⟨h1, h2⟩ := allDigits_iff.1 h
  unfold parseExponent
  rcases hc with rfl | rfl <;> simp [h1, digitSum_eq] <;> simpa using h2

theorem parseExponent_some {s : Str} {e : Int} (h : parseExponent s = some e) :
    (IsNumber s ∧ e = decimal s) ∨ (∃ ds, s = '+' :: ds ∧ IsNumber ds ∧ e = decimal ds) ∨
      ∃ ds, s = '-' :: ds ∧ IsNumber ds ∧ e = -(decimal ds : Int) := by
  cases s with
  | nil => cases h
  | cons c r =>
    unfold parseExponent at h
    simp only [List.head?_cons, Option.some.injEq, List.tail_cons] at h
    by_cases h1 : c = '-'
    · subst h1
      right; right
      simp only [true_or, if_true] at h
      by_cases h2 : r = []
      · rw [if_pos h2] at h; cases h
      · rw [if_neg h2] at h
        by_cases h3 : r.all isDigit = true
        · rw [if_pos h3] at h
          refine ⟨r, rfl, allDigits_iff.2 ⟨h2, h3⟩, ?_⟩
          rw [← Option.some.inj h, digitSum_eq]
        · rw [if_neg h3] at h; cases h
    · by_cases h2 : c = '+'
      · subst h2
        right; left
        simp only [or_true, if_true] at h
        by_cases h2 : r = []
        · rw [if_pos h2] at h; cases h
        · rw [if_neg h2] at h
          by_cases h3 : r.all isDigit = true
          · rw [if_pos h3] at h
            refine ⟨r, rfl, allDigits_iff.2 ⟨h2, h3⟩, ?_⟩
            rw [← Option.some.inj h, digitSum_eq]; rfl
          · rw [if_neg h3] at h; cases h
      · left
        simp only [h1, h2, or_self, if_false, List.cons_ne_nil] at h
        by_cases h3 : (c :: r).all isDigit = true
        · rw [if_pos h3] at h
          refine ⟨allDigits_iff.2 ⟨by simp, h3⟩, ?_⟩
          rw [← Option.some.inj h, digitSum_eq]
        · rw [if_neg h3] at h; cases h

theorem mem_eE {e : Char} : e ∈ "eE".toList ↔ e = 'e' ∨ e = 'E' := by
  rw [show "eE".toList = ['e', 'E'] from rfl]; simp

theorem eE_head {e : Char} (h : e ∈ "eE".toList) (r : Str) : ∀ c, (e :: r).head? = some c → isDigit c = false ∧ c ≠ '.' := by
  intro c hc
  cases hc
  rcases mem_eE.1 h with rfl | rfl <;> exact ⟨by decide, by decide⟩

theorem afterPoint_exponent {m f : Nat} {e : Char} {r : Str} {k : Int} (h : e ∈ "eE".toList) (hr : parseExponent r = some k) :
    afterPoint m f (e :: r) = some (decimalBits m (k - f)) := by
  unfold afterPoint
  simp only
  rw [if_pos (mem_eE.1 h), hr, Option.map_some]

theorem parseNumber_numeral {t : Str} {v : ℚ} (h : NumeralText t v) :
    ∃ n, parseNumber t = some n ∧ ∀ x, RoundsTo v x ↔ x.toNat = n := by
  have ten : (10 : ℚ) ≠ 0 := by norm_num
  cases h with
  | plain h =>
    obtain ⟨m, f, rfl, e⟩ := parseNumber_point (w := []) h (fun c hc => by cases hc)
    rw [List.append_nil] at e
    exact ⟨_, e, decimalBits_iff _ _⟩
  | @exponent t ds e v h he hd =>
    obtain ⟨m, f, rfl, e2⟩ := parseNumber_point (w := e :: ds) h (eE_head he _)
    rw [afterPoint_exponent he (parseExponent_plain hd)] at e2
    refine ⟨_, by rw [← e2]; simp, fun x => ?_⟩
    rw [← decimalBits_iff, sub_eq_add_neg, add_comm, zpow_add₀ ten, zpow_natCast, mul_assoc]
  | @plus t ds e v h he hd =>
    obtain ⟨m, f, rfl, e2⟩ := parseNumber_point (w := e :: '+' :: ds) h (eE_head he _)
    rw [afterPoint_exponent he (parseExponent_signed hd _ (.inl rfl))] at e2
    refine ⟨_, by rw [← e2]; simp, fun x => ?_⟩
    rw [← decimalBits_iff, if_neg (by decide), sub_eq_add_neg, add_comm, zpow_add₀ ten, zpow_natCast, mul_assoc]
  | @minus t ds e v h he hd =>
    obtain ⟨m, f, rfl, e2⟩ := parseNumber_point (w := e :: '-' :: ds) h (eE_head he _)
    rw [afterPoint_exponent he (parseExponent_signed hd _ (.inr rfl))] at e2
    refine ⟨_, by rw [← e2]; simp, fun x => ?_⟩
    rw [← decimalBits_iff, if_pos rfl, sub_eq_add_neg, add_comm, zpow_add₀ ten, zpow_neg _ ((decimal ds : ℕ) : ℤ),
      zpow_natCast, div_eq_mul_inv, mul_assoc]

theorem numeral_of_parseNumber {s : Str} {n : Nat} (h : parseNumber s = some n) :
    ∃ v, NumeralText s v ∧ ∀ x, RoundsTo v x ↔ x.toNat = n := by
  suffices ∃ v, NumeralText s v by
    obtain ⟨v, hv⟩ := this
    obtain ⟨n', h1, h2⟩ := parseNumber_numeral hv
    rw [h] at h1
    cases h1
    exact ⟨v, hv, h2⟩
  obtain ⟨t, w, m, f, rfl, ht, hw⟩ := parseNumber_some h
  cases w with
  | nil => exact ⟨_, by rw [List.append_nil]; exact .plain ht⟩
  | cons c r =>
    unfold afterPoint at hw
    simp only at hw
    by_cases hc : c = 'e' ∨ c = 'E'
    · rw [if_pos hc, Option.map_eq_some_iff] at hw
      obtain ⟨e, he, _⟩ := hw
      have hc := mem_eE.2 hc
      rcases parseExponent_some he with ⟨h1, _⟩ | ⟨ds, rfl, h1, _⟩ | ⟨ds, rfl, h1, _⟩
      · exact ⟨_, by simpa using NumeralText.exponent ht hc h1⟩
      · exact ⟨_, by simpa using NumeralText.plus ht hc h1⟩
      · exact ⟨_, by simpa using NumeralText.minus ht hc h1⟩
    · rw [if_neg hc] at hw; cases hw

/-! ### Signs and words -/

theorem pointText_head {t : Str} {v : ℚ} (h : PointText t v) : ∃ c r, t = c :: r ∧ (isDigit c = true ∨ c = '.') := by
  obtain ⟨ints, fracs, h1, h2, h3, h4, _⟩ := h
  rw [digits_iff] at h1
  cases ints with
  | nil =>
    rcases h4 with ⟨rfl, rfl⟩ | rfl
    · exact absurd rfl h3
    · exact ⟨'.', fracs, rfl, .inr rfl⟩
  | cons c r =>
    rcases h4 with ⟨rfl, rfl⟩ | rfl
    · exact ⟨c, r, rfl, .inl (h1 c (by simp))⟩
    · exact ⟨c, r ++ ".".toList ++ fracs, rfl, .inl (h1 c (by simp))⟩

theorem numeralText_head {t : Str} {v : ℚ} (h : NumeralText t v) : ∃ c r, t = c :: r ∧ (isDigit c = true ∨ c = '.') := by
  cases h with
  | plain h => exact pointText_head h
  | exponent h | plus h | minus h => obtain ⟨c, r, rfl, hc⟩ := pointText_head h; exact ⟨c, _, rfl, hc⟩

theorem anyCase_inf {t : Str} : eqIgnoreAsciiCase t str!"inf" = true ↔ AnyCase t "inf".toList :=
  Props.eqIgnore_iff (by decide)
theorem anyCase_infinity {t : Str} : eqIgnoreAsciiCase t str!"infinity" = true ↔ AnyCase t "infinity".toList :=
  Props.eqIgnore_iff (by decide)
theorem anyCase_nan {t : Str} : eqIgnoreAsciiCase t str!"nan" = true ↔ AnyCase t "nan".toList :=
  Props.eqIgnore_iff (by decide)

/-- The words begin with a letter. -/
theorem word_head {t : Str} (h : AnyCase t "inf".toList ∨ AnyCase t "infinity".toList ∨ AnyCase t "nan".toList) :
    ∃ c r, t = c :: r ∧ c ∈ "iInN".toList := by
  cases t with
  | nil => rcases h with h | h | h <;> cases h
  | cons c r =>
    refine ⟨c, r, rfl, ?_⟩
    rcases h with h | h | h <;> cases h <;> rename_i h1 _ <;> rcases h1 with rfl | rfl <;> decide

theorem parseNumber_letter {c : Char} {r : Str} (h : c ∈ "iInN".toList) : parseNumber (c :: r) = none := by
  cases hn : parseNumber (c :: r) with
  | none => rfl
  | some n =>
    obtain ⟨v, hv, _⟩ := numeral_of_parseNumber hn
    obtain ⟨c', r', e, hc⟩ := numeralText_head hv
    cases e
    exfalso
    rw [show "iInN".toList = ['i', 'I', 'n', 'N'] from rfl] at h
    simp only [List.mem_cons, List.not_mem_nil, or_false] at h
    rcases h with rfl | rfl | rfl | rfl <;> revert hc <;> decide

/-- The bits that an unsigned text stands for. -/
def unsignedBits (s : Str) : Option Nat :=
  match parseNumber s with
  | some bits => some bits
  | none => parseInfNan s

theorem parseInfNan_iff {s : Str} {n : Nat} : parseInfNan s = some n ↔
    ((AnyCase s "inf".toList ∨ AnyCase s "infinity".toList) ∧ n = 2047 * 2 ^ 52) ∨
      (AnyCase s "nan".toList ∧ n = 2047 * 2 ^ 52 + 2 ^ 51) := by
  unfold parseInfNan
  have ei := anyCase_inf (t := s)
  have ey := anyCase_infinity (t := s)
  have en := anyCase_nan (t := s)
  by_cases h1 : AnyCase s "inf".toList ∨ AnyCase s "infinity".toList
  · have h2 : ¬ AnyCase s "nan".toList := by
      intro h2
      cases s with
      | nil => cases h2
      | cons c r =>
        have a : c = 'n' ∨ c = 'N' := (List.forall₂_cons.1 h2).1
        have b : c = 'i' ∨ c = 'I' := h1.elim (fun h => (List.forall₂_cons.1 h).1) fun h => (List.forall₂_cons.1 h).1
        rcases a with rfl | rfl <;> revert b <;> decide
    rw [if_pos (by rw [ei, ey]; exact h1)]
    simp only [h1, h2, true_and, false_and, or_false, Option.some.injEq, eq_comm]
  · rw [if_neg (by rw [ei, ey]; exact h1)]
    by_cases h2 : AnyCase s "nan".toList
    · rw [if_pos (en.2 h2)]
      simp only [h1, h2, true_and, false_and, false_or, Option.some.injEq, eq_comm]
    · rw [if_neg (by rw [en]; exact h2)]
      simp only [h1, h2, false_and, or_false, reduceCtorEq]

theorem unsignedBits_iff {s : Str} {x : F64} : unsignedBits s = some x.toNat ↔ UnsignedText s x := by
  have hinf : infinity.toNat = 2047 * 2 ^ 52 := by decide
  have hnan : quietNan.toNat = 2047 * 2 ^ 52 + 2 ^ 51 := by decide
  constructor
  · intro h
    unfold unsignedBits at h
    cases hn : parseNumber s with
    | some n =>
      rw [hn] at h
      obtain ⟨v, h1, h2⟩ := numeral_of_parseNumber hn
      exact .number h1 ((h2 x).2 (Option.some.inj h).symm)
    | none =>
      rw [hn] at h
      rcases parseInfNan_iff.1 h with ⟨h1 | h1, h2⟩ | ⟨h1, h2⟩
      · rw [← hinf] at h2; rw [BitVec.eq_of_toNat_eq h2]; exact .inf h1
      · rw [← hinf] at h2; rw [BitVec.eq_of_toNat_eq h2]; exact .infinity h1
      · rw [← hnan] at h2; rw [BitVec.eq_of_toNat_eq h2]; exact .nan h1
  · intro h
    unfold unsignedBits
    cases h with
    | number h1 h2 =>
      obtain ⟨n, h3, h4⟩ := parseNumber_numeral h1
      rw [h3, (h4 x).1 h2]
    | inf h =>
      obtain ⟨c, r, rfl, hc⟩ := word_head (.inl h)
      rw [parseNumber_letter hc]
      exact parseInfNan_iff.2 (.inl ⟨.inl h, hinf⟩)
    | infinity h =>
      obtain ⟨c, r, rfl, hc⟩ := word_head (.inr (.inl h))
      rw [parseNumber_letter hc]
      exact parseInfNan_iff.2 (.inl ⟨.inr h, hinf⟩)
    | nan h =>
      obtain ⟨c, r, rfl, hc⟩ := word_head (.inr (.inr h))
      rw [parseNumber_letter hc]
      exact parseInfNan_iff.2 (.inr ⟨h, hnan⟩)

theorem unsignedText_head {t : Str} {x : F64} (h : UnsignedText t x) : ∃ c r, t = c :: r ∧ c ≠ '-' ∧ c ≠ '+' := by
  have words (h : AnyCase t "inf".toList ∨ AnyCase t "infinity".toList ∨ AnyCase t "nan".toList) :
      ∃ c r, t = c :: r ∧ c ≠ '-' ∧ c ≠ '+' := by
    obtain ⟨c, r, rfl, hc⟩ := word_head h
    refine ⟨c, r, rfl, ?_, ?_⟩ <;> rintro rfl <;> revert hc <;> decide
  cases h with
  | number h _ =>
    obtain ⟨c, r, rfl, hc⟩ := numeralText_head h
    refine ⟨c, r, rfl, ?_, ?_⟩ <;> rintro rfl <;> revert hc <;> decide
  | inf h => exact words (.inl h)
  | infinity h => exact words (.inr (.inl h))
  | nan h => exact words (.inr (.inr h))

theorem unsignedText_bits {t : Str} {x : F64} (h : UnsignedText t x) : x.toNat < 2 ^ 63 := by
  cases h with
  | number _ h => exact h.1
  | inf | infinity | nan => decide

theorem roundBits_le (a b : Nat) : roundBits a b ≤ 2047 * 2 ^ 52 := by unfold roundBits; simp only; omega

theorem parseNumber_le {s : Str} {n : Nat} (h : parseNumber s = some n) : n ≤ 2047 * 2 ^ 52 := by
  obtain ⟨t, w, m, f, rfl, ht, hw⟩ := parseNumber_some h
  cases w with
  | nil => rw [← Option.some.inj hw]; exact roundBits_le _ _
  | cons c r =>
    unfold afterPoint at hw
    simp only at hw
    by_cases hc : c = 'e' ∨ c = 'E'
    · rw [if_pos hc, Option.map_eq_some_iff] at hw
      obtain ⟨e, _, rfl⟩ := hw
      exact roundBits_le _ _
    · rw [if_neg hc] at hw; cases hw

theorem unsignedBits_lt {s : Str} {n : Nat} (h : unsignedBits s = some n) : n < 2 ^ 63 := by
  unfold unsignedBits at h
  cases hn : parseNumber s with
  | some m => rw [hn] at h; cases h; have := parseNumber_le hn; omega
  | none =>
    rw [hn] at h
    rcases parseInfNan_iff.1 h with ⟨_, h2⟩ | ⟨_, h2⟩ <;> omega

theorem withSign_plus {x : F64} : withSign false x.toNat = x := by
  apply BitVec.eq_of_toNat_eq
  have := x.isLt
  unfold withSign
  rw [if_neg (by simp), BitVec.toNat_ofNat]
  omega

theorem withSign_minus {x : F64} : withSign true x.toNat = opposite x := by
  apply BitVec.eq_of_toNat_eq
  unfold withSign opposite
  rw [if_pos rfl, BitVec.toNat_ofNat, BitVec.toNat_add, BitVec.toNat_ofNat]
  omega

theorem parse_eq (c : Char) (cs : Str) : parse (c :: cs) =
    if c = '-' then (if cs = [] then none else (unsignedBits cs).map (withSign true))
    else if c = '+' then (if cs = [] then none else (unsignedBits cs).map (withSign false))
    else (unsignedBits (c :: cs)).map (withSign false) := by
  have main (body : Str) (n : Bool) : (if body = [] then none else match parseNumber body with
      | some bits => some (withSign n bits)
      | none => (parseInfNan body).map (withSign n)) = if body = [] then none else (unsignedBits body).map (withSign n) := by
    unfold unsignedBits
    cases parseNumber body <;> rfl
  refine (main _ _).trans ?_
  by_cases h1 : c = '-'
  · subst h1
    rw [if_pos rfl, if_pos (show ('-' : Char) = '-' ∨ ('-' : Char) = '+' from .inl rfl)]
    rfl
  · have hc : (c == '-') = false := by simpa using h1
    rw [if_neg h1, hc]
    by_cases h2 : c = '+'
    · rw [if_pos h2, if_pos (show c = '-' ∨ c = '+' from .inr h2)]
    · rw [if_neg h2, if_neg (show ¬ (c = '-' ∨ c = '+') from fun h => h.elim h1 h2), if_neg (by simp)]

/-- Reading gives the double that the text stands for. -/
theorem parseDouble_iff {s : Str} {x : F64} : parse s = some x ↔ DoubleText s x := by
  have ne {s : Str} {x : F64} (h : unsignedBits s = some x.toNat) : s ≠ [] := by
    rintro rfl
    cases h
  constructor
  · intro h
    cases s with
    | nil => cases h
    | cons c cs =>
      have lift {n : Nat} (hn : n < 2 ^ 63) : (BitVec.ofNat 64 n).toNat = n := by
        rw [BitVec.toNat_ofNat]; omega
      rw [parse_eq] at h
      split_ifs at h with h1 h2 h3 h4
      · subst h1
        obtain ⟨n, hn, rfl⟩ := Option.map_eq_some_iff.1 h
        have e := lift (unsignedBits_lt hn)
        rw [← e, withSign_minus]
        exact .minus (t := cs) (unsignedBits_iff.1 (by rw [e]; exact hn))
      · subst h3
        obtain ⟨n, hn, rfl⟩ := Option.map_eq_some_iff.1 h
        have e := lift (unsignedBits_lt hn)
        rw [← e, withSign_plus]
        exact .plus (t := cs) (unsignedBits_iff.1 (by rw [e]; exact hn))
      · obtain ⟨n, hn, rfl⟩ := Option.map_eq_some_iff.1 h
        have e := lift (unsignedBits_lt hn)
        rw [← e, withSign_plus]
        exact .plain (unsignedBits_iff.1 (by rw [e]; exact hn))
  · intro h
    cases h with
    | plain h =>
      obtain ⟨c, r, rfl, h1, h2⟩ := unsignedText_head h
      rw [parse_eq, if_neg h1, if_neg h2, unsignedBits_iff.2 h, Option.map_some, withSign_plus]
    | @plus t x h =>
      have e := unsignedBits_iff.2 h
      rw [show "+".toList ++ t = '+' :: t from rfl, parse_eq, if_neg (by decide), if_pos rfl, if_neg (ne e), e,
        Option.map_some, withSign_plus]
    | @minus t x h =>
      have e := unsignedBits_iff.2 h
      rw [show "-".toList ++ t = '-' :: t from rfl, parse_eq, if_pos rfl, if_neg (ne e), e, Option.map_some, withSign_minus]

end Proofs
