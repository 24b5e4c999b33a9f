import Verif.Proofs.DecimalRead

/- Writing of doubles: `F64.show` writes the shortest text that is read as the double. -/

namespace Proofs
open Rust Rust.F64 Spec Compose

/-! ### Digits -/

theorem decimal_append_list (a b : Str) : decimal (a ++ b) = decimal a * 10 ^ b.length + decimal b := by
  induction b using List.reverseRecOn with
  | nil => simp [decimal]
  | append_singleton b c ih =>
    rw [← List.append_assoc, decimal_append, ih, decimal_append, List.length_append, List.length_singleton, Nat.pow_succ]
    ring

theorem decimal_replicate (k : Nat) : decimal (List.replicate k '0') = 0 := by
  induction k with
  | zero => rfl
  | succ k ih => rw [List.replicate_succ', decimal_append, ih]; rfl

theorem length_showNat_le {n f : Nat} (hf : 0 < f) (h : n < 10 ^ f) : (showNat n).length ≤ f :=
  (Nat.length_toDigits_le_iff (by decide) hf).2 h

theorem length_padded {n f : Nat} (hf : 0 < f) (h : n < 10 ^ f) : (padded f n).length = f := by
  have := length_showNat_le hf h
  unfold padded
  rw [List.length_append, List.length_replicate]
  omega

theorem decimal_padded (f n : Nat) : decimal (padded f n) = n := by
  unfold padded
  rw [decimal_append_list, decimal_replicate, decimal_showNat]
  omega

theorem digits_padded (f n : Nat) : Digits (padded f n) := by
  rw [digits_iff]
  intro c hc
  unfold padded at hc
  rcases List.mem_append.1 hc with h | h
  · rw [(List.mem_replicate.1 h).2]; decide
  · exact isDigit_of_mem_showNat h

theorem digits_showNat (n : Nat) : Digits (showNat n) := digits_iff.2 fun _ => isDigit_of_mem_showNat

theorem getLast_showNat (n : Nat) (h : n % 10 ≠ 0) : (showNat n).getLast? ≠ some '0' := by
  have small : ∀ d, d < 10 → d ≠ 0 → (showNat d).getLast? ≠ some '0' := by decide
  by_cases hn : n < 10
  · exact small n hn (by omega)
  · have h1 : showNat n = showNat (n / 10) ++ showNat (n % 10) := by
      rw [← showNat_step (by omega) (by omega)]
      congr 1; omega
    rw [h1, List.getLast?_append_of_ne_nil _ (showNat_ne_nil _)]
    exact small _ (by omega) h

theorem getLast_padded (f n : Nat) (h : n % 10 ≠ 0) : (padded f n).getLast? ≠ some '0' := by
  unfold padded
  rw [List.getLast?_append_of_ne_nil _ (showNat_ne_nil _)]
  exact getLast_showNat n h

theorem padded_ne_nil (f n : Nat) : padded f n ≠ [] := by
  unfold padded
  intro h
  exact showNat_ne_nil n (List.append_eq_nil_iff.1 h).2

/-- The power of ten with this index. -/
def ten (i : Nat) : ℚ := (10 : ℚ) ^ ((309 : ℤ) - i)

theorem ten_pos (i : Nat) : 0 < ten i := by unfold ten; positivity

theorem ten_div (i : Nat) : ten i = ((10 ^ (309 - i) : ℕ) : ℚ) / ((10 ^ (i - 309) : ℕ) : ℚ) := by
  unfold ten
  push_cast
  rcases Nat.le_total i 309 with h | h
  · have e : ((309 : ℤ) - i) = ((309 - i : ℕ) : ℤ) := by omega
    rw [e, zpow_natCast, show i - 309 = 0 by omega, pow_zero, div_one]
  · have e : ((309 : ℤ) - i) = -((i - 309 : ℕ) : ℤ) := by omega
    rw [e, zpow_neg, zpow_natCast, show 309 - i = 0 by omega, pow_zero, one_div]

theorem decimalText_value (c i : Nat) : PointText (decimalText c i) (c * ten i) := by
  unfold decimalText
  by_cases hi : i ≤ 309
  · rw [if_pos hi]
    refine ⟨showNat (c * 10 ^ (309 - i)), [], digits_showNat _, (fun c hc => by cases hc), by simpa using showNat_ne_nil _, .inl ⟨rfl, rfl⟩, ?_⟩
    rw [List.append_nil, decimal_showNat, ten_div, show i - 309 = 0 by omega]
    simp
  · rw [if_neg hi]
    have hf : 0 < i - 309 := by omega
    have hpos : 0 < 10 ^ (i - 309) := Nat.pow_pos (by decide)
    have hlt : c % 10 ^ (i - 309) < 10 ^ (i - 309) := Nat.mod_lt _ hpos
    refine ⟨showNat (c / 10 ^ (i - 309)), padded (i - 309) (c % 10 ^ (i - 309)), digits_showNat _, digits_padded _ _, ?_,
      .inr (by simp), ?_⟩
    · intro h; exact showNat_ne_nil _ (List.append_eq_nil_iff.1 h).1
    · rw [decimal_append_list, decimal_showNat, decimal_padded, length_padded hf hlt, ten_div, show 309 - i = 0 by omega,
        Nat.div_add_mod']
      simp [div_eq_mul_inv]

theorem decimalText_tidy (c i : Nat) (h : 309 < i → c % 10 ≠ 0) : TidyText (decimalText c i) := by
  unfold decimalText
  by_cases hi : i ≤ 309
  · rw [if_pos hi]; exact ⟨_, .inl rfl⟩
  · rw [if_neg hi]
    refine ⟨c / 10 ^ (i - 309), .inr ⟨padded (i - 309) (c % 10 ^ (i - 309)), padded_ne_nil _ _, getLast_padded _ _ ?_, by simp⟩⟩
    have hd : 10 ∣ 10 ^ (i - 309) := dvd_pow_self 10 (by omega)
    rw [Nat.mod_mod_of_dvd _ hd]
    exact h (by omega)

/-! ### The multiples next to the double -/

private theorem floor_le {U p A B : Nat} (hp : 0 < p) (hA : 0 < A) (hB : 0 < B) :
    ((U * B / (p * A) : ℕ) : ℚ) * ((A : ℚ) / B) ≤ (U : ℚ) / p ∧
      (U : ℚ) / p < ((U * B / (p * A) + 1 : ℕ) : ℚ) * ((A : ℚ) / B) := by
  have hpq : (0 : ℚ) < p := by exact_mod_cast hp
  have hBq : (0 : ℚ) < B := by exact_mod_cast hB
  have h1 : U * B / (p * A) * (p * A) ≤ U * B := Nat.div_mul_le_self _ _
  have h2 : U * B < (U * B / (p * A) + 1) * (p * A) := by
    have := Nat.lt_mul_div_succ (U * B) (Nat.mul_pos hp hA)
    rwa [Nat.mul_comm (p * A)] at this
  generalize U * B / (p * A) = l at *
  have h1' : (l : ℚ) * (p * A) ≤ U * B := by exact_mod_cast h1
  have h2' : (U : ℚ) * B < ((l + 1 : ℕ) : ℚ) * (p * A) := by exact_mod_cast h2
  constructor
  · rw [← mul_div_assoc, div_le_div_iff₀ hBq hpq]
    calc (l : ℚ) * A * p = l * (p * A) := by ring
      _ ≤ U * B := h1'
  · rw [← mul_div_assoc, div_lt_div_iff₀ hpq hBq]
    calc (U : ℚ) * B < ((l + 1 : ℕ) : ℚ) * (p * A) := h2'
      _ = _ := by ring

private theorem closer_iff {U p A B : Nat} (hp : 0 < p) (hA : 0 < A) (hB : 0 < B) :
    (p * A ≤ 2 * (U * B % (p * A)) ↔ ((U * B / (p * A) + 1 : ℕ) : ℚ) * ((A : ℚ) / B) - (U : ℚ) / p ≤
      (U : ℚ) / p - ((U * B / (p * A) : ℕ) : ℚ) * ((A : ℚ) / B)) ∧
    (2 * (U * B % (p * A)) ≤ p * A ↔ (U : ℚ) / p - ((U * B / (p * A) : ℕ) : ℚ) * ((A : ℚ) / B) ≤
      ((U * B / (p * A) + 1 : ℕ) : ℚ) * ((A : ℚ) / B) - (U : ℚ) / p) := by
  have hpq : (0 : ℚ) < p := by exact_mod_cast hp
  have hBq : (0 : ℚ) < B := by exact_mod_cast hB
  have e : p * A * (U * B / (p * A)) + U * B % (p * A) = U * B := Nat.div_add_mod _ _
  generalize U * B / (p * A) = l at *
  generalize U * B % (p * A) = r at *
  have e' : (p : ℚ) * A * l + r = U * B := by exact_mod_cast e
  have eu : (U : ℚ) / p = (p * A * l + r) / (p * B) := by
    rw [e']; field_simp
  have el : (l : ℚ) * ((A : ℚ) / B) = p * A * l / (p * B) := by field_simp
  have el1 : ((l + 1 : ℕ) : ℚ) * ((A : ℚ) / B) = p * A * (l + 1) / (p * B) := by push_cast; field_simp
  have hpB : (0 : ℚ) < p * B := mul_pos hpq hBq
  rw [eu, el, el1, ← sub_div, ← sub_div, div_le_div_iff_of_pos_right hpB, div_le_div_iff_of_pos_right hpB]
  constructor
  · rw [← Nat.cast_le (α := ℚ)]
    push_cast
    constructor <;> intro h <;> linarith
  · rw [← Nat.cast_le (α := ℚ)]
    push_cast
    constructor <;> intro h <;> linarith

/-- The number that the bits stand for. -/
def bitsValue (bits : Nat) : ℚ := (units bits : ℚ) / ((2 ^ 1074 : ℕ) : ℚ)

theorem bitsValue_eq (bits : Nat) : bitsValue bits = (units bits : ℚ) / 2 ^ 1074 := by
  unfold bitsValue; rw [Nat.cast_pow, Nat.cast_ofNat]

theorem lower_le (bits i : Nat) : (lower bits i : ℚ) * ten i ≤ bitsValue bits ∧
    bitsValue bits < ((lower bits i + 1 : ℕ) : ℚ) * ten i := by
  rw [ten_div]
  exact floor_le (Nat.two_pow_pos 1074) (Nat.pow_pos (by decide)) (Nat.pow_pos (by decide))

theorem nextCloser_true {t : Bool} {bits i : Nat} (h : nextCloser t bits i = true) :
    ((lower bits i + 1 : ℕ) : ℚ) * ten i - bitsValue bits ≤ bitsValue bits - lower bits i * ten i := by
  rw [ten_div]
  refine (closer_iff (Nat.two_pow_pos 1074) (Nat.pow_pos (by decide)) (Nat.pow_pos (by decide))).1.1 ?_
  unfold nextCloser at h
  simp only [Bool.or_eq_true, decide_eq_true_eq, Bool.and_eq_true, beq_iff_eq] at h
  generalize 2 ^ 1074 * 10 ^ (309 - i) = d at *
  omega

theorem nextCloser_false {t : Bool} {bits i : Nat} (h : nextCloser t bits i = false) :
    bitsValue bits - lower bits i * ten i ≤ ((lower bits i + 1 : ℕ) : ℚ) * ten i - bitsValue bits := by
  rw [ten_div]
  refine (closer_iff (Nat.two_pow_pos 1074) (Nat.pow_pos (by decide)) (Nat.pow_pos (by decide))).2.1 ?_
  unfold nextCloser at h
  simp only [Bool.or_eq_false_iff, decide_eq_false_iff_not] at h
  generalize 2 ^ 1074 * 10 ^ (309 - i) = d at *
  omega

/-! ### Which multiples are read as the double -/

theorem reads_iff {x : F64} {i c : Nat} : reads x.toNat i c = true ↔ RoundsTo (c * ten i) x := by
  unfold reads
  rw [beq_iff_eq, eq_comm, ← roundsTo_iff (Nat.pow_pos (by decide)), ten_div]
  push_cast
  rw [mul_div_assoc]

theorem roundsTo_value {x : F64} (h : x.toNat < 2047 * 2 ^ 52) : RoundsTo (bitsValue x.toNat) x := by
  unfold bitsValue
  rw [roundsTo_iff (Nat.two_pow_pos 1074), roundBits_eq, nextBits_exact (n := x.toNat) (Nat.two_pow_pos 1074)]
  · omega
  · have : ((2 ^ 1074 : ℕ) : ℚ) = 2 ^ 1074 := by rw [Nat.cast_pow, Nat.cast_ofNat]
    rw [this]
    exact div_mul_cancel₀ _ (by positivity)

/-- What lies between numbers that are rounded to `x` is rounded to `x`. -/
theorem roundsTo_between {a b a1 b1 a2 b2 : Nat} {x : F64} (hb : 0 < b) (hb1 : 0 < b1) (hb2 : 0 < b2)
    (h1 : RoundsTo ((a1 : ℚ) / b1) x) (h2 : RoundsTo ((a2 : ℚ) / b2) x) (h : (a1 : ℚ) / b1 ≤ (a : ℚ) / b)
    (h' : (a : ℚ) / b ≤ (a2 : ℚ) / b2) : RoundsTo ((a : ℚ) / b) x := by
  rw [roundsTo_iff hb1] at h1
  rw [roundsTo_iff hb2] at h2
  rw [roundsTo_iff hb]
  have := roundBits_mono hb1 hb h
  have := roundBits_mono hb hb2 h'
  omega

theorem mul_ten (c i : Nat) : (c : ℚ) * ten i = ((c * 10 ^ (309 - i) : ℕ) : ℚ) / ((10 ^ (i - 309) : ℕ) : ℚ) := by
  rw [ten_div, Nat.cast_mul, mul_div_assoc]

theorem reads_lower {x : F64} {i c : Nat} (hx : x.toNat < 2047 * 2 ^ 52) (h : RoundsTo (c * ten i) x)
    (hc : c ≤ lower x.toNat i) : RoundsTo (lower x.toNat i * ten i) x := by
  have hq := roundsTo_value hx
  have hle := (lower_le x.toNat i).1
  have hc' : (c : ℚ) * ten i ≤ lower x.toNat i * ten i :=
    mul_le_mul_of_nonneg_right (by exact_mod_cast hc) (ten_pos i).le
  rw [mul_ten] at h hc' hle ⊢
  rw [mul_ten] at hc'
  unfold bitsValue at hq hle
  exact roundsTo_between (Nat.pow_pos (by decide)) (Nat.pow_pos (by decide)) (Nat.two_pow_pos _) h hq hc' hle

theorem reads_upper {x : F64} {i c : Nat} (hx : x.toNat < 2047 * 2 ^ 52) (h : RoundsTo (c * ten i) x)
    (hc : lower x.toNat i + 1 ≤ c) : RoundsTo ((lower x.toNat i + 1 : ℕ) * ten i) x := by
  have hq := roundsTo_value hx
  have hle := (lower_le x.toNat i).2.le
  have hc' : ((lower x.toNat i + 1 : ℕ) : ℚ) * ten i ≤ c * ten i :=
    mul_le_mul_of_nonneg_right (by exact_mod_cast hc) (ten_pos i).le
  rw [mul_ten] at h hc' hle ⊢
  rw [mul_ten] at hc'
  unfold bitsValue at hq hle
  exact roundsTo_between (Nat.pow_pos (by decide)) (Nat.two_pow_pos _) (Nat.pow_pos (by decide)) hq h hle hc'

/-- Whether the power of ten has a multiple that is read as the double. -/
theorem reads_some {x : F64} {i c : Nat} (hx : x.toNat < 2047 * 2 ^ 52) (h : RoundsTo (c * ten i) x) :
    (reads x.toNat i (lower x.toNat i) || reads x.toNat i (lower x.toNat i + 1)) = true := by
  rw [Bool.or_eq_true, reads_iff, reads_iff]
  rcases Nat.lt_or_ge (lower x.toNat i) c with hc | hc
  · exact .inr (reads_upper hx h hc)
  · exact .inl (reads_lower hx h hc)

theorem exact_multiple (bits : Nat) : bitsValue bits = ((units bits * 5 ^ 1074 : ℕ) : ℚ) * ten 1383 := by
  have e : (10 ^ 1074 : ℕ) = 2 ^ 1074 * 5 ^ 1074 := by rw [← Nat.mul_pow]
  rw [mul_ten, show 309 - 1383 = 0 from rfl, show 1383 - 309 = 1074 from rfl, e]
  unfold bitsValue
  have h2 : 0 < 2 ^ 1074 := Nat.two_pow_pos _
  have h5 : 0 < 5 ^ 1074 := Nat.pow_pos (by decide)
  generalize 2 ^ 1074 = p at *
  generalize 5 ^ 1074 = r at *
  have hp : (p : ℚ) ≠ 0 := by exact_mod_cast h2.ne'
  have hr : (r : ℚ) ≠ 0 := by exact_mod_cast h5.ne'
  push_cast
  field_simp

/-- The search finds the largest power. -/
theorem search {x : F64} (hx : x.toNat < 2047 * 2 ^ 52) (tieUp : Nat → Bool) :
    (shortest tieUp x.toNat).2 < 1384 ∧
    (reads x.toNat (shortest tieUp x.toNat).2 (lower x.toNat (shortest tieUp x.toNat).2) ||
      reads x.toNat (shortest tieUp x.toNat).2 (lower x.toNat (shortest tieUp x.toNat).2 + 1)) = true ∧
    ∀ j c : ℕ, RoundsTo (c * ten j) x → (shortest tieUp x.toNat).2 ≤ j := by
  set P : Nat → Bool := fun i => reads x.toNat i (lower x.toNat i) || reads x.toNat i (lower x.toNat i + 1) with hP
  have hlast : P 1383 = true := by
    have := roundsTo_value hx
    rw [exact_multiple] at this
    exact reads_some (i := 1383) hx this
  have hi : (shortest tieUp x.toNat).2 = ((List.range 1384).find? P).getD 1383 := by
    unfold shortest
    dsimp only [P]
  rw [hi]
  cases hf : (List.range 1384).find? P with
  | none =>
    have hm : 1383 ∈ List.range 1384 := List.mem_range.2 (by omega)
    exact absurd hlast (List.find?_eq_none.1 hf 1383 hm)
  | some i =>
    rw [Option.getD_some]
    have h1 := List.find?_some hf
    have h2 := List.mem_of_find?_eq_some hf
    refine ⟨List.mem_range.1 h2, h1, fun j c hj => ?_⟩
    by_contra hlt
    have hji : j < i := by omega
    have hPj : P j = true := reads_some hx hj
    rw [List.find?_range_eq_some] at hf
    have := hf.2.2 j hji
    simp [hPj] at this

theorem shortest_fst (tieUp : Nat → Bool) (bits : Nat) : (shortest tieUp bits).1 =
    if reads bits (shortest tieUp bits).2 (lower bits (shortest tieUp bits).2 + 1) &&
        (!reads bits (shortest tieUp bits).2 (lower bits (shortest tieUp bits).2) ||
          nextCloser (tieUp bits) bits (shortest tieUp bits).2) then
      lower bits (shortest tieUp bits).2 + 1
    else lower bits (shortest tieUp bits).2 := by
  unfold shortest
  dsimp only

theorem shortest_spec {x : F64} (hx : x.toNat < 2047 * 2 ^ 52) (tieUp : Nat → Bool) :
    RoundsTo ((shortest tieUp x.toNat).1 * ten (shortest tieUp x.toNat).2) x ∧
    (∀ j c : ℕ, RoundsTo (c * ten j) x → (shortest tieUp x.toNat).2 ≤ j) ∧
    ∀ c : ℕ, RoundsTo (c * ten (shortest tieUp x.toNat).2) x →
      |(shortest tieUp x.toNat).1 * ten (shortest tieUp x.toNat).2 - bitsValue x.toNat| ≤
        |c * ten (shortest tieUp x.toNat).2 - bitsValue x.toNat| := by
  obtain ⟨_, hsome, hmax⟩ := search hx tieUp
  have hc := shortest_fst tieUp x.toNat
  refine ⟨?_, hmax, ?_⟩
  all_goals
    generalize (shortest tieUp x.toNat).1 = c at *
    generalize (shortest tieUp x.toNat).2 = i at *
  · by_cases h : (reads x.toNat i (lower x.toNat i + 1) && (!reads x.toNat i (lower x.toNat i) || nextCloser (tieUp x.toNat) x.toNat i)) = true
    · rw [if_pos h] at hc
      rw [hc]
      rw [Bool.and_eq_true] at h
      exact reads_iff.1 h.1
    · rw [if_neg h] at hc
      rw [hc]
      apply reads_iff.1
      revert h hsome
      cases reads x.toNat i (lower x.toNat i) <;> cases reads x.toNat i (lower x.toNat i + 1) <;> simp
  · obtain ⟨l1, l2⟩ := lower_le x.toNat i
    have below : ∀ c', c' ≤ lower x.toNat i → bitsValue x.toNat - lower x.toNat i * ten i ≤ |(c' : ℚ) * ten i - bitsValue x.toNat| := by
      intro c' h
      have : (c' : ℚ) * ten i ≤ lower x.toNat i * ten i := mul_le_mul_of_nonneg_right (by exact_mod_cast h) (ten_pos i).le
      rw [abs_of_nonpos (by linarith)]
      linarith
    have above : ∀ c', lower x.toNat i + 1 ≤ c' →
        ((lower x.toNat i + 1 : ℕ) : ℚ) * ten i - bitsValue x.toNat ≤ |(c' : ℚ) * ten i - bitsValue x.toNat| := by
      intro c' h
      have : ((lower x.toNat i + 1 : ℕ) : ℚ) * ten i ≤ c' * ten i := mul_le_mul_of_nonneg_right (by exact_mod_cast h) (ten_pos i).le
      rw [abs_of_nonneg (by linarith)]
      linarith
    intro c' h'
    by_cases h : (reads x.toNat i (lower x.toNat i + 1) && (!reads x.toNat i (lower x.toNat i) || nextCloser (tieUp x.toNat) x.toNat i)) = true
    · rw [if_pos h] at hc
      rw [hc, abs_of_nonneg (by linarith)]
      rw [Bool.and_eq_true, Bool.or_eq_true, Bool.not_eq_true'] at h
      rcases Nat.lt_or_ge (lower x.toNat i) c' with hlt | hge
      · exact above c' hlt
      · have := reads_iff.2 (reads_lower hx h' hge)
        rcases h.2 with h2 | h2
        · rw [h2] at this; cases this
        · exact (nextCloser_true h2).trans (below c' hge)
    · rw [if_neg h] at hc
      rw [hc, abs_of_nonpos (by linarith), neg_sub]
      rcases Nat.lt_or_ge (lower x.toNat i) c' with hlt | hge
      · have h1 := reads_iff.2 (reads_upper hx h' hlt)
        rw [h1, Bool.true_and, Bool.or_eq_true, Bool.not_eq_true'] at h
        have h2 : nextCloser (tieUp x.toNat) x.toNat i = false := by
          cases hb : nextCloser (tieUp x.toNat) x.toNat i with
          | false => rfl
          | true => exact absurd (.inr hb) h
        exact (nextCloser_false h2).trans (above c' hlt)
      · exact below c' hge

/-- Zero is rounded to zero. -/
theorem roundBits_zero (b : Nat) : roundBits 0 b = 0 := by
  unfold roundBits halfEven
  simp [Nat.log2]

theorem ten_limit : ((2 ^ 1024 : ℕ) : ℚ) ≤ ((10 ^ 309 : ℕ) : ℚ) := by
  rw [Nat.cast_le]
  decide +kernel

/-- The digits of the shortest text, and the power of ten of the last one. -/
theorem shortest_core {x : F64} (h0 : 0 < x.toNat) (hx : x.toNat < 2047 * 2 ^ 52) (tieUp : Nat → Bool) :
    RoundsTo ((shortest tieUp x.toNat).1 * 10 ^ ((309 : ℤ) - (shortest tieUp x.toNat).2)) x ∧
    (∀ (c : ℕ) (k : ℤ), RoundsTo (c * 10 ^ k) x → k ≤ (309 : ℤ) - (shortest tieUp x.toNat).2) ∧
    (∀ c : ℕ, RoundsTo (c * 10 ^ ((309 : ℤ) - (shortest tieUp x.toNat).2)) x →
      |(shortest tieUp x.toNat).1 * 10 ^ ((309 : ℤ) - (shortest tieUp x.toNat).2) - (units x.toNat : ℚ) / 2 ^ 1074| ≤
        |c * 10 ^ ((309 : ℤ) - (shortest tieUp x.toNat).2) - (units x.toNat : ℚ) / 2 ^ 1074|) ∧
    (shortest tieUp x.toNat).1 % 10 ≠ 0 := by
  obtain ⟨h1, h2, h3⟩ := shortest_spec hx tieUp
  generalize (shortest tieUp x.toNat).1 = c at *
  generalize (shortest tieUp x.toNat).2 = i at *
  have hmax : ∀ (c' : ℕ) (k' : ℤ), RoundsTo (c' * 10 ^ k') x → k' ≤ (309 : ℤ) - i := by
    intro c' k' hr
    by_cases hk : k' ≤ 309
    · obtain ⟨j, hj⟩ : ∃ j : ℕ, k' = (309 : ℤ) - j := ⟨(309 - k').toNat, by omega⟩
      subst hj
      have := h2 j c' hr
      omega
    · exfalso
      have hc0 : c' ≠ 0 := by
        rintro rfl
        have : RoundsTo (((0 : ℕ) : ℚ) / ((1 : ℕ) : ℚ)) x := by simpa using hr
        rw [roundsTo_iff (by decide), roundBits_zero] at this
        omega
      have hbig : (2 : ℚ) ^ 1024 - 2 ^ 970 ≤ c' * 10 ^ k' := by
        have a1 : (2 : ℚ) ^ 1024 - 2 ^ 970 ≤ 2 ^ 1024 := sub_le_self _ (by positivity)
        have a2 : (2 : ℚ) ^ 1024 ≤ 10 ^ 309 := by
          have := ten_limit
          rwa [Nat.cast_pow, Nat.cast_pow, Nat.cast_ofNat, Nat.cast_ofNat] at this
        have a3 : (10 : ℚ) ^ 309 ≤ 10 ^ k' := by
          rw [← zpow_natCast]
          exact zpow_le_zpow_right₀ (by norm_num) (by push_cast; omega)
        have a4 : (10 : ℚ) ^ k' ≤ c' * 10 ^ k' :=
          le_mul_of_one_le_left (by positivity) (by exact_mod_cast Nat.one_le_iff_ne_zero.2 hc0)
        exact a1.trans (a2.trans (a3.trans a4))
      have := hr.2.2 hbig
      rw [this] at hx
      revert hx
      decide
  refine ⟨h1, hmax, ?_, fun h10 => ?_⟩
  · intro c' hr
    have := h3 c' hr
    rwa [bitsValue_eq] at this
  · obtain ⟨d, rfl⟩ : ∃ d, c = 10 * d := ⟨c / 10, by omega⟩
    have : ((10 * d : ℕ) : ℚ) * ten i = (d : ℚ) * 10 ^ ((309 : ℤ) - i + 1) := by
      unfold ten
      rw [zpow_add₀ (by norm_num)]
      push_cast
      ring
    rw [this] at h1
    have := hmax _ _ h1
    omega

theorem shortestText {x : F64} (h0 : 0 < x.toNat) (hx : x.toNat < 2047 * 2 ^ 52) (tieUp : Nat → Bool) :
    ShortestText (decimalText (shortest tieUp x.toNat).1 (shortest tieUp x.toNat).2) x := by
  obtain ⟨h1, h2, h3, h4⟩ := shortest_core h0 hx tieUp
  exact ⟨_, _, _, floatValue_of_bits hx, h1, h2, h3, decimalText_value _ _, decimalText_tidy _ _ fun _ => h4⟩

/-- How a double without a sign is written. -/
theorem show_unsigned {x : F64} (hx : x.toNat ≤ 2047 * 2 ^ 52) (tieUp : Nat → Bool) :
    ∃ t, WrittenUnsigned t x ∧ F64.show tieUp x = t ∧ F64.show tieUp (opposite x) = '-' :: t := by
  have hm : x.toNat % 2 ^ 63 = x.toNat := by omega
  have ho : (opposite x).toNat = x.toNat + 2 ^ 63 := by
    unfold opposite
    rw [BitVec.toNat_add, BitVec.toNat_ofNat]
    omega
  have hom : (opposite x).toNat % 2 ^ 63 = x.toNat := by omega
  have s1 : x.msb = false := by
    rw [BitVec.msb_eq_decide]; simp; omega
  have s2 : (opposite x).msb = true := by
    rw [BitVec.msb_eq_decide, ho]; simp
  have key : ∃ t, WrittenUnsigned t x ∧ ∀ sign : Str,
      (if 2047 * 2 ^ 52 < x.toNat then str!"NaN"
        else if x.toNat = 2047 * 2 ^ 52 then sign ++ str!"inf"
        else if x.toNat = 0 then sign ++ str!"0"
        else sign ++ decimalText (shortest tieUp x.toNat).1 (shortest tieUp x.toNat).2) = sign ++ t := by
    by_cases h1 : x.toNat = 2047 * 2 ^ 52
    · have : x = infinity := BitVec.eq_of_toNat_eq (h1.trans (by decide))
      refine ⟨"inf".toList, by rw [this]; exact .infinity, fun sign => ?_⟩
      rw [if_neg (by omega), if_pos h1]
      rfl
    · by_cases h2 : x.toNat = 0
      · have : x = 0#64 := BitVec.eq_of_toNat_eq h2
        refine ⟨"0".toList, by rw [this]; exact .zero, fun sign => ?_⟩
        rw [if_neg (by omega), if_neg h1, if_pos h2]
        rfl
      · have hlt : x.toNat < 2047 * 2 ^ 52 := by omega
        refine ⟨_, .positive (floatValue_of_bits hlt) ?_ (shortestText (by omega) hlt tieUp), fun sign => ?_⟩
        · refine div_pos ?_ (by positivity)
          have : units 0 < units x.toNat := units_strictMono (by omega)
          exact_mod_cast Nat.zero_lt_of_lt this
        · rw [if_neg (by omega), if_neg h1, if_neg h2]
  obtain ⟨t, h1, h2⟩ := key
  refine ⟨t, h1, ?_, ?_⟩
  · have := h2 []
    unfold F64.show
    simp only [hm, s1]
    exact this
  · have := h2 str!"-"
    unfold F64.show
    simp only [hom, s2]
    exact this

theorem opposite_opposite (x : F64) : opposite (opposite x) = x := by
  apply BitVec.eq_of_toNat_eq
  have := x.isLt
  unfold opposite
  rw [BitVec.toNat_add, BitVec.toNat_add, BitVec.toNat_ofNat]
  omega

theorem opposite_bits {x : F64} (h : 2 ^ 63 ≤ x.toNat) : (opposite x).toNat = x.toNat % 2 ^ 63 := by
  have := x.isLt
  unfold opposite
  rw [BitVec.toNat_add, BitVec.toNat_ofNat]
  omega

theorem show_nan {tieUp : Nat → Bool} {x : F64} (hn : 2047 * 2 ^ 52 < x.toNat % 2 ^ 63) :
    F64.show tieUp x = "NaN".toList := by
  unfold F64.show
  simp only [hn, if_true]
  rfl

/-- How doubles are written. -/
theorem show_written (tieUp : Nat → Bool) (x : F64) : WrittenDouble (F64.show tieUp x) x := by
  have hx := x.isLt
  by_cases hn : 2047 * 2 ^ 52 < x.toNat % 2 ^ 63
  · rw [show_nan hn]
    refine .nan ?_ ?_ ?_
    · cases h : floatValue x with
      | none => rfl
      | some r => have := (floatValue_some h).1; omega
    · rintro rfl; revert hn; decide
    · rintro rfl; revert hn; decide
  · by_cases hs : 2 ^ 63 ≤ x.toNat
    · have ho := opposite_bits hs
      obtain ⟨t, h1, h2, h3⟩ := show_unsigned (x := opposite x) (by omega) tieUp
      rw [opposite_opposite] at h3
      rw [h3]
      have := WrittenDouble.minus h1
      rw [opposite_opposite] at this
      exact this
    · obtain ⟨t, h1, h2, h3⟩ := show_unsigned (x := x) (by omega) tieUp
      rw [h2]
      exact .plain h1

end Proofs
