import Verif.Proofs.DecimalWrite
import Verif.Props.Numbers

/- Which doubles are written without a point, and which characters texts of doubles have. -/

namespace Proofs
open Rust Rust.F64 Spec Compose

/-! ### Whole numbers -/

theorem value_lt_limit {x : F64} {q : ℚ} (h : floatValue x = some q) : q < 2 ^ 1024 - 2 ^ 970 := by
  obtain ⟨h1, h2⟩ := floatValue_some h
  have hlt := (near_units (x.toNat % 2 ^ 63))
  have hp : (0 : ℚ) < 2 ^ 1074 := by positivity
  have e : (units (x.toNat % 2 ^ 63) : ℚ) = (units (x.toNat % 2 ^ 63) : ℚ) / 2 ^ 1074 * 2 ^ 1074 :=
    (div_mul_cancel₀ _ hp.ne').symm
  rw [e] at hlt
  have hl := hlt.below_limit.1 h1
  have h0 : (0 : ℚ) ≤ (units (x.toNat % 2 ^ 63) : ℚ) / 2 ^ 1074 := div_nonneg (Nat.cast_nonneg _) hp.le
  by_cases hs : 2 ^ 63 ≤ x.toNat
  · rw [if_pos hs] at h2
    rw [h2]
    exact lt_of_le_of_lt (neg_nonpos.2 h0) (lt_of_le_of_lt h0 hl)
  · rw [if_neg hs] at h2
    rw [h2]; exact hl

/-- A double is rounded to itself. -/
theorem roundsTo_double {x y : F64} {q : ℚ} (hy : floatValue y = some q) (h : RoundsTo q x) : floatValue x = some q := by
  obtain ⟨r, hr, hc⟩ := h.2.1 (value_lt_limit hy)
  by_cases e : q = r
  · rw [e]; exact hr
  · exfalso
    rcases hc y q hy e with h1 | ⟨h1, _⟩
    · rw [sub_self, abs_zero] at h1
      exact absurd h1 (not_lt.2 (abs_nonneg _))
    · rw [sub_self, abs_zero, abs_eq_zero, sub_eq_zero] at h1
      exact e h1

theorem value_2_53 : floatValue (BitVec.ofNat 64 (1076 * 2 ^ 52)) = some ((2 : ℚ) ^ 53) := by
  unfold floatValue
  norm_num

/-- Rounding keeps the order with `2 ^ 52` and `2 ^ 53`. -/
theorem rounds_above {v q b : ℚ} {x y : F64} (hy : floatValue y = some b) (h : RoundsTo v x) (hx : floatValue x = some q)
    (hv : b ≤ v) : b ≤ q := by
  by_contra hlt
  have hlt := not_le.1 hlt
  by_cases hl : v < 2 ^ 1024 - 2 ^ 970
  · obtain ⟨r, hr, hc⟩ := h.2.1 hl
    rw [hx] at hr
    cases hr
    have hle : |v - q| ≤ |v - b| := by
      rcases hc y b hy (ne_of_gt hlt) with h1 | h1
      · exact h1.le
      · exact h1.1.le
    rw [abs_of_nonneg (sub_nonneg.2 hv), abs_of_nonneg (sub_nonneg.2 (hlt.le.trans hv))] at hle
    exact absurd hlt (not_lt.2 (sub_le_sub_iff_left v |>.1 hle))
  · have := h.2.2 (not_lt.1 hl)
    rw [this] at hx
    have : floatValue infinity = none := by unfold floatValue; exact if_pos (by decide)
    rw [this] at hx
    cases hx

/-- Doubles that are no whole numbers are below `2 ^ 52`. -/
theorem fraction_small {x : F64} {q : ℚ} (h : floatValue x = some q) (hs : x.toNat < 2 ^ 63) (hq : ¬ ∃ i : ℤ, q = i) :
    q < 2 ^ 52 := by
  obtain ⟨h1, h2⟩ := floatValue_some h
  rw [if_neg (by omega), Nat.mod_eq_of_lt hs] at h2
  obtain ⟨j, m, e, hm, hj⟩ := bits_scaled x.toNat
  have hu : units x.toNat = m * 2 ^ j := by rw [e]; exact units_scaled (by omega)
  rw [hu] at h2
  by_cases hj' : 1074 ≤ j
  · exfalso
    apply hq
    obtain ⟨d, rfl⟩ : ∃ d, j = d + 1074 := ⟨j - 1074, by omega⟩
    refine ⟨(m * 2 ^ d : ℕ), ?_⟩
    rw [h2, Nat.pow_add, ← Nat.mul_assoc, Nat.cast_mul, Nat.cast_pow 2 1074, Nat.cast_ofNat,
      mul_div_cancel_right₀ _ (by positivity)]
    push_cast
    rfl
  · have hb : m * 2 ^ j < 2 ^ 53 * 2 ^ 1073 :=
      Nat.lt_of_lt_of_le (Nat.mul_lt_mul_of_pos_right (show m < 2 ^ 53 by omega) (Nat.two_pow_pos j))
        (Nat.mul_le_mul_left _ (Nat.pow_le_pow_right (by decide) (by omega)))
    have e2 : 2 ^ 53 * 2 ^ 1073 = 2 ^ 52 * 2 ^ 1074 := by rw [← Nat.pow_add, ← Nat.pow_add]
    rw [e2] at hb
    have hb' : ((m * 2 ^ j : ℕ) : ℚ) < ((2 ^ 52 * 2 ^ 1074 : ℕ) : ℚ) := by exact_mod_cast hb
    rw [h2, div_lt_iff₀ (by positivity)]
    rw [Nat.cast_mul (2 ^ 52), Nat.cast_pow 2 1074, Nat.cast_pow 2 52, Nat.cast_ofNat] at hb'
    exact hb'

/-- Only whole numbers are what whole numbers are rounded to. -/
theorem whole_of_roundsTo {N : ℕ} {x : F64} {q : ℚ} (h : RoundsTo N x) (hx : floatValue x = some q) : ∃ i : ℤ, q = i := by
  by_contra hq
  have hsmall := fraction_small hx h.1 hq
  by_cases hN : N < 2 ^ 53
  · have := roundsTo_double (Props.ofNat_value hN).2 h
    rw [hx, Option.some.injEq] at this
    exact hq ⟨N, by rw [this]; simp⟩
  · have e := (Props.ofNat_value (n := 2 ^ 52) (by decide)).2
    have := rounds_above e h hx (by
      have : 2 ^ 52 ≤ N := by omega
      exact_mod_cast this)
    rw [Nat.cast_pow, Nat.cast_ofNat] at this
    exact absurd hsmall (not_lt.2 this)

/-- Small whole numbers are rounded to themselves only. -/
theorem small_of_roundsTo {N : ℕ} {x : F64} {q : ℚ} (h : RoundsTo N x) (hx : floatValue x = some q) (hq : q < 2 ^ 53) :
    q = N := by
  by_cases hN : N < 2 ^ 53
  · have := roundsTo_double (Props.ofNat_value hN).2 h
    rwa [hx, Option.some.injEq] at this
  · exfalso
    have := rounds_above value_2_53 h hx (by
      have : 2 ^ 53 ≤ N := by omega
      exact_mod_cast this)
    exact absurd hq (not_lt.2 this)

/-! ### Points -/

theorem no_point_of_digits {s : Str} (h : Digits s) : '.' ∉ s := fun hm => by
  have := digits_iff.1 h _ hm
  revert this; decide

/-- A text of digits stands for a natural number. -/
theorem pointText_whole {t : Str} {v : ℚ} (h : PointText t v) (hd : Digits t) : v = decimal t := by
  obtain ⟨ints, fracs, h1, h2, h3, ⟨rfl, rfl⟩ | rfl, rfl⟩ := h
  · simp
  · exact absurd (by simp) (no_point_of_digits hd)

/-- A tidy text with a point does not stand for a whole number. -/
theorem pointText_tidy {t : Str} {N : ℕ} (h : PointText t N) (ht : TidyText t) : t = showNat N := by
  obtain ⟨n, rfl | ⟨fracs, hne, hlast, rfl⟩⟩ := ht
  · have := pointText_whole h (digits_showNat n)
    rw [decimal_showNat] at this
    have : N = n := by exact_mod_cast this
    rw [this]
  · exfalso
    obtain ⟨ints, fracs', h1, h2, h3, ⟨h4, rfl⟩ | h4, h5⟩ := h
    · exact no_point_of_digits h1 (by rw [← h4]; simp)
    · have e : fracs = fracs' := by
        have a : showNat n ++ '.' :: fracs = ints ++ '.' :: fracs' := by simpa using h4
        have b := congrArg (List.dropWhile fun c => c != '.') a
        have drop : ∀ {s r : Str}, Digits s → (s ++ '.' :: r).dropWhile (fun c => c != '.') = '.' :: r := by
          intro s r hs
          rw [List.dropWhile_append_of_pos]
          · simp
          · intro c hc
            simp only [bne_iff_ne, ne_eq]
            rintro rfl
            exact no_point_of_digits hs hc
        rw [drop (digits_showNat n), drop h1] at b
        exact (List.cons.inj b).2
      subst e
      obtain ⟨init, c, rfl⟩ : ∃ init c, fracs = init ++ [c] := ⟨_, _, (List.dropLast_append_getLast hne).symm⟩
      have hc : isDigit c = true := digits_iff.1 h2 c (by simp)
      have hc0 : c ≠ '0' := by rintro rfl; simp at hlast
      have hd := isDigit_iff.1 hc
      have hc48 : c.toNat ≠ 48 := fun e => hc0 (Char.toNat_inj.1 e)
      rw [eq_div_iff (by positivity)] at h5
      have h6 : N * 10 ^ (init ++ [c]).length = decimal (ints ++ (init ++ [c])) := by exact_mod_cast h5
      rw [← List.append_assoc, decimal_append, List.length_append, List.length_singleton, Nat.pow_succ, ← Nat.mul_assoc] at h6
      omega

/-! ### Characters -/

theorem anyCase_mem {t w : Str} (h : AnyCase t w) {c : Char} (hc : c ∈ t) : ∃ d ∈ w, c = d ∨ c = d.toUpper := by
  induction h with
  | nil => cases hc
  | cons h1 _ ih =>
    rcases List.mem_cons.1 hc with rfl | hc
    · exact ⟨_, by simp, h1⟩
    · obtain ⟨d, hd, h⟩ := ih hc
      exact ⟨d, by simp [hd], h⟩

/-- A number has no colon and no bracket, and one point at most. -/
def Plain (s : Str) : Prop := ':' ∉ s ∧ '[' ∉ s ∧ s.count '.' ≤ 1

theorem plain_digits {s : Str} (h : Digits s) : ':' ∉ s ∧ '[' ∉ s ∧ s.count '.' = 0 := by
  rw [digits_iff] at h
  refine ⟨fun hm => ?_, fun hm => ?_, List.count_eq_zero.2 fun hm => ?_⟩ <;>
  · have := h _ hm
    revert this; decide

theorem plain_point {t : Str} {v : ℚ} (h : PointText t v) : Plain t := by
  obtain ⟨ints, fracs, h1, h2, h3, ⟨rfl, rfl⟩ | rfl, _⟩ := h
  · obtain ⟨a, b, c⟩ := plain_digits h1
    exact ⟨a, b, by omega⟩
  · obtain ⟨a, b, c⟩ := plain_digits h1
    obtain ⟨a', b', c'⟩ := plain_digits h2
    refine ⟨by simp [a, a'], by simp [b, b'], ?_⟩
    rw [List.count_append, List.count_append, c, c']
    decide

theorem plain_append {s t : Str} (hs : Plain s) (ht : ':' ∉ t ∧ '[' ∉ t ∧ t.count '.' = 0) : Plain (s ++ t) := by
  obtain ⟨a, b, c⟩ := hs
  obtain ⟨a', b', c'⟩ := ht
  refine ⟨by simp [a, a'], by simp [b, b'], ?_⟩
  rw [List.count_append]
  omega

theorem plain_e {e : Char} (h : e ∈ "eE".toList) : ':' ∉ [e] ∧ '[' ∉ [e] ∧ [e].count '.' = 0 := by
  rcases mem_eE.1 h with rfl | rfl <;> decide

theorem plain_numeral {t : Str} {v : ℚ} (h : NumeralText t v) : Plain t := by
  cases h with
  | plain h => exact plain_point h
  | exponent h he hd => exact plain_append (plain_append (plain_point h) (plain_e he)) (plain_digits hd.2)
  | plus h he hd =>
    exact plain_append (plain_append (plain_append (plain_point h) (plain_e he)) (by decide)) (plain_digits hd.2)
  | minus h he hd =>
    exact plain_append (plain_append (plain_append (plain_point h) (plain_e he)) (by decide)) (plain_digits hd.2)

theorem plain_word {t w : Str} (h : AnyCase t w)
    (hw : ∀ c ∈ [':', '[', '.'], ¬ ∃ d ∈ w, c = d ∨ c = d.toUpper) : Plain t := by
  have no : ∀ c ∈ [':', '[', '.'], c ∉ t := fun c hc hm => hw c hc (anyCase_mem h hm)
  refine ⟨no _ (by simp), no _ (by simp), ?_⟩
  rw [List.count_eq_zero.2 (no _ (by simp))]
  omega

theorem plain_unsigned {t : Str} {x : F64} (h : UnsignedText t x) : Plain t := by
  cases h with
  | number h _ => exact plain_numeral h
  | inf h | infinity h | nan h => exact plain_word h (by decide)

theorem plain_double {t : Str} {x : F64} (h : DoubleText t x) : Plain t := by
  cases h with
  | plain h => exact plain_unsigned h
  | @plus t _ h =>
    obtain ⟨a, b, c⟩ := plain_unsigned h
    rw [show "+".toList ++ t = '+' :: t from rfl]
    exact ⟨by simp [a], by simp [b], by rw [List.count_cons_of_ne (by decide)]; exact c⟩
  | @minus t _ h =>
    obtain ⟨a, b, c⟩ := plain_unsigned h
    rw [show "-".toList ++ t = '-' :: t from rfl]
    exact ⟨by simp [a], by simp [b], by rw [List.count_cons_of_ne (by decide)]; exact c⟩

end Proofs
