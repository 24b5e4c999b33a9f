import Verif.Proofs.Rounding
import Verif.Spec.Decimal

/- `roundBits` rounds as IEEE 754 says. -/

namespace Proofs
open Rust Rust.F64 Spec

theorem floatValue_of_bits {x : F64} (h : x.toNat < 2047 * 2 ^ 52) : floatValue x = some ((units x.toNat : ℚ) / 2 ^ 1074) := by
  unfold floatValue units
  simp only
  generalize x.toNat = n at *
  rw [if_neg (show ¬ (2 ^ 63 ≤ n) by omega), if_neg (show ¬ (n / 2 ^ 52 % 2 ^ 11 = 2 ^ 11 - 1) by omega)]
  by_cases hn : n < 2 ^ 52
  · rw [if_pos (show n / 2 ^ 52 % 2 ^ 11 = 0 by omega), if_pos hn, show n % 2 ^ 52 = n by omega, zpow_neg, one_mul,
      div_eq_mul_inv]
    norm_cast
  · rw [if_neg (show ¬ n / 2 ^ 52 % 2 ^ 11 = 0 by omega), if_neg hn, show n / 2 ^ 52 % 2 ^ 11 = n / 2 ^ 52 by omega]
    obtain ⟨e, he⟩ : ∃ e, n / 2 ^ 52 = e + 1 := ⟨n / 2 ^ 52 - 1, by omega⟩
    rw [he, Nat.add_sub_cancel]
    have : (((e + 1 : ℕ) : ℤ) - 1075) = (e : ℤ) + -1074 := by push_cast; ring
    rw [this, zpow_add₀ (by norm_num), zpow_neg, one_mul, div_eq_mul_inv, zpow_natCast]
    push_cast
    rw [mul_assoc]
    norm_cast

theorem floatValue_sign {x : F64} : floatValue x =
    (floatValue (BitVec.ofNat 64 (x.toNat % 2 ^ 63))).map fun q => if 2 ^ 63 ≤ x.toNat then -q else q := by
  have hx : x.toNat < 2 ^ 64 := x.isLt
  unfold floatValue
  simp only [BitVec.toNat_ofNat]
  generalize x.toNat = n at *
  have e1 : n % 2 ^ 63 % 2 ^ 64 / 2 ^ 52 % 2 ^ 11 = n / 2 ^ 52 % 2 ^ 11 := by omega
  have e2 : n % 2 ^ 63 % 2 ^ 64 % 2 ^ 52 = n % 2 ^ 52 := by omega
  rw [e1, e2, if_neg (show ¬ 2 ^ 63 ≤ n % 2 ^ 63 % 2 ^ 64 by omega)]
  by_cases h1 : n / 2 ^ 52 % 2 ^ 11 = 2 ^ 11 - 1
  · rw [if_pos h1, if_pos h1]; rfl
  · rw [if_neg h1, if_neg h1]
    by_cases h2 : n / 2 ^ 52 % 2 ^ 11 = 0
    · rw [if_pos h2, if_pos h2]
      by_cases h3 : 2 ^ 63 ≤ n
      · rw [if_pos h3, Option.map_some, if_pos h3, one_mul, neg_one_mul, neg_mul]
      · rw [if_neg h3, Option.map_some, if_neg h3]
    · rw [if_neg h2, if_neg h2]
      by_cases h3 : 2 ^ 63 ≤ n
      · rw [if_pos h3, Option.map_some, if_pos h3, one_mul, neg_one_mul, neg_mul]
      · rw [if_neg h3, Option.map_some, if_neg h3]

theorem floatValue_some {x : F64} {r : ℚ} (h : floatValue x = some r) :
    x.toNat % 2 ^ 63 < 2047 * 2 ^ 52 ∧
      r = if 2 ^ 63 ≤ x.toNat then -((units (x.toNat % 2 ^ 63) : ℚ) / 2 ^ 1074) else (units (x.toNat % 2 ^ 63) : ℚ) / 2 ^ 1074 := by
  have hx : x.toNat < 2 ^ 64 := x.isLt
  have hlt : x.toNat % 2 ^ 63 < 2047 * 2 ^ 52 := by
    by_contra hn
    have : floatValue x = none := by
      unfold floatValue
      simp only
      rw [if_pos (by omega)]
    rw [this] at h; cases h
  have e : (BitVec.ofNat 64 (x.toNat % 2 ^ 63)).toNat = x.toNat % 2 ^ 63 := by
    rw [BitVec.toNat_ofNat]; omega
  rw [floatValue_sign, floatValue_of_bits (by rw [e]; exact hlt), e] at h
  simp only [Option.map_some, Option.some.injEq] at h
  exact ⟨hlt, h.symm⟩

/-! ### The limit -/

theorem units_limit : (units (2047 * 2 ^ 52 - 1) + units (2047 * 2 ^ 52) : ℚ) = 2 * ((2 ^ 1024 - 2 ^ 970) * 2 ^ 1074) := by
  have e1 : units (2047 * 2 ^ 52) = 2 * 2 ^ 52 * 2 ^ 2045 := by
    rw [show 2047 * 2 ^ 52 = 2045 * 2 ^ 52 + 2 * 2 ^ 52 by norm_num]; exact units_scaled (by omega)
  have e2 : units (2047 * 2 ^ 52 - 1) = (2 * 2 ^ 52 - 1) * 2 ^ 2045 := by
    rw [show 2047 * 2 ^ 52 - 1 = 2045 * 2 ^ 52 + (2 * 2 ^ 52 - 1) by norm_num]; exact units_scaled (by omega)
  rw [e1, e2, show (2 * 2 ^ 52 - 1 : ℕ) = 9007199254740991 by norm_num]
  push_cast
  have p1 : (2 : ℚ) ^ 2045 = 2 ^ 970 * 2 ^ 1074 * 2 := by rw [← pow_add, ← pow_succ]
  have p2 : (2 : ℚ) ^ 1024 = 2 ^ 970 * 2 ^ 54 := by rw [← pow_add]
  rw [p1, p2]
  generalize (2 : ℚ) ^ 970 = u
  generalize (2 : ℚ) ^ 1074 = w
  norm_num
  ring

theorem Near.below_limit {v : ℚ} {n : Nat} (h : Near (v * 2 ^ 1074) n) : n < 2047 * 2 ^ 52 ↔ v < 2 ^ 1024 - 2 ^ 970 := by
  have hp : (0 : ℚ) < 2 ^ 1074 := by positivity
  rw [← mul_lt_mul_iff_of_pos_right hp, ← mul_lt_mul_iff_of_pos_left (show (0 : ℚ) < 2 by norm_num), ← units_limit]
  have hh := h.high
  constructor
  · intro hn
    rcases Nat.lt_or_eq_of_le (show n ≤ 2047 * 2 ^ 52 - 1 by omega) with hlt | he
    · have a1 : units n < units (2047 * 2 ^ 52 - 1) := units_strictMono hlt
      have a2 : units (n + 1) < units (2047 * 2 ^ 52) := units_strictMono (by omega)
      have a1' : (units n : ℚ) < units (2047 * 2 ^ 52 - 1) := by exact_mod_cast a1
      have a2' : (units (n + 1) : ℚ) < units (2047 * 2 ^ 52) := by exact_mod_cast a2
      exact lt_of_le_of_lt hh (add_lt_add a1' a2')
    · subst he
      exact h.high_odd (by norm_num)
  · intro hv
    by_contra hn
    obtain ⟨k, rfl⟩ : ∃ k, n = k + 1 := ⟨n - 1, by omega⟩
    have hl := h.low k rfl
    have a1 : units (2047 * 2 ^ 52 - 1) ≤ units k := units_strictMono.monotone (by omega)
    have a2 : units (2047 * 2 ^ 52) ≤ units (k + 1) := units_strictMono.monotone (by omega)
    have a1' : (units (2047 * 2 ^ 52 - 1) : ℚ) ≤ units k := by exact_mod_cast a1
    have a2' : (units (2047 * 2 ^ 52) : ℚ) ≤ units (k + 1) := by exact_mod_cast a2
    exact absurd (lt_of_lt_of_le hv ((add_le_add a1' a2').trans hl)) (lt_irrefl _)

/-! ### Rounding and being the closest -/

private theorem abs_scaled (v u p : ℚ) (hp : 0 < p) : |v - u / p| = |v * p - u| / p := by
  rw [eq_div_iff hp.ne']
  nth_rw 2 [← abs_of_pos hp]
  rw [← abs_mul, sub_mul, div_mul_cancel₀ _ hp.ne']

private theorem abs_scaled_neg (v u p : ℚ) (hp : 0 < p) : |v - -(u / p)| = |v * p + u| / p := by
  rw [eq_div_iff hp.ne']
  nth_rw 2 [← abs_of_pos hp]
  rw [← abs_mul, sub_neg_eq_add, add_mul, div_mul_cancel₀ _ hp.ne']

private theorem closest_signed {v p r : ℚ} {n k : Nat} (hp : 0 < p) (hv : 0 ≤ v) (h : Near (v * p) n)
    (hr : r = (units k : ℚ) / p ∨ r = -((units k : ℚ) / p)) (hne : r ≠ (units n : ℚ) / p) :
    |v - (units n : ℚ) / p| < |v - r| ∨ (|v - (units n : ℚ) / p| = |v - r| ∧ n % 2 = 0) := by
  rw [abs_scaled _ _ _ hp]
  have hw : 0 ≤ v * p := mul_nonneg hv hp.le
  have hu : (0 : ℚ) ≤ units k := Nat.cast_nonneg _
  have hun : (0 : ℚ) ≤ units n := Nat.cast_nonneg _
  rcases hr with rfl | rfl
  · rw [abs_scaled _ _ _ hp, div_lt_div_iff_of_pos_right hp, div_left_inj' hp.ne']
    exact h.closest k fun hkn => hne (by rw [hkn])
  · rw [abs_scaled_neg _ _ _ hp, div_lt_div_iff_of_pos_right hp, div_left_inj' hp.ne']
    have hle : |v * p - units k| ≤ |v * p + units k| := by
      rw [abs_of_nonneg (add_nonneg hw hu), abs_le]
      constructor <;> linarith
    by_cases hkn : k = n
    · left
      rw [hkn] at hne ⊢
      have hn0 : n ≠ 0 := by
        rintro rfl
        rw [units_zero] at hne
        simp at hne
      obtain ⟨q, rfl⟩ : ∃ q, n = q + 1 := ⟨n - 1, by omega⟩
      have hl := h.low q rfl
      have b : (units q : ℚ) < units (q + 1) := by exact_mod_cast units_succ q
      have c : (0 : ℚ) ≤ units q := Nat.cast_nonneg _
      rw [abs_of_nonneg (add_nonneg hw hun), abs_lt]
      constructor <;> linarith
    · rcases h.closest k hkn with hc | ⟨hc, he⟩
      · exact .inl (lt_of_lt_of_le hc hle)
      · rcases lt_or_eq_of_le (hc.trans_le hle) with hq | hq
        · exact .inl hq
        · exact .inr ⟨hq, he⟩

private theorem near_of_closest {w : ℚ} {n limit : Nat} (hn : n < limit)
    (key : ∀ k, k < limit → k ≠ n →
      |w - units n| < |w - units k| ∨ (|w - units n| = |w - units k| ∧ n % 2 = 0))
    (hlim : n + 1 = limit → 2 * w < (units n + units (n + 1) : ℚ)) : Near w n := by
  have low : ∀ k, n = k + 1 → (units k : ℚ) < units n := fun k hk => by
    rw [hk]; exact_mod_cast units_succ k
  have lowle : ∀ k, n = k + 1 → (units k + units n : ℚ) ≤ 2 * w := by
    intro k hk
    have := low k hk
    by_contra hcon
    have hcon := not_le.1 hcon
    have hle : |w - units n| ≤ |w - units k| := by
      rcases key k (by omega) (by omega) with h | h
      · exact h.le
      · exact h.1.le
    rcases le_total 0 (w - (units k : ℚ)) with s | s
    · rw [abs_of_nonneg s, abs_of_nonpos (by linarith : w - (units n : ℚ) ≤ 0)] at hle; linarith
    · rw [abs_of_nonpos s, abs_of_nonpos (by linarith : w - (units n : ℚ) ≤ 0)] at hle; linarith
  have hi : (units n : ℚ) < units (n + 1) := by exact_mod_cast units_succ n
  have highle : 2 * w ≤ (units n + units (n + 1) : ℚ) := by
    by_cases hk : n + 1 < limit
    · by_contra hcon
      have hcon := not_le.1 hcon
      have hle : |w - units n| ≤ |w - units (n + 1)| := by
        rcases key (n + 1) hk (by omega) with h | h
        · exact h.le
        · exact h.1.le
      rcases le_total 0 (w - (units (n + 1) : ℚ)) with s | s
      · rw [abs_of_nonneg s, abs_of_nonneg (by linarith : 0 ≤ w - (units n : ℚ))] at hle; linarith
      · rw [abs_of_nonpos s, abs_of_nonneg (by linarith : 0 ≤ w - (units n : ℚ))] at hle; linarith
    · exact (hlim (by omega)).le
  refine ⟨lowle, fun k hk ho => ?_, highle, fun ho => ?_⟩
  · rcases lt_or_eq_of_le (lowle k hk) with h | h
    · exact h
    · exfalso
      have := low k hk
      rcases key k (by omega) (by omega) with hc | hc
      · rw [abs_of_nonpos (by linarith : w - (units n : ℚ) ≤ 0), abs_of_nonneg (by linarith : 0 ≤ w - (units k : ℚ))] at hc
        linarith
      · omega
  · by_cases hk : n + 1 < limit
    · rcases lt_or_eq_of_le highle with h | h
      · exact h
      · exfalso
        rcases key (n + 1) hk (by omega) with hc | hc
        · rw [abs_of_nonneg (by linarith : 0 ≤ w - (units n : ℚ)),
            abs_of_nonpos (by linarith : w - (units (n + 1) : ℚ) ≤ 0)] at hc
          linarith
        · omega
    · exact hlim (by omega)

theorem roundsTo_of_near {v : ℚ} {n : Nat} {x : F64} (hv : 0 ≤ v) (h : Near (v * 2 ^ 1074) n)
    (hx : x.toNat = min n (2047 * 2 ^ 52)) : RoundsTo v x := by
  have hp : (0 : ℚ) < 2 ^ 1074 := by positivity
  refine ⟨by omega, fun hlt => ?_, fun hge => ?_⟩
  · have hn : n < 2047 * 2 ^ 52 := h.below_limit.2 hlt
    have hxn : x.toNat = n := by omega
    refine ⟨_, floatValue_of_bits (by omega), fun y r hy hr => ?_⟩
    obtain ⟨hy1, hy2⟩ := floatValue_some hy
    rw [hxn] at hr ⊢
    refine closest_signed hp hv h (k := y.toNat % 2 ^ 63) ?_ hr
    by_cases hs : 2 ^ 63 ≤ y.toNat
    · rw [if_pos hs] at hy2; exact .inr hy2
    · rw [if_neg hs] at hy2; exact .inl hy2
  · have hn : ¬ n < 2047 * 2 ^ 52 := fun hc => absurd (h.below_limit.1 hc) (not_lt.2 hge)
    apply BitVec.eq_of_toNat_eq
    rw [hx, infinity, BitVec.toNat_ofNat]
    omega

theorem near_of_roundsTo {v : ℚ} {n : Nat} {x : F64} (h : Near (v * 2 ^ 1074) n) (hr : RoundsTo v x) :
    x.toNat = min n (2047 * 2 ^ 52) := by
  have hp : (0 : ℚ) < 2 ^ 1074 := by positivity
  obtain ⟨h1, h2, h3⟩ := hr
  by_cases hlt : v < 2 ^ 1024 - 2 ^ 970
  · have hn := h.below_limit.2 hlt
    obtain ⟨q, hq, hc⟩ := h2 hlt
    have hx := (floatValue_some hq).1
    have hxm : x.toNat % 2 ^ 63 = x.toNat := by omega
    rw [hxm] at hx
    rw [floatValue_of_bits hx, Option.some.injEq] at hq
    subst hq
    have hnear : Near (v * 2 ^ 1074) x.toNat := by
      refine near_of_closest hx (fun k hk hne => ?_) fun he => ?_
      · have e : (BitVec.ofNat 64 k).toNat = k := by rw [BitVec.toNat_ofNat]; omega
        have hf : floatValue (BitVec.ofNat 64 k) = some ((units k : ℚ) / 2 ^ 1074) := by
          have := floatValue_of_bits (x := BitVec.ofNat 64 k) (by rw [e]; exact hk)
          rwa [e] at this
        have := hc _ _ hf (by
          intro he
          rw [div_left_inj' hp.ne'] at he
          exact hne (units_strictMono.injective (by exact_mod_cast he)))
        rwa [abs_scaled _ _ _ hp, abs_scaled _ _ _ hp, div_lt_div_iff_of_pos_right hp, div_left_inj' hp.ne'] at this
      · have e : x.toNat = 2047 * 2 ^ 52 - 1 := by omega
        rw [he, e, units_limit]
        exact mul_lt_mul_of_pos_left (mul_lt_mul_of_pos_right hlt hp) (by norm_num)
    have := h.unique hnear
    omega
  · have hn : ¬ n < 2047 * 2 ^ 52 := fun hc => hlt (h.below_limit.1 hc)
    rw [h3 (not_lt.1 hlt), infinity, BitVec.toNat_ofNat]
    omega

/-- `roundBits` finds the double that a number is rounded to. -/
theorem roundsTo_iff {a b : Nat} (hb : 0 < b) {x : F64} : RoundsTo ((a : ℚ) / b) x ↔ x.toNat = roundBits a b :=
  have hn := near_nextBits a b hb
  have hv : (0 : ℚ) ≤ (a : ℚ) / b := div_nonneg (Nat.cast_nonneg _) (Nat.cast_nonneg _)
  ⟨near_of_roundsTo hn, roundsTo_of_near hv hn⟩

end Proofs
