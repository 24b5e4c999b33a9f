import Verif.Std.Decimal
import Mathlib.Algebra.Order.Field.Rat
import Mathlib.Algebra.Order.Field.Power
import Mathlib.Tactic.Linarith
import Mathlib.Tactic.NormNum
import Mathlib.Tactic.Ring
import Mathlib.Tactic.FieldSimp

/- Rounding to doubles: the double that `roundBits` finds lies between the middles to its neighbours. -/

namespace Proofs
open Rust Rust.F64

/-! ### The doubles in order -/

/-- Bits as a multiple of a power of two. -/
theorem units_scaled {j m : Nat} (h : j = 0 ∧ m ≤ 2 * 2 ^ 52 ∨ 2 ^ 52 ≤ m ∧ m ≤ 2 * 2 ^ 52) :
    units (j * 2 ^ 52 + m) = m * 2 ^ j := by
  unfold units
  by_cases h1 : j * 2 ^ 52 + m < 2 ^ 52
  · have hj : j = 0 := by omega
    subst hj
    simp
    omega
  · rw [if_neg h1]
    by_cases h2 : m = 2 * 2 ^ 52
    · have e1 : (j * 2 ^ 52 + m) % 2 ^ 52 = 0 := by omega
      have e2 : (j * 2 ^ 52 + m) / 2 ^ 52 - 1 = j + 1 := by omega
      rw [e1, e2, h2, Nat.pow_succ]
      ring
    · have e1 : (j * 2 ^ 52 + m) % 2 ^ 52 = m - 2 ^ 52 := by omega
      have e2 : (j * 2 ^ 52 + m) / 2 ^ 52 - 1 = j := by omega
      have e3 : 2 ^ 52 + (m - 2 ^ 52) = m := by omega
      rw [e1, e2, e3]

theorem bits_scaled (n : Nat) : ∃ j m, n = j * 2 ^ 52 + m ∧ m < 2 * 2 ^ 52 ∧ (j = 0 ∨ 2 ^ 52 ≤ m) := by
  by_cases h : n < 2 ^ 52
  · exact ⟨0, n, by omega, by omega, .inl rfl⟩
  · exact ⟨n / 2 ^ 52 - 1, n - (n / 2 ^ 52 - 1) * 2 ^ 52, by omega, by omega, by omega⟩

theorem units_succ (n : Nat) : units n < units (n + 1) := by
  obtain ⟨j, m, rfl, hm, hj⟩ := bits_scaled n
  have e1 : units (j * 2 ^ 52 + m) = m * 2 ^ j := units_scaled (by omega)
  have e2 : units (j * 2 ^ 52 + m + 1) = (m + 1) * 2 ^ j := by
    rw [Nat.add_assoc]; exact units_scaled (by omega)
  rw [e1, e2]
  exact Nat.mul_lt_mul_of_pos_right (by omega) (Nat.two_pow_pos j)

theorem units_strictMono : StrictMono units := strictMono_nat_of_lt_succ units_succ

theorem units_zero : units 0 = 0 := rfl

/-! ### Between the middles -/

/-- `w` is closer to the double `n` than to its neighbours, or in the middle if `n` is even. -/
structure Near (w : ℚ) (n : Nat) : Prop where
  low : ∀ k, n = k + 1 → (units k + units n : ℚ) ≤ 2 * w
  low_odd : ∀ k, n = k + 1 → n % 2 = 1 → (units k + units n : ℚ) < 2 * w
  high : 2 * w ≤ (units n + units (n + 1) : ℚ)
  high_odd : n % 2 = 1 → 2 * w < (units n + units (n + 1) : ℚ)

theorem Near.mono {w w' : ℚ} {n n' : Nat} (h : Near w n) (h' : Near w' n') (hw : w ≤ w') : n ≤ n' := by
  by_contra hlt
  obtain ⟨k, rfl⟩ : ∃ k, n = k + 1 := ⟨n - 1, by omega⟩
  have h1 := h.low k rfl
  have h2 := h'.high
  by_cases hk : k = n'
  · subst hk
    rcases Nat.mod_two_eq_zero_or_one k with e | e
    · have := h.low_odd k rfl (by omega); linarith
    · have := h'.high_odd e; linarith
  · have a1 : units n' < units k := units_strictMono (by omega)
    have a2 : units (n' + 1) < units (k + 1) := units_strictMono (by omega)
    have a1' : (units n' : ℚ) < units k := by exact_mod_cast a1
    have a2' : (units (n' + 1) : ℚ) < units (k + 1) := by exact_mod_cast a2
    linarith

theorem Near.unique {w : ℚ} {n n' : Nat} (h : Near w n) (h' : Near w n') : n = n' :=
  Nat.le_antisymm (h.mono h' le_rfl) (h'.mono h le_rfl)

theorem near_units (n : Nat) : Near (units n) n := by
  have h1 : (units n : ℚ) < units (n + 1) := by exact_mod_cast units_succ n
  refine ⟨fun k hk => ?_, fun k hk _ => ?_, by linarith, fun _ => by linarith⟩ <;>
  · subst hk
    have : (units k : ℚ) < units (k + 1) := by exact_mod_cast units_succ k
    linarith

/-- The closest of all doubles. -/
theorem Near.closest {w : ℚ} {n : Nat} (h : Near w n) (k : Nat) (hk : k ≠ n) :
    |w - units n| < |w - units k| ∨ (|w - units n| = |w - units k| ∧ n % 2 = 0) := by
  rcases Nat.lt_or_gt_of_ne hk with hk | hk
  · obtain ⟨p, rfl⟩ : ∃ p, n = p + 1 := ⟨n - 1, by omega⟩
    have a : units k ≤ units p := units_strictMono.monotone (by omega)
    have a' : (units k : ℚ) ≤ units p := by exact_mod_cast a
    have b : (units p : ℚ) < units (p + 1) := by exact_mod_cast units_succ p
    have l := h.low p rfl
    have hk' : |w - units k| = w - units k := abs_of_nonneg (by linarith)
    rw [hk']
    rcases le_total 0 (w - units (p + 1)) with s | s
    · rw [abs_of_nonneg s]; left; linarith
    · rw [abs_of_nonpos s]
      rcases Nat.mod_two_eq_zero_or_one (p + 1) with e | e
      · rcases lt_or_eq_of_le (show -(w - (units (p + 1) : ℚ)) ≤ w - units k by linarith) with q | q
        · exact .inl q
        · exact .inr ⟨q, e⟩
      · have := h.low_odd p rfl e; left; linarith
  · have a : units (n + 1) ≤ units k := units_strictMono.monotone (by omega)
    have a' : (units (n + 1) : ℚ) ≤ units k := by exact_mod_cast a
    have b : (units n : ℚ) < units (n + 1) := by exact_mod_cast units_succ n
    have l := h.high
    have hk' : |w - units k| = -(w - units k) := abs_of_nonpos (by linarith)
    rw [hk']
    rcases le_total 0 (w - units n) with s | s
    · rw [abs_of_nonneg s]
      rcases Nat.mod_two_eq_zero_or_one n with e | e
      · rcases lt_or_eq_of_le (show (w - (units n : ℚ)) ≤ -(w - units k) by linarith) with q | q
        · exact .inl q
        · exact .inr ⟨q, e⟩
      · have := h.high_odd e; left; linarith
    · rw [abs_of_nonpos s]; left; linarith

/-! ### Rounding -/

theorem halfEven_spec {n d : Nat} (hd : 0 < d) :
    (n / d ≤ halfEven n d ∧ halfEven n d ≤ n / d + 1) ∧
      (2 * halfEven n d * d ≤ 2 * n + d) ∧ (halfEven n d % 2 = 1 → 2 * halfEven n d * d < 2 * n + d) ∧
      (2 * n ≤ 2 * halfEven n d * d + d) ∧ (halfEven n d % 2 = 1 → 2 * n < 2 * halfEven n d * d + d) ∧
      (halfEven n d = n / d → halfEven n d * d ≤ n) := by
  have e : d * (n / d) + n % d = n := Nat.div_add_mod n d
  have hr : n % d < d := Nat.mod_lt n hd
  unfold halfEven
  simp only
  generalize n / d = q at *
  generalize n % d = r at *
  have c : q * d = d * q := Nat.mul_comm _ _
  split
  · rename_i h
    have c2 : 2 * (q + 1) * d = 2 * (d * q) + 2 * d := by ring
    have c3 : (q + 1) * d = d * q + d := by ring
    refine ⟨by omega, by omega, fun ho => ?_, by omega, fun ho => by omega, fun h => by omega⟩
    omega
  · rename_i h
    have c2 : 2 * q * d = 2 * (d * q) := by ring
    refine ⟨by omega, by omega, fun ho => by omega, by omega, fun ho => ?_, fun _ => by omega⟩
    rcases Nat.lt_or_ge (2 * r) d with h' | h'
    · omega
    · exfalso; exact h (by omega)

/-- `roundBits` without the limit. -/
def nextBits (a b : Nat) : Nat :=
  ((a * 2 ^ 1074 / b).log2 - 52) * 2 ^ 52 + halfEven (a * 2 ^ 1074) (b * 2 ^ ((a * 2 ^ 1074 / b).log2 - 52))

theorem roundBits_eq (a b : Nat) : roundBits a b = min (nextBits a b) (2047 * 2 ^ 52) := rfl

private theorem below_twice {a u x : ℚ} (h : a < u) (h' : u ≤ x) : a + u < 2 * x := by linarith

theorem near_nextBits' (N b : Nat) (hb : 0 < b) :
    Near ((N : ℚ) / b) (((N / b).log2 - 52) * 2 ^ 52 + halfEven N (b * 2 ^ ((N / b).log2 - 52))) := by
  set j := (N / b).log2 - 52 with hj
  have hD : 0 < b * 2 ^ j := Nat.mul_pos hb (Nat.two_pow_pos j)
  obtain ⟨⟨q1, q2⟩, s1, s2, s3, s4, s5⟩ := halfEven_spec (n := N) hD
  set m := halfEven N (b * 2 ^ j) with hm
  have hq : N / (b * 2 ^ j) = N / b / 2 ^ j := (Nat.div_div_eq_div_mul _ _ _).symm
  -- the size of the quotient
  have hlt : N / (b * 2 ^ j) < 2 * 2 ^ 52 := by
    rw [hq, Nat.div_lt_iff_lt_mul (Nat.two_pow_pos j)]
    have h1 : N / b < 2 ^ ((N / b).log2 + 1) := Nat.lt_log2_self
    have h2 : 2 ^ ((N / b).log2 + 1) ≤ 2 ^ (53 + j) := Nat.pow_le_pow_right (by decide) (by omega)
    have h3 : 2 ^ (53 + j) = 2 * 2 ^ 52 * 2 ^ j := by rw [Nat.pow_add]; rfl
    omega
  have hge : j = 0 ∨ 2 ^ 52 ≤ N / (b * 2 ^ j) := by
    rcases Nat.eq_zero_or_pos j with h | h
    · exact .inl h
    · right
      rw [hq, Nat.le_div_iff_mul_le (Nat.two_pow_pos j), ← Nat.pow_add]
      have hne : N / b ≠ 0 := by
        intro h0; rw [h0] at hj; have : Nat.log2 0 = 0 := rfl; omega
      have h1 : 2 ^ (N / b).log2 ≤ N / b := Nat.log2_self_le hne
      have h2 : 2 ^ (52 + j) ≤ 2 ^ (N / b).log2 := Nat.pow_le_pow_right (by decide) (by omega)
      omega
  have hu : units (j * 2 ^ 52 + m) = m * 2 ^ j := units_scaled (by omega)
  have bpos : (0 : ℚ) < b := by exact_mod_cast hb
  have ppos : (0 : ℚ) < 2 ^ j := by positivity
  have par : (j * 2 ^ 52 + m) % 2 = m % 2 := by omega
  -- comparisons as rationals
  have t1 : (2 * m - 1 : ℚ) * 2 ^ j ≤ 2 * ((N : ℚ) / b) := by
    rw [mul_div_assoc', le_div_iff₀ bpos]
    have : ((2 * m * (b * 2 ^ j) : ℕ) : ℚ) ≤ ((2 * N + b * 2 ^ j : ℕ) : ℚ) := by exact_mod_cast s1
    push_cast at this
    nlinarith [this]
  have t2 : m % 2 = 1 → (2 * m - 1 : ℚ) * 2 ^ j < 2 * ((N : ℚ) / b) := by
    intro ho
    rw [mul_div_assoc', lt_div_iff₀ bpos]
    have : ((2 * m * (b * 2 ^ j) : ℕ) : ℚ) < ((2 * N + b * 2 ^ j : ℕ) : ℚ) := by exact_mod_cast s2 ho
    push_cast at this
    nlinarith [this]
  have t3 : 2 * ((N : ℚ) / b) ≤ (2 * m + 1 : ℚ) * 2 ^ j := by
    rw [mul_div_assoc', div_le_iff₀ bpos]
    have : ((2 * N : ℕ) : ℚ) ≤ ((2 * m * (b * 2 ^ j) + b * 2 ^ j : ℕ) : ℚ) := by exact_mod_cast s3
    push_cast at this
    nlinarith [this]
  have t4 : m % 2 = 1 → 2 * ((N : ℚ) / b) < (2 * m + 1 : ℚ) * 2 ^ j := by
    intro ho
    rw [mul_div_assoc', div_lt_iff₀ bpos]
    have : ((2 * N : ℕ) : ℚ) < ((2 * m * (b * 2 ^ j) + b * 2 ^ j : ℕ) : ℚ) := by exact_mod_cast s4 ho
    push_cast at this
    nlinarith [this]
  have low : ∀ k, j * 2 ^ 52 + m = k + 1 → (units k + units (j * 2 ^ 52 + m) : ℚ) ≤ (2 * m - 1 : ℚ) * 2 ^ j ∨
      (m : ℚ) * 2 ^ j ≤ (N : ℚ) / b := by
    intro k hk
    by_cases hc : j ≠ 0 ∧ m = 2 ^ 52
    · right
      have hmq : m = N / (b * 2 ^ j) := by omega
      have := s5 hmq
      rw [le_div_iff₀ bpos]
      have : ((m * (b * 2 ^ j) : ℕ) : ℚ) ≤ N := by exact_mod_cast this
      push_cast at this
      nlinarith [this]
    · left
      obtain ⟨p, hp⟩ : ∃ p, m = p + 1 := ⟨m - 1, by omega⟩
      have ek : k = j * 2 ^ 52 + p := by omega
      have huk : units k = p * 2 ^ j := by rw [ek]; exact units_scaled (by omega)
      rw [hu, huk, hp]
      push_cast
      apply le_of_eq
      ring
  have lowk : ∀ k, j * 2 ^ 52 + m = k + 1 → (units k : ℚ) < units (j * 2 ^ 52 + m) := by
    intro k hk
    rw [hk]
    exact_mod_cast units_succ k
  have hu' : (units (j * 2 ^ 52 + m) : ℚ) = m * 2 ^ j := by rw [hu]; push_cast; ring
  have high : (2 * m + 1 : ℚ) * 2 ^ j ≤ (units (j * 2 ^ 52 + m) + units (j * 2 ^ 52 + m + 1) : ℚ) := by
    by_cases hc : m = 2 * 2 ^ 52
    · have e : units (j * 2 ^ 52 + m + 1) = (2 ^ 52 + 1) * 2 ^ (j + 1) := by
        rw [show j * 2 ^ 52 + m + 1 = (j + 1) * 2 ^ 52 + (2 ^ 52 + 1) by omega]
        exact units_scaled (by omega)
      rw [hu', e, hc]
      push_cast
      rw [pow_succ]
      nlinarith [ppos]
    · have e : units (j * 2 ^ 52 + m + 1) = (m + 1) * 2 ^ j := by
        rw [Nat.add_assoc]; exact units_scaled (by omega)
      rw [hu', e]
      push_cast
      apply le_of_eq
      ring
  refine ⟨fun k hk => ?_, fun k hk ho => ?_, t3.trans high, fun ho => lt_of_lt_of_le (t4 (by omega)) high⟩
  · rcases low k hk with h | h
    · exact h.trans t1
    · exact le_of_lt (below_twice (lowk k hk) (hu' ▸ h))
  · rcases low k hk with h | h
    · exact lt_of_le_of_lt h (t2 (by omega))
    · exact below_twice (lowk k hk) (hu' ▸ h)

theorem near_nextBits (a b : Nat) (hb : 0 < b) : Near ((a : ℚ) / b * 2 ^ 1074) (nextBits a b) := by
  have h := near_nextBits' (a * 2 ^ 1074) b hb
  have e : (((a * 2 ^ 1074 : ℕ) : ℚ) / b) = (a : ℚ) / b * 2 ^ 1074 := by push_cast; ring
  rw [e] at h
  exact h

theorem near_iff {a b n : Nat} (hb : 0 < b) : Near ((a : ℚ) / b * 2 ^ 1074) n ↔ nextBits a b = n :=
  ⟨fun h => (near_nextBits a b hb).unique h, fun h => h ▸ near_nextBits a b hb⟩

theorem nextBits_mono {a b a' b' : Nat} (hb : 0 < b) (hb' : 0 < b') (h : (a : ℚ) / b ≤ (a' : ℚ) / b') :
    nextBits a b ≤ nextBits a' b' :=
  (near_nextBits a b hb).mono (near_nextBits a' b' hb') (by gcongr)

theorem roundBits_mono {a b a' b' : Nat} (hb : 0 < b) (hb' : 0 < b') (h : (a : ℚ) / b ≤ (a' : ℚ) / b') :
    roundBits a b ≤ roundBits a' b' := by
  rw [roundBits_eq, roundBits_eq]
  have := nextBits_mono hb hb' h
  omega

/-- A double is read as itself. -/
theorem nextBits_exact {a b n : Nat} (hb : 0 < b) (h : (a : ℚ) / b * 2 ^ 1074 = units n) : nextBits a b = n :=
  (near_iff hb).1 (h ▸ near_units n)

end Proofs
