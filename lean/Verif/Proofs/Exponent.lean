import Verif.Model.Exponent
import Verif.Spec.Exponent
import Verif.Proofs.DecimalWhole

/- Scientific notation: what `{:e}` and `{:E}` write. -/

namespace Proofs
open Rust Rust.F64 Spec Compose

/-! ### Zeros at the end -/

theorem stripZeros_spec (n e : Nat) : (stripZeros n e).1 * 10 ^ (stripZeros n e).2 = n * 10 ^ e ∧
    ((stripZeros n e).1 % 10 ≠ 0 ∨ (n = 0 ∧ stripZeros n e = (0, e))) := by
  induction n using Nat.strongRecOn generalizing e with
  | _ n ih =>
    rw [stripZeros]
    split
    · rename_i h
      obtain ⟨h1, h2⟩ := ih (n / 10) (by omega) (e + 1)
      refine ⟨h1.trans ?_, h2.imp_right fun h3 => absurd h3.1 (by omega)⟩
      rw [Nat.pow_succ, Nat.mul_comm (10 ^ e), ← Nat.mul_assoc, Nat.div_mul_cancel (Nat.dvd_of_mod_eq_zero h.1)]
    · rename_i h
      refine ⟨rfl, ?_⟩
      by_cases h0 : n = 0
      · exact .inr ⟨h0, by rw [h0]⟩
      · exact .inl (by dsimp only; omega)

/-! ### The text -/

theorem showNat_head {c : Nat} (h : c ≠ 0) : (showNat c).head? ≠ some '0' := by
  have h1 : IsNumber (showNat c) := isNumber_showNat c
  rcases (showNat_decimal_iff h1).1 (by rw [decimal_showNat]) with h2 | h2
  · have := congrArg decimal h2
    rw [decimal_showNat] at this
    exact absurd this h
  · exact h2

theorem ten_ne : (10 : ℚ) ≠ 0 := by norm_num

/-- The digits of `c`, the last one of which has the exponent `k`. -/
theorem exponentText_spec (upper : Bool) (c : Nat) (k : ℤ) (hc : c % 10 ≠ 0) :
    ScientificText (exponentLetter upper) (exponentText upper (showNat c) (k + (((showNat c).length - 1 : ℕ) : ℤ))) (c * 10 ^ k) := by
  have hd : decimal (showNat c) = c := decimal_showNat c
  have hh := showNat_head (c := c) (by omega)
  have hl := getLast_showNat c hc
  have hdig := digits_showNat c
  have hne := showNat_ne_nil c
  generalize showNat c = ds at *
  obtain _ | ⟨first, fracs⟩ := ds
  · exact absurd rfl hne
  refine ⟨first, fracs, k + fracs.length, hdig _ (by simp), fun d h => hdig _ (by simp [h]), ?_, ?_, ?_, ?_⟩
  · rintro rfl
    exact absurd rfl hh
  · intro h
    refine hl ?_
    rw [List.getLast?_cons, h]
    rfl
  · have hk : k + (((first :: fracs).length - 1 : ℕ) : ℤ) = k + fracs.length := by simp
    rw [hk]
    unfold exponentText
    by_cases hf : fracs = []
    · subst hf; simp
    · have : 1 < (first :: fracs).length := by
        have := List.length_pos_of_ne_nil hf
        simp only [List.length_cons]; omega
      rw [if_pos this, if_neg hf]
      simp
  · rw [List.singleton_append, hd, zpow_add₀ ten_ne, zpow_natCast]
    have : (10 : ℚ) ^ fracs.length ≠ 0 := pow_ne_zero _ ten_ne
    field_simp

theorem scientific_zero (letter : Char) : ScientificText letter ("0".toList ++ [letter] ++ "0".toList) 0 := by
  refine ⟨'0', [], 0, by decide, (fun c h => by cases h), fun _ => ⟨rfl, rfl⟩, by simp, rfl, ?_⟩
  rw [show decimal (['0'] ++ []) = 0 from rfl]
  simp

theorem showNatExp_spec (upper : Bool) (n : Nat) : ScientificText (exponentLetter upper) (showNatExp upper n) n := by
  obtain ⟨h1, h2⟩ := stripZeros_spec n 0
  rcases h2 with h2 | ⟨rfl, h2⟩
  · have := exponentText_spec upper (stripZeros n 0).1 (stripZeros n 0).2 h2
    have hv : ((stripZeros n 0).1 : ℚ) * 10 ^ ((stripZeros n 0).2 : ℤ) = n := by
      rw [zpow_natCast]
      have := congrArg (Nat.cast (R := ℚ)) h1
      push_cast at this
      simpa using this
    rw [hv] at this
    have e : (((stripZeros n 0).2 : ℤ) + (((showNat (stripZeros n 0).1).length - 1 : ℕ) : ℤ)) =
        (((stripZeros n 0).2 + ((showNat (stripZeros n 0).1).length - 1) : ℕ) : ℤ) := by push_cast; rfl
    rw [e] at this
    exact this
  · have := scientific_zero (exponentLetter upper)
    unfold showNatExp
    rw [h2]
    rw [Nat.cast_zero]
    cases upper <;> exact this

/-! ### There is one text -/

private theorem digit_value {c : Char} (h : c ∈ "0123456789".toList) : decimal [c] < 10 ∧ (decimal [c] = 0 → c = '0') :=
  (by decide : ∀ c ∈ "0123456789".toList, decimal [c] < 10 ∧ (decimal [c] = 0 → c = '0')) c h

/-- The digits stand for a number that does not end in 0, unless it is 0. -/
theorem decimal_mod {ds : Str} (hd : Digits ds) (hl : ds.getLast? ≠ some '0') (hne : ds ≠ []) : decimal ds % 10 ≠ 0 := by
  obtain ⟨a, c, rfl⟩ : ∃ a c, ds = a ++ [c] := ⟨_, _, (List.dropLast_append_getLast hne).symm⟩
  rw [List.getLast?_append_of_ne_nil _ (by simp)] at hl
  obtain ⟨h1, h2⟩ := digit_value (hd c (by simp))
  rw [decimal_append_list]
  intro h
  have h3 : decimal [c] = 0 := by
    simp only [List.length_singleton, Nat.pow_one] at h
    omega
  exact hl (by rw [h2 h3]; rfl)

theorem pow_unique {a b : Nat} {i j : ℤ} (ha : a % 10 ≠ 0) (hb : b % 10 ≠ 0)
    (h : (a : ℚ) * 10 ^ i = b * 10 ^ j) : a = b ∧ i = j := by
  have key : ∀ {a b : Nat} {i j : ℤ}, a % 10 ≠ 0 → i ≤ j → (a : ℚ) * 10 ^ i = b * 10 ^ j → a = b ∧ i = j := by
    intro a b i j ha hij h
    obtain ⟨d, rfl⟩ : ∃ d : ℕ, j = i + d := ⟨(j - i).toNat, by omega⟩
    have hi : (10 : ℚ) ^ i ≠ 0 := zpow_ne_zero _ ten_ne
    rw [zpow_add₀ ten_ne, zpow_natCast, mul_comm ((10 : ℚ) ^ i), ← mul_assoc] at h
    have h1 := mul_right_cancel₀ hi h
    have h2 : a = b * 10 ^ d := by exact_mod_cast h1
    cases d with
    | zero => simpa using h2
    | succ d =>
      rw [Nat.pow_succ, ← Nat.mul_assoc] at h2
      exact absurd (by omega) ha
  rcases le_total i j with hij | hij
  · exact key ha hij h
  · obtain ⟨h1, h2⟩ := key hb hij h.symm
    exact ⟨h1.symm, h2.symm⟩

theorem scientific_unique {letter : Char} {t t' : Str} {v : ℚ} (h : ScientificText letter t v) (h' : ScientificText letter t' v) :
    t = t' := by
  have nonzero : ∀ {first : Char} {fracs : Str}, first ∈ "0123456789".toList → Digits fracs → fracs.getLast? ≠ some '0' →
      first ≠ '0' → decimal ([first] ++ fracs) % 10 ≠ 0 := by
    intro first fracs h1 h2 h3 h4
    refine decimal_mod (fun c hc => ?_) ?_ (by simp)
    · rcases List.mem_append.1 hc with h | h
      · rw [List.mem_singleton.1 h]; exact h1
      · exact h2 c h
    · intro h
      by_cases hf : fracs = []
      · subst hf
        exact h4 (by simpa using h)
      · rw [List.getLast?_append_of_ne_nil _ hf] at h
        exact h3 h
  have value : ∀ (first : Char) (fracs : Str) (k : ℤ), (decimal ([first] ++ fracs) : ℚ) / 10 ^ fracs.length * 10 ^ k =
      decimal ([first] ++ fracs) * 10 ^ (k - fracs.length) := by
    intro first fracs k
    rw [zpow_sub₀ ten_ne, zpow_natCast]
    ring
  obtain ⟨first, fracs, k, h1, h2, h3, h4, rfl, rfl⟩ := h
  obtain ⟨first', fracs', k', h1', h2', h3', h4', rfl, hv⟩ := h'
  rw [value, value] at hv
  by_cases z : first = '0'
  · obtain ⟨rfl, rfl⟩ := h3 z
    by_cases z' : first' = '0'
    · obtain ⟨rfl, rfl⟩ := h3' z'
      rw [z, z']
    · exfalso
      rw [z, show decimal (['0'] ++ []) = 0 from rfl, Nat.cast_zero, zero_mul] at hv
      have := nonzero h1' h2' h4' z'
      have h0 : (decimal ([first'] ++ fracs') : ℚ) ≠ 0 := by
        intro h
        have : decimal ([first'] ++ fracs') = 0 := by exact_mod_cast h
        omega
      exact mul_ne_zero h0 (zpow_ne_zero _ ten_ne) hv.symm
  · have hn := nonzero h1 h2 h4 z
    by_cases z' : first' = '0'
    · obtain ⟨rfl, rfl⟩ := h3' z'
      exfalso
      rw [z', show decimal (['0'] ++ []) = 0 from rfl, Nat.cast_zero, zero_mul] at hv
      have h0 : (decimal ([first] ++ fracs) : ℚ) ≠ 0 := by
        intro h
        have : decimal ([first] ++ fracs) = 0 := by exact_mod_cast h
        omega
      exact mul_ne_zero h0 (zpow_ne_zero _ ten_ne) hv
    · obtain ⟨e1, e2⟩ := pow_unique hn (nonzero h1' h2' h4' z') hv
      have canon : ∀ {first : Char} {fracs : Str}, first ∈ "0123456789".toList → Digits fracs → first ≠ '0' →
          showNat (decimal ([first] ++ fracs)) = [first] ++ fracs := by
        intro first fracs h1 h2 h4
        refine (showNat_decimal_iff ⟨by simp, fun c hc => ?_⟩).2 (.inr (by simpa using h4))
        rcases List.mem_append.1 hc with h | h
        · rw [List.mem_singleton.1 h]; exact h1
        · exact h2 c h
      have e3 := canon h1 h2 z
      rw [e1, canon h1' h2' z'] at e3
      obtain ⟨rfl, rfl⟩ : first' = first ∧ fracs' = fracs := by simpa using e3
      have : k = k' := by omega
      rw [this]

/-! ### Reading it -/

theorem scientific_numeral {letter : Char} {t : Str} {v : ℚ} (hl : letter ∈ "eE".toList) (h : ScientificText letter t v) :
    NumeralText t v := by
  obtain ⟨first, fracs, k, h1, h2, -, -, rfl, rfl⟩ := h
  have hp : PointText ([first] ++ (if fracs = [] then [] else ".".toList ++ fracs))
      (decimal ([first] ++ fracs) / 10 ^ fracs.length) := by
    refine ⟨[first], fracs, fun c hc => by rw [List.mem_singleton.1 hc]; exact h1, h2, by simp, ?_, rfl⟩
    by_cases hf : fracs = []
    · exact .inl ⟨by simp [hf], hf⟩
    · exact .inr (by rw [if_neg hf]; simp)
  by_cases hk : k < 0
  · have e : showInt k = "-".toList ++ showNat k.natAbs := by unfold showInt; rw [if_pos hk]; rfl
    have := NumeralText.minus hp hl (isNumber_showNat k.natAbs)
    rw [decimal_showNat] at this
    rw [e]
    have hz : (10 : ℚ) ^ k = ((10 : ℚ) ^ k.natAbs)⁻¹ := by
      rw [← zpow_natCast, ← zpow_neg]
      congr 1; omega
    rw [hz, ← div_eq_mul_inv]
    simpa using this
  · have e : showInt k = showNat k.natAbs := by unfold showInt; rw [if_neg hk]
    have := NumeralText.exponent hp hl (isNumber_showNat k.natAbs)
    rw [decimal_showNat] at this
    rw [e]
    have hz : (10 : ℚ) ^ k = (10 : ℚ) ^ k.natAbs := by
      rw [← zpow_natCast]
      congr 1; omega
    rw [hz]
    exact this

theorem numeral_rounds {t : Str} {v : ℚ} (h : NumeralText t v) : ∃ y, RoundsTo v y := by
  obtain ⟨n, h1, h2⟩ := parseNumber_numeral h
  have := parseNumber_le h1
  refine ⟨BitVec.ofNat 64 n, (h2 _).2 ?_⟩
  rw [BitVec.toNat_ofNat]
  omega

theorem roundsTo_unique {t : Str} {v : ℚ} (h : NumeralText t v) {x y : F64} (hx : RoundsTo v x) (hy : RoundsTo v y) : x = y := by
  obtain ⟨n, h1, h2⟩ := parseNumber_numeral h
  exact BitVec.eq_of_toNat_eq (((h2 x).1 hx).trans ((h2 y).1 hy).symm)

/-! ### Doubles -/

theorem exp_letter (upper : Bool) : exponentLetter upper ∈ "eE".toList := by cases upper <;> decide

theorem shortestScientific {x : F64} (h0 : 0 < x.toNat) (hx : x.toNat < 2047 * 2 ^ 52) (tieUp : Nat → Bool) (upper : Bool) :
    ShortestScientific (exponentLetter upper)
      (exponentText upper (showNat (shortest tieUp x.toNat).1)
        (309 - ((shortest tieUp x.toNat).2 : Int) + (((showNat (shortest tieUp x.toNat).1).length - 1 : Nat) : Int))) x := by
  obtain ⟨h1, h2, h3, h4⟩ := shortest_core h0 hx tieUp
  exact ⟨_, _, _, floatValue_of_bits hx, h1, h2, h3, exponentText_spec upper _ _ h4⟩

theorem showExp_unsigned {x : F64} (hx : x.toNat ≤ 2047 * 2 ^ 52) (tieUp : Nat → Bool) (upper : Bool) :
    ∃ t, ScientificUnsigned (exponentLetter upper) t x ∧ F64.showExp tieUp upper x = t ∧
      F64.showExp tieUp upper (opposite x) = '-' :: t := by
  have hm : x.toNat % 2 ^ 63 = x.toNat := by omega
  have ho : (opposite x).toNat = x.toNat + 2 ^ 63 := by
    unfold opposite
    rw [BitVec.toNat_add, BitVec.toNat_ofNat]
    omega
  have hom : (opposite x).toNat % 2 ^ 63 = x.toNat := by omega
  have s1 : x.msb = false := by
    rw [BitVec.msb_eq_decide]; simp; omega
  have s2 : (opposite x).msb = true := by
    rw [BitVec.msb_eq_decide, ho]; simp
  have key : ∃ t, ScientificUnsigned (exponentLetter upper) t x ∧ ∀ sign : Str,
      (if 2047 * 2 ^ 52 < x.toNat then str!"NaN"
        else if x.toNat = 2047 * 2 ^ 52 then sign ++ str!"inf"
        else if x.toNat = 0 then sign ++ (if upper then str!"0E0" else str!"0e0")
        else sign ++ exponentText upper (showNat (shortest tieUp x.toNat).1)
          (309 - ((shortest tieUp x.toNat).2 : Int) + (((showNat (shortest tieUp x.toNat).1).length - 1 : Nat) : Int))) = sign ++ t := by
    by_cases h1 : x.toNat = 2047 * 2 ^ 52
    · have : x = infinity := BitVec.eq_of_toNat_eq (h1.trans (by decide))
      refine ⟨"inf".toList, by rw [this]; exact .infinity, fun sign => ?_⟩
      rw [if_neg (by omega), if_pos h1]
      rfl
    · by_cases h2 : x.toNat = 0
      · have : x = 0#64 := BitVec.eq_of_toNat_eq h2
        refine ⟨_, by rw [this]; exact .zero (scientific_zero _), fun sign => ?_⟩
        rw [if_neg (by omega), if_neg h1, if_pos h2]
        cases upper <;> rfl
      · have hlt : x.toNat < 2047 * 2 ^ 52 := by omega
        refine ⟨_, .positive (floatValue_of_bits hlt) ?_ (shortestScientific (by omega) hlt tieUp upper), fun sign => ?_⟩
        · refine div_pos ?_ (by positivity)
          have : units 0 < units x.toNat := units_strictMono (by omega)
          exact_mod_cast Nat.zero_lt_of_lt this
        · rw [if_neg (by omega), if_neg h1, if_neg h2]
  obtain ⟨t, h1, h2⟩ := key
  refine ⟨t, h1, ?_, ?_⟩
  · have := h2 []
    unfold F64.showExp
    simp only [hm, s1]
    exact this
  · have := h2 str!"-"
    unfold F64.showExp
    simp only [hom, s2]
    exact this

theorem showExp_nan {tieUp : Nat → Bool} {upper : Bool} {x : F64} (hn : 2047 * 2 ^ 52 < x.toNat % 2 ^ 63) :
    F64.showExp tieUp upper x = "NaN".toList := by
  unfold F64.showExp
  simp only [hn, if_true]
  rfl

theorem showExp_written (tieUp : Nat → Bool) (upper : Bool) (x : F64) :
    ScientificDouble (exponentLetter upper) (F64.showExp tieUp upper x) x := by
  have hx := x.isLt
  by_cases hn : 2047 * 2 ^ 52 < x.toNat % 2 ^ 63
  · rw [showExp_nan hn]
    refine .nan ?_ ?_ ?_
    · cases h : floatValue x with
      | none => rfl
      | some r => have := (floatValue_some h).1; omega
    · rintro rfl; revert hn; decide
    · rintro rfl; revert hn; decide
  · by_cases hs : 2 ^ 63 ≤ x.toNat
    · have ho := opposite_bits hs
      obtain ⟨t, h1, h2, h3⟩ := showExp_unsigned (x := opposite x) (by omega) tieUp upper
      rw [opposite_opposite] at h3
      rw [h3]
      have := ScientificDouble.minus h1
      rw [opposite_opposite] at this
      exact this
    · obtain ⟨t, h1, h2, h3⟩ := showExp_unsigned (x := x) (by omega) tieUp upper
      rw [h2]
      exact .plain h1

end Proofs
