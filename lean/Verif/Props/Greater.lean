import Verif.Model.Greater
import Verif.Spec.Greater
import Verif.Spec.Mac
import Verif.Proofs.RoundsTo
import Verif.Props.Numbers
import Verif.Props.ByteValue
import Verif.Props.Mac

namespace Props
open Rust Compose Spec Proofs

/-! ### C107: comparisons of numbers -/

theorem compares_nat (a b : Nat) : Compares (compare a b) a b :=
  ⟨Nat.compare_eq_lt, Nat.compare_eq_eq, Nat.compare_eq_gt⟩

theorem compares_int (a b : Int) : Compares (compare a b) a b :=
  ⟨Int.compare_eq_lt, Int.compare_eq_eq, Int.compare_eq_gt⟩

/-- The number that stands at a place in the order of the bits. -/
def placeOfBits (k : Int) : WithBot (WithTop ℚ) :=
  if k = 2047 * 2 ^ 52 then ⊤ else if k = -(2047 * 2 ^ 52) then ⊥
  else (((if k < 0 then -((F64.units (-k).toNat : ℚ) / 2 ^ 1074) else (F64.units k.toNat : ℚ) / 2 ^ 1074 : ℚ) : WithTop ℚ) : WithBot (WithTop ℚ))

private theorem units_lt_div {m n : Nat} {p : ℚ} (hp : 0 < p) (h : m < n) : (F64.units m : ℚ) / p < (F64.units n : ℚ) / p := by
  rw [div_lt_div_iff_of_pos_right hp]
  exact_mod_cast units_strictMono h

private theorem units_div_nonneg {m : Nat} {p : ℚ} (hp : 0 < p) : 0 ≤ (F64.units m : ℚ) / p := div_nonneg (Nat.cast_nonneg _) hp.le

private theorem signed_units_mono {k l : Int} {p : ℚ} (hp : 0 < p) (h : k < l) :
    (if k < 0 then -((F64.units (-k).toNat : ℚ) / p) else (F64.units k.toNat : ℚ) / p) <
      (if l < 0 then -((F64.units (-l).toNat : ℚ) / p) else (F64.units l.toNat : ℚ) / p) := by
  by_cases hk : k < 0
  · rw [if_pos hk]
    by_cases hl : l < 0
    · rw [if_pos hl, neg_lt_neg_iff]
      exact units_lt_div hp (by omega)
    · rw [if_neg hl]
      have h1 : (F64.units 0 : ℚ) / p < (F64.units (-k).toNat : ℚ) / p := units_lt_div hp (by omega)
      rw [units_zero, Nat.cast_zero, zero_div] at h1
      exact lt_of_lt_of_le (neg_lt_zero.2 h1) (units_div_nonneg hp)
  · rw [if_neg hk, if_neg (by omega)]
    exact units_lt_div hp (by omega)

theorem placeOfBits_mono {k l : Int} (hk : -(2047 * 2 ^ 52) ≤ k) (hl : l ≤ 2047 * 2 ^ 52) (h : k < l) : placeOfBits k < placeOfBits l := by
  unfold placeOfBits
  have hp : (0 : ℚ) < 2 ^ 1074 := pow_pos two_pos _
  have key := signed_units_mono hp h
  generalize (if k < 0 then -((F64.units (-k).toNat : ℚ) / 2 ^ 1074) else (F64.units k.toNat : ℚ) / 2 ^ 1074 : ℚ) = u at *
  generalize (if l < 0 then -((F64.units (-l).toNat : ℚ) / 2 ^ 1074) else (F64.units l.toNat : ℚ) / 2 ^ 1074 : ℚ) = v at *
  rw [if_neg (show ¬ k = 2047 * 2 ^ 52 by omega), if_neg (show ¬ l = -(2047 * 2 ^ 52) by omega)]
  split <;> split
  · exact bot_lt_top
  · exact WithBot.bot_lt_coe _
  · exact WithBot.coe_lt_coe.2 (WithTop.coe_lt_top u)
  · exact WithBot.coe_lt_coe.2 (WithTop.coe_lt_coe.2 key)

theorem signedBits_eq (x : F64) : x.signedBits =
    if 2 ^ 63 ≤ x.toNat then -((x.toNat % 2 ^ 63 : Nat) : Int) else ((x.toNat % 2 ^ 63 : Nat) : Int) := by
  unfold F64.signedBits
  rw [BitVec.msb_eq_decide]
  simp only [decide_eq_true_eq]

theorem isNan_iff (x : F64) : x.isNan = true ↔ 2047 * 2 ^ 52 < x.toNat % 2 ^ 63 := by
  have hx : x.toNat < 2 ^ 64 := x.isLt
  unfold F64.isNan F64.expo F64.frac
  rw [Bool.and_eq_true, beq_iff_eq, bne_iff_ne]
  omega

theorem floatPlace_eq (x : F64) : floatPlace x = if x.isNan then none else some (placeOfBits x.signedBits) := by
  have hx : x.toNat < 2 ^ 64 := x.isLt
  have e1 : infinity.toNat = 2047 * 2 ^ 52 := rfl
  have e2 : (opposite infinity).toNat = 2 ^ 63 + 2047 * 2 ^ 52 := rfl
  have i1 : x = infinity ↔ x.toNat = 2047 * 2 ^ 52 := by rw [← e1]; exact BitVec.toNat_inj.symm
  have i2 : x = opposite infinity ↔ x.toNat = 2 ^ 63 + 2047 * 2 ^ 52 := by rw [← e2]; exact BitVec.toNat_inj.symm
  have hn := isNan_iff x
  have hs := signedBits_eq x
  unfold floatPlace
  cases hv : floatValue x with
  | some q =>
    obtain ⟨hlt, hq⟩ := floatValue_some hv
    rw [if_neg (show ¬ x.isNan = true by rw [hn]; omega)]
    simp only
    unfold placeOfBits
    rw [hs, hq]
    generalize x.toNat = n at *
    clear hv hq e1 e2 i1 i2 hn hs
    generalize (2 : ℚ) ^ 1074 = p
    by_cases h : 2 ^ 63 ≤ n
    · rw [if_pos h, if_pos h]
      generalize n % 2 ^ 63 = m at *
      rw [if_neg (show ¬ (-(m : Int)) = 2047 * 2 ^ 52 by omega), if_neg (show ¬ (-(m : Int)) = -(2047 * 2 ^ 52) by omega)]
      by_cases h0 : m = 0
      · subst h0
        simp [units_zero]
      · rw [if_pos (show (-(m : Int)) < 0 by omega), neg_neg, Int.toNat_natCast]
    · rw [if_neg h, if_neg h]
      generalize n % 2 ^ 63 = m at *
      rw [if_neg (show ¬ (m : Int) = 2047 * 2 ^ 52 by omega), if_neg (show ¬ (m : Int) = -(2047 * 2 ^ 52) by omega),
        if_neg (show ¬ (m : Int) < 0 by omega), Int.toNat_natCast]
  | none =>
    have hge : ¬ x.toNat % 2 ^ 63 < 2047 * 2 ^ 52 := by
      intro h
      have e : (BitVec.ofNat 64 (x.toNat % 2 ^ 63)).toNat = x.toNat % 2 ^ 63 := by rw [BitVec.toNat_ofNat]; omega
      rw [floatValue_sign, floatValue_of_bits (by rw [e]; exact h)] at hv
      simp at hv
    simp only
    by_cases hnan : x.isNan = true
    · have := hn.1 hnan
      rw [if_pos hnan, if_neg (by rw [i1]; omega), if_neg (by rw [i2]; omega)]
    · rw [if_neg hnan]
      rw [hn] at hnan
      unfold placeOfBits
      by_cases h : 2 ^ 63 ≤ x.toNat
      · rw [if_neg (by rw [i1]; omega), if_pos (by rw [i2]; omega), hs, if_pos h, if_neg (by omega), if_pos (by omega)]
      · rw [if_pos (by rw [i1]; omega), hs, if_neg h, if_pos (by omega)]

theorem signedBits_bound {x : F64} (h : ¬ x.isNan = true) : -(2047 * 2 ^ 52) ≤ x.signedBits ∧ x.signedBits ≤ 2047 * 2 ^ 52 := by
  rw [isNan_iff] at h
  rw [signedBits_eq]
  split <;> omega

/-- C107: doubles are compared as the numbers that they denote, the infinities above and below all of them; what is not a
number is neither less than, nor equal to, nor greater than anything. -/
theorem C107_doubles (a b : F64) :
    match floatPlace a, floatPlace b with
    | some p, some q => ∃ o, a.partialCmp b = some o ∧ Compares o p q ∧ (a.eq b = true ↔ p = q)
    | _, _ => a.partialCmp b = none ∧ a.eq b = false := by
  rw [floatPlace_eq, floatPlace_eq]
  by_cases ha : a.isNan = true
  · rw [if_pos ha]
    simp [F64.eq, F64.partialCmp, ha]
  by_cases hb : b.isNan = true
  · rw [if_pos hb, if_neg ha]
    simp [F64.eq, F64.partialCmp, hb]
  rw [if_neg ha, if_neg hb]
  have e : a.partialCmp b = some (compare a.signedBits b.signedBits) := by
    simp [F64.partialCmp, ha, hb]
  obtain ⟨a1, a2⟩ := signedBits_bound ha
  obtain ⟨b1, b2⟩ := signedBits_bound hb
  have c := compares_int a.signedBits b.signedBits
  have lt : a.signedBits < b.signedBits ↔ placeOfBits a.signedBits < placeOfBits b.signedBits := by
    constructor
    · exact placeOfBits_mono a1 b2
    · intro h
      by_contra hn
      rcases Int.lt_or_eq_of_le (not_lt.1 hn) with h' | h'
      · exact absurd (placeOfBits_mono b1 a2 h') (not_lt.2 h.le)
      · rw [h'] at h; exact lt_irrefl _ h
  have gt : b.signedBits < a.signedBits ↔ placeOfBits b.signedBits < placeOfBits a.signedBits := by
    constructor
    · exact placeOfBits_mono b1 a2
    · intro h
      by_contra hn
      rcases Int.lt_or_eq_of_le (not_lt.1 hn) with h' | h'
      · exact absurd (placeOfBits_mono a1 b2 h') (not_lt.2 h.le)
      · rw [h'] at h; exact lt_irrefl _ h
  have eq : a.signedBits = b.signedBits ↔ placeOfBits a.signedBits = placeOfBits b.signedBits := by
    constructor
    · intro h; rw [h]
    · intro h
      by_contra hn
      rcases Int.lt_or_gt_of_ne hn with h' | h'
      · exact absurd (lt.1 h') (by rw [h]; exact lt_irrefl _)
      · exact absurd (gt.1 h') (by rw [h]; exact lt_irrefl _)
  refine ⟨_, e, ⟨c.lt.trans lt, c.eq.trans eq, c.gt.trans gt⟩, ?_⟩
  rw [F64.eq, e, beq_iff_eq, Option.some.injEq]
  exact c.eq.trans eq

example : floatPlace (BitVec.ofNat 64 0x3FF8000000000000) = some (((3 / 2 : ℚ) : WithTop ℚ) : WithBot (WithTop ℚ)) ∧ floatPlace infinity = some ⊤ ∧
    floatPlace quietNan = none ∧ F64.partialCmp (BitVec.ofNat 64 0x3FF8000000000000) infinity = some .lt ∧
    F64.eq (0#64) negativeZero = true := by
  refine ⟨?_, by decide +kernel, by decide +kernel, by decide +kernel, by decide +kernel⟩
  have : floatValue (BitVec.ofNat 64 0x3FF8000000000000) = some (3 / 2) := by decide +kernel
  unfold floatPlace
  rw [this]

/-- Cpus hold a positive finite double. -/
theorem cpus_new_iff {x : F64} {c : Cpus} (h : Cpus.new x = .ok c) : c.val = x ∧ x.toNat < 2047 * 2 ^ 52 := by
  have hx : x.toNat < 2 ^ 64 := x.isLt
  unfold Cpus.new at h
  split at h
  · cases h
  · rename_i h1
    split at h
    · cases h
    · rename_i h2
      cases h
      refine ⟨rfl, ?_⟩
      simp only [F64.isSignPositive, BitVec.msb_eq_decide, F64.isFinite, F64.expo, Bool.not_eq_true, Bool.not_eq_false', Bool.not_not,
        decide_eq_true_eq, bne_iff_ne, decide_eq_false_iff_not] at h1 h2
      omega

/-- C107: amounts of cpus are compared as the numbers that they were made from, and any two can be compared; equal amounts
hold the same double. -/
theorem C107_cpus (x y : F64) (c d : Cpus) (hc : Cpus.new x = .ok c) (hd : Cpus.new y = .ok d) :
    ∃ p q o, floatValue x = some p ∧ floatValue y = some q ∧ c.partialCmp d = some o ∧ Compares o p q ∧
      (c.eq d = true ↔ p = q) ∧ (c.eq d = true ↔ x = y) := by
  obtain ⟨rfl, h1⟩ := cpus_new_iff hc
  obtain ⟨rfl, h2⟩ := cpus_new_iff hd
  have v1 := floatValue_of_bits h1
  have v2 := floatValue_of_bits h2
  have key := C107_doubles c.val d.val
  have p1 : floatPlace c.val = some ((((F64.units c.val.toNat : ℚ) / 2 ^ 1074 : ℚ) : WithTop ℚ) : WithBot (WithTop ℚ)) := by
    unfold floatPlace; rw [v1]
  have p2 : floatPlace d.val = some ((((F64.units d.val.toNat : ℚ) / 2 ^ 1074 : ℚ) : WithTop ℚ) : WithBot (WithTop ℚ)) := by
    unfold floatPlace; rw [v2]
  rw [p1, p2] at key
  obtain ⟨o, h3, h4, h5⟩ := key
  have hval : (F64.units c.val.toNat : ℚ) / 2 ^ 1074 = (F64.units d.val.toNat : ℚ) / 2 ^ 1074 ↔ c.val = d.val := by
    have hp : (2 : ℚ) ^ 1074 ≠ 0 := pow_ne_zero _ two_ne_zero
    constructor
    · intro h
      rw [div_left_inj' hp, Nat.cast_inj, units_strictMono.injective.eq_iff] at h
      exact BitVec.eq_of_toNat_eq h
    · intro h; rw [h]
  rw [WithBot.coe_inj, WithTop.coe_inj] at h5
  refine ⟨_, _, o, v1, v2, h3, ⟨?_, ?_, ?_⟩, h5, h5.trans hval⟩
  · rw [h4.lt, WithBot.coe_lt_coe, WithTop.coe_lt_coe]
  · rw [h4.eq, WithBot.coe_inj, WithTop.coe_inj]
  · rw [h4.gt, WithBot.coe_lt_coe, WithTop.coe_lt_coe]

/-- Two CPUs are less than three. -/
example : ∃ p q o, floatValue (F64.ofNat 2) = some p ∧ floatValue (F64.ofNat 3) = some q ∧
    (Cpus.mk (F64.ofNat 2)).partialCmp ⟨F64.ofNat 3⟩ = some o ∧ Compares o p q ∧
    ((Cpus.mk (F64.ofNat 2)).eq ⟨F64.ofNat 3⟩ = true ↔ p = q) ∧ ((Cpus.mk (F64.ofNat 2)).eq ⟨F64.ofNat 3⟩ = true ↔ F64.ofNat 2 = F64.ofNat 3) :=
  C107_cpus _ _ _ _ (by decide +kernel) (by decide +kernel)

/-- C107: an amount of cpus is compared with a double as a number with its place among the numbers. -/
theorem C107_cpus_double (x y : F64) (c : Cpus) (hc : Cpus.new x = .ok c) :
    ∃ p, floatValue x = some p ∧
      match floatPlace y with
      | some q => ∃ o, c.partialCmpFloat y = some o ∧ Compares o ((p : WithTop ℚ) : WithBot (WithTop ℚ)) q ∧
        (c.eqFloat y = true ↔ ((p : WithTop ℚ) : WithBot (WithTop ℚ)) = q)
      | none => c.partialCmpFloat y = none ∧ c.eqFloat y = false := by
  obtain ⟨rfl, h1⟩ := cpus_new_iff hc
  have v1 := floatValue_of_bits h1
  have key := C107_doubles c.val y
  have p1 : floatPlace c.val = some ((((F64.units c.val.toNat : ℚ) / 2 ^ 1074 : ℚ) : WithTop ℚ) : WithBot (WithTop ℚ)) := by
    unfold floatPlace; rw [v1]
  rw [p1] at key
  refine ⟨_, v1, ?_⟩
  cases hy : floatPlace y with
  | some q => rw [hy] at key; exact key
  | none => rw [hy] at key; exact key

example : ∃ c d, Cpus.new (F64.ofNat 2) = .ok c ∧ Cpus.new (F64.ofNat 3) = .ok d ∧ c.partialCmp d = some .lt ∧
    c.eqFloat (F64.ofNat 2) = true ∧ c.partialCmpFloat quietNan = none :=
  ⟨⟨F64.ofNat 2⟩, ⟨F64.ofNat 3⟩, by decide +kernel, by decide +kernel, by decide +kernel, by decide +kernel, by decide +kernel⟩

/-- C107: percentages, adjustments of the OOM score and weights are compared, with each other and with plain numbers, as the
numbers that they were made from. -/
theorem C107_bounded :
    (∀ m n p q, Percent.new m = .ok p → Percent.new n = .ok q → Compares (p.cmp q) m n ∧ (p = q ↔ m = n) ∧
      ∀ k, p.eqNat k = true ↔ m = k) ∧
    (∀ i j p q, OomScoreAdj.new i = .ok p → OomScoreAdj.new j = .ok q → Compares (p.cmp q) i j ∧ (p = q ↔ i = j) ∧
      ∀ k, p.eqInt k = true ↔ i = k) ∧
    ∀ m n v w, Weight.new m = .ok v → Weight.new n = .ok w → Compares (v.cmp w) m n ∧ (v = w ↔ m = n) ∧
      ∀ k, v.eqNat k = true ↔ m = k := by
  refine ⟨fun m n p q hp hq => ?_, fun m n p q hp hq => ?_, fun m n p q hp hq => ?_⟩
  · unfold Percent.new at hp hq
    split at hp <;> cases hp
    split at hq <;> cases hq
    exact ⟨compares_nat _ _, by simp, fun k => by simp [Percent.eqNat]⟩
  · unfold OomScoreAdj.new at hp hq
    split at hp <;> cases hp
    split at hq <;> cases hq
    exact ⟨compares_int _ _, by simp, fun k => by simp [OomScoreAdj.eqInt]⟩
  · unfold Weight.new at hp hq
    split at hp
    · cases hp
    split at hp <;> cases hp
    split at hq
    · cases hq
    split at hq <;> cases hq
    exact ⟨compares_nat _ _, by simp, fun k => by simp [Weight.eqNat]⟩

example : ∃ p q, OomScoreAdj.new (-500) = .ok p ∧ OomScoreAdj.new 3 = .ok q ∧ p.cmp q = .lt ∧ p.eqInt (-500) = true :=
  ⟨⟨-500⟩, ⟨3⟩, by decide, by decide, by decide, by decide⟩

/-- C107: limits are compared as what they allow: a number less than a greater one, and everything less than no limit, which is
the default and what `-1` stands for. -/
theorem C107_limit (a b : Limit Nat) : Compares (Limit.cmp compare a b) (allowed a) (allowed b) ∧ (a = b ↔ allowed a = allowed b) ∧
    (∀ n, allowed (Limit.ofValue n) = n) ∧ allowed Limit.default = ⊤ ∧ (a = .unlimited ↔ a.serialize .u64 = .i64 (-1)) := by
  refine ⟨?_, ?_, fun _ => rfl, rfl, ?_⟩
  · cases a with
    | value m =>
      cases b with
      | value n =>
        have c := compares_nat m n
        exact ⟨c.lt.trans WithTop.coe_lt_coe.symm, c.eq.trans WithTop.coe_inj.symm, c.gt.trans WithTop.coe_lt_coe.symm⟩
      | unlimited => exact ⟨by simp [Limit.cmp, allowed], by simp [Limit.cmp, allowed], by simp [Limit.cmp, allowed]⟩
    | unlimited =>
      cases b with
      | value n => exact ⟨by simp [Limit.cmp, allowed], by simp [Limit.cmp, allowed], by simp [Limit.cmp, allowed]⟩
      | unlimited => exact ⟨by simp [Limit.cmp, allowed], by simp [Limit.cmp, allowed], by simp [Limit.cmp, allowed]⟩
  · cases a <;> cases b <;> simp [allowed]
  · cases a <;> simp [Limit.serialize]

example : Limit.cmp compare (.value 4294967295) (.unlimited : Limit Nat) = .lt ∧
    Limit.fromStr (parseUnsigned u32Max) "-1".toList = .ok Limit.default := by decide

theorem bigEndian_lt {s : List Nat} (h : ∀ b ∈ s, b ≤ 255) : bigEndian s < 256 ^ s.length := by
  induction s with
  | nil => simp [bigEndian]
  | cons b s ih =>
    have h1 := ih fun x hx => h x (List.mem_cons_of_mem _ hx)
    have h2 := h b List.mem_cons_self
    rw [bigEndian, List.length_cons, pow_succ]
    have : b * 256 ^ s.length ≤ 255 * 256 ^ s.length := Nat.mul_le_mul_right _ h2
    omega

theorem compareBytes_spec {s t : List Nat} (hl : s.length = t.length) (hs : ∀ b ∈ s, b ≤ 255) (ht : ∀ b ∈ t, b ≤ 255) :
    Compares (compareBytes s t) (bigEndian s) (bigEndian t) ∧ (bigEndian s = bigEndian t → s = t) := by
  induction s generalizing t with
  | nil =>
    cases t with
    | nil => exact ⟨⟨by simp [compareBytes], by simp [compareBytes], by simp [compareBytes]⟩, fun _ => rfl⟩
    | cons b t => simp at hl
  | cons a s ih =>
    cases t with
    | nil => simp at hl
    | cons b t =>
      have hl' : s.length = t.length := by simpa using hl
      have hs' : ∀ b ∈ s, b ≤ 255 := fun x hx => hs x (List.mem_cons_of_mem _ hx)
      have ht' : ∀ b ∈ t, b ≤ 255 := fun x hx => ht x (List.mem_cons_of_mem _ hx)
      obtain ⟨c, hinj⟩ := ih hl' hs' ht'
      have l1 := bigEndian_lt hs'
      have l2 := bigEndian_lt ht'
      simp only [bigEndian, compareBytes]
      rw [hl'] at l1 ⊢
      generalize 256 ^ t.length = w at *
      rcases Nat.lt_trichotomy a b with h | h | h
      · have e : compare a b = .lt := Nat.compare_eq_lt.2 h
        have : (a + 1) * w ≤ b * w := Nat.mul_le_mul_right _ h
        rw [Nat.add_mul] at this
        have hlt : a * w + bigEndian s < b * w + bigEndian t := by omega
        rw [e]
        refine ⟨⟨by simpa [Ordering.then] using hlt, by simpa [Ordering.then] using hlt.ne, by simpa [Ordering.then] using hlt.le⟩, fun he => absurd he hlt.ne⟩
      · subst h
        have e : compare a a = .eq := Nat.compare_eq_eq.2 rfl
        rw [e]
        simp only [Ordering.then]
        refine ⟨⟨by rw [c.lt]; omega, by rw [c.eq]; omega, by rw [c.gt]; omega⟩, fun he => by rw [hinj (by omega)]⟩
      · have e : compare a b = .gt := Nat.compare_eq_gt.2 h
        have : (b + 1) * w ≤ a * w := Nat.mul_le_mul_right _ h
        rw [Nat.add_mul] at this
        have hlt : b * w + bigEndian t < a * w + bigEndian s := by omega
        rw [e]
        refine ⟨⟨by simpa [Ordering.then] using hlt.le, by simpa [Ordering.then] using hlt.ne', by simpa [Ordering.then] using hlt⟩, fun he => absurd he hlt.ne'⟩

/-- C107: MAC addresses are compared as the numbers that their bytes make. -/
theorem C107_mac (a b : MacAddress) (ha : MacOk a) (hb : MacOk b) :
    Compares (a.cmp b) (bigEndian a.bytes) (bigEndian b.bytes) ∧ (a = b ↔ bigEndian a.bytes = bigEndian b.bytes) := by
  obtain ⟨c, h⟩ := compareBytes_spec (ha.1.trans hb.1.symm) ha.2 hb.2
  refine ⟨c, fun e => by rw [e], fun e => ?_⟩
  cases a; cases b
  exact congrArg _ (h e)

example : MacOk ⟨[0x92, 0xd0, 0xc6, 0x0a, 0x29, 0x33]⟩ ∧ MacOk ⟨[0x92, 0xd0, 0xc6, 0x0b, 0, 0]⟩ ∧
    MacAddress.cmp ⟨[0x92, 0xd0, 0xc6, 0x0a, 0x29, 0x33]⟩ ⟨[0x92, 0xd0, 0xc6, 0x0b, 0, 0]⟩ = .lt := by
  refine ⟨⟨rfl, by decide⟩, ⟨rfl, by decide⟩, by decide⟩

end Props
