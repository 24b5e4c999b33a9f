import Verif.Model.Floats
import Verif.Proofs.DecimalWhole
import Verif.Props.Convert
import Verif.Props.Addresses

namespace Props
open Rust Compose Spec Proofs

/-! ### C106: the text of doubles -/

/-- C106: a text is read as a double exactly if it is one of its texts: an optional sign; digits with at most one point, and
perhaps an exponent, for the double that this number is rounded to; or `inf`, `infinity`, `nan` in any case. -/
theorem C106_reads (s : Str) (x : F64) : F64.parse s = some x ↔ DoubleText s x := parseDouble_iff

/-- C106: no text stands for two doubles. -/
theorem C106_unambiguous (s : Str) (x y : F64) (hx : DoubleText s x) (hy : DoubleText s y) : x = y := by
  rw [← C106_reads] at hx hy
  exact Option.some.inj (hx.symm.trans hy)

example : DoubleText "0.10e1".toList 0x3FF0000000000000#64 := (C106_reads _ _).1 (by decide +kernel)

/-- C106: every number has exactly one double that it is rounded to. -/
theorem C106_rounding (a b : Nat) (hb : 0 < b) : ∃! x, RoundsTo ((a : ℚ) / b) x := by
  have e : (BitVec.ofNat 64 (F64.roundBits a b)).toNat = F64.roundBits a b := by
    have := roundBits_le a b
    rw [BitVec.toNat_ofNat]; omega
  exact ⟨_, (roundsTo_iff hb).2 e, fun y hy => BitVec.eq_of_toNat_eq (((roundsTo_iff hb).1 hy).trans e.symm)⟩

example : ∃! x, RoundsTo ((1 : Nat) / (10 : Nat) : ℚ) x := C106_rounding 1 10 (by decide)

/-- C106: a double is written as its shortest decimal number, with a minus sign if its sign bit is set; infinity as `inf`, and
what is not a number as `NaN`. -/
theorem C106_written (tieUp : Nat → Bool) (x : F64) : WrittenDouble (F64.show tieUp x) x := show_written tieUp x

example : WrittenDouble "0.1".toList 0x3FB999999999999A#64 := by
  have h : F64.show (fun _ => false) 0x3FB999999999999A#64 = "0.1".toList := by decide +kernel
  exact h ▸ C106_written (fun _ => false) _

theorem pointText_reads {t : Str} {v : ℚ} {x : F64} (h : PointText t v) (hr : RoundsTo v x) : UnsignedText t x :=
  .number (.plain h) hr

/-- What is written without a sign is a text of the double. -/
theorem writtenUnsigned_reads {t : Str} {x : F64} (h : WrittenUnsigned t x) : UnsignedText t x := by
  cases h with
  | positive _ _ h =>
    obtain ⟨q, c, k, -, h1, -, -, h2, -⟩ := h
    exact .number (.plain h2) h1
  | zero =>
    refine .number (v := ((0 : ℕ) : ℚ) / ((1 : ℕ) : ℚ)) (.plain ⟨"0".toList, [], ?_, ?_, by decide, .inl ⟨rfl, rfl⟩, ?_⟩) ?_
    · rw [digits_iff]; decide
    · rw [digits_iff]; decide
    · rw [show decimal ("0".toList ++ []) = 0 from rfl]; simp
    · rw [roundsTo_iff (by decide), roundBits_zero]; rfl
  | infinity => exact .inf (by rw [← anyCase_inf]; decide)

theorem written_reads {t : Str} {x : F64} (h : WrittenDouble t x) :
    F64.parse t = some x ∨ (floatValue x = none ∧ x ≠ infinity ∧ x ≠ opposite infinity ∧ F64.parse t = some quietNan) := by
  cases h with
  | plain h => exact .inl (parseDouble_iff.2 (.plain (writtenUnsigned_reads h)))
  | minus h => exact .inl (parseDouble_iff.2 (.minus (writtenUnsigned_reads h)))
  | nan h1 h2 h3 => exact .inr ⟨h1, h2, h3, parseDouble_iff.2 (.plain (.nan (by rw [← anyCase_nan]; decide)))⟩

/-- C106: what is written is read as the same double; any NaN as the one NaN that texts stand for. -/
theorem C106_round_trip (tieUp : Nat → Bool) (x : F64) :
    ((floatValue x ≠ none ∨ x = infinity ∨ x = opposite infinity) → F64.parse (F64.show tieUp x) = some x) ∧
    (¬ (floatValue x ≠ none ∨ x = infinity ∨ x = opposite infinity) → F64.parse (F64.show tieUp x) = some quietNan) := by
  constructor
  · intro h
    rcases written_reads (C106_written tieUp x) with h' | ⟨h1, h2, h3, -⟩
    · exact h'
    · exact absurd h (by simp [h1, h2, h3])
  · intro h
    have hx := x.isLt
    have h2 : x.toNat ≠ infinity.toNat := fun e => h (.inr (.inl (BitVec.eq_of_toNat_eq e)))
    have h3 : x.toNat ≠ (opposite infinity).toNat := fun e => h (.inr (.inr (BitVec.eq_of_toNat_eq e)))
    rw [show infinity.toNat = 2047 * 2 ^ 52 by decide] at h2
    rw [show (opposite infinity).toNat = 2047 * 2 ^ 52 + 2 ^ 63 by decide] at h3
    have hn : 2047 * 2 ^ 52 < x.toNat % 2 ^ 63 := by
      by_contra hn
      refine h (.inl ?_)
      rw [floatValue_sign, floatValue_of_bits (by rw [BitVec.toNat_ofNat]; omega)]
      simp
    rw [show_nan hn]
    exact parseDouble_iff.2 (.plain (.nan (by rw [← anyCase_nan]; decide)))

example : F64.parse (F64.show (fun _ => false) infinity) = some infinity :=
  (C106_round_trip _ _).1 (.inr (.inl rfl))

/-- C106: `f64` accepts no text with a colon, a bracket or two points, and not `true` or `false`. -/
theorem C106_refused (s : Str) (h : ':' ∈ s ∨ '[' ∈ s ∨ 2 ≤ s.count '.' ∨ s = "true".toList ∨ s = "false".toList) :
    F64.parse s = none := by
  rcases h with h | h | h | rfl | rfl
  · cases hp : F64.parse s with
    | none => rfl
    | some x => exact absurd h (plain_double (parseDouble_iff.1 hp)).1
  · cases hp : F64.parse s with
    | none => rfl
    | some x => exact absurd h (plain_double (parseDouble_iff.1 hp)).2.1
  · cases hp : F64.parse s with
    | none => rfl
    | some x => have := (plain_double (parseDouble_iff.1 hp)).2.2; omega
  · decide
  · decide

example : F64.parse "127.0.0.1".toList = none := C106_refused _ (.inr (.inr (.inl (by decide))))

/-! #### Doubles as numbers in texts -/

theorem whole_text {x : F64} {i : ℤ} (hs : x.toNat < 2 ^ 63) (hx : floatValue x = some (i : ℚ)) (tieUp : Nat → Bool) :
    ∃ N : ℕ, RoundsTo N x ∧ (i < 2 ^ 53 → i = N) ∧ F64.show tieUp x = showNat N ∧
      F64.show tieUp (opposite x) = '-' :: showNat N := by
  obtain ⟨hlt, hval⟩ := floatValue_some hx
  have hlt : x.toNat < 2047 * 2 ^ 52 := by omega
  rw [if_neg (by omega), Nat.mod_eq_of_lt hs] at hval
  obtain ⟨t, h1, h2, h3⟩ := show_unsigned (x := x) (by omega) tieUp
  have h0 : (0 : ℚ) ≤ i := by
    rw [hval]; exact div_nonneg (Nat.cast_nonneg _) (by positivity)
  obtain ⟨M, rfl⟩ := Int.eq_ofNat_of_zero_le (show 0 ≤ i by exact_mod_cast h0)
  have key : ∃ N : ℕ, RoundsTo N x ∧ t = showNat N := by
    cases h1 with
    | positive _ _ h =>
      obtain ⟨q, c, k, hq, hr, hmax, -, hp, ht⟩ := h
      have hself := roundsTo_value hlt
      rw [bitsValue_eq, ← hval] at hself
      have hk : 0 ≤ k := hmax M 0 (by simpa using hself)
      obtain ⟨n, rfl⟩ := Int.eq_ofNat_of_zero_le hk
      refine ⟨c * 10 ^ n, ?_, pointText_tidy ?_ ht⟩
      · rw [zpow_natCast] at hr; push_cast; exact hr
      · rw [zpow_natCast] at hp; push_cast; exact hp
    | zero =>
      refine ⟨0, ?_, rfl⟩
      have : RoundsTo (((0 : ℕ) : ℚ) / ((1 : ℕ) : ℚ)) 0#64 := by rw [roundsTo_iff (by decide), roundBits_zero]; rfl
      simpa using this
    | infinity => exact absurd hlt (by decide)
  obtain ⟨N, hN, rfl⟩ := key
  refine ⟨N, hN, fun hsmall => ?_, h2, h3⟩
  have hsmall' : ((M : ℤ) : ℚ) < 2 ^ 53 := by exact_mod_cast hsmall
  have := small_of_roundsTo hN hx hsmall'
  exact_mod_cast this

theorem show_float (tieUp : Nat → Bool) (x : F64) : (Number.float x).show (stdFloat tieUp) = F64.show tieUp x := rfl

/-- C106: a double that is a whole number is written without a point, so it is read as an integer: the same one below `2 ^ 53`,
and always one that is rounded to the same double; if it is out of the range of integers, it is refused. -/
theorem C106_whole_number (tieUp : Nat → Bool) (x : F64) (i : ℤ) (hs : x.toNat < 2 ^ 63) (hx : floatValue x = some (i : ℚ)) :
    ∃ N : ℕ, RoundsTo N x ∧ (i < 2 ^ 53 → i = N) ∧
      (Number.parse (stdFloat tieUp) ((Number.float x).show (stdFloat tieUp)) =
        if N < 2 ^ 64 then .ok (.unsignedInt N) else .error (.int .posOverflow)) ∧
      (Number.parse (stdFloat tieUp) ((Number.float (opposite x)).show (stdFloat tieUp)) =
        if N ≤ 2 ^ 63 then .ok (.signedInt (-N)) else .error (.int .negOverflow)) := by
  obtain ⟨N, h1, h2, h3, h4⟩ := whole_text hs hx tieUp
  refine ⟨N, h1, h2, ?_, ?_⟩
  · rw [show_float, h3]
    split
    · rename_i h
      exact (C56_number_parse _ _ _).2 (.unsignedInt (uint_showNat (by omega)))
    · rename_i h
      refine (C88_number_errors _ _ _).2 (.large (.inl rfl) (isNumber_showNat N) ?_)
      rw [decimal_showNat]; omega
  · rw [show_float, h4]
    split
    · rename_i h
      have := NumberText.signedInt (ft := stdFloat tieUp) (isNumber_showNat N) (by rw [decimal_showNat]; exact h)
      rw [decimal_showNat] at this
      exact (C56_number_parse _ _ _).2 this
    · rename_i h
      refine (C88_number_errors _ _ _).2 (.small (isNumber_showNat N) ?_)
      rw [decimal_showNat]; omega

example : floatValue 0x4014000000000000#64 = some ((5 : ℤ) : ℚ) ∧
    Number.parse (stdFloat fun _ => false) ((Number.float 0x4014000000000000#64).show (stdFloat fun _ => false)) =
      .ok (.unsignedInt 5) := ⟨by simp [floatValue]; norm_num, by decide +kernel⟩

theorem digits_head {s : Str} (h : Digits s) (c : Char) (r : Str) (e : s = c :: r) : c ≠ '+' ∧ c ≠ '-' :=
  digit_not_sign (digits_iff.1 h c (by rw [e]; simp))

/-- A text of digits that starts with no sign. -/
theorem onlyDigits_unsigned {t : Str} (h : OnlyDigits t) (hp : t.head? ≠ some '+') (hm : t.head? ≠ some '-') : Digits t := by
  obtain ⟨ds, rfl | rfl | rfl, hd⟩ := h
  · exact hd
  · simp at hp
  · simp at hm

theorem unsigned_head {t : Str} {x : F64} (h : UnsignedText t x) : t.head? ≠ some '+' ∧ t.head? ≠ some '-' := by
  obtain ⟨c, r, rfl, h1, h2⟩ := unsignedText_head h
  simp [h1, h2]

theorem written_digits {t : Str} {x : F64} (h : WrittenUnsigned t x) (hd : Digits t) : ∃ i : ℤ, floatValue x = some (i : ℚ) := by
  cases h with
  | positive hq _ h =>
    obtain ⟨q, c, k, hx, hr, -, -, hp, -⟩ := h
    rw [pointText_whole hp hd] at hr
    obtain ⟨i, hi⟩ := whole_of_roundsTo hr hx
    exact ⟨i, by rw [hx, hi]⟩
  | zero => exact ⟨0, by simp [floatValue]⟩
  | infinity => rw [digits_iff] at hd; exact absurd (hd 'i' (by decide)) (by decide)

theorem floatValue_opposite {x : F64} : floatValue (opposite x) = (floatValue x).map fun q => -q := by
  have hx := x.isLt
  have hb : (opposite x).toNat % 2 ^ 63 = x.toNat % 2 ^ 63 := by
    unfold opposite
    rw [BitVec.toNat_add, BitVec.toNat_ofNat]
    omega
  have hs : 2 ^ 63 ≤ (opposite x).toNat ↔ ¬ 2 ^ 63 ≤ x.toNat := by
    unfold opposite
    rw [BitVec.toNat_add, BitVec.toNat_ofNat]
    omega
  rw [floatValue_sign, floatValue_sign (x := x), hb, Option.map_map]
  generalize floatValue (BitVec.ofNat 64 (x.toNat % 2 ^ 63)) = v
  by_cases h : 2 ^ 63 ≤ x.toNat
  · have h' : ¬ 2 ^ 63 ≤ (opposite x).toNat := fun hc => hs.1 hc h
    simp only [if_pos h, if_neg h']
    cases v <;> simp
  · have h' := hs.2 h
    simp only [if_neg h, if_pos h']
    cases v <;> simp

/-- Exactly the whole numbers are written with nothing but digits and a sign. -/
theorem show_onlyDigits (tieUp : Nat → Bool) (x : F64) :
    OnlyDigits (F64.show tieUp x) ↔ ∃ i : ℤ, floatValue x = some (i : ℚ) := by
  constructor
  · intro hd
    have hw := C106_written tieUp x
    generalize F64.show tieUp x = t at *
    cases hw with
    | plain h =>
      obtain ⟨h1, h2⟩ := unsigned_head (writtenUnsigned_reads h)
      exact written_digits h (onlyDigits_unsigned hd h1 h2)
    | @minus t y h =>
      obtain ⟨h1, h2⟩ := unsigned_head (writtenUnsigned_reads h)
      have : Digits t := by
        obtain ⟨ds, e | e | e, hd⟩ := hd
        · exact absurd (show '-' ∈ ds by rw [← e]; simp) (fun hm => (digit_not_sign (digits_iff.1 hd _ hm)).2 rfl)
        · cases e
        · cases e; exact hd
      obtain ⟨i, hi⟩ := written_digits h this
      exact ⟨-i, by rw [floatValue_opposite, hi]; simp⟩
    | nan =>
      rw [← onlyDigits_iff] at hd
      exact absurd hd (by decide)
  · rintro ⟨i, hi⟩
    have hx := x.isLt
    by_cases hs : x.toNat < 2 ^ 63
    · obtain ⟨N, -, -, h, -⟩ := whole_text hs hi tieUp
      rw [h]
      exact ⟨_, .inl rfl, digits_showNat N⟩
    · have ho := opposite_bits (x := x) (by omega)
      have hi' : floatValue (opposite x) = some ((-i : ℤ) : ℚ) := by rw [floatValue_opposite, hi]; simp
      obtain ⟨N, -, -, -, h⟩ := whole_text (x := opposite x) (by omega) hi' tieUp
      rw [opposite_opposite] at h
      rw [h]
      exact ⟨_, .inr (.inr rfl), digits_showNat N⟩

/-- C106: exactly which doubles are read back, as numbers, from their text: those that are no whole numbers, the infinities,
and one NaN. -/
theorem C106_number_print_parse (tieUp : Nat → Bool) (x : F64) :
    Number.parse (stdFloat tieUp) ((Number.float x).show (stdFloat tieUp)) = .ok (.float x) ↔
      x = infinity ∨ x = opposite infinity ∨ x = quietNan ∨ ∃ q, floatValue x = some q ∧ ¬ ∃ i : ℤ, q = i := by
  refine (C56_number_print_parse (stdFloat tieUp) (.float x) trivial).trans ?_
  show ¬ OnlyDigits (F64.show tieUp x) ∧ F64.parse (F64.show tieUp x) = some x ↔ _
  rw [show_onlyDigits]
  obtain ⟨h1, h2⟩ := C106_round_trip tieUp x
  have inf : floatValue infinity = none := by unfold floatValue; exact if_pos (by decide)
  have neg : floatValue (opposite infinity) = none := by rw [floatValue_opposite, inf]; rfl
  constructor
  · rintro ⟨h3, h4⟩
    by_cases h : floatValue x ≠ none ∨ x = infinity ∨ x = opposite infinity
    · rcases h with h | h | h
      · right; right; right
        obtain ⟨q, hq⟩ := Option.ne_none_iff_exists'.1 h
        refine ⟨q, hq, ?_⟩
        rintro ⟨i, rfl⟩
        exact h3 ⟨i, hq⟩
      · exact .inl h
      · exact .inr (.inl h)
    · rw [h2 h] at h4
      exact .inr (.inr (.inl (Option.some.inj h4).symm))
  · rintro (rfl | rfl | rfl | ⟨q, hq, hn⟩)
    · exact ⟨by rw [inf]; simp, h1 (by simp)⟩
    · exact ⟨by rw [neg]; simp, h1 (by simp)⟩
    · have : floatValue quietNan = none := by unfold floatValue; exact if_pos (by decide)
      exact ⟨by rw [this]; simp, h2 (by rw [this]; decide)⟩
    · refine ⟨?_, h1 (.inl (by rw [hq]; simp))⟩
      rintro ⟨i, hi⟩
      rw [hq, Option.some.injEq] at hi
      exact hn ⟨i, hi⟩

example : Number.parse (stdFloat fun _ => false) ((Number.float quietNan).show (stdFloat fun _ => false)) =
    .ok (.float quietNan) := (C106_number_print_parse _ _).2 (.inr (.inr (.inl rfl)))

/-- C106: exactly which values are read back from their text, without any assumption about `f64`. -/
theorem C106_value_print_parse (tieUp : Nat → Bool) (v : Value) (hv : ValueOk v) :
    Value.parse (stdFloat tieUp) (v.show (stdFloat tieUp)) = v ↔
      match v with
      | .bool _ => True
      | .string s => s ≠ "true".toList ∧ s ≠ "false".toList ∧ ∀ n, ¬ NumberText (stdFloat tieUp) s n
      | .number (.unsignedInt _) => True
      | .number (.signedInt i) => i < 0
      | .number (.float x) =>
        x = infinity ∨ x = opposite infinity ∨ x = quietNan ∨ ∃ q, floatValue x = some q ∧ ¬ ∃ i : ℤ, q = i := by
  have no : (stdFloat tieUp).parse "true".toList = none ∧ (stdFloat tieUp).parse "false".toList = none :=
    ⟨C106_refused "true".toList (.inr (.inr (.inr (.inl rfl)))), C106_refused "false".toList (.inr (.inr (.inr (.inr rfl))))⟩
  refine (C56_value_print_parse (stdFloat tieUp) no v hv).trans ?_
  match v, hv with
  | .bool _, _ => rfl
  | .string _, _ => rfl
  | .number (.unsignedInt n), hv => exact C56_number_print_parse _ (.unsignedInt n) hv
  | .number (.signedInt i), hv => exact C56_number_print_parse _ (.signedInt i) hv
  | .number (.float x), hv => exact C106_number_print_parse tieUp x

example : Value.parse (stdFloat fun _ => false) ((Value.number (.signedInt (-7))).show (stdFloat fun _ => false)) =
    .number (.signedInt (-7)) :=
  (C106_value_print_parse _ (.number (.signedInt (-7))) ⟨by decide, by decide⟩).2 (by decide)

/-- C106: hosts with any addresses may be written in all three ways, without any assumption about texts. -/
theorem C106_extra_hosts (tieUp : Nat → Bool) (es : List (Str × Ip)) (hd : (es.map (·.1)).Nodup)
    (hh : ∀ e ∈ es, Hostname e.1) (brackets : Ip → Bool) (separator : Str → Char)
    (hs : ∀ host, separator host = '=' ∨ separator host = ':') :
    let text := fun a => if brackets a then "[".toList ++ ipText.show a ++ "]".toList else ipText.show a
    extraHosts (stdFloat tieUp) ipText.parse (.list (es.map fun e => e.1 ++ separator e.1 :: text e.2)) = .ok es ∧
      extraHosts (stdFloat tieUp) ipText.parse (.map (es.map fun e => (e.1, some (.string (text e.2))))) = .ok es :=
  C102_extra_hosts (stdFloat tieUp) (fun _ _ h => plain_double (parseDouble_iff.1 h)) es hd hh brackets separator hs

example : extraHosts (stdFloat fun _ => false) ipText.parse (.list ["db=10.0.0.1".toList, "web:[::1]".toList]) =
    .ok [("db".toList, .v4 ⟨[10, 0, 0, 1], rfl, by decide⟩), ("web".toList, .v6 ⟨[0, 0, 0, 0, 0, 0, 0, 1], rfl, by decide⟩)] :=
  (C106_extra_hosts (fun _ => false)
    [("db".toList, .v4 ⟨[10, 0, 0, 1], rfl, by decide⟩), ("web".toList, .v6 ⟨[0, 0, 0, 0, 0, 0, 0, 1], rfl, by decide⟩)]
    (by decide) (by
      intro e he
      have : e.1 = "db".toList ∨ e.1 = "web".toList := by
        rcases List.mem_pair.1 he with rfl | rfl
        · exact .inl rfl
        · exact .inr rfl
      rcases this with h | h <;> rw [h] <;> exact ((C04_hostname_accepts _ _).1 rfl).1)
    (fun a => match a with | .v4 _ => false | .v6 _ => true) (fun host => if host = "db".toList then '=' else ':')
    (fun host => by split <;> simp)).1

/-- C106: a text is a number of CPUs exactly if it is the text of a finite double without a minus sign. -/
theorem C106_cpus (s : Str) (c : Cpus) :
    Cpus.deserialize F64.parse (.str s) = some c ↔
      DoubleText s c.intoInner ∧ ∃ q, floatValue c.intoInner = some q ∧ 0 ≤ q ∧ c.intoInner ≠ negativeZero := by
  rw [← C106_reads]
  have new (x : F64) : (Cpus.new x).toOption = some c ↔ Cpus.new x = .ok c := by
    cases Cpus.new x <;> simp [Except.toOption]
  unfold Cpus.deserialize
  simp only
  cases h : F64.parse s with
  | none => simp
  | some x =>
    simp only [new, (C65_cpus_new x).1 c, Option.some.injEq]
    constructor
    · rintro ⟨rfl, h⟩; exact ⟨rfl, h⟩
    · rintro ⟨h1, h2⟩; exact ⟨h1.symm, h1 ▸ h2⟩

/-! #### Examples -/

example : F64.parse "1.5".toList = some 0x3FF8000000000000#64 := by decide +kernel
example : F64.parse "-.5e1".toList = some 0xC014000000000000#64 := by decide +kernel
example : F64.parse "+1e400".toList = some infinity := by decide +kernel
example : F64.parse "-iNf".toList = some (opposite infinity) := by decide +kernel
example : F64.parse "1e".toList = none := by decide +kernel
example : F64.parse ".".toList = none := by decide +kernel
example : F64.parse "1_0".toList = none := by decide +kernel
example : DoubleText "0.1".toList 0x3FB999999999999A#64 := (C106_reads _ _).1 (by decide +kernel)
example : F64.show (fun _ => false) 0x3FB999999999999A#64 = "0.1".toList := by decide +kernel
example : F64.show (fun _ => false) (opposite 0x3FF8000000000000#64) = "-1.5".toList := by decide +kernel
/-- A whole number from `2 ^ 53` on may be written as another one that is rounded to the same double: `2 ^ 63`. -/
example : F64.show (fun _ => false) 0x43E0000000000000#64 = "9223372036854776000".toList := by decide +kernel
example : floatValue 0x4014000000000000#64 = some ((5 : ℤ) : ℚ) := by simp [floatValue]; norm_num
example : Number.parse (stdFloat fun _ => false) ((Number.float 0x4014000000000000#64).show (stdFloat fun _ => false)) =
    .ok (.unsignedInt 5) := by decide +kernel
example : floatValue 0x3FF8000000000000#64 = some ((3 : ℚ) / 2) := by simp [floatValue]; norm_num
example : Cpus.deserialize F64.parse (.str "0.25".toList) = some ⟨0x3FD0000000000000#64⟩ := by decide +kernel

end Props
