import Verif.Proofs.Exponent
import Verif.Props.Floats

/- C111: numbers in scientific notation. -/

namespace Props
open Rust Compose Spec Proofs

/-- C111: a number has only one text in scientific notation. -/
theorem C111_one_text (letter : Char) (t t' : Str) (v : ℚ) (h : ScientificText letter t v) (h' : ScientificText letter t' v) :
    t = t' := scientific_unique h h'

/-- C111: `{:e}` and `{:E}` write an integer exactly, in scientific notation, with a minus sign if it is negative. -/
theorem C111_integers (tieUp : Nat → Bool) (n : Nat) (i : Int) :
    (ScientificText 'e' ((Number.unsignedInt n).lowerExp tieUp) n ∧ ScientificText 'E' ((Number.unsignedInt n).upperExp tieUp) n) ∧
    (0 ≤ i → ScientificText 'e' ((Number.signedInt i).lowerExp tieUp) i ∧
      ScientificText 'E' ((Number.signedInt i).upperExp tieUp) i) ∧
    (i < 0 → ∃ t u, (Number.signedInt i).lowerExp tieUp = "-".toList ++ t ∧ ScientificText 'e' t (-i) ∧
      (Number.signedInt i).upperExp tieUp = "-".toList ++ u ∧ ScientificText 'E' u (-i)) := by
  refine ⟨⟨showNatExp_spec false n, showNatExp_spec true n⟩, fun hi => ?_, fun hi => ?_⟩
  · obtain ⟨m, rfl⟩ := Int.eq_ofNat_of_zero_le hi
    have e (upper : Bool) : showIntExp upper (m : Int) = showNatExp upper m := by
      unfold showIntExp; rw [if_neg (by omega)]; rfl
    constructor
    · show ScientificText 'e' (showIntExp false m) _
      rw [e]
      exact_mod_cast showNatExp_spec false m
    · show ScientificText 'E' (showIntExp true m) _
      rw [e]
      exact_mod_cast showNatExp_spec true m
  · obtain ⟨m, rfl⟩ : ∃ m : Nat, i = -m := ⟨i.natAbs, by omega⟩
    have e (upper : Bool) : showIntExp upper (-(m : Int)) = "-".toList ++ showNatExp upper m := by
      unfold showIntExp; rw [if_pos hi, Int.natAbs_neg, Int.natAbs_natCast]; rfl
    refine ⟨_, _, e false, ?_, e true, ?_⟩
    · have := showNatExp_spec false m
      push_cast; rw [neg_neg]; exact this
    · have := showNatExp_spec true m
      push_cast; rw [neg_neg]; exact this

example : (Number.unsignedInt 1500).lowerExp (fun _ => false) = "1.5e3".toList :=
  C111_one_text 'e' _ _ 1500 (C111_integers _ 1500 0).1.1
    ⟨'1', "5".toList, 3, by decide, digits_iff.2 (by decide), (fun h => absurd h (by decide)), by decide, rfl, by
      rw [show decimal (['1'] ++ "5".toList) = 15 from rfl, show ("5".toList : Str).length = 1 from rfl]; norm_num⟩

/-- C111: `{:e}` and `{:E}` write a double as the shortest decimal number that is read as the double, in scientific notation. -/
theorem C111_doubles (tieUp : Nat → Bool) (x : F64) :
    ScientificDouble 'e' ((Number.float x).lowerExp tieUp) x ∧ ScientificDouble 'E' ((Number.float x).upperExp tieUp) x :=
  ⟨showExp_written tieUp false x, showExp_written tieUp true x⟩

theorem scientific_digits {letter : Char} {t : Str} {v : ℚ} (hl : letter ∈ "eE".toList) (h : ScientificText letter t v) :
    ¬ OnlyDigits t ∧ ¬ OnlyDigits ("-".toList ++ t) := by
  obtain ⟨first, fracs, k, h1, -, -, -, rfl, -⟩ := h
  have no : letter ∉ "0123456789".toList ∧ letter ≠ '+' ∧ letter ≠ '-' :=
    (by decide : ∀ c ∈ "eE".toList, c ∉ "0123456789".toList ∧ c ≠ '+' ∧ c ≠ '-') letter hl
  have key : ∀ s : Str, letter ∈ s → ¬ OnlyDigits s := by
    rintro s hs ⟨ds, h | h | h, hd⟩
    · exact no.1 (hd _ (h ▸ hs))
    · rw [h] at hs
      rcases List.mem_cons.1 hs with h | h
      · exact no.2.1 h
      · exact no.1 (hd _ h)
    · rw [h] at hs
      rcases List.mem_cons.1 hs with h | h
      · exact no.2.2 h
      · exact no.1 (hd _ h)
  exact ⟨key _ (by simp), key _ (by simp)⟩

/-- C111: a text in scientific notation is read as the double that the number is rounded to, also if it is an integer. -/
theorem C111_reads (tieUp : Nat → Bool) (letter : Char) (hl : letter ∈ "eE".toList) (t : Str) (v : ℚ)
    (h : ScientificText letter t v) (n : Number) :
    (Number.parse (stdFloat tieUp) t = .ok n ↔ ∃ x, RoundsTo v x ∧ n = .float x) ∧
    (Number.parse (stdFloat tieUp) ("-".toList ++ t) = .ok n ↔ ∃ x, RoundsTo v x ∧ n = .float (opposite x)) := by
  have hn := scientific_numeral hl h
  obtain ⟨d1, d2⟩ := scientific_digits hl h
  obtain ⟨y, hy⟩ := numeral_rounds hn
  have p1 : F64.parse t = some y := parseDouble_iff.2 (.plain (.number hn hy))
  have p2 : F64.parse ("-".toList ++ t) = some (opposite y) := parseDouble_iff.2 (.minus (.number hn hy))
  have r1 : Number.parse (stdFloat tieUp) t = .ok (.float y) := (C56_number_parse _ _ _).2 (.float d1 p1)
  have r2 : Number.parse (stdFloat tieUp) ("-".toList ++ t) = .ok (.float (opposite y)) :=
    (C56_number_parse _ _ _).2 (.float d2 p2)
  rw [r1, r2]
  constructor
  · constructor
    · intro h; cases h; exact ⟨y, hy, rfl⟩
    · rintro ⟨x, hx, rfl⟩; rw [roundsTo_unique hn hx hy]
  · constructor
    · intro h; cases h; exact ⟨y, hy, rfl⟩
    · rintro ⟨x, hx, rfl⟩; rw [roundsTo_unique hn hx hy]

theorem not_onlyDigits_words : ¬ OnlyDigits "inf".toList ∧ ¬ OnlyDigits "-inf".toList ∧ ¬ OnlyDigits "NaN".toList := by
  have key : ∀ s c : Str, ∀ d : Char, s = c ++ [d] → d ∉ "0123456789".toList → d ≠ '+' → d ≠ '-' → ¬ OnlyDigits s := by
    rintro s c d rfl h1 h2 h3 ⟨ds, h, hd⟩
    have hm : d ∈ c ++ [d] := by simp
    rcases h with h | h | h <;> rw [h] at hm
    · exact h1 (hd _ hm)
    · rcases List.mem_cons.1 hm with h | h
      · exact h2 h
      · exact h1 (hd _ h)
    · rcases List.mem_cons.1 hm with h | h
      · exact h3 h
      · exact h1 (hd _ h)
  exact ⟨key _ "in".toList 'f' rfl (by decide) (by decide) (by decide),
    key _ "-in".toList 'f' rfl (by decide) (by decide) (by decide), key _ "Na".toList 'N' rfl (by decide) (by decide) (by decide)⟩

/-- C111: every double that is a number or infinite is read back from its text in scientific notation (other than from its
plain text, C106); what is not a number is read as the one NaN that texts stand for. -/
theorem C111_doubles_back (tieUp : Nat → Bool) (letter : Char) (hl : letter ∈ "eE".toList) (t : Str) (x : F64)
    (h : ScientificDouble letter t x) :
    ((floatValue x ≠ none ∨ x = infinity ∨ x = opposite infinity) → Number.parse (stdFloat tieUp) t = .ok (.float x)) ∧
    (¬ (floatValue x ≠ none ∨ x = infinity ∨ x = opposite infinity) → Number.parse (stdFloat tieUp) t = .ok (.float quietNan)) := by
  have zero : RoundsTo 0 (0#64) := by
    have : RoundsTo (((0 : ℕ) : ℚ) / ((1 : ℕ) : ℚ)) (0#64) := by rw [roundsTo_iff (by decide), roundBits_zero]; rfl
    simpa using this
  have unsigned : ∀ {t : Str} {x : F64}, ScientificUnsigned letter t x →
      (floatValue x ≠ none ∨ x = infinity ∨ x = opposite infinity) ∧
      (floatValue (opposite x) ≠ none ∨ opposite x = infinity ∨ opposite x = opposite infinity) ∧
      Number.parse (stdFloat tieUp) t = .ok (.float x) ∧
      Number.parse (stdFloat tieUp) ("-".toList ++ t) = .ok (.float (opposite x)) := by
    intro t x h
    have inf : UnsignedText "inf".toList infinity := .inf (by rw [← anyCase_inf]; decide)
    cases h with
    | positive hq _ h =>
      obtain ⟨q, c, k, -, h1, -, -, h2⟩ := h
      refine ⟨.inl (by rw [hq]; simp), .inl ?_, ((C111_reads tieUp letter hl t _ h2 _).1).2 ⟨x, h1, rfl⟩,
        ((C111_reads tieUp letter hl t _ h2 _).2).2 ⟨x, h1, rfl⟩⟩
      rw [floatValue_opposite, hq]; simp
    | zero h2 =>
      refine ⟨.inl ?_, .inl ?_, ((C111_reads tieUp letter hl t _ h2 _).1).2 ⟨_, zero, rfl⟩,
        ((C111_reads tieUp letter hl t _ h2 _).2).2 ⟨_, zero, rfl⟩⟩
      · rw [floatValue_of_bits (by decide)]; simp
      · rw [floatValue_opposite, floatValue_of_bits (by decide)]; simp
    | infinity =>
      exact ⟨.inr (.inl rfl), .inr (.inr rfl),
        (C56_number_parse _ _ _).2 (.float not_onlyDigits_words.1 (parseDouble_iff.2 (.plain inf))),
        (C56_number_parse _ _ _).2 (.float not_onlyDigits_words.2.1 (parseDouble_iff.2 (.minus inf)))⟩
  have nan : F64.parse "NaN".toList = some quietNan := parseDouble_iff.2 (.plain (.nan (by rw [← anyCase_nan]; decide)))
  cases h with
  | plain h => exact ⟨fun _ => (unsigned h).2.2.1, fun hn => absurd (unsigned h).1 hn⟩
  | minus h => exact ⟨fun _ => (unsigned h).2.2.2, fun hn => absurd (unsigned h).2.1 hn⟩
  | nan h1 h2 h3 =>
    exact ⟨fun h => absurd h (by simp [h1, h2, h3]), fun _ => (C56_number_parse _ _ _).2
      (.float not_onlyDigits_words.2.2 nan)⟩

/-- C111: exactly what numbers are read back as from `{:e}` and `{:E}`: integers as the doubles next to them, doubles as
themselves, except for NaN. -/
theorem C111_read_back (tieUp : Nat → Bool) (n m : Number) (t : Str) (ht : t = n.lowerExp tieUp ∨ t = n.upperExp tieUp) :
    Number.parse (stdFloat tieUp) t = .ok m ↔
      match n with
      | .unsignedInt n => ∃ x, RoundsTo n x ∧ m = .float x
      | .signedInt i => ∃ x, RoundsTo |i| x ∧ m = .float (if i < 0 then opposite x else x)
      | .float x =>
        m = .float (if floatValue x ≠ none ∨ x = infinity ∨ x = opposite infinity then x else quietNan) := by
  have le : 'e' ∈ "eE".toList := by decide
  have lE : 'E' ∈ "eE".toList := by decide
  match n with
  | .unsignedInt n =>
    obtain ⟨⟨h1, h2⟩, -⟩ := C111_integers tieUp n 0
    rcases ht with rfl | rfl
    · exact (C111_reads tieUp _ le _ _ h1 m).1
    · exact (C111_reads tieUp _ lE _ _ h2 m).1
  | .signedInt i =>
    obtain ⟨-, hp, hn⟩ := C111_integers tieUp 0 i
    by_cases hi : i < 0
    · obtain ⟨t', u', e1, h1, e2, h2⟩ := hn hi
      have ha : |(i : ℚ)| = -i := abs_of_neg (by exact_mod_cast hi)
      simp only [if_pos hi, ha]
      rcases ht with rfl | rfl
      · rw [e1]; exact (C111_reads tieUp _ le _ _ h1 m).2
      · rw [e2]; exact (C111_reads tieUp _ lE _ _ h2 m).2
    · obtain ⟨h1, h2⟩ := hp (by omega)
      have ha : |(i : ℚ)| = i := abs_of_nonneg (by exact_mod_cast (by omega : 0 ≤ i))
      simp only [if_neg hi, ha]
      rcases ht with rfl | rfl
      · exact (C111_reads tieUp _ le _ _ h1 m).1
      · exact (C111_reads tieUp _ lE _ _ h2 m).1
  | .float x =>
    have key : Number.parse (stdFloat tieUp) t =
        .ok (.float (if floatValue x ≠ none ∨ x = infinity ∨ x = opposite infinity then x else quietNan)) := by
      obtain ⟨h1, h2⟩ := C111_doubles tieUp x
      have : ∃ letter ∈ "eE".toList, ScientificDouble letter t x := by
        rcases ht with rfl | rfl
        · exact ⟨_, le, h1⟩
        · exact ⟨_, lE, h2⟩
      obtain ⟨letter, hl, h⟩ := this
      obtain ⟨b1, b2⟩ := C111_doubles_back tieUp letter hl t x h
      by_cases hc : floatValue x ≠ none ∨ x = infinity ∨ x = opposite infinity
      · rw [if_pos hc]; exact b1 hc
      · rw [if_neg hc]; exact b2 hc
    simp only [key, Except.ok.injEq]
    exact eq_comm

/-- The double 5, whose plain text `5` is read as an integer, is read back. -/
example : Number.parse (stdFloat fun _ => false) "5e0".toList = .ok (.float 0x4014000000000000#64) := by
  have h : (Number.float 0x4014000000000000#64).lowerExp (fun _ => false) = "5e0".toList := by decide +kernel
  refine (C111_read_back (fun _ => false) (.float 0x4014000000000000#64) _ _ (.inl h.symm)).2 ?_
  dsimp only
  rw [if_pos (.inl (by rw [floatValue_of_bits (by decide)]; simp))]
example : (Number.signedInt (-1200)).upperExp (fun _ => false) = "-1.2E3".toList := by decide +kernel
example : (Number.float 0x3FB999999999999A#64).lowerExp (fun _ => false) = "1e-1".toList := by decide +kernel
example : (Number.float (opposite 0#64)).lowerExp (fun _ => false) = "-0e0".toList := by decide +kernel
example : (Number.unsignedInt 0).upperExp (fun _ => false) = "0E0".toList := by decide +kernel
example : (Number.unsignedInt 18446744073709551615).lowerExp (fun _ => false) = "1.8446744073709551615e19".toList := by decide +kernel

/-- Five halves, written and read. -/
theorem example_scientific : ScientificDouble 'E' "2.5E0".toList 0x4004000000000000#64 :=
  (show (Number.float 0x4004000000000000#64).upperExp (fun _ => false) = "2.5E0".toList by decide +kernel) ▸
    (C111_doubles (fun _ => false) 0x4004000000000000#64).2
example : Number.parse (stdFloat fun _ => false) "2.5E0".toList = .ok (.float 0x4004000000000000#64) :=
  (C111_doubles_back (fun _ => false) 'E' (by decide) _ _ example_scientific).1 (.inl (by rw [floatValue_of_bits (by decide)]; simp))
example (n : Number) : Number.parse (stdFloat fun _ => false) "1.5e3".toList = .ok n ↔ ∃ x, RoundsTo 1500 x ∧ n = .float x :=
  (C111_reads (fun _ => false) 'e' (by decide) _ 1500
    ⟨'1', "5".toList, 3, by decide, digits_iff.2 (by decide), (fun h => absurd h (by decide)), by decide, rfl, by
      rw [show decimal (['1'] ++ "5".toList) = 15 from rfl, show ("5".toList : Str).length = 1 from rfl]; norm_num⟩ n).1

end Props
