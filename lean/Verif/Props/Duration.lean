import Verif.Proofs.Duration

/- C07, C08, C09: durations. -/

namespace Props
open Rust Compose Spec

/-- C08: a string is accepted exactly when it is a non-empty sequence of well-formed terms, every number fits in
a `u64`, and the total fits in a `Duration`; the result is the total. -/
theorem C08_duration_accepts (s : Str) (d : Duration) : durationParse s = .ok d ↔ DurationText s d := by
  unfold DurationText
  have hmax : (2 : Nat) ^ 64 - 1 = u64Max := rfl
  rw [hmax]
  by_cases hs : s = []
  · subst hs
    constructor
    · intro h; cases h
    · rintro ⟨ts, h1, h2, h3, _⟩
      have := length_le_render h3
      rw [← h2] at this
      simp at this; exact absurd this h1
  · by_cases hb : Boundary s
    · rw [durationParse_eq hs hb]
      constructor
      · rintro ⟨ts, rest, d', h1, h2, h3, _, h4, h5, h6⟩
        cases h6 with
        | done hr =>
          subst hr
          rw [List.append_nil] at h3
          refine ⟨ts, ?_, h3, h1, h2, h4.1, h4.2, h5⟩
          rintro rfl; exact hs h3
      · rintro ⟨ts, h1, h2, h3, h4, h5, h6, h7⟩
        exact ⟨ts, [], d, h3, h4, by simpa using h2, Or.inl rfl, ⟨h5, h6⟩, h7, .done rfl⟩
    · constructor
      · intro h
        cases s with
        | nil => exact absurd rfl hs
        | cons c cs =>
          have hc : isDigit c = false := by
            cases hc : isDigit c
            · rfl
            · exact absurd (Or.inr ⟨c, cs, rfl, hc⟩) hb
          rw [durationParse_noDigits hc] at h; cases h
      · rintro ⟨ts, h1, h2, h3, _⟩
        have := boundary_render h3 (tail := []) (Or.inl rfl)
        rw [List.append_nil, ← h2] at this
        exact absurd this hb

/-- Units can come in any order, and more than once. -/
example : DurationText "20ms1h5m1h".toList ⟨7500, 20000000⟩ := (C08_duration_accepts _ _).1 (by decide)

/-- Terms that were accepted before the point where parsing stops. -/
def GoodPrefix (ts : List Term) : Prop :=
  (∀ t ∈ ts, t.Ok) ∧ (∀ t ∈ ts, decimal t.digits ≤ 2 ^ 64 - 1) ∧ totalNanos ts < 2 ^ 64 * 10 ^ 9

/-- A run of characters that are not digits, up to the next digit or the end of the string. -/
def IsUnitRun (u tail : Str) : Prop :=
  u ≠ [] ∧ (∀ c ∈ u, c ∉ "0123456789".toList) ∧ ∀ c ∈ tail.head?, c ∈ "0123456789".toList

theorem boundary_iff {s : Str} : Boundary s ↔ ∀ c ∈ s.head?, c ∈ "0123456789".toList := by
  have hd : ∀ c, c ∈ "0123456789".toList ↔ isDigit c = true := fun c => Re.mem_digit
  simp only [hd, Boundary]
  cases s with
  | nil => simp
  | cons c cs => simp

theorem isUnitRun_iff {u tail : Str} :
    IsUnitRun u tail ↔ (u ≠ [] ∧ ∀ c ∈ u, isDigit c = false) ∧ Boundary tail := by
  have hd : ∀ c, c ∈ "0123456789".toList ↔ isDigit c = true := fun c => Re.mem_digit
  rw [boundary_iff]
  simp only [hd, IsUnitRun, Bool.not_eq_true, and_assoc]

theorem goodPrefix_duration {ts : List Term} (h : GoodPrefix ts) :
    ∃ d : Duration, d.Wf ∧ d.toNanos = totalNanos ts := by
  refine ⟨⟨totalNanos ts / 1000000000, totalNanos ts % 1000000000⟩, ?_, ?_⟩
  · have h3 := h.2.2
    simp only [Duration.Wf, u64Max]; omega
  · simp only [Duration.toNanos]; omega

theorem goodPrefix_of {ts : List Term} {d : Duration} (h1 : ∀ t ∈ ts, t.Ok)
    (h2 : ∀ t ∈ ts, decimal t.digits ≤ u64Max) (h3 : d.Wf) (h4 : d.toNanos = totalNanos ts) :
    GoodPrefix ts := by
  refine ⟨h1, h2, ?_⟩
  simp only [Duration.Wf, Duration.toNanos, u64Max] at *; omega

theorem parse_err_iff {s : Str} {o : Outcome DurationError Duration} (hs : s ≠ [])
    (ho : ∀ r, o ≠ .err (.noDigits r)) :
    durationParse s = o ↔
      ∃ ts rest d', GoodPrefix ts ∧ s = renderTerms ts ++ rest ∧
        d'.Wf ∧ d'.toNanos = totalNanos ts ∧ Stop rest d' o := by
  by_cases hb : Boundary s
  · rw [durationParse_eq hs hb]
    constructor
    · rintro ⟨ts, rest, d', h1, h2, h3, hb', h4, h5, h6⟩
      exact ⟨ts, rest, d', goodPrefix_of h1 h2 h4 h5, h3, h4, h5, h6⟩
    · rintro ⟨ts, rest, d', h1, h3, h4, h5, h6⟩
      exact ⟨ts, rest, d', h1.1, h1.2.1, h3, stop_boundary h6 ho, h4, h5, h6⟩
  · constructor
    · intro h
      cases s with
      | nil => exact absurd rfl hs
      | cons c cs =>
        have hc : isDigit c = false := by
          cases hc : isDigit c
          · rfl
          · exact absurd (Or.inr ⟨c, cs, rfl, hc⟩) hb
        rw [durationParse_noDigits hc] at h
        exact absurd h.symm (ho _)
    · rintro ⟨ts, rest, d', h1, h3, h4, h5, h6⟩
      have := boundary_render h1.1 (stop_boundary h6 ho)
      rw [← h3] at this
      exact absurd this hb

/-- C08: the error "empty" is for the empty string only. -/
theorem C08_duration_error_empty (s : Str) : durationParse s = .err .empty ↔ s = [] := by
  constructor
  · intro h
    refine Classical.byContradiction fun hs => ?_
    obtain ⟨ts, rest, d', h1, h3, h4, h5, h6⟩ := (parse_err_iff hs (by simp)).1 h
    cases h6
  · rintro rfl; rfl

example : durationParse [] = .err .empty := (C08_duration_error_empty _).2 rfl

/-- C08: the error "no digits" is for strings whose first character is not a digit. -/
theorem C08_duration_error_no_digits (s r : Str) :
    durationParse s = .err (.noDigits r) ↔
      r = s ∧ ∃ c cs, s = c :: cs ∧ c ∉ "0123456789".toList := by
  have hd : ∀ c, c ∈ "0123456789".toList ↔ isDigit c = true := fun c => Re.mem_digit
  simp only [hd]
  constructor
  · intro h
    cases s with
    | nil => cases h
    | cons c cs =>
      cases hc : isDigit c
      · rw [durationParse_noDigits hc] at h; cases h; simp [hc]
      · obtain ⟨ts, rest, d', h1, h2, h3, hb', h4, h5, h6⟩ :=
          (durationParse_eq (by simp) (Or.inr ⟨c, cs, rfl, hc⟩)).1 h
        cases h6 with
        | noDigits h7 h8 =>
          subst h7
          rcases hb' with h | ⟨c', cs', h9, h10⟩
          · cases h
          · cases h9; rw [h8] at h10; cases h10
  · rintro ⟨rfl, c, cs, rfl, hc⟩
    exact durationParse_noDigits (by simpa using hc)

example : durationParse "s5".toList = .err (.noDigits "s5".toList) :=
  (C08_duration_error_no_digits _ _).2 ⟨rfl, 's', "5".toList, rfl, by decide⟩

/-- C08: the error "missing unit" is for a number at the end of the string, after well-formed terms. -/
theorem C08_duration_error_missing_unit (s r : Str) :
    durationParse s = .err (.missingUnit r) ↔
      ∃ ts, GoodPrefix ts ∧ s = renderTerms ts ++ r ∧ IsNumber r := by
  by_cases hs : s = []
  · subst hs
    constructor
    · intro h; cases h
    · rintro ⟨ts, _, h2, h3⟩
      have := congrArg List.length h2
      have := List.length_pos_iff.2 h3.1
      simp at *; omega
  rw [parse_err_iff hs (by simp)]
  constructor
  · rintro ⟨ts, rest, d', h1, h2, h3, h4, h5⟩
    cases h5 with
    | missingUnit h => exact ⟨ts, h1, h2, h⟩
  · rintro ⟨ts, h1, h2, h3⟩
    obtain ⟨d, hd, hd'⟩ := goodPrefix_duration h1
    exact ⟨ts, r, d, h1, h2, hd, hd', .missingUnit h3⟩

example : durationParse "1s57".toList = .err (.missingUnit "57".toList) :=
  (C08_duration_error_missing_unit _ _).2
    ⟨[⟨"1".toList, "s".toList, 1000000000⟩], ⟨by simp [Term.Ok, IsNumber]; decide, by decide, by decide⟩, by decide, by decide, by decide⟩

/-- C08: the error "invalid unit" is for a number followed by a run of non-digits that is not a unit, after
well-formed terms. -/
theorem C08_duration_error_invalid_unit (s u : Str) :
    durationParse s = .err (.invalidUnit u) ↔
      ∃ ts ds tail, GoodPrefix ts ∧ s = renderTerms ts ++ ds ++ u ++ tail ∧ IsNumber ds ∧
        decimal ds ≤ 2 ^ 64 - 1 ∧ IsUnitRun u tail ∧ u ∉ durationUnits.map Prod.fst := by
  have hmap : u ∉ durationUnits.map Prod.fst ↔ ∀ k, (u, k) ∉ durationUnits := by
    simp [List.mem_map]
  rw [hmap]
  by_cases hs : s = []
  · subst hs
    constructor
    · intro h; cases h
    · rintro ⟨ts, ds, tail, _, h2, h3, _, h5, _⟩
      have := congrArg List.length h2
      have := List.length_pos_iff.2 h3.1
      simp at *; omega
  rw [parse_err_iff hs (by simp)]
  constructor
  · rintro ⟨ts, rest, d', h1, h2, h3, h4, h5⟩
    cases h5 with
    | @invalidUnit ds _ tail h6 h7 h8 h9 h10 h11 h12 =>
      exact ⟨ts, ds, tail, h1, by rw [h2, h6]; simp, h7, h11, isUnitRun_iff.2 ⟨⟨h8, h9⟩, h10⟩, h12⟩
  · rintro ⟨ts, ds, tail, h1, h2, h3, h4, h5, h6⟩
    obtain ⟨d, hd, hd'⟩ := goodPrefix_duration h1
    obtain ⟨⟨h7, h8⟩, h9⟩ := isUnitRun_iff.1 h5
    exact ⟨ts, ds ++ u ++ tail, d, h1, by rw [h2]; simp, hd, hd', .invalidUnit rfl h3 h7 h8 h9 h4 h6⟩

example : ∃ ts ds tail, GoodPrefix ts ∧ "1s5d3".toList = renderTerms ts ++ ds ++ "d".toList ++ tail ∧ IsNumber ds ∧
    decimal ds ≤ 2 ^ 64 - 1 ∧ IsUnitRun "d".toList tail ∧ "d".toList ∉ durationUnits.map Prod.fst :=
  (C08_duration_error_invalid_unit _ _).1 (by decide)

/-- C08: the error "overflow" is for the first term that takes the running sum to `2^64` seconds or more. -/
theorem C08_duration_error_overflow (s : Str) :
    durationParse s = .err .overflow ↔
      ∃ (ts : List Term) (t : Term) (tail : Str), GoodPrefix ts ∧ t.Ok ∧ decimal t.digits ≤ 2 ^ 64 - 1 ∧
        s = renderTerms (ts ++ [t]) ++ tail ∧ (∀ c ∈ tail.head?, c ∈ "0123456789".toList) ∧
        2 ^ 64 * 10 ^ 9 ≤ totalNanos (ts ++ [t]) := by
  simp only [← boundary_iff]
  have hr : ∀ (ts : List Term) t, renderTerms (ts ++ [t]) = renderTerms ts ++ (t.digits ++ t.unit) := by
    intro ts t; simp [renderTerms]
  have ht : ∀ (ts : List Term) t, totalNanos (ts ++ [t]) = totalNanos ts + t.nanos := by
    intro ts t; simp [totalNanos]
  simp only [hr, ht]
  by_cases hs : s = []
  · subst hs
    constructor
    · intro h; cases h
    · rintro ⟨ts, t, tail, _, h2, _, h3, _⟩
      have := congrArg List.length h3
      have := List.length_pos_iff.2 h2.1.1
      simp at *; omega
  rw [parse_err_iff hs (by simp)]
  have hm : (2 : Nat) ^ 64 * 10 ^ 9 = (u64Max + 1) * 1000000000 := rfl
  rw [hm]
  constructor
  · rintro ⟨ts, rest, d', h1, h2, h3, h4, h5⟩
    cases h5 with
    | @overflow ds u tail k h6 h7 h8 h9 h10 h11 =>
      exact ⟨ts, ⟨ds, u, k⟩, tail, h1, ⟨h7, h8⟩, h10, by rw [h2, h6]; simp, h9, by simpa [Term.nanos, ← h4] using h11⟩
  · rintro ⟨ts, ⟨ds, u, k⟩, tail, h1, h2, h3, h4, h5, h6⟩
    obtain ⟨d, hd, hd'⟩ := goodPrefix_duration h1
    refine ⟨ts, ds ++ u ++ tail, d, h1, by rw [h4]; simp, hd, hd', .overflow rfl h2.1 h2.2 h5 h3 ?_⟩
    rw [hd']; exact h6

example : ∃ (ts : List Term) (t : Term) (tail : Str), GoodPrefix ts ∧ t.Ok ∧ decimal t.digits ≤ 2 ^ 64 - 1 ∧
    "18446744073709551615s1s".toList = renderTerms (ts ++ [t]) ++ tail ∧
    (∀ c ∈ tail.head?, c ∈ "0123456789".toList) ∧ 2 ^ 64 * 10 ^ 9 ≤ totalNanos (ts ++ [t]) :=
  (C08_duration_error_overflow _).1 (by decide)

/-- C09 is false: parsing panics, exactly when a number above `2^64 - 1` followed by a unit (known or not) comes
after well-formed terms. -/
theorem C09_duration_panics_iff (s : Str) :
    durationParse s = .panic ↔
      ∃ ts ds u tail, GoodPrefix ts ∧ s = renderTerms ts ++ ds ++ u ++ tail ∧ IsNumber ds ∧
        2 ^ 64 ≤ decimal ds ∧ IsUnitRun u tail := by
  by_cases hs : s = []
  · subst hs
    constructor
    · intro h; cases h
    · rintro ⟨ts, ds, u, tail, _, h2, h3, _, h5⟩
      have := congrArg List.length h2
      have := List.length_pos_iff.2 h3.1
      simp at *; omega
  rw [parse_err_iff hs (by simp)]
  have hm : (2 : Nat) ^ 64 = u64Max + 1 := rfl
  rw [hm]
  constructor
  · rintro ⟨ts, rest, d', h1, h2, h3, h4, h5⟩
    cases h5 with
    | @tooBig ds u tail h6 h7 h8 h9 h10 h11 =>
      exact ⟨ts, ds, u, tail, h1, by rw [h2, h6]; simp, h7, h11, isUnitRun_iff.2 ⟨⟨h8, h9⟩, h10⟩⟩
  · rintro ⟨ts, ds, u, tail, h1, h2, h3, h4, h5⟩
    obtain ⟨d, hd, hd'⟩ := goodPrefix_duration h1
    obtain ⟨⟨h7, h8⟩, h9⟩ := isUnitRun_iff.1 h5
    exact ⟨ts, ds ++ u ++ tail, d, h1, by rw [h2]; simp, hd, hd', .tooBig rfl h3 h7 h8 h9 h4⟩

example : durationParse "18446744073709551616s".toList = .panic :=
  (C09_duration_panics_iff _).2 ⟨[], "18446744073709551616".toList, "s".toList, [], ⟨nofun, nofun, by decide⟩, rfl,
    ⟨by decide, by decide⟩, by decide, by decide, by decide, nofun⟩

/-- C09 is false for the code: this string makes `parse` panic. -/
theorem C09_duration_never_panics_false : ¬ ∀ s : Str, durationParse s ≠ .panic := by
  intro h
  exact h "18446744073709551616s".toList (by decide)

/-- C09, the part that holds: no panic when every run of digits in the string is below `2^64` (in particular
when no run of digits is longer than 19 characters). Missing: larger numbers, for which the code does panic. -/
theorem C09_duration_never_panics_partial (s : Str)
    (h : ∀ a ds b, s = a ++ ds ++ b → IsNumber ds → decimal ds < 2 ^ 64) : durationParse s ≠ .panic := by
  intro hp
  obtain ⟨ts, ds, u, tail, _, h2, h3, h4, _⟩ := (C09_duration_panics_iff s).1 hp
  have := h (renderTerms ts) ds (u ++ tail) (by rw [h2]; simp) h3
  omega

theorem foldl_lt {ds : Str} (h : ∀ c ∈ ds, c ∈ "0123456789".toList) (n : Nat) :
    ds.foldl (fun n c => 10 * n + (c.toNat - '0'.toNat)) n < (n + 1) * 10 ^ ds.length := by
  induction ds generalizing n with
  | nil => simp
  | cons c cs ih =>
    have hc : c.toNat - '0'.toNat ≤ 9 :=
      (by decide : ∀ c ∈ "0123456789".toList, c.toNat - '0'.toNat ≤ 9) c (h c (by simp))
    refine Nat.lt_of_lt_of_le (ih (fun d hd => h d (by simp [hd])) _) ?_
    rw [List.length_cons, Nat.pow_succ, Nat.mul_comm (10 ^ _) 10, ← Nat.mul_assoc]
    exact Nat.mul_le_mul_right _ (by show 10 * n + (c.toNat - '0'.toNat) + 1 ≤ (n + 1) * 10; omega)

/-- No part of this text is a number of more than five digits. -/
example : durationParse "1h30m".toList ≠ .panic := by
  refine C09_duration_never_panics_partial _ fun a ds b h hd => ?_
  have h1 : decimal ds < (0 + 1) * 10 ^ ds.length := foldl_lt hd.2 0
  have h2 : 5 = (a ++ ds ++ b).length := congrArg List.length h
  have h3 : 10 ^ ds.length ≤ 10 ^ 5 := Nat.pow_le_pow_right (by decide) (by simp at h2; omega)
  have h4 : (10 : Nat) ^ 5 < 2 ^ 64 := by decide
  omega

/-! ### C07 -/

/-- One printed field. -/
private def field (n : Nat) (u : Str) (k : Nat) : List Term := if n ≠ 0 then [⟨showNat n, u, k⟩] else []

private theorem pushValue_eq (s : Str) (n : Nat) (u : Str) (k : Nat) :
    pushValue s n u = s ++ renderTerms (field n u k) := by
  unfold pushValue field
  split <;> simp [renderTerms]

private theorem field_ok {n : Nat} {u : Str} {k : Nat} (hu : (u, k) ∈ durationUnits) (hn : n ≤ u64Max) :
    (∀ t ∈ field n u k, t.Ok) ∧ (∀ t ∈ field n u k, decimal t.digits ≤ u64Max) ∧
      totalNanos (field n u k) = n * k := by
  unfold field
  split
  · simp [Term.Ok, totalNanos, Term.nanos, decimal_showNat, isNumber_showNat, hu, hn]
  · rename_i h; simp at h; simp [h, totalNanos]

private theorem field_nil {n : Nat} {u : Str} {k : Nat} : field n u k = [] ↔ n = 0 := by
  unfold field; split <;> simp_all

/-- C07: parsing the text of a duration gives the duration truncated to whole microseconds. -/
theorem C07_duration_round_trip (d : Duration) (hs : d.secs ≤ 2 ^ 64 - 1) (hn : d.nanos < 10 ^ 9) :
    durationParse (durationToString d) = .ok ⟨d.secs, d.nanos / 1000 * 1000⟩ := by
  have hmax : (2 : Nat) ^ 64 - 1 = 18446744073709551615 := rfl
  have hb : ∀ n, n ≤ d.secs ∨ n < 1000000000 → n ≤ u64Max := by
    intro n hn'; simp only [u64Max]; omega
  rw [C08_duration_accepts, DurationText]
  generalize hH : d.secs / 3600 = H
  generalize hM : d.secs % 3600 / 60 = M
  generalize hS : d.secs % 3600 % 60 = S
  generalize hL : d.nanos / 1000 / 1000 = L
  generalize hU : d.nanos / 1000 % 1000 = U
  have f1 := field_ok (n := H) (u := "h".toList) (k := 3600 * 1000000000) (by decide) (hb _ (by omega))
  have f2 := field_ok (n := M) (u := "m".toList) (k := 60 * 1000000000) (by decide) (hb _ (by omega))
  have f3 := field_ok (n := S) (u := "s".toList) (k := 1000000000) (by decide) (hb _ (by omega))
  have f4 := field_ok (n := L) (u := "ms".toList) (k := 1000000) (by decide) (hb _ (by omega))
  have f5 := field_ok (n := U) (u := "us".toList) (k := 1000) (by decide) (hb _ (by omega))
  generalize hts : field H "h".toList (3600 * 1000000000) ++ field M "m".toList (60 * 1000000000) ++
    field S "s".toList 1000000000 ++ field L "ms".toList 1000000 ++ field U "us".toList 1000 = ts
  have hok : ∀ t ∈ ts, t.Ok := by
    rw [← hts]; intro t ht
    simp only [List.mem_append] at ht
    rcases ht with (((h | h) | h) | h) | h
    · exact f1.1 t h
    · exact f2.1 t h
    · exact f3.1 t h
    · exact f4.1 t h
    · exact f5.1 t h
  have hfit : ∀ t ∈ ts, decimal t.digits ≤ u64Max := by
    rw [← hts]; intro t ht
    simp only [List.mem_append] at ht
    rcases ht with (((h | h) | h) | h) | h
    · exact f1.2.1 t h
    · exact f2.2.1 t h
    · exact f3.2.1 t h
    · exact f4.2.1 t h
    · exact f5.2.1 t h
  have hsum : totalNanos ts = d.secs * 1000000000 + d.nanos / 1000 * 1000 := by
    have : ∀ a b, totalNanos (a ++ b) = totalNanos a + totalNanos b := by simp [totalNanos]
    rw [← hts]
    simp only [this, f1.2.2, f2.2.2, f3.2.2, f4.2.2, f5.2.2]
    omega
  have happ : ∀ a b, renderTerms (a ++ b) = renderTerms a ++ renderTerms b := by simp [renderTerms]
  have htext : durationToString d = if (renderTerms ts).isEmpty then "0s".toList else renderTerms ts := by
    unfold durationToString Duration.subsecMicros
    simp only [hH, hM, hS, hL, hU]
    rw [pushValue_eq _ _ _ 1000, pushValue_eq _ _ _ 1000000, pushValue_eq _ _ _ 1000000000,
      pushValue_eq _ _ _ (60 * 1000000000), pushValue_eq _ _ _ (3600 * 1000000000), ← hts]
    simp only [happ]
    rfl
  by_cases hnil : ts = []
  · refine ⟨[⟨"0".toList, "s".toList, 1000000000⟩], by simp, ?_, ?_, ?_, ?_⟩
    · rw [htext, hnil]; rfl
    · simp [Term.Ok, IsNumber, durationUnits]
    · simp [decimal]
    · rw [hnil] at hsum
      have h0 : totalNanos [] = 0 := rfl
      have h1 : totalNanos [⟨"0".toList, "s".toList, 1000000000⟩] = 0 := rfl
      rw [h1]
      simp only []
      omega
  · refine ⟨ts, hnil, ?_, hok, hfit, hs, ?_, ?_⟩
    · rw [htext, if_neg]
      have := length_le_render hok
      intro h
      rw [List.isEmpty_iff] at h
      rw [h] at this
      simp at this
      exact hnil this
    · simp only []; omega
    · rw [hsum]

example : durationParse "1h5m30s20ms".toList = .ok ⟨3930, 20000000⟩ := by decide
example : durationParse "18446744073709551615s999ms".toList = .ok ⟨18446744073709551615, 999000000⟩ := by decide
example : durationParse "18446744073709551615s1s".toList = .err .overflow := by decide
example : durationParse "5d".toList = .err (.invalidUnit "d".toList) := by decide
example : durationParse "1s5".toList = .err (.missingUnit "5".toList) := by decide
example : durationParse "s".toList = .err (.noDigits "s".toList) := by decide
example : durationToString ⟨3930, 20000999⟩ = "1h5m30s20ms".toList := by decide
example : durationToString ⟨0, 999⟩ = "0s".toList := by decide
/-- The hypothesis of `C09_duration_never_panics_partial` holds for a string with two terms. -/
example : durationParse "9h1ms".toList ≠ .panic := by decide

end Props
