import Verif.Model.Numbers
import Verif.Spec.Numbers
import Verif.Props.Duration
import Verif.Proofs.Number
import Mathlib.Tactic.FieldSimp
import Mathlib.Tactic.Ring
import Mathlib.Tactic.NormNum
import Mathlib.Tactic.Positivity
import Mathlib.Tactic.Push
import Mathlib.Tactic.Linarith

/-
C52 (bounded integers), C59 (device counts), C61 and C68 (duration fields), C65 and C67 (cpus).
-/

namespace Props
open Rust Compose Spec

/-! ### C52 -/

/-- **C52**. A percentage can be made from a number exactly if it is at most 100; it then holds that number, and
otherwise the error holds the number and the bounds. -/
theorem C52_percent_new (n : Nat) :
    (n ≤ 100 → ∃ p, Percent.new n = .ok p ∧ p.intoInner = n) ∧
      (100 < n → Percent.new n = .error ⟨n, 0, 100⟩) := by
  constructor
  · intro h; exact ⟨⟨n⟩, by simp [Percent.new, h], rfl⟩
  · intro h; rw [Percent.new, if_neg (by omega)]

example : Percent.new 100 = .ok ⟨100⟩ ∧ Percent.new 101 = .error ⟨101, 0, 100⟩ := by decide

/-- **C52**. An OOM score adjustment can be made from a number exactly if it is between -1000 and 1000. -/
theorem C52_oom_score_adj_new (i : Int) :
    (-1000 ≤ i ∧ i ≤ 1000 → ∃ p, OomScoreAdj.new i = .ok p ∧ p.intoInner = i) ∧
      (i < -1000 ∨ 1000 < i → OomScoreAdj.new i = .error ⟨i, -1000, 1000⟩) := by
  constructor
  · intro h; exact ⟨⟨i⟩, by simp [OomScoreAdj.new, h], rfl⟩
  · intro h; rw [OomScoreAdj.new, if_neg (by omega)]

example : OomScoreAdj.new (-1000) = .ok ⟨-1000⟩ ∧ OomScoreAdj.new 1001 = .error ⟨1001, -1000, 1000⟩ := by decide

/-- **C52**. A weight can be made from a number exactly if it is between 10 and 1000; the error says whether the number
was zero. The default weight is one of them. -/
theorem C52_weight_new (n : Nat) :
    (10 ≤ n ∧ n ≤ 1000 → ∃ w, Weight.new n = .ok w ∧ w.intoInner = n) ∧
      (n < 10 ∨ 1000 < n → Weight.new n = .error ⟨n == 0⟩) ∧ Weight.new 500 = .ok Weight.default := by
  refine ⟨fun h => ⟨⟨n⟩, ?_, rfl⟩, fun h => ?_, rfl⟩
  · rw [Weight.new, if_neg (by omega), if_pos h]
  · unfold Weight.new
    by_cases h0 : n = 0
    · subst h0; rfl
    · rw [if_neg h0, if_neg (by omega)]
      simp [h0]

example : Weight.new 10 = .ok ⟨10⟩ ∧ Weight.new 1001 = .error ⟨false⟩ ∧ Weight.new 0 = .error ⟨true⟩ := by decide

private theorem toOption_some {α ε : Type} {e : Except ε α} {a : α} : e.toOption = some a ↔ e = .ok a := by
  cases e <;> simp [Except.toOption]

theorem deUnsigned_iff {max : Nat} {c : Content} {n : Nat} :
    deUnsigned max c = some n ↔ n ≤ max ∧ (c = .u64 n ∨ c = .i64 n) := by
  cases c with
  | u64 m => simp only [deUnsigned]; split <;> simp <;> omega
  | i64 m => simp only [deUnsigned]; split <;> simp <;> omega
  | _ => simp [deUnsigned]

private theorem deSigned_iff {min max : Int} (h : min ≤ 0) {c : Content} {i : Int} :
    deSigned min max c = some i ↔ min ≤ i ∧ i ≤ max ∧ (c = .i64 i ∨ 0 ≤ i ∧ c = .u64 i.toNat) := by
  cases c with
  | u64 m => simp only [deSigned]; split <;> simp <;> omega
  | i64 m => simp only [deSigned]; split <;> simp <;> omega
  | _ => simp [deSigned]

/-- **C52**. A document is read as a percentage, a score adjustment or a weight exactly if it is an integer in the range
of the type, and the value holds that integer. -/
theorem C52_bounded_deserialize (c : Content) :
    (∀ p, Percent.deserialize c = some p ↔ IsInteger c p.intoInner ∧ p.intoInner ≤ 100) ∧
      (∀ o, OomScoreAdj.deserialize c = some o ↔
        IsInteger c o.intoInner ∧ -1000 ≤ o.intoInner ∧ o.intoInner ≤ 1000) ∧
      (∀ w, Weight.deserialize c = some w ↔ IsInteger c w.intoInner ∧ 10 ≤ w.intoInner ∧ w.intoInner ≤ 1000) := by
  refine ⟨fun p => ?_, fun o => ?_, fun w => ?_⟩
  · obtain ⟨p⟩ := p
    unfold Percent.deserialize Percent.intoInner IsInteger
    cases hd : deUnsigned u8Max c with
    | some v =>
      obtain ⟨h1, h2⟩ := deUnsigned_iff.1 hd
      simp only [toOption_some, Percent.new]
      have e : IsInteger c v := by
        rcases h2 with h2 | h2 <;> subst h2 <;> simp [IsInteger]
      split
      · simp only [Except.ok.injEq, Percent.mk.injEq]
        constructor
        · rintro rfl; exact ⟨e, by omega⟩
        · rintro ⟨h, _⟩
          rcases h2 with h2 | h2 <;> subst h2 <;> simp at h <;> omega
      · simp only [reduceCtorEq, false_iff, not_and]
        rintro h
        rcases h2 with h2 | h2 <;> subst h2 <;> simp at h <;> omega
    | none =>
      simp only [reduceCtorEq, false_iff, not_and]
      rintro h hp
      have : deUnsigned u8Max c = some p := deUnsigned_iff.2 ⟨by unfold u8Max; omega, by
        rcases h with h | h
        · exact .inr h
        · exact .inl (by simpa using h.2)⟩
      rw [hd] at this; simp at this
  · obtain ⟨o⟩ := o
    unfold OomScoreAdj.deserialize OomScoreAdj.intoInner
    cases hd : deSigned (-32768) 32767 c with
    | some v =>
      obtain ⟨h1, h1', h2⟩ := (deSigned_iff (by omega)).1 hd
      simp only [toOption_some, OomScoreAdj.new]
      have hu : ∀ w, IsInteger c w → w = v := by
        intro w h
        rcases h2 with h2 | ⟨_, h2⟩ <;> subst h2 <;> simp [IsInteger] at h <;> omega
      split
      · simp only [Except.ok.injEq, OomScoreAdj.mk.injEq]
        constructor
        · rintro rfl; exact ⟨h2, by omega, by omega⟩
        · rintro ⟨h, _⟩; exact (hu _ h).symm
      · simp only [reduceCtorEq, false_iff, not_and]
        intro h
        have := hu _ h
        omega
    | none =>
      simp only [reduceCtorEq, false_iff, not_and]
      intro h hp hq
      have : deSigned (-32768) 32767 c = some o := (deSigned_iff (by omega)).2 ⟨by omega, by omega, h⟩
      rw [hd] at this; simp at this
  · obtain ⟨p⟩ := w
    unfold Weight.deserialize Weight.intoInner
    have hmax : u16Max = 65535 := rfl
    cases hd : deUnsigned u16Max c with
    | some v =>
      obtain ⟨h1, h2⟩ := deUnsigned_iff.1 hd
      have e : IsInteger c v := by
        rcases h2 with h2 | h2 <;> subst h2 <;> simp [IsInteger]
      have hu : ∀ w : Nat, IsInteger c w → w = v := by
        intro w h
        rcases h2 with h2 | h2 <;> subst h2 <;> simp [IsInteger] at h <;> omega
      simp only [toOption_some, Weight.new]
      split
      · simp only [reduceCtorEq, false_iff, not_and]
        intro h
        have := hu _ h
        omega
      split
      · simp only [Except.ok.injEq, Weight.mk.injEq]
        constructor
        · rintro rfl; exact ⟨e, by omega, by omega⟩
        · rintro ⟨h, _⟩; exact (hu _ h).symm
      · simp only [reduceCtorEq, false_iff, not_and]
        intro h
        have := hu _ h
        omega
    | none =>
      simp only [reduceCtorEq, false_iff, not_and]
      intro h hp hq
      have : deUnsigned u16Max c = some p := deUnsigned_iff.2 ⟨by omega, by
        rcases h with h | h
        · exact .inr h
        · exact .inl (by simpa using h.2)⟩
      rw [hd] at this; simp at this

example : Percent.deserialize (.i64 7) = some ⟨7⟩ ∧ Percent.deserialize (.u64 101) = none ∧
    Weight.deserialize (.str "10".toList) = none := by decide

/-- **C52**. Writing one of these numbers to a document and reading it gives it back, and what is written is the integer
itself. -/
theorem C52_bounded_serde_round_trip :
    (∀ n p, Percent.new n = .ok p → p.serialize = .u64 n ∧ Percent.deserialize p.serialize = some p) ∧
      (∀ i o, OomScoreAdj.new i = .ok o → IsInteger o.serialize i ∧ OomScoreAdj.deserialize o.serialize = some o) ∧
      ∀ n w, Weight.new n = .ok w → w.serialize = .u64 n ∧ Weight.deserialize w.serialize = some w := by
  refine ⟨fun n p h => ?_, fun i o h => ?_, fun n w h => ?_⟩
  · unfold Percent.new at h
    split at h
    · cases h
      refine ⟨rfl, ((C52_bounded_deserialize _).1 _).2 ⟨.inr ⟨?_, rfl⟩, ?_⟩⟩
      · exact Int.natCast_nonneg _
      · simp only [Percent.intoInner]; omega
    · cases h
  · unfold OomScoreAdj.new at h
    split at h
    · cases h
      have : IsInteger (OomScoreAdj.mk i).serialize i := by
        show IsInteger (serSigned i) i
        unfold serSigned
        by_cases hi : i < 0
        · rw [if_pos hi]; exact .inl rfl
        · rw [if_neg hi]; exact .inr ⟨by omega, rfl⟩
      refine ⟨this, ((C52_bounded_deserialize _).2.1 _).2 ⟨this, ?_⟩⟩
      assumption
    · cases h
  · unfold Weight.new at h
    split at h
    · cases h
    split at h
    · cases h
      refine ⟨rfl, ((C52_bounded_deserialize _).2.2 _).2 ⟨.inr ⟨Int.natCast_nonneg _, rfl⟩, ?_⟩⟩
      assumption
    · cases h

example : OomScoreAdj.deserialize (.i64 (-1000)) = some ⟨-1000⟩ ∧ OomScoreAdj.deserialize (.i64 (-1001)) = none := by
  decide
example : Weight.new 9 = .error ⟨false⟩ ∧ Weight.new 10 = .ok ⟨10⟩ ∧ Weight.new 0 = .error ⟨true⟩ := by decide

/-! ### C59 -/

/-- **C59**. A text is read as a device count exactly if it is `all` or a 64-bit unsigned integer. -/
theorem C59_count_accepts (s : Str) (c : Count) :
    Count.fromStr s = .ok c ↔
      (c = .all ∧ s = "all".toList) ∨ ∃ n, c = .integer n ∧ s ≠ "all".toList ∧ UInt (2 ^ 64 - 1) s n := by
  have hm : 2 ^ 64 - 1 = u64Max := rfl
  rw [hm]
  unfold Count.fromStr
  by_cases h : s = str!"all"
  · rw [if_pos h, h]
    constructor
    · intro h; cases h; exact .inl ⟨rfl, rfl⟩
    · rintro (⟨rfl, _⟩ | ⟨n, _, h, _⟩)
      · rfl
      · exact absurd rfl h
  · rw [if_neg h]
    cases hp : parseUnsigned u64Max s with
    | error e =>
      simp only [Except.map, reduceCtorEq, false_iff]
      rintro (⟨_, h'⟩ | ⟨n, _, _, hn⟩)
      · exact h h'
      · rw [parseUnsigned_iff.2 hn] at hp; cases hp
    | ok n =>
      have hn := parseUnsigned_iff.1 hp
      simp only [Except.map, Except.ok.injEq]
      constructor
      · rintro rfl; exact .inr ⟨n, rfl, h, hn⟩
      · rintro (⟨_, h'⟩ | ⟨m, rfl, _, hm⟩)
        · exact absurd h' h
        · rw [parseUnsigned_iff.2 hm] at hp; cases hp; rfl

example : Count.fromStr "+12".toList = .ok (.integer 12) ∧ Count.fromStr "ALL".toList = .error .invalidDigit := by decide

/-- **C59**. `all` is not a number, so the two readings never overlap. -/
theorem C59_all_not_number (n : Nat) : ¬ UInt (2 ^ 64 - 1) "all".toList n := by
  intro h
  have : parseUnsigned u64Max "all".toList = .ok n := parseUnsigned_iff.2 h
  exact absurd this (by
    have : parseUnsigned u64Max "all".toList = .error .invalidDigit := by decide
    rw [this]; simp)

/-- **C59**. A device count written to a document reads back as itself, and so does its text; a document is read as a
count exactly if it is an unsigned integer or such a text. -/
theorem C59_count_serde :
    (∀ c : Count, (∀ n, c = .integer n → n < 2 ^ 64) → Count.deserialize c.serialize = some c) ∧
      (∀ n, n < 2 ^ 64 → Count.fromStr (showNat n) = .ok (.integer n)) ∧
      ∀ d c, Count.deserialize d = some c ↔
        (∃ n, d = .u64 n ∧ n < 2 ^ 64 ∧ c = .integer n) ∨ ∃ s, d = .str s ∧ Count.fromStr s = .ok c := by
  have hm : 2 ^ 64 = u64Max + 1 := rfl
  rw [hm]
  refine ⟨fun c h => ?_, fun n hn => ?_, fun d c => ?_⟩
  · cases c with
    | all => rfl
    | integer n =>
      have := h n rfl
      simp only [Count.serialize, Count.deserialize]
      rw [if_pos (by omega)]
  · have hu := uint_showNat (max := u64Max) (n := n) (by omega)
    refine (C59_count_accepts _ _).2 (.inr ⟨n, rfl, ?_, hu⟩)
    intro h
    exact C59_all_not_number n (h ▸ hu)
  · cases d with
    | u64 m =>
      simp only [Count.deserialize, Content.u64.injEq, reduceCtorEq, false_and, exists_false, or_false]
      split
      · simp only [Option.some.injEq]
        constructor
        · rintro rfl; exact ⟨m, rfl, by omega, rfl⟩
        · rintro ⟨n, rfl, _, rfl⟩; rfl
      · simp only [reduceCtorEq, false_iff]
        rintro ⟨n, rfl, h, _⟩; omega
    | str s => simp [Count.deserialize, toOption_some]
    | _ => simp [Count.deserialize]

example : Count.fromStr "all".toList = .ok .all ∧ Count.fromStr "12".toList = .ok (.integer 12) ∧
    Count.fromStr "All".toList = .error .invalidDigit := by decide
example : Count.deserialize (.str "18446744073709551616".toList) = none := by decide

/-! ### C61 and C68 -/

/-- **C61** (as far as it holds). A microsecond field is read back, truncated to whole microseconds, exactly when the
number of microseconds is below `2^64`; larger durations, which the field can hold, are written as a number that cannot
be read. Missing: those. -/
theorem C61_duration_us_partial (d : Duration) (hn : d.nanos < 10 ^ 9) :
    let micros := d.secs * 10 ^ 6 + d.nanos / 1000
    serializeDurationUs (some d) = .u64 micros ∧
      (micros < 2 ^ 64 → deserializeDurationUs (serializeDurationUs (some d)) =
        some (some ⟨d.secs, d.nanos / 1000 * 1000⟩)) ∧
      (2 ^ 64 ≤ micros → deserializeDurationUs (serializeDurationUs (some d)) = none) := by
  have hm : (2 : Nat) ^ 64 = u64Max + 1 := rfl
  have e : d.asMicros = d.secs * 10 ^ 6 + d.nanos / 1000 := rfl
  simp only [hm]
  refine ⟨rfl, fun h => ?_, fun h => ?_⟩
  · simp only [serializeDurationUs, deserializeDurationUs, deUnsigned, e]
    rw [if_pos (by omega)]
    simp only [Option.map_some, Duration.fromMicros, Option.some.injEq, Duration.mk.injEq]
    constructor <;> omega
  · simp only [serializeDurationUs, deserializeDurationUs, deUnsigned, e]
    rw [if_neg (by omega)]
    rfl

example : deserializeDurationUs (serializeDurationUs (some ⟨5, 1234567⟩)) = some (some ⟨5, 1234000⟩) :=
  (C61_duration_us_partial ⟨5, 1234567⟩ (by decide)).2.1 (by decide)

/-- **C61**. An absent microsecond field stays absent, and every 64-bit number of microseconds can be read and is written
as the same number. -/
theorem C61_duration_us_none_and_number :
    deserializeDurationUs (serializeDurationUs none) = some none ∧
      ∀ n, n < 2 ^ 64 → ∃ d, deserializeDurationUs (.u64 n) = some (some d) ∧ d.nanos < 10 ^ 9 ∧
        d.secs * 10 ^ 9 + d.nanos = n * 1000 ∧ serializeDurationUs (some d) = .u64 n := by
  refine ⟨rfl, fun n hn => ⟨Duration.fromMicros n, ?_, ?_, ?_, ?_⟩⟩
  · have hm : (2 : Nat) ^ 64 = u64Max + 1 := rfl
    simp only [deserializeDurationUs, deUnsigned]
    rw [if_pos (by omega)]; rfl
  · simp only [Duration.fromMicros]; omega
  · simp only [Duration.fromMicros]; omega
  · simp only [serializeDurationUs, Duration.asMicros, Duration.fromMicros, Content.u64.injEq]; omega

example : deserializeDurationUs (.u64 1500000) = some (some ⟨1, 500000000⟩) := by decide

/-- **C61** is false: the longest duration a field can hold is written as a number that cannot be read. -/
theorem C61_duration_us_false :
    ¬ ∀ d : Duration, d.secs < 2 ^ 64 → d.nanos < 10 ^ 9 →
      ∃ d', deserializeDurationUs (serializeDurationUs (some d)) = some (some d') := by
  intro h
  obtain ⟨d', h'⟩ := h ⟨2 ^ 64 - 1, 0⟩ (by decide) (by decide)
  rw [show deserializeDurationUs (serializeDurationUs (some ⟨2 ^ 64 - 1, 0⟩)) = none by decide] at h'
  cases h'

example : deserializeDurationUs (serializeDurationUs (some ⟨5, 1234567⟩)) = some (some ⟨5, 1234000⟩) := by decide

/-- **C68**. A duration field is read back from what was written, truncated to whole microseconds; an integer is read as
that many microseconds, a text by the duration grammar, and nothing else is accepted. -/
theorem C68_duration_field :
    (∀ d : Duration, d.secs < 2 ^ 64 → d.nanos < 10 ^ 9 →
      deserializeDuration (serializeDuration (some d)) = .ok (some ⟨d.secs, d.nanos / 1000 * 1000⟩)) ∧
      ∀ c r, deserializeDuration c = .ok r ↔
        (∃ n d, IsInteger c n ∧ 0 ≤ n ∧ n < 2 ^ 64 ∧ r = some d ∧ d.nanos < 10 ^ 9 ∧
          d.secs * 10 ^ 9 + d.nanos = n * 1000) ∨
        ∃ s d, c = .str s ∧ durationParse s = .ok d ∧ r = some d := by
  constructor
  · intro d hs hn
    simp only [serializeDuration, deserializeDuration]
    rw [C07_duration_round_trip d (by omega) hn]
  · intro c r
    have hm : (2 : Int) ^ 64 = u64Max + 1 := rfl
    have huniq : ∀ (d : Duration) (n : Nat), d.nanos < 10 ^ 9 → ((d.secs : Int) * 10 ^ 9 + d.nanos = n * 1000) →
        d = Duration.fromMicros n := by
      rintro ⟨s, n⟩ m h1 h2
      simp only [Duration.fromMicros, Duration.mk.injEq]
      simp only at h1 h2
      constructor <;> omega
    cases c with
    | u64 m =>
      simp only [deserializeDuration, IsInteger, reduceCtorEq, Content.u64.injEq, false_and, exists_false, or_false,
        false_or]
      split
      · simp only [Outcome.ok.injEq]
        constructor
        · rintro rfl
          refine ⟨m, Duration.fromMicros m, ⟨by omega, by simp⟩, by omega, by omega, rfl, ?_, ?_⟩ <;>
            simp only [Duration.fromMicros] <;> omega
        · rintro ⟨n, d, ⟨h1, h2⟩, _, h3, rfl, h4, h5⟩
          rw [huniq d m h4 (by omega)]
      · simp only [reduceCtorEq, false_iff]
        rintro ⟨n, d, ⟨h1, h2⟩, _, h3, rfl, h4, h5⟩
        omega
    | i64 m =>
      simp only [deserializeDuration, IsInteger, reduceCtorEq, Content.i64.injEq, false_and, and_false, exists_false,
        or_false]
      split
      · simp only [Outcome.ok.injEq]
        constructor
        · rintro rfl
          refine ⟨m, Duration.fromMicros m.natAbs, rfl, by omega, by omega, rfl, ?_, ?_⟩ <;>
            simp only [Duration.fromMicros] <;> omega
        · rintro ⟨n, d, rfl, _, h3, rfl, h4, h5⟩
          rw [huniq d m.natAbs h4 (by omega)]
      · simp only [reduceCtorEq, false_iff]
        rintro ⟨n, d, rfl, _, h3, rfl, h4, h5⟩
        omega
    | str s =>
      simp only [deserializeDuration, IsInteger, reduceCtorEq, Content.str.injEq, false_and, and_false, exists_false,
        or_false, false_or]
      cases hp : durationParse s with
      | ok d =>
        simp only [Outcome.ok.injEq]
        constructor
        · rintro rfl; exact ⟨s, d, rfl, hp, rfl⟩
        · rintro ⟨s', d', rfl, h, rfl⟩; rw [hp] at h; cases h; rfl
      | err e =>
        simp only [reduceCtorEq, false_iff]
        rintro ⟨s', d', rfl, h, rfl⟩; rw [hp] at h; cases h
      | panic =>
        simp only [reduceCtorEq, false_iff]
        rintro ⟨s', d', rfl, h, rfl⟩; rw [hp] at h; cases h
    | _ => simp [deserializeDuration, IsInteger]

example : deserializeDuration (.u64 1500000) = .ok (some ⟨1, 500000000⟩) ∧
    deserializeDuration (.str "1m30s".toList) = .ok (some ⟨90, 0⟩) ∧ deserializeDuration .unit = .err () := by
  decide

/-! ### C65 and C67 -/

private theorem msb_iff (x : F64) : x.msb = true ↔ 2 ^ 63 ≤ x.toNat := by
  simp [BitVec.msb_eq_decide]

private theorem toNat_split (x : F64) :
    x.toNat = (if 2 ^ 63 ≤ x.toNat then 2 ^ 63 else 0) + x.toNat / 2 ^ 52 % 2 ^ 11 * 2 ^ 52 + x.toNat % 2 ^ 52 := by
  have := x.isLt
  split <;> omega

/-- A finite double has a clear sign bit exactly if its value is not negative and it is not negative zero. -/
private theorem sign_iff {x : F64} {q : ℚ} (h : floatValue x = some q) :
    x.msb = false ↔ 0 ≤ q ∧ x ≠ negativeZero := by
  have hs := toNat_split x
  have hmsb := msb_iff x
  by_cases hx : 2 ^ 63 ≤ x.toNat
  · have : x.msb = true := hmsb.2 hx
    rw [this]
    simp only [Bool.true_eq_false, false_iff, not_and, not_not]
    intro hq
    unfold floatValue at h
    simp only [if_pos hx] at h hs
    split at h
    · cases h
    split at h
    · rename_i h0
      cases h
      have h2 : (0 : ℚ) < 2 ^ (-1074 : ℤ) := by positivity
      have h3 : (x.toNat % 2 ^ 52 : ℕ) = 0 := by
        by_contra hne
        have : (0 : ℚ) < (x.toNat % 2 ^ 52 : ℕ) := by exact_mod_cast Nat.pos_of_ne_zero hne
        have : (0 : ℚ) < (x.toNat % 2 ^ 52 : ℕ) * 2 ^ (-1074 : ℤ) := by positivity
        rw [neg_one_mul, neg_mul] at hq
        linarith
      have : x.toNat = 2 ^ 63 := by omega
      unfold negativeZero
      rw [← this]
      simp
    · cases h
      exfalso
      have : (0 : ℚ) < (2 ^ 52 + x.toNat % 2 ^ 52 : ℕ) := by
        have : 0 < 2 ^ 52 + x.toNat % 2 ^ 52 := by omega
        exact_mod_cast this
      have h2 : (0 : ℚ) < 2 ^ ((x.toNat / 2 ^ 52 % 2 ^ 11 : ℕ) - 1075 : ℤ) := by positivity
      have := mul_pos this h2
      rw [neg_one_mul, neg_mul] at hq
      linarith
  · have : x.msb = false := by
      rw [Bool.eq_false_iff]; exact mt hmsb.1 hx
    rw [this]
    simp only [true_iff]
    constructor
    · unfold floatValue at h
      simp only [if_neg hx] at h
      split at h
      · cases h
      split at h <;> cases h <;> positivity
    · rintro rfl
      exact hx (by decide)

private theorem finite_iff (x : F64) : x.isFinite = true ↔ ∃ q, floatValue x = some q := by
  unfold F64.isFinite F64.expo floatValue
  simp only [bne_iff_ne, ne_eq]
  split
  · simp_all
  · split <;> simp_all

/-- **C65**. A number is accepted as a CPU quota exactly if it denotes a finite number that is not negative and is not
negative zero, and is kept unchanged. Otherwise the error says whether the sign bit was set. -/
theorem C65_cpus_new (x : F64) :
    (∀ c, Cpus.new x = .ok c ↔ c.intoInner = x ∧ ∃ q, floatValue x = some q ∧ 0 ≤ q ∧ x ≠ negativeZero) ∧
      (Cpus.new x = .error .negative ↔ 2 ^ 63 ≤ x.toNat) ∧
      (Cpus.new x = .error .infinite ↔ x.toNat < 2 ^ 63 ∧ floatValue x = none) := by
  have hf := finite_iff x
  have hm := msb_iff x
  unfold Cpus.new F64.isSignPositive
  cases hb : x.msb with
  | true =>
    have h63 := hm.1 hb
    simp only [Bool.not_true, Bool.not_false, if_true, reduceCtorEq, false_iff, not_and, true_iff]
    refine ⟨fun c _ => ?_, h63, by simp; omega⟩
    rintro ⟨q, hq, h⟩
    have := (sign_iff hq).2 h
    rw [hb] at this; cases this
  | false =>
    have h63 : ¬ 2 ^ 63 ≤ x.toNat := fun h => by rw [hm.2 h] at hb; cases hb
    simp only [Bool.not_false, Bool.not_true, Bool.false_eq_true, if_false]
    cases hfin : x.isFinite with
    | true =>
      obtain ⟨q, hq⟩ := hf.1 hfin
      simp only [Bool.not_true, Bool.false_eq_true, if_false, Except.ok.injEq, reduceCtorEq, false_iff]
      refine ⟨fun c => ?_, h63, ?_⟩
      · constructor
        · rintro rfl
          exact ⟨rfl, q, hq, (sign_iff hq).1 hb⟩
        · rintro ⟨rfl, _⟩; rfl
      · rw [hq]; simp
    | false =>
      have hnone : floatValue x = none := by
        cases h : floatValue x with
        | none => rfl
        | some q => rw [hf.2 ⟨q, h⟩] at hfin; cases hfin
      simp only [Bool.not_false, if_true, reduceCtorEq, false_iff, not_and, Except.error.injEq]
      refine ⟨fun c _ => ?_, h63, ?_⟩
      · rw [hnone]; simp
      · simp only [true_iff]; exact ⟨by omega, hnone⟩

example : Cpus.new (BitVec.ofNat 64 0x3FF8000000000000) = .ok ⟨BitVec.ofNat 64 0x3FF8000000000000⟩ ∧
    Cpus.new (BitVec.ofNat 64 0x8000000000000000) = .error .negative ∧
    Cpus.new (BitVec.ofNat 64 0x7FF0000000000000) = .error .infinite := by decide

theorem ofNat_value {n : Nat} (h : n < 2 ^ 53) :
    (F64.ofNat n).toNat < 2 ^ 63 ∧ floatValue (F64.ofNat n) = some (n : ℚ) := by
  unfold F64.ofNat
  by_cases h0 : n = 0
  · subst h0
    refine ⟨by decide, ?_⟩
    simp [floatValue]
  rw [if_neg h0]
  have he1 : 2 ^ n.log2 ≤ n := Nat.log2_self_le h0
  have he2 : n < 2 ^ (n.log2 + 1) := Nat.lt_log2_self
  have he : n.log2 ≤ 52 := by
    have : n.log2 < 53 := (Nat.log2_lt h0).2 h
    omega
  generalize n.log2 = e at *
  have hp : 2 ^ e * 2 ^ (52 - e) = 2 ^ 52 := by rw [← Nat.pow_add]; congr 1; omega
  have hn : n = 2 ^ e + (n - 2 ^ e) := by omega
  have hfr : (n - 2 ^ e) * 2 ^ (52 - e) < 2 ^ 52 := by
    rw [← hp]
    have : n - 2 ^ e < 2 ^ e := by rw [Nat.pow_succ] at he2; omega
    exact Nat.mul_lt_mul_of_pos_right this (by positivity)
  have hmul : n * 2 ^ (52 - e) = 2 ^ 52 + (n - 2 ^ e) * 2 ^ (52 - e) := by
    conv_lhs => rw [hn]
    rw [Nat.add_mul, hp]
  generalize hf : (n - 2 ^ e) * 2 ^ (52 - e) = f at *
  have htn : (BitVec.ofNat 64 ((1023 + e) * 2 ^ 52 + f)).toNat = (1023 + e) * 2 ^ 52 + f := by
    rw [BitVec.toNat_ofNat, Nat.mod_eq_of_lt]
    omega
  refine ⟨by rw [htn]; omega, ?_⟩
  unfold floatValue
  simp only [htn]
  have h1 : ((1023 + e) * 2 ^ 52 + f) / 2 ^ 52 % 2 ^ 11 = 1023 + e := by omega
  have h2 : ((1023 + e) * 2 ^ 52 + f) % 2 ^ 52 = f := by omega
  rw [h1, h2, if_neg (show ¬ 2 ^ 63 ≤ (1023 + e) * 2 ^ 52 + f by omega), if_neg (by omega), if_neg (by omega),
    ← hmul]
  congr 1
  rw [one_mul]
  push_cast
  rw [mul_assoc, ← zpow_natCast (2 : ℚ) (52 - e), ← zpow_add₀ (by norm_num)]
  have : (((52 - e : ℕ) : ℤ) + (1023 + (e : ℤ) - 1075)) = 0 := by omega
  rw [this]
  simp

/-- **C65**. Every 32-bit unsigned integer is a valid CPU quota with that value; a 32-bit signed integer is one exactly
if it is not negative. -/
theorem C65_cpus_integers :
    (∀ n, n < 2 ^ 32 → floatValue (Cpus.ofNat n).intoInner = some (n : ℚ) ∧
      Cpus.new (Cpus.ofNat n).intoInner = .ok (Cpus.ofNat n)) ∧
      ∀ i : Int, -2 ^ 31 ≤ i → i < 2 ^ 31 →
        (0 ≤ i → ∃ c, Cpus.ofInt i = .ok c ∧ floatValue c.intoInner = some (i : ℚ)) ∧
          (i < 0 → Cpus.ofInt i = .error .negative) := by
  have valid : ∀ n, n < 2 ^ 32 → Cpus.new (F64.ofNat n) = .ok ⟨F64.ofNat n⟩ := by
    intro n hn
    obtain ⟨h1, h2⟩ := ofNat_value (n := n) (by omega)
    refine ((C65_cpus_new _).1 _).2 ⟨rfl, n, h2, (sign_iff h2).1 ?_⟩
    rw [Bool.eq_false_iff]
    intro h
    have := (msb_iff _).1 h
    omega
  refine ⟨fun n hn => ⟨(ofNat_value (by omega)).2, valid n hn⟩, fun i h1 h2 => ⟨fun h => ?_, fun h => ?_⟩⟩
  · refine ⟨⟨F64.ofNat i.natAbs⟩, ?_, ?_⟩
    · unfold Cpus.ofInt F64.ofInt
      rw [if_neg (by omega)]
      exact valid _ (by omega)
    · have := (ofNat_value (n := i.natAbs) (by omega)).2
      rw [Cpus.intoInner, this]
      congr 1
      have : (i.natAbs : ℤ) = i := by omega
      rw [← Int.cast_natCast, this]
  · refine (C65_cpus_new _).2.1.2 ((msb_iff _).1 ?_)
    unfold F64.ofInt
    rw [if_pos h, BitVec.msb_or]
    simp only [Bool.or_eq_true]
    left
    decide

example : Cpus.new (Cpus.ofNat 3).intoInner = .ok (Cpus.ofNat 3) ∧ Cpus.ofInt (-3) = .error .negative :=
  ⟨(C65_cpus_integers.1 3 (by decide)).2, (C65_cpus_integers.2 (-3) (by decide) (by decide)).2 (by decide)⟩

/-- **C65**. A quota written to a document reads back as itself. -/
theorem C65_cpus_serde_round_trip (parseF64 : Str → Option F64) (x : F64) (c : Cpus) (h : Cpus.new x = .ok c) :
    c.serialize = .f64 x ∧ Cpus.deserialize parseF64 c.serialize = some c := by
  obtain ⟨h1, _⟩ := ((C65_cpus_new x).1 c).1 h
  have : c.serialize = .f64 x := by rw [← h1]; rfl
  refine ⟨this, ?_⟩
  rw [this, Cpus.deserialize, h]
  rfl

example : ∃ c, Cpus.new 0x4004000000000000#64 = .ok c ∧ floatValue c.intoInner = some (5 / 2) := by
  refine ⟨⟨0x4004000000000000#64⟩, by decide, ?_⟩
  simp [floatValue, Cpus.intoInner]
  norm_num

/-- **C67** is false: the whole numbers which convert to a quota are not read as one from a document. -/
theorem C67_cpus_integer_false (parseF64 : Str → Option F64) :
    ¬ ∃ n, n < 2 ^ 32 ∧ ∃ c, Cpus.deserialize parseF64 (.u64 n) = some c := by
  rintro ⟨n, _, c, h⟩
  cases h

/-- **C67** (as far as it holds). The documents read as a quota are exactly the valid floating point numbers and the
texts that parse as one. Missing: integers. -/
theorem C67_cpus_deserialize_partial (parseF64 : Str → Option F64) (d : Content) (c : Cpus) :
    Cpus.deserialize parseF64 d = some c ↔
      ∃ x, (d = .f64 x ∨ ∃ s, d = .str s ∧ parseF64 s = some x) ∧ Cpus.new x = .ok c := by
  cases d with
  | f64 x => simp [Cpus.deserialize, toOption_some]
  | str s =>
    simp only [Cpus.deserialize, reduceCtorEq, Content.str.injEq, exists_eq_left', false_or]
    cases parseF64 s <;> simp [toOption_some]
  | _ => simp [Cpus.deserialize]

example : Cpus.deserialize (fun _ => none) (.f64 (BitVec.ofNat 64 0x3FF8000000000000)) =
    some ⟨BitVec.ofNat 64 0x3FF8000000000000⟩ := by decide

end Props
