import Verif.Model.ConvertMessages
import Verif.Spec.ConvertMessages
import Verif.Props.Messages
import Verif.Props.Convert

/- C93: the messages shown for texts that are not numbers and for values that do not convert. -/

namespace Props
open Rust Compose Spec

/-- **C93**: texts that are not numbers. -/
theorem C93_number (ft : FloatText) (s : Str) (e : ParseNumberError) (h : Number.parse ft s = .error e) :
    NumberTextMessage ft s (errorChain e.report) := by
  cases (C88_number_errors ft s e).1 h with
  | empty => rw [ParseNumberError.report, errorChain_from, IntErr.report, errorChain_root]; exact .empty rfl
  | sign hc =>
    rw [ParseNumberError.report, errorChain_from, IntErr.report, errorChain_root]
    exact .sign (hc.imp (by rintro rfl; rfl) (by rintro rfl; rfl))
  | large hs h1 h2 =>
    rw [ParseNumberError.report, errorChain_from, IntErr.report, errorChain_root]; exact .large hs h1 h2
  | small h1 h2 =>
    rw [ParseNumberError.report, errorChain_from, IntErr.report, errorChain_root]; exact .small rfl h1 h2
  | float h1 h2 => rw [ParseNumberError.report, errorChain_from, errorChain_root]; exact .float h1 h2

example : NumberTextMessage exampleFloat "-9223372036854775809".toList
    "error parsing number as an integer: number too small to fit in target type".toList := by
  have h := C93_number exampleFloat "-9223372036854775809".toList (.int .negOverflow) rfl
  rw [ParseNumberError.report, errorChain_from, IntErr.report, errorChain_root] at h; exact h

private theorem text_message {ft : FloatText} {s : Str} {e : ParseNumberError} (h : NumberTextError ft s e) :
    NumberTextMessage ft s (errorChain e.report) := C93_number ft s e ((C88_number_errors ft s e).2 h)

private theorem float_of {n : Number} (h : integerOf n = none) : ∃ x, n = .float x := by
  cases n with
  | float x => exact ⟨x, rfl⟩
  | unsignedInt | signedInt => cases h

/-- **C93**: values that do not convert to `u64`. -/
theorem C93_value_to_u64 (ft : FloatText) (v : Value) (hv : ValueOk v) (e : TryFromValueError) (h : v.toU64 ft = .error e) :
    IntegerMessage ft 0 (2 ^ 64 - 1) v (errorChain e.report) := by
  rcases ((C88_value_to_u64 ft v hv).2 e).1 h with ⟨s, e', h1, h2, rfl⟩ | ⟨n, h1, h2, rfl⟩ | ⟨n, i, h1, h2, h3, rfl⟩
  · rw [TryFromValueError.report, errorChain_from]; exact .text h1 (text_message h2)
  · obtain ⟨x, rfl⟩ := float_of h2
    rw [TryFromValueError.report, errorChain_from, TryFromNumberError.report, errorChain_root]; exact .float h1
  · rw [TryFromValueError.report, errorChain_from, TryFromNumberError.report, errorChain_from, tryFromIntReport,
      errorChain_root]
    exact .range h1 h2 (by omega)

example : ∃ e, (Value.string "-7".toList).toU64 exampleFloat = .error e ∧
    IntegerMessage exampleFloat 0 (2 ^ 64 - 1) (.string "-7".toList) (errorChain e.report) :=
  ⟨_, rfl, C93_value_to_u64 _ (.string _) trivial _ rfl⟩

/-- **C93**: values that do not convert to `i64`. -/
theorem C93_value_to_i64 (ft : FloatText) (v : Value) (hv : ValueOk v) (e : TryFromValueError) (h : v.toI64 ft = .error e) :
    IntegerMessage ft (-2 ^ 63) (2 ^ 63 - 1) v (errorChain e.report) := by
  rcases ((C88_value_to_i64 ft v hv).2 e).1 h with ⟨s, e', h1, h2, rfl⟩ | ⟨n, h1, h2, rfl⟩ | ⟨n, i, h1, h2, h3, rfl⟩
  · rw [TryFromValueError.report, errorChain_from]; exact .text h1 (text_message h2)
  · obtain ⟨x, rfl⟩ := float_of h2
    rw [TryFromValueError.report, errorChain_from, TryFromNumberError.report, errorChain_root]; exact .float h1
  · rw [TryFromValueError.report, errorChain_from, TryFromNumberError.report, errorChain_from, tryFromIntReport,
      errorChain_root]
    exact .range h1 h2 (by omega)

example : ∃ e, (Value.number (.unsignedInt 9223372036854775808)).toI64 exampleFloat = .error e ∧
    IntegerMessage exampleFloat (-2 ^ 63) (2 ^ 63 - 1) (.number (.unsignedInt 9223372036854775808)) (errorChain e.report) :=
  ⟨_, rfl, C93_value_to_i64 _ (.number (.unsignedInt _)) (show 9223372036854775808 < 2 ^ 64 by decide) _ rfl⟩

/-- **C93**: values that do not convert to `f64`. -/
theorem C93_value_to_f64 (ft : FloatText) (v : Value) (hv : ValueOk v) (e : TryFromValueError) (h : v.toF64 ft = .error e) :
    FloatMessage ft v (errorChain e.report) := by
  rcases ((C88_value_to_f64 ft v hv).2.2 e).1 h with ⟨s, e', h1, h2, rfl⟩ | ⟨n, h1, h2, rfl⟩
  · rw [TryFromValueError.report, errorChain_from]; exact .text h1 (text_message h2)
  · rw [TryFromValueError.report, errorChain_from, tryFromIntReport, errorChain_root]
    cases hi : integerOf n with
    | none => exact absurd (.inr (float_of hi)) h2
    | some i => exact .range h1 hi fun hs => h2 (.inl hs)

example : ∃ e, (Value.number (.unsignedInt 4294967296)).toF64 exampleFloat = .error e ∧
    FloatMessage exampleFloat (.number (.unsignedInt 4294967296)) (errorChain e.report) :=
  ⟨_, rfl, C93_value_to_f64 _ (.number (.unsignedInt _)) (show 4294967296 < 2 ^ 64 by decide) _ rfl⟩

/-- **C93**: values that do not convert to `bool`. -/
theorem C93_value_to_bool (v : Value) (e : TryFromValueError) (h : v.toBool = .error e) :
    (∀ b, v ≠ .bool b) ∧ errorChain e.report = "cannot convert a non-bool value into a bool".toList := by
  obtain ⟨h1, rfl⟩ := ((C88_value_to_bool v).2 e).1 h
  exact ⟨h1, by rw [TryFromValueError.report, errorChain_root]; rfl⟩

example : ∀ b, Value.string "true".toList ≠ .bool b := (C93_value_to_bool _ _ rfl).1

end Props
