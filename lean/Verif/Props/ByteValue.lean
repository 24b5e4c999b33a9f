import Verif.Spec.ByteValue
import Verif.Proofs.Number

/- C10, C11, C12: byte values and limits. -/

namespace Props
open Rust Compose Spec

/-! Helper lemmas. -/

theorem stripSuffixChar_eq_some {cs : List Char} {s r : Str} :
    ByteValue.stripSuffixChar cs s = some r ↔ ∃ c ∈ cs, s = r ++ [c] := by
  unfold ByteValue.stripSuffixChar
  split
  · rename_i c rest h
    have hs : s = rest.reverse ++ [c] := by
      have := congrArg List.reverse h; simpa using this
    split
    · rename_i hc
      constructor
      · intro h; cases h; exact ⟨c, hc, hs⟩
      · rintro ⟨c', hc', h'⟩
        have h3 : rest.reverse = r ∧ c = c' := by
          rw [hs] at h'; simpa using List.append_inj' h' rfl
        rw [h3.1]
    · rename_i hc
      constructor
      · intro h; cases h
      · rintro ⟨c', hc', h'⟩
        have h3 : rest.reverse = r ∧ c = c' := by
          rw [hs] at h'; simpa using List.append_inj' h' rfl
        rw [h3.2] at hc; exact absurd hc' hc
  · rename_i h
    have hs : s = [] := by simpa using h
    subst hs; simp

theorem stripSuffixChar_eq_none {cs : List Char} {s : Str} :
    ByteValue.stripSuffixChar cs s = none ↔ ∀ r, ∀ c ∈ cs, s ≠ r ++ [c] := by
  constructor
  · intro h r c hc hs
    rw [stripSuffixChar_eq_some.2 ⟨c, hc, hs⟩] at h; cases h
  · intro h
    cases h' : ByteValue.stripSuffixChar cs s with
    | none => rfl
    | some r =>
      obtain ⟨c, hc, hs⟩ := stripSuffixChar_eq_some.1 h'
      exact absurd hs (h r c hc)

private theorem parseU64_eq_ok {v : Str} {f : Nat → ByteValue} {b : ByteValue} :
    ByteValue.parseU64 v f = .ok b ↔ ∃ n, UInt u64Max v n ∧ b = f n := by
  unfold ByteValue.parseU64
  cases h : parseUnsigned u64Max v with
  | ok n =>
    have hn := parseUnsigned_iff.1 h
    constructor
    · intro h; cases h; exact ⟨n, hn, rfl⟩
    · rintro ⟨m, hm, rfl⟩; rw [hm.inj hn]
  | error e =>
    simp only [reduceCtorEq, false_iff]
    rintro ⟨n, hn, _⟩
    rw [parseUnsigned_iff.2 hn] at h; cases h

/-- C10: a string is accepted exactly when it is an unsigned integer (at most `2^64 - 1`) followed by one of the
spellings of a unit; the value read is that amount in that unit. -/
theorem C10_byte_value_accepts (s : Str) (b : ByteValue) :
    ByteValue.fromStr s = .ok b ↔ ByteText s b := by
  unfold ByteText
  have hmax : (2 : Nat) ^ 64 - 1 = u64Max := rfl
  rw [hmax]
  constructor
  · intro h
    unfold ByteValue.fromStr at h
    split at h
    · cases h
    split at h
    · rename_i n hn
      cases h
      exact ⟨s, [], .bytes, n, by simp, parseUnsigned_iff.1 hn, by simp [byteUnits], rfl⟩
    have key : ∀ (p : Str) (cs : List Char) (v : Str) (f : Nat → ByteValue),
        (stripSuffix p s).or (ByteValue.stripSuffixChar cs s) = some v → ByteValue.parseU64 v f = .ok b →
        (p, f) ∈ byteUnits → (∀ c ∈ cs, ([c], f) ∈ byteUnits) →
        ∃ num u f n, s = num ++ u ∧ UInt u64Max num n ∧ (u, f) ∈ byteUnits ∧ b = f n := by
      intro p cs v f h1 h2 h3 h4
      obtain ⟨n, hn, hb⟩ := parseU64_eq_ok.1 h2
      cases hs : stripSuffix p s with
      | some v' =>
        rw [hs] at h1
        cases h1
        exact ⟨v, p, f, n, stripSuffix_eq_some.1 hs, hn, h3, hb⟩
      | none =>
        rw [hs, Option.none_or] at h1
        obtain ⟨c, hc, hs⟩ := stripSuffixChar_eq_some.1 h1
        exact ⟨v, [c], f, n, hs, hn, h4 c hc, hb⟩
    split at h
    · rename_i v hv; exact key _ _ _ _ hv h (by simp [byteUnits]) (by simp [byteUnits])
    split at h
    · rename_i v hv; exact key _ _ _ _ hv h (by simp [byteUnits]) (by simp [byteUnits])
    split at h
    · rename_i v hv; exact key _ _ _ _ hv h (by simp [byteUnits]) (by simp [byteUnits])
    split at h
    · rename_i v hv
      obtain ⟨n, hn, hb⟩ := parseU64_eq_ok.1 h
      obtain ⟨c, hc, hs⟩ := stripSuffixChar_eq_some.1 hv
      exact ⟨v, [c], .bytes, n, hs, hn, by simp at hc; rcases hc with rfl | rfl <;> simp [byteUnits], hb⟩
    · cases h
  · rintro ⟨num, u, f, n, rfl, hn, hu, rfl⟩
    have hp := parseUnsigned_iff.2 hn
    have hne : (num ++ u).isEmpty = false := by
      have := hn.ne_nil
      simp [this]
    unfold ByteValue.fromStr
    rw [hne]
    obtain ⟨a, d, rfl, hd⟩ := hn.last
    have nd : ∀ c, isDigit c = false → c ≠ d := by
      rintro c hc rfl; rw [hd] at hc; cases hc
    have hg := nd 'g' rfl
    have hm := nd 'm' rfl
    have hk := nd 'k' rfl
    -- with a unit, the whole string is not a number
    have hnot : ∀ b c, isDigit c = false → ∃ e, parseUnsigned u64Max (a ++ [d] ++ (b ++ [c])) = .error e := by
      intro b c hc
      cases h : parseUnsigned u64Max (a ++ [d] ++ (b ++ [c])) with
      | error e => exact ⟨e, rfl⟩
      | ok m =>
        obtain ⟨a', d', h1, h2⟩ := (parseUnsigned_iff.1 h).last
        rw [← List.append_assoc] at h1
        have := (List.append_inj' h1 rfl).2
        cases this
        rw [hc] at h2; cases h2
    simp only [byteUnits, List.mem_cons, Prod.mk.injEq, List.not_mem_nil, or_false] at hu
    rcases hu with ⟨rfl, rfl⟩ | ⟨rfl, rfl⟩ | ⟨rfl, rfl⟩ | ⟨rfl, rfl⟩ | ⟨rfl, rfl⟩ | ⟨rfl, rfl⟩ | ⟨rfl, rfl⟩ |
      ⟨rfl, rfl⟩ | ⟨rfl, rfl⟩ | ⟨rfl, rfl⟩ | ⟨rfl, rfl⟩ | ⟨rfl, rfl⟩
    · simp [hp]
    · obtain ⟨e, he⟩ := hnot [] 'b' rfl
      simp only [List.nil_append, List.cons_append] at he
      simp only [String.reduceToList, he]
      simp [stripSuffix, stripPrefix, ByteValue.stripSuffixChar, ByteValue.parseU64, hp, hg, hm, hk]
    · obtain ⟨e, he⟩ := hnot [] 'B' rfl
      simp only [List.nil_append, List.cons_append] at he
      simp only [String.reduceToList, he]
      simp [stripSuffix, stripPrefix, ByteValue.stripSuffixChar, ByteValue.parseU64, hp, hg, hm, hk]
    · obtain ⟨e, he⟩ := hnot [] 'k' rfl
      simp only [List.nil_append, List.cons_append] at he
      simp only [String.reduceToList, he]
      simp [stripSuffix, stripPrefix, ByteValue.stripSuffixChar, ByteValue.parseU64, hp, hg, hm, hk]
    · obtain ⟨e, he⟩ := hnot [] 'K' rfl
      simp only [List.nil_append, List.cons_append] at he
      simp only [String.reduceToList, he]
      simp [stripSuffix, stripPrefix, ByteValue.stripSuffixChar, ByteValue.parseU64, hp, hg, hm, hk]
    · obtain ⟨e, he⟩ := hnot ['k'] 'b' rfl
      simp only [List.nil_append, List.cons_append] at he
      simp only [String.reduceToList, he]
      simp [stripSuffix, stripPrefix, ByteValue.stripSuffixChar, ByteValue.parseU64, hp, hg, hm, hk]
    · obtain ⟨e, he⟩ := hnot [] 'm' rfl
      simp only [List.nil_append, List.cons_append] at he
      simp only [String.reduceToList, he]
      simp [stripSuffix, stripPrefix, ByteValue.stripSuffixChar, ByteValue.parseU64, hp, hg, hm, hk]
    · obtain ⟨e, he⟩ := hnot [] 'M' rfl
      simp only [List.nil_append, List.cons_append] at he
      simp only [String.reduceToList, he]
      simp [stripSuffix, stripPrefix, ByteValue.stripSuffixChar, ByteValue.parseU64, hp, hg, hm, hk]
    · obtain ⟨e, he⟩ := hnot ['m'] 'b' rfl
      simp only [List.nil_append, List.cons_append] at he
      simp only [String.reduceToList, he]
      simp [stripSuffix, stripPrefix, ByteValue.stripSuffixChar, ByteValue.parseU64, hp, hg, hm, hk]
    · obtain ⟨e, he⟩ := hnot [] 'g' rfl
      simp only [List.nil_append, List.cons_append] at he
      simp only [String.reduceToList, he]
      simp [stripSuffix, stripPrefix, ByteValue.stripSuffixChar, ByteValue.parseU64, hp, hg, hm, hk]
    · obtain ⟨e, he⟩ := hnot [] 'G' rfl
      simp only [List.nil_append, List.cons_append] at he
      simp only [String.reduceToList, he]
      simp [stripSuffix, stripPrefix, ByteValue.stripSuffixChar, ByteValue.parseU64, hp, hg, hm, hk]
    · obtain ⟨e, he⟩ := hnot ['g'] 'b' rfl
      simp only [List.nil_append, List.cons_append] at he
      simp only [String.reduceToList, he]
      simp [stripSuffix, stripPrefix, ByteValue.stripSuffixChar, ByteValue.parseU64, hp, hg, hm, hk]

example : ByteText "+256k".toList (.kilobytes 256) := (C10_byte_value_accepts _ _).1 (by decide)

/-- C10: the text of a byte value is read back as the same value. -/
theorem C10_byte_value_round_trip (b : ByteValue) (h : b.amount ≤ 2 ^ 64 - 1) :
    ByteValue.fromStr b.toStr = .ok b := by
  rw [C10_byte_value_accepts]
  cases b with
  | bytes n => exact ⟨showNat n, "b".toList, .bytes, n, rfl, uint_showNat h, by simp [byteUnits], rfl⟩
  | kilobytes n => exact ⟨showNat n, "kb".toList, .kilobytes, n, rfl, uint_showNat h, by simp [byteUnits], rfl⟩
  | megabytes n => exact ⟨showNat n, "mb".toList, .megabytes, n, rfl, uint_showNat h, by simp [byteUnits], rfl⟩
  | gigabytes n => exact ⟨showNat n, "gb".toList, .gigabytes, n, rfl, uint_showNat h, by simp [byteUnits], rfl⟩

example : ByteValue.fromStr (ByteValue.gigabytes 7).toStr = .ok (.gigabytes 7) := C10_byte_value_round_trip _ (by decide)

/-- C10: in a document a byte value is written as a string, and read back as the same value. -/
theorem C10_byte_value_serde_round_trip (b : ByteValue) (h : b.amount ≤ 2 ^ 64 - 1) :
    ByteValue.deserialize (.str b.toStr) = some b := by
  simp [ByteValue.deserialize, C10_byte_value_round_trip b h, Except.toOption]

example : ByteValue.deserialize (.str "7gb".toList) = some (.gigabytes 7) :=
  C10_byte_value_serde_round_trip (.gigabytes 7) (by decide)

/-- C11: the number of bytes is the amount times the size of the unit when that fits in 64 bits, and absent
otherwise. -/
theorem C11_into_bytes_exact (n : Nat) (h : n ≤ 2 ^ 64 - 1) :
    (ByteValue.bytes n).intoBytes = some n ∧
    ∀ (f : Nat → ByteValue) (k : Nat), (f, k) ∈ [(ByteValue.kilobytes, 1000), (ByteValue.megabytes, 1000 ^ 2),
        (ByteValue.gigabytes, 1000 ^ 3)] →
      ∀ m, (f n).intoBytes = some m ↔ m = n * k ∧ n * k < 2 ^ 64 := by
  refine ⟨rfl, ?_⟩
  have key : ∀ k m, ByteValue.checkedMul n k = some m ↔ m = n * k ∧ n * k < 2 ^ 64 := by
    intro k m
    have : (2 : Nat) ^ 64 = u64Max + 1 := rfl
    rw [this]
    unfold ByteValue.checkedMul
    split
    · simp only [Option.some.injEq]; omega
    · simp only [reduceCtorEq, false_iff]; omega
  intro f k hf m
  simp only [List.mem_cons, Prod.mk.injEq, List.not_mem_nil, or_false] at hf
  rcases hf with ⟨rfl, rfl⟩ | ⟨rfl, rfl⟩ | ⟨rfl, rfl⟩ <;> exact key _ m

example : (ByteValue.gigabytes 18446744073).intoBytes = some 18446744073000000000 ∧
    (ByteValue.gigabytes 18446744074).intoBytes = none := by decide

/-! ### C12 -/

/-- C12: a limit is read back from its text, for any inner type whose text is read back and is never `-1`. -/
theorem C12_limit_round_trip {T E : Type} (toStrT : T → Str) (fromStrT : Str → Except E T)
    (hrt : ∀ v, fromStrT (toStrT v) = .ok v) (hne : ∀ v, toStrT v ≠ "-1".toList) (l : Limit T) :
    Limit.fromStr fromStrT (l.toStr toStrT) = .ok l := by
  cases l with
  | unlimited => rfl
  | value v =>
    unfold Limit.fromStr Limit.toStr
    have := hne v
    rw [if_neg (by simpa using this), hrt v]

/-- C12: limits of byte values are read back from their text. -/
theorem C12_limit_byte_value_round_trip (l : Limit ByteValue)
    (h : ∀ b, l = .value b → b.amount ≤ 2 ^ 64 - 1) :
    Limit.fromStr ByteValue.fromStr (l.toStr ByteValue.toStr) = .ok l := by
  cases l with
  | unlimited => rfl
  | value b =>
    have hb := h b rfl
    unfold Limit.fromStr Limit.toStr
    have hne : b.toStr ≠ str!"-1" := by
      intro he
      have := C10_byte_value_round_trip b hb
      rw [he] at this
      have h2 : ByteValue.fromStr str!"-1" = .error (.unknownUnit str!"-1") := by decide
      rw [h2] at this; cases this
    simp only [if_neg hne, C10_byte_value_round_trip b hb]

example : Limit.fromStr ByteValue.fromStr ((Limit.value (ByteValue.megabytes 3)).toStr ByteValue.toStr) = .ok (.value (.megabytes 3)) :=
  C12_limit_byte_value_round_trip _ (by rintro b h; cases h; decide)

/-- C12: limits on a number of processes (`u32`) are read back from their text. -/
theorem C12_limit_u32_round_trip (l : Limit Nat) (h : ∀ n, l = .value n → n ≤ 2 ^ 32 - 1) :
    Limit.fromStr (parseUnsigned u32Max) (l.toStr showNat) = .ok l := by
  cases l with
  | unlimited => rfl
  | value n =>
    have hn := h n rfl
    have hp : parseUnsigned u32Max (showNat n) = .ok n := parseUnsigned_iff.2 (uint_showNat hn)
    unfold Limit.fromStr Limit.toStr
    have hne : showNat n ≠ str!"-1" := by
      intro he
      rw [he] at hp
      have h2 : parseUnsigned u32Max str!"-1" = .error .invalidDigit := by decide
      rw [h2] at hp; cases hp
    simp only [if_neg hne, hp]

example : Limit.fromStr (parseUnsigned u32Max) ((Limit.value 4294967295).toStr showNat) = .ok (.value 4294967295) :=
  C12_limit_u32_round_trip _ (by rintro b h; cases h; decide)

/-- C12: `-1` is unlimited, whatever the inner type, both as an integer and as a string. -/
theorem C12_limit_minus_one {T : Type} (deT : Content → Option T) :
    Limit.deserialize deT (.i64 (-1)) = some .unlimited ∧
    Limit.deserialize deT (.str "-1".toList) = some .unlimited := ⟨rfl, rfl⟩

example : Limit.deserialize deserializeU32 (.i64 (-1)) = some .unlimited := (C12_limit_minus_one _).1

/-- C12: integers below `-1` are errors. -/
theorem C12_limit_negative {T : Type} (deT : Content → Option T) (v : Int) (h : v < -1) :
    Limit.deserialize deT (.i64 v) = none := by
  rw [Limit.deserialize, if_pos (by omega)]

example : Limit.deserialize deserializeU32 (.i64 (-2)) = none := C12_limit_negative _ _ (by decide)

/-- C12: a non-negative integer is the limit with that number of bytes. -/
theorem C12_limit_byte_value_integer (n : Nat) :
    Limit.deserialize ByteValue.deserialize (.u64 n) = some (.value (.bytes n)) ∧
    Limit.deserialize ByteValue.deserialize (.i64 n) = some (.value (.bytes n)) := by
  refine ⟨rfl, ?_⟩
  rw [Limit.deserialize, if_neg (by omega), if_neg (by omega)]
  simp [ByteValue.deserialize]

example : Limit.deserialize ByteValue.deserialize (.u64 7) = some (.value (.bytes 7)) := (C12_limit_byte_value_integer 7).1

/-- C12: a non-negative integer is the limit with that number of processes, if it fits in 32 bits. -/
theorem C12_limit_u32_integer (n : Nat) (l : Limit Nat) :
    Limit.deserialize deserializeU32 (.u64 n) = some l ↔ l = .value n ∧ n < 2 ^ 32 := by
  have : (2 : Nat) ^ 32 = u32Max + 1 := rfl
  rw [this]
  simp only [Limit.deserialize, deserializeU32]
  split
  · simp; constructor
    · rintro rfl; exact ⟨rfl, by omega⟩
    · rintro ⟨rfl, _⟩; rfl
  · simp; intro _; omega

example : Limit.deserialize deserializeU32 (.u64 4294967295) = some (.value 4294967295) ∧
    Limit.deserialize deserializeU32 (.u64 4294967296) = none := ⟨rfl, rfl⟩

/-- C12: the text `-1` is only ever printed for `Unlimited`. -/
theorem C12_limit_byte_value_text (l : Limit ByteValue) :
    l.toStr ByteValue.toStr = "-1".toList ↔ l = .unlimited := by
  cases l with
  | unlimited => simp [Limit.toStr]
  | value b =>
    simp only [Limit.toStr, ByteValue.toStr, reduceCtorEq, iff_false]
    intro h
    have : '-' ∈ showNat b.amount ++ b.unit := by rw [h]; simp
    rcases List.mem_append.1 this with h | h
    · have := isDigit_of_mem_showNat h; simp [isDigit] at this
    · cases b <;> simp [ByteValue.unit] at h

example : (Limit.value (ByteValue.bytes 1)).toStr ByteValue.toStr = "1b".toList ∧
    (Limit.unlimited : Limit ByteValue).toStr ByteValue.toStr = "-1".toList := by decide

/-- C12: documents: writing a limit of byte values and reading it gives it back. -/
theorem C12_limit_byte_value_serde_round_trip (l : Limit ByteValue)
    (h : ∀ b, l = .value b → b.amount ≤ 2 ^ 64 - 1) :
    Limit.deserialize ByteValue.deserialize (l.serialize (fun b => .str b.toStr)) = some l := by
  cases l with
  | unlimited => rfl
  | value b =>
    have hne := (not_congr (C12_limit_byte_value_text (.value b))).2 (by simp)
    simp only [Limit.toStr] at hne
    simp only [Limit.serialize, Limit.deserialize]
    rw [if_neg (by simpa using hne), C10_byte_value_serde_round_trip b (h b rfl)]
    rfl

example : Limit.deserialize ByteValue.deserialize ((Limit.value (ByteValue.megabytes 3)).serialize fun b => .str b.toStr) =
    some (.value (.megabytes 3)) := C12_limit_byte_value_serde_round_trip _ (by rintro b h; cases h; decide)

/-- C12: documents: writing a limit on processes and reading it gives it back. -/
theorem C12_limit_u32_serde_round_trip (l : Limit Nat) (h : ∀ n, l = .value n → n ≤ 2 ^ 32 - 1) :
    Limit.deserialize deserializeU32 (l.serialize .u64) = some l := by
  cases l with
  | unlimited => rfl
  | value n =>
    have := h n rfl
    exact (C12_limit_u32_integer n _).2 ⟨rfl, by omega⟩

example : ByteValue.fromStr "256k".toList = .ok (.kilobytes 256) := by decide
example : ByteValue.fromStr "+7gb".toList = .ok (.gigabytes 7) := by decide
example : ByteValue.fromStr "12".toList = .ok (.bytes 12) := by decide
example : ByteValue.fromStr "1tb".toList = .error (.parseInt .invalidDigit "1t".toList) := by decide
example : ByteValue.fromStr "18446744073709551616".toList =
    .error (.unknownUnit "18446744073709551616".toList) := by decide
example : (ByteValue.gigabytes 18446744073).intoBytes = some 18446744073000000000 := by decide
example : (ByteValue.gigabytes 18446744074).intoBytes = none := by decide
example : (Limit.value (ByteValue.megabytes 3)).toStr ByteValue.toStr = "3mb".toList := by decide
/-- The hypotheses of `C12_limit_round_trip` are satisfiable: a two-valued inner type. -/
example (l : Limit Bool) :
    Limit.fromStr (fun s => if s = "t".toList then Except.ok true else if s = "f".toList then .ok false
      else .error ()) (l.toStr (fun b => if b then "t".toList else "f".toList)) = .ok l :=
  C12_limit_round_trip _ _ (by decide) (by decide) l

end Props
