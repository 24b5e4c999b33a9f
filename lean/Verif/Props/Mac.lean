import Verif.Spec.Mac
import Verif.Proofs.Regex
import Mathlib.Tactic.IntervalCases
import Mathlib.Data.List.Induction

/- C46, C47: MAC addresses. -/

namespace Props
open Rust Compose Spec

theorem hexDigit_iff {c : Char} {d : Nat} : toHexDigit c = some d ↔ HexDigit c d := by
  constructor
  · intro h
    unfold toHexDigit at h
    split at h
    · rename_i hc
      rw [isDigit_iff] at hc
      simp only [Option.some.injEq] at h
      have hc' : c = Char.ofNat (48 + d) := Re.char_ext_toNat (by
        have : d ≤ 9 := by omega
        rw [show c.toNat = 48 + d by omega]; interval_cases d <;> rfl)
      have : d ≤ 9 := by omega
      left; subst hc'; clear h hc; interval_cases d <;> rfl
    split at h
    · rename_i hc
      simp only [Char.le_def, UInt32.le_iff_toNat_le] at hc
      change 97 ≤ c.toNat ∧ c.toNat ≤ 102 at hc
      simp only [Option.some.injEq] at h
      have h1 : d ≤ 15 := by omega
      have h2 : 10 ≤ d := by omega
      have hc' : c = Char.ofNat (87 + d) := Re.char_ext_toNat (by
        rw [show c.toNat = 87 + d by omega]; interval_cases d <;> rfl)
      left; subst hc'; clear h hc; interval_cases d <;> rfl
    split at h
    · rename_i hc
      simp only [Char.le_def, UInt32.le_iff_toNat_le] at hc
      change 65 ≤ c.toNat ∧ c.toNat ≤ 70 at hc
      simp only [Option.some.injEq] at h
      have h1 : d ≤ 15 := by omega
      have h2 : 10 ≤ d := by omega
      have hc' : c = Char.ofNat (55 + d) := Re.char_ext_toNat (by
        rw [show c.toNat = 55 + d by omega]; interval_cases d <;> rfl)
      right; subst hc'; clear h hc; interval_cases d <;> rfl
    · cases h
  · rintro (h | h)
    · have hd : d < 16 := (List.getElem?_eq_some_iff.1 h).1
      interval_cases d <;> (simp at h; subst h; rfl)
    · have hd : d < 16 := (List.getElem?_eq_some_iff.1 h).1
      interval_cases d <;> (simp at h; subst h; rfl)

theorem parseDigits_snoc (dig : Char → Option Nat) (radix max acc : Nat) (s : Str) (c : Char) (n : Nat) :
    parseDigits dig radix max acc (s ++ [c]) = .ok n ↔
      ∃ m d, parseDigits dig radix max acc s = .ok m ∧ dig c = some d ∧ n = m * radix + d ∧ n ≤ max := by
  induction s generalizing acc with
  | nil =>
    simp only [List.nil_append, parseDigits]
    match dig c with
    | none => simp
    | some d =>
      simp only [Except.ok.injEq, Option.some.injEq]
      split
      · rename_i h
        simp only [reduceCtorEq, false_iff]; rintro ⟨m, e, rfl, rfl, rfl, h'⟩; omega
      · rename_i h
        constructor
        · intro h'; cases h'; exact ⟨acc, d, rfl, rfl, rfl, by omega⟩
        · rintro ⟨m, e, rfl, rfl, rfl, h'⟩; rfl
  | cons x xs ih =>
    simp only [List.cons_append, parseDigits]
    match dig x with
    | none => simp
    | some d =>
      simp only
      split
      · simp
      · exact ih _

theorem parseHexDigits_iff (max : Nat) (s : Str) (n : Nat) (hs : s ≠ []) :
    parseDigits toHexDigit 16 max 0 s = .ok n ↔ HexText s n ∧ n ≤ max := by
  induction s using List.reverseRecOn generalizing n with
  | nil => exact absurd rfl hs
  | append_singleton s c ih =>
    rw [parseDigits_snoc]
    cases s with
    | nil =>
      simp only [parseDigits, hexDigit_iff, Except.ok.injEq, List.nil_append]
      constructor
      · rintro ⟨m, d, rfl, hd, rfl, hn⟩
        exact ⟨by simpa using HexText.digit hd, hn⟩
      · rintro ⟨h, hn⟩
        generalize hs : [c] = s at h
        cases h with
        | digit hd => cases hs; exact ⟨0, n, rfl, hd, by omega, hn⟩
        | @snoc s n x d h1 hd =>
          cases s with
          | nil => generalize he : ([] : Str) = s' at h1; cases h1 <;> simp at he
          | cons => simp at hs
    | cons x xs =>
      simp only [ih _ (List.cons_ne_nil x xs), hexDigit_iff]
      constructor
      · rintro ⟨m, d, ⟨h1, h2⟩, hd, rfl, hn⟩
        refine ⟨?_, hn⟩
        rw [Nat.mul_comm]; exact .snoc h1 hd
      · rintro ⟨h, hn⟩
        generalize hs : x :: xs ++ [c] = s at h
        cases h with
        | digit hd => simp at hs
        | @snoc s n y d h1 hd =>
          obtain ⟨rfl, he⟩ := List.append_inj' hs rfl
          cases he
          exact ⟨n, d, ⟨h1, by omega⟩, hd, by omega, hn⟩

theorem hexText_ne_nil {s : Str} {n : Nat} (h : HexText s n) : s ≠ [] := by cases h <;> simp

theorem hexDigit_chars {c : Char} {d : Nat} (h : HexDigit c d) : c ∈ "0123456789abcdefABCDEF".toList := by
  rcases h with h | h
  · have := List.mem_of_getElem? h; simp at this ⊢; grind
  · have := List.mem_of_getElem? h; simp at this ⊢; grind

theorem hexText_chars {s : Str} {n : Nat} (h : HexText s n) : ∀ c ∈ s, c ∈ "0123456789abcdefABCDEF".toList := by
  induction h with
  | digit h => intro c hc; rw [List.mem_singleton.1 hc]; exact hexDigit_chars h
  | snoc h hd ih =>
    intro c hc
    rcases List.mem_append.1 hc with hc | hc
    · exact ih c hc
    · rw [List.mem_singleton.1 hc]; exact hexDigit_chars hd

/-- Rust's hexadecimal byte parser accepts exactly what `HexByte` describes. -/
theorem parseHexU8_iff (s : Str) (n : Nat) : parseHexU8 s = .ok n ↔ HexByte s n := by
  unfold parseHexU8 parseRadix HexByte
  have hplus : ∀ ds m, HexText ('+' :: ds) m → False := fun ds m h =>
    absurd (hexText_chars h '+' (by simp)) (by decide)
  split
  · constructor
    · intro h; cases h
    · rintro ⟨ds, rfl | h, h1, -⟩
      · exact absurd rfl (hexText_ne_nil h1)
      · cases h
  · constructor
    · intro h; cases h
    · rintro ⟨ds, rfl | h, h1, -⟩
      · exact (hplus _ _ h1).elim
      · simp at h; exact absurd h (hexText_ne_nil h1)
  · rename_i cs hcs
    have hne : cs ≠ [] := by rintro rfl; exact hcs rfl
    rw [parseHexDigits_iff _ _ _ hne]
    constructor
    · rintro ⟨h1, h2⟩; exact ⟨cs, .inr rfl, h1, h2⟩
    · rintro ⟨ds, rfl | h, h1, h2⟩
      · exact (hplus _ _ h1).elim
      · simp at h; subst h; exact ⟨h1, h2⟩
  · rename_i h0 h1 h2
    rw [parseHexDigits_iff _ _ _ h0]
    constructor
    · rintro ⟨h3, h4⟩; exact ⟨s, .inl rfl, h3, h4⟩
    · rintro ⟨ds, rfl | h, h3, h4⟩
      · exact ⟨h3, h4⟩
      · exact absurd h (h2 ds)

theorem parseHexArray_iff (n : Nat) (ps rest : List Str) (bs : List Nat) :
    parseHexArray n ps = .ok (bs, rest) ↔
      ∃ qs, ps = qs ++ rest ∧ qs.length = n ∧ List.Forall₂ HexByte qs bs := by
  induction n generalizing ps bs with
  | zero =>
    simp only [parseHexArray, Except.ok.injEq, Prod.mk.injEq]
    constructor
    · rintro ⟨rfl, rfl⟩; exact ⟨[], rfl, rfl, .nil⟩
    · rintro ⟨qs, rfl, h, hf⟩
      obtain rfl := List.length_eq_zero_iff.1 h
      cases hf; exact ⟨rfl, rfl⟩
  | succ n ih =>
    simp only [parseHexArray]
    match ps with
    | [] =>
      simp only [parseNextHex, reduceCtorEq, false_iff]
      rintro ⟨qs, h, hl, -⟩
      have := congrArg List.length h; simp at this; omega
    | p :: ps =>
      simp only [parseNextHex]
      match hp : parseHexU8 p with
      | .error e =>
        simp only [reduceCtorEq, false_iff]
        rintro ⟨qs, h, hl, hf⟩
        cases hf with
        | nil => simp at hl
        | cons hb hf => cases h; rw [(parseHexU8_iff _ _).2 hb] at hp; cases hp
      | .ok b =>
        simp only
        have hb := (parseHexU8_iff _ _).1 hp
        match hr : parseHexArray n ps with
        | .error e =>
          simp only [reduceCtorEq, false_iff]
          rintro ⟨qs, h, hl, hf⟩
          cases hf with
          | nil => simp at hl
          | cons hb hf =>
            simp only [List.cons_append, List.cons.injEq] at h
            obtain ⟨rfl, rfl⟩ := h
            rw [(ih _ _).2 ⟨_, rfl, by simpa using hl, hf⟩] at hr; cases hr
        | .ok (bs', rest') =>
          simp only [Except.ok.injEq, Prod.mk.injEq]
          constructor
          · rintro ⟨rfl, rfl⟩
            obtain ⟨qs, rfl, hl, hf⟩ := (ih _ _).1 (by rw [hr])
            exact ⟨p :: qs, rfl, by simp [hl], .cons hb hf⟩
          · rintro ⟨qs, h, hl, hf⟩
            cases hf with
            | nil => simp at hl
            | @cons q b' qs bs hb' hf =>
              simp only [List.cons_append, List.cons.injEq] at h
              obtain ⟨rfl, rfl⟩ := h
              have := (ih _ _).2 ⟨_, rfl, by simpa using hl, hf⟩
              rw [hr] at this; cases this
              rw [(parseHexU8_iff _ _).2 hb'] at hp; cases hp
              exact ⟨rfl, rfl⟩

theorem hexByte_no_colon {s : Str} {n : Nat} (h : HexByte s n) : ':' ∉ s := by
  obtain ⟨ds, rfl | rfl, h, -⟩ := h
  · intro hm; exact absurd (hexText_chars h _ hm) (by decide)
  · intro hm
    rcases List.mem_cons.1 hm with hm | hm
    · cases hm
    · exact absurd (hexText_chars h _ hm) (by decide)

/-- C46: parsing accepts exactly six colon separated hexadecimal bytes, and yields them. -/
theorem C46_mac_accepts (s : Str) (m : MacAddress) : MacAddress.fromStr s = .ok m ↔ MacText s m := by
  have h6 : ∀ (qs : List Str), qs.length = 6 → ∃ a b c d e f, qs = [a, b, c, d, e, f] := by
    intro qs h
    match qs, h with
    | [a, b, c, d, e, f], _ => exact ⟨a, b, c, d, e, f, rfl⟩
  constructor
  · intro h
    unfold MacAddress.fromStr at h
    split at h
    · cases h
    rename_i bs rest hr
    split at h
    swap
    · cases h
    rename_i hrest
    obtain rfl := List.isEmpty_iff.1 hrest
    cases h
    obtain ⟨qs, hs, hl, hf⟩ := (parseHexArray_iff _ _ _ _).1 hr
    rw [List.append_nil] at hs
    obtain ⟨a, b, c, d, e, f, rfl⟩ := h6 qs hl
    have hj := joinWith_split ':' s
    rw [hs] at hj
    cases hf with
    | cons h1 hf =>
    cases hf with
    | cons h2 hf =>
    cases hf with
    | cons h3 hf =>
    cases hf with
    | cons h4 hf =>
    cases hf with
    | cons h5 hf =>
    cases hf with
    | cons h6 hf =>
    cases hf
    exact ⟨a, b, c, d, e, f, _, _, _, _, _, _, by rw [← hj]; simp [joinWith], rfl, h1, h2, h3, h4, h5, h6⟩
  · rintro ⟨a, b, c, d, e, f, x, y, z, u, v, w, rfl, rfl, h1, h2, h3, h4, h5, h6⟩
    have hs : split ':' (a ++ ":".toList ++ b ++ ":".toList ++ c ++ ":".toList ++ d ++ ":".toList ++ e ++
        ":".toList ++ f) = [a, b, c, d, e, f] := by
      rw [split_eq_iff]
      refine ⟨by simp, ?_, by simp [joinWith]⟩
      simp only [List.forall_mem_cons, List.not_mem_nil, false_implies, implies_true, and_true]
      exact ⟨hexByte_no_colon h1, hexByte_no_colon h2, hexByte_no_colon h3, hexByte_no_colon h4, hexByte_no_colon h5,
        hexByte_no_colon h6⟩
    unfold MacAddress.fromStr
    rw [hs, (parseHexArray_iff 6 _ [] [x, y, z, u, v, w]).2
      ⟨_, (List.append_nil _).symm, rfl, .cons h1 (.cons h2 (.cons h3 (.cons h4 (.cons h5 (.cons h6 .nil)))))⟩]
    rfl

example : MacText "0:1:ff:A:0b:+c".toList ⟨[0, 1, 255, 10, 11, 12]⟩ := (C46_mac_accepts _ _).1 rfl

theorem lowerHex_byte : ∀ n : Fin 256, parseHexU8 (lowerHex n) = .ok n.val := by decide +kernel

theorem lowerHex02_byte : ∀ n : Fin 256, parseHexU8 (lowerHex02 n) = .ok n.val := by decide +kernel

theorem hexByte_lowerHex {n : Nat} (h : n ≤ 255) : HexByte (lowerHex n) n :=
  (parseHexU8_iff _ _).1 (lowerHex_byte ⟨n, by omega⟩)

theorem hexByte_lowerHex02 {n : Nat} (h : n ≤ 255) : HexByte (lowerHex02 n) n :=
  (parseHexU8_iff _ _).1 (lowerHex02_byte ⟨n, by omega⟩)

theorem macOk_bytes {m : MacAddress} (h : MacOk m) : ∃ x y z u v w, m = ⟨[x, y, z, u, v, w]⟩ ∧
    x ≤ 255 ∧ y ≤ 255 ∧ z ≤ 255 ∧ u ≤ 255 ∧ v ≤ 255 ∧ w ≤ 255 := by
  obtain ⟨bs⟩ := m
  obtain ⟨hl, hb⟩ := h
  simp only at hl hb
  match bs, hl with
  | [x, y, z, u, v, w], _ => exact ⟨x, y, z, u, v, w, rfl, by simpa using hb⟩

/-- C46: a MAC address prints to text that parses back to it. -/
theorem C46_mac_round_trip (m : MacAddress) (h : MacOk m) : MacAddress.fromStr m.display = .ok m := by
  obtain ⟨x, y, z, u, v, w, rfl, h1, h2, h3, h4, h5, h6⟩ := macOk_bytes h
  rw [C46_mac_accepts]
  exact ⟨_, _, _, _, _, _, x, y, z, u, v, w, by simp [MacAddress.display], rfl, hexByte_lowerHex h1,
    hexByte_lowerHex02 h2, hexByte_lowerHex02 h3, hexByte_lowerHex02 h4, hexByte_lowerHex02 h5, hexByte_lowerHex02 h6⟩

example : MacAddress.fromStr (MacAddress.mk [0x92, 0, 0xc6, 0x0a, 0x29, 0x33]).display = .ok ⟨[0x92, 0, 0xc6, 0x0a, 0x29, 0x33]⟩ :=
  C46_mac_round_trip _ ⟨rfl, by decide⟩

/-- C46: what is parsed is six bytes. -/
theorem C46_mac_six_bytes (s : Str) (m : MacAddress) (h : MacAddress.fromStr s = .ok m) : MacOk m := by
  rw [C46_mac_accepts] at h
  obtain ⟨a, b, c, d, e, f, x, y, z, u, v, w, -, rfl, ⟨_, _, _, h1⟩, ⟨_, _, _, h2⟩, ⟨_, _, _, h3⟩, ⟨_, _, _, h4⟩,
    ⟨_, _, _, h5⟩, ⟨_, _, _, h6⟩⟩ := h
  exact ⟨rfl, by simp [h1, h2, h3, h4, h5, h6]⟩

example : MacAddress.fromStr "92:d0:C6:0a:29:33".toList = .ok ⟨[0x92, 0xd0, 0xc6, 0x0a, 0x29, 0x33]⟩ := by decide
example : MacAddress.fromStr "92:d0:c6:0a:29".toList = .error .length := by decide
example : MacAddress.fromStr "92:d0:c6:0a:29:33:1".toList = .error .length := by decide
example : MacAddress.fromStr "92:d0:c6:0a:29:1ff".toList = .error (.int .posOverflow "1ff".toList) := by decide
example : MacOk ⟨[0x92, 0xd0, 0xc6, 0x0a, 0x29, 0x33]⟩ := ⟨rfl, by decide⟩
example : (MacAddress.mk [0x92, 0xd0, 0xc6, 0x0a, 0x29, 0x33]).display = "92:d0:c6:0a:29:33".toList := by decide

/-! ### C47 -/

theorem twoDigits_lowerHex02_fin : ∀ n : Fin 256, ∃ c d, lowerHex02 n = [c, d] ∧
    "0123456789abcdef".toList[n.val / 16]? = some c ∧ "0123456789abcdef".toList[n.val % 16]? = some d := by
  have : ∀ n : Fin 256, lowerHex02 n = ("0123456789abcdef".toList[n.val / 16]?).toList ++
      ("0123456789abcdef".toList[n.val % 16]?).toList := by decide +kernel
  intro n
  have h1 : n.val / 16 < "0123456789abcdef".toList.length := by have := n.isLt; simp; omega
  have h2 : n.val % 16 < "0123456789abcdef".toList.length := by simp; omega
  refine ⟨_, _, ?_, List.getElem?_eq_getElem h1, List.getElem?_eq_getElem h2⟩
  rw [this n, List.getElem?_eq_getElem h1, List.getElem?_eq_getElem h2]; rfl

theorem twoDigits_lowerHex02 {n : Nat} (h : n ≤ 255) : TwoDigits (lowerHex02 n) n :=
  twoDigits_lowerHex02_fin ⟨n, by omega⟩

theorem lowerHex_length_fin : ∀ n : Fin 256, (lowerHex n).length = if 16 ≤ n.val then 2 else 1 := by decide +kernel

theorem lowerHex_eq {n : Nat} (h : n ≤ 255) (h16 : 16 ≤ n) : lowerHex n = lowerHex02 n := by
  have := lowerHex_length_fin ⟨n, by omega⟩
  simp only [h16, if_true] at this
  unfold lowerHex02
  rw [this]; rfl

theorem lowerHex_no_colon {n : Nat} (h : n ≤ 255) : ':' ∉ lowerHex n := hexByte_no_colon (hexByte_lowerHex h)

theorem twoDigits_no_colon {s : Str} {n : Nat} (h : TwoDigits s n) : ':' ∉ s := by
  obtain ⟨c, d, rfl, h1, h2⟩ := h
  have h1 := hexDigit_chars (d := n / 16) (.inl h1)
  have h2 := hexDigit_chars (d := n % 16) (.inl h2)
  simp only [List.mem_cons, List.not_mem_nil, or_false, not_or]
  constructor
  · rintro rfl; exact absurd h1 (by decide)
  · rintro rfl; exact absurd h2 (by decide)

/-- C47 (partial: false when the first byte is below 16, see below): a MAC address prints in the usual notation, two
digits per byte, exactly if its first byte is at least 16. -/
theorem C47_mac_two_digits_partial (m : MacAddress) (h : MacOk m) :
    StandardMac m.display m ↔ ∀ b, m.bytes.head? = some b → 16 ≤ b := by
  obtain ⟨x, y, z, u, v, w, rfl, h1, h2, h3, h4, h5, h6⟩ := macOk_bytes h
  simp only [List.head?_cons, Option.some.injEq, forall_eq']
  constructor
  · rintro ⟨a, b, c, d, e, f, x', _, _, _, _, _, hs, hm, ha, hb, hc, hd, he, hf⟩
    obtain ⟨rfl, -⟩ : x = x' ∧ True := by simp at hm; exact ⟨hm.1, trivial⟩
    have : a = lowerHex x := by
      have hs : ∃ r, lowerHex x ++ ':' :: r = a ++ ':' :: (b ++ ":".toList ++ c ++ ":".toList ++ d ++ ":".toList ++ e ++
        ":".toList ++ f) := ⟨_, by simpa [MacAddress.display] using hs⟩
      obtain ⟨r, hs⟩ := hs
      exact (List.append_inj hs (by
        have := splitOnce_eq_some.2 ⟨hs, twoDigits_no_colon ha⟩
        rw [splitOnce_eq_some.2 ⟨rfl, lowerHex_no_colon h1⟩] at this
        cases this; rfl)).1.symm
    subst this
    obtain ⟨c, d, hcd, -⟩ := ha
    have hl := lowerHex_length_fin ⟨x, by omega⟩
    simp only [hcd, List.length_cons, List.length_nil] at hl
    split at hl
    · assumption
    · cases hl
  · intro h16
    exact ⟨_, _, _, _, _, _, x, y, z, u, v, w, by simp [MacAddress.display, lowerHex_eq h1 h16], rfl,
      twoDigits_lowerHex02 h1, twoDigits_lowerHex02 h2, twoDigits_lowerHex02 h3, twoDigits_lowerHex02 h4,
      twoDigits_lowerHex02 h5, twoDigits_lowerHex02 h6⟩

/-- C47 is false: `02:42:ac:11:00:02` prints as `2:42:ac:11:00:02`. -/
theorem C47_mac_two_digits_false :
    ∃ m, MacOk m ∧ ¬ StandardMac m.display m ∧ m = ⟨[0x02, 0x42, 0xac, 0x11, 0x00, 0x02]⟩ ∧
      m.display = "2:42:ac:11:00:02".toList := by
  have hok : MacOk ⟨[0x02, 0x42, 0xac, 0x11, 0x00, 0x02]⟩ := ⟨rfl, by decide⟩
  refine ⟨_, hok, ?_, rfl, by decide⟩
  rw [C47_mac_two_digits_partial _ hok]
  intro h; exact absurd (h _ rfl) (by decide)

example : StandardMac "92:d0:c6:0a:29:33".toList ⟨[0x92, 0xd0, 0xc6, 0x0a, 0x29, 0x33]⟩ :=
  (C47_mac_two_digits_partial ⟨[0x92, 0xd0, 0xc6, 0x0a, 0x29, 0x33]⟩ ⟨rfl, by decide⟩).2 (by simp)

end Props
