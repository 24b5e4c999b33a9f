import Verif.Spec.Common
import Verif.Proofs.Number
import Verif.Props.Numbers
import Mathlib.Tactic.Common

namespace Props
open Rust Compose Spec

/-! ### C62: items and lists -/

theorem readAll_iff {T : Type} {de : Content → Option T} {cs : List Content} {xs : List T} :
    ItemOrList.readAll de cs = some xs ↔ List.Forall₂ (fun c x => de c = some x) cs xs := by
  induction cs generalizing xs with
  | nil => cases xs <;> simp [ItemOrList.readAll]
  | cons c cs ih =>
    rw [ItemOrList.readAll]
    cases hc : de c with
    | none =>
      simp only [reduceCtorEq, false_iff]
      intro h; cases h with | cons h _ => rw [hc] at h; cases h
    | some x =>
      simp only [Option.map_eq_some_iff]
      constructor
      · rintro ⟨ys, h, rfl⟩; exact .cons hc (ih.1 h)
      · intro h
        cases h with
        | cons h1 h2 =>
          rw [hc] at h1; cases h1
          exact ⟨_, ih.2 h2, rfl⟩

/-- The list view has exactly the items in order; there is an item view exactly when the list view has one item. -/
theorem C62_item_or_list_views {T : Type} (x : ItemOrList T) :
    (∀ v, x = .item v → x.intoList = [v]) ∧ (∀ l, x = .list l → x.intoList = l) ∧
    (∀ l, x.asList = some l ↔ x = .list l) ∧ (∀ v, x.asItem = some v ↔ x.intoList = [v]) := by
  refine ⟨?_, ?_, ?_, ?_⟩
  · rintro v rfl; rfl
  · rintro l rfl; rfl
  · intro l; cases x <;> simp [ItemOrList.asList]
  · intro v
    cases x with
    | item w => simp [ItemOrList.asItem, ItemOrList.intoList]
    | list l =>
      simp only [ItemOrList.asItem, ItemOrList.intoList]
      match l with
      | [] => simp
      | [a] => simp
      | a :: b :: l => simp

example : (ItemOrList.list [5, 6]).intoList = [5, 6] ∧ (ItemOrList.item 5).intoList = [5] ∧
    (ItemOrList.list [5]).asItem = some 5 ∧ (ItemOrList.item 5).asList = none := ⟨rfl, rfl, rfl, rfl⟩

/-- A document is read as a list exactly when it is a sequence, each element of which is read as an item; repeated items
are kept once.  It is read as an item exactly when it is a scalar which is read as an item. -/
theorem C62_item_or_list_deserialize {T : Type} [DecidableEq T] (de : Content → Option T) (c : Content) :
    (∀ l, ItemOrList.deserialize de c = some (.list l) ↔
      ∃ cs xs, c = .seq cs ∧ List.Forall₂ (fun c x => de c = some x) cs xs ∧ l = IndexSet.collect xs) ∧
    (∀ v, ItemOrList.deserialize de c = some (.item v) ↔
      (c ≠ .unit ∧ (∀ cs, c ≠ .seq cs) ∧ (∀ es, c ≠ .map es)) ∧ de c = some v) := by
  constructor
  · intro l
    cases c with
    | seq items =>
      simp only [ItemOrList.deserialize, Option.map_eq_some_iff]
      constructor
      · rintro ⟨xs, h, e⟩; cases e
        exact ⟨items, xs, rfl, readAll_iff.1 h, rfl⟩
      · rintro ⟨cs, xs, e, h, rfl⟩; cases e
        exact ⟨xs, readAll_iff.2 h, rfl⟩
    | _ => simp [ItemOrList.deserialize]
  · intro v
    cases c <;> simp [ItemOrList.deserialize]

example : ItemOrList.deserialize (fun c => match c with | .u64 n => some n | _ => none) (.u64 3) = some (.item 3) ∧
    ItemOrList.deserialize (fun c => match c with | .u64 n => some n | _ => none) (.seq [.u64 3, .unit]) = none := ⟨rfl, rfl⟩

/-- The items of a list that was read are those of the document, without repetition. -/
theorem C62_item_or_list_unique {T : Type} [DecidableEq T] (de : Content → Option T) (cs : List Content) (l : List T)
    (h : ItemOrList.deserialize de (.seq cs) = some (.list l)) :
    l.Nodup ∧ ∀ x, x ∈ l ↔ ∃ c ∈ cs, de c = some x := by
  obtain ⟨cs', xs, e, h1, rfl⟩ := ((C62_item_or_list_deserialize de (.seq cs)).1 l).1 h
  cases e
  refine ⟨IndexSet.nodup_collect xs, fun x => ?_⟩
  rw [IndexSet.mem_collect]
  clear h
  induction h1 with
  | nil => simp
  | cons h _ ih =>
    rename_i c x' cs xs _
    rw [List.mem_cons, ih]
    constructor
    · rintro (rfl | ⟨c', h1, h2⟩)
      · exact ⟨c, by simp, h⟩
      · exact ⟨c', by simp [h1], h2⟩
    · rintro ⟨c', h1, h2⟩
      rcases List.mem_cons.1 h1 with rfl | h1
      · rw [h] at h2; cases h2; exact .inl rfl
      · exact .inr ⟨c', h1, h2⟩

example : [3, 4].Nodup := (C62_item_or_list_unique (fun c => match c with | .u64 n => some n | _ => none)
  [.u64 3, .u64 4, .u64 3] [3, 4] rfl).1

/-- What is written is read back, for items that are written as scalars and read back themselves. -/
theorem C62_item_or_list_round_trip {T : Type} [DecidableEq T] (de : Content → Option T) (ser : T → Content)
    (hrt : ∀ v, de (ser v) = some v)
    (hscalar : ∀ v, ser v ≠ .unit ∧ (∀ cs, ser v ≠ .seq cs) ∧ (∀ es, ser v ≠ .map es)) (x : ItemOrList T)
    (hx : ∀ l, x = .list l → l.Nodup) : ItemOrList.deserialize de (x.serialize ser) = some x := by
  cases x with
  | item v => exact ((C62_item_or_list_deserialize de _).2 v).2 ⟨hscalar v, hrt v⟩
  | list l =>
    refine ((C62_item_or_list_deserialize de _).1 l).2 ⟨l.map ser, l, rfl, ?_, ?_⟩
    · rw [List.forall₂_map_left_iff, List.forall₂_same]
      intro v _; exact hrt v
    · exact (IndexSet.collect_nodup (hx l rfl)).symm

example : ItemOrList.deserialize (fun c => match c with | .u64 n => some n | _ => none)
    ((ItemOrList.list [3, 4]).serialize .u64) = some (.list [3, 4]) :=
  C62_item_or_list_round_trip (T := Nat) _ _ (fun _ => rfl) (fun _ => ⟨by simp, by simp, by simp⟩) (.list [3, 4])
    (by rintro l h; cases h; decide)

/-- The files in long syntax. -/
def longFiles (e : EnvFile) : List EnvFileConfig := e.intoList.map (ShortOrLong.intoLong EnvFileConfig.fromShort)

/-- A single file is a required file; a list is its files in order.  There is a single-file view exactly when there is
exactly one file and it is required. -/
theorem C62_env_file_views (e : EnvFile) :
    (∀ p, e = .single p → longFiles e = [⟨p, true⟩]) ∧ (∀ l, e = .list l → e.intoList = l) ∧
    (∀ p, e.asSingle = some p ↔ longFiles e = [⟨p, true⟩]) := by
  refine ⟨?_, ?_, ?_⟩
  · rintro p rfl; rfl
  · rintro l rfl; rfl
  · intro p
    cases e with
    | single q => simp [EnvFile.asSingle, longFiles, EnvFile.intoList, ShortOrLong.intoLong, EnvFileConfig.fromShort]
    | list l =>
      simp only [EnvFile.asSingle, longFiles, EnvFile.intoList]
      match l with
      | [] => simp
      | [.short q] => simp [ShortOrLong.asShort, ShortOrLong.intoLong, EnvFileConfig.fromShort]
      | [.long ⟨q, r⟩] => cases r <;> simp [ShortOrLong.asShort, ShortOrLong.intoLong, EnvFileConfig.asShort]
      | a :: b :: l => simp

example : ItemOrList.asItem (.list [5]) = some 5 := by rfl
example : ItemOrList.asItem (.list [5, 6]) = (none : Option Nat) := by rfl
example : EnvFile.asSingle (.list [.long ⟨".env".toList, false⟩]) = none := by rfl
example : EnvFile.asSingle (.list [.long ⟨".env".toList, true⟩]) = some ".env".toList := by rfl
example : ItemOrList.deserialize (fun c => match c with | .u64 n => some n | _ => none)
    (.seq [.u64 3, .u64 4, .u64 3]) = some (.list [3, 4]) := by rfl

/-! ### C56: scalar values -/

/-- A stand-in for `f64` text in examples: it reads `1.5` and writes every float as `1.5`. -/
def exampleFloat : FloatText where
  parse s := if s = "1.5".toList then some (BitVec.ofNat 64 0x3FF8000000000000) else none
  «show» _ := "1.5".toList

theorem digit_not_sign {c : Char} (h : isDigit c = true) : c ≠ '+' ∧ c ≠ '-' := by
  constructor <;> rintro rfl <;> revert h <;> decide

theorem onlyDigits_iff (s : Str) : (Number.withoutSign s).any (fun c => !isDigit c) = false ↔ OnlyDigits s := by
  have hany (t : Str) : t.any (fun c => !isDigit c) = false ↔ ∀ c ∈ t, c ∈ "0123456789".toList := by
    rw [List.any_eq_false]
    exact forall₂_congr fun c _ => by rw [mem_digits]; simp
  unfold OnlyDigits
  cases s with
  | nil =>
    simp only [Number.withoutSign, List.any_nil, true_iff]
    exact ⟨[], .inl rfl, by simp⟩
  | cons c cs =>
    rw [Number.withoutSign]
    by_cases hc : c = '+' ∨ c = '-'
    · rw [if_pos hc, hany]
      constructor
      · intro h
        rcases hc with rfl | rfl
        · exact ⟨cs, .inr (.inl rfl), h⟩
        · exact ⟨cs, .inr (.inr rfl), h⟩
      · rintro ⟨ds, h | h | h, hd⟩
        · subst h
          have := digit_not_sign (mem_digits.1 (hd c (by simp)))
          exact absurd hc (by simp [this])
        · cases h; exact hd
        · cases h; exact hd
    · rw [if_neg hc, hany]
      constructor
      · intro h; exact ⟨c :: cs, .inl rfl, h⟩
      · rintro ⟨ds, h | h | h, hd⟩
        · subst h; exact hd
        · cases h; simp at hc
        · cases h; simp at hc

theorem parseI64_neg {ds : Str} {i : Int} :
    parseI64 ('-' :: ds) = .ok i ↔ IsNumber ds ∧ decimal ds ≤ 2 ^ 63 ∧ i = -(decimal ds : Int) := by
  have hp : parseI64 ('-' :: ds) = if ds = [] then .error .invalidDigit else parseNegative i64MinAbs ds := by
    cases ds with
    | nil => rfl
    | cons d ds => rfl
  rw [hp, isNumber_iff]
  by_cases hn : ds = []
  · simp [hn]
  · rw [if_neg hn, parseNegative]
    have hm : i64MinAbs = 2 ^ 63 := by decide
    cases hd : parseDigits toDigit 10 i64MinAbs 0 ds with
    | error e =>
      have hno : ¬ ((∀ c ∈ ds, isDigit c = true) ∧ decimal ds ≤ 2 ^ 63) := by
        rintro ⟨h1, h2⟩
        have := (parseDigits_eq_ok (max := i64MinAbs) (s := ds) (acc := 0) (n := decimal ds) (Nat.zero_le _)).2
          ⟨h1, by rw [decimal_eq]; rfl, by rw [hm]; exact h2⟩
        rw [hd] at this; cases this
      constructor
      · intro h; cases e <;> cases h
      · rintro ⟨⟨-, h1⟩, h2, -⟩; exact absurd ⟨h1, h2⟩ hno
    | ok n =>
      obtain ⟨h1, h2, h3⟩ := (parseDigits_eq_ok (Nat.zero_le _)).1 hd
      have hv : decimal ds = n := by rw [decimal_eq]; exact h2
      simp only [Except.ok.injEq, hv]
      constructor
      · intro h; exact ⟨⟨hn, h1⟩, by omega, h.symm⟩
      · rintro ⟨-, -, h⟩; exact h.symm

theorem uint_onlyDigits {max : Nat} {s : Str} {n : Nat} (h : UInt max s n) : OnlyDigits s ∧ s.head? ≠ some '-' := by
  obtain ⟨ds, h1, ⟨h2, h3⟩, -⟩ := h
  rcases h1 with rfl | rfl
  · refine ⟨⟨s, .inl rfl, h3⟩, ?_⟩
    cases s with
    | nil => simp
    | cons c cs =>
      have := digit_not_sign (mem_digits.1 (h3 c (by simp)))
      simp [this.2]
  · exact ⟨⟨ds, .inr (.inl rfl), h3⟩, by simp⟩

/-- Numbers are read as the documentation says. -/
theorem C56_number_parse (ft : FloatText) (s : Str) (n : Number) : Number.parse ft s = .ok n ↔ NumberText ft s n := by
  have h64 : u64Max = 2 ^ 64 - 1 := by decide
  unfold Number.parse
  cases hd : (Number.withoutSign s).any (fun c => !isDigit c) with
  | true =>
    have hno : ¬ OnlyDigits s := by rw [← onlyDigits_iff, hd]; simp
    rw [if_pos rfl]
    constructor
    · intro h
      cases hf : ft.parse s with
      | none => rw [hf] at h; cases h
      | some x => rw [hf] at h; cases h; exact .float hno hf
    · intro h
      cases h with
      | unsignedInt h => exact absurd (uint_onlyDigits h).1 hno
      | signedInt h1 h2 => exact absurd ⟨_, .inr (.inr rfl), h1.2⟩ hno
      | float _ h => rw [h]
  | false =>
    have hyes : OnlyDigits s := (onlyDigits_iff s).1 hd
    rw [if_neg (by simp)]
    by_cases hm : s.head? = some '-'
    · rw [if_pos hm]
      cases s with
      | nil => simp at hm
      | cons c ds =>
        simp only [List.head?_cons, Option.some.injEq] at hm
        subst hm
        constructor
        · intro h
          cases hp : parseI64 ('-' :: ds) with
          | error e => rw [hp] at h; cases h
          | ok i =>
            rw [hp] at h; cases h
            obtain ⟨h1, h2, rfl⟩ := parseI64_neg.1 hp
            exact .signedInt h1 h2
        · intro h
          generalize hs : '-' :: ds = s at h hyes
          cases h with
          | unsignedInt h => subst hs; exact absurd rfl (uint_onlyDigits h).2
          | signedInt h1 h2 => cases hs; rw [parseI64_neg.2 ⟨h1, h2, rfl⟩]
          | float h _ => exact absurd hyes h
    · rw [if_neg hm]
      constructor
      · intro h
        cases hp : parseUnsigned u64Max s with
        | error e => rw [hp] at h; cases h
        | ok k => rw [hp] at h; cases h; exact .unsignedInt (by rw [← h64]; exact parseUnsigned_iff.1 hp)
      · intro h
        cases h with
        | unsignedInt h => rw [parseUnsigned_iff.2 (by rw [h64]; exact h)]
        | signedInt h1 h2 => simp at hm
        | float h _ => exact absurd hyes h

example : NumberText exampleFloat "-007".toList (.signedInt (-7)) := (C56_number_parse _ _ _).1 (by decide)

theorem numberText_unique {ft : FloatText} {s : Str} {m n : Number} (h1 : NumberText ft s m) (h2 : NumberText ft s n) :
    m = n := by
  rw [← C56_number_parse] at h1 h2
  rw [h1] at h2
  exact Except.ok.inj h2

/-- Every text is read as the value it denotes. -/
theorem C56_value_parse (ft : FloatText) (s : Str) (v : Value) : Value.parse ft s = v ↔ ValueText ft s v := by
  unfold Value.parse parseBool
  by_cases h1 : s = "true".toList
  · subst h1
    constructor
    · intro h; cases h; exact .true
    · intro h
      generalize hs : "true".toList = s at h
      cases h with
      | true => rfl
      | false => exact absurd hs (by decide)
      | number h => exact absurd hs.symm h
      | string h => exact absurd hs.symm h
  by_cases h2 : s = "false".toList
  · subst h2
    constructor
    · intro h; cases h; exact .false
    · intro h
      generalize hs : "false".toList = s at h
      cases h with
      | true => exact absurd hs (by decide)
      | false => rfl
      | number _ h => exact absurd hs.symm h
      | string _ h => exact absurd hs.symm h
  rw [if_neg h1, if_neg h2]
  cases hp : Number.parse ft s with
  | ok n =>
    have hn := (C56_number_parse ft s n).1 hp
    constructor
    · intro h; cases h; exact .number h1 h2 hn
    · intro h
      cases h with
      | true => exact absurd rfl h1
      | false => exact absurd rfl h2
      | number _ _ h => rw [numberText_unique hn h]
      | string _ _ h => exact absurd hn (h n)
  | error e =>
    have hn : ∀ n, ¬ NumberText ft s n := by
      intro n h
      rw [(C56_number_parse ft s n).2 h] at hp; cases hp
    constructor
    · intro h; cases h; exact .string h1 h2 hn
    · intro h
      cases h with
      | true => exact absurd rfl h1
      | false => exact absurd rfl h2
      | number _ _ h => exact absurd h (hn _)
      | string => rfl

example : ValueText exampleFloat "True".toList (.string "True".toList) := (C56_value_parse _ _ _).1 (by decide)

/-- The same without booleans. -/
theorem C56_string_or_number_parse (ft : FloatText) (s : Str) :
    (∀ n, StringOrNumber.parse ft s = .number n ↔ NumberText ft s n) ∧
    (∀ t, StringOrNumber.parse ft s = .string t ↔ t = s ∧ ∀ n, ¬ NumberText ft s n) := by
  unfold StringOrNumber.parse
  cases hp : Number.parse ft s with
  | ok n =>
    have hn := (C56_number_parse ft s n).1 hp
    refine ⟨fun m => ?_, fun t => ?_⟩
    · simp only [StringOrNumber.number.injEq]
      exact ⟨fun h => h ▸ hn, numberText_unique hn⟩
    · simp only [reduceCtorEq, false_iff, not_and]
      intro _ h; exact h n hn
  | error e =>
    have hn : ∀ n, ¬ NumberText ft s n := by
      intro n h
      rw [(C56_number_parse ft s n).2 h] at hp; cases hp
    refine ⟨fun m => ?_, fun t => ?_⟩
    · simp only [reduceCtorEq, false_iff]; exact hn m
    · simp only [StringOrNumber.string.injEq]
      exact ⟨fun h => ⟨h.symm, hn⟩, fun h => h.1.symm⟩

example : StringOrNumber.parse exampleFloat "true".toList = .string "true".toList ∧
    StringOrNumber.parse exampleFloat "1.5".toList = .number (.float (BitVec.ofNat 64 0x3FF8000000000000)) := by decide

theorem uint_show {n : Nat} (h : n < 2 ^ 64) : UInt (2 ^ 64 - 1) (showNat n) n := uint_showNat (by omega)

/-- Exactly which numbers are read back from their text. -/
theorem C56_number_print_parse (ft : FloatText) (n : Number) (hn : NumberOk n) :
    Number.parse ft (n.show ft) = .ok n ↔
      match n with
      | .unsignedInt _ => True
      | .signedInt i => i < 0
      | .float x => ¬ OnlyDigits (ft.show x) ∧ ft.parse (ft.show x) = some x := by
  rw [C56_number_parse]
  cases n with
  | unsignedInt n => simp only [iff_true]; exact .unsignedInt (uint_show hn)
  | signedInt i =>
    simp only [Number.show, showInt, NumberOk] at hn ⊢
    by_cases hi : i < 0
    · rw [if_pos hi]
      simp only [hi, iff_true]
      have := NumberText.signedInt (ft := ft) (isNumber_showNat i.natAbs) (by rw [decimal_showNat]; omega)
      rw [decimal_showNat] at this
      rwa [show -((i.natAbs : Nat) : Int) = i by omega] at this
    · rw [if_neg hi]
      simp only [hi, iff_false]
      intro h
      have := numberText_unique h (.unsignedInt (uint_show (by omega)))
      cases this
  | float x =>
    simp only [Number.show]
    constructor
    · intro h
      generalize hs : ft.show x = s at h
      cases h with
      | float h1 h2 => exact ⟨h1, h2⟩
    · rintro ⟨h1, h2⟩; exact .float h1 h2

example : Number.parse exampleFloat ((Number.signedInt (-7)).show exampleFloat) = .ok (.signedInt (-7)) :=
  (C56_number_print_parse _ (.signedInt (-7)) ⟨by decide, by decide⟩).2 (by decide)

theorem digits_not_word {s : Str} (h : OnlyDigits s) : s ≠ "true".toList ∧ s ≠ "false".toList := by
  constructor <;> rintro rfl <;> revert h <;> rw [← onlyDigits_iff] <;> decide

/-- Exactly which values are read back from their text (`f64` does not read `true` and `false`). -/
theorem C56_value_print_parse (ft : FloatText) (hft : ft.parse "true".toList = none ∧ ft.parse "false".toList = none)
    (v : Value) (hv : ValueOk v) :
    Value.parse ft (v.show ft) = v ↔
      match v with
      | .bool _ => True
      | .string s => s ≠ "true".toList ∧ s ≠ "false".toList ∧ ∀ n, ¬ NumberText ft s n
      | .number n => Number.parse ft (n.show ft) = .ok n := by
  rw [C56_value_parse]
  cases v with
  | bool b =>
    simp only [iff_true]
    cases b
    · exact .false
    · exact .true
  | string s =>
    simp only [Value.show]
    constructor
    · intro h; cases h with | string h1 h2 h3 => exact ⟨h1, h2, h3⟩
    · rintro ⟨h1, h2, h3⟩; exact .string h1 h2 h3
  | number n =>
    simp only [Value.show]
    rw [C56_number_parse]
    constructor
    · intro h
      generalize hs : n.show ft = s at h
      cases h with | number _ _ h => exact h
    · intro h
      have hw : n.show ft ≠ "true".toList ∧ n.show ft ≠ "false".toList := by
        generalize n.show ft = s at h
        cases h with
        | unsignedInt h => exact digits_not_word (uint_onlyDigits h).1
        | signedInt h1 h2 => exact ⟨by simp, by simp⟩
        | float h1 h2 =>
          constructor
          · rintro rfl; rw [hft.1] at h2; cases h2
          · rintro rfl; rw [hft.2] at h2; cases h2
      exact .number hw.1 hw.2 h

example : Value.parse exampleFloat ((Value.bool true).show exampleFloat) = .bool true :=
  (C56_value_print_parse exampleFloat ⟨by decide, by decide⟩ (.bool true) trivial).2 trivial

/-- What is read from a text prints as that text, except numbers, and those are printed as numbers: an integer is
printed as its decimal digits. -/
theorem C56_value_parse_print (ft : FloatText) (s : Str) :
    match Value.parse ft s with
    | .string t => t = s
    | .bool b => (Value.bool b).show ft = s
    | .number (.unsignedInt n) => IsNumber ((Value.number (.unsignedInt n)).show ft) ∧
        decimal ((Value.number (.unsignedInt n)).show ft) = n
    | .number (.signedInt i) => i = 0 ∧ (Value.number (.signedInt i)).show ft = "0".toList ∨
        ∃ ds, (Value.number (.signedInt i)).show ft = "-".toList ++ ds ∧ IsNumber ds ∧ i = -(decimal ds : Int)
    | .number (.float x) => ft.parse s = some x := by
  have h := (C56_value_parse ft s _).1 rfl
  generalize Value.parse ft s = v at h
  cases h with
  | true => rfl
  | false => rfl
  | string => rfl
  | number h1 h2 h =>
    cases h with
    | unsignedInt h =>
      exact ⟨isNumber_showNat _, decimal_showNat _⟩
    | @signedInt ds h3 h4 =>
      by_cases h0 : decimal ds = 0
      · left; rw [h0]; exact ⟨rfl, rfl⟩
      · right
        refine ⟨showNat (decimal ds), ?_, isNumber_showNat _, by rw [decimal_showNat]⟩
        simp only [Value.show, Number.show, showInt]
        rw [if_pos (by omega)]
        simp
    | float _ h => exact h

example : (Value.parse exampleFloat "+007".toList).show exampleFloat = "7".toList ∧
    (Value.parse exampleFloat "-007".toList).show exampleFloat = "-7".toList := by decide

/-- A text of only digits (and a sign) is printed back as it was exactly when it is too large to be an integer (or no
integer at all), or is written without `+`, without superfluous zeros, and is not `-0`. -/
theorem C56_digits_reprint (ft : FloatText) (s : Str) (hs : OnlyDigits s) :
    (Value.parse ft s).show ft = s ↔
      (∀ n, ¬ NumberText ft s n) ∨ s = "0".toList ∨
        ∃ ds, (s = ds ∨ s = "-".toList ++ ds) ∧ IsNumber ds ∧ ds.head? ≠ some '0' := by
  have h := (C56_value_parse ft s _).1 rfl
  generalize Value.parse ft s = v at h
  cases h with
  | true => exact absurd rfl (digits_not_word hs).1
  | false => exact absurd rfl (digits_not_word hs).2
  | string _ _ h => exact ⟨fun _ => .inl h, fun _ => rfl⟩
  | number h1 h2 h =>
    cases h with
    | float h _ => exact absurd hs h
    | @unsignedInt _ n h =>
      have hno : ¬ ∀ m, ¬ NumberText ft s m := fun h' => h' _ (.unsignedInt h)
      simp only [hno, false_or]
      obtain ⟨ds, he, hn, rfl, -⟩ := h
      have hplus : '+' ∉ showNat (decimal ds) := fun hm => (digit_not_sign (isDigit_of_mem_showNat hm)).1 rfl
      have hminus : ∀ r, showNat (decimal ds) ≠ "-".toList ++ r :=
        fun r e => (digit_not_sign (isDigit_of_mem_showNat (c := '-') (by rw [e]; simp))).2 rfl
      show showNat (decimal ds) = s ↔ _
      constructor
      · intro e
        have hs' : s = ds := by
          rcases he with he | he
          · exact he
          · rw [he] at e; rw [e] at hplus; simp at hplus
        subst hs'
        rcases (showNat_decimal_iff hn).1 e with h | h
        · exact .inl h
        · exact .inr ⟨s, .inl rfl, hn, h⟩
      · rintro (h | ⟨es, h, hn', hz⟩)
        · subst h
          rcases he with he | he
          · rw [← he]; rfl
          · simp at he
        · rcases h with rfl | rfl
          · rcases he with rfl | rfl
            · exact (showNat_decimal_iff hn).2 (.inr hz)
            · exact absurd (hn'.2 '+' (by simp)) (by decide)
          · rcases he with rfl | he
            · exact absurd (hn.2 '-' (by simp)) (by decide)
            · simp at he
    | @signedInt ds hn hmax =>
      have hno : ¬ ∀ m, ¬ NumberText ft ('-' :: ds) m := fun h' => h' _ (.signedInt hn hmax)
      simp only [hno, false_or]
      have hne : '-' :: ds ≠ "0".toList := by simp
      simp only [hne, false_or]
      show showInt _ = _ ↔ _
      by_cases h0 : decimal ds = 0
      · rw [h0]
        have hl : showInt (-((0 : Nat) : Int)) = "0".toList := rfl
        rw [hl]
        constructor
        · intro e; exact absurd e.symm hne
        · rintro ⟨es, h, hn', hz⟩
          rcases h with rfl | h
          · exact absurd (hn'.2 '-' (by simp)) (by decide)
          · have h : ds = es := by simpa using h
            subst h
            have := (showNat_decimal_iff hn).2 (.inr hz)
            rw [h0] at this
            exact absurd (by rw [← this]; rfl) hz
      · have hl : showInt (-((decimal ds : Nat) : Int)) = '-' :: showNat (decimal ds) := by
          unfold showInt
          rw [if_pos (by omega)]
          simp
        rw [hl]
        constructor
        · intro e
          have e : showNat (decimal ds) = ds := by simpa using e
          refine ⟨ds, .inr (by simp), hn, ?_⟩
          rcases (showNat_decimal_iff hn).1 e with h | h
          · subst h; exact absurd rfl h0
          · exact h
        · rintro ⟨es, h, hn', hz⟩
          rcases h with rfl | h
          · exact absurd (hn'.2 '-' (by simp)) (by decide)
          · have h : ds = es := by simpa using h
            subst h
            rw [(showNat_decimal_iff hn).2 (.inr hz)]

example : (Value.parse exampleFloat "-17".toList).show exampleFloat = "-17".toList :=
  (C56_digits_reprint _ _ ⟨"17".toList, by decide, by decide⟩).2
    (.inr (.inr ⟨"17".toList, .inr rfl, ⟨by decide, by decide⟩, by decide⟩))

/-- Values written to a document are read back, except a signed integer that is not negative, which is read as an
unsigned one. -/
theorem C56_value_serde (v : Value) :
    (Value.deserialize v.serialize = some v ↔ ∀ i, v = .number (.signedInt i) → i < 0) ∧
    (∀ i : Int, 0 ≤ i → Value.deserialize (Value.serialize (.number (.signedInt i))) =
      some (.number (.unsignedInt i.toNat))) := by
  constructor
  · cases v with
    | string s => simp [Value.serialize, Value.deserialize]
    | bool b => simp [Value.serialize, Value.deserialize]
    | number n =>
      cases n with
      | unsignedInt n => simp [Value.serialize, Number.serialize, Value.deserialize]
      | float x => simp [Value.serialize, Number.serialize, Value.deserialize]
      | signedInt i =>
        simp only [Value.serialize, Number.serialize, Value.number.injEq, Number.signedInt.injEq, forall_eq']
        by_cases hi : i < 0
        · simp [hi, Value.deserialize]
        · simp [hi, Value.deserialize]
  · intro i hi
    simp only [Value.serialize, Number.serialize]
    rw [if_neg (by omega)]
    rfl

example : Value.parse exampleFloat "+007".toList = .number (.unsignedInt 7) := by rfl
example : Value.parse exampleFloat "-0".toList = .number (.signedInt 0) := by rfl
example : Value.parse exampleFloat "18446744073709551616".toList = .string "18446744073709551616".toList := by decide
example : Value.parse exampleFloat "-9223372036854775808".toList = .number (.signedInt (-9223372036854775808)) := by
  decide
example : Value.parse exampleFloat "1.5".toList = .number (.float (BitVec.ofNat 64 0x3FF8000000000000)) := by rfl
example : Value.parse exampleFloat "".toList = .string [] := by rfl
example : Value.parse exampleFloat "True".toList = .string "True".toList := by rfl
example : exampleFloat.parse "true".toList = none ∧ exampleFloat.parse "false".toList = none := ⟨rfl, rfl⟩

/-! ### C69: number conversions -/

/-- Integers convert to integers exactly when they are in range, and keep their value; floats never do. -/
theorem C69_number_to_integers (n : Number) (hn : NumberOk n) :
    (∀ k, n.toU64 = .ok k ↔ integerOf n = some (k : Int)) ∧
    (∀ i, n.toI64 = .ok i ↔ integerOf n = some i ∧ -2 ^ 63 ≤ i ∧ i < 2 ^ 63) ∧
    (∀ e, n.toU64 = .error e ↔ (∃ i, integerOf n = some i ∧ i < 0 ∧ e = .tryFromInt) ∨
      integerOf n = none ∧ e = .floatToInt) ∧
    (∀ e, n.toI64 = .error e ↔ (∃ i, integerOf n = some i ∧ 2 ^ 63 ≤ i ∧ e = .tryFromInt) ∨
      integerOf n = none ∧ e = .floatToInt) := by
  have hm : i64Max = 2 ^ 63 - 1 := by decide
  cases n with
  | unsignedInt n =>
    simp only [Number.toU64, Number.toI64, integerOf, Option.some.injEq, reduceCtorEq, false_and, or_false,
      Except.ok.injEq]
    refine ⟨fun k => by omega, fun i => ?_, fun e => ?_, fun e => ?_⟩
    · split
      · simp only [Except.ok.injEq]; omega
      · simp only [reduceCtorEq, false_iff]; omega
    · constructor
      · intro h; cases h
      · rintro ⟨i, h1, h2, -⟩; omega
    · split
      · simp only [reduceCtorEq, false_iff]; rintro ⟨i, h1, h2, -⟩; omega
      · simp only [Except.error.injEq]
        constructor
        · rintro rfl; exact ⟨_, rfl, by omega, rfl⟩
        · rintro ⟨i, h1, h2, rfl⟩; rfl
  | signedInt j =>
    simp only [NumberOk] at hn
    simp only [Number.toU64, Number.toI64, integerOf, Option.some.injEq, reduceCtorEq, false_and, or_false,
      Except.ok.injEq]
    refine ⟨fun k => ?_, fun i => ?_, fun e => ?_, fun e => ?_⟩
    · split
      · simp only [Except.ok.injEq]; omega
      · simp only [reduceCtorEq, false_iff]; omega
    · constructor
      · rintro rfl; exact ⟨rfl, hn⟩
      · rintro ⟨h, -⟩; exact h
    · split
      · simp only [reduceCtorEq, false_iff]; rintro ⟨i, h1, h2, -⟩; omega
      · simp only [Except.error.injEq]
        constructor
        · rintro rfl; exact ⟨_, rfl, by omega, rfl⟩
        · rintro ⟨i, h1, h2, rfl⟩; rfl
    · constructor
      · intro h; cases h
      · rintro ⟨i, h1, h2, -⟩; omega
  | float x =>
    simp [Number.toU64, Number.toI64, integerOf, eq_comm]

example : (Number.signedInt 5).toU64 = .ok 5 ∧ (Number.unsignedInt (2 ^ 63)).toI64 = .error .tryFromInt ∧
    NumberOk (.signedInt 5) ∧ NumberOk (.unsignedInt (2 ^ 63)) := ⟨by decide, by decide, ⟨by decide, by decide⟩, by simp [NumberOk]⟩

theorem ofInt_value {i : Int} (h1 : -2147483648 ≤ i) (h2 : i ≤ 2147483647) :
    floatValue (F64.ofInt i) = some (i : ℚ) := by
  unfold F64.ofInt
  by_cases hi : i < 0
  · rw [if_pos hi]
    obtain ⟨hlt, hv⟩ := ofNat_value (n := i.natAbs) (by omega)
    have hor : (BitVec.ofNat 64 (2 ^ 63) ||| F64.ofNat i.natAbs).toNat = 2 ^ 63 + (F64.ofNat i.natAbs).toNat := by
      rw [BitVec.toNat_or, BitVec.toNat_ofNat, Nat.mod_eq_of_lt (by norm_num)]
      have := Nat.two_pow_add_eq_or_of_lt hlt 1
      simpa using this.symm
    generalize F64.ofNat i.natAbs = x at *
    unfold floatValue at hv ⊢
    simp only [hor]
    have h1 : (2 ^ 63 + x.toNat) / 2 ^ 52 % 2 ^ 11 = x.toNat / 2 ^ 52 % 2 ^ 11 := by omega
    have h2 : (2 ^ 63 + x.toNat) % 2 ^ 52 = x.toNat % 2 ^ 52 := by omega
    rw [h1, h2, if_pos (show 2 ^ 63 ≤ 2 ^ 63 + x.toNat by omega)]
    simp only [if_neg (show ¬ 2 ^ 63 ≤ x.toNat by omega)] at hv
    have hcast : (i : ℚ) = -((i.natAbs : ℕ) : ℚ) := by
      have : i = -((i.natAbs : ℕ) : ℤ) := by omega
      have := congrArg (Int.cast : ℤ → ℚ) this
      rwa [Int.cast_neg, Int.cast_natCast] at this
    split at hv
    · cases hv
    · rename_i h3
      rw [if_neg h3]
      split at hv
      · rename_i h4
        rw [if_pos h4, hcast, ← Option.some.inj hv]
        congr 1; ring
      · rename_i h4
        rw [if_neg h4, hcast, ← Option.some.inj hv]
        congr 1; ring
  · rw [if_neg hi]
    have := (ofNat_value (n := i.natAbs) (by omega)).2
    rw [this]
    congr 1
    have : (i.natAbs : ℤ) = i := by omega
    rw [← Int.cast_natCast, this]

/-- A number that converts to a float keeps its value; floats always convert, unsigned integers exactly up to
`u32::MAX`, signed integers exactly in the range of `i32`. -/
theorem C69_number_to_float (n : Number) (hn : NumberOk n) :
    (∀ x, n.toF64 = some x → floatValue x = numberValue n) ∧
    (n.toF64 = none ↔
      (∃ k, n = .unsignedInt k ∧ 2 ^ 32 ≤ k) ∨ ∃ i, n = .signedInt i ∧ (i < -2 ^ 31 ∨ 2 ^ 31 ≤ i)) ∧
    (∀ x, n = .float x → n.toF64 = some x) := by
  have hm : u32Max = 2 ^ 32 - 1 := by decide
  cases n with
  | unsignedInt n =>
    simp only [Number.toF64]
    refine ⟨fun x h => ?_, ?_, by simp⟩
    · split at h
      · cases h; exact (ofNat_value (by omega)).2
      · cases h
    · split
      · simp only [reduceCtorEq, Number.unsignedInt.injEq, false_and, exists_false, or_false, false_iff]
        rintro ⟨k, rfl, h⟩; omega
      · simp only [true_iff]; exact .inl ⟨n, rfl, by omega⟩
  | signedInt i =>
    simp only [Number.toF64]
    refine ⟨fun x h => ?_, ?_, by simp⟩
    · split at h
      · rename_i hr; cases h; exact ofInt_value hr.1 hr.2
      · cases h
    · split
      · simp only [reduceCtorEq, Number.signedInt.injEq, false_and, exists_false, false_or, false_iff]
        rintro ⟨k, rfl, h⟩; omega
      · simp only [true_iff]; exact .inr ⟨i, rfl, by omega⟩
  | float x => simp [Number.toF64, numberValue]

example : (Number.signedInt (-3)).toF64 = some (BitVec.ofNat 64 0xC008000000000000) ∧
    (Number.unsignedInt (2 ^ 32)).toF64 = none := by decide

/-- A value converts to the number it is, a text to the number it denotes, and a boolean to 0 or 1. -/
theorem C69_value_to_number (ft : FloatText) (v : Value) (n : Number) :
    v.toNumber ft = .ok n ↔
      (∃ s, v = .string s ∧ NumberText ft s n) ∨ v = .number n ∨
        (v = .bool true ∧ n = .unsignedInt 1) ∨ (v = .bool false ∧ n = .unsignedInt 0) := by
  cases v with
  | string s => simp [Value.toNumber, C56_number_parse]
  | number m => simp [Value.toNumber]
  | bool b => cases b <;> simp [Value.toNumber, eq_comm]

example : (Number.signedInt 5).toU64 = .ok 5 := by rfl
example : (Number.unsignedInt (2 ^ 63)).toI64 = .error .tryFromInt := by decide
example : (Number.unsignedInt (2 ^ 32)).toF64 = none := by decide
example : (Number.signedInt (-3)).toF64 = some (BitVec.ofNat 64 0xC008000000000000) := by decide

end Props
