import Verif.Spec.Macros
import Verif.Spec.Platform

/- C104: the macros accept exactly the inputs they are documented for. -/

namespace Props
open Rust Compose Compose.Macros Spec

/-- `struct Limits { #[as_short(short)] soft: Option<u64>, hard: bool, #[as_short(default = d, if_fn = f)] rest: Rest }`. -/
def exampleStruct : List (FieldDecl String) := [
  ⟨"hard".toList, .path false false [.mk "bool".toList .none], [.other]⟩,
  ⟨"soft".toList, .path false false [.mk "Option".toList (.angle [.type (.path false false [.mk "u64".toList .none])])],
    [.other, .asShort [.short]]⟩,
  ⟨"rest".toList, .path false false [.mk "Rest".toList .none], [.asShort [.default (some "d")], .asShort [.ifFn (some "f")]]⟩]

variable {E : Type}

theorem attrRun_eq (attrs : List (FieldAttr E)) (st : AttrState E) :
    st.run attrs = (asShortEntries attrs).foldlM AttrState.entry st := by
  induction attrs generalizing st with
  | nil => rfl
  | cons a attrs ih =>
    cases a with
    | other => exact ih st
    | asShort entries =>
      show (match entries.foldlM AttrState.entry st with
        | .ok st => st.run attrs
        | .error e => .error e) = (entries ++ asShortEntries attrs).foldlM AttrState.entry st
      rw [List.foldlM_append]
      cases entries.foldlM AttrState.entry st with
      | error e => rfl
      | ok st' => exact ih st'

/-- The rest of `Attribute::from_syn` from a state on. -/
def attrFrom (st : AttrState E) (ms : List (AsShortMeta E)) : Except MacroError (AsShortAttr E) :=
  match ms.foldlM AttrState.entry st with
  | .error e => .error e
  | .ok st =>
    if st.short then
      if st.ifFn.isNone ∧ st.default.isNone then .ok .short
      else .error (.text "cannot mark a field as the `short` type and have `if_fn` or `default`")
    else .ok (.other st.ifFn st.default)

theorem attrFrom_cons (st : AttrState E) (m : AsShortMeta E) (ms : List (AsShortMeta E)) :
    attrFrom st (m :: ms) = (match st.entry m with
      | .ok st => attrFrom st ms
      | .error e => .error e) := by
  unfold attrFrom
  rw [List.foldlM_cons]
  cases st.entry m <;> rfl

theorem attrFrom_bad (ms : List (AsShortMeta E)) (st : AttrState E) (h1 : st.short = true)
    (h2 : st.ifFn.isSome = true ∨ st.default.isSome = true) (a : AsShortAttr E) : attrFrom st ms ≠ .ok a := by
  induction ms generalizing st with
  | nil =>
    obtain ⟨s, f, d⟩ := st
    cases h1
    rcases h2 with h | h
    · cases f with
      | none => cases h
      | some f => intro e; cases d <;> cases e
    · cases d with
      | none => cases h
      | some d => intro e; cases f <;> cases e
  | cons m ms ih =>
    rw [attrFrom_cons]
    obtain ⟨s, f, d⟩ := st
    cases h1
    rcases m with _ | (_ | v) | (_ | v) | _
    · intro e; cases e
    · intro e; cases f <;> cases e
    · cases f with
      | none => exact ih ⟨true, some v, d⟩ rfl (.inl rfl)
      | some f => intro e; cases e
    · intro e; cases d <;> cases e
    · cases d with
      | none => exact ih ⟨true, f, some v⟩ rfl (.inr rfl)
      | some f => intro e; cases e
    · intro e; cases e

/-- C104: the entries of the attributes of one field. -/
theorem C104_field (attrs : List (FieldAttr E)) (a : AsShortAttr E) :
    attributeFromSyn attrs = .ok a ↔
      (a = .short ∧ asShortEntries attrs = [.short]) ∨ ∃ f d, a = .other f d ∧ OtherEntries (asShortEntries attrs) f d := by
  have he : attributeFromSyn attrs = attrFrom {} (asShortEntries attrs) := by
    unfold attributeFromSyn attrFrom
    rw [attrRun_eq]
    cases (asShortEntries attrs).foldlM AttrState.entry {} <;> rfl
  rw [he]
  generalize asShortEntries attrs = ms
  constructor
  · intro h
    rcases ms with _ | ⟨m1, ms⟩
    · cases h; exact .inr ⟨_, _, rfl, .none⟩
    rw [attrFrom_cons] at h
    rcases m1 with _ | (_ | f) | (_ | d) | _
    · rcases ms with _ | ⟨m2, ms⟩
      · cases h; exact .inl ⟨rfl, rfl⟩
      exfalso
      change attrFrom ⟨true, none, none⟩ (m2 :: ms) = _ at h
      rw [attrFrom_cons] at h
      rcases m2 with _ | (_ | f) | (_ | d) | _
      · cases h
      · cases h
      · exact attrFrom_bad ms ⟨true, some f, none⟩ rfl (.inl rfl) a h
      · cases h
      · exact attrFrom_bad ms ⟨true, none, some d⟩ rfl (.inr rfl) a h
      · cases h
    · cases h
    · rcases ms with _ | ⟨m2, ms⟩
      · cases h; exact .inr ⟨_, _, rfl, .ifFn _⟩
      change attrFrom ⟨false, some f, none⟩ (m2 :: ms) = _ at h
      rw [attrFrom_cons] at h
      rcases m2 with _ | f' | (_ | d) | _
      · exact absurd h (attrFrom_bad ms ⟨true, some f, none⟩ rfl (.inl rfl) a)
      · cases h
      · cases h
      · rcases ms with _ | ⟨m3, ms⟩
        · cases h; exact .inr ⟨_, _, rfl, .ifFnDefault _ _⟩
        change attrFrom ⟨false, some f, some d⟩ (m3 :: ms) = _ at h
        rw [attrFrom_cons] at h
        rcases m3 with _ | _ | _ | _
        · exact absurd h (attrFrom_bad ms ⟨true, some f, some d⟩ rfl (.inl rfl) a)
        · cases h
        · cases h
        · cases h
      · cases h
    · cases h
    · rcases ms with _ | ⟨m2, ms⟩
      · cases h; exact .inr ⟨_, _, rfl, .default _⟩
      change attrFrom ⟨false, none, some d⟩ (m2 :: ms) = _ at h
      rw [attrFrom_cons] at h
      rcases m2 with _ | (_ | f) | _ | _
      · exact absurd h (attrFrom_bad ms ⟨true, none, some d⟩ rfl (.inr rfl) a)
      · cases h
      · rcases ms with _ | ⟨m3, ms⟩
        · cases h; exact .inr ⟨_, _, rfl, .defaultIfFn _ _⟩
        change attrFrom ⟨false, some f, some d⟩ (m3 :: ms) = _ at h
        rw [attrFrom_cons] at h
        rcases m3 with _ | _ | _ | _
        · exact absurd h (attrFrom_bad ms ⟨true, some f, some d⟩ rfl (.inl rfl) a)
        · cases h
        · cases h
        · cases h
      · cases h
      · cases h
    · cases h
  · rintro (⟨rfl, rfl⟩ | ⟨f, d, rfl, h⟩)
    · rfl
    · cases h <;> rfl

example : attributeFromSyn [.other, .asShort [.default (some "d"), .ifFn (some "f")]] = .ok (.other (some "f") (some "d")) := rfl

theorem optionType_iff (ty inner : TypeExpr) : optionType ty = some inner ↔ WrittenOption ty inner := by
  constructor
  · intro h
    unfold optionType at h
    split at h
    · split at h
      · split at h
        · cases h
        · rename_i lead _ ident args hn
          rw [not_or, not_not, not_not] at hn
          obtain ⟨h1, rfl⟩ := hn
          match args, h1 with
          | [a], _ =>
            cases a with
            | other => cases h
            | type ty => cases h; exact ⟨lead, rfl⟩
      · cases h
    · cases h
  · rintro ⟨lead, rfl⟩
    rfl

/-- C104: which types count as options and as `bool`. -/
theorem C104_option (ty : TypeExpr) :
    (∀ inner, optionType ty = some inner ↔ WrittenOption ty inner) ∧
      (isBool ty = true ↔ ty = .path false false [.mk "bool".toList .none]) := by
  refine ⟨optionType_iff ty, ?_, ?_⟩
  · intro h
    unfold isBool at h
    split at h
    · rw [decide_eq_true_eq] at h; rw [h]
    · cases h
  · rintro rfl; rfl

example : optionType (.path false false [.mk "Option".toList (.angle [.type .other])]) = some .other ∧
    optionType (.path false false [.mk "Vec".toList (.angle [.type .other])]) = none := ⟨rfl, rfl⟩

theorem shortOf_iff (field : FieldDecl E) (short : ShortField) :
    ShortField.new field.ident field.ty = short ↔ ShortOf field short := by
  unfold ShortField.new ShortOf
  cases h : optionType field.ty with
  | some inner =>
    have hw := (optionType_iff _ _).1 h
    constructor
    · rintro rfl; exact ⟨rfl, .inl ⟨rfl, hw⟩⟩
    · rintro ⟨h1, ⟨h2, h3⟩ | ⟨-, -, h4⟩⟩
      · have := (optionType_iff _ _).2 h3
        rw [h] at this
        cases this
        obtain ⟨a, b, c⟩ := short
        cases h1; cases h2; rfl
      · exact absurd ⟨_, hw⟩ h4
  | none =>
    have hw : ¬ ∃ inner, WrittenOption field.ty inner := by
      rintro ⟨inner, hi⟩
      rw [(optionType_iff _ _).2 hi] at h
      cases h
    constructor
    · rintro rfl; exact ⟨rfl, .inr ⟨rfl, rfl, hw⟩⟩
    · rintro ⟨h1, ⟨h2, h3⟩ | ⟨h2, h3, -⟩⟩
      · exact absurd ⟨_, h3⟩ hw
      · obtain ⟨a, b, c⟩ := short
        cases h1; cases h2; cases h3; rfl

theorem collectFields_some (fields : List (FieldDecl E)) (s : ShortField) (r : Option ShortField) (others : List (OtherDecl E)) :
    collectFields (some s) fields = .ok (r, others) ↔ r = some s ∧ List.Forall₂ KeptAs fields others := by
  induction fields generalizing others with
  | nil =>
    constructor
    · intro h; cases h; exact ⟨rfl, .nil⟩
    · rintro ⟨rfl, h⟩; cases h; rfl
  | cons f fields ih =>
    constructor
    · intro h
      unfold collectFields at h
      cases ha : attributeFromSyn f.attrs with
      | error e => rw [ha] at h; cases h
      | ok a =>
        rw [ha] at h
        rcases (C104_field _ _).1 ha with ⟨rfl, -⟩ | ⟨g, d, rfl, ho⟩
        · cases h
        · cases hc : collectFields (some s) fields with
          | error e => simp only [hc] at h; cases h
          | ok p =>
            obtain ⟨r', o'⟩ := p
            simp only [hc] at h
            cases h
            obtain ⟨rfl, hf⟩ := (ih _).1 hc
            exact ⟨rfl, .cons ⟨ho, rfl, rfl⟩ hf⟩
    · rintro ⟨rfl, h⟩
      cases h with
      | cons h1 h2 =>
        rename_i k others
        obtain ⟨hk, h3, h4⟩ := h1
        unfold collectFields
        rw [(C104_field _ _).2 (.inr ⟨_, _, rfl, hk⟩)]
        simp only [(ih others).2 ⟨rfl, h2⟩]
        obtain ⟨a, b, c, d⟩ := k
        cases h3; cases h4; rfl

theorem collectFields_none (fields : List (FieldDecl E)) (r : Option ShortField) (others : List (OtherDecl E)) :
    collectFields none fields = .ok (r, others) ↔
      (r = none ∧ List.Forall₂ KeptAs fields others) ∨
      ∃ before f after s, fields = before ++ f :: after ∧ IsShort f ∧ ShortOf f s ∧ r = some s ∧
        List.Forall₂ KeptAs (before ++ after) others := by
  induction fields generalizing others with
  | nil =>
    constructor
    · intro h; cases h; exact .inl ⟨rfl, .nil⟩
    · rintro (⟨rfl, h⟩ | ⟨b, f, a, s, h, -⟩)
      · cases h; rfl
      · simp at h
  | cons f fields ih =>
    constructor
    · intro h
      unfold collectFields at h
      cases ha : attributeFromSyn f.attrs with
      | error e => rw [ha] at h; cases h
      | ok a =>
        rw [ha] at h
        rcases (C104_field _ _).1 ha with ⟨rfl, hs⟩ | ⟨g, d, rfl, ho⟩
        · change collectFields (some (ShortField.new f.ident f.ty)) fields = _ at h
          obtain ⟨rfl, hf⟩ := (collectFields_some _ _ _ _).1 h
          exact .inr ⟨[], f, fields, _, rfl, hs, (shortOf_iff _ _).1 rfl, rfl, hf⟩
        · cases hc : collectFields none fields with
          | error e => simp only [hc] at h; cases h
          | ok p =>
            obtain ⟨r', o'⟩ := p
            simp only [hc] at h
            cases h
            rcases (ih _).1 hc with ⟨rfl, hf⟩ | ⟨b, x, a, s, rfl, h1, h2, rfl, hf⟩
            · exact .inl ⟨rfl, .cons ⟨ho, rfl, rfl⟩ hf⟩
            · exact .inr ⟨f :: b, x, a, s, rfl, h1, h2, rfl, .cons ⟨ho, rfl, rfl⟩ hf⟩
    · have kept : ∀ (k : OtherDecl E) (os : List (OtherDecl E)), KeptAs f k → collectFields none fields = .ok (r, os) →
          collectFields none (f :: fields) = .ok (r, k :: os) := by
        rintro k os ⟨hk, h3, h4⟩ hc
        unfold collectFields
        rw [(C104_field _ _).2 (.inr ⟨_, _, rfl, hk⟩)]
        simp only [hc]
        obtain ⟨a, b, c, d⟩ := k
        cases h3; cases h4; rfl
      rintro (⟨rfl, h⟩ | ⟨b, x, a, s, h, hx, hs, rfl, hf⟩)
      · cases h with
        | cons h1 h2 => exact kept _ _ h1 ((ih _).2 (.inl ⟨rfl, h2⟩))
      · cases b with
        | nil =>
          cases h
          unfold collectFields
          rw [(C104_field _ _).2 (.inl ⟨rfl, hx⟩)]
          change collectFields (some (ShortField.new f.ident f.ty)) fields = _
          rw [(shortOf_iff _ _).2 hs]
          exact (collectFields_some _ _ _ _).2 ⟨rfl, hf⟩
        | cons y b =>
          cases h
          cases hf with
          | cons h1 h2 => exact kept _ _ h1 ((ih _).2 (.inr ⟨b, x, a, s, rfl, hx, hs, rfl, h2⟩))

/-- C104: `AsShort` and `FromShort` accept a struct exactly if one field is marked as the short one and the others have well
formed entries, and then they know each field by its name, its type and its functions, in order. -/
theorem C104_as_short (data : Option (List (FieldDecl E))) (short : ShortField) (others : List (OtherDecl E)) :
    asShortFromSyn data = .ok (short, others) ↔
      ∃ before f after, data = some (before ++ f :: after) ∧ IsShort f ∧ ShortOf f short ∧
        List.Forall₂ KeptAs (before ++ after) others := by
  cases data with
  | none =>
    constructor
    · intro h; cases h
    · rintro ⟨b, f, a, h, -⟩; cases h
  | some fields =>
    have key : asShortFromSyn (some fields) = .ok (short, others) ↔ collectFields none fields = .ok (some short, others) := by
      unfold asShortFromSyn
      simp only []
      rcases collectFields none fields with e | ⟨_ | s, o⟩
      · exact ⟨fun h => (by cases h), fun h => (by cases h)⟩
      · exact ⟨fun h => (by cases h), fun h => (by cases h)⟩
      · exact ⟨fun h => (by cases h; rfl), fun h => (by cases h; rfl)⟩
    rw [key, collectFields_none]
    constructor
    · rintro (⟨h, -⟩ | ⟨b, f, a, s, rfl, h1, h2, h3, h4⟩)
      · cases h
      · cases h3; exact ⟨b, f, a, rfl, h1, h2, h4⟩
    · rintro ⟨b, f, a, h, h1, h2, h3⟩
      cases h
      exact .inr ⟨b, f, a, short, rfl, h1, h2, rfl, h3⟩

example : asShortFromSyn (some exampleStruct) =
  .ok (⟨"soft".toList, .path false false [.mk "u64".toList .none], true⟩,
    [⟨none, none, "hard".toList, .path false false [.mk "bool".toList .none]⟩,
     ⟨some "f", some "d", "rest".toList, .path false false [.mk "Rest".toList .none]⟩]) := rfl

/-- C104: which question is asked of a field. -/
theorem C104_question (field : OtherDecl E) :
    (∀ e, field.question = .given e ↔ field.ifFn = some e) ∧
    (field.question = .isNone ↔ field.ifFn = none ∧ ∃ inner, WrittenOption field.ty inner) ∧
    (field.question = .not ↔ field.ifFn = none ∧ field.ty = .path false false [.mk "bool".toList .none]) ∧
    (∀ ty, field.question = .isEmpty ty ↔ field.ifFn = none ∧ ty = field.ty ∧ (¬ ∃ inner, WrittenOption field.ty inner) ∧
      field.ty ≠ .path false false [.mk "bool".toList .none]) := by
  have ho : (optionType field.ty).isSome = true ↔ ∃ inner, WrittenOption field.ty inner := by
    rw [Option.isSome_iff_exists]
    exact ⟨fun ⟨i, h⟩ => ⟨i, (optionType_iff _ _).1 h⟩, fun ⟨i, h⟩ => ⟨i, (optionType_iff _ _).2 h⟩⟩
  have hb := (C104_option field.ty).2
  have excl : (∃ inner, WrittenOption field.ty inner) → field.ty ≠ .path false false [.mk "bool".toList .none] := by
    rintro ⟨i, l, h⟩ h'
    rw [h] at h'
    cases h'
  unfold OtherDecl.question
  generalize TypeExpr.path false false [.mk "bool".toList .none] = B at *
  cases field.ifFn with
  | some e => simp
  | none =>
    by_cases h1 : (optionType field.ty).isSome = true
    · have := ho.1 h1
      have h3 := excl this
      obtain ⟨inner, hi⟩ := this
      have this : ∃ inner, WrittenOption field.ty inner := ⟨inner, hi⟩
      simp only [h1, if_true]
      simp [this, h3]
    · have n1 := mt ho.2 h1
      simp only [h1, if_false]
      by_cases h2 : isBool field.ty = true
      · have := hb.1 h2
        simp only [h2, if_true]
        rw [this] at n1 ⊢
        simp only [Bool.false_eq_true, if_false]
        refine ⟨fun e => ⟨fun h => (by cases h), fun h => (by cases h)⟩, ⟨fun h => (by cases h), fun h => absurd h.2 n1⟩,
          ⟨fun _ => (by simp), fun _ => (by simp)⟩, fun ty => ⟨fun h => (by cases h), fun h => absurd rfl h.2.2.2⟩⟩
      · have n2 := mt hb.2 h2
        simp only [h2, Bool.false_eq_true, if_false]
        refine ⟨fun e => ⟨fun h => (by cases h), fun h => (by cases h)⟩, ⟨fun h => (by cases h), fun h => absurd h.2 n1⟩,
          ⟨fun h => (by cases h), fun h => absurd h.2 n2⟩, fun ty => ⟨fun h => ?_, fun h => ?_⟩⟩
        · cases h; exact ⟨by simp, rfl, n1, n2⟩
        · rw [h.2.1]

example : (⟨none, none, "hard".toList, .path false false [.mk "bool".toList .none]⟩ : OtherDecl String).question = .not := rfl

/-- C104: `Default` accepts a field exactly if it has no `default` attribute or one of the form `default = value`. -/
theorem C104_default (attrs : List (DefaultAttr E)) (d : Option E) :
    defaultFromSyn attrs = .ok d ↔
      (defaultEntries attrs = [] ∧ d = none) ∨ ∃ e, defaultEntries attrs = [some e] ∧ d = some e := by
  have after : ∀ (attrs : List (DefaultAttr E)) (e : E) (d : Option E),
      defaultRun (some e) attrs = .ok d ↔ defaultEntries attrs = [] ∧ d = some e := by
    intro attrs e d
    induction attrs with
    | nil =>
      constructor
      · intro h; cases h; exact ⟨rfl, rfl⟩
      · rintro ⟨-, rfl⟩; rfl
    | cons a attrs ih =>
      cases a with
      | other => exact ih
      | default v =>
        constructor
        · intro h; cases h
        · rintro ⟨h, -⟩; cases h
  unfold defaultFromSyn
  induction attrs with
  | nil =>
    constructor
    · intro h; cases h; exact .inl ⟨rfl, rfl⟩
    · rintro (⟨-, rfl⟩ | ⟨e, h, -⟩)
      · rfl
      · cases h
  | cons a attrs ih =>
    cases a with
    | other => exact ih
    | default v =>
      cases v with
      | none =>
        constructor
        · intro h; cases h
        · rintro (⟨h, -⟩ | ⟨e, h, -⟩) <;> cases h
      | some v =>
        change defaultRun (some v) attrs = _ ↔ (some v :: defaultEntries attrs = [] ∧ _) ∨ ∃ e, some v :: defaultEntries attrs = [some e] ∧ _
        rw [after]
        constructor
        · rintro ⟨h, rfl⟩; exact .inr ⟨v, by rw [h], rfl⟩
        · rintro (⟨h, -⟩ | ⟨e, h, rfl⟩)
          · cases h
          · rw [List.cons.injEq] at h
            obtain ⟨h1, h2⟩ := h
            cases h1
            exact ⟨h2, rfl⟩

example : defaultFromSyn [.other, .default (some "1"), .other] = .ok (some "1") := rfl

theorem expectingRun_eq (attrs : List TypeAttr) (e : Option Str) :
    expectingRun e attrs = (serdeEntries attrs).foldlM expectingEntry e := by
  induction attrs generalizing e with
  | nil => rfl
  | cons a attrs ih =>
    cases a with
    | other => exact ih e
    | serde entries =>
      show (match entries.foldlM expectingEntry e with
        | .ok e => expectingRun e attrs
        | .error e => .error e) = (entries ++ serdeEntries attrs).foldlM expectingEntry e
      rw [List.foldlM_append]
      cases entries.foldlM expectingEntry e with
      | error e => rfl
      | ok st' => exact ih st'

/-- C104: the serde macros accept exactly the types whose `serde` attributes have only `transparent` and at most one
`expecting = ".."`. -/
theorem C104_expecting (attrs : List TypeAttr) (x : Option Str) :
    parseExpecting attrs = .ok x ↔ SerdeMeta.unknown ∉ serdeEntries attrs ∧
      ((expectingValues attrs = [] ∧ x = none) ∨ ∃ s, expectingValues attrs = [some s] ∧ x = some s) := by
  unfold parseExpecting expectingValues
  rw [expectingRun_eq]
  generalize serdeEntries attrs = ms
  have cons : ∀ (m : SerdeMeta) (ms : List SerdeMeta) (e : Option Str), (m :: ms).foldlM expectingEntry e =
      (match expectingEntry e m with
        | .ok e => ms.foldlM expectingEntry e
        | .error err => .error err) := by
    intro m ms e
    rw [List.foldlM_cons]
    cases expectingEntry e m <;> rfl
  have after : ∀ (ms : List SerdeMeta) (s : Str), ms.foldlM expectingEntry (some s) = .ok x ↔ SerdeMeta.unknown ∉ ms ∧
      ms.filterMap expectingOf = [] ∧ x = some s := by
    intro ms s
    induction ms with
    | nil =>
      constructor
      · intro h; cases h; exact ⟨by simp, rfl, rfl⟩
      · rintro ⟨-, -, rfl⟩; rfl
    | cons m ms ih =>
      rw [cons]
      cases m with
      | expecting v =>
        constructor
        · intro h; cases h
        · rintro ⟨-, h, -⟩; cases h
      | transparent =>
        refine ih.trans ?_
        simp [expectingOf]
      | unknown =>
        constructor
        · intro h; cases h
        · rintro ⟨h, -⟩; simp at h
  induction ms with
  | nil =>
    constructor
    · intro h; cases h; exact ⟨by simp, .inl ⟨rfl, rfl⟩⟩
    · rintro ⟨-, ⟨-, rfl⟩ | ⟨s, h, -⟩⟩
      · rfl
      · cases h
  | cons m ms ih =>
    rw [cons]
    cases m with
    | expecting v =>
      cases v with
      | none =>
        constructor
        · intro h; cases h
        · rintro ⟨-, ⟨h, -⟩ | ⟨s, h, -⟩⟩ <;> cases h
      | some v =>
        refine (after ms v).trans ?_
        change _ ↔ SerdeMeta.unknown ∉ SerdeMeta.expecting (some v) :: ms ∧ ((some v :: ms.filterMap expectingOf = [] ∧ _) ∨
          ∃ s, some v :: ms.filterMap expectingOf = [some s] ∧ _)
        constructor
        · rintro ⟨h1, h2, rfl⟩
          exact ⟨by simp [h1], .inr ⟨v, by rw [h2], rfl⟩⟩
        · rintro ⟨h1, ⟨h, -⟩ | ⟨s, h, rfl⟩⟩
          · cases h
          · rw [List.cons.injEq] at h
            obtain ⟨h2, h3⟩ := h
            cases h2
            exact ⟨fun h => h1 (by simp [h]), h3, rfl⟩
    | transparent =>
      refine ih.trans ?_
      change _ ↔ SerdeMeta.unknown ∉ SerdeMeta.transparent :: ms ∧ ((ms.filterMap expectingOf = [] ∧ _) ∨
        ∃ s, ms.filterMap expectingOf = [some s] ∧ _)
      simp
    | unknown =>
      constructor
      · intro h; cases h
      · rintro ⟨h, -⟩; simp at h

example : parseExpecting [.serde [.transparent], .other, .serde [.expecting (some "a port".toList)]] =
  .ok (some "a port".toList) := rfl

/-! ### `platforms!` -/

/-- The definitions that are still to come after a state. -/
def needed (st : InputState) (T : PlatformTable) (otherArch : Option (List ArchItem)) (otherOs : Option (List OsItem)) :
    List Definition :=
  (if st.platform then [] else [.enum "Platform".toList .semicolon]) ++
  ((if st.os.isSome then [] else [.enum "Os".toList (.braces (some T.os) otherArch)]) ++
  ((if st.arch.isSome then [] else [.enum "Arch".toList (.braces otherOs (some T.arch))]) ++
  ((if st.parseError then [] else [.type "ParseError".toList]) ++
  (if st.tryFromArchError then [] else [.type "TryFromArchError".toList]))))

/-- `Input::parse` from a state on. -/
def parseFrom (st : InputState) (ds : List Definition) : Except MacroError PlatformTable :=
  match ds.foldlM InputState.definition st with
  | .error e => .error e
  | .ok st => st.finish

theorem parseFrom_cons (st : InputState) (d : Definition) (ds : List Definition) :
    parseFrom st (d :: ds) = (match st.definition d with
      | .ok st => parseFrom st ds
      | .error e => .error e) := by
  unfold parseFrom
  rw [List.foldlM_cons]
  cases st.definition d <;> rfl

theorem finish_ok (st : InputState) (T : PlatformTable) : st.finish = .ok T ↔
    st.platform = true ∧ st.os = some T.os ∧ st.arch = some T.arch ∧ st.parseError = true ∧ st.tryFromArchError = true := by
  obtain ⟨p, o, a, e, f⟩ := st
  obtain ⟨os, arch⟩ := T
  cases p <;> cases o <;> cases a <;> cases e <;> cases f <;> simp [InputState.finish]

/-- What the definition has to be, and what it changes. -/
theorem definition_ok (st st' : InputState) (d : Definition) : st.definition d = .ok st' ↔
    (d = .type "ParseError".toList ∧ st.parseError = false ∧ st' = { st with parseError := true }) ∨
    (d = .type "TryFromArchError".toList ∧ st.tryFromArchError = false ∧ st' = { st with tryFromArchError := true }) ∨
    (d = .enum "Platform".toList .semicolon ∧ st.platform = false ∧ st' = { st with platform := true }) ∨
    (∃ items x, d = .enum "Os".toList (.braces (some items) x) ∧ st.os = none ∧ st' = { st with os := some items }) ∨
    (∃ items x, d = .enum "Arch".toList (.braces x (some items)) ∧ st.arch = none ∧ st' = { st with arch := some items }) := by
  have n1 : "TryFromArchError".toList ≠ "ParseError".toList := by decide
  have n2 : "Os".toList ≠ "Platform".toList := by decide
  have n3 : "Arch".toList ≠ "Platform".toList := by decide
  have n4 : "Arch".toList ≠ "Os".toList := by decide
  constructor
  · intro h
    cases d with
    | type name =>
      dsimp only [InputState.definition] at h
      split at h
      · split at h
        · cases h
        · cases h; rename_i h1 h2; subst h1; exact .inl ⟨rfl, by simpa using h2, rfl⟩
      · split at h
        · split at h
          · cases h
          · cases h; rename_i h1 h2; subst h1; exact .inr (.inl ⟨rfl, by simpa using h2, rfl⟩)
        · cases h
    | enum name body =>
      dsimp only [InputState.definition] at h
      split at h
      · rename_i h1
        subst h1
        split at h
        · cases h
        · rename_i h2
          cases body with
          | semicolon => cases h; exact .inr (.inr (.inl ⟨rfl, by simpa using h2, rfl⟩))
          | braces => cases h
      · split at h
        · rename_i h1
          subst h1
          split at h
          · cases h
          · rename_i h2
            match body with
            | .semicolon => cases h
            | .braces none _ => cases h
            | .braces (some items) x => cases h; exact .inr (.inr (.inr (.inl ⟨items, x, rfl, by simpa using h2, rfl⟩)))
        · split at h
          · rename_i h1
            subst h1
            split at h
            · cases h
            · rename_i h2
              match body with
              | .semicolon => cases h
              | .braces _ none => cases h
              | .braces x (some items) => cases h; exact .inr (.inr (.inr (.inr ⟨items, x, rfl, by simpa using h2, rfl⟩)))
          · cases h
  · rintro (⟨rfl, h, rfl⟩ | ⟨rfl, h, rfl⟩ | ⟨rfl, h, rfl⟩ | ⟨items, x, rfl, h, rfl⟩ | ⟨items, x, rfl, h, rfl⟩) <;>
      dsimp only [InputState.definition]
    · rw [if_pos rfl, h]; rfl
    · rw [if_neg n1, if_pos rfl, h]; rfl
    · rw [if_pos rfl, h]; rfl
    · rw [if_neg n2, if_pos rfl, h]; rfl
    · rw [if_neg n3, if_neg n4, if_pos rfl, h]; rfl

theorem perm_lift {α : Type} {x : α} {L R : List α} (p : List α) (h : L.Perm (x :: R)) : (p ++ L).Perm (x :: (p ++ R)) :=
  (h.append_left p).trans List.perm_middle

theorem needed_step {st st' : InputState} {d : Definition} (T : PlatformTable) (x : Option (List ArchItem))
    (y : Option (List OsItem)) (hd : st.definition d = .ok st') (h1 : ∀ os, st'.os = some os → os = T.os)
    (h2 : ∀ arch, st'.arch = some arch → arch = T.arch) :
    ∃ x' y', (needed st T x' y').Perm (d :: needed st' T x y) := by
  rcases (definition_ok _ _ _).1 hd with ⟨rfl, h, rfl⟩ | ⟨rfl, h, rfl⟩ | ⟨rfl, h, rfl⟩ | ⟨items, z, rfl, h, rfl⟩ |
    ⟨items, z, rfl, h, rfl⟩
  · refine ⟨x, y, ?_⟩
    unfold needed
    rw [h]
    exact perm_lift _ (perm_lift _ (perm_lift _ (List.Perm.refl _)))
  · refine ⟨x, y, ?_⟩
    unfold needed
    rw [h]
    exact perm_lift _ (perm_lift _ (perm_lift _ (perm_lift _ (List.Perm.refl _))))
  · refine ⟨x, y, ?_⟩
    unfold needed
    rw [h]
    exact List.Perm.refl _
  · refine ⟨z, y, ?_⟩
    unfold needed
    rw [h, h1 items rfl]
    exact perm_lift _ (List.Perm.refl _)
  · refine ⟨x, z, ?_⟩
    unfold needed
    rw [h, h2 items rfl]
    exact perm_lift _ (perm_lift _ (List.Perm.refl _))

theorem mem_needed {st : InputState} {T : PlatformTable} {x : Option (List ArchItem)} {y : Option (List OsItem)}
    {d : Definition} (hd : d ∈ needed st T x y) (h1 : ∀ os, st.os = some os → os = T.os)
    (h2 : ∀ arch, st.arch = some arch → arch = T.arch) :
    ∃ st', st.definition d = .ok st' ∧ (∀ os, st'.os = some os → os = T.os) ∧ (∀ arch, st'.arch = some arch → arch = T.arch) ∧
      (needed st T x y).Perm (d :: needed st' T x y) := by
  unfold needed at hd
  simp only [List.mem_append] at hd
  rcases hd with hd | hd | hd | hd | hd
  · cases h : st.platform with
    | true => rw [h] at hd; cases hd
    | false =>
      rw [h] at hd
      rw [List.mem_singleton.1 hd]
      refine ⟨_, (definition_ok _ _ _).2 (.inr (.inr (.inl ⟨rfl, h, rfl⟩))), h1, h2, ?_⟩
      unfold needed
      rw [h]
      exact List.Perm.refl _
  · cases h : st.os with
    | some v => rw [h] at hd; cases hd
    | none =>
      rw [h] at hd
      rw [List.mem_singleton.1 hd]
      refine ⟨_, (definition_ok _ _ _).2 (.inr (.inr (.inr (.inl ⟨_, _, rfl, h, rfl⟩)))), fun _ e => (by cases e; rfl), h2, ?_⟩
      unfold needed
      rw [h]
      exact perm_lift _ (List.Perm.refl _)
  · cases h : st.arch with
    | some v => rw [h] at hd; cases hd
    | none =>
      rw [h] at hd
      rw [List.mem_singleton.1 hd]
      refine ⟨_, (definition_ok _ _ _).2 (.inr (.inr (.inr (.inr ⟨_, _, rfl, h, rfl⟩)))), h1, fun _ e => (by cases e; rfl), ?_⟩
      unfold needed
      rw [h]
      exact perm_lift _ (perm_lift _ (List.Perm.refl _))
  · cases h : st.parseError with
    | true => rw [h] at hd; cases hd
    | false =>
      rw [h] at hd
      rw [List.mem_singleton.1 hd]
      refine ⟨_, (definition_ok _ _ _).2 (.inl ⟨rfl, h, rfl⟩), h1, h2, ?_⟩
      unfold needed
      rw [h]
      exact perm_lift _ (perm_lift _ (perm_lift _ (List.Perm.refl _)))
  · cases h : st.tryFromArchError with
    | true => rw [h] at hd; cases hd
    | false =>
      rw [h] at hd
      rw [List.mem_singleton.1 hd]
      refine ⟨_, (definition_ok _ _ _).2 (.inr (.inl ⟨rfl, h, rfl⟩)), h1, h2, ?_⟩
      unfold needed
      rw [h]
      exact perm_lift _ (perm_lift _ (perm_lift _ (perm_lift _ (List.Perm.refl _))))

theorem parseFrom_ok (ds : List Definition) (st : InputState) (T : PlatformTable) : parseFrom st ds = .ok T ↔
    (∀ os, st.os = some os → os = T.os) ∧ (∀ arch, st.arch = some arch → arch = T.arch) ∧
      ∃ otherArch otherOs, ds.Perm (needed st T otherArch otherOs) := by
  induction ds generalizing st with
  | nil =>
    change st.finish = .ok T ↔ _
    rw [finish_ok]
    obtain ⟨p, o, a, e, f⟩ := st
    constructor
    · rintro ⟨rfl, rfl, rfl, rfl, rfl⟩
      exact ⟨fun _ h => (by cases h; rfl), fun _ h => (by cases h; rfl), none, none, by simp [needed]⟩
    · rintro ⟨h1, h2, x, y, h3⟩
      rw [List.nil_perm] at h3
      cases p <;> cases o <;> cases a <;> cases e <;> cases f <;> simp [needed] at h3
      simp_all
  | cons d ds ih =>
    rw [parseFrom_cons]
    constructor
    · intro h
      cases hd : st.definition d with
      | error e => rw [hd] at h; cases h
      | ok st' =>
        rw [hd] at h
        obtain ⟨h1, h2, x, y, h3⟩ := (ih st').1 h
        obtain ⟨x', y', h4⟩ := needed_step T x y hd h1 h2
        refine ⟨fun os ho => ?_, fun arch ha => ?_, x', y', (h3.cons d).trans h4.symm⟩
        · rcases (definition_ok _ _ _).1 hd with ⟨-, -, rfl⟩ | ⟨-, -, rfl⟩ | ⟨-, -, rfl⟩ | ⟨_, _, -, hh, rfl⟩ |
            ⟨_, _, -, -, rfl⟩
          · exact h1 os ho
          · exact h1 os ho
          · exact h1 os ho
          · rw [hh] at ho; cases ho
          · exact h1 os ho
        · rcases (definition_ok _ _ _).1 hd with ⟨-, -, rfl⟩ | ⟨-, -, rfl⟩ | ⟨-, -, rfl⟩ | ⟨_, _, -, -, rfl⟩ |
            ⟨_, _, -, hh, rfl⟩
          · exact h2 arch ha
          · exact h2 arch ha
          · exact h2 arch ha
          · exact h2 arch ha
          · rw [hh] at ha; cases ha
    · rintro ⟨h1, h2, x, y, h3⟩
      obtain ⟨st', hd, h1', h2', h4⟩ := mem_needed (h3.subset List.mem_cons_self) h1 h2
      rw [hd]
      exact (ih st').2 ⟨h1', h2', x, y, (h3.trans h4).cons_inv⟩

/-- C104: `platforms!` accepts exactly the five definitions in any order, and nothing else. -/
theorem C104_definitions (definitions : List Definition) (T : PlatformTable) :
    inputParse definitions = .ok T ↔ Defines definitions T := by
  have he : inputParse definitions = parseFrom {} definitions := by
    unfold inputParse parseFrom
    cases definitions.foldlM InputState.definition {} <;> rfl
  rw [he, parseFrom_ok]
  constructor
  · rintro ⟨-, -, x, y, h⟩; exact ⟨x, y, h⟩
  · rintro ⟨x, y, h⟩
    exact ⟨fun _ h => (by cases h), fun _ h => (by cases h), x, y, h⟩

theorem getArch_isNone (T : PlatformTable) (name : Str) : (T.getArch name).isNone = true ↔ ¬ ∃ a ∈ T.arch, a.name = name := by
  unfold PlatformTable.getArch
  rw [Option.isNone_iff_eq_none, List.find?_eq_none]
  simp

/-- C104: the table is then accepted exactly if each listed architecture is defined and each defined one is listed; an error
names each that is not. -/
theorem C104_archs (T : PlatformTable) :
    (toMapErrors T = [] ↔
      (∀ os ∈ T.os, ∀ name ∈ os.archs, ∃ a ∈ T.arch, a.name = name) ∧
      ∀ a ∈ T.arch, ∃ os ∈ T.os, a.name ∈ os.archs) ∧
    ∀ message name, (message, name) ∈ toMapErrors T ↔
      (message = "undefined arch" ∧ (∃ os ∈ T.os, name ∈ os.archs) ∧ ¬ ∃ a ∈ T.arch, a.name = name) ∨
      (message = "unused arch" ∧ (∃ a ∈ T.arch, a.name = name) ∧ ¬ ∃ os ∈ T.os, name ∈ os.archs) := by
  have mem : ∀ message name, (message, name) ∈ toMapErrors T ↔
      (message = "undefined arch" ∧ (∃ os ∈ T.os, name ∈ os.archs) ∧ ¬ ∃ a ∈ T.arch, a.name = name) ∨
      (message = "unused arch" ∧ (∃ a ∈ T.arch, a.name = name) ∧ ¬ ∃ os ∈ T.os, name ∈ os.archs) := by
    intro message name
    unfold toMapErrors
    simp only [List.mem_append, List.mem_map, List.mem_filter, List.mem_flatMap, getArch_isNone, Prod.mk.injEq,
      Bool.not_eq_true', List.contains_eq_mem, decide_eq_false_iff_not]
    constructor
    · rintro (⟨n, ⟨h1, h2⟩, rfl, rfl⟩ | ⟨n, ⟨h1, h2⟩, rfl, rfl⟩)
      · exact .inl ⟨rfl, h1, h2⟩
      · exact .inr ⟨rfl, h1, h2⟩
    · rintro (⟨rfl, h1, h2⟩ | ⟨rfl, h1, h2⟩)
      · exact .inl ⟨name, ⟨h1, h2⟩, rfl, rfl⟩
      · exact .inr ⟨name, ⟨h1, h2⟩, rfl, rfl⟩
  refine ⟨?_, mem⟩
  rw [List.eq_nil_iff_forall_not_mem]
  constructor
  · intro h
    refine ⟨fun os ho name hn => ?_, fun a ha => ?_⟩
    · by_contra hc
      exact h _ ((mem "undefined arch" name).2 (.inl ⟨rfl, ⟨os, ho, hn⟩, hc⟩))
    · by_contra hc
      exact h _ ((mem "unused arch" a.name).2 (.inr ⟨rfl, ⟨a, ha, rfl⟩, hc⟩))
  · rintro ⟨h1, h2⟩ ⟨message, name⟩ hm
    rcases (mem message name).1 hm with ⟨-, ⟨os, ho, hn⟩, hc⟩ | ⟨-, ⟨a, ha, rfl⟩, hc⟩
    · exact hc (h1 os ho name hn)
    · exact hc (h2 a ha)

example : toMapErrors ⟨[⟨"Linux".toList, "linux".toList, ["amd64".toList]⟩], [⟨"Arm".toList, "arm".toList, none⟩]⟩ =
  [("undefined arch", "amd64".toList), ("unused arch", "arm".toList)] := by decide +kernel

theorem osArms_eq (T : PlatformTable) (os : OsItem) (names : List Str) (h : ∀ n ∈ names, ∃ a ∈ T.arch, a.name = n) :
    osArms T os names = .ok (names.flatMap fun name =>
      match T.getArch name with
      | some item => item.strArms.map fun arm => (⟨os.ident, some arm.1⟩, slash os.name arm.2)
      | none => []) := by
  induction names with
  | nil => rfl
  | cons n names ih =>
    unfold osArms mapGet
    cases hg : T.getArch n with
    | none =>
      have := (getArch_isNone T n).1 (by rw [hg]; rfl)
      exact absurd (h n (by simp)) this
    | some item =>
      simp only [ih fun m hm => h m (by simp [hm]), List.flatMap_cons, hg]

/-- C104: the expansion never panics; it ends with the errors above or with the arms that C49 is about. -/
theorem C104_expand (T : PlatformTable) :
    expand T = (if toMapErrors T = [] then .ok T.asStrArms else .err (toMapErrors T)) ∧ expand T ≠ .panic := by
  have key : expand T = (if toMapErrors T = [] then .ok T.asStrArms else .err (toMapErrors T)) := by
    unfold expand
    cases he : toMapErrors T with
    | cons e es => rfl
    | nil =>
      rw [if_pos rfl]
      have hd := ((C104_archs T).1.1 he).1
      unfold PlatformTable.asStrArms
      suffices ∀ l : List OsItem, (∀ os ∈ l, ∀ name ∈ os.archs, ∃ a ∈ T.arch, a.name = name) →
          allArms T l = .ok (l.flatMap T.osAsStrArms) from this T.os hd
      intro l hl
      induction l with
      | nil => rfl
      | cons os l ih =>
        unfold allArms
        rw [osArms_eq T os os.archs (hl os (by simp))]
        simp only [ih fun o ho => hl o (by simp [ho])]
        rfl
  refine ⟨key, ?_⟩
  rw [key]
  split <;> exact fun h => (by cases h)

example : expand platforms = .ok platforms.asStrArms :=
  (C104_expand _).1.trans (if_pos (by decide +kernel))

/-- C105 is false for the code: there is an `or` before the first name too. -/
theorem C105_expected_false : ¬ ∀ names, names ≠ [] → peekIdentError names = expectedMessage names := by
  intro h
  exact absurd (h ["Platform".toList, "Os".toList, "Arch".toList] (by decide)) (by decide)

/-- C105, what the message is: `or` before each name, and all names, in order. -/
theorem C105_expected_partial (names : List Str) :
    peekIdentError names = "expected".toList ++ names.flatMap fun n => " or `".toList ++ n ++ "`".toList := by
  unfold peekIdentError
  have h0 : "expected".toList ≠ [] := by decide
  generalize "expected".toList = m at h0 ⊢
  generalize "expected `".toList = other
  induction names generalizing m with
  | nil => simp
  | cons n names ih =>
    rw [List.foldl_cons, List.flatMap_cons, ih _ (by simp [h0])]
    have : m.isEmpty = false := by cases m with
      | nil => exact absurd rfl h0
      | cons => rfl
    rw [this]
    simp only [Bool.false_eq_true, if_false, List.append_assoc]

/-! ### Examples -/

example : asShortFromSyn (some (exampleStruct ++ exampleStruct)) = .error (.text "duplicate `short`") := by rfl
example : asShortFromSyn (some (exampleStruct.take 1)) = .error (.text "missing `short` field") := by rfl
example : IsShort (exampleStruct[1]'(by decide)) := rfl
example : OtherEntries (asShortEntries (exampleStruct[2]'(by decide)).attrs) (some "f") (some "d") := .defaultIfFn _ _
example : defaultFromSyn [.default (some "1"), .default (some "2")] = .error (.text "duplicate `default` attribute") := by rfl

/-- The five definitions of the one use of `platforms!`, in another order. -/
def exampleDefinitions : List Definition := [
  .type "TryFromArchError".toList, .enum "Arch".toList (.braces none (some platforms.arch)),
  .enum "Platform".toList .semicolon, .type "ParseError".toList, .enum "Os".toList (.braces (some platforms.os) none)]

example : inputParse exampleDefinitions = .ok platforms := by rfl
example : Defines exampleDefinitions platforms := (C104_definitions _ _).1 rfl
example : inputParse (exampleDefinitions.take 4) = .error (.text "missing `Os`") := by rfl
example : toMapErrors platforms = [] := by decide +kernel
example : peekIdentError ["A".toList, "B".toList] = "expected or `A` or `B`".toList := by decide

end Props
