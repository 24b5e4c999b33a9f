import Verif.Props.Common
import Verif.Props.Keys
import Mathlib.Data.List.Infix

namespace Props
open Rust Compose Spec Re

/-! ### First occurrences and tables -/

section
variable {α : Type} [DecidableEq α]

theorem mem_firsts {l : List α} {x : α} : x ∈ firsts l ↔ x ∈ l := by
  induction l with
  | nil => simp [firsts]
  | cons y l ih =>
    simp only [firsts, List.mem_cons, List.mem_filter, ih, decide_eq_true_eq]
    by_cases h : x = y <;> simp [h]

theorem nodup_firsts (l : List α) : (firsts l).Nodup := by
  induction l with
  | nil => simp [firsts]
  | cons y l ih =>
    rw [firsts, List.nodup_cons]
    exact ⟨by simp, ih.filter _⟩

theorem firsts_nodup {l : List α} (h : l.Nodup) : firsts l = l := by
  induction l with
  | nil => rfl
  | cons y l ih =>
    rw [List.nodup_cons] at h
    rw [firsts, ih h.2, List.filter_eq_self.2]
    intro x hx
    simp only [decide_eq_true_eq]
    rintro rfl
    exact h.1 hx

theorem length_firsts_le (l : List α) : (firsts l).length ≤ l.length := by
  induction l with
  | nil => simp [firsts]
  | cons y l ih =>
    have := List.length_filter_le (fun x => decide (x ≠ y)) (firsts l)
    simp only [firsts, List.length_cons]
    omega

theorem nodup_of_length_firsts {l : List α} (h : (firsts l).length = l.length) : l.Nodup := by
  induction l with
  | nil => simp
  | cons y l ih =>
    have h1 := List.length_filter_le (fun x => decide (x ≠ y)) (firsts l)
    have h2 := length_firsts_le l
    simp only [firsts, List.length_cons] at h
    have h3 := ih (by omega)
    rw [List.nodup_cons]
    refine ⟨fun hm => ?_, h3⟩
    have : ((firsts l).filter (fun x => decide (x ≠ y))).length < (firsts l).length := by
      rw [List.length_filter_lt_length_iff_exists]
      exact ⟨y, mem_firsts.2 hm, by simp⟩
    omega

theorem foldl_firsts (l acc : List α) :
    l.foldl (fun acc k => if k ∈ acc then acc else acc ++ [k]) acc = acc ++ (firsts l).filter (· ∉ acc) := by
  induction l generalizing acc with
  | nil => simp [firsts]
  | cons k l ih =>
    rw [List.foldl_cons, ih, firsts]
    by_cases hk : k ∈ acc
    · rw [if_pos hk, List.filter_cons_of_neg (by simpa using hk), List.filter_filter]
      congr 1
      apply List.filter_congr
      intro x _
      by_cases hx : x ∈ acc
      · simp [hx]
      · have : x ≠ k := by rintro rfl; exact hx hk
        simp [hx, this]
    · rw [if_neg hk, List.filter_cons_of_pos (by simpa using hk), List.filter_filter, List.append_assoc]
      congr 1
      rw [List.singleton_append]
      congr 1
      apply List.filter_congr
      intro x _
      by_cases hx : x ∈ acc <;> by_cases hxk : x = k <;> simp [hx, hxk]

theorem indexSet_collect (l : List α) : IndexSet.collect l = firsts l := by
  have := foldl_firsts l []
  simp only [List.not_mem_nil, not_false_eq_true, decide_true, List.filter_true, List.nil_append] at this
  exact this

theorem keys_collect {V : Type} (es : List (α × V)) : (IndexMap.collect es).map (·.1) = firsts (es.map (·.1)) := by
  have key : ∀ (es : List (α × V)) (m : IndexMap α V),
      (es.foldl (fun m e => IndexMap.insert m e.1 e.2) m).map (·.1) =
        (es.map (·.1)).foldl (fun acc k => if k ∈ acc then acc else acc ++ [k]) (m.map (·.1)) := by
    intro es
    induction es with
    | nil => intro m; rfl
    | cons e es ih =>
      intro m
      rw [List.foldl_cons, ih, IndexMap.keys_insert]
      rfl
  have := key es []
  rw [foldl_firsts] at this
  simpa [IndexMap.collect] using this

theorem mem_collect {V : Type} {es : List (α × V)} {k : α} {v : V} :
    (k, v) ∈ IndexMap.collect es ↔ ∃ before after, es = before ++ (k, v) :: after ∧ k ∉ after.map (·.1) := by
  rw [← IndexMap.get_eq_some (IndexMap.ok_collect es), IndexMap.get_collect, Option.map_eq_some_iff]
  constructor
  · rintro ⟨⟨k', v'⟩, h, rfl⟩
    rw [List.find?_eq_some_iff_append] at h
    obtain ⟨h1, a, b, h2, h3⟩ := h
    simp only [decide_eq_true_eq] at h1
    subst h1
    refine ⟨b.reverse, a.reverse, ?_, ?_⟩
    · have := congrArg List.reverse h2
      simpa using this
    · intro hm
      rw [List.mem_map] at hm
      obtain ⟨x, hx, hx'⟩ := hm
      have := h3 x (by simpa using hx)
      simp [hx'] at this
  · rintro ⟨before, after, rfl, h⟩
    refine ⟨(k, v), ?_, rfl⟩
    rw [List.find?_eq_some_iff_append]
    refine ⟨by simp, after.reverse, before.reverse, by simp, ?_⟩
    intro x hx
    simp only [Bool.not_eq_true', decide_eq_false_iff_not]
    rintro rfl
    exact h (List.mem_map.2 ⟨x, by simpa using hx, rfl⟩)

/-- Collecting entries gives their table. -/
theorem table_collect {V : Type} (es : List (α × V)) : Table es (IndexMap.collect es) :=
  ⟨keys_collect es, fun _ _ => mem_collect⟩

theorem eq_of_keys {V : Type} {m m' : List (α × V)} (hk : m.map (·.1) = m'.map (·.1)) (hn : (m.map (·.1)).Nodup)
    (h : ∀ e ∈ m, e ∈ m') : m = m' := by
  have hn' : (m'.map (·.1)).Nodup := hk ▸ hn
  apply List.ext_getElem?
  intro i
  have hi := congrArg (·[i]?) hk
  simp only [List.getElem?_map] at hi
  cases h1 : m[i]? with
  | none => rw [h1] at hi; cases h2 : m'[i]? with
    | none => rfl
    | some y => rw [h2] at hi; simp at hi
  | some x =>
    rw [h1] at hi
    cases h2 : m'[i]? with
    | none => rw [h2] at hi; simp at hi
    | some y =>
      rw [h2] at hi
      simp only [Option.map_some, Option.some.injEq] at hi
      congr 1
      have hx : x ∈ m' := h x (List.mem_of_getElem? h1)
      exact List.inj_on_of_nodup_map hn' hx (List.mem_of_getElem? h2) hi

theorem table_iff {V : Type} {es m : List (α × V)} : Table es m ↔ m = IndexMap.collect es := by
  constructor
  · rintro ⟨h1, h2⟩
    refine eq_of_keys (by rw [h1, keys_collect]) (by rw [h1]; exact nodup_firsts _) ?_
    rintro ⟨k, v⟩ he
    exact mem_collect.2 ((h2 k v).1 he)
  · rintro rfl; exact table_collect es

end

theorem collectResult_ok {A B E : Type} {f : A → Except E B} {as : List A} {bs : List B} :
    collectResult f as = .ok bs ↔ List.Forall₂ (fun a b => f a = .ok b) as bs := by
  induction as generalizing bs with
  | nil => cases bs <;> simp [collectResult]
  | cons a as ih =>
    rw [collectResult]
    cases ha : f a with
    | error e =>
      simp only [reduceCtorEq, false_iff]
      intro h; cases h with | cons h _ => rw [ha] at h; cases h
    | ok b =>
      simp only
      cases hr : collectResult f as with
      | error e =>
        simp only [reduceCtorEq, false_iff]
        intro h; cases h with | cons _ h => rw [ih.2 h] at hr; cases hr
      | ok cs =>
        simp only [Except.ok.injEq]
        constructor
        · rintro rfl; exact .cons ha (ih.1 hr)
        · intro h
          cases h with
          | cons h1 h2 =>
            rw [ha] at h1; cases h1
            rw [ih.2 h2] at hr; cases hr; rfl

theorem collectResult_error {A B E : Type} {f : A → Except E B} {as : List A} {e : E} :
    collectResult f as = .error e ↔
      ∃ before a after, as = before ++ a :: after ∧ (∀ x ∈ before, ∃ b, f x = .ok b) ∧ f a = .error e := by
  induction as with
  | nil => simp [collectResult]
  | cons a as ih =>
    rw [collectResult]
    cases ha : f a with
    | error e' =>
      simp only [Except.error.injEq]
      constructor
      · rintro rfl; exact ⟨[], a, as, rfl, by simp, ha⟩
      · rintro ⟨before, x, after, h1, h2, h3⟩
        cases before with
        | nil => cases h1; rw [ha] at h3; cases h3; rfl
        | cons y before =>
          cases h1
          obtain ⟨b, hb⟩ := h2 a (by simp)
          rw [ha] at hb; cases hb
    | ok b =>
      simp only
      refine Iff.trans (b := collectResult f as = .error e) (by cases collectResult f as <;> simp) ?_
      rw [ih]
      constructor
      · rintro ⟨before, x, after, rfl, h2, h3⟩
        exact ⟨a :: before, x, after, rfl, by
          intro y hy
          rcases List.mem_cons.1 hy with rfl | hy
          · exact ⟨b, ha⟩
          · exact h2 y hy, h3⟩
      · rintro ⟨before, x, after, h1, h2, h3⟩
        cases before with
        | nil => cases h1; rw [ha] at h3; cases h3
        | cons y before =>
          cases h1
          exact ⟨before, x, after, rfl, fun z hz => h2 z (by simp [hz]), h3⟩

/-! ### C55: lists and maps -/

theorem itemEntry_iff {ft : FloatText} {ds : List Char} {item : Str} {e : Str × Option Value} :
    ListOrMap.itemEntry ft ds item = .ok e ↔ ItemEntry ft ds item e := by
  unfold ListOrMap.itemEntry ListOrMap.splitItem
  cases hs : splitOnceAny ds item with
  | none =>
    rw [splitOnceAny_eq_none] at hs
    simp only [ListOrMap.itemValue]
    constructor
    · intro h
      cases hk : mapKeyNew item with
      | error e' => rw [hk] at h; cases h
      | ok k =>
        rw [hk] at h
        obtain ⟨h1, rfl⟩ := (C03_map_key_accepts _ _).1 hk
        cases h
        exact .key hs h1
    · intro h
      cases h with
      | key h1 h2 => rw [(C03_map_key_accepts _ _).2 ⟨h2, rfl⟩]
      | noValue h1 h2 h3 => exact absurd h2 (hs _ (by simp))
      | keyValue h1 h2 h3 => exact absurd h2 (hs _ (by simp))
  | some ab =>
    obtain ⟨a, b⟩ := ab
    obtain ⟨c, hc, rfl, ha⟩ := splitOnceAny_eq_some.1 hs
    simp only [ListOrMap.itemValue]
    constructor
    · intro h
      cases hk : mapKeyNew a with
      | error e' => rw [hk] at h; cases h
      | ok k =>
        rw [hk] at h
        obtain ⟨h1, rfl⟩ := (C03_map_key_accepts _ _).1 hk
        by_cases hb : b = []
        · simp only [hb, if_true, Except.ok.injEq] at h; subst h; subst hb; exact .noValue ha hc h1
        · simp only [hb, if_false, Except.ok.injEq] at h; subst h
          exact .keyValue ha hc h1 hb ((C56_value_parse ft b _).1 rfl)
    · intro h
      generalize hi : a ++ c :: b = item at h
      cases h with
      | key h1 h2 => subst hi; exact absurd hc (h1 c (by simp))
      | @noValue k d h1 h2 h3 =>
        have h0 := (splitOnceAny_eq_some (cs := ds) (s := k ++ [d]) (a := k) (b := [])).2 ⟨d, h2, rfl, h1⟩
        rw [← hi, hs] at h0
        cases h0
        rw [(C03_map_key_accepts _ _).2 ⟨h3, rfl⟩]
        rfl
      | @keyValue k t d v h1 h2 h3 h4 h5 =>
        have h0 := (splitOnceAny_eq_some (cs := ds) (s := k ++ d :: t) (a := k) (b := t)).2 ⟨d, h2, rfl, h1⟩
        rw [← hi, hs] at h0
        cases h0
        rw [(C03_map_key_accepts _ _).2 ⟨h3, rfl⟩]
        simp only [h4, if_false]
        rw [(C56_value_parse ft b v).2 h5]

/-- A map is itself; a list is the table of its items, each split at its first delimiter. -/
theorem C55_into_map (ft : FloatText) (delimiters : List Char) (x : ListOrMap) (m : OptionMap) :
    x.intoMapSplitOn ft delimiters = .ok m ↔
      x = .map m ∨ ∃ l entries, x = .list l ∧ List.Forall₂ (ItemEntry ft delimiters) l entries ∧ Table entries m := by
  cases x with
  | map m' => simp [ListOrMap.intoMapSplitOn]
  | list l =>
    simp only [ListOrMap.intoMapSplitOn, reduceCtorEq, false_or, ListOrMap.list.injEq, exists_and_left,
      exists_eq_left']
    have hf : ∀ entries, List.Forall₂ (ItemEntry ft delimiters) l entries ↔
        collectResult (ListOrMap.itemEntry ft delimiters) l = .ok entries := by
      intro entries
      rw [collectResult_ok]
      exact ⟨fun h => h.imp fun _ _ h => itemEntry_iff.2 h, fun h => h.imp fun _ _ h => itemEntry_iff.1 h⟩
    cases hr : collectResult (ListOrMap.itemEntry ft delimiters) l with
    | error e =>
      simp only [reduceCtorEq, false_iff]
      rintro ⟨entries, h1, -⟩
      rw [hf, hr] at h1; cases h1
    | ok entries =>
      simp only [Except.ok.injEq]
      constructor
      · rintro rfl; exact ⟨entries, (hf _).2 hr, table_collect _⟩
      · rintro ⟨entries', h1, h2⟩
        rw [hf, hr] at h1
        cases h1
        exact (table_iff.1 h2).symm

example : ∃ entries, List.Forall₂ (ItemEntry exampleFloat ['=']) ["A=1".toList, "B".toList, "A=x=y".toList] entries ∧
    Table entries [("A".toList, some (.string "x=y".toList)), ("B".toList, none)] := by
  rcases (C55_into_map exampleFloat ['='] (.list ["A=1".toList, "B".toList, "A=x=y".toList])
    [("A".toList, some (.string "x=y".toList)), ("B".toList, none)]).1 (by decide) with h | ⟨l, es, h, hf⟩
  · cases h
  · cases h
    exact ⟨es, hf⟩

/-- The text before the first delimiter. -/
def keyPart (delimiters : List Char) (item : Str) : Str := item.takeWhile (· ∉ delimiters)

theorem splitItem_key (ds : List Char) (item : Str) : (ListOrMap.splitItem ds item).1 = keyPart ds item := by
  unfold ListOrMap.splitItem keyPart
  cases hs : splitOnceAny ds item with
  | none =>
    rw [splitOnceAny_eq_none] at hs
    simp only
    rw [List.takeWhile_eq_self_iff.2]
    intro x hx; simpa using hs x hx
  | some ab =>
    obtain ⟨a, b⟩ := ab
    obtain ⟨c, hc, rfl, ha⟩ := splitOnceAny_eq_some.1 hs
    simp only
    rw [List.takeWhile_append_of_pos (by intro x hx; simpa using ha x hx), List.takeWhile_cons_of_neg (by simpa using hc)]
    simp

/-- Conversion to a map fails exactly when the text of an item before its first delimiter is not a valid key, with the
error of the first such item. -/
theorem C55_into_map_error (ft : FloatText) (delimiters : List Char) (x : ListOrMap) (e : MapKeyError) :
    x.intoMapSplitOn ft delimiters = .error e ↔
      ∃ before item after, x = .list (before ++ item :: after) ∧
        (∀ i ∈ before, MapKey (keyPart delimiters i)) ∧ mapKeyNew (keyPart delimiters item) = .error e := by
  have hiff : ∀ item, (∃ b, ListOrMap.itemEntry ft delimiters item = .ok b) ↔ MapKey (keyPart delimiters item) := by
    intro item
    unfold ListOrMap.itemEntry
    rw [splitItem_key]
    cases hk : mapKeyNew (keyPart delimiters item) with
    | error e =>
      simp only [reduceCtorEq, exists_false, false_iff]
      intro h
      rw [(C03_map_key_accepts _ _).2 ⟨h, rfl⟩] at hk; cases hk
    | ok k =>
      simp only [Except.ok.injEq, exists_eq', true_iff]
      exact ((C03_map_key_accepts _ _).1 hk).1
  have herr : ∀ item, ListOrMap.itemEntry ft delimiters item = .error e ↔
      mapKeyNew (keyPart delimiters item) = .error e := by
    intro item
    unfold ListOrMap.itemEntry
    rw [splitItem_key]
    cases mapKeyNew (keyPart delimiters item) <;> simp
  cases x with
  | map m => simp [ListOrMap.intoMapSplitOn]
  | list l =>
    simp only [ListOrMap.intoMapSplitOn, ListOrMap.list.injEq]
    refine Iff.trans (b := collectResult (ListOrMap.itemEntry ft delimiters) l = .error e)
      (by cases collectResult (ListOrMap.itemEntry ft delimiters) l <;> simp) ?_
    rw [collectResult_error]
    simp only [hiff, herr]

example : ListOrMap.intoMapSplitOn exampleFloat ['='] (.list ["A=1".toList, "=x".toList, "B".toList]) = .error .empty :=
  (C55_into_map_error _ _ _ _).2 ⟨["A=1".toList], "=x".toList, ["B".toList], rfl,
    (by
      intro i hi
      simp only [List.mem_singleton] at hi
      subst hi
      exact ⟨by decide, by decide⟩), rfl⟩

theorem itemText_iff {ft : FloatText} {e : Str × Option Value} {t : Str} :
    EntryText ft e t ↔ t = ListOrMap.itemText ft e := by
  constructor
  · intro h; cases h <;> simp [ListOrMap.itemText]
  · rintro rfl
    obtain ⟨k, v⟩ := e
    cases v with
    | none => exact .key
    | some v => have := EntryText.keyValue (ft := ft) (k := k) (v := v); simpa [ListOrMap.itemText] using this

/-- A list is itself; a map is the list of the texts of its entries, without repetition. -/
theorem C55_into_list (ft : FloatText) (x : ListOrMap) (l : List Str) :
    x.intoList ft = l ↔
      x = .list l ∨ ∃ m texts, x = .map m ∧ List.Forall₂ (EntryText ft) m texts ∧ l = firsts texts := by
  cases x with
  | list l' => simp [ListOrMap.intoList]
  | map m =>
    simp only [ListOrMap.intoList, reduceCtorEq, false_or, ListOrMap.map.injEq, exists_and_left, exists_eq_left']
    rw [indexSet_collect]
    constructor
    · rintro rfl
      refine ⟨m.map (ListOrMap.itemText ft), ?_, rfl⟩
      rw [List.forall₂_map_right_iff, List.forall₂_same]
      intro e _; exact itemText_iff.2 rfl
    · rintro ⟨texts, h, rfl⟩
      have : texts = m.map (ListOrMap.itemText ft) := by
        clear * - h
        induction h with
        | nil => rfl
        | cons h _ ih => rw [List.map_cons, itemText_iff.1 h, ih]
      rw [this]

example : ∃ texts, List.Forall₂ (EntryText exampleFloat)
    [("A".toList, some (.number (.unsignedInt 1))), ("B".toList, none)] texts ∧ ["A=1".toList, "B".toList] = firsts texts := by
  rcases (C55_into_list exampleFloat (.map [("A".toList, some (.number (.unsignedInt 1))), ("B".toList, none)])
    ["A=1".toList, "B".toList]).1 (by decide) with
    h | ⟨m, ts, h, hf⟩
  · cases h
  · cases h
    exact ⟨ts, hf⟩

theorem itemEntry_itemText {ft : FloatText} {k : Str} {v : Option Value} (hk : MapKey k) (he : '=' ∉ k) :
    ListOrMap.itemEntry ft ['='] (ListOrMap.itemText ft (k, v)) =
      .ok (k, ListOrMap.itemValue ft (v.map (Value.show ft))) := by
  have hk' := (C03_map_key_accepts k k).2 ⟨hk, rfl⟩
  have hne : ∀ c ∈ k, c ∉ ['='] := by
    intro c hc; simp only [List.mem_singleton]; rintro rfl; exact he hc
  cases v with
  | none =>
    unfold ListOrMap.itemEntry ListOrMap.splitItem ListOrMap.itemText
    simp only
    rw [splitOnceAny_eq_none.2 hne]
    simp only
    rw [hk']
    rfl
  | some w =>
    unfold ListOrMap.itemEntry ListOrMap.splitItem ListOrMap.itemText
    simp only
    rw [(splitOnceAny_eq_some (cs := ['=']) (a := k) (b := w.show ft)).2 ⟨'=', by simp, rfl, hne⟩]
    simp only
    rw [hk']
    rfl

theorem keyPart_itemText {ft : FloatText} {e : Str × Option Value} (he : '=' ∉ e.1) :
    keyPart ['='] (ListOrMap.itemText ft e) = e.1 := by
  obtain ⟨k, v⟩ := e
  have hne : ∀ c ∈ k, decide (c ∉ ['=']) = true := by
    intro c hc; simp only [List.mem_singleton, decide_eq_true_eq]; rintro rfl; exact he hc
  unfold keyPart
  cases v with
  | none => exact List.takeWhile_eq_self_iff.2 hne
  | some w =>
    show (k ++ '=' :: w.show ft).takeWhile _ = k
    rw [List.takeWhile_append_of_pos hne, List.takeWhile_cons_of_neg (by simp)]
    simp

/-- Exactly which maps survive conversion to a list and back: keys have no `=`, and the text of each value is not empty
and denotes that value (see C56). -/
theorem C55_map_list_map (ft : FloatText) (m : OptionMap) (hm : (m.map (·.1)).Nodup) (hk : ∀ e ∈ m, MapKey e.1) :
    ListOrMap.intoMap ft (.list (ListOrMap.intoList ft (.map m))) = .ok m ↔
      ∀ k v, (k, v) ∈ m → '=' ∉ k ∧ ∀ w, v = some w → w.show ft ≠ [] ∧ ValueText ft (w.show ft) w := by
  have step : (∀ e ∈ m, '=' ∉ e.1) →
      ListOrMap.intoMap ft (.list (ListOrMap.intoList ft (.map m))) =
        .ok (m.map fun e => (e.1, ListOrMap.itemValue ft (e.2.map (Value.show ft)))) := by
    intro hno
    have hnd : (m.map (ListOrMap.itemText ft)).Nodup := by
      have : ((m.map (ListOrMap.itemText ft)).map (keyPart ['='])).Nodup := by
        rw [List.map_map]
        rw [show m.map (keyPart ['='] ∘ ListOrMap.itemText ft) = m.map (·.1) from
          List.map_congr_left fun e he => keyPart_itemText (hno e he)]
        exact hm
      exact List.Nodup.of_map _ this
    simp only [ListOrMap.intoMap, ListOrMap.intoMapSplitOn, ListOrMap.intoList]
    rw [IndexSet.collect_nodup hnd]
    have hc : collectResult (ListOrMap.itemEntry ft ['=']) (m.map (ListOrMap.itemText ft)) =
        .ok (m.map fun e => (e.1, ListOrMap.itemValue ft (e.2.map (Value.show ft)))) := by
      rw [collectResult_ok, List.forall₂_map_left_iff, List.forall₂_map_right_iff, List.forall₂_same]
      intro e he
      exact itemEntry_itemText (hk e he) (hno e he)
    rw [hc]
    simp only [Except.ok.injEq]
    apply IndexMap.collect_ok
    unfold IndexMap.Ok
    rw [List.map_map]
    exact hm
  constructor
  · intro h
    have hno : ∀ e ∈ m, '=' ∉ e.1 := by
      intro e he
      rcases (C55_into_map ft ['='] _ m).1 h with h | ⟨l, entries, -, h2, h3⟩
      · cases h
      · obtain ⟨k, v⟩ := e
        obtain ⟨before, after, rfl, -⟩ := (h3.2 k v).1 he
        obtain ⟨item, -, hi⟩ : ∃ item, item ∈ l ∧ ItemEntry ft ['='] item (k, v) := by
          clear * - h2
          generalize hes : before ++ (k, v) :: after = es at h2
          have hmem : (k, v) ∈ es := by rw [← hes]; simp
          clear hes
          induction h2 with
          | nil => simp at hmem
          | cons h _ ih =>
            rcases List.mem_cons.1 hmem with rfl | hmem
            · exact ⟨_, by simp, h⟩
            · obtain ⟨i, h1, h2⟩ := ih hmem
              exact ⟨i, by simp [h1], h2⟩
        cases hi with
        | key h => exact fun hm => h '=' hm (by simp)
        | noValue h => exact fun hm => h '=' hm (by simp)
        | keyValue h => exact fun hm => h '=' hm (by simp)
    rw [step hno] at h
    have h := Except.ok.inj h
    intro k v he
    refine ⟨hno _ he, ?_⟩
    have hv : (k, ListOrMap.itemValue ft (v.map (Value.show ft))) = (k, v) := by
      have : m.map (fun e => (e.1, ListOrMap.itemValue ft (e.2.map (Value.show ft)))) = m.map id := by rw [h]; simp
      exact List.map_inj_left.1 this (k, v) he
    rintro w rfl
    simp only [Prod.mk.injEq, true_and, Option.map_some, ListOrMap.itemValue] at hv
    split at hv
    · cases hv
    · rename_i h0
      exact ⟨h0, (C56_value_parse ft _ _).1 (Option.some.inj hv)⟩
  · intro h
    rw [step (fun e he => (h e.1 e.2 he).1)]
    congr 1
    conv_rhs => rw [← List.map_id m]
    apply List.map_congr_left
    rintro ⟨k, v⟩ he
    obtain ⟨-, h2⟩ := h k v he
    cases v with
    | none => rfl
    | some w =>
      obtain ⟨h3, h4⟩ := h2 w rfl
      simp only [Option.map_some, ListOrMap.itemValue, h3, if_false, id_eq]
      rw [(C56_value_parse ft _ _).2 h4]

/-- The text `1` does not come back as a text. -/
example : ListOrMap.intoMap exampleFloat (.list (ListOrMap.intoList exampleFloat (.map [("A".toList, some (.string "1".toList))]))) ≠
    .ok [("A".toList, some (.string "1".toList))] := by decide

/-- Exactly which lists survive conversion to a map and back: no two items have the same key, and the value of an item
with `=` is not empty and is printed back as it was (see C56). -/
theorem C55_list_map_list (ft : FloatText) (l : List Str) (hl : l.Nodup) (m : OptionMap)
    (hm : ListOrMap.intoMap ft (.list l) = .ok m) :
    ListOrMap.intoList ft (.map m) = l ↔
      (l.map (keyPart ['='])).Nodup ∧
      ∀ k t, k ++ "=".toList ++ t ∈ l → '=' ∉ k → t ≠ [] ∧ (Value.parse ft t).show ft = t := by
  obtain ⟨entries, h1, rfl⟩ : ∃ entries, List.Forall₂ (fun a b => ListOrMap.itemEntry ft ['='] a = .ok b) l entries ∧
      m = IndexMap.collect entries := by
    simp only [ListOrMap.intoMap, ListOrMap.intoMapSplitOn] at hm
    cases hr : collectResult (ListOrMap.itemEntry ft ['=']) l with
    | error e => rw [hr] at hm; cases hm
    | ok entries => rw [hr] at hm; cases hm; exact ⟨entries, collectResult_ok.1 hr, rfl⟩
  have hkeys : entries.map (·.1) = l.map (keyPart ['=']) := by
    clear * - h1
    induction h1 with
    | nil => rfl
    | cons h _ ih =>
      rw [List.map_cons, List.map_cons, ih]
      congr 1
      rw [← splitItem_key]
      unfold ListOrMap.itemEntry at h
      cases hk : mapKeyNew (ListOrMap.splitItem ['='] _).1 with
      | error e => rw [hk] at h; cases h
      | ok k => rw [hk] at h; cases h; exact ((C03_map_key_accepts _ _).1 hk).2
  -- one item
  have one : ∀ item e, ListOrMap.itemEntry ft ['='] item = .ok e →
      (ListOrMap.itemText ft e = item ↔
        ∀ k t, item = k ++ "=".toList ++ t → '=' ∉ k → t ≠ [] ∧ (Value.parse ft t).show ft = t) := by
    intro item e he
    have hE := itemEntry_iff.1 he
    cases hE with
    | key hno _ =>
      simp only [ListOrMap.itemText, true_iff]
      intro k t hi _
      subst hi
      exact absurd (by simp) (hno '=' (by simp))
    | @noValue k d hno hd _ =>
      simp only [List.mem_singleton] at hd
      subst hd
      simp only [ListOrMap.itemText]
      constructor
      · intro h; simp at h
      · intro h
        have := (h k [] (by simp) (fun hm => hno _ hm (by simp))).1
        exact absurd rfl this
    | @keyValue k t d v hno hd _ ht hv =>
      simp only [List.mem_singleton] at hd
      subst hd
      have hv := (C56_value_parse ft t v).2 hv
      simp only [ListOrMap.itemText]
      constructor
      · intro h k' t' hi hk'
        have h : v.show ft = t := by simpa using h
        have a := (splitOnce_eq_some (c := '=') (s := k ++ '=' :: t) (a := k) (b := t)).2
          ⟨rfl, fun hm => hno _ hm (by simp)⟩
        have b := (splitOnce_eq_some (c := '=') (s := k ++ '=' :: t) (a := k') (b := t')).2 ⟨by simpa using hi, hk'⟩
        rw [a] at b
        cases b
        exact ⟨ht, by rw [hv]; exact h⟩
      · intro h
        have := (h k t (by simp) (fun hm => hno _ hm (by simp))).2
        rw [hv] at this
        rw [this]
  have hall : entries.map (ListOrMap.itemText ft) = l ↔
      ∀ k t, k ++ "=".toList ++ t ∈ l → '=' ∉ k → t ≠ [] ∧ (Value.parse ft t).show ft = t := by
    clear hkeys hl hm
    induction h1 with
    | nil => simp
    | @cons item e l es h _ ih =>
      rw [List.map_cons, List.cons.injEq, ih, one item e h]
      simp only [List.mem_cons]
      constructor
      · rintro ⟨h1, h2⟩ k t (hi | hi) hk
        · exact h1 k t hi.symm hk
        · exact h2 k t hi hk
      · intro h
        exact ⟨fun k t hi hk => h k t (.inl hi.symm) hk, fun k t hi hk => h k t (.inr hi) hk⟩
  have hlen : entries.length = l.length := h1.length_eq.symm
  rw [← hall, ← hkeys]
  simp only [ListOrMap.intoList]
  constructor
  · intro h
    rw [indexSet_collect] at h
    have l1 := length_firsts_le ((IndexMap.collect entries).map (ListOrMap.itemText ft))
    have l2 : (IndexMap.collect entries).length = (firsts (entries.map (·.1))).length := by
      rw [← keys_collect, List.length_map]
    have l3 := length_firsts_le (entries.map (·.1))
    rw [h, List.length_map] at l1
    rw [List.length_map] at l3
    have n1 : (entries.map (·.1)).Nodup := nodup_of_length_firsts (by rw [List.length_map]; omega)
    refine ⟨n1, ?_⟩
    have hce : IndexMap.collect entries = entries := IndexMap.collect_ok n1
    rw [hce] at h
    have n2 : (entries.map (ListOrMap.itemText ft)).Nodup :=
      nodup_of_length_firsts (by rw [h, List.length_map]; exact hlen.symm)
    rwa [firsts_nodup n2] at h
  · rintro ⟨n1, h⟩
    rw [IndexMap.collect_ok n1, h]
    exact IndexSet.collect_nodup hl

example : ListOrMap.intoMap exampleFloat (.list ["A=1".toList, "B".toList, "C=".toList, "A=x=y".toList]) =
    .ok [("A".toList, some (.string "x=y".toList)), ("B".toList, none), ("C".toList, none)] := by decide
example : ListOrMap.intoList exampleFloat (.map [("A".toList, some (.number (.unsignedInt 1))), ("B".toList, none)]) =
    ["A=1".toList, "B".toList] := by decide
example : ListOrMap.intoMap exampleFloat (.list ["=x".toList]) = .error .empty := by decide
example : ListOrMap.intoList exampleFloat (.map [("A=1".toList, none), ("A".toList, some (.number (.unsignedInt 1)))]) =
    ["A=1".toList] := by decide

/-! ### C63: extra hosts -/

theorem hostAddress_iff {Ip : Type} {parseIp : Str → Option Ip} {s : Str} {ip : Ip} :
    HostAddress parseIp s ip ↔ parseIp (stripBrackets s) = some ip := by
  unfold stripBrackets
  by_cases h : ∃ t, s = "[".toList ++ t ++ "]".toList
  · obtain ⟨t, rfl⟩ := h
    have h1 : stripPrefix ['['] ("[".toList ++ t ++ "]".toList) = some (t ++ [']']) :=
      stripPrefix_eq_some.2 (by simp)
    have h2 : stripSuffix [']'] (t ++ [']']) = some t := stripSuffix_eq_some.2 rfl
    rw [h1]
    simp only
    rw [h2, Option.getD_some]
    constructor
    · intro h
      generalize hs : "[".toList ++ t ++ "]".toList = s at h
      cases h with
      | plain h => exact absurd ⟨t, hs.symm⟩ h
      | brackets h =>
        simp only [List.append_cancel_right_eq, List.append_cancel_left_eq] at hs
        rw [hs]; exact h
    · exact .brackets
  · have hsb : stripBrackets s = s := by
      unfold stripBrackets
      cases h1 : stripPrefix ['['] s with
      | none => rfl
      | some r =>
        cases h2 : stripSuffix [']'] r with
        | none => simp only; rw [h2]; rfl
        | some t =>
          rw [stripPrefix_eq_some] at h1
          rw [stripSuffix_eq_some] at h2
          exact absurd ⟨t, by rw [h1, h2]; simp⟩ h
    rw [← stripBrackets]
    rw [hsb]
    constructor
    · intro h'
      cases h' with
      | plain _ h => exact h
      | brackets h' => exact absurd ⟨_, rfl⟩ h
    · exact .plain h

theorem extraHost_iff {Ip : Type} {parseIp : Str → Option Ip} {e : Str × Option Value} {h : Str × Ip} :
    extraHost parseIp e = .ok h ↔ IsHost parseIp e h := by
  obtain ⟨k, v⟩ := e
  obtain ⟨n, ip⟩ := h
  unfold IsHost
  match v with
  | none => simp [extraHost]
  | some (.number _) => simp [extraHost]
  | some (.bool _) => simp [extraHost]
  | some (.string s) =>
    simp only [extraHost]
    cases hk : hostnameNew k with
    | error e =>
      simp only [reduceCtorEq, false_iff]
      rintro ⟨-, h, -⟩
      rw [(C04_hostname_accepts k k).2 ⟨h, rfl⟩] at hk; cases hk
    | ok host =>
      obtain ⟨h1, rfl⟩ := (C04_hostname_accepts _ _).1 hk
      simp only [Option.some.injEq, Value.string.injEq, exists_eq_left', hostAddress_iff]
      cases hp : parseIp (stripBrackets s) with
      | none => simp
      | some ip' => simp [h1, eq_comm]

/-- The table of hosts is read from a map entry by entry, and from a list as from the table of its items, which are
split at the first `=` or `:`.  Every host must be a host name and every value an address, possibly in brackets. -/
theorem C63_extra_hosts {Ip : Type} (ft : FloatText) (parseIp : Str → Option Ip) (x : ListOrMap)
    (hx : ∀ m, x = .map m → (m.map (·.1)).Nodup) (hosts : List (Str × Ip)) :
    extraHosts ft parseIp x = .ok hosts ↔
      ∃ m, List.Forall₂ (IsHost parseIp) m hosts ∧
        (x = .map m ∨
          ∃ l entries, x = .list l ∧ List.Forall₂ (ItemEntry ft ['=', ':']) l entries ∧ Table entries m) := by
  unfold extraHosts
  have hf : ∀ (m : OptionMap) (hosts : List (Str × Ip)), List.Forall₂ (IsHost parseIp) m hosts ↔
      collectResult (extraHost parseIp) m = .ok hosts := by
    intro m hosts
    rw [collectResult_ok]
    exact ⟨fun h => h.imp fun _ _ h => extraHost_iff.2 h, fun h => h.imp fun _ _ h => extraHost_iff.1 h⟩
  have hkeys : ∀ (m : OptionMap) (hosts : List (Str × Ip)), List.Forall₂ (IsHost parseIp) m hosts →
      hosts.map (·.1) = m.map (·.1) := by
    intro m hosts h
    induction h with
    | nil => rfl
    | cons h _ ih => rw [List.map_cons, List.map_cons, ih, h.1]
  have hnd : ∀ m, x.intoMapSplitOn ft ['=', ':'] = .ok m → (m.map (·.1)).Nodup := by
    intro m h
    rcases (C55_into_map ft _ x m).1 h with h | ⟨l, entries, -, -, h⟩
    · exact hx m h
    · rw [h.1]; exact nodup_firsts _
  cases hm : x.intoMapSplitOn ft ['=', ':'] with
  | error e =>
    simp only [reduceCtorEq, false_iff]
    rintro ⟨m, -, h⟩
    rw [(C55_into_map ft _ x m).2 h] at hm; cases hm
  | ok m =>
    simp only
    have huniq : ∀ m', (x = .map m' ∨ ∃ l entries, x = .list l ∧ List.Forall₂ (ItemEntry ft ['=', ':']) l entries ∧
        Table entries m') → m' = m := by
      intro m' h
      rw [(C55_into_map ft _ x m').2 h] at hm
      exact Except.ok.inj hm
    cases hr : collectResult (extraHost parseIp) m with
    | error e =>
      simp only [reduceCtorEq, false_iff]
      rintro ⟨m', h1, h2⟩
      rw [huniq m' h2, hf, hr] at h1; cases h1
    | ok hs =>
      have h0 := (hf m hs).2 hr
      have hc : IndexMap.collect hs = hs := IndexMap.collect_ok (by unfold IndexMap.Ok; rw [hkeys m hs h0]; exact hnd m hm)
      simp only [Except.ok.injEq, hc]
      constructor
      · rintro rfl; exact ⟨m, h0, (C55_into_map ft _ x m).1 hm⟩
      · rintro ⟨m', h1, h2⟩
        rw [huniq m' h2, hf, hr] at h1
        exact Except.ok.inj h1

theorem hostname_chars {s : Str} (h : Hostname s) : ∀ c ∈ s, c ∈ alnum ++ "-.".toList := by
  have hl : ∀ t, HostLabel t → ∀ c ∈ t, c ∈ alnum ++ "-.".toList := by
    intro t ht c hc
    rw [HostLabel, seq_cls] at ht
    obtain ⟨d, cs, rfl, hd, hr⟩ := ht
    rcases List.mem_cons.1 hc with rfl | hc
    · exact List.mem_append_left _ hd
    · rcases hr with rfl | ⟨a, b, ha, ⟨e, he, rfl⟩, rfl⟩
      · cases hc
      · rw [star_cls] at ha
        rcases List.mem_append.1 hc with hc | hc
        · have := ha _ hc
          simp only [List.mem_append, List.mem_cons, List.not_mem_nil, or_false] at this ⊢
          rcases this with h | rfl
          · exact .inl h
          · right; decide
        · simp only [List.mem_singleton] at hc; subst hc
          exact List.mem_append_left _ he
  rw [hostname_parts] at h
  intro c hc
  rw [← joinWith_split '.' s] at hc
  generalize split '.' s = ps at h hc
  induction ps with
  | nil => cases hc
  | cons p ps ih =>
    cases ps with
    | nil => exact hl p (h p (by simp)) c (by simpa [joinWith] using hc)
    | cons q qs =>
      rw [joinWith] at hc
      rcases List.mem_append.1 hc with hc | hc
      · exact hl p (h p (by simp)) c hc
      · rcases List.mem_cons.1 hc with rfl | hc
        · clear * -; decide
        · exact ih (fun l hl => h l (by simp [hl])) hc

/-- Facts about the number and address parsers of the standard library: a decimal number has no colons, no brackets and
at most one dot; an address has a colon or two dots. -/
structure AddressFacts {Ip : Type} (ft : FloatText) (parseIp : Str → Option Ip) : Prop where
  float : ∀ s x, ft.parse s = some x → ':' ∉ s ∧ '[' ∉ s ∧ s.count '.' ≤ 1
  ip : ∀ s ip, parseIp s = some ip → ':' ∈ s ∨ 2 ≤ s.count '.'

theorem hostAddress_text {Ip : Type} {ft : FloatText} {parseIp : Str → Option Ip} (facts : AddressFacts ft parseIp)
    {s : Str} {ip : Ip} (h : HostAddress parseIp s ip) : s ≠ [] ∧ ValueText ft s (.string s) := by
  have key : ':' ∈ s ∨ '[' ∈ s ∨ 2 ≤ s.count '.' := by
    cases h with
    | plain _ h => rcases facts.ip _ _ h with h | h <;> simp [h]
    | brackets h => simp
  have hc : ':' ∈ s ∨ '[' ∈ s ∨ '.' ∈ s := by
    rcases key with h | h | h
    · exact .inl h
    · exact .inr (.inl h)
    · exact .inr (.inr (List.count_pos_iff.1 (by omega)))
  refine ⟨by rintro rfl; simp at hc, .string ?_ ?_ ?_⟩
  · rintro rfl; revert hc; decide
  · rintro rfl; revert hc; decide
  · intro n hn
    cases hn with
    | unsignedInt h =>
      have := h.chars
      rcases hc with h | h | h <;> · have := this _ h; revert this; decide
    | signedInt hd _ =>
      rcases hc with h | h | h <;>
      · rcases List.mem_cons.1 h with h | h
        · exact absurd h (by decide)
        · exact absurd (hd.2 _ h) (by decide)
    | float _ h =>
      obtain ⟨h1, h2, h3⟩ := facts.float _ _ h
      rcases key with h | h | h
      · exact h1 h
      · exact h2 h
      · omega

/-- For distinct hosts with their addresses, the two ways to write a list (`host=address` and `host:address`) and the
map give the same table, with the hosts in order. -/
theorem C63_forms_agree {Ip : Type} (ft : FloatText) (parseIp : Str → Option Ip) (facts : AddressFacts ft parseIp)
    (es : List (Str × Str × Ip)) (hd : (es.map (·.1)).Nodup)
    (h : ∀ host addr ip, (host, addr, ip) ∈ es → Hostname host ∧ HostAddress parseIp addr ip)
    (separator : Str → Char) (hs : ∀ host, separator host = '=' ∨ separator host = ':') :
    extraHosts ft parseIp (.list (es.map fun e => e.1 ++ separator e.1 :: e.2.1)) =
        .ok (es.map fun e => (e.1, e.2.2)) ∧
      extraHosts ft parseIp (.map (es.map fun e => (e.1, some (.string e.2.1)))) = .ok (es.map fun e => (e.1, e.2.2)) := by
  have hm : ((es.map fun e => (e.1, some (Value.string e.2.1))).map (·.1)).Nodup := by
    rw [List.map_map]; exact hd
  have hh : List.Forall₂ (IsHost parseIp) (es.map fun e => (e.1, some (Value.string e.2.1)))
      (es.map fun e => (e.1, e.2.2)) := by
    rw [List.forall₂_map_left_iff, List.forall₂_map_right_iff, List.forall₂_same]
    rintro ⟨host, addr, ip⟩ he
    obtain ⟨h1, h2⟩ := h _ _ _ he
    exact ⟨rfl, h1, addr, rfl, h2⟩
  constructor
  · rw [C63_extra_hosts _ _ _ (by intro m h; cases h)]
    refine ⟨_, hh, .inr ⟨_, es.map fun e => (e.1, some (Value.string e.2.1)), rfl, ?_, ?_⟩⟩
    · rw [List.forall₂_map_left_iff, List.forall₂_map_right_iff, List.forall₂_same]
      rintro ⟨host, addr, ip⟩ he
      obtain ⟨h1, h2⟩ := h _ _ _ he
      obtain ⟨h3, h4⟩ := hostAddress_text facts h2
      have hch := hostname_chars h1
      refine .keyValue ?_ (by rcases hs host with h | h <;> simp [h]) ⟨?_, ?_⟩ h3 h4
      · intro c hc
        have := hch c hc
        simp only [List.mem_cons, List.not_mem_nil, or_false]
        rintro (rfl | rfl) <;> · revert this; clear * -; decide
      · obtain ⟨a, b, ⟨a', b', ⟨d, -, rfl⟩, -, rfl⟩, -, rfl⟩ := h1
        simp
      · intro hn
        exact absurd (hch _ hn) (by decide)
    · rw [table_iff, IndexMap.collect_ok hm]
  · rw [C63_extra_hosts _ _ _ (by intro m h; cases h; exact hm)]
    exact ⟨_, hh, .inl rfl⟩

/-- A stand-in for the address parser: `::1` and `10.0.0.1` only. -/
private def exampleIp (s : Str) : Option Nat :=
  if s = "::1".toList then some 6 else if s = "10.0.0.1".toList then some 4 else none

example : extraHosts exampleFloat exampleIp (.list ["a=10.0.0.1".toList, "b:[::1]".toList, "c=::1".toList]) =
    .ok [("a".toList, 4), ("b".toList, 6), ("c".toList, 6)] := by decide
/-- Only the last entry of a host is looked at. -/
example : extraHosts exampleFloat exampleIp (.list ["a=nonsense".toList, "a:10.0.0.1".toList]) =
    .ok [("a".toList, 4)] := by decide
example : extraHosts exampleFloat exampleIp (.list ["a_b=10.0.0.1".toList]) =
    .error (.hostname (.character '_')) := by decide
example : AddressFacts exampleFloat exampleIp := by
  constructor
  · intro s x h
    simp only [exampleFloat] at h
    split at h
    · subst_vars; decide
    · cases h
  · intro s ip h
    simp only [exampleIp] at h
    split at h
    · subst_vars; decide
    · split at h
      · subst_vars; decide
      · cases h

end Props
