import Verif.Spec.Cache
import Verif.Props.Resource
import Verif.Props.Image

namespace Props
open Rust Compose Compose.Image Spec Re Proofs

/-! ### Characters of images -/

theorem imageName_chars {s : Str} (h : ImageName s) : ∀ c ∈ s, c ∈ alnum ++ "._-/:+".toList := by
  have hl : ∀ c, c ∈ lowerAlnum → c ∈ alnum ++ "._-/:+".toList := by decide
  have hp : ∀ p, NamePart p → ∀ c ∈ p, c ∈ alnum ++ "._-/:+".toList := by
    intro p hp c hc
    rcases hp.chars c hc with h | rfl | rfl | rfl
    · exact hl c h
    all_goals clear * -; decide
  have hf : ∀ p, FirstPart p → ∀ c ∈ p, c ∈ alnum ++ "._-/:+".toList := by
    intro p h c hc
    rcases h with ⟨-, h | ⟨host, port, n, rfl, h, hu⟩⟩ | ⟨-, h⟩
    · exact hp p h c hc
    · rcases List.mem_append.1 hc with hc | hc
      · exact hp host h c hc
      · rcases List.mem_cons.1 hc with rfl | hc
        · clear * -; decide
        · rcases hu.chars c hc with h | rfl
          · exact List.mem_append_left _ (mem_alnum.2 (by simp [isAlnum, h]))
          · clear * -; decide
    · exact hp p h c hc
  obtain ⟨f, r, hs, hff, hr⟩ := imageName_iff.1 h
  intro c hc
  rw [← joinWith_split '/' s, hs] at hc
  rcases mem_joinWith hc with rfl | ⟨p, hm, hcp⟩
  · clear * -; decide
  · rcases List.mem_cons.1 hm with rfl | hm
    · exact hf p hff c hcp
    · exact hp p (hr p hm) c hcp

theorem image_chars {s : Str} {i : Image} (h : Image.parse s = .ok i) :
    s ≠ [] ∧ ∀ c ∈ s, c ∈ alnum ++ "._-/:+@=".toList := by
  obtain ⟨name, label, rfl, hN, hT, -⟩ := (C31_accepted s).1 ⟨i, h⟩
  have htag : ∀ c ∈ alnum ++ "._-".toList, c ∈ alnum ++ "._-/:+@=".toList := by decide
  have halg : ∀ c ∈ lowerAlnum ++ "+._-".toList, c ∈ alnum ++ "._-/:+@=".toList := by decide
  have henc : ∀ c ∈ alnum ++ "=_-".toList, c ∈ alnum ++ "._-/:+@=".toList := by decide
  have hsub : ∀ c, c ∈ alnum ++ "._-/:+".toList → c ∈ alnum ++ "._-/:+@=".toList := by decide
  constructor
  · obtain ⟨f, r, hs, hff, hr⟩ := imageName_iff.1 hN
    have hne : f ≠ [] := by
      rcases hff with ⟨hd, -⟩ | ⟨-, h⟩
      · rintro rfl; simp at hd
      · exact h.ne_nil
    rintro h0
    have h0 := (List.append_eq_nil_iff.1 h0).1
    subst h0
    simp [split] at hs
    exact hne hs.1
  · intro c hc
    rcases List.mem_append.1 hc with hc | hc
    · exact hsub c (imageName_chars hN c hc)
    · match label with
      | none => cases hc
      | some (.tag t) =>
        rcases List.mem_cons.1 hc with rfl | hc
        · clear * -; decide
        · exact htag c ((plus_cls.1 hT.1).2 c hc)
      | some (.digest d) =>
        rcases List.mem_cons.1 hc with rfl | hc
        · clear * -; decide
        · obtain ⟨a, e, rfl, ⟨x, t, rfl, hx, ht⟩, -, he⟩ := imageDigest_iff.1 hT
          have hta : ∀ c ∈ t, c ∈ alnum ++ "._-/:+@=".toList := by
            clear * - ht halg
            induction ht with
            | nil => simp
            | @alnum c w h _ ih =>
              intro y hy
              rcases List.mem_cons.1 hy with rfl | hy
              · exact halg _ (List.mem_append_left _ h)
              · exact ih y hy
            | @sep z c w hz h _ ih =>
              obtain ⟨y, hy, rfl⟩ := hz
              intro u hu
              rcases List.mem_cons.1 hu with rfl | hu
              · exact halg _ (List.mem_append_right _ hy)
              · rcases List.mem_cons.1 hu with rfl | hu
                · exact halg _ (List.mem_append_left _ h)
                · exact ih u hu
          rcases List.mem_append.1 hc with hc | hc
          · rcases List.mem_cons.1 hc with rfl | hc
            · exact halg _ (List.mem_append_left _ hx)
            · exact hta c hc
          · rcases List.mem_cons.1 hc with rfl | hc
            · clear * -; decide
            · exact henc c (he c hc)

/-- Images are never empty and have no white space, so they can be cache options. -/
theorem image_option {s : Str} {i : Image} (h : ImageText s i) : CacheOption s ∧ ',' ∉ s := by
  obtain ⟨h1, h2⟩ := image_chars ((C31_accepts s i).2 h)
  have hw : ∀ c ∈ alnum ++ "._-/:+@=".toList, c.toNat ∉ whiteSpace := by decide
  exact ⟨⟨h1, fun c hc => hw c (h2 c hc)⟩, fun hc => absurd (h2 _ hc) (by decide)⟩

/-! ### C57: caches -/

theorem parseOption_iff {item : Str} {e : Str × Str} :
    Cache.parseOption item = .ok e ↔
      item = e.1 ++ '=' :: e.2 ∧ '=' ∉ e.1 ∧ CacheOption e.1 ∧ CacheOption e.2 := by
  obtain ⟨k, v⟩ := e
  unfold Cache.parseOption Cache.splitOption
  cases hs : splitOnce '=' item with
  | none =>
    have hn := splitOnce_eq_none.1 hs
    simp only
    constructor
    · intro h
      split at h
      · cases h
      · simp [cacheOptionNew] at h
    · rintro ⟨rfl, -⟩; simp at hn
  | some ab =>
    obtain ⟨a, b⟩ := ab
    simp only
    constructor
    · intro h
      cases h1 : cacheOptionNew a with
      | error e => rw [h1] at h; cases h
      | ok a' =>
        cases h2 : cacheOptionNew b with
        | error e => rw [h1, h2] at h; cases h
        | ok b' =>
          rw [h1, h2] at h
          cases h
          obtain ⟨h3, rfl⟩ := (C06_cache_option_accepts _ _).1 h1
          obtain ⟨h4, rfl⟩ := (C06_cache_option_accepts _ _).1 h2
          obtain ⟨h5, h6⟩ := splitOnce_eq_some.1 hs
          exact ⟨h5, h6, h3, h4⟩
    · rintro ⟨h1, h2, h3, h4⟩
      have := (splitOnce_eq_some (c := '=') (s := item) (a := k) (b := v)).2 ⟨h1, h2⟩
      rw [hs] at this
      cases this
      rw [(C06_cache_option_accepts _ _).2 ⟨h3, rfl⟩, (C06_cache_option_accepts _ _).2 ⟨h4, rfl⟩]

theorem joinWith_cons (c : Char) (p : Str) (ps : List Str) : joinWith c (p :: ps) = p ++ ps.flatMap (c :: ·) := by
  induction ps generalizing p with
  | nil => simp [joinWith]
  | cons q qs ih => rw [joinWith, ih]; simp

theorem optionsText_eq (es : List (Str × Str)) :
    optionsText es = (es.map fun e => e.1 ++ '=' :: e.2).flatMap (',' :: ·) := by
  induction es with
  | nil => rfl
  | cons e es ih =>
    obtain ⟨k, v⟩ := e
    rw [optionsText, ih]
    simp

theorem showOptions_eq (es : List (Str × Str)) : Cache.showOptions es = optionsText es := by
  induction es with
  | nil => rfl
  | cons e es ih =>
    obtain ⟨k, v⟩ := e
    rw [optionsText, Cache.showOptions, ih]

/-- How `type=…,…` is read. -/
theorem parseParts_iff {s : Str} {c : Cache} :
    Cache.parseParts (split ',' s) = .ok c ↔
      ∃ t es, s = "type=".toList ++ t ++ optionsText es ∧ ',' ∉ t ∧ (∀ e ∈ es, Writable e) ∧
        Cache.withType t (IndexMap.collect es) = .ok c := by
  have hcoll : ∀ rest es, collectResult Cache.parseOption rest = .ok es ↔
      rest = es.map (fun e => e.1 ++ '=' :: e.2) ∧ ∀ e ∈ es, '=' ∉ e.1 ∧ CacheOption e.1 ∧ CacheOption e.2 := by
    intro rest es
    rw [collectResult_ok]
    simp only [parseOption_iff]
    constructor
    · intro h
      induction h with
      | nil => simp
      | cons h _ ih =>
        obtain ⟨rfl, h⟩ := h
        refine ⟨by rw [List.map_cons, ih.1], ?_⟩
        intro e he
        rcases List.mem_cons.1 he with rfl | he
        · exact h
        · exact ih.2 e he
    · rintro ⟨rfl, h⟩
      rw [List.forall₂_map_left_iff, List.forall₂_same]
      intro e he
      exact ⟨rfl, h e he⟩
  constructor
  · intro h
    cases hs : split ',' s with
    | nil => exact absurd hs (split_ne_nil _ _)
    | cons first rest =>
      rw [hs, Cache.parseParts] at h
      obtain ⟨-, h2, h3⟩ := split_eq_iff.1 hs
      cases hp : stripPrefix "type=".toList first with
      | none => rw [hp] at h; cases h
      | some t =>
        rw [hp] at h
        simp only at h
        rw [stripPrefix_eq_some] at hp
        cases hc : collectResult Cache.parseOption rest with
        | error e => rw [hc] at h; cases h
        | ok es =>
          rw [hc] at h
          obtain ⟨rfl, h4⟩ := (hcoll rest es).1 hc
          refine ⟨t, es, ?_, ?_, ?_, h⟩
          · rw [← h3, joinWith_cons, hp, optionsText_eq]
          · have := h2 first (by simp)
            rw [hp] at this
            exact fun hm => this (List.mem_append_right _ hm)
          · intro e he
            obtain ⟨h5, h6, h7⟩ := h4 e he
            have := h2 (e.1 ++ '=' :: e.2) (List.mem_cons_of_mem _ (List.mem_map.2 ⟨e, he, rfl⟩))
            simp only [List.mem_append, List.mem_cons, not_or] at this
            exact ⟨h6, h7, this.1, h5, this.2.2⟩
  · rintro ⟨t, es, rfl, ht, hw, h⟩
    have hs : split ',' ("type=".toList ++ t ++ optionsText es) =
        ("type=".toList ++ t) :: es.map (fun e => e.1 ++ '=' :: e.2) := by
      rw [split_eq_iff]
      refine ⟨by simp, ?_, by rw [joinWith_cons, optionsText_eq]⟩
      intro p hp
      rcases List.mem_cons.1 hp with rfl | hp
      · intro hm
        rcases List.mem_append.1 hm with hm | hm
        · exact absurd hm (by decide)
        · exact ht hm
      · obtain ⟨e, he, rfl⟩ := List.mem_map.1 hp
        obtain ⟨-, -, h1, -, h2⟩ := hw e he
        simp [h1, h2]
    rw [hs, Cache.parseParts]
    rw [stripPrefix_eq_some.2 rfl]
    simp only
    rw [(hcoll _ es).2 ⟨rfl, fun e he => ⟨(hw e he).2.2.2.1, (hw e he).1, (hw e he).2.1⟩⟩]
    exact h

theorem withType_iff {t : Str} {m : IndexMap Str Str} (hm : IndexMap.Ok m) {c : Cache} :
    Cache.withType t m = .ok c ↔
      (t = "registry".toList ∧ ∃ r i, ("ref".toList, r) ∈ m ∧ ImageText r i ∧
        c = ⟨.registry i, m.filter (·.1 ≠ "ref".toList)⟩) ∨
      (t ≠ "registry".toList ∧ CacheOption t ∧ c = ⟨.other t, m⟩) := by
  unfold Cache.withType
  generalize "registry".toList = R
  generalize "ref".toList = F
  by_cases ht : t = R
  · rw [if_pos ht]
    simp only [ht, true_and, ne_eq, not_true_eq_false, false_and, or_false]
    unfold IndexMap.shiftRemove
    cases hg : IndexMap.get m F with
    | none =>
      rw [IndexMap.get_eq_none] at hg
      simp only [Option.map_none, reduceCtorEq, false_iff]
      rintro ⟨r, i, h, -⟩
      exact hg (List.mem_map.2 ⟨_, h, rfl⟩)
    | some r =>
      simp only [Option.map_some]
      rw [IndexMap.get_eq_some hm] at hg
      constructor
      · intro h
        cases hp : Image.parse r with
        | error e => rw [hp] at h; cases h
        | ok i => rw [hp] at h; exact ⟨r, i, hg, (C31_accepts _ _).1 hp, (Except.ok.inj h).symm⟩
      · rintro ⟨r', i, h1, h2, rfl⟩
        have : (F, r) = (F, r') := List.inj_on_of_nodup_map hm hg h1 rfl
        cases this
        rw [(C31_accepts _ _).2 h2]
  · rw [if_neg ht]
    simp only [ht, false_and, ne_eq, not_false_eq_true, true_and, false_or]
    constructor
    · intro h
      cases hc : cacheOptionNew t with
      | error e => rw [hc] at h; cases h
      | ok o =>
        rw [hc] at h
        obtain ⟨h1, rfl⟩ := (C06_cache_option_accepts _ _).1 hc
        exact ⟨h1, (Except.ok.inj h).symm⟩
    · rintro ⟨h, rfl⟩
      rw [(C06_cache_option_accepts _ _).2 ⟨h, rfl⟩]

theorem comma_mem_optionsText {es : List (Str × Str)} (h : es ≠ []) : ',' ∈ optionsText es := by
  cases es with
  | nil => exact absurd rfl h
  | cons e es => obtain ⟨k, v⟩ := e; simp [optionsText]

/-- A cache is read from an image, or from a type and options. -/
theorem C57_parse (s : Str) (c : Cache) : Cache.parse s = .ok c ↔ CacheText s c := by
  unfold Cache.parse
  by_cases hc : ',' ∈ s
  · rw [if_pos hc, parseParts_iff]
    constructor
    · rintro ⟨t, es, rfl, ht, hw, h⟩
      rw [withType_iff (IndexMap.ok_collect _)] at h
      rcases h with ⟨rfl, r, i, h1, h2, rfl⟩ | ⟨h1, h2, rfl⟩
      · exact CacheText.registry hw (table_collect es) h1 h2
      · refine CacheText.other hw (table_collect es) ?_ h2 ht h1
        rintro rfl
        simp only [optionsText, List.append_nil, List.mem_append] at hc
        rcases hc with hc | hc
        · exact absurd hc (by decide)
        · exact ht hc
    · intro h
      cases h with
      | image h => exact absurd hc (image_option h).2
      | registry hw ht hr hi =>
        rw [table_iff] at ht
        subst ht
        exact ⟨"registry".toList, _, rfl, by decide, hw,
          (withType_iff (IndexMap.ok_collect _)).2 (.inl ⟨rfl, _, _, hr, hi, rfl⟩)⟩
      | other hw ht _ h1 h2 h3 =>
        rw [table_iff] at ht
        subst ht
        exact ⟨_, _, rfl, h2, hw, (withType_iff (IndexMap.ok_collect _)).2 (.inr ⟨h3, h1, rfl⟩)⟩
  · rw [if_neg hc]
    constructor
    · intro h
      cases hp : Image.parse s with
      | error e => rw [hp] at h; cases h
      | ok i => rw [hp] at h; cases h; exact .image ((C31_accepts _ _).1 hp)
    · intro h
      cases h with
      | image h => rw [(C31_accepts _ _).2 h]; rfl
      | @registry es table i r hw ht hr hi =>
        exfalso
        apply hc
        apply List.mem_append_right
        apply comma_mem_optionsText
        rintro rfl
        rw [table_iff] at ht
        subst ht
        cases hr
      | other hw ht hne =>
        exact absurd (List.mem_append_right _ (comma_mem_optionsText hne)) hc

example : CacheText "type=local,src=a/b".toList ⟨.other "local".toList, [("src".toList, "a/b".toList)]⟩ :=
  (C57_parse _ _).1 (by decide)

theorem mem_table {es table : List (Str × Str)} (h : Table es table) {e : Str × Str} (he : e ∈ table) : e ∈ es := by
  obtain ⟨k, v⟩ := e
  obtain ⟨before, after, rfl, -⟩ := (h.2 k v).1 he
  simp

/-- Everything that is read is canonical. -/
theorem C57_parsed_canonical (s : Str) (c : Cache) (h : Cache.parse s = .ok c) :
    CanonicalCache c ∧ (c.options.map (·.1)).Nodup := by
  rw [C57_parse] at h
  cases h with
  | @image _ i h =>
    exact ⟨⟨by simp, (C31_accepts _ _).1 (C66_parsed_reparse s i ((C31_accepts _ _).2 h)), by simp⟩, by simp⟩
  | @registry es table i r hw ht hr hi =>
    refine ⟨⟨fun e he => hw e (mem_table ht (List.mem_filter.1 he).1), (C31_accepts _ _).1 (C66_parsed_reparse r i ((C31_accepts _ _).2 hi)), ?_⟩, ?_⟩
    · intro hm
      obtain ⟨e, he, h⟩ := List.mem_map.1 hm
      have := (List.mem_filter.1 he).2
      simp only [ne_eq, decide_eq_true_eq] at this
      exact this h
    · have hn : (table.map (·.1)).Nodup := by rw [ht.1]; exact nodup_firsts _
      exact hn.sublist (List.filter_sublist.map _)
  | @other es table t hw ht hne h1 h2 h3 =>
    refine ⟨⟨fun e he => hw e (mem_table ht he), h1, h2, h3, ?_⟩, by rw [ht.1]; exact nodup_firsts _⟩
    rintro rfl
    have := ht.1
    cases es with
    | nil => exact hne rfl
    | cons e es => simp [firsts] at this

example : CanonicalCache ⟨.other "local".toList, [("src".toList, "c=d".toList)]⟩ :=
  (C57_parsed_canonical "type=local,src=a/b,src=c=d".toList _ (by decide)).1

/-- Exactly which caches are read back from their text. -/
theorem C57_round_trip_partial (c : Cache) (hc : (c.options.map (·.1)).Nodup) :
    Cache.parse c.show = .ok c ↔ CanonicalCache c := by
  constructor
  · intro h; exact (C57_parsed_canonical _ _ h).1
  · rintro ⟨hw, ht⟩
    rw [C57_parse]
    obtain ⟨ty, opts⟩ := c
    cases ty with
    | registry i =>
      simp only at hw ht hc
      obtain ⟨hi, href⟩ := ht
      cases opts with
      | nil => exact .image hi
      | cons e opts =>
        have himg := image_option hi
        have hn : (((("ref".toList, i.asStr)) :: e :: opts).map (·.1)).Nodup := by
          rw [List.map_cons, List.nodup_cons]; exact ⟨href, hc⟩
        have hfilter : ((("ref".toList, i.asStr)) :: e :: opts).filter (·.1 ≠ "ref".toList) = e :: opts := by
          rw [List.filter_cons_of_neg (by simp), List.filter_eq_self]
          intro x hx
          simp only [ne_eq, decide_eq_true_eq]
          exact fun h => href (List.mem_map.2 ⟨x, hx, h⟩)
        have := CacheText.registry (es := ("ref".toList, i.asStr) :: e :: opts)
          (table := ("ref".toList, i.asStr) :: e :: opts) (r := i.asStr) (i := i) ?_
          (by rw [table_iff, IndexMap.collect_ok hn]) (by simp) hi
        · rw [hfilter] at this
          have hshow : (⟨.registry i, e :: opts⟩ : Cache).show =
              "type=registry".toList ++ optionsText (("ref".toList, i.asStr) :: e :: opts) := by
            show "type=registry,ref=".toList ++ i.asStr ++ Cache.showOptions (e :: opts) = _
            rw [showOptions_eq, optionsText]
            rfl
          rw [hshow]; exact this
        · intro x hx
          rcases List.mem_cons.1 hx with rfl | hx
          · have hr : CacheOption "ref".toList ∧ ',' ∉ "ref".toList ∧ '=' ∉ "ref".toList :=
              ⟨⟨by decide, by decide⟩, by decide, by decide⟩
            exact ⟨hr.1, himg.1, hr.2.1, hr.2.2, himg.2⟩
          · exact hw x hx
    | other t =>
      simp only at hw ht hc
      obtain ⟨h1, h2, h3, h4⟩ := ht
      have := CacheText.other hw (by rw [table_iff, IndexMap.collect_ok hc]) h4 h1 h2 h3
      cases opts with
      | nil => exact absurd rfl h4
      | cons e opts =>
        show CacheText ("type=".toList ++ t ++ Cache.showOptions (e :: opts)) _
        rw [showOptions_eq]; exact this

/-- An option whose value has a comma is not read back. -/
example : ¬ CanonicalCache ⟨.other "local".toList, [("src".toList, "a,b".toList)]⟩ :=
  fun h => absurd ((C57_round_trip_partial _ (by decide)).2 h) (by decide)

/-- In particular, every cache that was read is written as a text that reads as the same cache. -/
theorem C57_parsed_round_trip (s : Str) (c : Cache) (h : Cache.parse s = .ok c) : Cache.parse c.show = .ok c := by
  obtain ⟨h1, h2⟩ := C57_parsed_canonical s c h
  exact (C57_round_trip_partial c h2).2 h1

example : Cache.parse (Cache.show ⟨.other "local".toList, [("src".toList, "c=d".toList)]⟩) =
    .ok ⟨.other "local".toList, [("src".toList, "c=d".toList)]⟩ :=
  C57_parsed_round_trip "type=local,src=a/b,src=c=d".toList _ (by decide)

/-- A type without options is not read, although it is documented and is what such a cache is written as. -/
theorem C57_lone_type_false (t : Str) (ht : ',' ∉ t) :
    (∀ c, Cache.parse ("type=".toList ++ t) ≠ .ok c) ∧
      (⟨.other t, []⟩ : Cache).show = "type=".toList ++ t := by
  refine ⟨?_, by show "type=".toList ++ t ++ [] = _; rw [List.append_nil]⟩
  intro c h
  rw [C57_parse] at h
  generalize hs : "type=".toList ++ t = s at h
  have hcom : ',' ∉ s := by
    rw [← hs]; intro hm
    rcases List.mem_append.1 hm with hm | hm
    · exact absurd hm (by decide)
    · exact ht hm
  cases h with
  | image h =>
    obtain ⟨name, label, h1, hN, hT, -⟩ := h
    have hne : '=' ∉ name := fun hm => absurd (imageName_chars hN _ hm) (by decide)
    rw [← hs, List.append_eq_append_iff] at h1
    rcases h1 with ⟨x, rfl, -⟩ | ⟨x, h1, h2⟩
    · exact hne (List.mem_append_left _ (by decide))
    · cases x with
      | nil => rw [List.append_nil] at h1; rw [← h1] at hne; exact absurd hne (by decide)
      | cons y x =>
        have hy : y ∈ "type=".toList := by rw [h1]; simp
        match label with
        | none => cases h2
        | some (.tag _) => injection h2 with h2; rw [← h2] at hy; exact absurd hy (by decide)
        | some (.digest _) => injection h2 with h2; rw [← h2] at hy; exact absurd hy (by decide)
  | @registry es table i r hw htb hr hi =>
    apply hcom
    apply List.mem_append_right
    apply comma_mem_optionsText
    rintro rfl
    rw [table_iff] at htb
    subst htb
    cases hr
  | other hw _ hne => exact hcom (List.mem_append_right _ (comma_mem_optionsText hne))

example : ∀ c, Cache.parse "type=inline".toList ≠ .ok c := (C57_lone_type_false "inline".toList (by decide)).1

/-- So the round trip fails for every other type without options. -/
theorem C57_round_trip_false (t : Str) : Cache.parse (⟨.other t, []⟩ : Cache).show ≠ .ok ⟨.other t, []⟩ := by
  intro h
  have := (C57_parsed_canonical _ _ h).1.2
  exact this.2.2.2 rfl

/-- The options of a cache: the type first, then the image of a registry cache, then the other options in order. -/
theorem C57_into_options (c : Cache) :
    (∀ i, c.cacheType = .registry i → c.intoOptions =
      ("type".toList, "registry".toList) :: ("ref".toList, i.asStr) ::
        c.options.filter (fun e => e.1 ≠ "type".toList ∧ e.1 ≠ "ref".toList)) ∧
    (∀ t, c.cacheType = .other t → c.intoOptions =
      ("type".toList, t) :: c.options.filter (fun e => e.1 ≠ "type".toList)) ∧
    ((c.options.map (·.1)).Nodup → (c.intoOptions.map (·.1)).Nodup) := by
  have hne : "ref".toList ≠ "type".toList := by decide
  have hdup : ∀ (m : IndexMap Str Str) k v, (m.map (·.1)).Nodup → ((m.shiftInsertFront k v).map (·.1)).Nodup := by
    intro m k v h
    unfold IndexMap.shiftInsertFront
    rw [List.map_cons, List.nodup_cons]
    refine ⟨?_, h.sublist (List.filter_sublist.map _)⟩
    intro hm
    obtain ⟨e, he, h⟩ := List.mem_map.1 hm
    have := (List.mem_filter.1 he).2
    simp only [ne_eq, decide_eq_true_eq] at this
    exact this h
  unfold Cache.intoOptions
  generalize "ref".toList = F at *
  generalize "type".toList = T at *
  refine ⟨fun i hi => ?_, fun t ht => ?_, fun h => ?_⟩
  · rw [hi]
    simp only [IndexMap.shiftInsertFront]
    rw [List.filter_cons_of_pos (by simpa using hne), List.filter_filter]
    congr 2
    apply List.filter_congr
    intro e _
    simp
  · rw [ht]; rfl
  · cases c.cacheType with
    | registry i => exact hdup _ _ _ (hdup _ _ _ h)
    | other t => exact hdup _ _ _ h

example : Cache.parse "type=local,src=a/b,src=c=d".toList =
    .ok ⟨.other "local".toList, [("src".toList, "c=d".toList)]⟩ := by decide
example : ∃ i, Image.parse "img:v1".toList = .ok i ∧ Cache.parse "type=registry,a=b,ref=img:v1".toList =
    .ok ⟨.registry i, [("a".toList, "b".toList)]⟩ := ⟨⟨"img:v1".toList, none, some (.tag 4)⟩, by rfl, by decide⟩
example : ∃ e, Cache.parse "type=local".toList = .error (.image e) := ⟨_, by rfl⟩
example : Cache.parse "type=local,src".toList = .error (.cacheOption .empty) := by decide
example : Cache.parse "type=registry,src=b".toList = .error .missingRef := by decide
example : Cache.show ⟨.other "gha".toList, [("mode".toList, "max".toList), ("url".toList, "x".toList)]⟩ =
    "type=gha,mode=max,url=x".toList := by decide

end Props
