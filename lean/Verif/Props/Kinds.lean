import Verif.Spec.Kinds
import Verif.Spec.Structs
import Verif.Model.Visitors
import Verif.Props.Structs

/- C90: every type is read from the documented kinds of values, by the visitors of the code. -/

namespace Props
open Rust Compose Spec

private theorem reads {α : Type} {c : Codec α} {kinds : List Kind} (yes : ∀ k ∈ kinds, ∃ v x, kindOf v = k ∧ c.de v = .ok x)
    (no : ∀ v x, c.de v = .ok x → kindOf v ∈ kinds) : ReadFrom c kinds := by
  refine fun k => ⟨yes k, ?_⟩
  rintro ⟨v, x, rfl, h⟩
  exact no v x h

private theorem reads_text {α : Type} {parse : Str → Option α} {f : α → Str} {valid : α → Prop} (s : Str) (x : α)
    (h : parse s = some x) : ReadFrom (Codecs.text parse f valid) [.string] := by
  refine reads (fun k hk => ⟨.str s, x, (List.mem_singleton.1 hk).symm, ?_⟩) fun v x h => ?_
  · show Outcome.ofOption (parse s) = .ok x
    rw [h]; rfl
  · cases v <;> first | (cases h; done) | exact List.mem_singleton.2 rfl

private theorem kind_i64 {i : Int} (h : 0 ≤ i) : kindOf (.i64 i) = .integer := if_neg (by omega)

/-- C90: the types read from strings are read from strings only. -/
theorem C90_texts (E : Env) : ∀ r ∈ textKinds E, ReadFrom r.codec r.kinds := by
  unfold textKinds
  refine List.forall_mem_cons.2 ⟨reads_text "a".toList _ rfl, ?_⟩
  refine List.forall_mem_cons.2 ⟨reads_text "a".toList _ rfl, ?_⟩
  refine List.forall_mem_cons.2 ⟨reads_text "a".toList _ rfl, ?_⟩
  refine List.forall_mem_cons.2 ⟨reads_text "/".toList _ rfl, ?_⟩
  refine List.forall_mem_cons.2 ⟨reads_text "/".toList _ rfl, ?_⟩
  refine List.forall_mem_cons.2 ⟨reads_text "0".toList _ rfl, ?_⟩
  refine List.forall_mem_cons.2 ⟨reads_text "a".toList _ rfl, ?_⟩
  refine List.forall_mem_cons.2 ⟨reads_text "a".toList _ rfl, ?_⟩
  refine List.forall_mem_cons.2 ⟨reads_text "a".toList _ rfl, ?_⟩
  refine List.forall_mem_cons.2 ⟨reads_text "vip".toList _ rfl, ?_⟩
  refine List.forall_mem_cons.2 ⟨reads_text "gpu".toList _ rfl, ?_⟩
  refine List.forall_mem_cons.2 ⟨reads_text "host".toList _ rfl, ?_⟩
  refine List.forall_mem_cons.2 ⟨reads_text "a".toList _ rfl, ?_⟩
  refine List.forall_mem_cons.2 ⟨reads_text "/a:/a".toList _ rfl, ?_⟩
  refine List.forall_mem_cons.2 ⟨reads_text "a *:* r".toList _ rfl, ?_⟩
  refine List.forall_mem_cons.2 ⟨reads_text "00:00:00:00:00:00".toList _ rfl, ?_⟩
  refine List.forall_mem_cons.2 ⟨reads_text "linux/amd64".toList _ rfl, ?_⟩
  refine List.forall_mem_cons.2 ⟨reads_text "/a".toList _ rfl, ?_⟩
  refine List.forall_mem_cons.2 ⟨reads_text "z".toList _ rfl, ?_⟩
  refine List.forall_mem_cons.2 ⟨reads_text "default".toList _ rfl, ?_⟩
  refine List.forall_mem_cons.2 ⟨reads_text "a".toList _ rfl, ?_⟩
  refine List.forall_mem_cons.2 ⟨reads_text "a".toList _ rfl, ?_⟩
  refine List.forall_mem_cons.2 ⟨reads_text "a".toList _ rfl, ?_⟩
  refine List.forall_mem_cons.2 ⟨reads_text "0".toList _ rfl, ?_⟩
  refine List.forall_mem_cons.2 ⟨reads_text "tcp".toList _ rfl, ?_⟩
  refine List.forall_mem_cons.2 ⟨reads_text "global".toList _ rfl, ?_⟩
  refine List.forall_mem_cons.2 ⟨reads_text "none".toList _ rfl, ?_⟩
  refine List.forall_mem_cons.2 ⟨reads_text "pause".toList _ rfl, ?_⟩
  refine List.forall_mem_cons.2 ⟨reads_text "stop-first".toList _ rfl, ?_⟩
  refine List.forall_mem_cons.2 ⟨reads_text "sync".toList _ rfl, ?_⟩
  refine List.forall_mem_cons.2 ⟨reads_text "service_started".toList _ rfl, ?_⟩
  refine List.forall_mem_cons.2 ⟨reads_text "host".toList _ rfl, ?_⟩
  refine List.forall_mem_cons.2 ⟨reads_text "host".toList _ rfl, ?_⟩
  refine List.forall_mem_cons.2 ⟨reads_text "always".toList _ rfl, ?_⟩
  refine List.forall_mem_cons.2 ⟨reads_text "no".toList _ rfl, ?_⟩
  refine List.forall_mem_cons.2 ⟨reads_text "host".toList _ rfl, ?_⟩
  refine List.forall_mem_cons.2 ⟨reads_text "private".toList _ rfl, ?_⟩
  exact nofun

/-- One value of every kind, with what is read from it. -/
private theorem yes_cons {α : Type} {c : Codec α} {k : Kind} {ks : List Kind} (v : Content) (x : α) (hv : kindOf v = k)
    (hx : c.de v = .ok x) (h : ∀ k ∈ ks, ∃ v x, kindOf v = k ∧ c.de v = .ok x) :
    ∀ k' ∈ k :: ks, ∃ v x, kindOf v = k' ∧ c.de v = .ok x :=
  List.forall_mem_cons.2 ⟨⟨v, x, hv, hx⟩, h⟩

private theorem yes_nil {α : Type} {c : Codec α} : ∀ k ∈ ([] : List Kind), ∃ v x, kindOf v = k ∧ c.de v = .ok x := nofun

/-- A value of a kind that is not listed is refused. -/
private theorem no_cases {α : Type} {c : Codec α} {ks : List Kind} (unit : .null ∈ ks ∨ ∀ x, c.de .unit ≠ .ok x)
    (bool : .boolean ∈ ks ∨ ∀ b x, c.de (.bool b) ≠ .ok x) (int : .integer ∈ ks ∨ ∀ n x, c.de (.u64 n) ≠ .ok x)
    (pos : .integer ∈ ks ∨ ∀ i x, 0 ≤ i → c.de (.i64 i) ≠ .ok x) (neg : .negative ∈ ks ∨ ∀ i x, i < 0 → c.de (.i64 i) ≠ .ok x)
    (float : .float ∈ ks ∨ ∀ f x, c.de (.f64 f) ≠ .ok x) (str : .string ∈ ks ∨ ∀ s x, c.de (.str s) ≠ .ok x)
    (seq : .list ∈ ks ∨ ∀ l x, c.de (.seq l) ≠ .ok x) (map : .mapping ∈ ks ∨ ∀ m x, c.de (.map m) ≠ .ok x) :
    ∀ v x, c.de v = .ok x → kindOf v ∈ ks := by
  intro v x h
  cases v with
  | unit => exact unit.resolve_right fun n => n x h
  | bool b => exact bool.resolve_right fun n => n b x h
  | u64 n => exact int.resolve_right fun no => no n x h
  | f64 f => exact float.resolve_right fun n => n f x h
  | str s => exact str.resolve_right fun n => n s x h
  | seq l => exact seq.resolve_right fun n => n l x h
  | map m => exact map.resolve_right fun n => n m x h
  | i64 i =>
    by_cases hi : i < 0
    · rw [show kindOf (.i64 i) = .negative from if_pos hi]; exact neg.resolve_right fun n => n i x hi h
    · rw [kind_i64 (by omega)]; exact pos.resolve_right fun n => n i x (by omega) h

/-- The kinds that are listed are dismissed by computation, and those refused without looking at the value. -/
macro "other_kinds" : tactic =>
  `(tactic| (refine no_cases ?_ ?_ ?_ ?_ ?_ ?_ ?_ ?_ ?_ <;> first | (refine Or.inl ?_; simp only [List.mem_cons, true_or, or_true]; done) | (refine Or.inr ?_; intros; intro e; cases e; done) | skip))

private theorem no_negative {max : Nat} {i : Int} (h : i < 0) : deUnsigned max (.i64 i) = none := if_neg (by omega)

/-- C90: the types read from single values are read from the kinds listed for them, and from no others. -/
theorem C90_scalars (E : Env) (hf : ∃ s x c, E.float.parse s = some x ∧ Cpus.new x = .ok c) :
    ∀ r ∈ scalarKinds E, ReadFrom r.codec r.kinds := by
  unfold scalarKinds
  -- `Value` and `StringOrNumber`
  refine List.forall_mem_cons.2 ⟨reads (yes_cons (.bool true) _ rfl rfl (yes_cons (.u64 1) _ rfl rfl
    (yes_cons (.i64 (-1)) _ rfl rfl (yes_cons (.f64 0) _ rfl rfl (yes_cons (.str []) _ rfl rfl yes_nil))))) ?_, ?_⟩
  · other_kinds
  refine List.forall_mem_cons.2 ⟨reads (yes_cons (.u64 1) _ rfl rfl
    (yes_cons (.i64 (-1)) _ rfl rfl (yes_cons (.f64 0) _ rfl rfl (yes_cons (.str []) _ rfl rfl yes_nil)))) ?_, ?_⟩
  · other_kinds
  -- strings, booleans, integers
  refine List.forall_mem_cons.2 ⟨reads_text [] _ rfl, ?_⟩
  refine List.forall_mem_cons.2 ⟨reads (yes_cons (.bool true) _ rfl rfl yes_nil) (by other_kinds), ?_⟩
  refine List.forall_mem_cons.2 ⟨reads (yes_cons (.u64 1) _ rfl rfl yes_nil) ?_, ?_⟩
  · other_kinds
    exact .inr fun i x h e => by simp [Codecs.u16, Codecs.unsigned, Codecs.plain, no_negative h, Outcome.ofOption] at e
  refine List.forall_mem_cons.2 ⟨reads (yes_cons (.u64 1) _ rfl rfl yes_nil) ?_, ?_⟩
  · other_kinds
    exact .inr fun i x h e => by simp [Codecs.u32, Codecs.unsigned, Codecs.plain, no_negative h, Outcome.ofOption] at e
  refine List.forall_mem_cons.2 ⟨reads (yes_cons (.u64 1) _ rfl rfl yes_nil) ?_, ?_⟩
  · other_kinds
    exact .inr fun i x h e => by simp [Codecs.u64, Codecs.unsigned, Codecs.plain, no_negative h, Outcome.ofOption] at e
  -- the numbers with bounds
  refine List.forall_mem_cons.2 ⟨reads (yes_cons (.u64 1) _ rfl rfl yes_nil) ?_, ?_⟩
  · other_kinds
    exact .inr fun i x h e => by
      simp [Codecs.percent, Percent.deserialize, Codecs.plain, no_negative h, Outcome.ofOption] at e
  refine List.forall_mem_cons.2 ⟨reads (yes_cons (.u64 1) _ rfl rfl (yes_cons (.i64 (-1)) _ rfl rfl yes_nil)) ?_, ?_⟩
  · other_kinds
  refine List.forall_mem_cons.2 ⟨reads (yes_cons (.u64 10) _ rfl rfl yes_nil) ?_, ?_⟩
  · other_kinds
    exact .inr fun i x h e => by
      simp [Codecs.weight, Weight.deserialize, Codecs.plain, no_negative h, Outcome.ofOption] at e
  -- `Cpus`
  obtain ⟨s, f, c, hs, hc⟩ := hf
  refine List.forall_mem_cons.2 ⟨reads (yes_cons (.f64 f) c rfl ?_ (yes_cons (.str s) c rfl ?_ yes_nil)) ?_, ?_⟩
  · simp [Codecs.cpus, Cpus.deserialize, Codecs.plain, hc, Outcome.ofOption, Except.toOption]
  · simp [Codecs.cpus, Cpus.deserialize, Codecs.plain, hs, hc, Outcome.ofOption, Except.toOption]
  · other_kinds
  -- durations
  refine List.forall_mem_cons.2 ⟨reads (yes_cons (.u64 10) _ rfl rfl (yes_cons (.str str!"1s") _ rfl rfl yes_nil)) ?_, ?_⟩
  · other_kinds
    refine .inr fun i x h e => ?_
    have : deserializeDuration (.i64 i) = .err () := if_neg (by omega)
    exact nomatch this.symm.trans e
  refine List.forall_mem_cons.2 ⟨reads (yes_cons .unit _ rfl rfl (yes_cons (.u64 10) _ rfl rfl yes_nil)) ?_, ?_⟩
  · other_kinds
    exact .inr fun i x h e => by
      simp [Codecs.durationUs, deserializeDurationUs, Codecs.plain, no_negative h, Outcome.ofOption] at e
  -- sizes and limits
  refine List.forall_mem_cons.2 ⟨reads (yes_cons (.u64 10) _ rfl rfl (yes_cons (.str str!"1kb") _ rfl rfl yes_nil)) ?_, ?_⟩
  · other_kinds
  refine List.forall_mem_cons.2 ⟨reads (yes_cons (.u64 10) _ rfl rfl (yes_cons (.i64 (-1)) _ rfl rfl
    (yes_cons (.str str!"1kb") _ rfl rfl yes_nil))) ?_, ?_⟩
  · other_kinds
  refine List.forall_mem_cons.2 ⟨reads (yes_cons (.u64 10) _ rfl rfl (yes_cons (.i64 (-1)) _ rfl rfl
    (yes_cons (.str str!"-1") _ rfl rfl yes_nil))) ?_, ?_⟩
  · other_kinds
  refine List.forall_mem_cons.2 ⟨reads (yes_cons (.u64 10) _ rfl rfl (yes_cons (.i64 (-1)) _ rfl rfl
    (yes_cons (.str str!"-1") _ rfl rfl yes_nil))) ?_, ?_⟩
  · other_kinds
  -- identifiers and names, counts, ports
  refine List.forall_mem_cons.2 ⟨reads (yes_cons (.u64 10) _ rfl rfl (yes_cons (.str str!"a") _ rfl rfl yes_nil)) ?_, ?_⟩
  · other_kinds
    refine .inr fun i x h e => ?_
    have : IdOrName.visitInt i = none := if_neg (by omega)
    simp [Codecs.idOrName, Codecs.plain, this, Outcome.ofOption] at e
  refine List.forall_mem_cons.2 ⟨reads (yes_cons (.u64 10) _ rfl rfl (yes_cons (.str str!"all") _ rfl rfl yes_nil)) ?_, ?_⟩
  · other_kinds
  refine List.forall_mem_cons.2 ⟨reads (yes_cons (.u64 10) _ rfl rfl (yes_cons (.str str!"1-2") _ rfl rfl yes_nil)) ?_, ?_⟩
  · other_kinds
    refine .inr fun i x h e => ?_
    simp only [Codecs.range] at e
    rw [deserializeFromStrOrU16, if_neg (by omega)] at e
    cases e
  refine List.forall_mem_cons.2 ⟨reads (yes_cons (.u64 10) _ rfl rfl (yes_cons (.str str!"80:80") _ rfl rfl yes_nil)) ?_, ?_⟩
  · other_kinds
    refine .inr fun i x h e => ?_
    simp only [Codecs.shortPort] at e
    rw [deserializeFromStrOrU16, if_neg (by omega)] at e
    cases e
  refine List.forall_mem_cons.2 ⟨reads (yes_cons (.u64 10) _ rfl rfl (yes_cons (.str str!"1-2") _ rfl rfl yes_nil)) ?_, ?_⟩
  · other_kinds
    refine .inr fun i x h e => ?_
    simp only [Codecs.expose] at e
    rw [deserializeFromStrOrU16, if_neg (by omega)] at e
    cases e
  refine List.forall_mem_cons.2 ⟨reads (yes_cons .unit _ rfl rfl (yes_cons (.str str!"1") _ rfl rfl yes_nil)) ?_, nofun⟩
  other_kinds

/-- C90: an optional value is also read from null. -/
theorem C90_option {α : Type} {c : Codec α} {ks : List Kind} (h : ReadFrom c ks) :
    ReadFrom (Codecs.option c) (.null :: ks) := by
  refine reads (List.forall_mem_cons.2 ⟨⟨.unit, none, rfl, rfl⟩, fun k hk => ?_⟩) fun v x hv => ?_
  · obtain ⟨v, x, hv, hx⟩ := (h k).1 hk
    cases v with
    | unit => exact ⟨.unit, none, hv, rfl⟩
    | _ => exact ⟨_, some x, hv, congrArg (Outcome.map some) hx⟩
  · by_cases hu : v = .unit
    · subst hu; exact List.mem_cons_self
    · refine List.mem_cons_of_mem _ ((h _).2 ⟨v, ?_⟩)
      have : (Codecs.option c).de v = (c.de v).map some := by cases v <;> first | exact absurd rfl hu | rfl
      rw [this] at hv
      cases hd : c.de v with
      | ok y => exact ⟨y, rfl, rfl⟩
      | err e => rw [hd] at hv; cases hv
      | panic => rw [hd] at hv; cases hv

/-- C90: lists and sets are read from lists only, whatever their items are. -/
theorem C90_list {α : Type} [RustEq α] (c : Codec α) :
    ReadFrom (Codecs.list c) [.list] ∧ ReadFrom (Codecs.set c) [.list] := by
  refine ⟨reads (yes_cons (.seq []) _ rfl rfl yes_nil) ?_, reads (yes_cons (.seq []) _ rfl rfl yes_nil) ?_⟩
  · other_kinds
  · other_kinds

/-- A set of service names is read from a list. -/
example : ReadFrom (Codecs.set Codecs.identifier) [.list] := (C90_list _).2

/-- C90: maps are read from mappings only. -/
theorem C90_map {α : Type} (key : Key) (c : Codec α) : ReadFrom (Codecs.map key c) [.mapping] := by
  refine reads (yes_cons (.map []) _ rfl rfl yes_nil) ?_
  other_kinds

example : ReadFrom (Codecs.map Codecs.identifierKey Codecs.expose) [.mapping] := C90_map _ _

/-- C90: one item or a list of them is read from the scalars the item is read from, and from lists. -/
theorem C90_item_or_list {α : Type} [RustEq α] {c : Codec α} {ks : List Kind} (h : ReadFrom c ks) :
    ReadFrom (Codecs.itemOrList c) (.list :: ks.filter fun k => k ≠ .null ∧ k ≠ .list ∧ k ≠ .mapping) := by
  refine reads (List.forall_mem_cons.2 ⟨⟨.seq [], _, rfl, rfl⟩, fun k hk => ?_⟩) fun v x hv => ?_
  · obtain ⟨hk, hn⟩ := List.mem_filter.1 hk
    have hn := of_decide_eq_true hn
    obtain ⟨v, x, rfl, hx⟩ := (h k).1 hk
    refine ⟨v, .item x, rfl, ?_⟩
    cases v with
    | unit => exact absurd rfl hn.1
    | seq l => exact absurd rfl hn.2.1
    | map m => exact absurd rfl hn.2.2
    | _ => exact congrArg (Outcome.map ItemOrList.item) hx
  · have key : (∃ y, (c.de v).map ItemOrList.item = .ok y) → kindOf v ∈ ks := by
      rintro ⟨y, hy⟩
      cases hd : c.de v with
      | ok y => exact (h _).2 ⟨v, y, rfl, hd⟩
      | err e => rw [hd] at hy; cases hy
      | panic => rw [hd] at hy; cases hy
    have rest (hk : kindOf v ∈ ks) (hn : kindOf v ≠ .null ∧ kindOf v ≠ .list ∧ kindOf v ≠ .mapping) :
        kindOf v ∈ Kind.list :: ks.filter fun k => k ≠ .null ∧ k ≠ .list ∧ k ≠ .mapping :=
      List.mem_cons_of_mem _ (List.mem_filter.2 ⟨hk, decide_eq_true hn⟩)
    cases v with
    | unit => cases hv
    | map m => cases hv
    | seq l => exact List.mem_cons_self
    | i64 i => exact rest (key ⟨x, hv⟩) (by simp only [kindOf]; split <;> decide)
    | _ => exact rest (key ⟨x, hv⟩) ⟨nofun, nofun, nofun⟩

/-- A list of names is read from a list, from a string too if it can be one item. -/
example : ReadFrom (Codecs.itemOrList (Codecs.list Codecs.identifier)) [.list] := C90_item_or_list (C90_list _).1

/-- C90: a type with a short and a long syntax is read from mappings if the long syntax is, and from the other kinds the
short syntax is read from. -/
theorem C90_short_or_long {S L : Type} {s : Codec S} {l : Codec L} {ks ls : List Kind} (hs : ReadFrom s ks)
    (hl : ReadFrom l ls) :
    ReadFrom (Codecs.shortOrLong s l) (ks.filter (fun k => k ≠ .mapping) ++ ls.filter fun k => k = .mapping) := by
  have ok {α β : Type} {o : Outcome Unit α} {f : α → β} {y : β} (h : o.map f = .ok y) : ∃ x, o = .ok x := by
    cases o with
    | ok x => exact ⟨x, rfl⟩
    | err e => cases h
    | panic => cases h
  refine reads (fun k hk => ?_) fun v x hv => ?_
  · rcases List.mem_append.1 hk with hk | hk
    · obtain ⟨hk, hn⟩ := List.mem_filter.1 hk
      obtain ⟨v, x, rfl, hx⟩ := (hs k).1 hk
      refine ⟨v, .short x, rfl, ?_⟩
      cases v with
      | map m => exact absurd rfl (of_decide_eq_true hn)
      | _ => exact congrArg (Outcome.map ShortOrLong.short) hx
    · obtain ⟨hk, hn⟩ := List.mem_filter.1 hk
      obtain ⟨v, x, rfl, hx⟩ := (hl k).1 hk
      cases v with
      | map m => exact ⟨.map m, .long x, rfl, congrArg (Outcome.map ShortOrLong.long) hx⟩
      | i64 i => exact absurd (of_decide_eq_true hn) (by simp only [kindOf]; split <;> decide)
      | _ => exact absurd (of_decide_eq_true hn) nofun
  · have short (hk : kindOf v ≠ .mapping) (hx : ∃ y, s.de v = .ok y) :
        kindOf v ∈ ks.filter (fun k => k ≠ .mapping) ++ ls.filter fun k => k = .mapping :=
      List.mem_append_left _ (List.mem_filter.2 ⟨(hs _).2 (hx.elim fun y hy => ⟨v, y, rfl, hy⟩), decide_eq_true hk⟩)
    cases v with
    | map m =>
      obtain ⟨y, hy⟩ := ok hv
      exact List.mem_append_right _ (List.mem_filter.2 ⟨(hl _).2 ⟨.map m, y, rfl, hy⟩, decide_eq_true rfl⟩)
    | i64 i => exact short (by simp only [kindOf]; split <;> decide) (ok hv)
    | _ => exact short nofun (ok hv)

/-- A list in its short form, a mapping in its long one. -/
example : ReadFrom (Codecs.shortOrLong (Codecs.list Codecs.identifier) (Codecs.map Codecs.identifierKey Codecs.expose)) [.list, .mapping] :=
  C90_short_or_long (C90_list _).1 (C90_map _ _)

private theorem reads_struct {is : List Derive.Item} (es : List (Content × Content)) (x : Derive.Record is)
    (h : (Derive.struct is).de (.map es) = .ok x) (hf : noFlat is = false) : ReadFrom (Derive.struct is) [.mapping] := by
  refine reads (yes_cons (.map es) x rfl h yes_nil) ?_
  other_kinds
  exact .inr fun l x h => by rw [Proofs.struct_de_not_list hf] at h; cases h

private theorem reads_listed {is : List Derive.Item} (es : List (Content × Content)) (vs : List Content) (x y : Derive.Record is)
    (h : (Derive.struct is).de (.map es) = .ok x) (h' : (Derive.struct is).de (.seq vs) = .ok y) :
    ReadFrom (Derive.struct is) [.mapping, .list] := by
  refine reads (yes_cons (.map es) x rfl h (yes_cons (.seq vs) y rfl h' yes_nil)) ?_
  other_kinds

/-- C90: the other types. -/
theorem C90_compound (E : Env) : ∀ r ∈ compoundKinds E, ReadFrom r.codec r.kinds := by
  unfold compoundKinds
  refine List.forall_mem_cons.2 ⟨reads (yes_cons (.str []) _ rfl rfl (yes_cons (.seq []) _ rfl rfl yes_nil)) ?_, ?_⟩
  · other_kinds
  refine List.forall_mem_cons.2 ⟨reads (yes_cons (.str []) _ rfl rfl (yes_cons (.seq []) _ rfl rfl yes_nil)) ?_, ?_⟩
  · other_kinds
  refine List.forall_mem_cons.2 ⟨reads (yes_cons (.seq []) _ rfl rfl (yes_cons (.map []) _ rfl rfl yes_nil)) ?_, ?_⟩
  · other_kinds
  refine List.forall_mem_cons.2 ⟨reads (yes_cons (.seq []) _ rfl rfl (yes_cons (.map []) _ rfl rfl yes_nil)) ?_, ?_⟩
  · other_kinds
  refine List.forall_mem_cons.2 ⟨reads (yes_cons (.seq []) _ rfl rfl (yes_cons (.map []) _ rfl rfl yes_nil)) ?_, ?_⟩
  · other_kinds
  refine List.forall_mem_cons.2 ⟨C90_map _ _, ?_⟩
  refine List.forall_mem_cons.2 ⟨reads (yes_cons (.map [(.str str!"disable", .bool true)]) _ rfl rfl yes_nil) ?_, ?_⟩
  · other_kinds
  refine List.forall_mem_cons.2 ⟨reads (yes_cons (.map [(.str str!"file", .str str!"a")]) _ rfl rfl yes_nil) ?_, ?_⟩
  · other_kinds
  have mount : ReadFrom Structs.mount [.mapping] := by
    refine reads (yes_cons (.map [(.str str!"type", .str str!"tmpfs"), (.str str!"target", .str str!"/a")]) _ rfl rfl yes_nil) ?_
    other_kinds
  refine List.forall_mem_cons.2 ⟨mount, ?_⟩
  refine List.forall_mem_cons.2 ⟨C90_short_or_long (s := Codecs.shortVolume) (reads_text str!"/a" _ rfl) mount, ?_⟩
  exact List.forall_mem_cons.2 ⟨C90_map _ _, nofun⟩

/-- C90: the structs are read from mappings, and those that ignore unknown keys from lists as well. -/
theorem C90_structs (E : Env) : ∀ s ∈ structs E, ReadFrom (Derive.struct s.fields) (structKinds s) := by
  unfold structs parts
  refine List.forall_mem_cons.2 ⟨reads_struct [(.str str!"services", .map [])] _ rfl rfl, ?_⟩
  refine List.forall_mem_cons.2 ⟨reads_struct [] _ rfl rfl, ?_⟩
  refine List.forall_mem_cons.2 ⟨reads_struct [] _ rfl rfl, ?_⟩
  refine List.forall_mem_cons.2 ⟨reads_struct [] _ rfl rfl, ?_⟩
  refine List.forall_mem_cons.2 ⟨reads_struct [] _ rfl rfl, ?_⟩
  refine List.forall_mem_cons.2 ⟨reads_struct [(.str str!"file", .str str!"a")] _ rfl rfl, ?_⟩
  refine List.forall_mem_cons.2 ⟨reads_struct [(.str str!"file", .str str!"a")] _ rfl rfl, ?_⟩
  refine List.forall_mem_cons.2 ⟨reads_listed [(.str str!"path", .str str!"/a")] [.str str!"/a"] _ _ rfl rfl, ?_⟩
  refine List.forall_mem_cons.2 ⟨reads_listed [(.str str!"path", .str str!"/a"), (.str str!"rate", .u64 1)] [.str str!"/a", .u64 1] _ _ rfl rfl, ?_⟩
  refine List.forall_mem_cons.2 ⟨reads_listed [(.str str!"path", .str str!"/a"), (.str str!"rate", .u64 1)] [.str str!"/a", .u64 1] _ _ rfl rfl, ?_⟩
  refine List.forall_mem_cons.2 ⟨reads_listed [(.str str!"path", .str str!"/a"), (.str str!"weight", .u64 10)] [.str str!"/a", .u64 10] _ _ rfl rfl, ?_⟩
  refine List.forall_mem_cons.2 ⟨reads_listed [] [] _ _ rfl rfl, ?_⟩
  refine List.forall_mem_cons.2 ⟨reads_struct [(.str str!"source", .str str!"a")] _ rfl rfl, ?_⟩
  refine List.forall_mem_cons.2 ⟨reads_struct [(.str str!"soft", .u64 1), (.str str!"hard", .u64 1)] _ rfl rfl, ?_⟩
  refine List.forall_mem_cons.2 ⟨reads_struct [] _ rfl rfl, ?_⟩
  refine List.forall_mem_cons.2 ⟨reads_struct [] _ rfl rfl, ?_⟩
  refine List.forall_mem_cons.2 ⟨reads_struct [] _ rfl rfl, ?_⟩
  refine List.forall_mem_cons.2 ⟨reads_struct [] _ rfl rfl, ?_⟩
  refine List.forall_mem_cons.2 ⟨reads_struct [] _ rfl rfl, ?_⟩
  refine List.forall_mem_cons.2 ⟨reads_struct [] _ rfl rfl, ?_⟩
  refine List.forall_mem_cons.2 ⟨reads_struct [] _ rfl rfl, ?_⟩
  refine List.forall_mem_cons.2 ⟨reads_struct [] _ rfl rfl, ?_⟩
  refine List.forall_mem_cons.2 ⟨reads_struct [(.str str!"capabilities", .seq [])] _ rfl rfl, ?_⟩
  refine List.forall_mem_cons.2 ⟨reads_struct [] _ rfl rfl, ?_⟩
  refine List.forall_mem_cons.2 ⟨reads_struct [] _ rfl rfl, ?_⟩
  refine List.forall_mem_cons.2 ⟨reads_struct [] _ rfl rfl, ?_⟩
  refine List.forall_mem_cons.2 ⟨reads_struct [(.str str!"action", .str str!"sync"), (.str str!"path", .str str!"/a")] _ rfl rfl, ?_⟩
  refine List.forall_mem_cons.2 ⟨reads_listed [] [] _ _ rfl rfl, ?_⟩
  refine List.forall_mem_cons.2 ⟨reads_listed [(.str str!"path", .str str!"/a")] [.str str!"/a"] _ _ rfl rfl, ?_⟩
  refine List.forall_mem_cons.2 ⟨reads_listed [(.str str!"condition", .str str!"service_started")] [.str str!"service_started"] _ _ rfl rfl, ?_⟩
  refine List.forall_mem_cons.2 ⟨reads_listed [(.str str!"service", .str str!"a")] [.str str!"a"] _ _ rfl rfl, ?_⟩
  refine List.forall_mem_cons.2 ⟨reads_struct [] _ rfl rfl, ?_⟩
  refine List.forall_mem_cons.2 ⟨reads_struct [(.str str!"target", .u64 80)] _ rfl rfl, ?_⟩
  refine List.forall_mem_cons.2 ⟨reads_struct [(.str str!"target", .str str!"/a")] _ rfl rfl, ?_⟩
  refine List.forall_mem_cons.2 ⟨reads_struct [] _ rfl rfl, ?_⟩
  refine List.forall_mem_cons.2 ⟨reads_struct [(.str str!"target", .str str!"/a")] _ rfl rfl, ?_⟩
  refine List.forall_mem_cons.2 ⟨reads_struct [] _ rfl rfl, ?_⟩
  refine List.forall_mem_cons.2 ⟨reads_struct [(.str str!"source", .str str!"/a"), (.str str!"target", .str str!"/a")] _ rfl rfl, ?_⟩
  refine List.forall_mem_cons.2 ⟨reads_struct [] _ rfl rfl, ?_⟩
  refine List.forall_mem_cons.2 ⟨reads_struct [(.str str!"target", .str str!"/a")] _ rfl rfl, ?_⟩
  refine List.forall_mem_cons.2 ⟨reads_struct [(.str str!"source", .str str!"/a"), (.str str!"target", .str str!"/a")] _ rfl rfl, ?_⟩
  refine List.forall_mem_cons.2 ⟨reads_struct [(.str str!"source", .str str!"/a"), (.str str!"target", .str str!"/a")] _ rfl rfl, ?_⟩
  refine List.forall_mem_cons.2 ⟨reads_struct [] _ rfl rfl, ?_⟩
  refine List.forall_mem_cons.2 ⟨reads_struct [] _ rfl rfl, ?_⟩
  nofun

/-- A network name is a string; a healthcheck is a mapping; a file of Compose is read from a mapping or, as structs are, a
list. -/
example : ReadFrom Codecs.identifier [.string] := C90_texts sampleEnv ⟨_, Codecs.identifier, [.string]⟩ (by simp only [textKinds, List.mem_cons, true_or])
example : ReadFrom Codecs.healthcheck [.mapping] :=
  C90_compound sampleEnv ⟨_, Codecs.healthcheck, [.mapping]⟩ (by simp only [compoundKinds, List.mem_cons, true_or, or_true])

/-- Two readers agree if they do so on every kind of value. -/
private theorem readers_agree {α : Type} {f g : Content → Outcome Unit α} (unit : f .unit = g .unit)
    (bool : ∀ b, f (.bool b) = g (.bool b)) (u64 : ∀ n, n < 2 ^ 64 → f (.u64 n) = g (.u64 n))
    (i64 : ∀ i, -2 ^ 63 ≤ i → i < 2 ^ 63 → f (.i64 i) = g (.i64 i)) (f64 : ∀ x, f (.f64 x) = g (.f64 x))
    (str : ∀ s, f (.str s) = g (.str s)) (seq : ∀ l, f (.seq l) = g (.seq l)) (map : ∀ m, f (.map m) = g (.map m)) :
    ∀ c, Deliverable c → f c = g c := by
  intro c hc
  cases c with
  | unit => exact unit
  | bool b => exact bool b
  | u64 n => exact u64 n hc
  | i64 i => exact i64 i hc.1 hc.2
  | f64 x => exact f64 x
  | str s => exact str s
  | seq l => exact seq l
  | map m => exact map m

macro "by_kinds" : tactic =>
  `(tactic| (refine readers_agree ?_ ?_ ?_ ?_ ?_ ?_ ?_ ?_ <;> first | rfl | (intros; rfl) | skip))

private theorem tryUnsigned_nat {max n : Nat} (h : n ≤ max) : Visitor.tryUnsigned max n = .ok n := by
  rw [Visitor.tryUnsigned, if_pos ⟨by omega, by omega⟩]; rfl

private theorem limit_agrees {T : Type} (de : Content → Option T) :
    ∀ c, Deliverable c → Outcome.ofOption (Limit.deserialize de c) =
      (Visitor.limit fun c => Outcome.ofOption (de c)).deserializeAny c := by
  have value (c : Content) : Outcome.ofOption ((de c).map Limit.value) = (Outcome.ofOption (de c)).map Limit.value := by
    cases de c <;> rfl
  by_kinds
  · exact fun n _ => value _
  · intro i _ _
    show Outcome.ofOption
        (if i ≤ -2 then none else if i = -1 then some Limit.unlimited else (de (.u64 i.natAbs)).map Limit.value) =
      if i ≤ -2 then .err () else if i = -1 then .ok Limit.unlimited else _
    split
    · rfl
    · split
      · rfl
      · rw [value, show i.natAbs = i.toNat by omega]
  · intro s
    show Outcome.ofOption (if s = _ then some Limit.unlimited else (de (.str s)).map Limit.value) =
      if s = _ then .ok Limit.unlimited else _
    split
    · rfl
    · exact value _

private theorem fromStrOrU16_agrees {α ε : Type} {ofU16 : Nat → α} {parse : Str → Outcome ε α} {parse' : Str → Outcome Unit α}
    (h : ∀ s, (match parse s with | .ok a => .ok a | .err _ => .err () | .panic => .panic) = parse' s) :
    ∀ c, Deliverable c → deserializeFromStrOrU16 ofU16 parse c = (Visitor.fromStrOrU16 ofU16 parse').deserializeAny c := by
  by_kinds
  · intro n _
    show (if n ≤ u16Max then .ok (ofU16 n) else .err ()) = (Visitor.tryUnsigned u16Max n).map ofU16
    split
    · rename_i h; rw [tryUnsigned_nat h]; rfl
    · rw [Visitor.tryUnsigned, if_neg (by omega)]; rfl
  · intro i _ _
    show (if 0 ≤ i ∧ i ≤ u16Max then .ok (ofU16 i.natAbs) else .err ()) = (Visitor.tryUnsigned u16Max i).map ofU16
    rw [Visitor.tryUnsigned]
    split
    · rw [show i.natAbs = i.toNat by omega]; rfl
    · rfl
  · exact h

/-- C90: what is read for a type is what its visitor makes of the value that serde delivers. -/
theorem C90_visitors (E : Env) : ∀ r ∈ Visitor.readers E, ∀ c, Deliverable c → r.codec.de c = r.read c := by
  unfold Visitor.readers
  refine List.forall_mem_cons.2 ⟨by by_kinds, ?_⟩
  refine List.forall_mem_cons.2 ⟨by by_kinds, ?_⟩
  refine List.forall_mem_cons.2 ⟨by by_kinds, ?_⟩
  refine List.forall_mem_cons.2 ⟨by by_kinds, ?_⟩
  refine List.forall_mem_cons.2 ⟨by by_kinds, ?_⟩
  refine List.forall_mem_cons.2 ⟨?_, ?_⟩
  · by_kinds
    intro s
    show Outcome.ofOption (match E.float.parse s with | some v => (Cpus.new v).toOption | none => none) =
      (Outcome.ofOption (E.float.parse s)).bind fun x => Outcome.ofOption (Cpus.new x).toOption
    cases E.float.parse s <;> rfl
  refine List.forall_mem_cons.2 ⟨?_, ?_⟩
  · by_kinds
    intro n hn
    have : n ≤ u64Max := by simp only [u64Max]; omega
    show Outcome.ofOption (if n ≤ u64Max then _ else _) = _
    rw [if_pos this]; rfl
  refine List.forall_mem_cons.2 ⟨limit_agrees _, ?_⟩
  refine List.forall_mem_cons.2 ⟨limit_agrees _, ?_⟩
  refine List.forall_mem_cons.2 ⟨limit_agrees _, ?_⟩
  refine List.forall_mem_cons.2 ⟨by by_kinds, ?_⟩
  refine List.forall_mem_cons.2 ⟨?_, ?_⟩
  · have int (i : Int) : Outcome.ofOption (IdOrName.visitInt i) = (Visitor.tryUnsigned u32Max i).map IdOrName.id := by
      rw [IdOrName.visitInt, Visitor.tryUnsigned]
      split <;> rfl
    by_kinds
    · exact fun n _ => int n
    · exact fun i _ _ => int i
  refine List.forall_mem_cons.2 ⟨fromStrOrU16_agrees fun s => ?_, ?_⟩
  · cases Range.fromStr s <;> rfl
  refine List.forall_mem_cons.2 ⟨fromStrOrU16_agrees fun s => ?_, ?_⟩
  · cases ShortPort.fromStr (fun s => (E.ip.parse s).elim (.error ()) .ok) s <;> rfl
  refine List.forall_mem_cons.2 ⟨fromStrOrU16_agrees fun s => ?_, ?_⟩
  · cases Expose.fromStr s <;> rfl
  refine List.forall_mem_cons.2 ⟨?_, ?_⟩
  · by_kinds
    · intro n hn
      have : n ≤ u64Max := by simp only [u64Max]; omega
      exact if_pos this
    · intro i _ _
      show (if 0 ≤ i ∧ i ≤ u64Max then .ok (some (Duration.fromMicros i.natAbs)) else .err ()) =
        (Visitor.tryUnsigned u64Max i).map fun n => some (Duration.fromMicros n)
      rw [Visitor.tryUnsigned]
      split
      · rw [show i.natAbs = i.toNat by omega]; rfl
      · rfl
  refine List.forall_mem_cons.2 ⟨by by_kinds, nofun⟩

/-- The visitor of durations would take a missing value, but null is not delivered as one. -/
example : Visitor.duration.visitNone = .ok none ∧ Visitor.duration.deserializeAny .unit = .err () ∧
    Codecs.duration.de .unit = .err () := ⟨rfl, rfl, rfl⟩

/-- A list of services is not read from a single name, nor a port from a boolean; a size is read from a number. -/
example : (∀ x, (Codecs.list Codecs.identifier).de (.str "web".toList) ≠ .ok x) ∧ (∀ b x, Codecs.expose.de (.bool b) ≠ .ok x) ∧
    Codecs.byteValue.de (.u64 1024) = .ok (.bytes 1024) := ⟨nofun, nofun, rfl⟩

/-- Memory limits can be null, an integer, a negative integer or a string. -/
example : ReadFrom (Codecs.option Codecs.byteLimit) [.null, .integer, .negative, .string] := by
  refine C90_option (c := Codecs.byteLimit) ?_
  let E : Env := { sampleEnv with float := ⟨fun s => if s = "0.0".toList then some 0 else none, fun _ => "0.0".toList⟩ }
  exact C90_scalars E ⟨"0.0".toList, 0, ⟨0⟩, rfl, rfl⟩ ⟨_, Codecs.byteLimit, [.integer, .negative, .string]⟩
    (by simp only [scalarKinds, List.mem_cons, true_or, or_true])

end Props
