import Verif.Proofs.Loaded
import Verif.Props.Validate
import Verif.Props.Meaning

/- C96: what validation says about a file that was read, in terms of the document it was read from. -/

namespace Props
open Rust Compose Compose.Derive Spec Spec.Schemas Spec.Document Proofs.Loaded

/-- The fields of a service that validation reads, and what the schema says of them. -/
structure ServiceFields (E : Env) (c : Content) (es : List (Str × Content)) (s : Record (Structs.service E)) where
  configs : List (ShortOrLong Str (Record Structs.configOrSecret))
  networks : Option (NetworkConfigOf (Structs.Networks E))
  secrets : List (ShortOrLong Str (Record Structs.configOrSecret))
  volumes : List (ShortOrLong ShortVolume Structs.MountOf)
  load : Load.service E s = ⟨networks.map (Load.networkConfig E), volumes.map (Load.longForm Load.mount),
    configs.map (Load.longForm Load.configOrSecret), secrets.map (Load.longForm Load.configOrSecret)⟩
  hconfigs : (∃ v, given es "configs".toList = [v] ∧ configsOrSecrets v configs) ∨
    (given es "configs".toList = [] ∧ some [] = some configs)
  hsecrets : (∃ v, given es "secrets".toList = [v] ∧ configsOrSecrets v secrets) ∨
    (given es "secrets".toList = [] ∧ some [] = some secrets)
  hnetworks : (NoneOf (networkFields (Schemas.networks E)) es ∧ networks = none) ∨
    ∃ x, OneOf (networkFields (Schemas.networks E)) es x ∧ networks = some x
  hvolumes : (∃ v, given es "volumes".toList = [v] ∧
      Meaning.distinctBy (EqualForm EqualShortVolume (EqualMount E)) (Meaning.shortOrLong (Meaning.text ShortVolumeText) mount) v volumes) ∨
    (given es "volumes".toList = [] ∧ some [] = some volumes)

theorem serviceFields (E : Env) {c : Content} {es : List (Str × Content)} {s : Record (Structs.service E)}
    (h : (Schemas.service E).Stands (Schemas.service E).keys es s) : Nonempty (ServiceFields E c es s) :=
  ⟨⟨(Load.rest 17 (Structs.service E) s).1, (Load.rest 48 (Structs.service E) s).1, (Load.rest 67 (Structs.service E) s).1,
    (Load.rest 80 (Structs.service E) s).1, rfl, h.2.2.2.2.2.2.2.2.2.2.2.2.2.2.2.2.2.1, h.2.2.2.2.2.2.2.2.2.2.2.2.2.2.2.2.2.2.2.2.2.2.2.2.2.2.2.2.2.2.2.2.2.2.2.2.2.2.2.2.2.2.2.2.2.2.2.2.2.2.2.2.2.2.2.2.2.2.2.2.2.2.2.2.2.2.2.1, h.2.2.2.2.2.2.2.2.2.2.2.2.2.2.2.2.2.2.2.2.2.2.2.2.2.2.2.2.2.2.2.2.2.2.2.2.2.2.2.2.2.2.2.2.2.2.2.2.1, h.2.2.2.2.2.2.2.2.2.2.2.2.2.2.2.2.2.2.2.2.2.2.2.2.2.2.2.2.2.2.2.2.2.2.2.2.2.2.2.2.2.2.2.2.2.2.2.2.2.2.2.2.2.2.2.2.2.2.2.2.2.2.2.2.2.2.2.2.2.2.2.2.2.2.2.2.2.2.2.2.1⟩⟩

/-! ### Networks -/

theorem items_mem {α : Type} {m : Meaning α} {v : Content} {l : List α} (h : Meaning.items m v l) :
    ∃ vs, v = .seq vs ∧ (∀ c ∈ vs, ∃ x ∈ l, m c x) ∧ ∀ x ∈ l, ∃ c ∈ vs, m c x := by
  obtain ⟨vs, rfl, hf⟩ := h
  refine ⟨vs, rfl, ?_, ?_⟩
  · induction hf with
    | nil => simp
    | cons h _ ih =>
      intro c hc
      rcases List.mem_cons.1 hc with rfl | hc
      · exact ⟨_, by simp, h⟩
      · obtain ⟨x, hx, hm⟩ := ih c hc
        exact ⟨x, by simp [hx], hm⟩
  · induction hf with
    | nil => simp
    | cons h _ ih =>
      intro x hx
      rcases List.mem_cons.1 hx with rfl | hx
      · exact ⟨_, by simp, h⟩
      · obtain ⟨c, hc, hm⟩ := ih x hx
        exact ⟨c, by simp [hc], hm⟩

theorem not_at_seq {vs : List Content} {k : Str} {x : Content} : ¬ At (.seq vs) k x := by
  rintro ⟨es, h, _⟩
  cases h

theorem not_at_unit {k : Str} {x : Content} : ¬ At .unit k x := by
  rintro ⟨es, h, _⟩
  cases h

theorem not_at_str {s k : Str} {x : Content} : ¬ At (.str s) k x := by
  rintro ⟨es, h, _⟩
  cases h

theorem notGiven_networks {c : Content} {es : List (Str × Content)} (hc : Entries c es) (h : NotGiven es "networks".toList)
    (n : Str) : ¬ NamesNetwork c n := by
  rintro ⟨v, hv, h'⟩
  rcases h with h | h
  · exact at_missing hc h hv
  · rw [at_given hc h] at hv
    subst hv
    rcases h' with ⟨_, h', _⟩ | ⟨_, h'⟩
    · cases h'
    · exact not_at_unit h'

theorem service_networks (E : Env) {c : Content} {es : List (Str × Content)} {s : Record (Structs.service E)}
    (hc : Entries c es) (f : ServiceFields E c es s) (n : Str) :
    NamesNetwork c n ↔ n ∈ usedNetworks (Load.service E s) := by
  rw [f.load]
  rcases f.hnetworks with ⟨hn, ho⟩ | ⟨x, ⟨g, hg, ⟨v, hv, hd⟩, hother⟩, ho⟩
  · rw [ho]
    simp only [usedNetworks, Option.map_none, List.not_mem_nil, iff_false]
    exact notGiven_networks hc (hn _ (List.mem_cons_of_mem _ List.mem_cons_self)) n
  · rw [ho]
    simp only [networkFields, List.mem_cons, List.not_mem_nil, or_false] at hg
    rcases hg with rfl | rfl
    · obtain ⟨t, m, _, _, rfl⟩ := hd
      simp only [usedNetworks, Option.map_some, Load.networkConfig, List.not_mem_nil, iff_false]
      exact notGiven_networks hc (hother _ (List.mem_cons_of_mem _ List.mem_cons_self) (by simp)) n
    · obtain ⟨y, hy, rfl⟩ := hd
      have hat : ∀ w, At c "networks".toList w ↔ w = v := fun w => at_given hc hv.1
      rcases hy with ⟨l, _, hl, rfl⟩ | ⟨l, hnm, hl, rfl⟩
      · simp only [usedNetworks, Option.map_some, Load.networkConfig]
        have := entries_at hl
        constructor
        · rintro ⟨w, hw, h'⟩
          rw [hat] at hw
          subst hw
          rcases h' with ⟨vs, rfl, _⟩ | ⟨x, hx⟩
          · obtain ⟨es, all, h1, _⟩ := hl
            cases h1
          · obtain ⟨o, ho, _⟩ := this.2 _ _ hx
            exact List.mem_map.2 ⟨_, ho, rfl⟩
        · intro hmem
          obtain ⟨⟨k, o⟩, ho, rfl⟩ := List.mem_map.1 hmem
          obtain ⟨x, hx, _⟩ := this.1 _ _ ho
          exact ⟨v, (hat v).2 rfl, Or.inr ⟨x, hx⟩⟩
      · simp only [usedNetworks, Option.map_some, Load.networkConfig]
        obtain ⟨all, hall, rfl⟩ := hl
        obtain ⟨vs, rfl, h1, h2⟩ := items_mem hall
        constructor
        · rintro ⟨w, hw, h'⟩
          rw [hat] at hw
          subst hw
          rcases h' with ⟨vs', hvs, hm⟩ | ⟨x, hx⟩
          · cases hvs
            obtain ⟨x, hx, he, _⟩ := h1 _ hm
            cases he
            obtain ⟨z, hz, h⟩ := firstsBy_mem Eq all _ hx
            rcases h with rfl | rfl <;> exact hz
          · exact absurd hx not_at_seq
        · intro hmem
          obtain ⟨x, hx, he, _⟩ := h2 _ ((firstsBy_sublist Eq all).subset hmem)
          subst he
          exact ⟨_, (hat _).2 rfl, Or.inl ⟨vs, rfl, hx⟩⟩

/-- A struct that may not be given as a list is given as a mapping. -/
theorem entries_of_given {p : Prop} {ks : List Str} {v : Content} {es : List (Str × Content)} (hp : ¬ p) (h : GivenAs p ks v es) :
    Entries v es := by
  cases h with
  | mapping => rfl
  | list h => exact absurd h hp

/-! ### Configs and secrets -/

theorem configs_mem {key : String} {c : Content} {es : List (Str × Content)} (hc : Entries c es)
    {l : List (ShortOrLong Str (Record Structs.configOrSecret))}
    (h : (∃ v, given es key.toList = [v] ∧ configsOrSecrets v l) ∨ (given es key.toList = [] ∧ some [] = some l)) (n : Str) :
    NamesIn key c n ↔ n ∈ (l.map (Load.longForm Load.configOrSecret)).map entryName := by
  rcases h with ⟨v, hv, hl⟩ | ⟨hn, hl⟩
  · obtain ⟨vs, rfl, h1, h2⟩ := items_mem hl
    have hat : ∀ w, At c key.toList w ↔ w = .seq vs := fun w => at_given hc hv
    have hitem : ∀ item x, Meaning.shortOrLong (Meaning.valid Identifier) configOrSecret.Means item x →
        ((item = .str n ∨ At item "source".toList (.str n)) ↔ entryName (Load.longForm Load.configOrSecret x) = n) := by
      rintro item x (⟨y, ⟨es', rfl⟩, ⟨ms, hms, hst⟩, rfl⟩ | ⟨y, _, ⟨rfl, _⟩, rfl⟩)
      · rcases hst.1 with ⟨w, hw, hid, _⟩ | ⟨_, hno⟩
        · rw [at_given (entries_of_given (fun h => by cases h) hms) hw, hid]
          simp only [reduceCtorEq, Content.str.injEq, false_or, Load.longForm, entryName]
          exact ⟨fun h => (Content.str.inj h).symm, fun h => by rw [← h]; rfl⟩
        · cases hno
      · simp only [Content.str.injEq, not_at_str, or_false, Load.longForm, entryName]
    rw [List.map_map, List.mem_map]
    constructor
    · rintro ⟨vs', item, hi, hmem, h'⟩
      rw [hat] at hi
      cases hi
      obtain ⟨x, hx, hm⟩ := h1 _ hmem
      exact ⟨x, hx, (hitem _ _ hm).1 h'⟩
    · rintro ⟨x, hx, he⟩
      obtain ⟨item, hmem, hm⟩ := h2 x hx
      exact ⟨vs, item, (hat _).2 rfl, hmem, (hitem _ _ hm).2 he⟩
  · cases hl
    simp only [List.map_nil, List.not_mem_nil, iff_false]
    rintro ⟨_, _, hi, _⟩
    exact at_missing hc hn hi

/-! ### Volumes -/

/-- Where an item of `volumes` is mounted. -/
def volumeTarget : ShortOrLong ShortVolume Structs.MountOf → Str
  | .short v => v.containerPath
  | .long m => (Load.mount m).common.target

theorem given_filter {es : List (Str × Content)} {p : Str → Bool} {k : Str} (hk : p k = true) :
    given (es.filter fun e => p e.1) k = given es k := by
  unfold given
  rw [List.filter_filter]
  congr 1
  apply List.filter_congr
  intro e _
  by_cases h : e.1 = k
  · simp [h, hk]
  · simp [h]

theorem identifier_begin {s : Str} (h : Identifier s) : ∀ c r, s = c :: r → c ≠ '.' ∧ c ≠ '/' := by
  rintro c r rfl
  obtain ⟨a, b, ⟨x, hx, rfl⟩, _, hab⟩ := h
  cases hab
  constructor <;> rintro rfl <;> revert hx <;> decide

theorem hostPath_begin {s : Str} (h : HostPath s) : ∃ c r, s = c :: r ∧ (c = '.' ∨ c = '/') := by
  rcases h with ⟨r, rfl⟩ | rfl | rfl | ⟨r, rfl⟩ | ⟨r, rfl⟩
  · exact ⟨_, _, rfl, Or.inr rfl⟩
  all_goals exact ⟨_, _, rfl, Or.inl rfl⟩

theorem split_colon {a b c d : Str} (ha : ':' ∉ a) (hc : ':' ∉ c) (h : a ++ ':' :: b = c ++ ':' :: d) : a = c ∧ b = d := by
  induction a generalizing c with
  | nil =>
    cases c with
    | nil => cases h; exact ⟨rfl, rfl⟩
    | cons x c => cases h; simp at hc
  | cons x a ih =>
    cases c with
    | nil => cases h; simp at ha
    | cons y c =>
      simp only [List.cons_append, List.cons.injEq] at h
      obtain ⟨rfl, h⟩ := h
      obtain ⟨rfl, rfl⟩ := ih (fun h => ha (by simp [h])) (fun h => hc (by simp [h])) h
      exact ⟨rfl, rfl⟩

theorem short_mounts {t : Str} {v : ShortVolume} (h : ShortVolumeText t v) (n : Str) :
    (sourceVolume (Load.longForm Load.mount (.short v)) = some n → ∃ path, MountsAt (.str t) n path) ∧
    ∀ path, MountsAt (.str t) n path →
      sourceVolume (Load.longForm Load.mount (.short v)) = some n ∧ v.containerPath = path := by
  constructor
  · intro hs
    cases h with
    | anonymous h1 h2 => simp [Load.longForm, sourceVolume] at hs
    | @plain text source path h1 h2 h3 h4 =>
      cases source with
      | hostPath p => simp [Load.longForm, sourceVolume] at hs
      | volume name =>
        obtain ⟨rfl, hid⟩ := h1
        simp only [Load.longForm, sourceVolume, Option.bind_some, Option.some.injEq] at hs
        subst hs
        refine ⟨path, ?_⟩
        have := MountsAt.short (options := []) h2 h4 (identifier_begin hid) (Or.inl rfl)
        simpa using this
    | @options text source path opts ro se h1 h2 h3 h4 h5 =>
      cases source with
      | hostPath p => simp [Load.longForm, sourceVolume] at hs
      | volume name =>
        obtain ⟨rfl, hid⟩ := h1
        simp only [Load.longForm, sourceVolume, Option.bind_some, Option.some.injEq] at hs
        subst hs
        refine ⟨path, ?_⟩
        have := MountsAt.short (options := ':' :: opts) h2 h4 (identifier_begin hid) (Or.inr ⟨_, rfl⟩)
        simpa using this
  · intro path hm
    generalize hc : Content.str t = item at hm
    cases hm with
    | long h1 _ _ => rw [← hc] at h1; exact absurd h1 not_at_str
    | @short _ _ options h1 h2 h3 h4 =>
      have ht := Content.str.inj hc
      subst ht
      generalize ht : n ++ ':' :: path ++ options = t at h
      have key : ∀ {text source}, SourceText text source → text = n → source = .volume n := by
        intro text source hs htn
        subst htn
        cases source with
        | hostPath p =>
          obtain ⟨_, hp⟩ := hs
          obtain ⟨c, r, hcr, h⟩ := hostPath_begin hp
          have := h3 c r hcr
          rcases h with rfl | rfl
          · exact absurd rfl this.1
          · exact absurd rfl this.2
        | volume name => obtain ⟨rfl, _⟩ := hs; rfl
      cases h with
      | anonymous g1 g2 => exact absurd (by rw [← ht]; simp) g2
      | @plain text source path' g1 g2 g3 g4 =>
        have : n ++ ':' :: (path ++ options) = text ++ ':' :: path' := by simpa using ht
        obtain ⟨rfl, rfl⟩ := split_colon h1 g2 this
        have ho : options = [] := by
          rcases h4 with rfl | ⟨r, rfl⟩
          · rfl
          · simp at g4
        subst ho
        rw [key g1 rfl]
        simp [Load.longForm, sourceVolume]
      | @options text source path' opts ro se g1 g2 g3 g4 g5 =>
        have : n ++ ':' :: (path ++ options) = text ++ ':' :: (path' ++ ':' :: opts) := by simpa using ht
        obtain ⟨rfl, h'⟩ := split_colon h1 g2 this
        rcases h4 with rfl | ⟨r, rfl⟩
        · rw [List.append_nil] at h'
          exact absurd (by rw [h']; simp) h2
        · obtain ⟨rfl, _⟩ := split_colon h2 g4 h'
          rw [key g1 rfl]
          simp [Load.longForm, sourceVolume]

theorem long_mounts {item : Content} {m : Structs.MountOf} (h : mount item m) (n : Str) :
    (sourceVolume (Load.longForm Load.mount (.long m) : ShortOrLong ShortVolume (Compose.Mount Content)) = some n →
      ∃ path, MountsAt item n path) ∧
    ∀ path, MountsAt item n path →
      sourceVolume (Load.longForm Load.mount (.long m) : ShortOrLong ShortVolume (Compose.Mount Content)) = some n ∧
        (Load.mount m).common.target = path := by
  obtain ⟨es, tag, hes, htag, hm⟩ := h
  have hnot : ∀ path, MountsAt item n path → tag = "volume".toList := by
    intro path hp
    cases hp with
    | short => cases hes
    | long h1 _ _ =>
      rw [at_given hes htag] at h1
      exact (Content.str.inj h1).symm
  cases hm with
  | @volume _ r hst =>
    obtain ⟨source, options, c, u⟩ := r
    obtain ⟨hs, _, hco, _⟩ := hst
    have hg : given (es.filter fun e => e.1 ≠ "type".toList) "source".toList = given es "source".toList :=
      given_filter (p := fun k => decide (k ≠ "type".toList)) (by decide)
    have ht := hco.1
    have hg' : given ((es.filter fun e => e.1 ≠ "type".toList).filter fun e => e.1 ∉ mountVolume.keys) "target".toList =
        given es "target".toList := by
      rw [given_filter (p := fun k => decide (k ∉ mountVolume.keys)) (by decide)]
      exact given_filter (p := fun k => decide (k ≠ "type".toList)) (by decide)
    rw [hg'] at ht
    rw [hg] at hs
    obtain ⟨tv, htv, htarget, _⟩ | ⟨_, hno⟩ := ht
    swap
    · cases hno
    have hsource : ∀ name, At item "source".toList (.str name) ↔ source = some name := by
      intro name
      rcases hs with ⟨v, hv, ho⟩ | ⟨hv, ho⟩
      · rw [at_given hes hv]
        rcases ho with ⟨rfl, ho⟩ | ⟨x, _, ⟨rfl, _⟩, ho⟩
        · rw [show source = none from ho]; simp
        · rw [show source = some x from ho]
          constructor
          · intro h; rw [Content.str.inj h]
          · intro h
            have h' : x = name := Option.some.inj h
            rw [h']
      · cases ho
        constructor
        · intro h; exact absurd h (at_missing hes hv)
        · intro h; cases h
    constructor
    · intro h
      have h' : source = some n := h
      exact ⟨_, .long ((at_given hes htag).2 rfl) ((hsource n).2 h') ((at_given hes htv).2 htarget.symm)⟩
    · intro path hp
      cases hp with
      | short => cases hes
      | long h1 h2 h3 =>
        refine ⟨(hsource n).1 h2, ?_⟩
        rw [at_given hes htv, htarget] at h3
        exact (Content.str.inj h3).symm
  | bind => exact ⟨fun h => (by cases h), fun path hp => absurd (hnot path hp) (by decide)⟩
  | tmpfs => exact ⟨fun h => (by cases h), fun path hp => absurd (hnot path hp) (by decide)⟩
  | namedPipe => exact ⟨fun h => (by cases h), fun path hp => absurd (hnot path hp) (by decide)⟩
  | cluster => exact ⟨fun h => (by cases h), fun path hp => absurd (hnot path hp) (by decide)⟩

theorem item_mounts {item : Content} {x : ShortOrLong ShortVolume Structs.MountOf}
    (h : Meaning.shortOrLong (Meaning.text ShortVolumeText) mount item x) (n : Str) :
    (sourceVolume (Load.longForm Load.mount x) = some n → ∃ path, MountsAt item n path) ∧
    ∀ path, MountsAt item n path → sourceVolume (Load.longForm Load.mount x) = some n ∧ volumeTarget x = path := by
  rcases h with ⟨y, _, hm, rfl⟩ | ⟨y, _, ⟨t, rfl, ht⟩, rfl⟩
  · exact long_mounts hm n
  · exact short_mounts ht n

theorem equal_items (E : Env) {x y : ShortOrLong ShortVolume Structs.MountOf}
    (h : EqualForm EqualShortVolume (EqualMount E) x y) :
    sourceVolume (Load.longForm Load.mount x) = sourceVolume (Load.longForm Load.mount y) ∧
      EqualPath (volumeTarget x) (volumeTarget y) := by
  cases h with
  | @short a b h =>
    refine ⟨?_, h.container⟩
    obtain ⟨pa, oa⟩ := a
    obtain ⟨pb, ob⟩ := b
    have := h.options
    cases this with
    | none => rfl
    | @some oa ob h' =>
      obtain ⟨sa, _, _⟩ := oa
      obtain ⟨sb, _, _⟩ := ob
      obtain ⟨hs, _, _⟩ := h'
      cases hs <;> rfl
  | long h =>
    cases h with
    | volume h1 h2 => cases h2 with | fields hp _ => exact ⟨rfl, hp⟩
    | bind _ _ h2 => cases h2 with | fields hp _ => exact ⟨rfl, hp⟩
    | tmpfs _ h2 => cases h2 with | fields hp _ => exact ⟨rfl, hp⟩
    | namedPipe _ h2 => cases h2 with | fields hp _ => exact ⟨rfl, hp⟩
    | cluster h2 => cases h2 with | fields hp _ => exact ⟨rfl, hp⟩

theorem service_volumes (E : Env) {c : Content} {es : List (Str × Content)} {s : Record (Structs.service E)}
    (hc : Entries c es) (f : ServiceFields E c es s) (n : Str) : MountsVolume c n ↔ Mounts (Load.service E s) n := by
  rw [f.load]
  unfold Mounts mountedVolumes
  rw [List.mem_filterMap]
  rcases f.hvolumes with ⟨v, hv, all, hall, hl⟩ | ⟨hn, hl⟩
  · rw [hl]
    obtain ⟨vs, rfl, h1, h2⟩ := items_mem hall
    have hat : ∀ w, At c "volumes".toList w ↔ w = .seq vs := fun w => at_given hc hv
    constructor
    · rintro ⟨vs', item, path, hi, hmem, hm⟩
      rw [hat] at hi
      cases hi
      obtain ⟨x, hx, hx'⟩ := h1 _ hmem
      obtain ⟨z, hz, h⟩ := firstsBy_mem (EqualForm EqualShortVolume (EqualMount E)) all x hx
      refine ⟨_, List.mem_map.2 ⟨z, hz, rfl⟩, ?_⟩
      have hn := ((item_mounts hx' n).2 path hm).1
      rcases h with rfl | h
      · exact hn
      · rw [← (equal_items E h).1]; exact hn
    · rintro ⟨y, hy, he⟩
      obtain ⟨x, hx, rfl⟩ := List.mem_map.1 hy
      obtain ⟨item, hmem, hm⟩ := h2 x ((firstsBy_sublist _ all).subset hx)
      obtain ⟨path, hp⟩ := (item_mounts hm n).1 he
      exact ⟨vs, item, path, (hat _).2 rfl, hmem, hp⟩
  · rw [← Option.some.inj hl]
    constructor
    · rintro ⟨_, _, _, hi, _⟩
      exact absurd hi (at_missing hc hn)
    · simp

theorem two_le_count_filterMap {α : Type} (g : α → Option Str) (n : Str) (l : List α) :
    2 ≤ (l.filterMap g).count n ↔ ∃ a x b y c, l = a ++ x :: b ++ y :: c ∧ g x = some n ∧ g y = some n := by
  constructor
  · intro h
    induction l with
    | nil => simp at h
    | cons z l ih =>
      by_cases hz : g z = some n
      · rw [List.filterMap_cons_some hz, List.count_cons_self] at h
        have : n ∈ l.filterMap g := List.count_pos_iff.1 (by omega)
        obtain ⟨y, hy, hg⟩ := List.mem_filterMap.1 this
        obtain ⟨b, c, rfl⟩ := List.append_of_mem hy
        exact ⟨[], z, b, y, c, rfl, hz, hg⟩
      · have : (List.filterMap g (z :: l)).count n = (List.filterMap g l).count n := by
          cases hg : g z with
          | none => rw [List.filterMap_cons_none hg]
          | some m => rw [List.filterMap_cons_some hg, List.count_cons_of_ne (fun e => hz (by rw [hg, e]))]
        rw [this] at h
        obtain ⟨a, x, b, y, c, rfl, h1, h2⟩ := ih h
        exact ⟨z :: a, x, b, y, c, rfl, h1, h2⟩
  · rintro ⟨a, x, b, y, c, rfl, h1, h2⟩
    simp only [List.append_assoc, List.cons_append, List.filterMap_append, List.filterMap_cons_some h1,
      List.filterMap_cons_some h2, List.count_append, List.count_cons_self]
    omega

theorem sublist_two {α : Type} {l all : List α} (h : l.Sublist all) {a b c : List α} {x y : α}
    (hl : l = a ++ x :: b ++ y :: c) : ∃ a b c, all = a ++ x :: b ++ y :: c := by
  subst hl
  have h' : [x, y].Sublist all := by
    refine List.Sublist.trans ?_ h
    simp only [List.append_assoc, List.cons_append]
    exact ((List.nil_sublist a).append ((((List.nil_sublist b).append ((List.nil_sublist c).cons_cons y))).cons_cons x))
  clear h
  induction all with
  | nil => cases h'
  | cons z all ih =>
    cases h' with
    | cons _ h' =>
      obtain ⟨a, b, c, rfl⟩ := ih h'
      exact ⟨z :: a, b, c, rfl⟩
    | cons_cons _ h' =>
      obtain ⟨b, c, rfl⟩ := List.append_of_mem (List.singleton_sublist.1 h')
      exact ⟨[], b, c, rfl⟩

theorem forall₂_two {α β : Type} {R : α → β → Prop} {l : List α} {a b c : List β} {x y : β}
    (h : List.Forall₂ R l (a ++ x :: b ++ y :: c)) : ∃ a' x' b' y' c', l = a' ++ x' :: b' ++ y' :: c' ∧ R x' x ∧ R y' y := by
  have split : ∀ {l : List α} {a b : List β}, List.Forall₂ R l (a ++ b) →
      ∃ l1 l2, l = l1 ++ l2 ∧ List.Forall₂ R l2 b := by
    intro l a
    induction a generalizing l with
    | nil => exact fun h => ⟨[], l, rfl, h⟩
    | cons z a ih =>
      intro b h
      cases h with
      | @cons w _ l _ _ h =>
        obtain ⟨l1, l2, rfl, h2⟩ := ih h
        exact ⟨w :: l1, l2, rfl, h2⟩
  rw [List.append_assoc] at h
  obtain ⟨l1, l2, rfl, h2⟩ := split h
  cases h2 with
  | @cons x' _ l2 _ hx h2 =>
    obtain ⟨l3, l4, rfl, h4⟩ := split h2
    cases h4 with
    | @cons y' _ l4 _ hy h4 => exact ⟨l1, x', l3, y', l4, by simp, hx, hy⟩

theorem service_twice (E : Env) {c : Content} {es : List (Str × Content)} {s : Record (Structs.service E)}
    (hc : Entries c es) (f : ServiceFields E c es s) (n : Str) (h : MountsTwice (Load.service E s) n) :
    ∃ path path', MountsVolumeAt c n path path' := by
  rw [f.load] at h
  unfold MountsTwice mountedVolumes at h
  rw [List.filterMap_map, two_le_count_filterMap] at h
  obtain ⟨a, x, b, y, d, hl, hx, hy⟩ := h
  rcases f.hvolumes with ⟨v, hv, all, ⟨vs, rfl, hf⟩, hl'⟩ | ⟨hn, hl'⟩
  · obtain ⟨a, b, d, rfl⟩ := sublist_two (hl' ▸ firstsBy_sublist _ all) hl
    obtain ⟨a', x', b', y', c', rfl, h1, h2⟩ := forall₂_two hf
    obtain ⟨p, hp⟩ := (item_mounts h1 n).1 hx
    obtain ⟨p', hp'⟩ := (item_mounts h2 n).1 hy
    exact ⟨p, p', a', x', b', y', c', (at_given hc hv).2 rfl, hp, hp'⟩
  · rw [← Option.some.inj hl'] at hl
    simp at hl

theorem service_two_paths (E : Env) {c : Content} {es : List (Str × Content)} {s : Record (Structs.service E)}
    (hc : Entries c es) (f : ServiceFields E c es s) (n : Str) {path path' : Str} (h : MountsVolumeAt c n path path')
    (hne : ¬ EqualPath path path') : MountsTwice (Load.service E s) n := by
  obtain ⟨a, i, b, i', d, hat, hi, hi'⟩ := h
  rw [f.load]
  unfold MountsTwice mountedVolumes
  rw [List.filterMap_map]
  rcases f.hvolumes with ⟨v, hv, all, hall, hl⟩ | ⟨hn, hl⟩
  · rw [at_given hc hv] at hat
    subst hat
    obtain ⟨vs, hvs, h1, h2⟩ := items_mem hall
    cases hvs
    obtain ⟨x, hx, hxm⟩ := h1 i (by simp)
    obtain ⟨y, hy, hym⟩ := h1 i' (by simp)
    obtain ⟨hxn, rfl⟩ := (item_mounts hxm n).2 _ hi
    obtain ⟨hyn, rfl⟩ := (item_mounts hym n).2 _ hi'
    have rep : ∀ z ∈ all, sourceVolume (Load.longForm Load.mount z) = some n →
        ∃ w ∈ f.volumes, sourceVolume (Load.longForm Load.mount w) = some n ∧ EqualPath (volumeTarget z) (volumeTarget w) := by
      intro z hz hzn
      obtain ⟨w, hw, h⟩ := firstsBy_mem (EqualForm EqualShortVolume (EqualMount E)) all z hz
      refine ⟨w, hl ▸ hw, ?_⟩
      rcases h with rfl | h
      · exact ⟨hzn, rfl⟩
      · have := equal_items E h
        exact ⟨this.1 ▸ hzn, this.2⟩
    obtain ⟨w, hw, hwn, hwp⟩ := rep x hx hxn
    obtain ⟨w', hw', hwn', hwp'⟩ := rep y hy hyn
    have hww : w ≠ w' := by
      rintro rfl
      exact hne (hwp.trans hwp'.symm)
    have hs : ∃ a b c, f.volumes = a ++ w :: b ++ w' :: c ∨ f.volumes = a ++ w' :: b ++ w :: c := by
      obtain ⟨a, b, hab⟩ := List.append_of_mem hw
      rw [hab] at hw'
      rcases List.mem_append.1 hw' with h | h
      · obtain ⟨a1, a2, rfl⟩ := List.append_of_mem h
        exact ⟨a1, a2, b, Or.inr hab⟩
      · rcases List.mem_cons.1 h with h | h
        · exact absurd h.symm hww
        · obtain ⟨b1, b2, rfl⟩ := List.append_of_mem h
          exact ⟨a, b1, b2, Or.inl (by rw [hab]; simp)⟩
    rw [two_le_count_filterMap]
    obtain ⟨a, b, c, h | h⟩ := hs
    · exact ⟨a, w, b, w', c, h, hwn, hwn'⟩
    · exact ⟨a, w', b, w, c, h, hwn', hwn⟩
  · exact absurd hat (at_missing hc hn)

/-! ### C96 files -/

/-- The services of the document and those of the file. -/
theorem file_services (E : Env) {doc : Content} {r : Record (Structs.compose E)}
    (h : (struct (Structs.compose E)).de doc = .ok r) :
    (∀ s ∈ (Load.file E r).services, ∃ c es sr, HasService doc s.1 c ∧ Entries c es ∧ s.2 = Load.service E sr ∧
      Nonempty (ServiceFields E c es sr)) ∧
    (∀ name c, HasService doc name c → ∃ es sr, (name, Load.service E sr) ∈ (Load.file E r).services ∧ Entries c es ∧
      Nonempty (ServiceFields E c es sr)) ∧
    ((Load.file E r).services.map Prod.fst).Nodup := by
  obtain ⟨es, hes, hst⟩ := (C75_compose E doc r).1 h
  replace hes := entries_of_given (fun h => by cases h) hes
  obtain ⟨version, name, inc, services, networks, volumes, configs, secrets, ext, u⟩ := r
  have hs : (∃ v, given es "services".toList = [v] ∧ Meaning.entries Identifier (Schemas.service E).Means v services) ∨ _ :=
    hst.2.2.2.1
  obtain ⟨v, hv, hent⟩ | ⟨_, hno⟩ := hs
  swap
  · cases hno
  have hat : ∀ w, At doc "services".toList w ↔ w = v := fun w => at_given hes hv
  obtain ⟨h1, h2⟩ := entries_at hent
  refine ⟨?_, ?_, ?_⟩
  · intro s hs
    obtain ⟨⟨k, sr⟩, hmem, rfl⟩ := List.mem_map.1 hs
    obtain ⟨c, hc, ces, hces, hcs⟩ := h1 _ _ hmem
    exact ⟨c, ces, sr, ⟨v, (hat v).2 rfl, hc⟩, entries_of_given (fun h => by cases h) hces, rfl, serviceFields E hcs⟩
  · rintro k c ⟨w, hw, hc⟩
    rw [hat] at hw
    subst hw
    obtain ⟨sr, hmem, ces, hces, hcs⟩ := h2 _ _ hc
    exact ⟨ces, sr, List.mem_map.2 ⟨_, hmem, rfl⟩, entries_of_given (fun h => by cases h) hces, serviceFields E hcs⟩
  · have : (Load.file E (version, name, inc, services, networks, volumes, configs, secrets, ext, u)).services.map Prod.fst =
        List.map Prod.fst (services : List (Str × Record (Structs.service E))) := by
      exact List.map_map
    rw [this]
    exact entries_nodup hent

/-- The sections of the document and those of the file. -/
theorem file_sections (E : Env) {doc : Content} {r : Record (Structs.compose E)}
    (h : (struct (Structs.compose E)).de doc = .ok r) (name : Str) :
    (Declares doc "networks" name ↔ Declared (Load.file E r).networks name) ∧
    (Declares doc "volumes" name ↔ Declared (Load.file E r).volumes name) ∧
    (Declares doc "configs" name ↔ Declared (Load.file E r).configs name) ∧
    (Declares doc "secrets" name ↔ Declared (Load.file E r).secrets name) := by
  obtain ⟨es, hes, hst⟩ := (C75_compose E doc r).1 h
  replace hes := entries_of_given (fun h => by cases h) hes
  obtain ⟨version, _, inc, services, networks, volumes, configs, secrets, ext, u⟩ := r
  exact ⟨section_at hes hst.2.2.2.2.1 name, section_at hes hst.2.2.2.2.2.1 name,
    section_at hes hst.2.2.2.2.2.2.1 name, section_at hes hst.2.2.2.2.2.2.2.1 name⟩

theorem checksDocument (E : Env) {doc : Content} {r : Record (Structs.compose E)}
    (h : (struct (Structs.compose E)).de doc = .ok r) {names : Content → Str → Prop} {section_ : String} {kind : ResourceKind}
    {uses : Service NetworkMode (Record (Structs.serviceNetwork E)) Content → List Str} {declared : Str → Prop}
    {answer : Except ValidationError Unit} (hc : ChecksUse (Load.file E r).services uses declared kind answer)
    (hu : ∀ c es sr, Entries c es → ServiceFields E c es sr → ∀ n, names c n ↔ n ∈ uses (Load.service E sr))
    (hd : ∀ n, Declares doc section_ n ↔ declared n) : ChecksDocument doc names section_ kind answer := by
  obtain ⟨h1, h2, _⟩ := file_services E h
  constructor
  · rw [hc.1]
    constructor
    · intro hok s c n hs hn
      obtain ⟨es, sr, hmem, hes, ⟨f⟩⟩ := h2 s c hs
      exact (hd n).2 (hok _ hmem n ((hu c es sr hes f n).1 hn))
    · intro hok s hs n hn
      obtain ⟨c, es, sr, hhas, hes, hsr, ⟨f⟩⟩ := h1 s hs
      rw [hsr] at hn
      exact (hd n).1 (hok _ _ n hhas ((hu c es sr hes f n).2 hn))
  · intro e he
    obtain ⟨s, name, ⟨a, b, hab, _, _⟩, ⟨a', b', hab', hnd, _⟩, rfl⟩ := (hc.2 e).1 he
    refine ⟨rfl, s.1, ?_⟩
    obtain ⟨c, es, sr, hhas, hes, hsr, ⟨f⟩⟩ := h1 s (by rw [hab]; simp)
    rw [hsr] at hab'
    exact ⟨c, rfl, hhas, (hu c es sr hes f name).2 (by rw [hab']; simp), fun h => hnd ((hd name).1 h)⟩

/-- C96: `validate_networks` of a file that was read. -/
theorem C96_networks (E : Env) (doc : Content) (r : Record (Structs.compose E))
    (h : (struct (Structs.compose E)).de doc = .ok r) :
    ChecksDocument doc NamesNetwork "networks" .network (Load.file E r).validateNetworks :=
  checksDocument E h (C23_validate_networks _) (fun _ _ _ hes f n => service_networks E hes f n)
    (fun n => (file_sections E h n).1)

/-- C96: `validate_configs` of a file that was read. -/
theorem C96_configs (E : Env) (doc : Content) (r : Record (Structs.compose E))
    (h : (struct (Structs.compose E)).de doc = .ok r) :
    ChecksDocument doc (NamesIn "configs") "configs" .config (Load.file E r).validateConfigs :=
  checksDocument E h (C24_validate_configs _)
    (fun c es sr hes f n => by rw [f.load]; exact configs_mem hes f.hconfigs n) (fun n => (file_sections E h n).2.2.1)

/-- C96: `validate_secrets` of a file that was read. -/
theorem C96_secrets (E : Env) (doc : Content) (r : Record (Structs.compose E))
    (h : (struct (Structs.compose E)).de doc = .ok r) :
    ChecksDocument doc (NamesIn "secrets") "secrets" .secret (Load.file E r).validateSecrets :=
  checksDocument E h (C24_validate_secrets _)
    (fun c es sr hes f n => by rw [f.load]; exact configs_mem hes f.hsecrets n) (fun n => (file_sections E h n).2.2.2)

/-- C96: `validate_volumes` of a file that was read reports a volume only if it is not declared and two services mount it, or
one service mounts it twice. -/
theorem C96_volumes_error (E : Env) (doc : Content) (r : Record (Structs.compose E))
    (h : (struct (Structs.compose E)).de doc = .ok r) (e : ValidationError)
    (he : (Load.file E r).validateVolumes = .error e) :
    e.kind = .volume ∧ e.service = none ∧ ¬ Declares doc "volumes" e.resource ∧
      ((∃ s c s' c', s ≠ s' ∧ HasService doc s c ∧ HasService doc s' c' ∧ MountsVolume c e.resource ∧
          MountsVolume c' e.resource) ∨
        ∃ s c path path', HasService doc s c ∧ MountsVolumeAt c e.resource path path') := by
  obtain ⟨h1, _, hnd⟩ := file_services E h
  obtain ⟨hd, hor⟩ := C26_single_service_volume_partial _ e hnd he
  obtain ⟨_, _, hk, hs⟩ := C25_validate_volumes_sound _ e he
  refine ⟨hk, hs, fun hd' => hd ((file_sections E h _).2.1.1 hd'), ?_⟩
  rcases hor with ⟨s, hs, s', hs', hne, hm, hm'⟩ | ⟨s, hs, hm⟩
  · left
    obtain ⟨c, es, sr, hhas, hes, hsr, ⟨f⟩⟩ := h1 s hs
    obtain ⟨c', es', sr', hhas', hes', hsr', ⟨f'⟩⟩ := h1 s' hs'
    rw [hsr] at hm
    rw [hsr'] at hm'
    exact ⟨s.1, c, s'.1, c', hne, hhas, hhas', (service_volumes E hes f _).2 hm, (service_volumes E hes' f' _).2 hm'⟩
  · right
    obtain ⟨c, es, sr, hhas, hes, hsr, ⟨f⟩⟩ := h1 s hs
    rw [hsr] at hm
    obtain ⟨p, p', hp⟩ := service_twice E hes f _ hm
    exact ⟨s.1, c, p, p', hhas, hp⟩

/-- C96: it rejects a file in which a volume is not declared that two services mount, or one service mounts at two
places. -/
theorem C96_volumes_required (E : Env) (doc : Content) (r : Record (Structs.compose E))
    (h : (struct (Structs.compose E)).de doc = .ok r) (n : Str) (hn : ¬ Declares doc "volumes" n)
    (hor : (∃ s c s' c', s ≠ s' ∧ HasService doc s c ∧ HasService doc s' c' ∧ MountsVolume c n ∧ MountsVolume c' n) ∨
      ∃ s c path path', HasService doc s c ∧ MountsVolumeAt c n path path' ∧ ¬ EqualPath path path') :
    ∃ e, (Load.file E r).validateVolumes = .error e := by
  obtain ⟨_, h2, hnd⟩ := file_services E h
  rw [C26_rejects_iff _ hnd]
  refine ⟨n, fun hd => hn ((file_sections E h _).2.1.2 hd), ?_⟩
  rcases hor with ⟨s, c, s', c', hne, hs, hs', hm, hm'⟩ | ⟨s, c, p, p', hs, hm, hne⟩
  · left
    obtain ⟨es, sr, hmem, hes, ⟨f⟩⟩ := h2 s c hs
    obtain ⟨es', sr', hmem', hes', ⟨f'⟩⟩ := h2 s' c' hs'
    exact ⟨_, hmem, _, hmem', hne, (service_volumes E hes f _).1 hm, (service_volumes E hes' f' _).1 hm'⟩
  · right
    obtain ⟨es, sr, hmem, hes, ⟨f⟩⟩ := h2 s c hs
    exact ⟨_, hmem, service_two_paths E hes f n hm hne⟩

/-- C96: a file that `validate_all` accepts declares every network, config and secret that a service names, and every volume
that two services mount. -/
theorem C96_all_sound (E : Env) (doc : Content) (r : Record (Structs.compose E))
    (h : (struct (Structs.compose E)).de doc = .ok r) (hok : (Load.file E r).validateAll = .ok ()) (s : Str) (c : Content)
    (hs : HasService doc s c) (n : Str) :
    (NamesNetwork c n → Declares doc "networks" n) ∧ (NamesIn "configs" c n → Declares doc "configs" n) ∧
    (NamesIn "secrets" c n → Declares doc "secrets" n) ∧
    ∀ s' c', HasService doc s' c' → s ≠ s' → MountsVolume c n → MountsVolume c' n → Declares doc "volumes" n := by
  rw [C27_validate_all_ok] at hok
  obtain ⟨h1, h2, h3, h4⟩ := hok
  refine ⟨(C96_networks E doc r h).1.1 h1 s c n hs, (C96_configs E doc r h).1.1 h3 s c n hs,
    (C96_secrets E doc r h).1.1 h4 s c n hs, ?_⟩
  intro s' c' hs' hne hm hm'
  by_contra hd
  obtain ⟨e, he⟩ := C96_volumes_required E doc r h n hd (Or.inl ⟨s, c, s', c', hne, hs, hs', hm, hm'⟩)
  rw [h2] at he
  cases he

/-- C96: `validate_all` accepts a file in which everything that a service names is declared. -/
theorem C96_all_complete (E : Env) (doc : Content) (r : Record (Structs.compose E))
    (h : (struct (Structs.compose E)).de doc = .ok r)
    (hall : ∀ s c n, HasService doc s c →
      (NamesNetwork c n → Declares doc "networks" n) ∧ (NamesIn "configs" c n → Declares doc "configs" n) ∧
      (NamesIn "secrets" c n → Declares doc "secrets" n) ∧ (MountsVolume c n → Declares doc "volumes" n)) :
    (Load.file E r).validateAll = .ok () := by
  rw [C27_validate_all_ok]
  refine ⟨(C96_networks E doc r h).1.2 fun s c n hs => (hall s c n hs).1, ?_,
    (C96_configs E doc r h).1.2 fun s c n hs => (hall s c n hs).2.1,
    (C96_secrets E doc r h).1.2 fun s c n hs => (hall s c n hs).2.2.1⟩
  match he : (Load.file E r).validateVolumes with
  | .ok () => rfl
  | .error e =>
    exfalso
    obtain ⟨_, _, hd, hor⟩ := C96_volumes_error E doc r h e he
    rcases hor with ⟨s, c, _, _, _, hs, _, hm, _⟩ | ⟨s, c, p, p', hs, a, i, b, i', d, hat, hi, _⟩
    · exact hd ((hall s c _ hs).2.2.2 hm)
    · exact hd ((hall s c _ hs).2.2.2 ⟨_, i, p, hat, by simp, hi⟩)

theorem sameValues_keys {α : Type} {R : α → α → Prop} {m m' : List (Str × α)} (h : SameValues R m m') :
    Load.keys m = Load.keys m' := by
  induction h with
  | nil => rfl
  | cons h _ ih =>
    unfold Load.keys at ih ⊢
    rw [List.map_cons, List.map_cons, ih, h.1]

/-- C96: a file that is written and read again is validated with the same result. -/
theorem C96_saved (E : Env) [EnvOk E] (r : Record (Structs.compose E)) (hr : recordValid (Structs.compose E) r) :
    ∃ r', (struct (Structs.compose E)).de ((struct (Structs.compose E)).ser r) = .ok r' ∧
      (Load.file E r').validateNetworks = (Load.file E r).validateNetworks ∧
      (Load.file E r').validateVolumes = (Load.file E r).validateVolumes ∧
      (Load.file E r').validateConfigs = (Load.file E r).validateConfigs ∧
      (Load.file E r').validateSecrets = (Load.file E r).validateSecrets := by
  obtain ⟨r', h1, h2⟩ := C71_compose E r hr
  have : Load.file E r' = Load.file E r := by
    obtain ⟨version, name, inc, services, networks, volumes, configs, secrets, ext, u⟩ := r
    obtain ⟨version', name', inc', services', networks', volumes', configs', secrets', ext', u'⟩ := r'
    obtain ⟨_, _, _, hs, hn, hv, hc, hse, _⟩ := h2
    subst hs
    simp only [Load.file, sameValues_keys hn, sameValues_keys hv, sameValues_keys hc, sameValues_keys hse]
  exact ⟨r', h1, by rw [this], by rw [this], by rw [this], by rw [this]⟩

/-! ### Examples -/

/-- Two services that mount a volume in the two syntaxes; a network and a secret are not declared. -/
def sampleUses : Content := Derive.mapping
  [("services".toList, Derive.mapping
      [("db".toList, Derive.mapping
          [("networks".toList, .seq [.str "back".toList]),
            ("volumes".toList, .seq [.str "data:/var:ro".toList]),
            ("configs".toList, .seq [.str "conf".toList])]),
        ("web".toList, Derive.mapping
          [("networks".toList, Derive.mapping [("front".toList, .unit)]),
            ("volumes".toList, .seq [Derive.mapping [("type".toList, .str "volume".toList),
              ("source".toList, .str "data".toList), ("target".toList, .str "/srv".toList)]]),
            ("secrets".toList, .seq [Derive.mapping [("source".toList, .str "key".toList)]])])]),
    ("networks".toList, Derive.mapping [("back".toList, .unit)]),
    ("configs".toList, Derive.mapping [("conf".toList, Derive.mapping [("file".toList, .str "a".toList)])])]

set_option maxRecDepth 10000 in
example : ∃ r, (struct (Structs.compose sampleEnv)).de sampleUses = .ok r ∧
    (Load.file sampleEnv r).validateNetworks = .error ⟨some "web".toList, "front".toList, .network⟩ ∧
    (Load.file sampleEnv r).validateVolumes = .error ⟨none, "data".toList, .volume⟩ ∧
    (Load.file sampleEnv r).validateConfigs = .ok () ∧
    (Load.file sampleEnv r).validateSecrets = .error ⟨some "web".toList, "key".toList, .secret⟩ := ⟨_, rfl, rfl, rfl, rfl, rfl⟩

example : MountsAt (.str "data:/var:ro".toList) "data".toList "/var".toList :=
  .short (name := "data".toList) (path := "/var".toList) (options := ":ro".toList) (by decide) (by decide) (by rintro c r h; cases h; decide) (Or.inr ⟨_, rfl⟩)
example : ¬ EqualPath "/var".toList "/srv".toList := by unfold EqualPath; decide

set_option maxRecDepth 10000 in
/-- What the checks of `sampleUses` answer is what the document says, and so it names no network but declared ones, and so on. -/
example : ∃ r, (struct (Structs.compose sampleEnv)).de sampleUses = .ok r ∧
    (∀ s c n, HasService sampleUses s c → NamesIn "configs" c n → Declares sampleUses "configs" n) ∧
    (∃ c, HasService sampleUses "web".toList c ∧ NamesNetwork c "front".toList ∧ ¬ Declares sampleUses "networks" "front".toList) ∧
    (∃ c, HasService sampleUses "web".toList c ∧ NamesIn "secrets" c "key".toList ∧ ¬ Declares sampleUses "secrets" "key".toList) ∧
    ¬ Declares sampleUses "volumes" "data".toList := by
  refine ⟨_, rfl, (C96_configs sampleEnv sampleUses _ rfl).1.1 rfl, ?_, ?_,
    (C96_volumes_error sampleEnv sampleUses _ rfl ⟨none, "data".toList, .volume⟩ rfl).2.2.1⟩
  · obtain ⟨_, s, c, hs, h⟩ := (C96_networks sampleEnv sampleUses _ rfl).2 ⟨some "web".toList, "front".toList, .network⟩ rfl
    cases hs
    exact ⟨c, h⟩
  · obtain ⟨_, s, c, hs, h⟩ := (C96_secrets sampleEnv sampleUses _ rfl).2 ⟨some "web".toList, "key".toList, .secret⟩ rfl
    cases hs
    exact ⟨c, h⟩

/-- A document in which everything that is used is declared. -/
def sampleDeclares : Content := Derive.mapping
  [("services".toList, Derive.mapping
      [("db".toList, Derive.mapping [("volumes".toList, .seq [.str "data:/var".toList])]),
        ("web".toList, Derive.mapping
          [("networks".toList, .seq [.str "back".toList]), ("volumes".toList, .seq [.str "data:/var".toList])])]),
    ("networks".toList, Derive.mapping [("back".toList, .unit)]),
    ("volumes".toList, Derive.mapping [("data".toList, .unit)])]

set_option maxRecDepth 10000 in
/-- It is accepted, so the network and the volume are declared. -/
example : ∃ r, (struct (Structs.compose sampleEnv)).de sampleDeclares = .ok r ∧
    (Load.file sampleEnv r).validateAll = .ok () ∧
    ∀ s c n, HasService sampleDeclares s c → NamesNetwork c n → Declares sampleDeclares "networks" n :=
  ⟨_, rfl, rfl, fun s c n hs => (C96_all_sound sampleEnv sampleDeclares _ rfl rfl s c hs n).1⟩

theorem at_mapping {es : List (Str × Content)} {key : Str} {x : Content} :
    At (Derive.mapping es) key x ↔ lastValue es key = some x :=
  ⟨fun ⟨fs, h1, h2⟩ => entries_inj (v := Derive.mapping es) h1 rfl ▸ h2, fun h => ⟨es, rfl, h⟩⟩

set_option maxRecDepth 10000 in
/-- Two services mount the volume `data`, which `sampleUses` does not declare. -/
example : ∃ r, (struct (Structs.compose sampleEnv)).de sampleUses = .ok r ∧ ∃ e, (Load.file sampleEnv r).validateVolumes = .error e := by
  refine ⟨_, rfl, C96_volumes_required sampleEnv sampleUses _ rfl "data".toList ?_ (.inl
    ⟨"db".toList, _, "web".toList, _, by decide, ⟨_, at_mapping.2 rfl, at_mapping.2 rfl⟩, ⟨_, at_mapping.2 rfl, at_mapping.2 rfl⟩,
      ⟨_, _, "/var".toList, at_mapping.2 rfl, List.mem_singleton.2 rfl, ?_⟩,
      ⟨_, _, "/srv".toList, at_mapping.2 rfl, List.mem_singleton.2 rfl, ?_⟩⟩)⟩
  · rintro ⟨entries, x, h, -⟩
    cases at_mapping.1 h
  · exact .short (name := "data".toList) (path := "/var".toList) (options := ":ro".toList) (by decide) (by decide)
      (by rintro c r h; cases h; decide) (Or.inr ⟨_, rfl⟩)
  · exact .long (at_mapping.2 rfl) (at_mapping.2 rfl) (at_mapping.2 rfl)

/-- A document in which the only network that is used is declared. -/
def sampleOneNetwork : Content := Derive.mapping
  [("services".toList, Derive.mapping [("web".toList, Derive.mapping [("networks".toList, .seq [.str "back".toList])])]),
    ("networks".toList, Derive.mapping [("back".toList, .unit)])]

set_option maxRecDepth 10000 in
/-- All that it uses is declared, and so it is accepted. -/
example : ∃ r, (struct (Structs.compose sampleEnv)).de sampleOneNetwork = .ok r ∧ (Load.file sampleEnv r).validateAll = .ok () := by
  refine ⟨_, rfl, C96_all_complete sampleEnv sampleOneNetwork _ rfl ?_⟩
  rintro s c n ⟨services, h1, h2⟩
  cases at_mapping.1 h1
  have hc : c = Derive.mapping [("networks".toList, .seq [.str "back".toList])] := by
    obtain ⟨e, h, rfl⟩ := Option.map_eq_some_iff.1 (at_mapping.1 h2)
    exact congrArg Prod.snd (List.mem_singleton.1 (List.mem_of_find?_eq_some h))
  subst hc
  refine ⟨?_, ?_, ?_, ?_⟩
  · rintro ⟨networks, h, h'⟩
    cases at_mapping.1 h
    rcases h' with ⟨vs, h3, h4⟩ | ⟨x, es, h3, -⟩
    · cases h3
      cases List.mem_singleton.1 h4
      exact ⟨_, _, at_mapping.2 rfl, at_mapping.2 rfl⟩
    · cases h3
  · rintro ⟨vs, item, h, -⟩
    cases at_mapping.1 h
  · rintro ⟨vs, item, h, -⟩
    cases at_mapping.1 h
  · rintro ⟨vs, item, path, h, -⟩
    cases at_mapping.1 h

end Props
