import Verif.Spec.Platform
import Verif.Model.ArchVariant
import Verif.Proofs.Number

/-
C49: the platform enums.
-/

namespace Props
open Rust Compose Spec

/-! ### The generated arms and the grammar -/

private theorem nodup_map_inj {α β : Type} {f : α → β} {l : List α} (h : (l.map f).Nodup) {a b : α}
    (ha : a ∈ l) (hb : b ∈ l) (e : f a = f b) : a = b :=
  List.inj_on_of_nodup_map h ha hb e

private theorem getArch_iff {T : PlatformTable} (g : GoodTable T) {n : Str} {a : ArchItem} :
    T.getArch n = some a ↔ a ∈ T.arch ∧ a.name = n := by
  unfold PlatformTable.getArch
  constructor
  · intro h
    have h1 := List.find?_some h
    have h2 := List.mem_of_find?_eq_some h
    exact ⟨List.mem_reverse.1 h2, by simpa using h1⟩
  · rintro ⟨ha, rfl⟩
    cases hf : T.arch.reverse.find? (fun i => decide (i.name = a.name)) with
    | none =>
      rw [List.find?_eq_none] at hf
      exact absurd (by simp) (hf a (List.mem_reverse.2 ha))
    | some b =>
      have h1 := List.find?_some hf
      have h2 := List.mem_of_find?_eq_some hf
      rw [nodup_map_inj g.archNames (List.mem_reverse.1 h2) ha (by simpa using h1)]

private theorem strArms_iff {i : ArchItem} {a : ArchValue} {s : Str} :
    (a, s) ∈ i.strArms ↔ (a = ⟨i.ident, none⟩ ∧ s = i.name) ∨
      ∃ vs, i.variants = some vs ∧ ∃ v ∈ vs, a = ⟨i.ident, some v.ident⟩ ∧ s = i.name ++ '/' :: v.name := by
  unfold ArchItem.strArms slash
  cases h : i.variants with
  | none => simp
  | some vs =>
    simp only [List.mem_cons, Prod.mk.injEq, List.mem_map, Option.some.injEq, exists_eq_left']
    constructor
    · rintro (h | ⟨v, hv, rfl, rfl⟩)
      · exact .inl h
      · exact .inr ⟨v, hv, rfl, rfl⟩
    · rintro (h | ⟨v, hv, rfl, rfl⟩)
      · exact .inl h
      · exact .inr ⟨v, hv, rfl, rfl⟩

private theorem archText_iff {T : PlatformTable} {L : Str → Prop} {s : Str} {a : ArchValue} :
    ArchText T L s a ↔ ∃ i ∈ T.arch, L i.name ∧ (a, s) ∈ i.strArms := by
  simp only [strArms_iff]
  constructor
  · intro h
    cases h with
    | plain ha hl => exact ⟨_, ha, hl, .inl ⟨rfl, rfl⟩⟩
    | variant ha hl hv hm => exact ⟨_, ha, hl, .inr ⟨_, hv, _, hm, rfl, rfl⟩⟩
  · rintro ⟨i, hi, hl, (⟨rfl, rfl⟩ | ⟨vs, hv, v, hm, rfl, rfl⟩)⟩
    · exact .plain hi hl
    · exact .variant hi hl hv hm

private theorem osArchArms_iff {T : PlatformTable} (g : GoodTable T) {o : OsItem} {a : ArchValue} {s : Str} :
    (a, s) ∈ T.osArchArms o ↔ ArchText T (· ∈ o.archs) s a := by
  unfold PlatformTable.osArchArms
  rw [archText_iff, List.mem_flatMap]
  constructor
  · rintro ⟨n, hn, h⟩
    cases hg : T.getArch n with
    | none => simp [hg] at h
    | some i =>
      obtain ⟨hi, rfl⟩ := (getArch_iff g).1 hg
      exact ⟨i, hi, hn, by simpa [hg] using h⟩
  · rintro ⟨i, hi, hl, h⟩
    refine ⟨i.name, hl, ?_⟩
    rw [(getArch_iff g).2 ⟨hi, rfl⟩]
    exact h

private theorem archArms_iff {T : PlatformTable} {a : ArchValue} {s : Str} :
    (a, s) ∈ T.arch.flatMap ArchItem.strArms ↔ ArchText T (fun _ => True) s a := by
  rw [archText_iff, List.mem_flatMap]
  simp

private theorem osAsStrArms_eq (T : PlatformTable) (o : OsItem) :
    T.osAsStrArms o = (⟨o.ident, none⟩, o.name) ::
      (T.osArchArms o).map fun arm => (⟨o.ident, some arm.1⟩, slash o.name arm.2) := by
  unfold PlatformTable.osAsStrArms PlatformTable.osArchArms
  rw [List.map_flatMap]
  congr 2
  funext n
  cases T.getArch n <;> rfl

private theorem osFromStrArms_eq (T : PlatformTable) (o : OsItem) :
    T.osFromStrArms o = (o.name, ⟨o.ident, none⟩) ::
      (T.osArchArms o).map fun arm => (slash o.name arm.2, ⟨o.ident, some arm.1⟩) := by
  unfold PlatformTable.osFromStrArms PlatformTable.osArchArms
  rw [List.map_flatMap]
  congr 2
  funext n
  cases T.getArch n <;> rfl

private theorem asStrArms_iff {T : PlatformTable} (g : GoodTable T) {p : Platform} {s : Str} :
    (p, s) ∈ T.asStrArms ↔ PlatformText T s p := by
  unfold PlatformTable.asStrArms
  simp only [List.mem_flatMap, osAsStrArms_eq, List.mem_cons, Prod.mk.injEq, List.mem_map, Prod.exists,
    osArchArms_iff g, slash]
  constructor
  · rintro ⟨o, ho, (⟨rfl, rfl⟩ | ⟨a, t, ht, rfl, rfl⟩)⟩
    · exact .os ho
    · exact .arch ho ht
  · intro h
    cases h with
    | os ho => exact ⟨_, ho, .inl ⟨rfl, rfl⟩⟩
    | arch ho ht => exact ⟨_, ho, .inr ⟨_, _, ht, rfl, rfl⟩⟩

private theorem fromStrArms_iff {T : PlatformTable} (g : GoodTable T) {p : Platform} {s : Str} :
    (s, p) ∈ T.fromStrArms ↔ PlatformText T s p := by
  unfold PlatformTable.fromStrArms
  simp only [List.mem_flatMap, osFromStrArms_eq, List.mem_cons, Prod.mk.injEq, List.mem_map, Prod.exists,
    osArchArms_iff g, slash]
  constructor
  · rintro ⟨o, ho, (⟨rfl, rfl⟩ | ⟨a, t, ht, rfl, rfl⟩)⟩
    · exact .os ho
    · exact .arch ho ht
  · intro h
    cases h with
    | os ho => exact ⟨_, ho, .inl ⟨rfl, rfl⟩⟩
    | arch ho ht => exact ⟨_, ho, .inr ⟨_, _, ht, rfl, rfl⟩⟩

/-! ### The grammar is unambiguous -/

private theorem slash_inj {a b c d : Str} (ha : '/' ∉ a) (hc : '/' ∉ c) (h : a ++ '/' :: b = c ++ '/' :: d) :
    a = c ∧ b = d := by
  induction a generalizing c with
  | nil =>
    cases c with
    | nil => simpa using h
    | cons x c => simp at h hc; exact absurd h.1 hc.1
  | cons x a ih =>
    cases c with
    | nil => simp at h ha; exact absurd h.1.symm ha.1
    | cons y c =>
      simp only [List.cons_append, List.cons.injEq] at h
      simp only [List.mem_cons, not_or] at ha hc
      obtain ⟨h1, h2⟩ := ih ha.2 hc.2 h.2
      exact ⟨by rw [h.1, h1], h2⟩

private theorem slash_ne {a b c : Str} (hc : '/' ∉ c) : a ++ '/' :: b ≠ c := by
  rintro rfl; simp at hc

private theorem archText_unique {T : PlatformTable} (g : GoodTable T) {L M : Str → Prop} {s t : Str}
    {a b : ArchValue} (h : ArchText T L s a) (k : ArchText T M t b) : s = t ↔ a = b := by
  cases h with
  | @plain i hi _ =>
    cases k with
    | @plain j hj _ =>
      constructor
      · intro e; rw [nodup_map_inj g.archNames hi hj e]
      · intro e
        simp only [ArchValue.mk.injEq, and_true] at e
        rw [nodup_map_inj g.archIdents hi hj e]
    | @variant j vs v hj _ _ _ =>
      exact ⟨fun e => absurd e.symm (slash_ne (g.archSlash _ hi)), fun e => by simp at e⟩
  | @variant i vs v hi _ hv hm =>
    cases k with
    | @plain j hj _ =>
      exact ⟨fun e => absurd e (slash_ne (g.archSlash _ hj)), fun e => by simp at e⟩
    | @variant j ws w hj _ hw hn =>
      constructor
      · intro e
        obtain ⟨e1, e2⟩ := slash_inj (g.archSlash _ hi) (g.archSlash _ hj) e
        obtain rfl := nodup_map_inj g.archNames hi hj e1
        rw [hv] at hw; cases hw
        have := g.variantNames _ hi
        rw [hv] at this
        rw [nodup_map_inj this hm hn e2]
      · intro e
        simp only [ArchValue.mk.injEq, Option.some.injEq] at e
        obtain rfl := nodup_map_inj g.archIdents hi hj e.1
        rw [hv] at hw; cases hw
        have := g.variantIdents _ hi
        rw [hv] at this
        rw [nodup_map_inj this hm hn e.2]

private theorem platformText_unique {T : PlatformTable} (g : GoodTable T) {s t : Str}
    {p q : Platform} (h : PlatformText T s p) (k : PlatformText T t q) : s = t ↔ p = q := by
  cases h with
  | @os o ho =>
    cases k with
    | @os o' ho' =>
      constructor
      · intro e; rw [nodup_map_inj g.osNames ho ho' e]
      · intro e
        simp only [Platform.mk.injEq, and_true] at e
        rw [nodup_map_inj g.osIdents ho ho' e]
    | arch ho' _ => exact ⟨fun e => absurd e.symm (slash_ne (g.osSlash _ ho)), fun e => by simp at e⟩
  | @arch o u a ho ha =>
    cases k with
    | os ho' => exact ⟨fun e => absurd e (slash_ne (g.osSlash _ ho')), fun e => by simp at e⟩
    | @arch o' w b ho' hb =>
      constructor
      · intro e
        obtain ⟨e1, e2⟩ := slash_inj (g.osSlash _ ho) (g.osSlash _ ho') e
        rw [nodup_map_inj g.osNames ho ho' e1, (archText_unique g ha hb).1 e2]
      · intro e
        simp only [Platform.mk.injEq, Option.some.injEq] at e
        rw [nodup_map_inj g.osIdents ho ho' e.1, (archText_unique g ha hb).2 e.2]

private theorem find_fst {α β : Type} [DecidableEq α] {l : List (α × β)} {R : α → β → Prop}
    (hl : ∀ a b, (a, b) ∈ l ↔ R a b) (hu : ∀ a b c, R a b → R a c → b = c) {a : α} {b : β} :
    (l.find? (fun x => decide (x.1 = a))).map (·.2) = some b ↔ R a b := by
  constructor
  · intro h
    rw [Option.map_eq_some_iff] at h
    obtain ⟨⟨x, y⟩, h, rfl⟩ := h
    have h1 := List.find?_some h
    have h2 := List.mem_of_find?_eq_some h
    simp only [decide_eq_true_eq] at h1
    rw [← h1]
    exact (hl _ _).1 h2
  · intro h
    cases hf : l.find? (fun x => decide (x.1 = a)) with
    | none =>
      rw [List.find?_eq_none] at hf
      exact absurd (by simp) (hf _ ((hl a b).2 h))
    | some x =>
      have h1 := List.find?_some hf
      have h2 := List.mem_of_find?_eq_some hf
      simp only [decide_eq_true_eq] at h1
      obtain ⟨x, y⟩ := x
      simp only at h1
      subst h1
      simp only [Option.map_some, Option.some.injEq]
      exact hu _ _ _ ((hl _ _).1 h2) h

private theorem find_snd {α β : Type} [DecidableEq β] {l : List (α × β)} {R : α → β → Prop}
    (hl : ∀ a b, (a, b) ∈ l ↔ R a b) (hu : ∀ a b c, R a c → R b c → a = b) {a : α} {b : β} :
    (l.find? (fun x => decide (x.2 = b))).map (·.1) = some a ↔ R a b := by
  constructor
  · intro h
    rw [Option.map_eq_some_iff] at h
    obtain ⟨⟨x, y⟩, h, rfl⟩ := h
    have h1 := List.find?_some h
    have h2 := List.mem_of_find?_eq_some h
    simp only [decide_eq_true_eq] at h1
    rw [← h1]
    exact (hl _ _).1 h2
  · intro h
    cases hf : l.find? (fun x => decide (x.2 = b)) with
    | none =>
      rw [List.find?_eq_none] at hf
      exact absurd (by simp) (hf _ ((hl a b).2 h))
    | some x =>
      have h1 := List.find?_some hf
      have h2 := List.mem_of_find?_eq_some hf
      simp only [decide_eq_true_eq] at h1
      obtain ⟨x, y⟩ := x
      simp only at h1
      subst h1
      simp only [Option.map_some, Option.some.injEq]
      exact hu _ _ _ ((hl _ _).1 h2) h

private theorem match_ok {α : Type} {o : Option α} {s : Str} {b : α} : armOrError o s = .ok b ↔ o = some b := by
  cases o <;> simp [armOrError]

private theorem fromStr_iff {T : PlatformTable} (g : GoodTable T) {s : Str} {p : Platform} :
    T.fromStr s = .ok p ↔ PlatformText T s p := by
  unfold PlatformTable.fromStr
  exact match_ok.trans (find_fst (R := fun s p => PlatformText T s p) (fun _ _ => fromStrArms_iff g)
    fun a b c h k => (platformText_unique g h k).1 rfl)

private theorem asStr_iff {T : PlatformTable} (g : GoodTable T) {s : Str} {p : Platform} :
    T.asStr p = some s ↔ PlatformText T s p :=
  find_fst (R := fun p s => PlatformText T s p) (fun _ _ => asStrArms_iff g)
    fun a b c h k => (platformText_unique g h k).2 rfl

private theorem archAsStr_iff {T : PlatformTable} (g : GoodTable T) {s : Str} {a : ArchValue} :
    T.archAsStr a = some s ↔ ArchText T (fun _ => True) s a :=
  find_fst (R := fun a s => ArchText T (fun _ => True) s a) (fun _ _ => archArms_iff)
    fun a b c h k => (archText_unique g h k).2 rfl

private theorem archFromStr_iff {T : PlatformTable} (g : GoodTable T) {s : Str} {a : ArchValue} :
    T.archFromStr s = .ok a ↔ ArchText T (fun _ => True) s a := by
  unfold PlatformTable.archFromStr
  exact match_ok.trans (find_snd (R := fun a s => ArchText T (fun _ => True) s a) (fun _ _ => archArms_iff)
    fun a b c h k => (archText_unique g h k).1 rfl)

private theorem osArchAsStr_iff {T : PlatformTable} (g : GoodTable T) {o : OsItem} {s : Str} {a : ArchValue} :
    T.osArchAsStr o a = some s ↔ ArchText T (· ∈ o.archs) s a :=
  find_fst (R := fun a s => ArchText T (· ∈ o.archs) s a) (fun _ _ => osArchArms_iff g)
    fun a b c h k => (archText_unique g h k).2 rfl

private theorem osArchFromStr_iff {T : PlatformTable} (g : GoodTable T) {o : OsItem} {s : Str} {a : ArchValue} :
    T.osArchFromStr o s = .ok a ↔ ArchText T (· ∈ o.archs) s a := by
  unfold PlatformTable.osArchFromStr
  exact match_ok.trans (find_snd (R := fun a s => ArchText T (· ∈ o.archs) s a) (fun _ _ => osArchArms_iff g)
    fun a b c h k => (archText_unique g h k).1 rfl)

private theorem os_mem {T : PlatformTable} {i n : Str} :
    (i, n) ∈ (T.os.map fun item => (item.ident, item.name)) ↔ ∃ o ∈ T.os, o.ident = i ∧ o.name = n := by
  simp [Prod.ext_iff]

private theorem osAsStr_iff {T : PlatformTable} (g : GoodTable T) {i n : Str} :
    T.osAsStr i = some n ↔ ∃ o ∈ T.os, o.ident = i ∧ o.name = n := by
  refine find_fst (R := fun i n => ∃ o ∈ T.os, o.ident = i ∧ o.name = n) (fun _ _ => os_mem) ?_
  rintro a b c ⟨o, ho, rfl, rfl⟩ ⟨o', ho', e, rfl⟩
  rw [nodup_map_inj g.osIdents ho ho' e.symm]

private theorem osFromStr_iff {T : PlatformTable} (g : GoodTable T) {i n : Str} :
    T.osFromStr n = .ok i ↔ ∃ o ∈ T.os, o.ident = i ∧ o.name = n := by
  unfold PlatformTable.osFromStr
  refine match_ok.trans (find_snd (R := fun i n => ∃ o ∈ T.os, o.ident = i ∧ o.name = n) (fun _ _ => os_mem) ?_)
  rintro a b c ⟨o, ho, rfl, rfl⟩ ⟨o', ho', rfl, e⟩
  rw [nodup_map_inj g.osNames ho ho' e.symm]

private theorem isArch_iff {T : PlatformTable} {L : Str → Prop} {a : ArchValue} :
    (∃ s, ArchText T L s a) ↔ ∃ i ∈ T.arch, L i.name ∧ a.ident = i.ident ∧
      ∀ v, a.variant = some v → ∃ vs, i.variants = some vs ∧ ∃ w ∈ vs, v = w.ident := by
  constructor
  · rintro ⟨s, h⟩
    cases h with
    | plain hi hl => exact ⟨_, hi, hl, rfl, fun _ h => nomatch h⟩
    | variant hi hl hv hm => exact ⟨_, hi, hl, rfl, fun v h => ⟨_, hv, _, hm, by simpa using h.symm⟩⟩
  · rintro ⟨i, hi, hl, e, h⟩
    obtain ⟨ai, av⟩ := a
    simp only at e h
    subst e
    cases av with
    | none => exact ⟨_, .plain hi hl⟩
    | some v =>
      obtain ⟨vs, hv, w, hw, rfl⟩ := h v rfl
      exact ⟨_, .variant hi hl hv hw⟩

private theorem isPlatform_iff {T : PlatformTable} {p : Platform} :
    (∃ s, PlatformText T s p) ↔ IsPlatform T p := by
  unfold IsPlatform
  constructor
  · rintro ⟨s, h⟩
    cases h with
    | os ho => exact ⟨_, ho, rfl, fun _ h => nomatch h⟩
    | arch ho ha =>
      refine ⟨_, ho, rfl, fun a h => ?_⟩
      cases h
      exact isArch_iff.1 ⟨_, ha⟩
  · rintro ⟨o, ho, e, h⟩
    obtain ⟨po, pa⟩ := p
    simp only at e h
    subst e
    cases pa with
    | none => exact ⟨_, .os ho⟩
    | some a =>
      obtain ⟨s, hs⟩ := isArch_iff.2 (h a rfl)
      exact ⟨_, .arch ho hs⟩

/-! ### C49 -/

/-- **C49** (every table). Parsing accepts exactly the texts `os[/arch[/variant]]` of the table and yields the platform
they denote; any other text is rejected and returned in the error. -/
theorem C49_platform_accepts {T : PlatformTable} (g : GoodTable T) (s : Str) :
    (∀ p, T.fromStr s = .ok p ↔ PlatformText T s p) ∧
      ((¬ ∃ p, PlatformText T s p) → T.fromStr s = .error s) := by
  refine ⟨fun p => fromStr_iff g, fun h => ?_⟩
  cases hf : T.fromStr s with
  | ok p => exact absurd ⟨p, (fromStr_iff g).1 hf⟩ h
  | error e =>
    unfold PlatformTable.fromStr at hf
    generalize ((T.fromStrArms.find? fun x => decide (x.1 = s)).map fun x => x.2) = o at hf
    cases o <;> simp_all [armOrError]

/-- **C49** (every table). Every platform has a text, the text parses back to it, and different platforms have different
texts. -/
theorem C49_platform_round_trip {T : PlatformTable} (g : GoodTable T) (p : Platform) (hp : IsPlatform T p) :
    ∃ s, T.asStr p = some s ∧ T.fromStr s = .ok p ∧ ∀ q, T.asStr q = some s → q = p := by
  obtain ⟨s, hs⟩ := isPlatform_iff.2 hp
  exact ⟨s, (asStr_iff g).2 hs, (fromStr_iff g).2 hs,
    fun q hq => (platformText_unique g ((asStr_iff g).1 hq) hs).1 rfl⟩

/-- **C49** (every table). Parsing yields only platforms of the table, and writing one gives back the text it was read
from. -/
theorem C49_platform_text {T : PlatformTable} (g : GoodTable T) (s : Str) (p : Platform) (h : T.fromStr s = .ok p) :
    IsPlatform T p ∧ T.asStr p = some s :=
  ⟨isPlatform_iff.1 ⟨s, (fromStr_iff g).1 h⟩, (asStr_iff g).2 ((fromStr_iff g).1 h)⟩

/-- **C49** (every table). The text of a platform is the text of its `os()`, followed, if there is an `arch()`, by `/`
and the text of that. -/
theorem C49_platform_os_arch {T : PlatformTable} (g : GoodTable T) (p : Platform) (hp : IsPlatform T p) :
    ∃ o, T.osAsStr p.getOs = some o ∧
      (p.getArch = none → T.asStr p = some o) ∧
      ∀ a, p.getArch = some a → ∃ t, T.archAsStr a = some t ∧ T.asStr p = some (o ++ '/' :: t) := by
  obtain ⟨s, hs⟩ := isPlatform_iff.2 hp
  cases hs with
  | @os o ho =>
    exact ⟨o.name, (osAsStr_iff g).2 ⟨o, ho, rfl, rfl⟩, fun _ => (asStr_iff g).2 (.os ho), fun a h => nomatch h⟩
  | @arch o t a ho ha =>
    refine ⟨o.name, (osAsStr_iff g).2 ⟨o, ho, rfl, rfl⟩, (fun h => nomatch h), fun b hb => ?_⟩
    cases hb
    refine ⟨t, (archAsStr_iff g).2 ?_, (asStr_iff g).2 (.arch ho ha)⟩
    obtain ⟨i, hi, _, h⟩ := archText_iff.1 ha
    exact archText_iff.2 ⟨i, hi, trivial, h⟩

/-- **C49** (every table). A platform made from an OS has that OS, no architecture, and the OS's own text. -/
theorem C49_platform_of_os {T : PlatformTable} (g : GoodTable T) (o : OsItem) (ho : o ∈ T.os) :
    (Platform.ofOs o.ident).getOs = o.ident ∧ (Platform.ofOs o.ident).getArch = none ∧
      T.asStr (Platform.ofOs o.ident) = some o.name ∧ T.fromStr o.name = .ok (Platform.ofOs o.ident) :=
  ⟨rfl, rfl, (asStr_iff g).2 (.os ho), (fromStr_iff g).2 (.os ho)⟩

/-- **C49** (every table). Converting an architecture to an OS's own set succeeds exactly when that OS lists it,
and then changes nothing, not even the variant; otherwise the error names the architecture and the OS. -/
theorem C49_try_from_arch {T : PlatformTable} (g : GoodTable T) (o : OsItem) (ho : o ∈ T.os) (a : ArchValue)
    (ha : IsArch T a) :
    (T.tryFromArch o a = .ok a ↔ IsPlatform T ⟨o.ident, some a⟩) ∧
      (T.tryFromArch o a = .error (a, o.ident) ↔ ¬ IsPlatform T ⟨o.ident, some a⟩) := by
  obtain ⟨i, hi, e, hv⟩ := ha
  have key : (o.archs.any fun name => (T.getArch name).any (·.ident = a.ident)) = true ↔
      IsPlatform T ⟨o.ident, some a⟩ := by
    rw [List.any_eq_true]
    constructor
    · rintro ⟨n, hn, h⟩
      cases hg : T.getArch n with
      | none => simp [hg] at h
      | some j =>
        obtain ⟨hj, rfl⟩ := (getArch_iff g).1 hg
        simp only [hg, Option.any_some, decide_eq_true_eq] at h
        have : j = i := nodup_map_inj g.archIdents hj hi (h.trans e)
        subst this
        refine ⟨o, ho, rfl, fun b hb => ?_⟩
        cases hb
        exact ⟨j, hj, hn, e, hv⟩
    · rintro ⟨o', ho', e', h⟩
      obtain rfl := nodup_map_inj g.osIdents ho ho' e'
      obtain ⟨j, hj, hl, hji, _⟩ := h a rfl
      refine ⟨j.name, hl, ?_⟩
      rw [(getArch_iff g).2 ⟨hj, rfl⟩]
      simp [hji]
  unfold PlatformTable.tryFromArch
  split
  · rename_i h
    have := key.1 h
    simp [this]
  · rename_i h
    have := mt key.2 h
    simp [this]

/-- **C49** (every table). The texts of operating systems, of architectures and of each OS's own architectures read back
as the same value, and are the only texts accepted. -/
theorem C49_parts_round_trip {T : PlatformTable} (g : GoodTable T) :
    (∀ s i, T.osFromStr s = .ok i ↔ T.osAsStr i = some s) ∧
      (∀ s a, T.archFromStr s = .ok a ↔ T.archAsStr a = some s) ∧
      (∀ a, IsArch T a ↔ ∃ s, T.archAsStr a = some s) ∧
      ∀ o ∈ T.os, ∀ s a, (T.osArchFromStr o s = .ok a ↔ T.osArchAsStr o a = some s) ∧
        (T.osArchFromStr o s = .ok a ↔ T.archFromStr s = .ok a ∧ T.tryFromArch o a = .ok a) := by
  refine ⟨fun s i => (osFromStr_iff g).trans (osAsStr_iff g).symm,
    fun s a => (archFromStr_iff g).trans (archAsStr_iff g).symm, fun a => ?_, fun o ho s a =>
      ⟨(osArchFromStr_iff g).trans (osArchAsStr_iff g).symm, ?_⟩⟩
  · simp only [archAsStr_iff g]
    rw [isArch_iff]
    simp [IsArch]
  · rw [osArchFromStr_iff g, archFromStr_iff g]
    constructor
    · intro h
      obtain ⟨i, hi, hl, hs⟩ := archText_iff.1 h
      have ht : ArchText T (fun _ => True) s a := archText_iff.2 ⟨i, hi, trivial, hs⟩
      refine ⟨ht, ((C49_try_from_arch g o ho a ?_).1).2 ?_⟩
      · have := isArch_iff.1 ⟨s, ht⟩
        simpa [IsArch] using this
      · exact isPlatform_iff.1 ⟨_, .arch ho h⟩
    · rintro ⟨ht, h⟩
      have hA : IsArch T a := by
        have := isArch_iff.1 ⟨s, ht⟩
        simpa [IsArch] using this
      obtain ⟨o', ho', e', h'⟩ := ((C49_try_from_arch g o ho a hA).1).1 h
      obtain rfl := nodup_map_inj g.osIdents ho ho' e'
      obtain ⟨j, hj, hl, hji, hv⟩ := h' a rfl
      obtain ⟨t, htt⟩ := isArch_iff.2 ⟨j, hj, hl, hji, hv⟩
      rw [(archText_unique g ht htt).2 rfl]
      exact htt

/-- **C49** (every table). The variants of an architecture have a type of their own: its values are read from exactly
their names and written as these, any other text is returned in the error, and an architecture with a variant is written
as the name of the architecture, `/`, and what the variant is written as. -/
theorem C49_variant {T : PlatformTable} (g : GoodTable T) (a : ArchItem) (ha : a ∈ T.arch) (s i : Str) :
    (a.variantFromStr s = .ok i ↔ ∃ vs, a.variants = some vs ∧ ∃ v ∈ vs, v.ident = i ∧ v.name = s) ∧
      (a.variantFromStr s = .ok i ↔ a.variantAsStr i = some s) ∧
      ((∃ j, a.variantFromStr s = .ok j) ∨ a.variantFromStr s = .error s) ∧
      ∀ t, T.archAsStr ⟨a.ident, some i⟩ = some t ↔ ∃ n, a.variantAsStr i = some n ∧ t = a.name ++ '/' :: n := by
  have hm : ∀ i n, (i, n) ∈ a.variantArms ↔ ∃ vs, a.variants = some vs ∧ ∃ v ∈ vs, v.ident = i ∧ v.name = n := by
    intro i n
    unfold ArchItem.variantArms
    cases a.variants with
    | none => simp
    | some vs => simp [Prod.ext_iff]
  have hr : ∀ i n, a.variantAsStr i = some n ↔ ∃ vs, a.variants = some vs ∧ ∃ v ∈ vs, v.ident = i ∧ v.name = n := by
    intro i n
    refine find_fst (R := fun i n => ∃ vs, a.variants = some vs ∧ ∃ v ∈ vs, v.ident = i ∧ v.name = n) hm ?_
    rintro _ _ _ ⟨vs, hv, v, h, rfl, rfl⟩ ⟨ws, hw, w, k, e, rfl⟩
    obtain rfl : vs = ws := by simpa [hv] using hw
    have hn := g.variantIdents a ha
    rw [hv] at hn
    rw [nodup_map_inj hn h k e.symm]
  have hf : ∀ n i, a.variantFromStr n = .ok i ↔ ∃ vs, a.variants = some vs ∧ ∃ v ∈ vs, v.ident = i ∧ v.name = n := by
    intro n i
    unfold ArchItem.variantFromStr
    refine match_ok.trans
      (find_snd (R := fun i n => ∃ vs, a.variants = some vs ∧ ∃ v ∈ vs, v.ident = i ∧ v.name = n) hm ?_)
    rintro _ _ _ ⟨vs, hv, v, h, rfl, rfl⟩ ⟨ws, hw, w, k, rfl, e⟩
    obtain rfl : vs = ws := by simpa [hv] using hw
    have hn := g.variantNames a ha
    rw [hv] at hn
    rw [nodup_map_inj hn h k e.symm]
  refine ⟨hf s i, (hf s i).trans (hr i s).symm, ?_, fun t => ?_⟩
  · unfold ArchItem.variantFromStr
    cases (a.variantArms.find? fun x => decide (x.2 = s)).map fun x => x.1 with
    | none => exact .inr rfl
    | some j => exact .inl ⟨j, rfl⟩
  · rw [archAsStr_iff g, archText_iff]
    simp only [hr]
    constructor
    · rintro ⟨b, hb, -, h⟩
      rw [strArms_iff] at h
      obtain ⟨e, -⟩ | ⟨vs, hv, v, h, e, rfl⟩ := h
      · simp at e
      · rw [ArchValue.mk.injEq, Option.some.injEq] at e
        obtain ⟨e, rfl⟩ := e
        obtain rfl := nodup_map_inj g.archIdents ha hb e
        exact ⟨_, ⟨vs, hv, v, h, rfl, rfl⟩, rfl⟩
    · rintro ⟨_, ⟨vs, hv, v, h, rfl, rfl⟩, rfl⟩
      exact ⟨a, ha, trivial, strArms_iff.2 (.inr ⟨vs, hv, v, h, rfl, rfl⟩)⟩

/-- **C49** (every table). An architecture of an OS's own set becomes the same value of the set of all architectures, from
which it is converted back, and the OS of the set is the one that is read from the name of the OS. -/
theorem C49_os_arch {T : PlatformTable} (g : GoodTable T) (o : OsItem) (ho : o ∈ T.os) (a : ArchValue)
    (ha : IsPlatform T ⟨o.ident, some a⟩) :
    T.archOfOsArch o a = some a ∧ T.tryFromArch o a = .ok a ∧
      T.osFromStr o.name = .ok o.osConst := by
  obtain ⟨o', ho', e', h'⟩ := id ha
  obtain rfl := nodup_map_inj g.osIdents ho ho' e'
  obtain ⟨i, hi, hl, hii, hv⟩ := h' a rfl
  refine ⟨?_, ((C49_try_from_arch g o ho a ⟨i, hi, hii, hv⟩).1).2 ha, (osFromStr_iff g).2 ⟨o, ho, rfl, rfl⟩⟩
  unfold PlatformTable.archOfOsArch
  cases hf : o.archs.findSome? fun name => (T.getArch name).bind fun item =>
      if item.ident = a.ident then some (⟨item.ident, a.variant⟩ : ArchValue) else none with
  | none =>
    rw [List.findSome?_eq_none_iff] at hf
    have := hf _ hl
    rw [(getArch_iff g).2 ⟨hi, rfl⟩] at this
    simp [hii] at this
  | some b =>
    obtain ⟨n, hn, h⟩ := List.exists_of_findSome?_eq_some hf
    cases hg : T.getArch n with
    | none => simp [hg] at h
    | some j =>
      rw [hg] at h
      simp only [Option.bind_some] at h
      split at h
      · rename_i e
        cases h
        rw [e]
      · cases h

/-- **C49** (every table). The message for an architecture that an OS does not have names both as they are written in a
platform, and the platform made of the two is not one of the table. -/
theorem C49_invalid_arch_message {T : PlatformTable} (g : GoodTable T) (o : OsItem) (ho : o ∈ T.os) (a : ArchValue)
    (ha : IsArch T a) (e : ArchValue × Str) (h : T.tryFromArch o a = .error e) :
    ∃ t, ArchText T (fun _ => True) t a ∧
      T.invalidArchMessage e = "`".toList ++ t ++ "` is not a valid arch for `".toList ++ o.name ++ "`".toList ∧
      T.fromStr (o.name ++ '/' :: t) = .error (o.name ++ '/' :: t) := by
  obtain ⟨t, ht⟩ := (isArch_iff (L := fun _ => True)).2 (by simpa [IsArch] using ha)
  have he : e = (a, o.ident) := by
    unfold PlatformTable.tryFromArch at h
    split at h
    · cases h
    · exact (Except.error.inj h).symm
  subst he
  refine ⟨t, ht, ?_, (C49_platform_accepts g _).2 ?_⟩
  · unfold PlatformTable.invalidArchMessage
    rw [(archAsStr_iff g).2 ht, (osAsStr_iff g).2 ⟨o, ho, rfl, rfl⟩]
    simp
  · rintro ⟨p, hp⟩
    refine ((C49_try_from_arch g o ho a ha).2).1 h ?_
    generalize hs : o.name ++ '/' :: t = s at hp
    cases hp with
    | os ho' => exact absurd hs (slash_ne (g.osSlash _ ho'))
    | @arch o' u b ho' hb =>
      obtain ⟨e1, rfl⟩ := slash_inj (g.osSlash _ ho) (g.osSlash _ ho') hs
      obtain rfl := nodup_map_inj g.osNames ho ho' e1
      obtain rfl := (archText_unique g ht hb).1 rfl
      exact isPlatform_iff.1 ⟨_, .arch ho hb⟩

/-- **C49** (the library's table). Its names are unambiguous, so all of the above holds of it, and the texts it accepts
are exactly those of the written-out list. -/
theorem C49_platform_table :
    GoodTable platforms ∧ ∀ s : String, (∃ p, platforms.fromStr s.toList = .ok p) ↔ s ∈ platformTexts := by
  have g : GoodTable platforms := by
    constructor <;> decide +kernel
  refine ⟨g, fun s => ?_⟩
  have h1 : platforms.fromStrArms.map (·.1) = platformTexts.map String.toList := by decide +kernel
  have h2 : (∃ p, platforms.fromStr s.toList = .ok p) ↔ s.toList ∈ platforms.fromStrArms.map (·.1) := by
    simp only [fromStr_iff g, List.mem_map, Prod.exists, exists_and_right, exists_eq_right, fromStrArms_iff g]
  rw [h2, h1, List.mem_map]
  constructor
  · rintro ⟨t, ht, e⟩
    rwa [← String.toList_injective e]
  · intro h
    exact ⟨s, h, rfl⟩

/-- The table is one of those the theorems are about: a platform in three parts, and one that does not exist. -/
example : PlatformText platforms "linux/arm64/v8".toList ⟨"Linux".toList, some ⟨"Arm64".toList, some "V8".toList⟩⟩ ∧
    ¬ PlatformText platforms "darwin/386".toList ⟨"Darwin".toList, some ⟨"_386".toList, none⟩⟩ :=
  ⟨((C49_platform_accepts C49_platform_table.1 _).1 _).1 (by decide +kernel),
    fun h => absurd (((C49_platform_accepts C49_platform_table.1 _).1 _).2 h) (by decide +kernel)⟩
example : ∃ s, platforms.asStr ⟨"Linux".toList, some ⟨"Arm64".toList, some "V8".toList⟩⟩ = some s ∧
    platforms.fromStr s = .ok ⟨"Linux".toList, some ⟨"Arm64".toList, some "V8".toList⟩⟩ ∧
    ∀ q, platforms.asStr q = some s → q = ⟨"Linux".toList, some ⟨"Arm64".toList, some "V8".toList⟩⟩ :=
  C49_platform_round_trip C49_platform_table.1 _
    (C49_platform_text C49_platform_table.1 "linux/arm64/v8".toList _ (by decide +kernel)).1
example : ∃ o, platforms.osAsStr "Linux".toList = some o ∧ ∃ t, platforms.archAsStr ⟨"Arm64".toList, some "V8".toList⟩ = some t ∧
    platforms.asStr ⟨"Linux".toList, some ⟨"Arm64".toList, some "V8".toList⟩⟩ = some (o ++ '/' :: t) :=
  have ⟨o, ho, _, h⟩ := C49_platform_os_arch C49_platform_table.1 ⟨"Linux".toList, some ⟨"Arm64".toList, some "V8".toList⟩⟩
    (C49_platform_text C49_platform_table.1 "linux/arm64/v8".toList _ (by decide +kernel)).1
  ⟨o, ho, h _ rfl⟩
example : platforms.fromStr "darwin".toList = .ok (Platform.ofOs "Darwin".toList) :=
  (C49_platform_of_os C49_platform_table.1 (osItem "Darwin" "darwin" ["amd64", "arm64"]) (by decide +kernel)).2.2.2
example : IsPlatform platforms ⟨"Darwin".toList, some ⟨"Arm64".toList, some "V8".toList⟩⟩ :=
  (C49_try_from_arch C49_platform_table.1 (osItem "Darwin" "darwin" ["amd64", "arm64"]) (by decide +kernel)
    ⟨"Arm64".toList, some "V8".toList⟩
    (((C49_parts_round_trip C49_platform_table.1).2.2.1 _).2 ⟨"arm64/v8".toList, by decide +kernel⟩)).1.1 (by decide +kernel)

example : platforms.fromStr "linux/arm64/v8".toList =
    .ok ⟨"Linux".toList, some ⟨"Arm64".toList, some "V8".toList⟩⟩ := by decide +kernel
example : platforms.asStr ⟨"Linux".toList, some ⟨"Arm64".toList, some "V8".toList⟩⟩ =
    some "linux/arm64/v8".toList := by decide +kernel
example : IsPlatform platforms ⟨"Linux".toList, some ⟨"Arm64".toList, some "V8".toList⟩⟩ :=
  (C49_platform_text C49_platform_table.1 "linux/arm64/v8".toList _ (by decide +kernel)).1
example : platforms.fromStr "darwin/386".toList = .error "darwin/386".toList := by decide +kernel
example : platforms.tryFromArch (osItem "Darwin" "darwin" ["amd64", "arm64"]) ⟨"_386".toList, none⟩ =
    .error (⟨"_386".toList, none⟩, "Darwin".toList) := by decide +kernel
example : platforms.tryFromArch (osItem "Darwin" "darwin" ["amd64", "arm64"]) ⟨"Arm64".toList, some "V8".toList⟩ =
    .ok ⟨"Arm64".toList, some "V8".toList⟩ := by decide +kernel

example : (archVariants "Arm64" "arm64" [("V8", "v8")]).variantFromStr "v8".toList = .ok "V8".toList ∧
    platforms.archAsStr ⟨"Arm64".toList, some "V8".toList⟩ = some "arm64/v8".toList :=
  have h := C49_variant C49_platform_table.1 (archVariants "Arm64" "arm64" [("V8", "v8")]) (by decide +kernel) "v8".toList
    "V8".toList
  have k := h.1.2 ⟨_, rfl, _, List.mem_singleton.2 rfl, rfl, rfl⟩
  ⟨k, (h.2.2.2 _).2 ⟨_, h.2.1.1 k, by decide⟩⟩
example : platforms.archOfOsArch (osItem "Darwin" "darwin" ["amd64", "arm64"]) ⟨"Arm64".toList, some "V8".toList⟩ =
    some ⟨"Arm64".toList, some "V8".toList⟩ :=
  (C49_os_arch C49_platform_table.1 (osItem "Darwin" "darwin" ["amd64", "arm64"]) (by decide +kernel) _
    (C49_platform_text C49_platform_table.1 "darwin/arm64/v8".toList _ (by decide +kernel)).1).1
example : platforms.invalidArchMessage (⟨"Arm".toList, some "V7".toList⟩, "Darwin".toList) =
    "`arm/v7` is not a valid arch for `darwin`".toList := by decide +kernel
example : ∃ t, ArchText platforms (fun _ => True) t ⟨"Arm".toList, some "V7".toList⟩ ∧
    platforms.fromStr ("darwin".toList ++ '/' :: t) = .error ("darwin".toList ++ '/' :: t) :=
  have ⟨t, h, _, k⟩ := C49_invalid_arch_message C49_platform_table.1 (osItem "Darwin" "darwin" ["amd64", "arm64"])
    (by decide +kernel) ⟨"Arm".toList, some "V7".toList⟩
    (((C49_parts_round_trip C49_platform_table.1).2.2.1 _).2 ⟨"arm/v7".toList, by decide +kernel⟩)
    (⟨"Arm".toList, some "V7".toList⟩, "Darwin".toList) (by decide +kernel)
  ⟨t, h, k⟩

end Props
