import Verif.Spec.Orders
import Verif.Props.Compare
import Verif.Proofs.Path
import Verif.Proofs.Reasons

/- C110: the orders of paths and of short or long syntaxes. -/

namespace Props
open Rust Compose Spec

theorem part_eq (a b : Component) : a.cmp b = .eq ↔ a = b := by
  cases a <;> cases b <;> simp [Component.cmp, compareStr_eq]

theorem part_lt (a b : Component) : a.cmp b = .lt ↔ PartBefore a b := by
  cases a <;> cases b <;> simp only [Component.cmp, compareStr_lt, reduceCtorEq, false_iff, true_iff]
  all_goals first | constructor | skip
  all_goals first | (intro h; cases h; done) | skip
  · exact .names
  · rintro ⟨⟩; assumption

theorem part_swap (a b : Component) : (a.cmp b).swap = b.cmp a := by
  cases a <;> cases b <;> simp [Component.cmp, compareStr_swap]

theorem part_trans {a b c : Component} (h : PartBefore a b) (h' : PartBefore b c) : PartBefore a c := by
  cases h <;> cases h' <;> first | constructor | skip
  rename_i h _ h'
  exact before_trans h h'

theorem components_cmp_eq (s t : List Component) : compareComponents s t = .eq ↔ s = t := by
  induction s generalizing t with
  | nil => cases t <;> simp [compareComponents]
  | cons a s ih =>
    cases t with
    | nil => simp [compareComponents]
    | cons b t => rw [compareComponents, Ordering.then_eq_eq, part_eq, ih]; simp

theorem components_cmp_swap (s t : List Component) : (compareComponents s t).swap = compareComponents t s := by
  induction s generalizing t with
  | nil => cases t <;> rfl
  | cons a s ih =>
    cases t with
    | nil => rfl
    | cons b t => rw [compareComponents, compareComponents, Ordering.swap_then, ih, part_swap]

theorem components_cmp_append (l s t : List Component) : compareComponents (l ++ s) (l ++ t) = compareComponents s t := by
  induction l with
  | nil => rfl
  | cons a l ih => rw [List.cons_append, List.cons_append, compareComponents, ih, (part_eq a a).2 rfl]; rfl

theorem components_cmp_lt (s t : List Component) : compareComponents s t = .lt ↔
    (∃ c rest, t = s ++ c :: rest) ∨ ∃ l a b s' t', s = l ++ a :: s' ∧ t = l ++ b :: t' ∧ PartBefore a b := by
  constructor
  · intro h
    induction s generalizing t with
    | nil =>
      cases t with
      | nil => cases h
      | cons b t => exact .inl ⟨b, t, rfl⟩
    | cons a s ih =>
      cases t with
      | nil => cases h
      | cons b t =>
        rw [compareComponents, Ordering.then_eq_lt, part_lt, part_eq] at h
        rcases h with h | ⟨rfl, h⟩
        · exact .inr ⟨[], a, b, s, t, rfl, rfl, h⟩
        · rcases ih t h with ⟨c, r, rfl⟩ | ⟨l, x, y, s', t', rfl, rfl, hp⟩
          · exact .inl ⟨c, r, rfl⟩
          · exact .inr ⟨a :: l, x, y, s', t', rfl, rfl, hp⟩
  · rintro (⟨c, r, rfl⟩ | ⟨l, a, b, s', t', rfl, rfl, hp⟩)
    · have := components_cmp_append s [] (c :: r)
      rw [List.append_nil] at this
      rw [this]; rfl
    · rw [components_cmp_append, compareComponents, (part_lt a b).2 hp]; rfl

theorem components_cmp_trans {s t u : List Component} (h : compareComponents s t = .lt) (h' : compareComponents t u = .lt) :
    compareComponents s u = .lt := by
  induction s generalizing t u with
  | nil =>
    cases u with
    | nil => cases t <;> cases h'
    | cons c u => rfl
  | cons a s ih =>
    cases t with
    | nil => cases h
    | cons b t =>
      cases u with
      | nil => cases h'
      | cons c u =>
        rw [compareComponents, Ordering.then_eq_lt, part_lt, part_eq] at h h' ⊢
        rcases h with h | ⟨rfl, h⟩ <;> rcases h' with h' | ⟨rfl, h'⟩
        · exact .inl (part_trans h h')
        · exact .inl h
        · exact .inl h'
        · exact .inr ⟨rfl, ih h h'⟩

/-- C110: paths are ordered part by part, and are equal in the order exactly if they are equal. -/
theorem C110_path (p q : Str) : (pathCmp p q = .lt ↔ PathBefore p q) ∧ (pathCmp p q = .eq ↔ Path.eq p q = true) ∧
    (pathCmp p q = .gt ↔ PathBefore q p) := by
  have hlt : ∀ p q, pathCmp p q = .lt ↔ PathBefore p q := fun p q => components_cmp_lt _ _
  refine ⟨hlt p q, ?_, ?_⟩
  · rw [pathCmp, Path.cmp, components_cmp_eq, Path.eq, decide_eq_true_iff]
  · rw [← hlt, pathCmp, pathCmp, Path.cmp, Path.cmp, ← components_cmp_swap, Ordering.swap_eq_gt]

/-- The texts are in the other order. -/
example : PathBefore "/srv/b".toList "/srv-a".toList ∧ Before "/srv-a".toList "/srv/b".toList :=
  ⟨(C110_path _ _).1.1 (by decide), (compareStr_lt _ _).1 (by decide)⟩

theorem body_front (p : Str) : Path.body (Path.front p).2 = Path.body p := by
  rcases Path.front_cases p with ⟨b, rfl, hf⟩ | ⟨b, rfl, hb, hf⟩ | ⟨hf, -⟩
  · rw [hf]
    have := Path.body_append [] b
    rw [List.nil_append] at this
    rw [this]; rfl
  · rw [hf]
    rcases hb with rfl | ⟨b', rfl⟩
    · rfl
    · have h1 := Path.body_append [] b'
      have h2 := Path.body_append ['.'] b'
      rw [List.nil_append] at h1
      rw [List.cons_append, List.nil_append] at h2
      rw [h1, h2]; rfl
  · rw [hf]

theorem body_pieces (p q : Str) : Path.body p = Path.body q ↔ pathPieces p = pathPieces q := by
  have hb : ∀ p, Path.body p = (pathPieces p).map Path.toComponent := by
    intro p
    rw [Path.body, split_eq_splitOn, pathPieces]
    congr 2
    funext x
    rw [Path.skip]
    by_cases h1 : x = [] <;> by_cases h2 : x = ['.'] <;> simp [h1, h2]
  have hinj : Function.Injective Path.toComponent := by
    intro x y h
    unfold Path.toComponent at h
    split at h <;> split at h <;> first | (cases h; done) | skip
    · rename_i h1 h2; rw [h1, h2]
    · cases h; rfl
  rw [hb, hb]
  exact ⟨fun h => hinj.list_map h, fun h => by rw [h]⟩

/-- C110: paths are equal exactly if both or none begin at the root, both or none with `.`, and they agree between the
slashes, except for repeated slashes, slashes at the end, and `.` in the middle. -/
theorem C110_equal_paths (p q : Str) :
    Path.eq p q = true ↔ (Rooted p ↔ Rooted q) ∧ (Dotted p ↔ Dotted q) ∧ pathPieces p = pathPieces q := by
  rw [Path.eq, decide_eq_true_iff]
  have hr := fun p => Path.rootDir_iff p
  have hd := fun p => Path.curDir_iff p
  constructor
  · intro h
    refine ⟨?_, ?_, ?_⟩
    · rw [Rooted, Rooted, ← hr, ← hr, h]
    · exact (hd p).symm.trans ((by rw [h] : _ ↔ _).trans (hd q))
    · have hb : ∀ p, Path.body p = (Path.components p).filter fun c => c ≠ .rootDir ∧ c ≠ .curDir := by
        intro p
        have hself : (Path.body p).filter (fun c => c ≠ .rootDir ∧ c ≠ .curDir) = Path.body p := by
          rw [List.filter_eq_self]
          intro c hc
          simp only [Path.body, List.mem_map] at hc
          obtain ⟨x, _, rfl⟩ := hc
          unfold Path.toComponent
          split <;> simp
        rw [Path.components_eq, body_front, List.filter_append, hself]
        split
        · rfl
        · split <;> rfl
      rw [← body_pieces, hb, hb, h]
  · rintro ⟨h1, h2, h3⟩
    rw [← body_pieces] at h3
    rw [Path.components_eq, Path.components_eq, body_front, body_front, h3]
    congr 1
    have hroot : ∀ p, (Path.front p).1 = ['/'] ↔ Rooted p := by
      intro p
      rcases Path.front_cases p with ⟨b, rfl, hf⟩ | ⟨b, rfl, hb, hf⟩ | ⟨hf, h, -⟩
      · exact ⟨fun _ => ⟨b, rfl⟩, fun _ => by rw [hf]⟩
      · rw [hf]; exact ⟨fun h => by simp at h, fun ⟨_, h⟩ => by simp at h⟩
      · rw [hf]; exact ⟨fun h => by simp at h, fun ⟨b, hb⟩ => absurd hb (h b)⟩
    have hdot : ∀ p, (Path.front p).1 = ['.'] ↔ Dotted p := by
      intro p
      rcases Path.front_cases p with ⟨b, rfl, hf⟩ | ⟨b, rfl, hb, hf⟩ | ⟨hf, -, h, h'⟩
      · rw [hf]; exact ⟨fun h => by simp at h, fun h => by rcases h with h | ⟨_, h⟩ <;> cases h⟩
      · rw [hf]
        refine ⟨fun _ => ?_, fun _ => rfl⟩
        rcases hb with rfl | ⟨b', rfl⟩
        · exact .inl rfl
        · exact .inr ⟨b', rfl⟩
      · rw [hf]; exact ⟨fun h => by simp at h, fun h0 => by rcases h0 with h0 | ⟨b, hb⟩ <;> [exact absurd h0 h; exact absurd hb (h' b)]⟩
    have e1 : (Path.front p).1 = ['/'] ↔ (Path.front q).1 = ['/'] := by rw [hroot, hroot, h1]
    have e2 : (Path.front p).1 = ['.'] ↔ (Path.front q).1 = ['.'] := by rw [hdot, hdot, h2]
    rw [if_congr e1 rfl (if_congr e2 rfl rfl)]

example : Path.eq "/srv//data/./".toList "/srv/data".toList = true ∧ Path.eq "./a".toList "a".toList = false ∧
    Path.eq "/a/../b".toList "/b".toList = false := by decide

/-- C110: this orders all paths. -/
theorem C110_path_orders : Orders pathCmp EqualPath where
  eq p q := components_cmp_eq _ _
  swap p q := components_cmp_swap _ _
  trans p q r := components_cmp_trans
  congr p q r h := by
    show compareComponents _ _ = compareComponents _ _
    rw [show Path.components p = Path.components q from h]

example : EqualPath "/srv//data/./".toList "/srv/data".toList ∧ pathCmp "/srv//data/./".toList "/srv/data".toList = .eq :=
  ⟨by unfold EqualPath; decide, by decide⟩

/-- The components of a plain name. -/
theorem components_name {a : Str} (ha : a ≠ [] ∧ '/' ∉ a ∧ a ≠ ['.'] ∧ a ≠ ['.', '.']) : Path.components a = [.normal a] := by
  obtain ⟨h1, h2, h3, h4⟩ := ha
  have hf : Path.front a = ([], a) := by
    unfold Path.front
    split
    · simp at h2
    · exact absurd rfl h3
    · simp at h2
    · rfl
  rw [Path.components, hf, split_of_not_mem h2]
  simp [Path.skip, Path.toComponent, h1, h3, h4]

/-- C110: a folder comes before what is in it, and the files of a folder are in the order of their names. -/
theorem C110_folder (p a b : Str) (hp : p ≠ []) (ha : a ≠ [] ∧ '/' ∉ a ∧ a ≠ ['.'] ∧ a ≠ ['.', '.'])
    (hb : b ≠ [] ∧ '/' ∉ b ∧ b ≠ ['.'] ∧ b ≠ ['.', '.']) :
    pathCmp p (Path.push p a) = .lt ∧ (pathCmp (Path.push p a) (Path.push p b) = .lt ↔ Before a b) ∧
      (pathCmp (Path.push p a) (Path.push p b) = .eq ↔ a = b) := by
  have hpush : ∀ {a : Str}, (a ≠ [] ∧ '/' ∉ a ∧ a ≠ ['.'] ∧ a ≠ ['.', '.']) →
      Path.components (Path.push p a) = Path.components p ++ [.normal a] := by
    intro a ha
    rw [Rust.Path.components_push hp (by rintro b rfl; simp at ha), components_name ha]
    rfl
  have hcmp : pathCmp (Path.push p a) (Path.push p b) = (compareStr a b).then .eq := by
    rw [pathCmp, Path.cmp, hpush ha, hpush hb, components_cmp_append]; rfl
  refine ⟨?_, ?_, ?_⟩
  · rw [pathCmp, Path.cmp, components_cmp_lt, hpush ha]
    exact .inl ⟨_, _, rfl⟩
  · rw [hcmp, Ordering.then_eq_lt, compareStr_lt]; simp
  · rw [hcmp, Ordering.then_eq_eq, compareStr_eq]; simp

example : Path.push "/srv".toList "data".toList = "/srv/data".toList ∧
    pathCmp "/srv".toList "/srv/data".toList = .lt ∧ pathCmp "/srv/data".toList "/srv/www".toList = .lt := by decide

/-- C110: the short syntaxes come before the long ones, and each are in their own order; so all are ordered if both are. -/
theorem C110_short_or_long {S L : Type} (cmpS : S → S → Ordering) (cmpL : L → L → Ordering) :
    (∀ s l, ShortOrLong.cmp cmpS cmpL (.short s) (.long l) = .lt) ∧
    (∀ s t, ShortOrLong.cmp cmpS cmpL (.short s) (.short t) = cmpS s t) ∧
    (∀ k l, ShortOrLong.cmp cmpS cmpL (.long k) (.long l) = cmpL k l) ∧
    ∀ {sameS : S → S → Prop} {sameL : L → L → Prop}, Orders cmpS sameS → Orders cmpL sameL →
      Orders (ShortOrLong.cmp cmpS cmpL) (EqualForm sameS sameL) := by
  refine ⟨fun _ _ => rfl, fun _ _ => rfl, fun _ _ => rfl, fun hs hl => ⟨?_, ?_, ?_, ?_⟩⟩
  · rintro (a | a) (b | b)
    · exact (hs.eq a b).trans ⟨.short, by rintro ⟨⟩; assumption⟩
    · exact ⟨by rintro ⟨⟩, by rintro ⟨⟩⟩
    · exact ⟨by rintro ⟨⟩, by rintro ⟨⟩⟩
    · exact (hl.eq a b).trans ⟨.long, by rintro ⟨⟩; assumption⟩
  · rintro (a | a) (b | b)
    · exact hs.swap a b
    · rfl
    · rfl
    · exact hl.swap a b
  · rintro (a | a) (b | b) (c | c) h h'
    all_goals first | rfl | (cases h; done) | (cases h'; done) | exact hs.trans _ _ _ h h' | exact hl.trans _ _ _ h h'
  · rintro (a | a) (b | b) (c | c) h
    all_goals first | (cases h; done) | rfl | skip
    · cases h with | short h => exact hs.congr _ _ _ h
    · cases h with | long h => exact hl.congr _ _ _ h

/-- Environment files: a path, or a mapping with a path. -/
example : Orders (ShortOrLong.cmp pathCmp pathCmp) (EqualForm EqualPath EqualPath) :=
  (C110_short_or_long pathCmp pathCmp).2.2.2 C110_path_orders C110_path_orders

end Props
