import Verif.Spec.Volumes
import Verif.Proofs.Path
import Verif.Props.Keys

/- Properties C35–C40: volumes. -/

namespace Props
open Rust Compose Spec

/-! ### C36 absolute and host paths -/

theorem isAbsolute_iff (p : Str) : Path.isAbsolute p = true ↔ AbsolutePath p := by
  unfold Path.isAbsolute AbsolutePath
  cases p with
  | nil => simp
  | cons x xs => simp

theorem hostPath_iff (p : Str) :
    HostPath p ↔ (Path.components p).head? = some .rootDir ∨ (Path.components p).head? = some .curDir ∨
      (Path.components p).head? = some .parentDir := by
  rw [Path.rootDir_iff, Path.curDir_iff, Path.parentDir_iff]
  unfold HostPath AbsolutePath
  constructor
  · rintro (h | h | h | ⟨r, h⟩ | ⟨r, h⟩)
    · exact Or.inl h
    · exact Or.inr (Or.inl (Or.inl h))
    · exact Or.inr (Or.inr (Or.inl h))
    · exact Or.inr (Or.inl (Or.inr ⟨r, h⟩))
    · exact Or.inr (Or.inr (Or.inr ⟨r, h⟩))
  · rintro (h | (h | ⟨r, h⟩) | (h | ⟨r, h⟩))
    · exact Or.inl h
    · exact Or.inr (Or.inl h)
    · exact Or.inr (Or.inr (Or.inr (Or.inl ⟨r, h⟩)))
    · exact Or.inr (Or.inr (Or.inl h))
    · exact Or.inr (Or.inr (Or.inr (Or.inr ⟨r, h⟩)))

/-- C36: `AbsolutePath::new` accepts exactly the texts that begin with `/`, and keeps them. -/
theorem C36_absolute_path_new (s p : Str) : absolutePathNew s = .ok p ↔ AbsolutePath s ∧ p = s := by
  unfold absolutePathNew
  rw [← isAbsolute_iff]
  split
  · rename_i h; simp [h, eq_comm]
  · rename_i h; simp [h]

example : AbsolutePath "/a/b".toList := ((C36_absolute_path_new "/a/b".toList "/a/b".toList).1 (by decide)).1

/-- C36: `HostPath::new` accepts exactly the texts that begin with `/`, or whose first component is `.` or `..`,
and keeps them. -/
theorem C36_host_path_new (s p : Str) : hostPathNew s = .ok p ↔ HostPath s ∧ p = s := by
  have : (Path.isAbsolute s || (Path.components s).head?.any (fun c => c = .curDir || c = .parentDir)) = true ↔
      HostPath s := by
    rw [Bool.or_eq_true, isAbsolute_iff, hostPath_iff]
    rw [show AbsolutePath s ↔ _ from (Path.rootDir_iff s).symm]
    cases (Path.components s).head? with
    | none => simp
    | some c => simp
  unfold hostPathNew
  rw [← this]
  split
  · rename_i h; simp [h, eq_comm]
  · rename_i h; simp [h]

example : HostPath "../a".toList := ((C36_host_path_new "../a".toList "../a".toList).1 (by decide)).1

/-- The operations that change a path. -/
inductive PathOp
  | push (path : Str) | pop

/-- An absolute path after one operation. -/
def PathOp.onAbsolute (p : Str) : PathOp → Str
  | .push q => pathPush p q
  | .pop => (absolutePathPop p).1

/-- A host path after one operation. -/
def PathOp.onHost (p : Str) : PathOp → Str
  | .push q => pathPush p q
  | .pop => (hostPathPop p).1

theorem push_absolute (p b : Str) : Path.push p ('/' :: b) = '/' :: b := by
  simp [Path.push, Path.isAbsolute]

theorem components_ne_nil_of_head {p : Str} {c : Component} (h : (Path.components p).head? = some c) :
    p ≠ [] := by
  rintro rfl; cases h

/-- Pushing keeps the first component unless the pushed path is absolute. -/
theorem head_push {p q : Str} {c : Component} (h : (Path.components p).head? = some c)
    (hq : ∀ b, q ≠ '/' :: b) : (Path.components (Path.push p q)).head? = some c := by
  rw [Path.components_push (components_ne_nil_of_head h) hq]
  match hc : Path.components p with
  | [] => rw [hc] at h; cases h
  | x :: xs => rw [hc] at h; exact h

theorem head_parent {p q : Str} (h : Path.parent p = some q) (hq : q ≠ []) :
    (Path.components q).head? = (Path.components p).head? := by
  obtain ⟨h1, h2⟩ := Path.components_parent h
  match hc : Path.components p with
  | [] => exact absurd hc h2
  | [x] => rw [hc] at h1; exact absurd (Path.components_eq_nil h1) hq
  | x :: y :: xs => rw [hc] at h1; rw [h1]; rfl

/-- C36: an absolute path stays absolute under any sequence of pushes and pops. -/
theorem C36_absolute_path_invariant (p : Str) (h : AbsolutePath p) (ops : List PathOp) :
    AbsolutePath (ops.foldl PathOp.onAbsolute p) := by
  induction ops generalizing p with
  | nil => exact h
  | cons op ops ih =>
    refine ih _ ?_
    have hh := (Path.rootDir_iff p).2 h
    cases op with
    | push q =>
      by_cases hq : ∃ b, q = '/' :: b
      · obtain ⟨b, rfl⟩ := hq; exact ⟨b, push_absolute p b⟩
      · exact (Path.rootDir_iff _).1 (head_push hh fun b hb => hq ⟨b, hb⟩)
    | pop =>
      show AbsolutePath (Path.pop p).1
      unfold Path.pop
      split
      · rename_i q hq
        by_cases hne : q = []
        · subst hne
          obtain ⟨h1, h2⟩ := Path.components_parent hq
          exfalso
          obtain ⟨b, rfl⟩ := h
          unfold Path.parent at hq
          rw [Path.front_root] at hq
          simp only at hq
          split at hq
          · simp at hq
          · simp at hq
        · exact (Path.rootDir_iff _).1 ((head_parent hq hne).trans hh)
      · exact h

example : AbsolutePath (([.push "a//b".toList, .pop, .pop, .pop, .push "../c".toList] : List PathOp).foldl PathOp.onAbsolute "/x".toList) :=
  C36_absolute_path_invariant _ ⟨_, rfl⟩ _

/-- C36: a host path stays a host path under any sequence of pushes and pops. -/
theorem C36_host_path_invariant (p : Str) (h : HostPath p) (ops : List PathOp) :
    HostPath (ops.foldl PathOp.onHost p) := by
  induction ops generalizing p with
  | nil => exact h
  | cons op ops ih =>
    refine ih _ ?_
    have hh := (hostPath_iff p).1 h
    cases op with
    | push q =>
      by_cases hq : ∃ b, q = '/' :: b
      · obtain ⟨b, rfl⟩ := hq; exact Or.inl ⟨b, push_absolute p b⟩
      · have hq' : ∀ b, q ≠ '/' :: b := fun b hb => hq ⟨b, hb⟩
        exact (hostPath_iff _).2 (hh.imp (head_push · hq') (Or.imp (head_push · hq') (head_push · hq')))
    | pop =>
      show HostPath (hostPathPop p).1
      unfold hostPathPop
      split
      · exact h
      · rename_i hne
        unfold Path.pop
        split
        · rename_i q hq
          rw [hq] at hne
          have hne' : q ≠ [] := by simpa using hne
          rw [hostPath_iff, head_parent hq hne']
          exact hh
        · exact h

example : HostPath (([.push "a//b/.".toList, .pop, .push "../c".toList, .pop, .pop, .pop] : List PathOp).foldl PathOp.onHost "./x".toList) :=
  C36_host_path_invariant _ (Or.inr (Or.inr (Or.inr (Or.inl ⟨_, rfl⟩)))) _

/-- C36: `HostPath::pop` removes the last component if there are at least two, and otherwise answers `false` and
changes nothing. -/
theorem C36_host_path_pop (p : Str) (h : HostPath p) :
    (2 ≤ (Path.components p).length →
      (hostPathPop p).2 = true ∧ Path.components (hostPathPop p).1 = (Path.components p).dropLast) ∧
    ((Path.components p).length < 2 → hostPathPop p = (p, false)) := by
  have hne : Path.components p ≠ [] := by
    intro hn
    have := (hostPath_iff p).1 h
    rw [hn] at this; simp at this
  match hp : Path.parent p with
  | none =>
    have hc := (Path.components_of_no_parent hp).resolve_left hne
    rw [hc]
    refine ⟨fun h => by simp at h, fun _ => ?_⟩
    simp [hostPathPop, Path.pop, hp]
  | some q =>
    obtain ⟨h1, _⟩ := Path.components_parent hp
    by_cases hq : q = []
    · subst hq
      have h2 : (Path.components p).dropLast = [] := by rw [← h1]; rfl
      have h3 : (Path.components p).length < 2 := by
        have := congrArg List.length h2
        simp at this; omega
      exact ⟨fun h => by omega, fun _ => by simp [hostPathPop, hp]⟩
    · have hq' : (Path.parent p).any (·.isEmpty) = false := by simp [hp, hq]
      have h3 : ¬ (Path.components p).length < 2 := by
        intro hlt
        have h2 : (Path.components p).dropLast = [] := by
          apply List.eq_nil_of_length_eq_zero
          simp; omega
        rw [h2] at h1
        exact hq (Path.components_eq_nil h1)
      refine ⟨fun _ => ?_, fun h => absurd h h3⟩
      simp [hostPathPop, Path.pop, hp, hq, h1]

example : hostPathPop "./hello/world".toList = ("./hello".toList, true) ∧ hostPathPop ".".toList = (".".toList, false) := by
  decide

/-- C36: `AbsolutePath::pop` removes the last component, except that `/` answers `false` and stays. -/
theorem C36_absolute_path_pop (p : Str) (h : AbsolutePath p) :
    (Path.components p ≠ [.rootDir] →
      (absolutePathPop p).2 = true ∧ Path.components (absolutePathPop p).1 = (Path.components p).dropLast) ∧
    (Path.components p = [.rootDir] → absolutePathPop p = (p, false)) := by
  have hh := (Path.rootDir_iff p).2 h
  unfold absolutePathPop Path.pop
  match hp : Path.parent p with
  | none =>
    have hc : Path.components p = [.rootDir] := by
      rcases Path.components_of_no_parent hp with hc | hc
      · rw [hc] at hh; cases hh
      · exact hc
    exact ⟨fun h => absurd hc h, fun _ => rfl⟩
  | some q =>
    obtain ⟨h1, _⟩ := Path.components_parent hp
    refine ⟨fun _ => ⟨rfl, h1⟩, fun hc => ?_⟩
    exfalso
    rw [hc] at h1
    have : q = [] := Path.components_eq_nil h1
    subst this
    obtain ⟨b, rfl⟩ := h
    unfold Path.parent at hp
    rw [Path.front_root] at hp
    simp only at hp
    split at hp
    · simp at hp
    · simp at hp

example : absolutePathPop "/usr/lib/".toList = ("/usr".toList, true) ∧ absolutePathPop "/".toList = ("/".toList, false) := by
  decide

/-- C36: pushing an absolute path replaces, pushing a relative one appends its components (a leading `.` is
dropped). -/
theorem C36_push (p q : Str) (hp : p ≠ []) :
    (AbsolutePath q → pathPush p q = q) ∧
    (¬ AbsolutePath q →
      Path.components (pathPush p q) = Path.components p ++ (Path.components q).filter (· ≠ .curDir)) := by
  constructor
  · rintro ⟨b, rfl⟩; exact push_absolute p b
  · intro h; exact Path.components_push hp fun b hb => h ⟨b, hb⟩

example : pathPush "/a".toList "/b".toList = "/b".toList ∧ pathPush "/a".toList "./b".toList = "/a/./b".toList :=
  ⟨(C36_push _ _ (by decide)).1 ⟨_, rfl⟩, by decide⟩

/-! ### C35 volume sources -/

theorem identifier_head {s : Str} (h : Identifier s) : ∃ c cs, s = c :: cs ∧ isAlnum c := by
  have := (C01_identifier_accepts s s).2 ⟨h, rfl⟩
  unfold identifierNew at this
  split at this
  · cases this
  · rename_i c cs
    split at this
    · cases this
    · rename_i hc; exact ⟨c, cs, rfl, by simpa using hc⟩

theorem identifier_not_mem {s : Str} (h : Identifier s) {c : Char} (hc : identifierChar c = false) : c ∉ s := by
  have := (C01_identifier_accepts s s).2 ⟨h, rfl⟩
  unfold identifierNew at this
  split at this
  · cases this
  · rename_i x xs
    split at this
    · cases this
    · rename_i hx
      split at this
      · cases this
      · rename_i hnone
        intro hmem
        rcases List.mem_cons.1 hmem with rfl | hmem
        · simp [identifierChar] at hc; simp [hc] at hx
        · have := List.find?_eq_none.1 hnone c hmem
          simp [hc] at this

theorem identifier_not_hostPath {s : Str} (h : Identifier s) :
    (decide (s.head? = some '.') || Path.isAbsolute s) = false := by
  obtain ⟨c, cs, rfl, hc⟩ := identifier_head h
  have h1 : c ≠ '.' := by rintro rfl; exact absurd hc (by decide)
  have h2 : c ≠ '/' := by rintro rfl; exact absurd hc (by decide)
  simp [Path.isAbsolute, h1, h2]

theorem hostPath_prefix {s : Str} (h : HostPath s) :
    (decide (s.head? = some '.') || Path.isAbsolute s) = true := by
  rcases h with ⟨r, rfl⟩ | rfl | rfl | ⟨r, rfl⟩ | ⟨r, rfl⟩ <;> simp [Path.isAbsolute]

/-- C35: a text is a source exactly if it is a host path, giving that path, or an identifier, giving a named
volume. -/
theorem C35_source_parse (s : Str) (source : VolumeSource) :
    VolumeSource.parse s = .ok source ↔ SourceText s source := by
  unfold VolumeSource.parse
  split
  · rename_i hpre
    split
    · rename_i path hp
      obtain ⟨h1, rfl⟩ := (C36_host_path_new _ _).1 hp
      constructor
      · intro h; cases h; exact ⟨rfl, h1⟩
      · cases source with
        | hostPath p => rintro ⟨rfl, _⟩; rfl
        | volume n => rintro ⟨rfl, h⟩; rw [identifier_not_hostPath h] at hpre; cases hpre
    · rename_i e hp
      refine ⟨fun h => (nomatch h), ?_⟩
      cases source with
      | hostPath p => rintro ⟨rfl, h⟩; rw [(C36_host_path_new _ _).2 ⟨h, rfl⟩] at hp; cases hp
      | volume n => rintro ⟨rfl, h⟩; rw [identifier_not_hostPath h] at hpre; cases hpre
  · rename_i hpre
    split
    · rename_i name hp
      obtain ⟨h1, rfl⟩ := (C01_identifier_accepts _ _).1 hp
      constructor
      · intro h; cases h; exact ⟨rfl, h1⟩
      · cases source with
        | hostPath p => rintro ⟨rfl, h⟩; exact absurd (hostPath_prefix h) hpre
        | volume n => rintro ⟨rfl, _⟩; rfl
    · rename_i e hp
      refine ⟨fun h => (nomatch h), ?_⟩
      cases source with
      | hostPath p => rintro ⟨rfl, h⟩; exact absurd (hostPath_prefix h) hpre
      | volume n => rintro ⟨rfl, h⟩; rw [(C01_identifier_accepts _ _).2 ⟨h, rfl⟩] at hp; cases hp

example : SourceText "./data".toList (.hostPath "./data".toList) := (C35_source_parse _ _).1 (by decide)

/-- C35: the kind is decided by the first character: a text beginning with `.` or `/` is never a named volume, any
other text is never a host path.  (In the error case the error says which was attempted.) -/
theorem C35_source_kind (s : Str) :
    ((s.head? = some '.' ∨ s.head? = some '/') →
      (∀ n, VolumeSource.parse s ≠ .ok (.volume n)) ∧ ∀ e, VolumeSource.parse s ≠ .error (.identifier e)) ∧
    (¬ (s.head? = some '.' ∨ s.head? = some '/') →
      (∀ p, VolumeSource.parse s ≠ .ok (.hostPath p)) ∧ ∀ e, VolumeSource.parse s ≠ .error (.hostPath e)) := by
  unfold VolumeSource.parse Path.isAbsolute
  by_cases h : s.head? = some '.' ∨ s.head? = some '/'
  · have h' : (decide (s.head? = some '.') || decide (s.head? = some '/')) = true := by simpa using h
    rw [if_pos h']
    refine ⟨fun _ => ⟨?_, ?_⟩, fun hn => absurd h hn⟩ <;> intro x hx <;> split at hx <;> cases hx
  · have h' : ¬ (decide (s.head? = some '.') || decide (s.head? = some '/')) = true := by simpa using h
    rw [if_neg h']
    refine ⟨fun hn => absurd hn h, fun _ => ⟨?_, ?_⟩⟩ <;> intro x hx <;> split at hx <;> cases hx

example : ∀ n, VolumeSource.parse ".data".toList ≠ .ok (.volume n) := ((C35_source_kind _).1 (.inl rfl)).1

/-- C35: printing a parsed source gives the text. -/
theorem C35_source_text (s : Str) (source : VolumeSource) (h : VolumeSource.parse s = .ok source) :
    source.toStr = s := by
  rw [C35_source_parse] at h
  cases source with
  | hostPath p => exact h.1
  | volume n => exact h.1

example : VolumeSource.toStr (.hostPath "./data".toList) = "./data".toList := C35_source_text _ _ (by decide)

/-! ### C37 short volumes -/

theorem parseContainerPath_iff (s p : Str) : parseContainerPath s = .ok p ↔ AbsolutePath s ∧ p = s := by
  unfold parseContainerPath
  split
  · rename_i q hq
    rw [C36_absolute_path_new] at hq
    obtain ⟨h, rfl⟩ := hq
    simp [h, eq_comm]
  · rename_i e he
    simp only [reduceCtorEq, false_iff]
    rintro ⟨h, _⟩
    rw [(C36_absolute_path_new s s).2 ⟨h, rfl⟩] at he; cases he

theorem optionLoop_nil_iff (acc r : Option Bool × Option SELinux) :
    ShortVolume.optionLoop acc [] = .ok r ↔ r = acc := by
  simp [ShortVolume.optionLoop, eq_comm]

/-- One successful step sets one of the two options, which was not set. -/
theorem optionStep_iff (acc r : Option Bool × Option SELinux) (o : Str) :
    ShortVolume.optionStep acc o = .ok r ↔
      (acc.1 = none ∧ ∃ ro, AccessOption o ro ∧ r = (some ro, acc.2)) ∨
      (acc.2 = none ∧ ∃ se, RelabelOption o se ∧ r = (acc.1, some se)) := by
  obtain ⟨a, z⟩ := acc
  have hA : ∀ ro, AccessOption o ro ↔ (o = "rw".toList ∧ ro = false) ∨ (o = "ro".toList ∧ ro = true) := by
    intro ro
    constructor
    · rintro (_ | _) <;> simp
    · rintro (⟨rfl, rfl⟩ | ⟨rfl, rfl⟩) <;> constructor
  have hR : ∀ se, RelabelOption o se ↔ (o = "z".toList ∧ se = .shared) ∨ (o = "Z".toList ∧ se = .private) := by
    intro ro
    constructor
    · rintro (_ | _) <;> simp
    · rintro (⟨rfl, rfl⟩ | ⟨rfl, rfl⟩) <;> constructor
  simp only [hA, hR]
  unfold ShortVolume.optionStep
  split
  · rename_i h; subst h
    match a with
    | none => simp [eq_comm]
    | some true => simp
    | some false => simp
  · rename_i h1
    split
    · rename_i h; subst h
      match a with
      | none => simp [eq_comm]
      | some true => simp
      | some false => simp
    · rename_i h2
      split
      · rename_i h; subst h
        match z with
        | none => simp [eq_comm]
        | some .shared => simp
        | some .private => simp
      · rename_i h3
        split
        · rename_i h; subst h
          match z with
          | none => simp [eq_comm]
          | some .shared => simp
          | some .private => simp
        · rename_i h4
          have h1' : o ≠ ['r', 'w'] := h1
          have h2' : o ≠ ['r', 'o'] := h2
          have h3' : o ≠ ['z'] := h3
          have h4' : o ≠ ['Z'] := h4
          simp [h1', h2', h3', h4']

theorem optionLoop_cons_iff (acc r : Option Bool × Option SELinux) (o : Str) (os : List Str) :
    ShortVolume.optionLoop acc (o :: os) = .ok r ↔
      ∃ m, ShortVolume.optionStep acc o = .ok m ∧ ShortVolume.optionLoop m os = .ok r := by
  rw [ShortVolume.optionLoop]
  split
  · rename_i m hm; simp [hm]
  · rename_i e he; simp [he]

/-- With both options set nothing more is accepted. -/
theorem optionLoop_full (ro : Bool) (se : SELinux) (os : List Str) (r : Option Bool × Option SELinux) :
    ShortVolume.optionLoop (some ro, some se) os = .ok r ↔ os = [] ∧ r = (some ro, some se) := by
  cases os with
  | nil => rw [optionLoop_nil_iff]; simp
  | cons o os => rw [optionLoop_cons_iff]; simp [optionStep_iff]

theorem optionLoop_access (ro : Bool) (os : List Str) (r : Option Bool × Option SELinux) :
    ShortVolume.optionLoop (some ro, none) os = .ok r ↔
      (os = [] ∧ r = (some ro, none)) ∨ ∃ z se, RelabelOption z se ∧ os = [z] ∧ r = (some ro, some se) := by
  cases os with
  | nil => rw [optionLoop_nil_iff]; simp
  | cons o os =>
    rw [optionLoop_cons_iff]
    simp only [optionStep_iff, reduceCtorEq, false_and, false_or, true_and, List.cons.injEq]
    constructor
    · rintro ⟨m, ⟨se, hz, rfl⟩, h⟩
      rw [optionLoop_full] at h
      exact ⟨o, se, hz, ⟨rfl, h.1⟩, h.2⟩
    · rintro ⟨z, se, hz, ⟨rfl, rfl⟩, rfl⟩
      exact ⟨_, ⟨se, hz, rfl⟩, rfl⟩

theorem optionLoop_relabel (se : SELinux) (os : List Str) (r : Option Bool × Option SELinux) :
    ShortVolume.optionLoop (none, some se) os = .ok r ↔
      (os = [] ∧ r = (none, some se)) ∨ ∃ a ro, AccessOption a ro ∧ os = [a] ∧ r = (some ro, some se) := by
  cases os with
  | nil => rw [optionLoop_nil_iff]; simp
  | cons o os =>
    rw [optionLoop_cons_iff]
    simp only [optionStep_iff, reduceCtorEq, false_and, or_false, true_and, List.cons.injEq, false_or]
    constructor
    · rintro ⟨m, ⟨ro, ha, rfl⟩, h⟩
      rw [optionLoop_full] at h
      exact ⟨o, ro, ha, ⟨rfl, h.1⟩, h.2⟩
    · rintro ⟨a, ro, ha, ⟨rfl, rfl⟩, rfl⟩
      exact ⟨_, ⟨ro, ha, rfl⟩, rfl⟩

theorem access_no_comma {a : Str} {ro : Bool} (h : AccessOption a ro) : ',' ∉ a ∧ ':' ∉ a := by
  cases h <;> decide
theorem relabel_no_comma {a : Str} {ro : SELinux} (h : RelabelOption a ro) : ',' ∉ a ∧ ':' ∉ a := by
  cases h <;> decide

theorem parseOptions_iff (t : Str) (ro : Bool) (se : Option SELinux) :
    ShortVolume.parseOptions (some t) = .ok (ro, se) ↔ OptionsText t ro se := by
  have hkey : ShortVolume.parseOptions (some t) = .ok (ro, se) ↔
      ∃ ro', ShortVolume.optionLoop (none, none) (split ',' t) = .ok (ro', se) ∧ ro = ro'.getD false := by
    unfold ShortVolume.parseOptions
    simp only
    split
    · rename_i r s h
      rw [h]
      simp only [Except.ok.injEq, Prod.mk.injEq]
      constructor
      · rintro ⟨rfl, rfl⟩; exact ⟨r, ⟨rfl, rfl⟩, rfl⟩
      · rintro ⟨ro', ⟨rfl, rfl⟩, rfl⟩; exact ⟨rfl, rfl⟩
    · rename_i e h; rw [h]; simp
  rw [hkey]
  constructor
  · rintro ⟨ro', h, rfl⟩
    obtain ⟨hne, _, hj⟩ := split_eq_iff.1 (rfl : split ',' t = split ',' t)
    generalize split ',' t = os at *
    subst hj
    cases os with
    | nil => exact absurd rfl hne
    | cons o os =>
      rw [optionLoop_cons_iff] at h
      obtain ⟨m, h1, h2⟩ := h
      rw [optionStep_iff] at h1
      rcases h1 with ⟨_, ro, ha, rfl⟩ | ⟨_, s, hz, rfl⟩
      · rw [optionLoop_access] at h2
        rcases h2 with ⟨rfl, h2⟩ | ⟨z, s, hz, rfl, h2⟩
        · cases h2; exact .access ha
        · cases h2; have := OptionsText.accessRelabel ha hz; simpa [joinWith] using this
      · rw [optionLoop_relabel] at h2
        rcases h2 with ⟨rfl, h2⟩ | ⟨a, ro, ha, rfl, h2⟩
        · cases h2; exact .relabel hz
        · cases h2; have := OptionsText.relabelAccess ha hz; simpa [joinWith] using this
  · rintro (ha | hz | ⟨ha, hz⟩ | ⟨ha, hz⟩)
    · rw [split_of_not_mem (access_no_comma ha).1]
      refine ⟨some ro, ?_, rfl⟩
      rw [optionLoop_cons_iff]
      exact ⟨_, (optionStep_iff _ _ _).2 (Or.inl ⟨rfl, _, ha, rfl⟩), rfl⟩
    · rw [split_of_not_mem (relabel_no_comma hz).1]
      refine ⟨none, ?_, rfl⟩
      rw [optionLoop_cons_iff]
      exact ⟨_, (optionStep_iff _ _ _).2 (Or.inr ⟨rfl, _, hz, rfl⟩), rfl⟩
    · rename_i a z s
      rw [show a ++ ",".toList ++ z = a ++ ',' :: z by simp, split_append_sep (access_no_comma ha).1,
        split_of_not_mem (relabel_no_comma hz).1]
      refine ⟨some ro, ?_, rfl⟩
      rw [optionLoop_cons_iff]
      refine ⟨_, (optionStep_iff _ _ _).2 (Or.inl ⟨rfl, _, ha, rfl⟩), ?_⟩
      exact (optionLoop_access _ _ _).2 (Or.inr ⟨_, _, hz, rfl, rfl⟩)
    · rename_i a z s
      rw [show z ++ ",".toList ++ a = z ++ ',' :: a by simp, split_append_sep (relabel_no_comma hz).1,
        split_of_not_mem (access_no_comma ha).1]
      refine ⟨some ro, ?_, rfl⟩
      rw [optionLoop_cons_iff]
      refine ⟨_, (optionStep_iff _ _ _).2 (Or.inr ⟨rfl, _, hz, rfl⟩), ?_⟩
      exact (optionLoop_relabel _ _ _).2 (Or.inr ⟨_, _, ha, rfl, rfl⟩)

theorem splitn3_cases (c : Char) (s : Str) :
    (c ∉ s ∧ splitn3 c s = (s, none, none)) ∨
    (∃ a b, s = a ++ c :: b ∧ c ∉ a ∧ c ∉ b ∧ splitn3 c s = (a, some b, none)) ∨
    (∃ a b d, s = a ++ c :: (b ++ c :: d) ∧ c ∉ a ∧ c ∉ b ∧ splitn3 c s = (a, some b, some d)) := by
  unfold splitn3
  match h : splitOnce c s with
  | none => exact Or.inl ⟨splitOnce_eq_none.1 h, rfl⟩
  | some (a, b) =>
    obtain ⟨h1, h2⟩ := splitOnce_eq_some.1 h
    simp only
    match h' : splitOnce c b with
    | none => exact Or.inr (Or.inl ⟨a, b, h1, h2, splitOnce_eq_none.1 h', rfl⟩)
    | some (x, y) =>
      obtain ⟨h3, h4⟩ := splitOnce_eq_some.1 h'
      exact Or.inr (Or.inr ⟨a, x, y, by rw [h1, h3], h2, h4, rfl⟩)

theorem append_sep_inj {c : Char} {a b a' b' : Str} (h : a ++ c :: b = a' ++ c :: b') (ha : c ∉ a)
    (ha' : c ∉ a') : a = a' ∧ b = b' := by
  have h1 : splitOnce c (a ++ c :: b) = some (a, b) := splitOnce_eq_some.2 ⟨rfl, ha⟩
  rw [h, splitOnce_eq_some.2 ⟨rfl, ha'⟩] at h1
  cases h1; exact ⟨rfl, rfl⟩

/-- C37: a text is accepted exactly if it is `path`, `source:path` or `source:path:options`. -/
theorem C37_short_volume_accepts (s : Str) (v : ShortVolume) :
    ShortVolume.fromStr s = .ok v ↔ ShortVolumeText s v := by
  rcases splitn3_cases ':' s with ⟨hs, hsp⟩ | ⟨a, b, rfl, ha, hb, hsp⟩ | ⟨a, b, d, rfl, ha, hb, hsp⟩
  · unfold ShortVolume.fromStr
    rw [hsp]
    simp only
    have hno : ∀ x y : Str, s ≠ x ++ ':' :: y := by rintro x y rfl; simp at hs
    constructor
    · intro h
      split at h
      · rename_i p hp
        cases h
        obtain ⟨h1, rfl⟩ := (parseContainerPath_iff _ _).1 hp
        exact .anonymous h1 hs
      · cases h
    · intro h
      generalize hs' : s = s' at h
      cases h with
      | anonymous h1 h2 => subst hs'; rw [(parseContainerPath_iff _ _).2 ⟨h1, rfl⟩]
      | plain _ _ _ _ => exact absurd hs' (by simpa using hno _ _)
      | options _ _ _ _ _ => exact absurd hs' (by simpa using hno _ _)
  · have hiff : ShortVolume.fromStr (a ++ ':' :: b) = .ok v ↔
        ∃ source, SourceText a source ∧ AbsolutePath b ∧ v = ⟨b, some ⟨source, false, none⟩⟩ := by
      unfold ShortVolume.fromStr
      rw [hsp]
      simp only [ShortVolume.parseOptions]
      split
      · rename_i e he
        simp only [reduceCtorEq, false_iff]
        rintro ⟨source, h1, _⟩
        rw [(C35_source_parse _ _).2 h1] at he; cases he
      · rename_i source hsrc
        rw [C35_source_parse] at hsrc
        have huniq : ∀ source', SourceText a source' → source' = source := by
          intro source' h'
          have h1 := (C35_source_parse _ _).2 h'
          rw [(C35_source_parse _ _).2 hsrc] at h1; cases h1; rfl
        split
        · rename_i e he
          simp only [reduceCtorEq, false_iff]
          rintro ⟨source, _, h1, _⟩
          rw [(parseContainerPath_iff _ _).2 ⟨h1, rfl⟩] at he; cases he
        · rename_i p hp
          obtain ⟨h1, rfl⟩ := (parseContainerPath_iff _ _).1 hp
          constructor
          · intro h; cases h; exact ⟨source, hsrc, h1, rfl⟩
          · rintro ⟨source', h', _, rfl⟩; rw [huniq _ h']
    rw [hiff]
    constructor
    · rintro ⟨source, h1, h2, rfl⟩
      have := ShortVolumeText.plain h1 ha h2 hb
      simpa using this
    · intro h
      generalize hs' : a ++ ':' :: b = s' at h
      cases h with
      | anonymous h1 h2 => subst hs'; simp at h2
      | plain h1 h2 h3 h4 =>
        obtain ⟨rfl, rfl⟩ := append_sep_inj (by simpa using hs') ha h2
        exact ⟨_, h1, h3, rfl⟩
      | options h1 h2 h3 h4 h5 =>
        obtain ⟨rfl, rfl⟩ := append_sep_inj (by simpa using hs') ha h2
        simp at hb
  · have hiff : ShortVolume.fromStr (a ++ ':' :: (b ++ ':' :: d)) = .ok v ↔
        ∃ source ro se, SourceText a source ∧ AbsolutePath b ∧ OptionsText d ro se ∧
          v = ⟨b, some ⟨source, ro, se⟩⟩ := by
      unfold ShortVolume.fromStr
      rw [hsp]
      simp only
      split
      · rename_i e he
        simp only [reduceCtorEq, false_iff]
        rintro ⟨source, ro, se, h1, _⟩
        rw [(C35_source_parse _ _).2 h1] at he; cases he
      · rename_i source hsrc
        rw [C35_source_parse] at hsrc
        have huniq : ∀ source', SourceText a source' → source' = source := by
          intro source' h'
          have h1 := (C35_source_parse _ _).2 h'
          rw [(C35_source_parse _ _).2 hsrc] at h1; cases h1; rfl
        split
        · rename_i e he
          simp only [reduceCtorEq, false_iff]
          rintro ⟨source, ro, se, _, h1, _⟩
          rw [(parseContainerPath_iff _ _).2 ⟨h1, rfl⟩] at he; cases he
        · rename_i p hp
          obtain ⟨h1, rfl⟩ := (parseContainerPath_iff _ _).1 hp
          split
          · rename_i ro se ho
            have ho' := (parseOptions_iff _ _ _).1 ho
            constructor
            · intro h; cases h; exact ⟨source, ro, se, hsrc, h1, ho', rfl⟩
            · rintro ⟨source', ro', se', h', _, h2, rfl⟩
              rw [huniq _ h']
              rw [(parseOptions_iff _ _ _).2 h2] at ho
              cases ho; rfl
          · rename_i e he
            simp only [reduceCtorEq, false_iff]
            rintro ⟨source', ro', se', h', _, h2, rfl⟩
            rw [(parseOptions_iff _ _ _).2 h2] at he; cases he
    rw [hiff]
    constructor
    · rintro ⟨source, ro, se, h1, h2, h3, rfl⟩
      have := ShortVolumeText.options h1 ha h2 hb h3
      simpa using this
    · intro h
      generalize hs' : a ++ ':' :: (b ++ ':' :: d) = s' at h
      cases h with
      | anonymous h1 h2 => subst hs'; simp at h2
      | plain h1 h2 h3 h4 =>
        obtain ⟨rfl, h⟩ := append_sep_inj (by simpa using hs') ha h2
        subst h; simp at h4
      | options h1 h2 h3 h4 h5 =>
        obtain ⟨rfl, h⟩ := append_sep_inj (by simpa using hs') ha h2
        obtain ⟨rfl, rfl⟩ := append_sep_inj (by simpa using h) hb h4
        exact ⟨_, _, _, h1, h3, h5, rfl⟩

/-- C37: a short volume reads back from its text exactly if neither path contains `:`. -/
theorem C37_short_volume_round_trip (v : ShortVolume) (h : ShortVolumeOk v) :
    ShortVolume.fromStr v.toStr = .ok v ↔
      ':' ∉ v.containerPath ∧ ∀ o, v.options = some o → ':' ∉ o.source.toStr := by
  obtain ⟨path, options⟩ := v
  obtain ⟨habs, hsrc⟩ := h
  simp only at habs hsrc ⊢
  rw [C37_short_volume_accepts]
  cases options with
  | none =>
    simp only [ShortVolume.toStr, reduceCtorEq, false_implies, implies_true, and_true]
    constructor
    · intro h
      generalize hv : (⟨path, none⟩ : ShortVolume) = v at h
      cases h with
      | anonymous h1 h2 => cases hv; exact h2
      | plain _ _ _ _ => exact absurd (congrArg ShortVolume.options hv) (by simp)
      | options _ _ _ _ _ => exact absurd (congrArg ShortVolume.options hv) (by simp)
    · intro h; exact .anonymous habs h
  | some o =>
    obtain ⟨source, ro, se⟩ := o
    have hs := hsrc _ rfl
    simp only [ShortVolume.toStr, Option.some.injEq, forall_eq']
    have htext : ∀ text, SourceText text source → text = source.toStr := by
      intro text ht
      cases source with
      | hostPath p => exact ht.1.symm
      | volume n => exact ht.1.symm
    constructor
    · intro h
      generalize hs' : source.toStr ++ ':' :: path ++ ShortVolume.optionsPart ro se = s' at h
      cases h with
      | plain h1 h2 h3 h4 => exact ⟨h4, by rw [← htext _ h1]; exact h2⟩
      | options h1 h2 h3 h4 h5 => exact ⟨h4, by rw [← htext _ h1]; exact h2⟩
    · rintro ⟨h1, h2⟩
      have hopt : ShortVolume.optionsPart ro se = [] ∧ ro = false ∧ se = none ∨
          ∃ t, OptionsText t ro se ∧ ShortVolume.optionsPart ro se = ':' :: t := by
        match ro, se with
        | false, none => exact Or.inl ⟨rfl, rfl, rfl⟩
        | true, none => exact Or.inr ⟨_, .access .ro, rfl⟩
        | false, some .shared => exact Or.inr ⟨_, .relabel .z, rfl⟩
        | false, some .private => exact Or.inr ⟨_, .relabel .Z, rfl⟩
        | true, some .shared => exact Or.inr ⟨_, .accessRelabel .ro .z, rfl⟩
        | true, some .private => exact Or.inr ⟨_, .accessRelabel .ro .Z, rfl⟩
      rcases hopt with ⟨ht, rfl, rfl⟩ | ⟨t, ht, ht'⟩
      · rw [ht]
        have := ShortVolumeText.plain hs h2 habs h1
        simpa using this
      · rw [ht']
        have := ShortVolumeText.options hs h2 habs h1 ht
        simpa using this

example : ShortVolume.fromStr (ShortVolume.toStr ⟨"/app".toList, some ⟨.hostPath "../a".toList, true, none⟩⟩) =
    .ok ⟨"/app".toList, some ⟨.hostPath "../a".toList, true, none⟩⟩ :=
  (C37_short_volume_round_trip _
    ⟨⟨_, rfl⟩, by rintro o ho; cases ho; exact ⟨rfl, Or.inr (Or.inr (Or.inr (Or.inr ⟨_, rfl⟩)))⟩⟩).2
    ⟨by decide, by rintro o ho; cases ho; decide⟩

/-! ### C38 expanding short volumes -/

/-- C38: the mount has the target, the source and the access mode of the short volume; a host path becomes a bind
mount that creates the host path and keeps the relabeling, everything else is a plain volume mount. -/
theorem C38_into_long (V : Type) (v : ShortVolume) :
    (v.intoLong V).common = { target := v.containerPath, readOnly := v.options.any (·.readOnly) } ∧
    (v.intoLong V).sourceToString = v.options.map (·.source.toStr) ∧
    (∀ o p, v.options = some o → o.source = .hostPath p →
      ∃ b, v.intoLong V = .bind b ∧ b.bind = some { createHostPath := true, selinux := o.selinux }) ∧
    ((∀ o p, v.options = some o → o.source ≠ .hostPath p) → ∃ m, v.intoLong V = .volume m ∧ m.volume = none) := by
  obtain ⟨path, options⟩ := v
  match options with
  | none => refine ⟨rfl, rfl, ?_, ?_⟩ <;> simp [ShortVolume.intoLong]
  | some ⟨.hostPath p, ro, se⟩ =>
    refine ⟨rfl, rfl, ?_, ?_⟩
    · rintro o p' ho _; cases ho; exact ⟨_, rfl, rfl⟩
    · intro h; exact absurd rfl (h _ p rfl)
  | some ⟨.volume n, ro, se⟩ =>
    refine ⟨rfl, rfl, ?_, fun _ => ⟨_, rfl, rfl⟩⟩
    rintro o p' ho hp; cases ho; cases hp

example : ShortVolume.intoLong Unit ⟨"/app".toList, some ⟨.volume "data".toList, true, none⟩⟩ =
    .volume ⟨some "data".toList, none, { target := "/app".toList, readOnly := true }⟩ := by decide

/-- C38: converting back gives the original short volume, except that relabeling of a named volume is lost; the
theorem says exactly when. -/
theorem C38_into_long_into_short_partial (V : Type) (v : ShortVolume) :
    (v.intoLong V).intoShort = .ok v ↔
      ∀ o n, v.options = some o → o.source = .volume n → o.selinux = none := by
  obtain ⟨path, options⟩ := v
  match options with
  | none => simp [ShortVolume.intoLong, Mount.intoShort, MountVolume.intoShort]
  | some ⟨.hostPath p, ro, se⟩ =>
    refine ⟨fun _ o n ho hn => ?_, fun _ => by simp [ShortVolume.intoLong, Mount.intoShort, MountBind.intoShort]⟩
    cases ho; cases hn
  | some ⟨.volume n, ro, se⟩ =>
    constructor
    · rintro h o n' ho hn
      cases ho
      simp [ShortVolume.intoLong, Mount.intoShort, MountVolume.intoShort] at h
      exact h.symm
    · intro h
      obtain rfl : se = none := h _ n rfl rfl
      simp [ShortVolume.intoLong, Mount.intoShort, MountVolume.intoShort]

example : (ShortVolume.intoLong Unit ⟨"/app".toList, some ⟨.hostPath "/h".toList, true, some .shared⟩⟩).intoShort =
    .ok ⟨"/app".toList, some ⟨.hostPath "/h".toList, true, some .shared⟩⟩ :=
  (C38_into_long_into_short_partial Unit _).2 (by rintro o n ho hn; cases ho; cases hn)

/-- C38: for a named volume with a relabel option (which parsing accepts), the option is lost. -/
theorem C38_into_long_into_short_false :
    ¬ ∀ (s : Str) (v : ShortVolume), ShortVolume.fromStr s = .ok v →
      (v.intoLong Unit).intoShort = .ok v := by
  intro h
  have := h "data:/data:z".toList ⟨"/data".toList, some ⟨.volume "data".toList, false, some .shared⟩⟩ (by decide)
  exact absurd this (by decide)

/-! ### C39 shortening mounts -/

/-- C39: a mount that is not converted is handed back unchanged. -/
theorem C39_into_short_error {V : Type} (m m' : Mount V) (h : m.intoShort = .error m') : m' = m := by
  cases m with
  | volume v =>
    simp only [Mount.intoShort, MountVolume.intoShort] at h
    split at h
    · cases h
    · rename_i v' hv
      split at hv
      · cases hv
      · cases hv; cases h; rfl
  | bind v =>
    simp only [Mount.intoShort, MountBind.intoShort] at h
    split at h
    · cases h
    · rename_i v' hv
      split at hv
      · cases hv
      · cases hv; cases h; rfl
  | tmpfs _ _ => cases h; rfl
  | namedPipe _ _ => cases h; rfl
  | cluster _ _ => cases h; rfl

example : (.namedPipe "p".toList { target := "/c".toList } : Mount Unit).intoShort =
    .error (.namedPipe "p".toList { target := "/c".toList }) := by decide

/-- What `C39_into_short_lossless_partial` has to exclude: an anonymous volume that is read-only, a volume with an
explicit but empty `volume:` section, a bind mount without `bind:` section. -/
def LossyMount {V : Type} : Mount V → Prop
  | .volume v => (v.source = none ∧ v.common.readOnly = true) ∨ v.volume.isSome
  | .bind b => b.bind = none
  | _ => False

/-- C39, exactly when it holds: expanding the result gives back the original mount if and only if the mount is none
of the three kinds listed in `LossyMount`. -/
theorem C39_into_short_lossless_partial {V : Type} (m : Mount V) (s : ShortVolume) (h : m.intoShort = .ok s) :
    s.intoLong V = m ↔ ¬ LossyMount m := by
  cases m with
  | volume v =>
    obtain ⟨source, volume, ⟨target, ro, cons, ext⟩⟩ := v
    simp only [Mount.intoShort, MountVolume.intoShort] at h
    split at h
    · rename_i s' hs
      cases h
      split at hs
      · rename_i hc
        cases hs
        simp only [Bool.and_eq_true, Option.isNone_iff_eq_none, List.isEmpty_iff] at hc
        obtain ⟨⟨rfl, hv⟩, rfl⟩ := hc
        cases source with
        | none => cases volume <;> cases ro <;> simp [ShortVolume.intoLong, LossyMount]
        | some n => cases volume <;> simp [ShortVolume.intoLong, LossyMount]
      · cases hs
    · cases h
  | bind v =>
    obtain ⟨source, bind, ⟨target, ro, cons, ext⟩⟩ := v
    simp only [Mount.intoShort, MountBind.intoShort] at h
    split at h
    · rename_i s' hs
      cases h
      split at hs
      · rename_i hc
        cases hs
        simp only [Bool.and_eq_true, Option.isNone_iff_eq_none, List.isEmpty_iff] at hc
        obtain ⟨⟨rfl, hv⟩, rfl⟩ := hc
        cases bind with
        | none => simp [ShortVolume.intoLong, LossyMount]
        | some b =>
          obtain ⟨p, c, z, e⟩ := b
          simp only [Option.elim_some, Bool.and_eq_true, Option.isNone_iff_eq_none, List.isEmpty_iff] at hv
          obtain ⟨⟨rfl, rfl⟩, rfl⟩ := hv
          simp [ShortVolume.intoLong, LossyMount]
      · cases hs
    · cases h
  | tmpfs _ _ => cases h
  | namedPipe _ _ => cases h
  | cluster _ _ => cases h

example : ShortVolume.intoLong Unit ⟨"/c".toList, some ⟨.hostPath "/h".toList, false, none⟩⟩ =
    .bind ⟨"/h".toList, some { createHostPath := true }, { target := "/c".toList }⟩ :=
  (C39_into_short_lossless_partial _ _ (by decide)).2 (by simp [LossyMount])

/-- C39 is false: a read-only anonymous volume loses its read-only flag. -/
theorem C39_into_short_lossless_false :
    ¬ ∀ (m : Mount Unit) (s : ShortVolume), m.intoShort = .ok s → s.intoLong Unit = m := by
  intro h
  have := h (.volume ⟨none, none, { target := "/data".toList, readOnly := true }⟩) ⟨"/data".toList, none⟩ (by decide)
  exact absurd this (by decide)

/-- C39: shortening a list of volumes keeps their number and order: short volumes stay as they are, a mount is either
shortened, with its target and source, or handed back unchanged. -/
theorem C39_into_short_iter {V : Type} (volumes : List (ShortOrLong ShortVolume (Mount V))) :
    (volumesIntoShortIter volumes).length = volumes.length ∧
    (∀ (i : Nat) (v : ShortVolume), volumes[i]? = some (.short v) → (volumesIntoShortIter volumes)[i]? = some (.ok v)) ∧
    (∀ (i : Nat) (m : Mount V), volumes[i]? = some (.long m) →
      (∃ v, m.intoShort = .ok v ∧ (volumesIntoShortIter volumes)[i]? = some (.ok v)) ∨
      ((∀ v, m.intoShort ≠ .ok v) ∧ (volumesIntoShortIter volumes)[i]? = some (.error m))) := by
  unfold volumesIntoShortIter
  refine ⟨List.length_map _, fun i v h => ?_, fun i m h => ?_⟩
  · rw [List.getElem?_map, h]; rfl
  · rw [List.getElem?_map, h]
    cases hm : m.intoShort with
    | ok v => exact .inl ⟨v, rfl, by simp [hm]⟩
    | error m' =>
      obtain rfl := C39_into_short_error m m' hm
      exact .inr ⟨nofun, by simp [hm]⟩

example : volumesIntoShortIter (V := Unit)
    [.short ⟨"/a".toList, none⟩, .long (.volume ⟨some "d".toList, none, { target := "/b".toList }⟩),
      .long (.namedPipe "p".toList { target := "/c".toList })] =
    [.ok ⟨"/a".toList, none⟩, .ok ⟨"/b".toList, some ⟨.volume "d".toList, false, none⟩⟩,
      .error (.namedPipe "p".toList { target := "/c".toList })] := by decide

/-- C39: the target and the source always survive. -/
theorem C39_into_short_target {V : Type} (m : Mount V) (s : ShortVolume) (h : m.intoShort = .ok s) :
    s.containerPath = m.common.target ∧ s.options.map (·.source.toStr) = m.sourceToString := by
  cases m with
  | volume v =>
    simp only [Mount.intoShort, MountVolume.intoShort] at h
    split at h
    · rename_i s' hs
      cases h
      split at hs
      · cases hs
        refine ⟨rfl, ?_⟩
        cases hsrc : v.source <;> simp [Mount.sourceToString, hsrc, VolumeSource.toStr]
      · cases hs
    · cases h
  | bind v =>
    simp only [Mount.intoShort, MountBind.intoShort] at h
    split at h
    · rename_i s' hs
      cases h
      split at hs
      · cases hs; exact ⟨rfl, rfl⟩
      · cases hs
    · cases h
  | tmpfs _ _ => cases h
  | namedPipe _ _ => cases h
  | cluster _ _ => cases h

example : (⟨"/c".toList, some ⟨.volume "d".toList, true, none⟩⟩ : ShortVolume).options.map (·.source.toStr) =
    (.volume ⟨some "d".toList, none, { target := "/c".toList, readOnly := true }⟩ : Mount Unit).sourceToString :=
  (C39_into_short_target _ _ (by decide)).2

/-- C39: every mount that some short volume stands for is converted. -/
theorem C39_into_short_complete {V : Type} (v : ShortVolume) : ∃ s, (v.intoLong V).intoShort = .ok s := by
  obtain ⟨path, options⟩ := v
  match options with
  | none => simp [ShortVolume.intoLong, Mount.intoShort, MountVolume.intoShort]
  | some ⟨.hostPath p, ro, se⟩ => simp [ShortVolume.intoLong, Mount.intoShort, MountBind.intoShort]
  | some ⟨.volume n, ro, se⟩ => simp [ShortVolume.intoLong, Mount.intoShort, MountVolume.intoShort]

example : (ShortVolume.intoLong Unit ⟨"/app".toList, some ⟨.volume "data".toList, true, some .shared⟩⟩).intoShort =
    .ok ⟨"/app".toList, some ⟨.volume "data".toList, true, none⟩⟩ := by decide

/-- C39: a mount is converted exactly if it sets nothing that the short syntax cannot express. -/
theorem C39_into_short_iff {V : Type} (m : Mount V) : (∃ s, m.intoShort = .ok s) ↔ Shortenable m := by
  cases m with
  | volume v =>
    obtain ⟨source, volume, ⟨target, ro, cons, ext⟩⟩ := v
    simp only [Mount.intoShort, MountVolume.intoShort, Shortenable]
    cases volume with
    | none => cases cons <;> cases ext <;> simp
    | some o =>
      obtain ⟨nc, sub, oext⟩ := o
      cases cons <;> cases ext <;> cases nc <;> cases sub <;> cases oext <;> simp [MountVolumeOptions.isEmpty]
  | bind b =>
    obtain ⟨source, bind, ⟨target, ro, cons, ext⟩⟩ := b
    simp only [Mount.intoShort, MountBind.intoShort, Shortenable]
    cases bind with
    | none => cases cons <;> cases ext <;> simp
    | some o =>
      obtain ⟨pr, ch, se, oext⟩ := o
      cases cons <;> cases ext <;> cases pr <;> cases ch <;> cases oext <;> simp
  | tmpfs _ _ => simp [Mount.intoShort, Shortenable]
  | namedPipe _ _ => simp [Mount.intoShort, Shortenable]
  | cluster _ _ => simp [Mount.intoShort, Shortenable]

/-- C39: every mount has a source except for tmpfs mounts and anonymous volumes. -/
theorem C39_source {V : Type} (m : Mount V) (s : Str) :
    m.sourceToString = some s ↔
      (∃ v, m = .volume v ∧ v.source = some s) ∨ (∃ b, m = .bind b ∧ b.source = s) ∨ (∃ c, m = .namedPipe s c) ∨
        ∃ c, m = .cluster s c := by
  cases m <;> simp [Mount.sourceToString]

/-- A bind mount with a short syntax, and one without because the host path would not be created. -/
example : Shortenable (.bind ⟨"/h".toList, some { createHostPath := true }, { target := "/c".toList }⟩ : Mount Unit) ∧
    ¬ Shortenable (.bind ⟨"/h".toList, some { createHostPath := false }, { target := "/c".toList }⟩ : Mount Unit) := by
  simp [Shortenable]

/-- The source of a named pipe. -/
example : (.namedPipe "/h".toList { target := "/c".toList } : Mount Unit).sourceToString = some "/h".toList := rfl

/-! ### C40 named volumes -/

/-- C40: an entry names a volume: it is a short entry with a named volume as source, or a long volume mount with
that source. -/
def NamesVolume {V : Type} (entry : ShortOrLong ShortVolume (Mount V)) (name : Str) : Prop :=
  (∃ v o, entry = .short v ∧ v.options = some o ∧ o.source = .volume name) ∨
  (∃ m, entry = .long (.volume m) ∧ m.source = some name)

theorem namedVolume_iff {V : Type} (entry : ShortOrLong ShortVolume (Mount V)) (name : Str) :
    namedVolume entry = some name ↔ NamesVolume entry name := by
  match entry with
  | .short ⟨p, none⟩ => simp [namedVolume, NamesVolume]
  | .short ⟨p, some ⟨.hostPath h, ro, se⟩⟩ => simp [namedVolume, NamesVolume]
  | .short ⟨p, some ⟨.volume n, ro, se⟩⟩ => simp [namedVolume, NamesVolume]
  | .long (.volume m) => simp [namedVolume, NamesVolume]
  | .long (.bind b) => simp [namedVolume, NamesVolume]
  | .long (.tmpfs _ _) => simp [namedVolume, NamesVolume]
  | .long (.namedPipe _ _) => simp [namedVolume, NamesVolume]
  | .long (.cluster _ _) => simp [namedVolume, NamesVolume]

/-- C40: the iterator goes through the entries in order; an entry that names a volume yields that name, every other
entry yields nothing.  (The three clauses determine the output for every list.) -/
theorem C40_named_volumes {V : Type} :
    namedVolumesIter ([] : List (ShortOrLong ShortVolume (Mount V))) = [] ∧
    (∀ (e : ShortOrLong ShortVolume (Mount V)) es name, NamesVolume e name →
      namedVolumesIter (e :: es) = name :: namedVolumesIter es) ∧
    (∀ (e : ShortOrLong ShortVolume (Mount V)) es, (∀ name, ¬ NamesVolume e name) →
      namedVolumesIter (e :: es) = namedVolumesIter es) := by
  refine ⟨rfl, ?_, ?_⟩
  · intro e es name h
    rw [← namedVolume_iff] at h
    simp [namedVolumesIter, h]
  · intro e es h
    have : namedVolume e = none := by
      match hn : namedVolume e with
      | none => rfl
      | some n => exact absurd ((namedVolume_iff e n).1 hn) (h n)
    simp [namedVolumesIter, this]

example : namedVolumesIter (V := Unit) [.short ⟨"/a".toList, some ⟨.volume "d".toList, false, none⟩⟩,
    .short ⟨"/a".toList, some ⟨.hostPath "/d".toList, false, none⟩⟩,
    .long (.volume ⟨some "e".toList, none, { target := "/b".toList }⟩)] = ["d".toList, "e".toList] := by decide

/-- C40: the names do not depend on the syntax: expanding a short entry keeps the name it contributes. -/
theorem C40_named_volumes_long {V : Type} (volumes : List (ShortOrLong ShortVolume (Mount V))) :
    namedVolumesIter ((volumesIntoLongIter volumes).map fun m => (.long m : ShortOrLong ShortVolume (Mount V))) =
      namedVolumesIter volumes := by
  simp only [namedVolumesIter, volumesIntoLongIter, List.map_map, List.filterMap_map]
  congr 1
  funext e
  match e with
  | .short ⟨p, none⟩ => rfl
  | .short ⟨p, some ⟨.hostPath h, ro, se⟩⟩ => rfl
  | .short ⟨p, some ⟨.volume n, ro, se⟩⟩ => rfl
  | .long m => rfl

example : namedVolumesIter (V := Unit) ((volumesIntoLongIter [.short ⟨"/a".toList, some ⟨.volume "d".toList, false, none⟩⟩]).map .long) =
    ["d".toList] := C40_named_volumes_long _

/-- C40: the names are those that appear in some entry. -/
theorem C40_named_volumes_mem {V : Type} (volumes : List (ShortOrLong ShortVolume (Mount V))) (name : Str) :
    name ∈ namedVolumesIter volumes ↔ ∃ e ∈ volumes, NamesVolume e name := by
  simp only [namedVolumesIter, List.mem_filterMap, namedVolume_iff]

/-! ### Examples -/

example : HostPath "../data/x".toList := Or.inr (Or.inr (Or.inr (Or.inr ⟨_, rfl⟩)))
example : ([.push "a//b/.".toList, .pop, .push "../c".toList, .pop, .pop, .pop, .pop] : List PathOp).foldl
    PathOp.onHost "./x".toList = ".".toList := by decide
example : hostPathPop "./hello/world".toList = ("./hello".toList, true) := by decide
example : hostPathPop ".".toList = (".".toList, false) := by decide
example : absolutePathPop "/usr/lib/".toList = ("/usr".toList, true) := by decide
example : absolutePathPop "/".toList = ("/".toList, false) := by decide
example : VolumeSource.parse "./data".toList = .ok (.hostPath "./data".toList) := by decide
example : VolumeSource.parse "data".toList = .ok (.volume "data".toList) := by decide
/-- A hidden relative name is neither. -/
example : VolumeSource.parse ".data".toList = .error (.hostPath .hostPath) := by decide
example : ShortVolume.fromStr "./src:/app:Z,ro".toList =
    .ok ⟨"/app".toList, some ⟨.hostPath "./src".toList, true, some .private⟩⟩ := by decide
example : ShortVolume.fromStr "data:/app:ro,rw".toList = .error .readWriteAndReadOnly := by decide
example : ShortVolumeText "data:/app:z,rw".toList ⟨"/app".toList, some ⟨.volume "data".toList, false, some .shared⟩⟩ :=
  (C37_short_volume_accepts _ _).1 (by decide)
example : ShortVolumeOk ⟨"/app".toList, some ⟨.hostPath "../a".toList, true, none⟩⟩ :=
  ⟨⟨_, rfl⟩, by rintro o ho; cases ho; exact ⟨rfl, Or.inr (Or.inr (Or.inr (Or.inr ⟨_, rfl⟩)))⟩⟩
example : (Mount.bind ⟨"/h".toList, some { createHostPath := true, selinux := some .shared },
    { target := "/c".toList, readOnly := true }⟩ : Mount Unit).intoShort =
    .ok ⟨"/c".toList, some ⟨.hostPath "/h".toList, true, some .shared⟩⟩ := by decide
example : ¬ LossyMount (Mount.bind ⟨"/h".toList, some { createHostPath := true }, { target := "/c".toList }⟩ :
    Mount Unit) := by simp [LossyMount]

end Props
