import Verif.Proofs.Merge
import Verif.Props.Options

/-
C113: with merging turned on, fragments are written out.

The model of `Value::apply_merge` is written from memory (Std/Merge.lean): what is proved here holds for that model.
-/

namespace Props
open Rust Compose Spec Proofs

/-- C113: what merging makes of a document is the document with the fragments of all mappings written out. -/
theorem C113_written_out (c d : Content) (hc : KeysOnce c) (h : applyMerge c = .ok d) : WrittenOut c d :=
  applyMerge_writtenOut c hc d h

/-- C113: a document whose fragments can be written out is accepted, and the result is no other one, but for the order of
keys. -/
theorem C113_accepted (c d : Content) (hc : KeysOnce c) (h : WrittenOut c d) : ∃ c', applyMerge c = .ok c' ∧ SameButOrder c' d :=
  writtenOut_applyMerge c hc d h

/-- C113: a document is only rejected if some `<<` key has a value that is neither a mapping nor a sequence of mappings, and
the error says what is wrong with it. -/
theorem C113_rejected (c : Content) (e : MergeError) (h : applyMerge c = .error e) :
    ∃ es v, FoundIn (.map es) c ∧ (.str "<<".toList, v) ∈ es ∧ WrongValue v e :=
  applyMerge_error c e h

/-- C113: a document without `<<` keys stays as it is. -/
theorem C113_nothing (c : Content) (h : NothingToMerge c) : applyMerge c = .ok c := applyMerge_nothing c h

/-- C113: no `<<` key is left, and merging again changes nothing.  Missing: documents in which a fragment has fragments
itself; see `C113_complete_false`, and `C113_left_iff` for the exact condition. -/
theorem C113_complete_partial (c d : Content) (hc : KeysOnce c) (hn : NoChains c) (h : applyMerge c = .ok d) :
    NothingToMerge d ∧ applyMerge d = .ok d :=
  have := applyMerge_complete c hc hn d h
  ⟨this, applyMerge_nothing d this⟩

/-- C113: exactly when no `<<` key is left: no fragment of a mapping that is met has fragments itself. -/
theorem C113_left_iff (c d : Content) (hc : KeysOnce c) (h : applyMerge c = .ok d) :
    NothingToMerge d ↔ ∀ xs fs, Met c xs → Fragments xs fs → ∀ f ∈ fs, Lacks f (.str "<<".toList) :=
  applyMerge_left c hc d h

/-- A text. -/
def textOfDoc (s : String) : Content := .str s.toList

/-- The environment of the example at /repo/src/options.rs:23-31. -/
def mergeEnv : KeyValues := [(textOfDoc "FOO", textOfDoc "foo"), (textOfDoc "BAR", textOfDoc "bar")]

/-- The services of that example, with the alias replaced by what it stands for. -/
def mergeDoc : Content :=
  .map [(textOfDoc "one", .map mergeEnv), (textOfDoc "two", .map [(textOfDoc "<<", .map mergeEnv), (textOfDoc "BAR", textOfDoc "baz")])]

/-- What they are merged to. -/
def mergedDoc : Content :=
  .map [(textOfDoc "one", .map mergeEnv), (textOfDoc "two", .map [(textOfDoc "BAR", textOfDoc "baz"), (textOfDoc "FOO", textOfDoc "foo")])]

/-- A fragment that has a fragment itself. -/
def chainDoc : Content :=
  .map [(textOfDoc "<<", .map [(textOfDoc "A", textOfDoc "a"), (textOfDoc "<<", .map [(textOfDoc "B", textOfDoc "b")])])]

/-- What it is merged to: the key `<<` is still there. -/
def chainMerged : Content := .map [(textOfDoc "A", textOfDoc "a"), (textOfDoc "<<", .map [(textOfDoc "B", textOfDoc "b")])]

theorem mergeDoc_merged : applyMerge mergeDoc = .ok mergedDoc := by
  have h1 : applyMerge (.map mergeEnv) = .ok (.map mergeEnv) :=
    applyMerge_map_ok.2 ⟨mergeEnv, by decide, rfl, .cons (applyMerge_plain trivial) (.cons (applyMerge_plain trivial) .nil)⟩
  have h2 : applyMerge (.map [(textOfDoc "<<", .map mergeEnv), (textOfDoc "BAR", textOfDoc "baz")]) =
      .ok (.map [(textOfDoc "BAR", textOfDoc "baz"), (textOfDoc "FOO", textOfDoc "foo")]) :=
    applyMerge_map_ok.2 ⟨_, rfl, rfl, .cons (applyMerge_plain trivial) (.cons (applyMerge_plain trivial) .nil)⟩
  exact applyMerge_map_ok.2 ⟨_, rfl, rfl, .cons h1 (.cons h2 .nil)⟩

theorem mergeDoc_once : KeysOnce mergeDoc := by
  simp only [KeysOnce, mergeDoc, mergeEnv, textOfDoc, everywhere_map, everywhere_str, List.forall_mem_cons, List.not_mem_nil,
    false_imp_iff, implies_true, and_true]
  decide

/-- The example in the documentation: `BAR` keeps its own value, `FOO` comes from the fragment. -/
example : WrittenOut mergeDoc mergedDoc ∧ NothingToMerge mergedDoc :=
  ⟨C113_written_out _ _ mergeDoc_once mergeDoc_merged, by
    simp only [NothingToMerge, mergedDoc, mergeEnv, textOfDoc, everywhere_map, everywhere_str, List.forall_mem_cons, List.not_mem_nil,
      false_imp_iff, implies_true, and_true, lacks_iff]
    decide⟩

example : ∃ c', applyMerge mergeDoc = .ok c' ∧ SameButOrder c' mergedDoc :=
  C113_accepted _ _ mergeDoc_once (C113_written_out _ _ mergeDoc_once mergeDoc_merged)

theorem mergeDoc_noChains : NoChains mergeDoc := by
  have hl : ∀ {es : KeyValues}, (Content.str "<<".toList) ∉ es.map (·.1) → ∀ fs, Fragments es fs → ∀ f ∈ fs, Lacks f (.str "<<".toList) := by
    intro es h fs hfs f hf
    cases hfs with
    | none => cases hf
    | one h' => exact absurd h' (lacks_iff.2 h _)
    | list h' => exact absurd h' (lacks_iff.2 h _)
  have h2 : ∀ fs, Fragments [(textOfDoc "<<", .map mergeEnv), (textOfDoc "BAR", textOfDoc "baz")] fs →
      ∀ f ∈ fs, Lacks f (.str "<<".toList) := by
    intro fs hfs f hf
    cases fragments_unique (by decide) hfs (.one List.mem_cons_self)
    cases List.mem_singleton.1 hf
    rw [lacks_iff]; decide
  rw [noChains_iff, mergeDoc]
  refine everywhere_map.2 ⟨hl (by decide), ?_⟩
  intro e he
  rcases List.mem_cons.1 he with rfl | he
  · refine everywhere_map.2 ⟨hl (by decide), fun e he fs hf => ?_⟩
    rcases List.mem_cons.1 he with rfl | he
    · cases hf
    · cases List.mem_singleton.1 he; cases hf
  · cases List.mem_singleton.1 he
    refine everywhere_map.2 ⟨h2, fun e he => ?_⟩
    rcases List.mem_cons.1 he with rfl | he
    · refine everywhere_map.2 ⟨hl (by decide), fun e he fs hf => ?_⟩
      rcases List.mem_cons.1 he with rfl | he
      · cases hf
      · cases List.mem_singleton.1 he; cases hf
    · cases List.mem_singleton.1 he
      intro fs hf; cases hf

example : applyMerge mergedDoc = .ok mergedDoc := (C113_complete_partial _ _ mergeDoc_once mergeDoc_noChains mergeDoc_merged).2

example : ∀ xs fs, Met mergeDoc xs → Fragments xs fs → ∀ f ∈ fs, Lacks f (.str "<<".toList) :=
  (C113_left_iff _ _ mergeDoc_once mergeDoc_merged).1 (C113_complete_partial _ _ mergeDoc_once mergeDoc_noChains mergeDoc_merged).1

/-- Of several fragments the first one that has the key counts. -/
example : ∃ d, applyMerge (.map [(textOfDoc "<<", .seq [.map [(textOfDoc "A", .u64 1)], .map [(textOfDoc "A", .u64 2), (textOfDoc "B", .u64 3)]]),
    (textOfDoc "C", .u64 4)]) = .ok d ∧ d = .map [(textOfDoc "C", .u64 4), (textOfDoc "A", .u64 1), (textOfDoc "B", .u64 3)] :=
  ⟨_, applyMerge_map_ok.2 ⟨_, rfl, rfl, .cons (applyMerge_plain trivial) (.cons (applyMerge_plain trivial) (.cons (applyMerge_plain trivial) .nil))⟩, rfl⟩

/-- A number is no fragment. -/
example : applyMerge (.seq [.map [(textOfDoc "<<", .u64 1)]]) = .error .scalarInMerge ∧ WrongValue (.u64 1) .scalarInMerge :=
  ⟨by rw [applyMerge_seq]; simp [fromLast, applyMerge_map, Except.bind, Except.map, show mergeEntries [(textOfDoc "<<", .u64 1)] = .error .scalarInMerge from rfl],
    .scalar trivial⟩

/-- C113: it is not true that no `<<` key is left: the fragments of a fragment are not written out. -/
theorem C113_complete_false : ¬ ∀ c d, KeysOnce c → applyMerge c = .ok d → NothingToMerge d := by
  intro h
  have hm : applyMerge chainDoc = .ok chainMerged :=
    applyMerge_map_ok.2 ⟨_, rfl, rfl, .cons (applyMerge_plain trivial) (.cons
      (applyMerge_map_ok.2 ⟨_, rfl, rfl, .cons (applyMerge_plain trivial) .nil⟩) .nil)⟩
  have ho : KeysOnce chainDoc := by
    simp only [KeysOnce, chainDoc, textOfDoc, everywhere_map, everywhere_str, List.forall_mem_cons, List.not_mem_nil,
      false_imp_iff, implies_true, and_true]
    decide
  exact h _ _ ho hm _ .self _ (List.mem_cons_of_mem _ List.mem_cons_self)

/-- C113: a file that is read with merging turned on is the file that its document with all fragments written out is. -/
theorem C113_file {T C : Type} (Y : Yaml T Content C MergeError) (hY : ReadsByValue Y) (hm : Y.merge = applyMerge) (t : T) (v : Content)
    (hv : KeysOnce v) (hp : Y.parse t = .ok v) (file : C) (h : Options.fromYaml Y ⟨true⟩ t = .ok file) :
    ∃ d, WrittenOut v d ∧ Y.fromValue d = .ok file := by
  rw [C83_steps Y hY, hp] at h
  simp only [Except.bind, if_true, hm] at h
  cases ha : applyMerge v with
  | error e => rw [ha] at h; cases h
  | ok d => rw [ha] at h; exact ⟨d, C113_written_out v d hv ha, h⟩

/-- C113: for a file without `<<` keys it makes no difference whether merging is turned on. -/
theorem C113_no_difference {T C : Type} (Y : Yaml T Content C MergeError) (hY : ReadsByValue Y) (hm : Y.merge = applyMerge) (t : T)
    (h : ∀ v, Y.parse t = .ok v → NothingToMerge v) (o p : Options) : o.fromYaml Y t = p.fromYaml Y t :=
  C83_nothing_to_merge Y hY t (fun v hv => hm ▸ C113_nothing v (h v hv)) o p

/-- A library for which a text is its document and a file is a document. -/
def documentYaml : Yaml Content Content Content MergeError where
  parse := .ok
  read := .ok
  fromValue := .ok
  merge := applyMerge

example : ReadsByValue documentYaml ∧ Options.fromYaml documentYaml ⟨true⟩ mergeDoc = .ok mergedDoc ∧
    Options.fromYaml documentYaml ⟨false⟩ mergeDoc = .ok mergeDoc := by
  refine ⟨fun t => rfl, ?_, rfl⟩
  rw [C83_steps documentYaml fun t => rfl]
  simp [documentYaml, Except.bind, mergeDoc_merged]

example (o p : Options) : o.fromYaml documentYaml mergedDoc = p.fromYaml documentYaml mergedDoc :=
  C113_no_difference documentYaml (fun _ => rfl) rfl mergedDoc (fun v hv => by
    cases hv
    exact (C113_complete_partial _ _ mergeDoc_once mergeDoc_noChains mergeDoc_merged).1) o p

/-- The theorems apply to this library and these documents. -/
example : ∃ d, WrittenOut mergeDoc d ∧ documentYaml.fromValue d = .ok mergedDoc :=
  C113_file documentYaml (fun _ => rfl) rfl mergeDoc mergeDoc mergeDoc_once rfl mergedDoc (by
    rw [C83_steps documentYaml fun t => rfl]
    simp [documentYaml, Except.bind, mergeDoc_merged])
example : applyMerge (.map mergeEnv) = .ok (.map mergeEnv) :=
  C113_nothing _ (by
    simp only [NothingToMerge, mergeEnv, textOfDoc, everywhere_map, everywhere_str, List.forall_mem_cons, List.not_mem_nil,
      false_imp_iff, implies_true, and_true, lacks_iff]
    decide)
example : ∃ es v, FoundIn (.map es) (.map [(textOfDoc "<<", .seq [.map mergeEnv, .seq []])]) ∧ (.str "<<".toList, v) ∈ es ∧
    WrongValue v .sequenceInMergeElement :=
  C113_rejected _ _ (by rw [applyMerge_map]; rfl)

end Props
