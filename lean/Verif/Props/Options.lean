import Verif.Spec.Options

/-
C83: the options decide how a file is read, not the kind of input.
C84: messages name all causes.
-/

namespace Props
open Rust Compose Spec

variable {T V C E : Type}

/-- C83: whatever the kind of input, reading it is parsing it, merging if and only if asked for, and reading the value. -/
theorem C83_steps (Y : Yaml T V C E) (hY : ReadsByValue Y) (o : Options) (t : T) :
    o.fromYaml Y t = (Y.parse t).bind fun v => (if o.applyMerge then Y.merge v else .ok v).bind Y.fromValue := by
  obtain ⟨m⟩ := o
  cases m
  · simp only [Options.fromYaml, Options.any, Bool.false_eq_true, if_false, hY t]
    rfl
  · rfl

/-- C83: inputs that parse to the same value are read as the same file, with the same options. -/
theorem C83_kinds {T' : Type} (Y : Yaml T V C E) (Z : Yaml T' V C E) (hY : ReadsByValue Y) (hZ : ReadsByValue Z)
    (hf : Y.fromValue = Z.fromValue) (hm : Y.merge = Z.merge) (o : Options) (t : T) (u : T') (h : Y.parse t = Z.parse u) :
    o.fromYaml Y t = o.fromYaml Z u := by
  rw [C83_steps Y hY, C83_steps Z hZ, h, hf, hm]

/-- C83: the options make no difference for a file in which there is nothing to merge. -/
theorem C83_nothing_to_merge (Y : Yaml T V C E) (hY : ReadsByValue Y) (t : T) (h : ∀ v, Y.parse t = .ok v → Y.merge v = .ok v)
    (o p : Options) : o.fromYaml Y t = p.fromYaml Y t := by
  have : ∀ o : Options, o.fromYaml Y t = (Y.parse t).bind Y.fromValue := fun o => by
    rw [C83_steps Y hY]
    cases hp : Y.parse t with
    | error e => rfl
    | ok v =>
      have := h v hp
      cases o.applyMerge <;> simp [Except.bind, this]
  rw [this, this]

/-- C83: of several calls that set an option the last one counts. -/
theorem C83_last (o : Options) (bs : List Bool) (b : Bool) :
    ((bs ++ [b]).foldl Options.setApplyMerge o).applyMerge = b := by
  simp [Options.setApplyMerge]

example : ([true, false, true].foldl Options.setApplyMerge ⟨false⟩).applyMerge = true := C83_last ⟨false⟩ [true, false] true

/-- A stand-in for `serde_yaml`: values are numbers, 0 cannot be parsed, odd numbers are merged to the next even one. -/
def sampleYaml : Yaml Nat Nat Nat Unit where
  parse t := if t = 0 then .error () else .ok t
  read t := if t = 0 then .error () else .ok (10 * t)
  fromValue v := .ok (10 * v)
  merge v := .ok (v + v % 2)

example : ReadsByValue sampleYaml ∧ Options.fromYaml sampleYaml ⟨true⟩ 3 = .ok 40 ∧
    Options.fromYaml sampleYaml ⟨false⟩ 3 = .ok 30 ∧ (∀ v, sampleYaml.parse 4 = .ok v → sampleYaml.merge v = .ok v) := by
  refine ⟨fun t => ?_, rfl, rfl, fun v h => ?_⟩
  · simp only [sampleYaml]
    split <;> rfl
  · cases h
    rfl

/-- The same for texts that are lists, read by their length. -/
def sampleYamlList : Yaml (List Nat) Nat Nat Unit where
  parse t := sampleYaml.parse t.length
  read t := sampleYaml.read t.length
  fromValue := sampleYaml.fromValue
  merge := sampleYaml.merge

example (o : Options) : o.fromYaml sampleYaml 3 = o.fromYaml sampleYamlList [7, 7, 7] :=
  C83_kinds sampleYaml sampleYamlList (fun t => by simp only [sampleYaml]; split <;> rfl)
    (fun t => by simp only [sampleYamlList, sampleYaml]; split <;> rfl) rfl rfl o 3 [7, 7, 7] rfl

/-- The theorems apply to this library: three has something to merge, four has not. -/
example (hs : ReadsByValue sampleYaml) : Options.fromYaml sampleYaml ⟨true⟩ 4 = Options.fromYaml sampleYaml ⟨false⟩ 4 :=
  C83_nothing_to_merge sampleYaml hs 4 (fun v h => by cases h; rfl) _ _

theorem errorSources_texts (e : ErrorValue) (ts : List Str) (h : Causes e ts) :
    (errorSources (some e)).map (·.text) = ts := by
  induction h with
  | root => rw [errorSources]; simp [ErrorValue.source, ErrorValue.text, errorSources]
  | caused _ ih => rw [errorSources]; simpa [ErrorValue.source, ErrorValue.text] using ih

theorem foldl_texts (es : List ErrorValue) (out : Str) :
    es.foldl (fun output error => output ++ (str!": " ++ error.text)) out =
      (str!": ").intercalate (out :: es.map (·.text)) := by
  induction es generalizing out with
  | nil => simp
  | cons e es ih =>
    rw [List.foldl_cons, ih]
    cases es <;> simp [List.intercalate, List.intersperse]

/-- C84: the message of an error is the texts of the error and of all its causes, in this order, separated by colons. -/
theorem C84_message (e : ErrorValue) (ts : List Str) (h : Causes e ts) : errorChain e = (": ".toList).intercalate ts := by
  cases h with
  | root => simp [errorChain, ErrorValue.source, ErrorValue.text]
  | caused h =>
    rw [errorChain]
    simp only [ErrorValue.source]
    rw [foldl_texts, errorSources_texts _ _ h]
    rfl

/-- C84: every error has such a list of texts. -/
theorem C84_total : (e : ErrorValue) → ∃ ts, Causes e ts
  | .mk t none => ⟨[t], .root⟩
  | .mk t (some e) => let ⟨ts, h⟩ := C84_total e; ⟨t :: ts, .caused h⟩

example : errorChain (.mk "invalid image".toList (some (.mk "invalid tag".toList none))) =
    "invalid image: invalid tag".toList :=
  C84_message _ _ (.caused .root)

end Props
