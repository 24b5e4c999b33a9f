import Verif.Std.Merge
import Mathlib.Data.List.Forall2

/- What merging `<<` keys means. -/

namespace Spec
open Rust

/-- The entries of a mapping. -/
abbrev KeyValues := List (Content × Content)

/-- A mapping has no value for a key. -/
def Lacks (es : KeyValues) (k : Content) : Prop := ∀ v, (k, v) ∉ es

/-- The fragments named by the `<<` key of a mapping, in order: none without the key, one if its value is a mapping, and all
items of a sequence of mappings.  Other values name no fragments and are mistakes. -/
inductive Fragments : KeyValues → List KeyValues → Prop
  | none {es : KeyValues} : Lacks es (.str "<<".toList) → Fragments es []
  | one {es f : KeyValues} : (.str "<<".toList, .map f) ∈ es → Fragments es [f]
  | list {es : KeyValues} {fs : List KeyValues} : (.str "<<".toList, .seq (fs.map .map)) ∈ es → Fragments es fs

/-- What a mapping says about a key itself, without its fragments. -/
def Own (es : KeyValues) (k v : Content) : Prop := (k, v) ∈ es ∧ k ≠ .str "<<".toList

/-- The first of several fragments that has a value for a key has this value. -/
def FirstSays (fs : List KeyValues) (k v : Content) : Prop :=
  ∃ a f b, fs = a ++ f :: b ∧ (k, v) ∈ f ∧ ∀ g ∈ a, Lacks g k

/-- The value a key has in a mapping with fragments: the one the mapping has itself, otherwise that of the first fragment
that has one. -/
def Taken (es : KeyValues) (fs : List KeyValues) (k v : Content) : Prop :=
  Own es k v ∨ (∀ w, ¬ Own es k w) ∧ FirstSays fs k v

/-- The second mapping is the first one with its fragments written out, in any order. -/
def OneWrittenOut (es ms : KeyValues) : Prop :=
  (ms.map (·.1)).Nodup ∧ ∃ fs, Fragments es fs ∧ ∀ k v, (k, v) ∈ ms ↔ Taken es fs k v

/-- Neither a sequence nor a mapping. -/
def Plain : Content → Prop
  | .seq _ | .map _ => False
  | _ => True

/-- The second document is the first one with the fragments of all mappings written out, from the outside to the inside. -/
inductive WrittenOut : Content → Content → Prop
  | plain {c : Content} : Plain c → WrittenOut c c
  | seq {vs ws : List Content} : List.Forall₂ WrittenOut vs ws → WrittenOut (.seq vs) (.seq ws)
  | map {es ms ws : KeyValues} : OneWrittenOut es ms → ms.map (·.1) = ws.map (·.1) →
      List.Forall₂ WrittenOut (ms.map (·.2)) (ws.map (·.2)) → WrittenOut (.map es) (.map ws)

/-- A document is found in a document: it is the document itself, or is found in an item or in the value of a key. -/
inductive FoundIn : Content → Content → Prop
  | self {c : Content} : FoundIn c c
  | item {c v : Content} {vs : List Content} : v ∈ vs → FoundIn c v → FoundIn c (.seq vs)
  | value {c k v : Content} {es : KeyValues} : (k, v) ∈ es → FoundIn c v → FoundIn c (.map es)

/-- No mapping of a document has a key twice.  The mappings of `serde_yaml` never do. -/
def KeysOnce (c : Content) : Prop := ∀ es, FoundIn (.map es) c → (es.map (·.1)).Nodup

/-- No mapping of a document has a key `<<`. -/
def NothingToMerge (c : Content) : Prop := ∀ es, FoundIn (.map es) c → Lacks es (.str "<<".toList)

/-- No fragment of a mapping has fragments itself. -/
def NoChains (c : Content) : Prop :=
  ∀ es fs, FoundIn (.map es) c → Fragments es fs → ∀ f ∈ fs, Lacks f (.str "<<".toList)

/-- A mapping is met when the fragments of a document are written out from the outside to the inside.  Mappings in values of
fragments that are not taken are not met. -/
inductive Met : Content → KeyValues → Prop
  | self {es : KeyValues} : Met (.map es) es
  | item {v : Content} {vs : List Content} {xs : KeyValues} : v ∈ vs → Met v xs → Met (.seq vs) xs
  | value {es : KeyValues} {fs : List KeyValues} {k v : Content} {xs : KeyValues} : Fragments es fs → Taken es fs k v → Met v xs →
      Met (.map es) xs

/-- What is wrong with the value of a `<<` key. -/
inductive WrongValue : Content → MergeError → Prop
  | scalar {c : Content} : Plain c → WrongValue c .scalarInMerge
  | scalarItem {fs : List KeyValues} {c : Content} {vs : List Content} : Plain c →
      WrongValue (.seq (fs.map .map ++ c :: vs)) .scalarInMergeElement
  | sequenceItem {fs : List KeyValues} {ws vs : List Content} :
      WrongValue (.seq (fs.map .map ++ .seq ws :: vs)) .sequenceInMergeElement

end Spec
