import Verif.Model.Structs
import Verif.Spec.Structs
import Mathlib.Logic.Relation

/- Documents that differ in the order of the entries of their mappings. -/

namespace Spec
open Rust Compose

/-- One step into a document: to an item of a sequence, or to the value of a key of a mapping. -/
inductive Into
  | item
  | key (k : Content)

/-- Which keys have to stay in their order, at the position to which the steps lead. -/
abbrev Fixed := List Into → Content → Prop

/-- The same, seen from the position after a step. -/
def Fixed.after (F : Fixed) (s : Into) : Fixed := fun p k => F (s :: p) k

/-- No keys have to stay in their order. -/
def Fixed.nothing : Fixed := fun _ _ => False

/-- Two neighbouring entries of a mapping change places, somewhere in a document.  They have different keys, of which not
both have to stay in their order. -/
inductive Exchanged : Fixed → Content → Content → Prop
  | here {F : Fixed} {a b : List (Content × Content)} {k k' v v' : Content} : k ≠ k' → ¬ (F [] k ∧ F [] k') →
      Exchanged F (.map (a ++ (k, v) :: (k', v') :: b)) (.map (a ++ (k', v') :: (k, v) :: b))
  | item {F : Fixed} {a b : List Content} {v w : Content} : Exchanged (F.after .item) v w →
      Exchanged F (.seq (a ++ v :: b)) (.seq (a ++ w :: b))
  | value {F : Fixed} {a b : List (Content × Content)} {k v w : Content} : Exchanged (F.after (.key k)) v w →
      Exchanged F (.map (a ++ (k, v) :: b)) (.map (a ++ (k, w) :: b))

/-- Entries of mappings change places any number of times, anywhere in a document. -/
def Reordered (F : Fixed) : Content → Content → Prop := Relation.ReflTransGen (Exchanged F)

/-- Two documents differ only in the order of the entries of their mappings. -/
abbrev SameButOrder : Content → Content → Prop := Reordered Fixed.nothing

/-- What is assumed of `==` on the values of extensions: the order of the entries of their mappings does not matter. -/
class ValueEqUnordered (E : Env) : Prop where
  same : ∀ v w u, SameButOrder v w → E.valueEq v u = E.valueEq w u ∧ E.valueEq u v = E.valueEq u w

/-- An extension key. -/
def IsExtension (k : Content) : Prop := ∃ s, k = .str s ∧ ExtensionKey s

/-- The keys of a service whose order matters: whether a health check is disabled depends on the order of `disable` and
`test`, and which ports and volumes are equal depends on the order of their extensions. -/
inductive ServiceFixed : Fixed
  | disable : ServiceFixed [.key (.str "healthcheck".toList)] (.str "disable".toList)
  | test : ServiceFixed [.key (.str "healthcheck".toList)] (.str "test".toList)
  | port {k : Content} : IsExtension k → ServiceFixed [.key (.str "ports".toList), .item] k
  | volume {k : Content} : IsExtension k → ServiceFixed [.key (.str "volumes".toList), .item] k
  | volumeOptions {k : Content} : IsExtension k →
      ServiceFixed [.key (.str "volumes".toList), .item, .key (.str "volume".toList)] k
  | bindOptions {k : Content} : IsExtension k →
      ServiceFixed [.key (.str "volumes".toList), .item, .key (.str "bind".toList)] k
  | tmpfsOptions {k : Content} : IsExtension k →
      ServiceFixed [.key (.str "volumes".toList), .item, .key (.str "tmpfs".toList)] k

/-- The keys of a file whose order matters: those of its services. -/
def FileFixed : Fixed := fun p k => ∃ name q, p = .key (.str "services".toList) :: .key name :: q ∧ ServiceFixed q k

end Spec
