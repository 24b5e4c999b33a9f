import Verif.Spec.Defaults
import Verif.Props.Empty
import Verif.Spec.Ordinary
import Verif.Props.Structs

/- C85: the default of a struct is what the empty document says. -/

namespace Props
open Rust Compose Compose.Derive Spec

/-- C85: for a struct without required fields, an empty mapping is read as the default, and the default is written as an empty
mapping. -/
theorem C85_optional (E : Env) : ∀ s ∈ optionalStructs E,
    (struct s.fields).de (.map []) = .ok s.default ∧ (struct s.fields).ser s.default = .map [] := by
  simp only [optionalStructs, List.forall_mem_cons, List.not_mem_nil, false_imp_iff, implies_true, and_true]
  repeat' apply And.intro
  all_goals rfl

/-- An empty service is read as the default service, which is attached to. -/
example : ∃ d, (struct (Structs.service sampleEnv)).de (.map []) = .ok d ∧ d = Structs.serviceDefault sampleEnv ∧ d.1 = true :=
  ⟨_, rfl, rfl, rfl⟩

/-- C85: for a struct with a required field, the document with just this field, at its default, is read as the default and is
what is written for it; an empty mapping is an error. -/
theorem C85_requiring (E : Env) : ∀ s ∈ requiringStructs E,
    (struct s.fields).de (document s.written) = .ok s.default ∧ (struct s.fields).ser s.default = document s.written ∧
      (struct s.fields).de (.map []) = .err () := by
  simp only [requiringStructs, List.forall_mem_cons, List.not_mem_nil, false_imp_iff, implies_true, and_true]
  repeat' apply And.intro
  all_goals rfl

/-- A dependency without options is required, and the service is started. -/
example : (struct Structs.dependency).de (.map [(.str "condition".toList, .str "service_started".toList)]) =
    .ok Structs.dependencyDefault ∧ Structs.dependencyDefault = (.serviceStarted, false, true, ()) := ⟨rfl, rfl⟩

/-- C85: the same for the other types that have a default. -/
theorem C85_values (E : Env) : ∀ v ∈ defaultValues E, v.codec.de v.document = .ok v.default ∧ v.codec.ser v.default = v.document := by
  simp only [defaultValues, List.forall_mem_cons, List.not_mem_nil, false_imp_iff, implies_true, and_true]
  repeat' apply And.intro
  all_goals rfl

/-- The default weight is in the middle. -/
example : Codecs.weight.de (.u64 500) = .ok Weight.default := rfl

/-- C85: the default context is the current directory. -/
theorem C85_context (E : Env) [UrlOk E] :
    (Codecs.context E).de (.str ".".toList) = .ok Context.default ∧ (Codecs.context E).ser Context.default = .str ".".toList := by
  refine ⟨?_, rfl⟩
  have h := UrlOk.dot (E := E)
  simp only [Codecs.context, Codecs.text, Context.parse, h]
  rfl

/-- C85: the default permissions are none. -/
theorem C85_permissions :
    Permissions.fromStr [] = .ok Permissions.default ∧ Permissions.default.display = [] ∧ Permissions.default.any = false :=
  ⟨rfl, rfl, rfl⟩

example : Device.fromStr "a:/b".toList = .ok ⟨"a".toList, "/b".toList, Permissions.default⟩ := rfl

/-- C85: what is read from an empty mapping counts as empty. -/
theorem C85_is_empty (E : Env) : ∀ s ∈ emptiable E, ∀ d, (struct s.fields).de (.map []) = .ok d → s.isEmpty d = true := by
  have ok {α : Type} {o : Outcome Unit α} {p : α → Bool} (x : α) (h : o = .ok x) (hp : p x = true) :
      ∀ d, o = .ok d → p d = true := by
    intro d hd
    rw [h] at hd
    cases hd
    exact hp
  have err {α : Type} {o : Outcome Unit α} {p : α → Bool} (h : o = .err ()) : ∀ d, o = .ok d → p d = true := by
    intro d hd
    rw [h] at hd
    cases hd
  simp only [emptiable, List.forall_mem_cons, List.not_mem_nil, false_imp_iff, implies_true, and_true]
  repeat' apply And.intro
  all_goals first | exact ok _ rfl rfl | exact err rfl

/-- The default volume counts as empty. -/
example : ∃ d, (struct Structs.volume).de (.map []) = .ok d ∧ Structs.volumeIsEmpty d = true := ⟨_, rfl, rfl⟩

/-- The device of a reservation has a required field; its default counts as empty, too. -/
theorem C85_device_is_empty : Structs.resourceDeviceIsEmpty Structs.resourceDeviceDefault = true := rfl

end Props
