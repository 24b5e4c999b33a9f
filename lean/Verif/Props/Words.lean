import Verif.Spec.Words

/- C82: enums without data are displayed as they are written in a file. -/

namespace Props
open Rust Compose Compose.Derive Spec

/-- C82: a keyword is displayed as it is written in a file, and its text is read as that keyword. -/
theorem C82_words (w : Words) (hw : w ∈ words) (x : w.Ty) :
    w.codec.ser x = .str (w.asStr x) ∧ w.codec.de (.str (w.asStr x)) = .ok x := by
  simp only [words, List.mem_cons, List.not_mem_nil, or_false] at hw
  rcases hw with rfl | rfl | rfl | rfl | rfl | rfl | rfl | rfl | rfl | rfl | rfl | rfl | rfl <;> cases x <;> exact ⟨rfl, rfl⟩

example : Structs.action.ser .syncAndRestart = .str Structs.Action.syncAndRestart.asStr :=
  (C82_words ⟨Structs.Action, Structs.action, Structs.Action.asStr⟩ (by simp [words]) .syncAndRestart).1

/-- C82: different keywords are displayed differently. -/
theorem C82_words_injective (w : Words) (hw : w ∈ words) (x y : w.Ty) (h : w.asStr x = w.asStr y) : x = y := by
  have hx := (C82_words w hw x).2
  rw [h, (C82_words w hw y).2] at hx
  cases hx
  rfl

example : Structs.Action.syncAndRestart.asStr = "sync+restart".toList := rfl

end Props
