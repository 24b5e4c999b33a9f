import Verif.Std.Str

/-
Specification language: regular expressions, given by the set of strings they match.  Nothing here refers to
the model of the code.
-/

namespace Re
open Rust (Str)

/-- A language is a set of strings. -/
abbrev Lang := Str → Prop

/-- `[abc]`: one character out of a list. -/
def cls (l : List Char) : Lang := fun s => ∃ c ∈ l, s = [c]
/-- The literal string `w`. -/
def lit (w : Str) : Lang := fun s => s = w
/-- `AB`. -/
def seq (A B : Lang) : Lang := fun s => ∃ a b, A a ∧ B b ∧ s = a ++ b
/-- `A|B`. -/
def alt (A B : Lang) : Lang := fun s => A s ∨ B s
/-- `A?`. -/
def opt (A : Lang) : Lang := fun s => s = [] ∨ A s
/-- `A*`. -/
inductive star (A : Lang) : Lang
  | nil : star A []
  | cons {a b : Str} : A a → star A b → star A (a ++ b)
/-- `A+`. -/
def plus (A : Lang) : Lang := seq A (star A)

@[inherit_doc] infixr:65 " ⬝ " => seq
@[inherit_doc] infixr:60 " ∣∣ " => alt

/-- `a`–`z`. -/
def lower : List Char := "abcdefghijklmnopqrstuvwxyz".toList
/-- `A`–`Z`. -/
def upper : List Char := "ABCDEFGHIJKLMNOPQRSTUVWXYZ".toList
/-- `0`–`9`. -/
def digit : List Char := "0123456789".toList
/-- `[a-zA-Z0-9]`. -/
def alnum : List Char := lower ++ upper ++ digit
/-- `[a-z0-9]`. -/
def lowerAlnum : List Char := lower ++ digit

end Re
