import Verif.Model.Expansion
import Verif.Spec.Macros

/- What the derive macros should write. -/

namespace Spec
open Rust Compose Compose.Macros

variable {E : Type}

/-- What can stand between `&&`: a call or a block (Rust's grammar, as far as these parts go). -/
inductive Operand : Piece E → Prop
  | call (question : Question E) (ident : Str) : Operand (.call question ident)
  | braces (body : Braces) : Operand (.braces body)

/-- The text is a condition with these operands: at least one, with `&&` between them. -/
inductive Conjunction : List (Piece E) → List (Piece E) → Prop
  | one {p : Piece E} (h : Operand p) : Conjunction [p] [p]
  | and {p : Piece E} {text ops : List (Piece E)} (h : Operand p) (rest : Conjunction text ops) :
      Conjunction (p :: .andAnd :: text) (p :: ops)

/-- The text is `if c { a } else { b }`, where the condition has the operands `ops`. -/
def IfElse (text ops : List (Piece E)) (a b : Braces) : Prop :=
  ∃ cond, Conjunction cond ops ∧ text = [.kwIf] ++ cond ++ [.braces a, .kwElse, .braces b]

/-- What `From<Short>` sets a field of the struct to: the field marked `short` to the argument, any other to the value of
the function given with `default`, or to its default value. -/
def SetFromShort (field : FieldDecl E) (entry : Str × Initial E) : Prop :=
  entry.1 = field.ident ∧
    ((IsShort field ∧ (∃ inner, WrittenOption field.ty inner) ∧ entry.2 = .someArgument) ∨
      (IsShort field ∧ (¬ ∃ inner, WrittenOption field.ty inner) ∧ entry.2 = .argument) ∨
      (∃ ifFn f, OtherEntries (asShortEntries field.attrs) ifFn (some f) ∧ entry.2 = .call f) ∨
      (∃ ifFn, OtherEntries (asShortEntries field.attrs) ifFn none ∧ entry.2 = .default))

/-- What `Default` sets a field to: the expression given, or its default value. -/
def SetByDefault (field : Str × List (DefaultAttr E)) (entry : Str × Initial E) : Prop :=
  entry.1 = field.1 ∧
    ((∃ e, defaultEntries field.2 = [some e] ∧ entry.2 = .value e) ∨
      (defaultEntries field.2 = [] ∧ entry.2 = .default))

end Spec
