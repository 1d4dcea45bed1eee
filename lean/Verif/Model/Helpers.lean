import Verif.Model.Types
/-
The small public helpers around the result types: src/field.rs, src/transition.rs, src/parser/mod.rs, and those of
src/simplified_representation/primitives.rs.
-/
namespace Verif

/-- `Field::new`, src/field.rs 25-30 -/
def Field.new (name : Str) (type : Ty) : Field := .mk name type

/-- `impl Default for Field`, src/field.rs 9-16 -/
def Field.default : Field := .mk [] (.other [])

/-- `FieldList::default()`, src/field.rs 33-34 (derived: the empty vector) -/
def FieldList.default : List Field := []

/-- `FieldList::push`, src/field.rs 45-47 -/
def FieldList.push (l : List Field) (f : Field) : List Field := l ++ [f]

/-- `Transition::new`, src/transition.rs 10-15 -/
def Transition.new (name : Str) (params : List Field) : Transition := ⟨name, params⟩

/-- `Transition::new_without_param`, src/transition.rs 17-22 -/
def Transition.newWithoutParam (name : Str) : Transition := ⟨name, FieldList.default⟩

/-- `TransitionList::default()`, src/transition.rs 25-26 -/
def TransitionList.default : List Transition := []

/-- `Vec::push` through `DerefMut`, src/transition.rs 36-40 -/
def TransitionList.push (l : List Transition) (t : Transition) : List Transition := l ++ [t]

/-- `struct ParserError`, src/parser/mod.rs 7-12 (no code of the crate constructs one) -/
structure ParserError where
  message : Str
  line : Nat
  column : Nat

/-- `impl Display for ParserError`, src/parser/mod.rs 20-28: `"{} (line {}, column {})"` -/
def ParserError.display (e : ParserError) : Str :=
  e.message ++ str! " (line " ++ natDigits e.line ++ str! ", column " ++ natDigits e.column ++ str! ")"

end Verif
