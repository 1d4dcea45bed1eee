import Verif.Model.Token
/-
The tokens of a program that its syntax tree does not record.  Three kinds only:
* a comma directly after an opening parenthesis;
* every `import` but the first;
* `()` at the beginning of the arguments of a builtin (after `builtin f` or `builtin f {…}`) when
  an argument follows.
`essential` leaves these out.  It knows nothing of the grammar: it looks at the neighbours of each
token.
-/
namespace Verif

/-- Can a variable start with this token? -/
def startsVariable : Token → Bool
  | .identifier _ | .specialIdentifier _ | .customIdentifier _ | .byStrWithSize _ => true
  | .eventType => true
  | _ => false

/-- Looking backwards: `… builtin f` or `… }`. -/
def argumentsBegin : List Token → Bool
  | .identifier _ :: .builtin :: _ => true
  | .closeBrace :: _ => true
  | _ => false

/-- Is the token `t` left out?  `before` are the tokens before it, the nearest first, `after`
those after it. -/
def forgotten (before : List Token) (t : Token) (after : List Token) : Bool :=
  match t with
  | .comma => before.head? == some .openParen
  | .import_ => before.contains .import_
  | .openParen => argumentsBegin before && after.head? == some .closeParen &&
      after.tail.head?.any startsVariable
  | .closeParen => before.head? == some .openParen && argumentsBegin before.tail &&
      after.head?.any startsVariable
  | _ => false

/-- The tokens of `ts` that are not left out, `before` being the tokens before them. -/
def essentialFrom (before : List Token) : List Token → List Token
  | [] => []
  | t :: ts =>
    if forgotten before t ts then essentialFrom (t :: before) ts
    else t :: essentialFrom (t :: before) ts

/-- The tokens of a program without those the tree does not record. -/
def essential (ts : List Token) : List Token := essentialFrom [] ts

end Verif
