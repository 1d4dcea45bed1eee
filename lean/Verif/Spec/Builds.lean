import Verif.Spec.Generates
import Verif.Spec.Actions
/-
The values the actions of the grammar file compute: like `Gen`, with the piece of input and the value of every symbol.
This mentions the grammar file and its actions only; neither the specification `Derives` nor the parser of the model.
-/
namespace Verif

/-- where a piece of input starts and ends -/
def spanOf : List STok → Span
  | [] => none
  | t :: w => some (t.start, stopFrom t.stop w)

/-- a symbol's piece of input and its value -/
abbrev Piece := List STok × RV

/-- the input of a sequence of symbols -/
def inputOf (ps : List Piece) : List STok := (ps.map (·.1)).flatten

/-- `Builds α ps`: the symbols `α` can be read from the pieces of input in `ps`, with the productions of parser.lalrpop,
and the actions compute the values in `ps`.  A terminal has the text of its token, an absent `X?` is `None`, `X*` and
`X+` are the vectors of the values of the `X`s. -/
inductive Builds : List FSym → List Piece → Prop
  | nil : Builds [] []
  | tok {k : Token} {t : STok} {α : List FSym} {ps : List Piece} : t.tok.kind = k → Builds α ps →
      Builds (.tok k :: α) (([t], .str t.tok.text) :: ps)
  | non {i : Nat} {q : FProd} {a : FAct} {α : List FSym} {qs ps : List Piece} {v : RV} :
      grammarFile[i]? = some q → fileActions[i]? = some a → Builds q.rhs qs →
      a.value (qs.map fun p => (spanOf p.1, p.2)) = some v → Builds α ps →
      Builds (.non q.lhs :: α) ((inputOf qs, v) :: ps)
  | optNone {x : GName} {α : List FSym} {ps : List Piece} : Builds α ps → Builds (.opt x :: α) (([], .none) :: ps)
  | optSome {x : GName} {α : List FSym} {u : List STok} {v : RV} {ps : List Piece} : Builds [.non x] [(u, v)] →
      Builds α ps → Builds (.opt x :: α) ((u, .some v) :: ps)
  | starNil {x : GName} {α : List FSym} {ps : List Piece} : Builds α ps → Builds (.star x :: α) (([], .vec []) :: ps)
  | starCons {x : GName} {α : List FSym} {u w : List STok} {v : RV} {vs : List RV} {ps : List Piece} :
      Builds [.non x] [(u, v)] → Builds (.star x :: α) ((w, .vec vs) :: ps) →
      Builds (.star x :: α) ((u ++ w, .vec (v :: vs)) :: ps)
  | plus {x : GName} {α : List FSym} {u w : List STok} {v : RV} {vs : List RV} {ps : List Piece} :
      Builds [.non x] [(u, v)] → Builds (.star x :: α) ((w, .vec vs) :: ps) →
      Builds (.plus x :: α) ((u ++ w, .vec (v :: vs)) :: ps)

end Verif
