import Verif.Model.Token
/-
Shallow scans of a token sequence: bracket matching and the names introduced by declarations.
Nothing here refers to the grammar or the parser.
-/
namespace Verif

/-- Brackets are properly nested; the first argument lists the closers still expected. -/
def nested : List Token → List Token → Bool
  | st, [] => st.isEmpty
  | st, .openParen :: ts => nested (.closeParen :: st) ts
  | st, .openBrace :: ts => nested (.closeBrace :: st) ts
  | st, .openBracket :: ts => nested (.closeBracket :: st) ts
  | .closeParen :: st, .closeParen :: ts => nested st ts
  | .closeBrace :: st, .closeBrace :: ts => nested st ts
  | .closeBracket :: st, .closeBracket :: ts => nested st ts
  | _, .closeParen :: _ => false
  | _, .closeBrace :: _ => false
  | _, .closeBracket :: _ => false
  | st, _ :: ts => nested st ts

/-- the tokens that follow a `contract` keyword, except `field` and `end` (which continue an address
type `… with contract …`) -/
def contractNames : List Token → List Token
  | .contract :: .field :: ts => contractNames ts
  | .contract :: .end_ :: ts => contractNames ts
  | .contract :: t :: ts => t :: contractNames ts
  | _ :: ts => contractNames ts
  | [] => []

/-- what kind of component a keyword announces -/
inductive CompKind where
  | transition
  | procedure
deriving DecidableEq, Repr

/-- the tokens that follow the keywords `transition` and `procedure` -/
def componentNames : List Token → List (CompKind × Token)
  | .transition :: t :: ts => (.transition, t) :: componentNames ts
  | .procedure :: t :: ts => (.procedure, t) :: componentNames ts
  | _ :: ts => componentNames ts
  | [] => []

/-- the tokens that follow a `field` keyword which is not directly after `contract` or `,` (those
are fields of address types); the first argument is the previous token -/
def fieldNames : Option Token → List Token → List Token
  | some .contract, .field :: ts => fieldNames (some .field) ts
  | some .comma, .field :: ts => fieldNames (some .field) ts
  | _, .field :: t :: ts => t :: fieldNames (some t) ts
  | _, t :: ts => fieldNames (some t) ts
  | _, [] => []

/-- the tokens of a lexed sequence, without positions -/
def bare (w : List STok) : List Token := w.map (·.tok)

end Verif
