import Verif.Spec.Generates
import Verif.Spec.LRTables
/-
The grammar file without `X*`, `X+` and `X?`, the way LALRPOP removes them (`X?` and `X*` are inlined into the productions
that use them; `X+` becomes a left-recursive nonterminal), with the symbols numbered.  This is the grammar whose
tables the generated parser contains.
-/
namespace Verif.LR

/-- `__token_to_integer`: the number of the terminal of a token (tokens of other kinds have none) -/
def code (t : Token) : Option Nat := fileTerminals.findIdx? (· == t.kind)

/-- the number of the nonterminal `X` -/
def num (x : GName) : Nat := x.ctorIdx

/-- the number of the nonterminal `X+` -/
def numPlus (x : GName) : Nat := 59 + x.ctorIdx

/-- the number of the start symbol `__Program` -/
def numStart : Nat := 118

/-- what a symbol of the file stands for in the productions LALRPOP makes of it -/
def alts : FSym → List (List Sym)
  | .tok k => match code k with | some a => [[.t a]] | none => []
  | .non x => [[.n (num x)]]
  | .opt x => [[], [.n (num x)]]
  | .star x => [[], [.n (numPlus x)]]
  | .plus x => [[.n (numPlus x)]]

/-- the productions made of a right side -/
def expand : List FSym → List (List Sym)
  | [] => [[]]
  | f :: α => (alts f).flatMap fun a => (expand α).map (a ++ ·)

/-- the nonterminals that are used as `X*` or `X+` -/
def repeated : List GName :=
  (grammarFile.flatMap fun q => q.rhs.filterMap fun f =>
    match f with | .star x => some x | .plus x => some x | _ => none).eraseDups

/-- The grammar of the generated parser for a public nonterminal: LALRPOP makes one for each, which differ in the
start production. -/
def desugaredFor (start : GName) : List Rule :=
  ⟨numStart, [.n (num start)]⟩ ::
  (grammarFile.flatMap fun q => (expand q.rhs).map fun β => ⟨num q.lhs, β⟩) ++
  repeated.flatMap fun x => [⟨numPlus x, [.n (num x)]⟩, ⟨numPlus x, [.n (numPlus x), .n (num x)]⟩]

/-- the grammar of the generated parser for `Program` -/
abbrev desugared : List Rule := desugaredFor .Program

end Verif.LR
