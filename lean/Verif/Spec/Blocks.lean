import Verif.Model.Token
/-
The block structure of a token sequence: what opens and what closes a block.  Nothing here refers to the grammar or the
parser.
-/
namespace Verif

/-- What the reader of blocks remembers: whether the last token was `)`, and the closing tokens still expected, the
innermost block first. -/
structure Open where
  afterParen : Bool
  closers : List Token
deriving DecidableEq, Repr

/-- Reading one token.

* `(`, `{`, `[` open a block that `)`, `}`, `]` closes.
* `transition` and `procedure` open a block that `end` closes; they stand outside all blocks.
* `with` opens a block that `end` closes (`match x with … end`, `ByStr20 with … end`), unless it stands directly after
  `)`: that is the constraint of the contract, which stands outside all blocks.

`none`: the token cannot stand here. -/
def Open.read (s : Open) : Token → Option Open
  | .openParen => some ⟨false, .closeParen :: s.closers⟩
  | .openBrace => some ⟨false, .closeBrace :: s.closers⟩
  | .openBracket => some ⟨false, .closeBracket :: s.closers⟩
  | .transition => if s.closers = [] then some ⟨false, [.end_]⟩ else none
  | .procedure => if s.closers = [] then some ⟨false, [.end_]⟩ else none
  | .with_ =>
    if s.afterParen then if s.closers = [] then some ⟨false, []⟩ else none else some ⟨false, .end_ :: s.closers⟩
  | .closeParen => if s.closers.head? = some .closeParen then some ⟨true, s.closers.tail⟩ else none
  | .closeBrace => if s.closers.head? = some .closeBrace then some ⟨false, s.closers.tail⟩ else none
  | .closeBracket => if s.closers.head? = some .closeBracket then some ⟨false, s.closers.tail⟩ else none
  | .end_ => if s.closers.head? = some .end_ then some ⟨false, s.closers.tail⟩ else none
  | _ => some ⟨false, s.closers⟩

/-- Reading a sequence of tokens. -/
def Open.reads : Open → List Token → Option Open
  | s, [] => some s
  | s, t :: ts => (s.read t).bind fun s' => s'.reads ts

/-- All blocks are properly nested, and all are closed. -/
def Blocked (ts : List Token) : Prop := ∃ b, Open.reads ⟨false, []⟩ ts = some ⟨b, []⟩

/-- the tokens that begin or end a block wherever they stand -/
def delimiters : List Token :=
  [.openParen, .closeParen, .openBrace, .closeBrace, .openBracket, .closeBracket, .end_, .transition, .procedure]

end Verif
