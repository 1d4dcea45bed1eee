import Verif.Spec.Lexical
/-
Vocabulary for statements about editing a document: what the lexer has yielded when it stands at a
given place of the text, and which tokens do not look beyond their own text.
-/
namespace Verif

/-- Calling `next()` repeatedly on a lexer in state `σ` yields the tokens `ts` (positions dropped) and
leaves the lexer in state `σ'`. -/
inductive Calls (U : CharClass) : LexState → List Token → LexState → Prop
  | nil (σ : LexState) : Calls U σ [] σ
  | cons {σ σ' σ'' : LexState} {t : STok} {ts : List Token} : lexNext U σ = .item t σ' → Calls U σ' ts σ'' →
      Calls U σ (t.tok :: ts) σ''

/-- In the document `pre ++ post` the lexer has yielded exactly the tokens `ts` when the text that is
left to be read is `post`. -/
def Boundary (U : CharClass) (pre : Str) (ts : List Token) (post : Str) : Prop :=
  ∃ σ, Calls U (.init (pre ++ post)) ts σ ∧ σ.rest = post

/-- A string literal in which every backslash starts an escape. -/
def Strict (s : Str) : Prop := ∃ b, s = '"' :: b ++ ['"'] ∧ StrictBody b

/-- Tokens that do not depend on a later quote: everything but unrecognised characters and string
literals that end in an escaped quote. -/
def Token.steady (t : Token) : Prop := t ≠ .unknown ∧ ∀ s, t = .stringLiteral s → Strict s

end Verif
