import Verif.Model.Token
/-
Which keywords cannot be mistaken for a name.  Nothing here refers to the grammar or the parser.
-/
namespace Verif

/-- The words that are no keywords: names of all kinds, and the words `Event`, `ByStr` and `ByStr` with a number, which the
lexer tells from the names.  A misspelt keyword is one of these. -/
def Token.word : Token → Bool
  | .identifier _ => true
  | .specialIdentifier _ => true
  | .customIdentifier _ => true
  | .templateIdentifier _ => true
  | .byStrWithSize _ => true
  | .eventType => true
  | .byStr => true
  | _ => false

/-- Putting a word into the place of one of these is always noticed. -/
def guarded : List Token :=
  [.scillaVersion, .contract, .field, .transition, .procedure, .let_, .in_, .match_, .with_, .end_, .fun_, .tfun, .of_,
   .exists_, .delete, .emp]

/-- These may be mistaken. -/
def loose : List Token :=
  [.forall_, .builtin, .library, .import_, .send, .event, .accept, .throw, .map, .type, .as_]

/-- One exception: `with contract … end`, the type of an address, and `with _contract … end` are both accepted. -/
def Excepted (k x : Token) : Prop := k = .contract ∧ ∃ s, x = .specialIdentifier s

/-- The keywords that are noticed when they are left out. -/
def needed : List Token :=
  [.scillaVersion, .transition, .procedure, .end_, .let_, .in_, .match_, .with_, .fun_, .tfun, .of_, .emp, .field, .delete]

/-- These may be left out unnoticed. -/
def idle : List Token :=
  [.contract, .exists_, .forall_, .builtin, .library, .import_, .send, .event, .accept, .throw, .map, .type, .as_]

/-- The pairs of keywords of which one may be written for the other unnoticed. -/
def interchangeable : List (Token × Token) :=
  [(.library, .import_), (.library, .contract), (.library, .as_), (.import_, .as_), (.send, .event), (.send, .throw),
   (.event, .throw), (.accept, .throw), (.of_, .type), (.transition, .procedure)]

/-- The kinds of tokens that are noticed when they are left out, wherever they stand (`+`, `*` and `-` stand in no
program). -/
def indispensable : List Token :=
  [.plus, .asterisk, .minus, .colon, .doubleArrow, .ampersand, .at_, .openBracket, .closeBracket, .openParen, .closeParen,
   .openBrace, .closeBrace, .stringLiteral []] ++ needed

/-- The kinds of tokens that may be left out unnoticed. -/
def dispensable : List Token :=
  [.semicolon, .dot, .pipe, .comma, .arrow, .equals, .leftArrow, .colonEquals, .underscore, .eventType, .byStr,
   .byStrWithSize [], .number [], .hexNumber [], .identifier [], .specialIdentifier [], .customIdentifier [],
   .templateIdentifier []] ++ idle

/-- The kinds of tokens that may be written twice unnoticed: wildcards, types that are one word, and names. -/
def repeatable : List Token :=
  [.underscore, .eventType, .byStr, .byStrWithSize [], .identifier [], .specialIdentifier [], .customIdentifier [],
   .templateIdentifier []]

end Verif
