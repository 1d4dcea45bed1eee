import Verif.Spec.Keywords
/-
Which tokens cannot be mistaken for any other.  Nothing here refers to the grammar or the parser.
-/
namespace Verif

/-- The kinds of tokens that are noticed when they are written for any other, and when any other is written for them (`+`,
`*` and `-` stand in no program). -/
def unmistakable : List Token :=
  [.plus, .asterisk, .minus, .colon, .comma, .at_, .doubleArrow, .ampersand, .openBracket, .closeBracket, .openParen,
   .closeParen, .openBrace, .closeBrace, .let_, .in_, .match_, .with_, .end_, .fun_, .tfun, .field, .exists_, .delete,
   .scillaVersion, .emp]

/-- Each of these may be written for some other, unnoticed. -/
def mistakable : List Token :=
  [.semicolon, .dot, .pipe, .arrow, .equals, .leftArrow, .colonEquals, .underscore, .forall_, .builtin, .library, .import_,
   .contract, .transition, .send, .event, .eventType, .accept, .throw, .map, .type, .of_, .as_, .procedure, .byStr,
   .byStrWithSize [], .number [], .hexNumber [], .stringLiteral [], .identifier [], .specialIdentifier [],
   .customIdentifier [], .templateIdentifier []]

end Verif
