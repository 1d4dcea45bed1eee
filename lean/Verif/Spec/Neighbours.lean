import Verif.Model.Parser
/-
Which kinds of token may stand next to each other in a program.  Written by tools/neighbours.py; Props/Neighbours proves
that the tables are exact.  A kind is a token with its text erased.
-/
namespace Verif

/-- for each kind of token, the kinds of token that may follow it -/
def neighbours : List (Token × List Token) :=
  [(.plus,
    []),
   (.asterisk,
    []),
   (.semicolon,
    [.forall_, .match_, .send, .event, .eventType, .accept, .delete, .throw, (.byStrWithSize []), (.identifier []),
     (.specialIdentifier []), (.customIdentifier [])]),
   (.colon,
    [.openParen, .forall_, .eventType, .map, .emp, .byStr, (.byStrWithSize []), (.hexNumber []), (.stringLiteral []),
     (.identifier []), (.specialIdentifier []), (.customIdentifier []), (.templateIdentifier [])]),
   (.dot,
    [.openParen, .forall_, .eventType, .map, .byStr, (.byStrWithSize []), (.hexNumber []), (.identifier []),
     (.specialIdentifier []), (.customIdentifier []), (.templateIdentifier [])]),
   (.pipe,
    [.underscore, .eventType, .byStr, (.byStrWithSize []), (.hexNumber []), (.identifier []), (.customIdentifier [])]),
   (.openBracket,
    [.eventType, (.byStrWithSize []), (.identifier []), (.specialIdentifier []), (.customIdentifier [])]),
   (.closeBracket,
    [.semicolon, .pipe, .openBracket, .colonEquals, .end_]),
   (.openParen,
    [.openParen, .closeParen, .comma, .underscore, .forall_, .eventType, .map, .byStr, (.byStrWithSize []),
     (.hexNumber []), (.identifier []), (.specialIdentifier []), (.customIdentifier []), (.templateIdentifier [])]),
   (.closeParen,
    [.semicolon, .pipe, .openParen, .closeParen, .closeBrace, .comma, .doubleArrow, .arrow, .equals, .underscore,
     .forall_, .let_, .in_, .match_, .with_, .end_, .contract, .transition, .send, .event, .eventType, .field, .accept,
     .delete, .throw, .map, .type, .procedure, .byStr, (.byStrWithSize []), (.hexNumber []), (.identifier []),
     (.specialIdentifier []), (.customIdentifier []), (.templateIdentifier [])]),
   (.openBrace,
    [.openParen, .closeBrace, .eventType, .map, .byStr, (.byStrWithSize []), (.hexNumber []), (.identifier []),
     (.specialIdentifier []), (.customIdentifier []), (.templateIdentifier [])]),
   (.closeBrace,
    [.semicolon, .pipe, .openParen, .doubleArrow, .let_, .in_, .end_, .contract, .transition, .eventType, .field,
     .type, .procedure, (.byStrWithSize []), (.identifier []), (.specialIdentifier []), (.customIdentifier [])]),
   (.comma,
    [.field, (.identifier [])]),
   (.doubleArrow,
    [.pipe, .openBrace, .at_, .forall_, .builtin, .let_, .match_, .end_, .fun_, .tfun, .transition, .send, .event,
     .eventType, .field, .accept, .delete, .throw, .procedure, .emp, .byStr, (.byStrWithSize []), (.hexNumber []),
     (.stringLiteral []), (.identifier []), (.specialIdentifier []), (.customIdentifier [])]),
   (.arrow,
    [.openParen, .forall_, .eventType, .map, .byStr, (.byStrWithSize []), (.hexNumber []), (.customIdentifier []),
     (.templateIdentifier [])]),
   (.equals,
    [.pipe, .openBrace, .at_, .builtin, .let_, .match_, .fun_, .tfun, .eventType, .emp, .byStr, (.byStrWithSize []),
     (.hexNumber []), (.stringLiteral []), (.identifier []), (.specialIdentifier []), (.customIdentifier [])]),
   (.ampersand,
    [.eventType, .exists_, (.byStrWithSize []), (.identifier []), (.specialIdentifier []), (.customIdentifier [])]),
   (.leftArrow,
    [.ampersand, .eventType, .exists_, (.byStrWithSize []), (.identifier []), (.specialIdentifier []),
     (.customIdentifier [])]),
   (.colonEquals,
    [.eventType, (.byStrWithSize []), (.identifier []), (.specialIdentifier []), (.customIdentifier [])]),
   (.at_,
    [.eventType, (.byStrWithSize []), (.identifier []), (.specialIdentifier []), (.customIdentifier [])]),
   (.minus,
    []),
   (.underscore,
    [.openParen, .closeParen, .doubleArrow, .underscore, .eventType, .byStr, (.byStrWithSize []), (.hexNumber []),
     (.identifier []), (.customIdentifier [])]),
   (.forall_,
    [.eventType, (.byStrWithSize []), (.identifier []), (.specialIdentifier []), (.customIdentifier []),
     (.templateIdentifier [])]),
   (.builtin,
    [(.identifier [])]),
   (.library,
    [.end_, .eventType, (.byStrWithSize []), (.customIdentifier [])]),
   (.import_,
    [.eventType, (.byStrWithSize []), (.customIdentifier [])]),
   (.let_,
    [(.identifier [])]),
   (.in_,
    [.openBrace, .at_, .builtin, .let_, .match_, .fun_, .tfun, .eventType, .emp, .byStr, (.byStrWithSize []),
     (.hexNumber []), (.stringLiteral []), (.identifier []), (.specialIdentifier []), (.customIdentifier [])]),
   (.match_,
    [.eventType, (.byStrWithSize []), (.identifier []), (.specialIdentifier []), (.customIdentifier [])]),
   (.with_,
    [.pipe, .openBrace, .at_, .builtin, .library, .let_, .match_, .end_, .fun_, .tfun, .contract, .eventType, .emp,
     .byStr, (.byStrWithSize []), (.hexNumber []), (.stringLiteral []), (.identifier []), (.specialIdentifier []),
     (.customIdentifier [])]),
   (.end_,
    [.semicolon, .pipe, .openParen, .closeParen, .closeBrace, .comma, .doubleArrow, .arrow, .equals, .let_, .in_,
     .end_, .contract, .transition, .eventType, .field, .map, .type, .procedure, .byStr, (.byStrWithSize []),
     (.hexNumber []), (.customIdentifier []), (.templateIdentifier [])]),
   (.fun_,
    [.openParen]),
   (.tfun,
    [(.templateIdentifier [])]),
   (.contract,
    [.end_, .eventType, .field, (.byStrWithSize []), (.customIdentifier [])]),
   (.transition,
    [.eventType, (.byStrWithSize []), (.identifier []), (.customIdentifier [])]),
   (.send,
    [.eventType, (.byStrWithSize []), (.identifier []), (.specialIdentifier []), (.customIdentifier [])]),
   (.event,
    [.eventType, (.byStrWithSize []), (.identifier []), (.specialIdentifier []), (.customIdentifier [])]),
   (.eventType,
    [.semicolon, .dot, .pipe, .openParen, .closeParen, .openBrace, .closeBrace, .comma, .doubleArrow, .arrow, .equals,
     .underscore, .library, .import_, .let_, .in_, .with_, .end_, .contract, .transition, .eventType, .field, .map,
     .type, .of_, .as_, .procedure, .byStr, (.byStrWithSize []), (.number []), (.hexNumber []), (.identifier []),
     (.specialIdentifier []), (.customIdentifier []), (.templateIdentifier [])]),
   (.field,
    [.eventType, (.byStrWithSize []), (.identifier []), (.specialIdentifier []), (.customIdentifier [])]),
   (.accept,
    [.semicolon, .pipe, .end_]),
   (.exists_,
    [(.identifier [])]),
   (.delete,
    [(.identifier [])]),
   (.throw,
    [.semicolon, .pipe, .end_, .eventType, (.byStrWithSize []), (.identifier []), (.specialIdentifier []),
     (.customIdentifier [])]),
   (.map,
    [.openParen, .eventType, .byStr, (.byStrWithSize []), (.hexNumber []), (.customIdentifier [])]),
   (.scillaVersion,
    [(.number [])]),
   (.type,
    [.eventType, (.byStrWithSize []), (.customIdentifier [])]),
   (.of_,
    [.openParen, .eventType, .map, .byStr, (.byStrWithSize []), (.hexNumber []), (.customIdentifier []),
     (.templateIdentifier [])]),
   (.as_,
    [.eventType, (.byStrWithSize []), (.customIdentifier [])]),
   (.procedure,
    [.eventType, (.byStrWithSize []), (.identifier []), (.customIdentifier [])]),
   (.emp,
    [.openParen, .eventType, .byStr, (.byStrWithSize []), (.hexNumber []), (.customIdentifier [])]),
   (.byStr,
    [.semicolon, .pipe, .openParen, .closeParen, .openBrace, .closeBrace, .comma, .doubleArrow, .arrow, .equals,
     .underscore, .let_, .in_, .end_, .contract, .transition, .eventType, .field, .map, .type, .procedure, .byStr,
     (.byStrWithSize []), (.hexNumber []), (.identifier []), (.specialIdentifier []), (.customIdentifier []),
     (.templateIdentifier [])]),
   ((.byStrWithSize []),
    [.semicolon, .dot, .pipe, .openParen, .closeParen, .openBrace, .closeBrace, .comma, .doubleArrow, .arrow, .equals,
     .underscore, .library, .import_, .let_, .in_, .with_, .end_, .contract, .transition, .eventType, .field, .map,
     .type, .of_, .as_, .procedure, .byStr, (.byStrWithSize []), (.number []), (.hexNumber []), (.identifier []),
     (.specialIdentifier []), (.customIdentifier []), (.templateIdentifier [])]),
   ((.number []),
    [.semicolon, .pipe, .closeBrace, .doubleArrow, .library, .import_, .let_, .in_, .end_, .contract, .transition,
     .field, .type, .procedure]),
   ((.hexNumber []),
    [.semicolon, .dot, .pipe, .closeBrace, .doubleArrow, .let_, .in_, .end_, .contract, .transition, .field, .type,
     .procedure]),
   ((.stringLiteral []),
    [.semicolon, .pipe, .closeBrace, .doubleArrow, .let_, .in_, .end_, .contract, .transition, .field, .type, .procedure]),
   ((.identifier []),
    [.semicolon, .colon, .dot, .pipe, .openBracket, .closeBracket, .openParen, .closeParen, .openBrace, .closeBrace,
     .doubleArrow, .equals, .leftArrow, .colonEquals, .underscore, .let_, .in_, .with_, .end_, .contract, .transition,
     .eventType, .field, .map, .type, .as_, .procedure, .byStr, (.byStrWithSize []), (.hexNumber []), (.identifier []),
     (.specialIdentifier []), (.customIdentifier []), (.templateIdentifier [])]),
   ((.specialIdentifier []),
    [.semicolon, .colon, .dot, .pipe, .closeBracket, .openParen, .closeParen, .closeBrace, .doubleArrow, .let_, .in_,
     .with_, .end_, .contract, .transition, .eventType, .field, .map, .type, .as_, .procedure, .byStr,
     (.byStrWithSize []), (.hexNumber []), (.identifier []), (.specialIdentifier []), (.customIdentifier []),
     (.templateIdentifier [])]),
   ((.customIdentifier []),
    [.semicolon, .dot, .pipe, .openParen, .closeParen, .openBrace, .closeBrace, .comma, .doubleArrow, .arrow, .equals,
     .underscore, .library, .import_, .let_, .in_, .with_, .end_, .contract, .transition, .eventType, .field, .map,
     .type, .of_, .as_, .procedure, .byStr, (.byStrWithSize []), (.number []), (.hexNumber []), (.identifier []),
     (.specialIdentifier []), (.customIdentifier []), (.templateIdentifier [])]),
   ((.templateIdentifier []),
    [.semicolon, .dot, .pipe, .openParen, .closeParen, .closeBrace, .comma, .doubleArrow, .arrow, .equals, .let_, .in_,
     .end_, .contract, .transition, .eventType, .field, .map, .type, .procedure, .byStr, (.byStrWithSize []),
     (.hexNumber []), (.customIdentifier []), (.templateIdentifier [])])]

/-- the kinds of token that a program may end with -/
def lastTokens : List Token :=
  [.closeParen, .closeBrace, .doubleArrow, .end_, .eventType, .byStr, (.byStrWithSize []), (.number []),
   (.hexNumber []), (.stringLiteral []), (.identifier []), (.specialIdentifier []), (.customIdentifier []),
   (.templateIdentifier [])]

/-- the token `b` may follow the token `a` -/
def MayFollow (a b : Token) : Prop := ∃ row ∈ neighbours, row.1 = a.kind ∧ b.kind ∈ row.2

instance (a b : Token) : Decidable (MayFollow a b) := inferInstanceAs (Decidable (∃ row ∈ neighbours, _ ∧ _))

end Verif
