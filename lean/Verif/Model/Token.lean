import Verif.Model.Basic
/-
Tokens: src/parser/lexer.rs 38-178.
-/
namespace Verif

/-- `enum Token<S>`, src/parser/lexer.rs 38-104 (same constructors, same order; a trailing
underscore avoids Lean keywords). -/
inductive Token where
  | plus
  | asterisk
  | semicolon
  | colon
  | dot
  | pipe
  | openBracket
  | closeBracket
  | openParen
  | closeParen
  | openBrace
  | closeBrace
  | comma
  | doubleArrow
  | arrow
  | equals
  | ampersand
  | leftArrow
  | colonEquals
  | at_
  | minus
  | underscore
  | forall_
  | builtin
  | library
  | import_
  | let_
  | in_
  | match_
  | with_
  | end_
  | fun_
  | tfun
  | contract
  | transition
  | send
  | field
  | accept
  | exists_
  | delete
  | throw
  | map
  | scillaVersion
  | type
  | of_
  | as_
  | procedure
  | emp
  | event
  | eventType
  | byStr
  | byStrWithSize (s : Str)
  | comment (s : Str)
  | number (s : Str)
  | hexNumber (s : Str)
  | identifier (s : Str)
  | templateIdentifier (s : Str)
  | customIdentifier (s : Str)
  | specialIdentifier (s : Str)
  | typeName (s : Str)
  | stringLiteral (s : Str)
  | whitespace
  | unknown
deriving DecidableEq, Repr

/-- A list-of-characters literal. -/
macro "str!" s:str : term => do
  let cs := s.getString.toList.map fun c => Lean.Syntax.mkCharLit c
  let cs : Array (Lean.TSyntax `term) := (cs.map fun c => ⟨c.raw⟩).toArray
  `(([$cs,*] : List Char))

/-- The `KEYWORD_*` constants matched by the lexer, src/parser/lexer.rs 7-34 with the token each
one produces in the match at lines 402-603 (28 keywords; `ByStr` is handled separately). -/
def keywordTable : List (Str × Token) :=
  [(str! "forall", .forall_),
   (str! "builtin", .builtin),
   (str! "library", .library),
   (str! "import", .import_),
   (str! "let", .let_),
   (str! "in", .in_),
   (str! "match", .match_),
   (str! "with", .with_),
   (str! "end", .end_),
   (str! "fun", .fun_),
   (str! "tfun", .tfun),
   (str! "contract", .contract),
   (str! "transition", .transition),
   (str! "send", .send),
   (str! "field", .field),
   (str! "accept", .accept),
   (str! "exists", .exists_),
   (str! "delete", .delete),
   (str! "throw", .throw),
   (str! "Map", .map),
   (str! "scilla_version", .scillaVersion),
   (str! "type", .type),
   (str! "of", .of_),
   (str! "as", .as_),
   (str! "procedure", .procedure),
   (str! "Emp", .emp),
   (str! "event", .event),
   (str! "Event", .eventType)]

/-- `impl From<Token<S>> for String`, src/parser/lexer.rs 106-178. -/
def Token.text : Token → Str
  | .byStrWithSize s => s
  | .comment s => s
  | .number s => s
  | .hexNumber s => s
  | .identifier s => s
  | .templateIdentifier s => s
  | .customIdentifier s => s
  | .specialIdentifier s => s
  | .typeName s => s
  | .stringLiteral s => s
  | .plus => str! "+"
  | .asterisk => str! "*"
  | .semicolon => str! ";"
  | .colon => str! ":"
  | .dot => str! "."
  | .pipe => str! "|"
  | .openBracket => str! "["
  | .closeBracket => str! "]"
  | .openParen => str! "("
  | .closeParen => str! ")"
  | .openBrace => str! "{"
  | .closeBrace => str! "}"
  | .comma => str! ","
  | .doubleArrow => str! "=>"
  | .arrow => str! "->"
  | .equals => str! "="
  | .ampersand => str! "&"
  | .leftArrow => str! "<-"
  | .colonEquals => str! ":="
  | .at_ => str! "@"
  | .minus => str! "-"
  | .underscore => str! "_"
  | .forall_ => str! "forall"
  | .builtin => str! "builtin"
  | .library => str! "library"
  | .import_ => str! "import"
  | .let_ => str! "let"
  | .in_ => str! "in"
  | .match_ => str! "match"
  | .with_ => str! "with"
  | .end_ => str! "end"
  | .fun_ => str! "fun"
  | .tfun => str! "tfun"
  | .contract => str! "contract"
  | .transition => str! "transition"
  | .send => str! "send"
  | .field => str! "field"
  | .accept => str! "accept"
  | .exists_ => str! "exists"
  | .delete => str! "delete"
  | .throw => str! "throw"
  | .map => str! "Map"
  | .scillaVersion => str! "scilla_version"
  | .type => str! "type"
  | .of_ => str! "of"
  | .as_ => str! "as"
  | .procedure => str! "procedure"
  | .emp => str! "Emp"
  | .event => str! "event"
  | .eventType => str! "Event"
  | .byStr => str! "ByStr"
  | .whitespace => str! " "
  | .unknown => str! "?"

/-- One item `(start, token, end)` of the lexer's output (`Spanned`, src/parser/lexer.rs 5).
The `Err` alternative is uninhabited (`ParseError` has no constructors, lines 180-183). -/
structure STok where
  start : Pos
  tok : Token
  stop : Pos
deriving DecidableEq, Repr

end Verif
