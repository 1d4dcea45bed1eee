import Verif.Model.Contract
/-
The `{:?}` renderings (`#[derive(Debug)]`) of the types of the crate, and the texts of the errors that contain them:
the `ParseError` of lalrpop-util 0.20 (error.rs 22-31) and the errors of the emitter (emitter.rs 26-75).

Two things remain parameters: the escapes of non-ASCII characters in `{:?}` of a string (`esc`; Rust writes the
character itself or `\\u{..}` according to Unicode tables) and the list of expected terminals in a syntax error
(`expected`; it depends on the generated LR tables, as a function of the kinds of the tokens read).
-/
namespace Verif

/-- hexadecimal digits, lower case (`{:x}`; std, used by `{:?}` at error.rs 29) -/
def hexDigits (n : Nat) : Str := Nat.toDigits 16 n

/-- `char::escape_debug_ext` as used by `Debug for str`: the quote `'` is not escaped (core::char, used by `{:?}` at error.rs 29) -/
def debugChar (esc : Char → Str) (c : Char) : Str :=
  if c = '\x00' then ['\\', '0']
  else if c = '\t' then ['\\', 't']
  else if c = '\r' then ['\\', 'r']
  else if c = '\n' then ['\\', 'n']
  else if c = '"' then ['\\', '"']
  else if c = '\\' then ['\\', '\\']
  else if c.toNat < 32 ∨ c.toNat = 127 then ['\\', 'u', '{'] ++ hexDigits c.toNat ++ ['}']
  else if c.toNat < 128 then [c]
  else esc c

section
variable (esc : Char → Str)

/-- `Debug for str` (core::fmt, used by `{:?}` at error.rs 29 and emitter.rs 31-36) -/
def debugStr (s : Str) : Str := '"' :: (s.flatMap (debugChar esc) ++ ['"'])

/-- the items of a list, separated by `, ` (core::fmt::builders, `{:?}` of `Vec`) -/
def joined : List Str → Str
  | [] => []
  | [a] => a
  | a :: b :: l => a ++ (str! ", " ++ joined (b :: l))

/-- `Debug for Vec<T>`, given the renderings of the elements (core::fmt::builders) -/
def debugVec (l : List Str) : Str := str! "[" ++ joined l ++ str! "]"

/-- `#[derive(Debug)] struct SourcePosition`, lexer.rs 212-217 -/
def Pos.debug (p : Pos) : Str :=
  str! "SourcePosition { position: " ++ (natDigits p.position ++ (str! ", line: " ++ (natDigits p.line ++
    (str! ", column: " ++ (natDigits p.column ++ str! " }")))))

/-- `#[derive(Debug)] enum Token<S>`, lexer.rs 37-104 -/
def Token.debug : Token → Str
  | .plus => str! "Plus"
  | .asterisk => str! "Asterisk"
  | .semicolon => str! "Semicolon"
  | .colon => str! "Colon"
  | .dot => str! "Dot"
  | .pipe => str! "Pipe"
  | .openBracket => str! "OpenBracket"
  | .closeBracket => str! "CloseBracket"
  | .openParen => str! "OpenParen"
  | .closeParen => str! "CloseParen"
  | .openBrace => str! "OpenBrace"
  | .closeBrace => str! "CloseBrace"
  | .comma => str! "Comma"
  | .doubleArrow => str! "DoubleArrow"
  | .arrow => str! "Arrow"
  | .equals => str! "Equals"
  | .ampersand => str! "Ampersand"
  | .leftArrow => str! "LeftArrow"
  | .colonEquals => str! "ColonEquals"
  | .at_ => str! "At"
  | .minus => str! "Minus"
  | .underscore => str! "Underscore"
  | .forall_ => str! "Forall"
  | .builtin => str! "Builtin"
  | .library => str! "Library"
  | .import_ => str! "Import"
  | .let_ => str! "Let"
  | .in_ => str! "In"
  | .match_ => str! "Match"
  | .with_ => str! "With"
  | .end_ => str! "End"
  | .fun_ => str! "Fun"
  | .tfun => str! "Tfun"
  | .contract => str! "Contract"
  | .transition => str! "Transition"
  | .send => str! "Send"
  | .field => str! "Field"
  | .accept => str! "Accept"
  | .exists_ => str! "Exists"
  | .delete => str! "Delete"
  | .throw => str! "Throw"
  | .map => str! "Map"
  | .scillaVersion => str! "ScillaVersion"
  | .type => str! "Type"
  | .of_ => str! "Of"
  | .as_ => str! "As"
  | .procedure => str! "Procedure"
  | .emp => str! "Emp"
  | .event => str! "Event"
  | .eventType => str! "EventType"
  | .byStr => str! "ByStr"
  | .whitespace => str! "Whitespace"
  | .unknown => str! "Unknown"
  | .byStrWithSize s => str! "ByStrWithSize(" ++ debugStr esc s ++ str! ")"
  | .comment s => str! "Comment(" ++ debugStr esc s ++ str! ")"
  | .number s => str! "Number(" ++ debugStr esc s ++ str! ")"
  | .hexNumber s => str! "HexNumber(" ++ debugStr esc s ++ str! ")"
  | .identifier s => str! "Identifier(" ++ debugStr esc s ++ str! ")"
  | .templateIdentifier s => str! "TemplateIdentifier(" ++ debugStr esc s ++ str! ")"
  | .customIdentifier s => str! "CustomIdentifier(" ++ debugStr esc s ++ str! ")"
  | .specialIdentifier s => str! "SpecialIdentifier(" ++ debugStr esc s ++ str! ")"
  | .typeName s => str! "TypeName(" ++ debugStr esc s ++ str! ")"
  | .stringLiteral s => str! "StringLiteral(" ++ debugStr esc s ++ str! ")"

/-- what `lalrpop_util::ParseError` the parser returns; `InvalidToken`, `ExtraToken` and `User` do not occur: the lexer
yields no errors (lexer.rs 180-183) and the tables accept only at the end of the input. -/
inductive SyntaxError where
  /-- `UnrecognizedToken { token, expected }` -/
  | token (t : STok) (expected : List Str)
  /-- `UnrecognizedEof { location, expected }` -/
  | eof (location : Pos) (expected : List Str)

/-- `format!("{:?}", value)`, error.rs 22-31 -/
def SyntaxError.debug : SyntaxError → Str
  | .token t l =>
    str! "UnrecognizedToken { token: (" ++ (t.start.debug ++ (str! ", " ++ (t.tok.debug esc ++ (str! ", " ++
      (t.stop.debug ++ (str! "), expected: " ++ (debugVec (l.map (debugStr esc)) ++ str! " }")))))))
  | .eof p l =>
    str! "UnrecognizedEof { location: " ++ (p.debug ++ (str! ", expected: " ++
      (debugVec (l.map (debugStr esc)) ++ str! " }")))

open Classical in
/-- The error of the generated parser (lalrpop-util 0.20, `state_machine::Parser::parse`), given the tokens it has asked
for: if these can be continued it was the end of the input that was not expected (`location` is the end of the
last token, initially `Default::default()`), otherwise the last of them. -/
noncomputable def syntaxError (expected : List Token → List Str) (ts : List STok) : SyntaxError :=
  if Viable ts then .eof (stopOf ts) (expected (ts.map (·.tok.kind)))
  else
    match ts.getLast? with
    | some t => .token t (expected (ts.map (·.tok.kind)))
    | none => .eof default (expected [])

mutual
/-- `#[derive(Debug)] enum Type`, type.rs 5-39 -/
def Ty.debug : Ty → Str
  | .int32 => str! "Int32"
  | .int64 => str! "Int64"
  | .int128 => str! "Int128"
  | .int256 => str! "Int256"
  | .uint32 => str! "Uint32"
  | .uint64 => str! "Uint64"
  | .uint128 => str! "Uint128"
  | .uint256 => str! "Uint256"
  | .string => str! "String"
  | .bNum => str! "BNum"
  | .bool => str! "Bool"
  | .map k v => str! "Map(" ++ (k.debug ++ (str! ", " ++ (v.debug ++ str! ")")))
  | .option t => str! "Option(" ++ (t.debug ++ str! ")")
  | .list t => str! "List(" ++ (t.debug ++ str! ")")
  | .pair a b => str! "Pair(" ++ (a.debug ++ (str! ", " ++ (b.debug ++ str! ")")))
  | .byStr => str! "ByStr"
  | .byStrX n => str! "ByStrX(" ++ (natDigits n ++ str! ")")
  | .byStr20 => str! "ByStr20"
  | .byStr20With n fs => str! "ByStr20With { type_name: " ++ (debugStr esc n ++ (str! ", fields: FieldList([" ++
      (debugFields fs ++ str! "]) }")))
  | .other s => str! "Other(" ++ (debugStr esc s ++ str! ")")
/-- the elements of a `FieldList`, each `Field { name: .., type: .. }` (`#[derive(Debug)]`, field.rs 3-7, 33-34) -/
def debugFields : List Field → Str
  | [] => []
  | [⟨n, t⟩] => str! "Field { name: " ++ (debugStr esc n ++ (str! ", type: " ++ (t.debug ++ str! " }")))
  | ⟨n, t⟩ :: f :: fs => str! "Field { name: " ++ (debugStr esc n ++ (str! ", type: " ++ (t.debug ++ (str! " }, " ++
      debugFields (f :: fs)))))
end

/-- `#[derive(Debug)] struct FieldList`, field.rs 33-34 -/
def debugFieldList (fs : List Field) : Str := str! "FieldList([" ++ (debugFields esc fs ++ str! "])")

/-- the elements of a `TransitionList`, each `Transition { name: .., params: .. }`, transition.rs 3-7 -/
def debugTransitions : List Transition → Str
  | [] => []
  | [t] => str! "Transition { name: " ++ (debugStr esc t.name ++ (str! ", params: " ++ (debugFieldList esc t.params ++
      str! " }")))
  | t :: u :: ts => str! "Transition { name: " ++ (debugStr esc t.name ++ (str! ", params: " ++
      (debugFieldList esc t.params ++ (str! " }, " ++ debugTransitions (u :: ts)))))

/-- `#[derive(Debug)] struct Contract`, contract.rs 9-21, transition.rs 25-26 -/
def Contract.debug (c : Contract) : Str :=
  str! "Contract { name: " ++ (debugStr esc c.name ++ (str! ", init_params: " ++ (debugFieldList esc c.initParams ++
    (str! ", fields: " ++ (debugFieldList esc c.fields ++ (str! ", transitions: TransitionList([" ++
      (debugTransitions esc c.transitions ++ str! "]) }")))))))

mutual
/-- `#[derive(Debug)] struct SrType`, primitives.rs 41-52 -/
def SrType.debug : SrType → Str
  | .mk m ts a => str! "SrType { main_type: " ++ debugStr esc m ++ str! ", sub_types: [" ++ debugSrTypes ts ++
      str! "], address_type: " ++
      (match a with
        | none => str! "None"
        | some (n, fs) => str! "Some(AddressType { type_name: " ++ debugStr esc n ++ str! ", fields: " ++
            debugFieldList esc fs ++ str! " })") ++ str! " }"
/-- `{:?}` of `Vec<SrType>`, primitives.rs 50 -/
def debugSrTypes : List SrType → Str
  | [] => []
  | [t] => t.debug
  | t :: u :: ts => t.debug ++ str! ", " ++ debugSrTypes (u :: ts)
end

/-- `#[derive(Debug)] enum StackObject`, emitter.rs 10-15; an `SrIdentifier` (primitives.rs 32-39) on the stack has no
`resolved` and `type_reference` and `is_definition` is false. -/
def StackObj.debug : StackObj → Str
  | .ident n k => str! "IrIdentifier(SrIdentifier { unresolved: " ++ debugStr esc n ++
      str! ", resolved: None, type_reference: None, kind: " ++
      (match k with
        | .unknown => str! "Unknown"
        | .componentName => str! "ComponentName") ++ str! ", is_definition: false })"
  | .varDecl f => str! "VariableDeclaration(" ++ debugFields esc [f] ++ str! ")"
  | .typeDef t => str! "TypeDefinition(" ++ t.debug esc ++ str! ")"

end

/-- The model with the error texts of the program (error.rs 28-30, emitter.rs 26-74) -/
noncomputable def Env.real (chars : CharClass) (esc : Char → Str) (expected : List Token → List Str) : Env :=
  ⟨chars, StackObj.debug esc, fun ts => (syntaxError expected ts).debug esc⟩

end Verif
