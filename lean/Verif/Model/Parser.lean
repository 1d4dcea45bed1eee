import Verif.Spec.Grammar
/-
An executable parser for the grammar of src/parser/parser.lalrpop.

LALRPOP compiles the grammar to an LR(1) automaton that is not part of the repository.  The model
of the generated `ProgramParser` is the recursive-descent parser below (bounded lookahead, no
backtracking); `Props/Parser.lean` proves that it accepts exactly the words derivable by the
published productions and returns the (unique) value of their semantic actions, so its only role is
to make the grammar's language executable.  Error details of the generated parser are not modelled:
rejection is `none`.

Each `pX` cites the productions it implements.
-/
namespace Verif

/-- The terminal a token belongs to: the token with its text erased (the `extern` block,
parser.lalrpop 8-75, maps tokens to terminals ignoring the text). -/
def Token.kind : Token → Token
  | .byStrWithSize _ => .byStrWithSize []
  | .comment _ => .comment []
  | .number _ => .number []
  | .hexNumber _ => .hexNumber []
  | .identifier _ => .identifier []
  | .templateIdentifier _ => .templateIdentifier []
  | .customIdentifier _ => .customIdentifier []
  | .specialIdentifier _ => .specialIdentifier []
  | .typeName _ => .typeName []
  | .stringLiteral _ => .stringLiteral []
  | t => t

/-- Parser state: end of the last consumed token and the remaining tokens (not in the code, see the head of this file; positions as `@R` of parser.lalrpop) -/
structure PS where
  last : Pos
  toks : List STok
deriving DecidableEq, Repr

/-- A parser (see the head of this file; the code is generated from parser.lalrpop) -/
abbrev P (α : Type) := PS → Option (α × PS)

namespace PS
/-- kind of the `i`-th token of lookahead (0-based; terminals of parser.lalrpop 1735-1832) -/
def look (s : PS) (i : Nat) : Option Token := (s.toks[i]?).map fun t => t.tok.kind

/-- the `i`-th token of lookahead is of terminal `k` (terminals of parser.lalrpop 1735-1832) -/
def at? (s : PS) (i : Nat) (k : Token) : Bool := s.look i == some k

/-- the lookahead token is one of `ks` (terminals of parser.lalrpop 1735-1832) -/
def among (s : PS) (i : Nat) (ks : List Token) : Bool :=
  match s.look i with
  | none => false
  | some k => ks.contains k

/-- `WithMetaData` for a production that started in state `s` and ended in state `s'` (e.g. parser.lalrpop 113-117) -/
def wrap {α : Type} (s s' : PS) (x : α) : W α := ⟨x, startOf s.toks, s'.last⟩
end PS

/-- Consume one token of terminal `k` (terminals of parser.lalrpop 1735-1832) -/
def expect (k : Token) : P Unit := fun s =>
  match s.toks with
  | [] => none
  | t :: ts => if t.tok.kind = k then some ((), ⟨t.stop, ts⟩) else none

/-- Consume one token of terminal `k` and return its text with its span (terminals of parser.lalrpop 1735-1832) -/
def textTok (k : Token) : P (W Str) := fun s =>
  match s.toks with
  | [] => none
  | t :: ts => if t.tok.kind = k then some (⟨t.tok.text, t.start, t.stop⟩, ⟨t.stop, ts⟩) else none

/-- Tokens that start a `TypeNameIdentifier` (parser.lalrpop 112-128) -/
def typeNameFirst : List Token := [.byStrWithSize [], .eventType, .customIdentifier []]
/-- Tokens that start a `VariableIdentifier`, parser.lalrpop 249-267 -/
def varFirst : List Token := .identifier [] :: .specialIdentifier [] :: typeNameFirst
/-- Tokens that start a `MetaIdentifier`, parser.lalrpop 209-230 -/
def metaFirst : List Token := .hexNumber [] :: .byStr :: typeNameFirst
/-- Tokens that start a `TypeArgument`, parser.lalrpop 397-428 -/
def typeArgFirst : List Token := .openParen :: .templateIdentifier [] :: .map :: metaFirst
/-- Tokens that start a `ComponentId`, parser.lalrpop 1377-1391 -/
def componentFirst : List Token := .identifier [] :: typeNameFirst
/-- Tokens that start a `Statement`, parser.lalrpop 1239-1310 -/
def statementFirst : List Token :=
  [.delete, .accept, .send, .event, .throw, .match_, .forall_] ++ componentFirst
/-- Tokens that start a `ValueLiteral`, parser.lalrpop 1180-1206 -/
def valueLitFirst : List Token :=
  .hexNumber [] :: .stringLiteral [] :: .emp :: typeNameFirst
/-- Tokens that start `RemainingTypes`, parser.lalrpop 311-342 -/
def remainingFirst : List Token := .forall_ :: typeArgFirst
/-- Tokens that start a `FullExpression`, parser.lalrpop 921-1006 -/
def fullExprFirst : List Token :=
  [.let_, .fun_, .builtin, .openBrace, .match_, .tfun, .at_, .stringLiteral [], .emp] ++
    (.identifier [] :: .specialIdentifier [] :: metaFirst)

/-- FIRST sets: the terminals a nonterminal can start with (of parser.lalrpop 91-1832) -/
def first : NT → List Token
  | .byteString => [.byStrWithSize []]
  | .typeName => typeNameFirst
  | .importedName => typeNameFirst
  | .importDecls => [.import_]
  | .metaId => metaFirst
  | .varId => varFirst
  | .builtinArgs => .openParen :: varFirst
  | .remaining => remainingFirst
  | .funSig => remainingFirst
  | .scillaType => remainingFirst
  | .typeArg => typeArgFirst
  | .addressType => typeNameFirst
  | .addressFieldList => [.field]
  | .nextAddressField => [.comma]
  | .addressField => [.field]
  | .mapKey => .openParen :: metaFirst
  | .mapValue => .openParen :: .map :: metaFirst
  | .mapValueArgs => .openParen :: .map :: metaFirst
  | .program => [.scillaVersion]
  | .libraryDef => [.library]
  | .librarySingle => [.let_, .type]
  | .typedId => [.identifier []]
  | .typeAnn => [.colon]
  | .typeAlt => [.pipe]
  | .mapValueAllowing => .openParen :: .map :: metaFirst
  | .contractTypeArgs => [.openBrace]
  | .fullExpr => fullExprFirst
  | .pmExprClause => [.pipe]
  | .pattern => .underscore :: .identifier [] :: metaFirst
  | .argPattern => .underscore :: .openParen :: .identifier [] :: metaFirst
  | .nextMessage => [.semicolon]
  | .messageEntry => varFirst
  | .atomic => .identifier [] :: .specialIdentifier [] :: valueLitFirst
  | .valueLit => valueLitFirst
  | .statement => statementFirst
  | .nextStatement => [.semicolon]
  | .stmtBlock => statementFirst
  | .bcFetchArgs => [.openParen]
  | .componentId => componentFirst
  | .pmClause => [.pipe]
  | .remoteFetch => [.identifier []]
  | .mapAccess => [.openBracket]
  | .paramPair => [.identifier []]
  | .nextParamPair => [.comma]
  | .compParams => [.openParen]
  | .compDef => [.transition, .procedure]
  | .transDef => [.transition]
  | .procDef => [.procedure]
  | .compBody => .end_ :: statementFirst
  | .contractDef => [.contract]
  | .contractField => [.field]
  | .withConstraint => [.with_]
  | .hexNumber => [.hexNumber []]
  | .signedInt => [.number []]
  | .regularId => [.identifier []]
  | .specialId => [.specialIdentifier []]
  | .customId => [.customIdentifier []]
  | .templateId => [.templateIdentifier []]
  | .stringLit => [.stringLiteral []]
  | .star _ => []
  | .plus n => first n
  | .opt _ => []

/-- A parser for every nonterminal (used for recursive calls; see the head of this file) -/
abbrev Rec := (n : NT) → P (Val n)

/-- lookahead: `TypeNameIdentifier "with"`, i.e. an `AddressType` (parser.lalrpop 446-497) -/
def PS.isAddr (s : PS) : Bool := s.among 0 typeNameFirst && s.at? 1 .with_

/-- lookahead: a `VariableIdentifier` (as opposed to a `MetaIdentifier` or literal; parser.lalrpop 249-267) -/
def PS.isVar (s : PS) : Bool :=
  s.at? 0 (.identifier []) || s.at? 0 (.specialIdentifier []) ||
    (s.among 0 typeNameFirst && s.at? 1 .dot && s.at? 2 (.identifier []))

/-- lookahead: a `ValueLiteral` (as opposed to a `MetaIdentifier`; parser.lalrpop 1180-1206) -/
def PS.isLit (s : PS) : Bool :=
  s.at? 0 (.stringLiteral []) || s.at? 0 .emp ||
    (s.at? 0 (.hexNumber []) && !s.at? 1 .dot) ||
    (s.among 0 typeNameFirst && s.at? 1 (.number []))

section
variable (rec : Rec)

/-- ByteString, parser.lalrpop 91-98 -/
def pByteString : P NodeByteStr := fun s => do
  let (x, s1) ← textTok (.byStrWithSize []) s
  some (.type x, s1)

/-- TypeNameIdentifier, parser.lalrpop 112-128 -/
def pTypeName : P (W NodeTypeNameIdentifier) := fun s =>
  if s.at? 0 (.byStrWithSize []) then do
    let (b, s1) ← rec .byteString s
    some (s.wrap s1 (.byteStringType b), s1)
  else if s.at? 0 .eventType then do
    let (_, s1) ← expect .eventType s
    some (s.wrap s1 .eventType, s1)
  else do
    let (c, s1) ← rec .customId s
    some (s.wrap s1 (.typeOrEnumLikeIdentifier c), s1)

/-- ImportedName, parser.lalrpop 142-154 -/
def pImportedName : P (W NodeImportedName) := fun s => do
  let (n, s1) ← rec .typeName s
  if s1.at? 0 .as_ then
    let (_, s2) ← expect .as_ s1
    let (a, s3) ← rec .typeName s2
    some (s.wrap s3 (.aliasedImport n a), s3)
  else some (s.wrap s1 (.regularImport n), s1)

/-- the left-recursive production of ImportDeclarations, parser.lalrpop 170-183 (parser.lalrpop 169-191) -/
def importLoop : Nat → W NodeImportDeclarations → P (W NodeImportDeclarations)
  | 0, _, _ => none
  | k + 1, prev, s =>
    if s.at? 0 .import_ then do
      let (_, s1) ← expect .import_ s
      let (n, s2) ← rec .importedName s1
      importLoop k (s.wrap s2 ⟨prev.node.importList ++ [n]⟩) s2
    else some (prev, s)

/-- ImportDeclarations, parser.lalrpop 169-191 -/
def pImportDecls : P (W NodeImportDeclarations) := fun s => do
  let (_, s1) ← expect .import_ s
  let (ns, s2) ← rec (.plus .importedName) s1
  importLoop rec (s2.toks.length + 1) (s.wrap s2 ⟨ns⟩) s2

/-- MetaIdentifier, parser.lalrpop 209-230 -/
def pMetaId : P (W NodeMetaIdentifier) := fun s =>
  if s.at? 0 .byStr then do
    let (_, s1) ← expect .byStr s
    some (s.wrap s1 .byteString, s1)
  else if s.at? 0 (.hexNumber []) then do
    let (h, s1) ← rec .hexNumber s
    let (_, s2) ← expect .dot s1
    let (n, s3) ← rec .typeName s2
    some (s.wrap s3 (.metaNameInHexspace h n), s3)
  else do
    let (n, s1) ← rec .typeName s
    if s1.at? 0 .dot then
      let (_, s2) ← expect .dot s1
      let (r, s3) ← rec .typeName s2
      some (s.wrap s3 (.metaNameInNamespace n r), s3)
    else some (s.wrap s1 (.metaName n), s1)

/-- VariableIdentifier, parser.lalrpop 249-267 -/
def pVarId : P (W NodeVariableIdentifier) := fun s =>
  if s.at? 0 (.identifier []) then do
    let (x, s1) ← rec .regularId s
    some (s.wrap s1 (.variableName x), s1)
  else if s.at? 0 (.specialIdentifier []) then do
    let (x, s1) ← rec .specialId s
    some (s.wrap s1 (.specialIdentifier x), s1)
  else do
    let (n, s1) ← rec .typeName s
    let (_, s2) ← expect .dot s1
    let (x, s3) ← rec .regularId s2
    some (s.wrap s3 (.variableInNamespace n x), s3)

/-- BuiltinArguments, parser.lalrpop 280-309 -/
def pBuiltinArgs : P (W NodeBuiltinArguments) := fun s =>
  if s.at? 0 .openParen then do
    let (_, s1) ← expect .openParen s
    let (_, s2) ← expect .closeParen s1
    let (xs, s3) ← rec (.star .varId) s2
    some (s.wrap s3 ⟨xs⟩, s3)
  else do
    let (xs, s1) ← rec (.plus .varId) s
    some (s.wrap s1 ⟨xs⟩, s1)

/-- RemainingTypes, parser.lalrpop 311-342 -/
def pRemaining : P (W NodeScillaType) := fun s =>
  if s.at? 0 .map then do
    let (_, s1) ← expect .map s
    let (k, s2) ← rec .mapKey s1
    let (v, s3) ← rec .mapValue s2
    some (s.wrap s3 (.mapType k v), s3)
  else if s.at? 0 .openParen then do
    let (_, s1) ← expect .openParen s
    let (t, s2) ← rec .scillaType s1
    let (_, s3) ← expect .closeParen s2
    some (s.wrap s3 (.enclosedType t), s3)
  else if s.at? 0 .forall_ then do
    let (_, s1) ← expect .forall_ s
    let (x, s2) ← rec .templateId s1
    let (_, s3) ← expect .dot s2
    let (t, s4) ← rec .remaining s3
    some (s.wrap s4 (.polyFunctionType x t), s4)
  else if s.at? 0 (.templateIdentifier []) then do
    let (x, s1) ← rec .templateId s
    some (s.wrap s1 (.typeVarType x), s1)
  else if s.isAddr then do
    let (a, s1) ← rec .addressType s
    some (s.wrap s1 (.scillaAddresseType a), s1)
  else do
    let (m, s1) ← rec .metaId s
    let (as, s2) ← rec (.star .typeArg) s1
    some (s.wrap s2 (.genericTypeWithArgs m as), s2)

/-- FunctionSignature, parser.lalrpop 344-355 -/
def pFunSig : P (W NodeScillaType) := fun s => do
  let (a, s1) ← rec .remaining s
  let (_, s2) ← expect .arrow s1
  let (b, s3) ← rec .scillaType s2
  some (s.wrap s3 (.functionType a b), s3)

/-- ScillaType, parser.lalrpop 375-378 -/
def pScillaType : P (W NodeScillaType) := fun s => do
  let (a, s1) ← rec .remaining s
  if s1.at? 0 .arrow then
    let (_, s2) ← expect .arrow s1
    let (b, s3) ← rec .scillaType s2
    some (s.wrap s3 (.functionType a b), s3)
  else some (a, s1)

/-- TypeArgument, parser.lalrpop 397-428 -/
def pTypeArg : P (W NodeTypeArgument) := fun s =>
  if s.at? 0 .map then do
    let (_, s1) ← expect .map s
    let (k, s2) ← rec .mapKey s1
    let (v, s3) ← rec .mapValue s2
    some (s.wrap s3 (.mapTypeArgument k v), s3)
  else if s.at? 0 .openParen then do
    let (_, s1) ← expect .openParen s
    let (t, s2) ← rec .scillaType s1
    let (_, s3) ← expect .closeParen s2
    some (s.wrap s3 (.enclosedTypeArgument t), s3)
  else if s.at? 0 (.templateIdentifier []) then do
    let (x, s1) ← rec .templateId s
    some (s.wrap s1 (.templateTypeArgument x), s1)
  else if s.isAddr then do
    let (a, s1) ← rec .addressType s
    some (s.wrap s1 (.addressTypeArgument a), s1)
  else do
    let (m, s1) ← rec .metaId s
    some (s.wrap s1 (.genericTypeArgument m), s1)

/-- AddressType, parser.lalrpop 446-497 -/
def pAddressType : P (W NodeAddressType) := fun s => do
  let (n, s1) ← rec .typeName s
  let (_, s2) ← expect .with_ s1
  if s2.at? 0 .end_ then
    let (_, s3) ← expect .end_ s2
    some (s.wrap s3 (.mk n (s.wrap s3 []) []), s3)
  else if s2.at? 0 .contract then
    let (_, s3) ← expect .contract s2
    let (fs, s4) ← rec (.opt .addressFieldList) s3
    let (_, s5) ← expect .end_ s4
    some (s.wrap s5 (.mk n (s.wrap s5 (str! "contract")) (Option.getD fs [])), s5)
  else if s2.at? 0 .library then
    let (_, s3) ← expect .library s2
    let (_, s4) ← expect .end_ s3
    some (s.wrap s4 (.mk n (s.wrap s4 (str! "library")) []), s4)
  else
    let (sp, s3) ← rec .specialId s2
    let (_, s4) ← expect .end_ s3
    some (s.wrap s4 (.mk n sp []), s4)

/-- AddressTypeFieldList, parser.lalrpop 512-521 -/
def pAddressFieldList : P (List (W NodeAddressTypeField)) := fun s => do
  let (f, s1) ← rec .addressField s
  let (fs, s2) ← rec (.star .nextAddressField) s1
  some (f :: fs, s2)

/-- NextAddressTypeField, parser.lalrpop 523-525 -/
def pNextAddressField : P (W NodeAddressTypeField) := fun s => do
  let (_, s1) ← expect .comma s
  rec .addressField s1

/-- AddressTypeField, parser.lalrpop 527-538 -/
def pAddressField : P (W NodeAddressTypeField) := fun s => do
  let (_, s1) ← expect .field s
  let (i, s2) ← rec .varId s1
  let (_, s3) ← expect .colon s2
  let (t, s4) ← rec .scillaType s3
  some (s.wrap s4 (.mk i t), s4)

/-- TypeMapKey, parser.lalrpop 556-581 -/
def pMapKey : P (W NodeTypeMapKey) := fun s =>
  if s.at? 0 .openParen then do
    let (_, s1) ← expect .openParen s
    if s1.isAddr then
      let (a, s2) ← rec .addressType s1
      let (_, s3) ← expect .closeParen s2
      some (s.wrap s3 (.enclosedAddressMapKeyType a), s3)
    else
      let (m, s2) ← rec .metaId s1
      let (_, s3) ← expect .closeParen s2
      some (s.wrap s3 (.enclosedGenericId m), s3)
  else if s.isAddr then do
    let (a, s1) ← rec .addressType s
    some (s.wrap s1 (.addressMapKeyType a), s1)
  else do
    let (m, s1) ← rec .metaId s
    some (s.wrap s1 (.genericMapKey m), s1)

/-- TypeMapValue, parser.lalrpop 600-627 -/
def pMapValue : P (W NodeTypeMapValue) := fun s =>
  if s.at? 0 .map then do
    let (_, s1) ← expect .map s
    let (k, s2) ← rec .mapKey s1
    let (v, s3) ← rec .mapValue s2
    some (s.wrap s3 (.mapKeyValue (s.wrap s3 (.mk k v))), s3)
  else if s.at? 0 .openParen then do
    let (_, s1) ← expect .openParen s
    let (t, s2) ← rec .mapValueAllowing s1
    let (_, s3) ← expect .closeParen s2
    some (s.wrap s3 (.mapValueParenthesizedType t), s3)
  else if s.isAddr then do
    let (a, s1) ← rec .addressType s
    some (s.wrap s1 (.mapValueAddressType a), s1)
  else do
    let (m, s1) ← rec .metaId s
    some (s.wrap s1 (.mapValueTypeOrEnumLikeIdentifier m), s1)

/-- TypeMapValueArguments, parser.lalrpop 645-661 -/
def pMapValueArgs : P (W NodeTypeMapValueArguments) := fun s =>
  if s.at? 0 .map then do
    let (_, s1) ← expect .map s
    let (k, s2) ← rec .mapKey s1
    let (v, s3) ← rec .mapValue s2
    some (s.wrap s3 (.mapKeyValueType k v), s3)
  else if s.at? 0 .openParen then do
    let (_, s1) ← expect .openParen s
    let (t, s2) ← rec .mapValueAllowing s1
    let (_, s3) ← expect .closeParen s2
    some (s.wrap s3 (.enclosedTypeMapValue t), s3)
  else do
    let (m, s1) ← rec .metaId s
    some (s.wrap s1 (.genericMapValueArgument m), s1)

/-- TypeMapValueAllowingTypeArguments, parser.lalrpop 866-879 -/
def pMapValueAllowing : P (W NodeTypeMapValueAllowingTypeArguments) := fun s =>
  if s.among 0 metaFirst && !s.isAddr then do
    let (m, s1) ← rec .metaId s
    if s1.among 0 (first .mapValueArgs) then
      let (as, s2) ← rec (.plus .mapValueArgs) s1
      some (s.wrap s2 (.typeMapValueWithArgs m as), s2)
    else
      some (s.wrap s1 (.typeMapValueNoArgs (s.wrap s1 (.mapValueTypeOrEnumLikeIdentifier m))), s1)
  else do
    let (v, s1) ← rec .mapValue s
    some (s.wrap s1 (.typeMapValueNoArgs v), s1)

/-- Program, parser.lalrpop 680-687 -/
def pProgram : P NodeProgram := fun s => do
  let (_, s1) ← expect .scillaVersion s
  let (ver, s2) ← rec .signedInt s1
  let (imps, s3) ← rec (.opt .importDecls) s2
  let (lib, s4) ← rec (.opt .libraryDef) s3
  let (c, s5) ← rec .contractDef s4
  some (⟨ver, imps, lib, c⟩, s5)

/-- LibraryDefinition, parser.lalrpop 703-714 -/
def pLibraryDef : P (W NodeLibraryDefinition) := fun s => do
  let (_, s1) ← expect .library s
  let (l, s2) ← rec .typeName s1
  let (ds, s3) ← rec (.star .librarySingle) s2
  some (s.wrap s3 ⟨l, ds⟩, s3)

/-- LibrarySingleDefinition, parser.lalrpop 735-781 -/
def pLibrarySingle : P (W NodeLibrarySingleDefinition) := fun s =>
  if s.at? 0 .let_ then do
    let (_, s1) ← expect .let_ s
    let (x, s2) ← rec .regularId s1
    let (ta, s3) ← rec (.opt .typeAnn) s2
    let (_, s4) ← expect .equals s3
    let (e, s5) ← rec .fullExpr s4
    some (s.wrap s5 (.letDefinition x ta e), s5)
  else do
    let (_, s1) ← expect .type s
    let (n, s2) ← rec .typeName s1
    if s2.at? 0 .equals then
      let (_, s3) ← expect .equals s2
      let (alts, s4) ← rec (.plus .typeAlt) s3
      some (s.wrap s4 (.typeDefinition n (some alts)), s4)
    else some (s.wrap s2 (.typeDefinition n none), s2)

/-- TypedIdentifier, parser.lalrpop 794-802 -/
def pTypedId : P (W NodeTypedIdentifier) := fun s => do
  let (x, s1) ← rec .regularId s
  let (a, s2) ← rec .typeAnn s1
  some (s.wrap s2 ⟨x, a⟩, s2)

/-- TypeAnnotation, parser.lalrpop 815-822 -/
def pTypeAnn : P (W NodeTypeAnnotation) := fun s => do
  let (_, s1) ← expect .colon s
  let (t, s2) ← rec .scillaType s1
  some (s.wrap s2 ⟨t⟩, s2)

/-- TypeAlternativeClause, parser.lalrpop 837-848 -/
def pTypeAlt : P (W NodeTypeAlternativeClause) := fun s => do
  let (_, s1) ← expect .pipe s
  let (n, s2) ← rec .typeName s1
  if s2.at? 0 .of_ then
    let (_, s3) ← expect .of_ s2
    let (as, s4) ← rec (.plus .typeArg) s3
    some (s.wrap s4 (.clauseTypeWithArgs n as), s4)
  else some (s.wrap s2 (.clauseType n), s2)

/-- ContractTypeArguments, parser.lalrpop 890-897 -/
def pContractTypeArgs : P (W NodeContractTypeArguments) := fun s => do
  let (_, s1) ← expect .openBrace s
  let (as, s2) ← rec (.star .typeArg) s1
  let (_, s3) ← expect .closeBrace s2
  some (s.wrap s3 ⟨as⟩, s3)

/-- FullExpression, parser.lalrpop 921-1006 -/
def pFullExpr : P (W NodeFullExpression) := fun s =>
  if s.at? 0 .let_ then do
    let (_, s1) ← expect .let_ s
    let (x, s2) ← rec .regularId s1
    let (ta, s3) ← rec (.opt .typeAnn) s2
    let (_, s4) ← expect .equals s3
    let (e, s5) ← rec .fullExpr s4
    let (_, s6) ← expect .in_ s5
    let (b, s7) ← rec .fullExpr s6
    some (s.wrap s7 (.localVariableDeclaration x e ta b), s7)
  else if s.at? 0 .fun_ then do
    let (_, s1) ← expect .fun_ s
    let (_, s2) ← expect .openParen s1
    let (x, s3) ← rec .regularId s2
    let (ta, s4) ← rec .typeAnn s3
    let (_, s5) ← expect .closeParen s4
    let (_, s6) ← expect .doubleArrow s5
    let (e, s7) ← rec .fullExpr s6
    some (s.wrap s7 (.functionDeclaration x ta e), s7)
  else if s.at? 0 .builtin then do
    let (_, s1) ← expect .builtin s
    let (b, s2) ← rec .regularId s1
    let (ts, s3) ← rec (.opt .contractTypeArgs) s2
    let (xs, s4) ← rec .builtinArgs s3
    some (s.wrap s4 (.expressionBuiltin b ts xs), s4)
  else if s.at? 0 .openBrace then do
    let (_, s1) ← expect .openBrace s
    let (m, s2) ← rec .messageEntry s1
    let (ms, s3) ← rec (.star .nextMessage) s2
    let (_, s4) ← expect .closeBrace s3
    some (s.wrap s4 (.message (m :: ms)), s4)
  else if s.at? 0 .match_ then do
    let (_, s1) ← expect .match_ s
    let (x, s2) ← rec .varId s1
    let (_, s3) ← expect .with_ s2
    let (cs, s4) ← rec (.plus .pmExprClause) s3
    let (_, s5) ← expect .end_ s4
    some (s.wrap s5 (.match_ x cs), s5)
  else if s.at? 0 .tfun then do
    let (_, s1) ← expect .tfun s
    let (x, s2) ← rec .templateId s1
    let (_, s3) ← expect .doubleArrow s2
    let (e, s4) ← rec .fullExpr s3
    some (s.wrap s4 (.templateFunction x e), s4)
  else if s.at? 0 .at_ then do
    let (_, s1) ← expect .at_ s
    let (x, s2) ← rec .varId s1
    let (ts, s3) ← rec (.plus .typeArg) s2
    some (s.wrap s3 (.tApp x ts), s3)
  else if s.isVar then do
    let (f, s1) ← rec .varId s
    if s1.among 0 varFirst then
      let (xs, s2) ← rec (.plus .varId) s1
      some (s.wrap s2 (.functionCall f xs), s2)
    else some (s.wrap s1 (.expressionAtomic (s.wrap s1 (.atomicSid f))), s1)
  else if s.isLit then do
    let (a, s1) ← rec .atomic s
    some (s.wrap s1 (.expressionAtomic a), s1)
  else do
    let (m, s1) ← rec .metaId s
    let (ts, s2) ← rec (.opt .contractTypeArgs) s1
    let (xs, s3) ← rec (.star .varId) s2
    some (s.wrap s3 (.constructorCall m ts xs), s3)

/-- PatternMatchExpressionClause, parser.lalrpop 1021-1027 -/
def pPmExprClause : P (W NodePatternMatchExpressionClause) := fun s => do
  let (_, s1) ← expect .pipe s
  let (p, s2) ← rec .pattern s1
  let (_, s3) ← expect .doubleArrow s2
  let (e, s4) ← rec .fullExpr s3
  some (s.wrap s4 (.mk p e), s4)

/-- Pattern, parser.lalrpop 1044-1063 -/
def pPattern : P (W NodePattern) := fun s =>
  if s.at? 0 .underscore then do
    let (_, s1) ← expect .underscore s
    some (s.wrap s1 .wildcard, s1)
  else if s.at? 0 (.identifier []) then do
    let (x, s1) ← rec .regularId s
    some (s.wrap s1 (.binder x), s1)
  else do
    let (m, s1) ← rec .metaId s
    let (as, s2) ← rec (.star .argPattern) s1
    some (s.wrap s2 (.constructor m as), s2)

/-- ArgumentPattern, parser.lalrpop 1079-1105 -/
def pArgPattern : P (W NodeArgumentPattern) := fun s =>
  if s.at? 0 .underscore then do
    let (_, s1) ← expect .underscore s
    some (s.wrap s1 .wildcardArgument, s1)
  else if s.at? 0 (.identifier []) then do
    let (x, s1) ← rec .regularId s
    some (s.wrap s1 (.binderArgument x), s1)
  else if s.at? 0 .openParen then do
    let (_, s1) ← expect .openParen s
    let (p, s2) ← rec .pattern s1
    let (_, s3) ← expect .closeParen s2
    some (s.wrap s3 (.patternArgument p), s3)
  else do
    let (m, s1) ← rec .metaId s
    some (s.wrap s1 (.constructorArgument m), s1)

/-- NextMessageEntry, parser.lalrpop 1119-1121 -/
def pNextMessage : P (W NodeMessageEntry) := fun s => do
  let (_, s1) ← expect .semicolon s
  rec .messageEntry s1

/-- MessageEntry, parser.lalrpop 1123-1135 -/
def pMessageEntry : P (W NodeMessageEntry) := fun s => do
  let (i, s1) ← rec .varId s
  let (_, s2) ← expect .colon s1
  if s2.isVar then
    let (v, s3) ← rec .varId s2
    some (s.wrap s3 (.messageVariable i v), s3)
  else
    let (v, s3) ← rec .valueLit s2
    some (s.wrap s3 (.messageLiteral i v), s3)

/-- AtomicExpression, parser.lalrpop 1146-1159 -/
def pAtomic : P (W NodeAtomicExpression) := fun s =>
  if s.isVar then do
    let (v, s1) ← rec .varId s
    some (s.wrap s1 (.atomicSid v), s1)
  else do
    let (v, s1) ← rec .valueLit s
    some (s.wrap s1 (.atomicLit v), s1)

/-- ValueLiteral, parser.lalrpop 1180-1206 -/
def pValueLit : P (W NodeValueLiteral) := fun s =>
  if s.at? 0 (.hexNumber []) then do
    let (x, s1) ← rec .hexNumber s
    some (s.wrap s1 (.literalHex x), s1)
  else if s.at? 0 (.stringLiteral []) then do
    let (x, s1) ← rec .stringLit s
    some (s.wrap s1 (.literalString x), s1)
  else if s.at? 0 .emp then do
    let (_, s1) ← expect .emp s
    let (k, s2) ← rec .mapKey s1
    let (v, s3) ← rec .mapValue s2
    some (s.wrap s3 (.literalEmptyMap k v), s3)
  else do
    let (t, s1) ← rec .typeName s
    let (n, s2) ← rec .signedInt s1
    some (s.wrap s2 (.literalInt t n), s2)

/-- Statement, parser.lalrpop 1239-1310 -/
def pStatement : P NodeStatement := fun s =>
  if s.at? 0 .delete then do
    let (_, s1) ← expect .delete s
    let (x, s2) ← rec .regularId s1
    let (ks, s3) ← rec (.plus .mapAccess) s2
    some (.mapUpdateDelete x ks, s3)
  else if s.at? 0 .accept then do
    let (_, s1) ← expect .accept s
    some (.accept, s1)
  else if s.at? 0 .send then do
    let (_, s1) ← expect .send s
    let (v, s2) ← rec .varId s1
    some (.send v, s2)
  else if s.at? 0 .event then do
    let (_, s1) ← expect .event s
    let (v, s2) ← rec .varId s1
    some (.createEvnt v, s2)
  else if s.at? 0 .throw then do
    let (_, s1) ← expect .throw s
    let (v, s2) ← rec (.opt .varId) s1
    some (.throw v, s2)
  else if s.at? 0 .match_ then do
    let (_, s1) ← expect .match_ s
    let (x, s2) ← rec .varId s1
    let (_, s3) ← expect .with_ s2
    let (cs, s4) ← rec (.plus .pmClause) s3
    let (_, s5) ← expect .end_ s4
    some (.matchStmt x cs, s5)
  else if s.at? 0 .forall_ then do
    let (_, s1) ← expect .forall_ s
    let (x, s2) ← rec .varId s1
    let (c, s3) ← rec .componentId s2
    some (.iterate x c, s3)
  else if s.at? 0 (.identifier []) && s.at? 1 .colonEquals then do
    let (x, s1) ← rec .regularId s
    let (_, s2) ← expect .colonEquals s1
    let (v, s3) ← rec .varId s2
    some (.store x v, s3)
  else if s.at? 0 (.identifier []) && s.at? 1 .equals then do
    let (x, s1) ← rec .regularId s
    let (_, s2) ← expect .equals s1
    let (e, s3) ← rec .fullExpr s2
    some (.bind x e, s3)
  else if s.at? 0 (.identifier []) && s.at? 1 .openBracket then do
    let (x, s1) ← rec .regularId s
    let (ks, s2) ← rec (.plus .mapAccess) s1
    let (_, s3) ← expect .colonEquals s2
    let (v, s4) ← rec .varId s3
    some (.mapUpdate x ks v, s4)
  else if s.at? 0 (.identifier []) && s.at? 1 .leftArrow then
    if s.at? 2 .exists_ then do
      let (x, s1) ← rec .regularId s
      let (_, s2) ← expect .leftArrow s1
      let (_, s3) ← expect .exists_ s2
      let (y, s4) ← rec .regularId s3
      let (ks, s5) ← rec (.plus .mapAccess) s4
      some (.mapGetExists x ks y, s5)
    else if s.at? 2 .ampersand then
      if s.among 3 typeNameFirst && !s.at? 4 .dot then do
        let (x, s1) ← rec .regularId s
        let (_, s2) ← expect .leftArrow s1
        let (_, s3) ← expect .ampersand s2
        let (t, s4) ← rec .typeName s3
        let (as, s5) ← rec (.opt .bcFetchArgs) s4
        some (.readFromBC x t as, s5)
      else do
        let (r, s1) ← rec .remoteFetch s
        some (.remoteFetch r, s1)
    else if s.at? 2 (.identifier []) && s.at? 3 .openBracket then do
      let (x, s1) ← rec .regularId s
      let (_, s2) ← expect .leftArrow s1
      let (y, s3) ← rec .regularId s2
      let (ks, s4) ← rec (.plus .mapAccess) s3
      some (.mapGet x ks y, s4)
    else do
      let (x, s1) ← rec .regularId s
      let (_, s2) ← expect .leftArrow s1
      let (v, s3) ← rec .varId s2
      some (.load x v, s3)
  else do
    let (c, s1) ← rec .componentId s
    let (as, s2) ← rec (.star .varId) s1
    some (.callProc c as, s2)

/-- NextStatement, parser.lalrpop 1312-1314 -/
def pNextStatement : P NodeStatement := fun s => do
  let (_, s1) ← expect .semicolon s
  rec .statement s1

/-- StatementBlock, parser.lalrpop 1329-1345 -/
def pStmtBlock : P (W NodeStatementBlock) := fun s => do
  let (st, s1) ← rec .statement s
  let (sts, s2) ← rec (.star .nextStatement) s1
  some (s.wrap s2 (.mk (st :: sts)), s2)

/-- BlockchainFetchArguments, parser.lalrpop 1358-1360 -/
def pBcFetchArgs : P NodeBlockchainFetchArguments := fun s => do
  let (_, s1) ← expect .openParen s
  let (xs, s2) ← rec (.plus .varId) s1
  let (_, s3) ← expect .closeParen s2
  some (⟨xs⟩, s3)

/-- ComponentId, parser.lalrpop 1377-1391 -/
def pComponentId : P (W NodeComponentId) := fun s =>
  if s.at? 0 (.identifier []) then do
    let (x, s1) ← rec .regularId s
    some (s.wrap s1 (.withRegularId x), s1)
  else do
    let (n, s1) ← rec .typeName s
    some (s.wrap s1 (.withTypeLikeName n), s1)

/-- PatternMatchClause, parser.lalrpop 1406-1417 -/
def pPmClause : P (W NodePatternMatchClause) := fun s => do
  let (_, s1) ← expect .pipe s
  let (p, s2) ← rec .pattern s1
  let (_, s3) ← expect .doubleArrow s2
  let (b, s4) ← rec (.opt .stmtBlock) s3
  some (s.wrap s4 (.mk p b), s4)

/-- RemoteFetchStatement, parser.lalrpop 1440-1483 -/
def pRemoteFetch : P NodeRemoteFetchStatement := fun s => do
  let (x, s1) ← rec .regularId s
  let (_, s2) ← expect .leftArrow s1
  let (_, s3) ← expect .ampersand s2
  if s3.at? 0 .exists_ then
    let (_, s4) ← expect .exists_ s3
    let (a, s5) ← rec .regularId s4
    let (_, s6) ← expect .dot s5
    let (m, s7) ← rec .regularId s6
    let (ks, s8) ← rec (.plus .mapAccess) s7
    some (.readStateMutableMapAccessExists x a m ks, s8)
  else if s3.at? 0 (.specialIdentifier []) && s3.at? 1 .dot then
    let (a, s4) ← rec .specialId s3
    let (_, s5) ← expect .dot s4
    let (m, s6) ← rec .specialId s5
    some (.readStateMutableSpecialId x a m, s6)
  else if s3.at? 0 (.identifier []) && s3.at? 1 .dot then
    if s3.at? 2 (.identifier []) && s3.at? 3 .openBracket then
      let (a, s4) ← rec .regularId s3
      let (_, s5) ← expect .dot s4
      let (m, s6) ← rec .regularId s5
      let (ks, s7) ← rec (.plus .mapAccess) s6
      some (.readStateMutableMapAccess x a m ks, s7)
    else
      let (a, s4) ← rec .regularId s3
      let (_, s5) ← expect .dot s4
      let (v, s6) ← rec .varId s5
      some (.readStateMutable x a v, s6)
  else
    let (v, s4) ← rec .varId s3
    let (_, s5) ← expect .as_ s4
    let (a, s6) ← rec .addressType s5
    some (.readStateMutableCastAddress x v a, s6)

/-- MapAccess, parser.lalrpop 1497-1503 -/
def pMapAccess : P (W NodeMapAccess) := fun s => do
  let (_, s1) ← expect .openBracket s
  let (x, s2) ← rec .varId s1
  let (_, s3) ← expect .closeBracket s2
  some (s.wrap s3 ⟨x⟩, s3)

/-- ParameterPair, parser.lalrpop 1516-1525 -/
def pParamPair : P (W NodeParameterPair) := fun s => do
  let (t, s1) ← rec .typedId s
  some (s.wrap s1 ⟨t⟩, s1)

/-- NextParameterPair, parser.lalrpop 1528-1530 -/
def pNextParamPair : P (W NodeParameterPair) := fun s => do
  let (_, s1) ← expect .comma s
  rec .paramPair s1

/-- ComponentParameters, parser.lalrpop 1543-1564 -/
def pCompParams : P (W NodeComponentParameters) := fun s => do
  let (_, s1) ← expect .openParen s
  let (p, s2) ← rec (.opt .paramPair) s1
  let (ps, s3) ← rec (.star .nextParamPair) s2
  let (_, s4) ← expect .closeParen s3
  some (s.wrap s4 ⟨Option.toList p ++ ps⟩, s4)

/-- ComponentDefinition, parser.lalrpop 1577-1590 -/
def pCompDef : P (W NodeComponentDefinition) := fun s =>
  if s.at? 0 .transition then do
    let (d, s1) ← rec .transDef s
    some (s.wrap s1 (.transitionComponent d), s1)
  else do
    let (d, s1) ← rec .procDef s
    some (s.wrap s1 (.procedureComponent d), s1)

/-- TransitionDefinition, parser.lalrpop 1603-1609 -/
def pTransDef : P (W NodeTransitionDefinition) := fun s => do
  let (_, s1) ← expect .transition s
  let (n, s2) ← rec .componentId s1
  let (ps, s3) ← rec .compParams s2
  let (b, s4) ← rec .compBody s3
  some (s.wrap s4 ⟨n, ps, b⟩, s4)

/-- ProcedureDefinition, parser.lalrpop 1623-1633 -/
def pProcDef : P (W NodeProcedureDefinition) := fun s => do
  let (_, s1) ← expect .procedure s
  let (n, s2) ← rec .componentId s1
  let (ps, s3) ← rec .compParams s2
  let (b, s4) ← rec .compBody s3
  some (s.wrap s4 ⟨n, ps, b⟩, s4)

/-- ComponentBody, parser.lalrpop 1646-1653 -/
def pCompBody : P (W NodeComponentBody) := fun s => do
  let (b, s1) ← rec (.opt .stmtBlock) s
  let (_, s2) ← expect .end_ s1
  some (s.wrap s2 ⟨b⟩, s2)

/-- ContractDefinition, parser.lalrpop 1671-1689 -/
def pContractDef : P (W NodeContractDefinition) := fun s => do
  let (_, s1) ← expect .contract s
  let (n, s2) ← rec .typeName s1
  let (ps, s3) ← rec .compParams s2
  let (c, s4) ← rec (.opt .withConstraint) s3
  let (fs, s5) ← rec (.star .contractField) s4
  let (cs, s6) ← rec (.star .compDef) s5
  some (s.wrap s6 ⟨n, ps, c, fs, cs⟩, s6)

/-- ContractField, parser.lalrpop 1705-1711 -/
def pContractField : P (W NodeContractField) := fun s => do
  let (_, s1) ← expect .field s
  let (t, s2) ← rec .typedId s1
  let (_, s3) ← expect .equals s2
  let (e, s4) ← rec .fullExpr s3
  some (s.wrap s4 ⟨t, e⟩, s4)

/-- WithConstraint, parser.lalrpop 1724-1730 -/
def pWithConstraint : P (W NodeWithConstraint) := fun s => do
  let (_, s1) ← expect .with_ s
  let (e, s2) ← rec .fullExpr s1
  let (_, s3) ← expect .doubleArrow s2
  some (s.wrap s3 ⟨e⟩, s3)

/-- `X*` (a macro of LALRPOP, used throughout parser.lalrpop) -/
def pStar (n : NT) : P (List (Val n)) := fun s =>
  if s.among 0 (first n) then do
    let (v, s1) ← rec n s
    let (vs, s2) ← rec (.star n) s1
    some (v :: vs, s2)
  else some ([], s)

/-- `X+` (a macro of LALRPOP, used throughout parser.lalrpop) -/
def pPlus (n : NT) : P (List (Val n)) := fun s => do
  let (v, s1) ← rec n s
  let (vs, s2) ← rec (.star n) s1
  some (v :: vs, s2)

/-- `X?` (a macro of LALRPOP, used throughout parser.lalrpop) -/
def pOpt (n : NT) : P (Option (Val n)) := fun s =>
  if s.among 0 (first n) then do
    let (v, s1) ← rec n s
    some (some v, s1)
  else some (none, s)

/-- One unfolding of the parser (parser.lalrpop 91-1832) -/
def body : (n : NT) → P (Val n)
  | .byteString => pByteString
  | .typeName => pTypeName rec
  | .importedName => pImportedName rec
  | .importDecls => pImportDecls rec
  | .metaId => pMetaId rec
  | .varId => pVarId rec
  | .builtinArgs => pBuiltinArgs rec
  | .remaining => pRemaining rec
  | .funSig => pFunSig rec
  | .scillaType => pScillaType rec
  | .typeArg => pTypeArg rec
  | .addressType => pAddressType rec
  | .addressFieldList => pAddressFieldList rec
  | .nextAddressField => pNextAddressField rec
  | .addressField => pAddressField rec
  | .mapKey => pMapKey rec
  | .mapValue => pMapValue rec
  | .mapValueArgs => pMapValueArgs rec
  | .program => pProgram rec
  | .libraryDef => pLibraryDef rec
  | .librarySingle => pLibrarySingle rec
  | .typedId => pTypedId rec
  | .typeAnn => pTypeAnn rec
  | .typeAlt => pTypeAlt rec
  | .mapValueAllowing => pMapValueAllowing rec
  | .contractTypeArgs => pContractTypeArgs rec
  | .fullExpr => pFullExpr rec
  | .pmExprClause => pPmExprClause rec
  | .pattern => pPattern rec
  | .argPattern => pArgPattern rec
  | .nextMessage => pNextMessage rec
  | .messageEntry => pMessageEntry rec
  | .atomic => pAtomic rec
  | .valueLit => pValueLit rec
  | .statement => pStatement rec
  | .nextStatement => pNextStatement rec
  | .stmtBlock => pStmtBlock rec
  | .bcFetchArgs => pBcFetchArgs rec
  | .componentId => pComponentId rec
  | .pmClause => pPmClause rec
  | .remoteFetch => pRemoteFetch rec
  | .mapAccess => pMapAccess rec
  | .paramPair => pParamPair rec
  | .nextParamPair => pNextParamPair rec
  | .compParams => pCompParams rec
  | .compDef => pCompDef rec
  | .transDef => pTransDef rec
  | .procDef => pProcDef rec
  | .compBody => pCompBody rec
  | .contractDef => pContractDef rec
  | .contractField => pContractField rec
  | .withConstraint => pWithConstraint rec
  | .hexNumber => textTok (.hexNumber [])
  | .signedInt => textTok (.number [])
  | .regularId => textTok (.identifier [])
  | .specialId => textTok (.specialIdentifier [])
  | .customId => textTok (.customIdentifier [])
  | .templateId => textTok (.templateIdentifier [])
  | .stringLit => textTok (.stringLiteral [])
  | .star n => pStar rec n
  | .plus n => pPlus rec n
  | .opt n => pOpt rec n

end

/-- The parser with recursion depth bounded by fuel (parser.lalrpop 91-1832) -/
def parse : Nat → (n : NT) → P (Val n)
  | 0, _ => fun _ => none
  | k + 1, n => body (parse k) n

/-- Fuel that always suffices for a token list (`Proofs/ParserComplete`; not in the code) -/
def parseFuel (toks : List STok) : Nat := 32 * toks.length + 32

/-- `parser::ProgramParser::new().parse(..)` on a token list: the whole list must be consumed (contract.rs 50) -/
def parseProgram (toks : List STok) : Option NodeProgram :=
  match parse (parseFuel toks) .program ⟨default, toks⟩ with
  | some (p, s) => if s.toks = [] then some p else none
  | none => none

/-- The parsers LALRPOP generates for the other public nonterminals (`pub X : T` in parser.lalrpop,
`parser::XParser::new().parse(..)`), on a token list: the whole list must be consumed. -/
def parseAs (n : NT) (toks : List STok) : Option (Val n) :=
  match parse (parseFuel toks) n ⟨default, toks⟩ with
  | some (p, s) => if s.toks = [] then some p else none
  | none => none

end Verif
