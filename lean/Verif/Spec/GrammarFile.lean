import Verif.Model.Token
/-
The grammar file src/parser/parser.lalrpop as data.  Written by tools/grammar_lean.py, which reads the file; the
names of the nonterminals are those of the file.  Dropped: the actions, the names given to symbols, and the position
markers `@L` and `@R` (they derive the empty word).  A terminal is a token with its text erased.
-/
namespace Verif

/-- the nonterminals of parser.lalrpop -/
inductive GName where
  | ByteString | TypeNameIdentifier | ImportedName | ImportDeclarations | MetaIdentifier
  | VariableIdentifier | BuiltinArguments | RemainingTypes | FunctionSignature | ScillaType | TypeArgument
  | AddressType | AddressTypeFieldList | NextAddressTypeField | AddressTypeField | TypeMapKey
  | TypeMapValue | TypeMapValueArguments | Program | LibraryDefinition | LibrarySingleDefinition
  | TypedIdentifier | TypeAnnotation | TypeAlternativeClause | TypeMapValueAllowingTypeArguments
  | ContractTypeArguments | FullExpression | PatternMatchExpressionClause | Pattern | ArgumentPattern
  | NextMessageEntry | MessageEntry | AtomicExpression | ValueLiteral | Statement | NextStatement
  | StatementBlock | BlockchainFetchArguments | ComponentId | PatternMatchClause | RemoteFetchStatement
  | MapAccess | ParameterPair | NextParameterPair | ComponentParameters | ComponentDefinition
  | TransitionDefinition | ProcedureDefinition | ComponentBody | ContractDefinition | ContractField
  | WithConstraint | HexNumber | SignedInteger | RegularId | SpecialId | TypeOrEnumLikeIdentifierId
  | TemplateTypeId | StringLiteral
deriving DecidableEq, Repr

/-- a symbol on the right of a production: a terminal, `X`, `X*`, `X+`, `X?` -/
inductive FSym where
  | tok (t : Token)
  | non (x : GName)
  | star (x : GName)
  | plus (x : GName)
  | opt (x : GName)
deriving DecidableEq, Repr

/-- a production, with the line it starts on -/
structure FProd where
  line : Nat
  lhs : GName
  rhs : List FSym
deriving DecidableEq, Repr

/-- parser.lalrpop 13-74: the terminals, in the order of the file -/
def fileTerminals : List Token :=
  [.plus, .asterisk, .semicolon, .colon, .dot, .pipe, .openBracket, .closeBracket, .openParen, .closeParen,
   .openBrace, .closeBrace, .comma, .doubleArrow, .arrow, .equals, .ampersand, .leftArrow, .colonEquals,
   .at_, .minus, .underscore, .forall_, .builtin, .library, .import_, .let_, .in_, .match_, .with_, .end_,
   .fun_, .tfun, .contract, .transition, .send, .event, .eventType, .field, .accept, .exists_, .delete,
   .throw, .map, .scillaVersion, .type, .of_, .as_, .procedure, .emp, .byStr, (.byStrWithSize []),
   (.number []), (.hexNumber []), (.stringLiteral []), (.identifier []), (.specialIdentifier []),
   (.customIdentifier []), (.templateIdentifier [])]

/-- parser.lalrpop 91-1832: the productions, in the order of the file -/
def grammarFile : List FProd :=
  [⟨92, .ByteString, [.tok (.byStrWithSize [])]⟩,
   ⟨113, .TypeNameIdentifier, [.non .ByteString]⟩,
   ⟨118, .TypeNameIdentifier, [.tok .eventType]⟩,
   ⟨123, .TypeNameIdentifier, [.non .TypeOrEnumLikeIdentifierId]⟩,
   ⟨143, .ImportedName, [.non .TypeNameIdentifier]⟩,
   ⟨148, .ImportedName, [.non .TypeNameIdentifier, .tok .as_, .non .TypeNameIdentifier]⟩,
   ⟨170, .ImportDeclarations, [.non .ImportDeclarations, .tok .import_, .non .ImportedName]⟩,
   ⟨183, .ImportDeclarations, [.tok .import_, .plus .ImportedName]⟩,
   ⟨210, .MetaIdentifier, [.non .TypeNameIdentifier]⟩,
   ⟨215, .MetaIdentifier, [.non .TypeNameIdentifier, .tok .dot, .non .TypeNameIdentifier]⟩,
   ⟨220, .MetaIdentifier, [.non .HexNumber, .tok .dot, .non .TypeNameIdentifier]⟩,
   ⟨225, .MetaIdentifier, [.tok .byStr]⟩,
   ⟨250, .VariableIdentifier, [.non .RegularId]⟩,
   ⟨255, .VariableIdentifier, [.non .SpecialId]⟩,
   ⟨261, .VariableIdentifier, [.non .TypeNameIdentifier, .tok .dot, .non .RegularId]⟩,
   ⟨281, .BuiltinArguments, [.non .BuiltinArguments, .non .VariableIdentifier]⟩,
   ⟨294, .BuiltinArguments, [.non .VariableIdentifier]⟩,
   ⟨301, .BuiltinArguments, [.tok .openParen, .tok .closeParen]⟩,
   ⟨312, .RemainingTypes, [.non .MetaIdentifier, .star .TypeArgument]⟩,
   ⟨317, .RemainingTypes, [.tok .map, .non .TypeMapKey, .non .TypeMapValue]⟩,
   ⟨322, .RemainingTypes, [.tok .openParen, .non .ScillaType, .tok .closeParen]⟩,
   ⟨327, .RemainingTypes, [.non .AddressType]⟩,
   ⟨332, .RemainingTypes, [.tok .forall_, .non .TemplateTypeId, .tok .dot, .non .RemainingTypes]⟩,
   ⟨337, .RemainingTypes, [.non .TemplateTypeId]⟩,
   ⟨345, .FunctionSignature, [.non .RemainingTypes, .tok .arrow, .non .FunctionSignature]⟩,
   ⟨350, .FunctionSignature, [.non .RemainingTypes, .tok .arrow, .non .RemainingTypes]⟩,
   ⟨376, .ScillaType, [.non .FunctionSignature]⟩,
   ⟨377, .ScillaType, [.non .RemainingTypes]⟩,
   ⟨398, .TypeArgument, [.tok .openParen, .non .ScillaType, .tok .closeParen]⟩,
   ⟨404, .TypeArgument, [.non .MetaIdentifier]⟩,
   ⟨410, .TypeArgument, [.non .TemplateTypeId]⟩,
   ⟨416, .TypeArgument, [.non .AddressType]⟩,
   ⟨422, .TypeArgument, [.tok .map, .non .TypeMapKey, .non .TypeMapValue]⟩,
   ⟨447, .AddressType, [.non .TypeNameIdentifier, .tok .with_, .tok .end_]⟩,
   ⟨460, .AddressType, [.non .TypeNameIdentifier, .tok .with_, .tok .contract, .opt .AddressTypeFieldList, .tok .end_]⟩,
   ⟨474, .AddressType, [.non .TypeNameIdentifier, .tok .with_, .tok .library, .tok .end_]⟩,
   ⟨488, .AddressType, [.non .TypeNameIdentifier, .tok .with_, .non .SpecialId, .tok .end_]⟩,
   ⟨513, .AddressTypeFieldList, [.non .AddressTypeField, .star .NextAddressTypeField]⟩,
   ⟨524, .NextAddressTypeField, [.tok .comma, .non .AddressTypeField]⟩,
   ⟨528, .AddressTypeField, [.tok .field, .non .VariableIdentifier, .tok .colon, .non .ScillaType]⟩,
   ⟨557, .TypeMapKey, [.non .MetaIdentifier]⟩,
   ⟨563, .TypeMapKey, [.tok .openParen, .non .MetaIdentifier, .tok .closeParen]⟩,
   ⟨569, .TypeMapKey, [.tok .openParen, .non .AddressType, .tok .closeParen]⟩,
   ⟨575, .TypeMapKey, [.non .AddressType]⟩,
   ⟨601, .TypeMapValue, [.non .MetaIdentifier]⟩,
   ⟨606, .TypeMapValue, [.tok .map, .non .TypeMapKey, .non .TypeMapValue]⟩,
   ⟨617, .TypeMapValue, [.tok .openParen, .non .TypeMapValueAllowingTypeArguments, .tok .closeParen]⟩,
   ⟨622, .TypeMapValue, [.non .AddressType]⟩,
   ⟨646, .TypeMapValueArguments, [.tok .openParen, .non .TypeMapValueAllowingTypeArguments, .tok .closeParen]⟩,
   ⟨652, .TypeMapValueArguments, [.non .MetaIdentifier]⟩,
   ⟨657, .TypeMapValueArguments, [.tok .map, .non .TypeMapKey, .non .TypeMapValue]⟩,
   ⟨681, .Program, [.tok .scillaVersion, .non .SignedInteger, .opt .ImportDeclarations, .opt .LibraryDefinition, .non .ContractDefinition]⟩,
   ⟨704, .LibraryDefinition, [.tok .library, .non .TypeNameIdentifier, .star .LibrarySingleDefinition]⟩,
   ⟨736, .LibrarySingleDefinition, [.tok .let_, .non .RegularId, .opt .TypeAnnotation, .tok .equals, .non .FullExpression]⟩,
   ⟨747, .LibrarySingleDefinition, [.tok .type, .non .TypeNameIdentifier]⟩,
   ⟨752, .LibrarySingleDefinition, [.tok .type, .non .TypeNameIdentifier, .tok .equals, .plus .TypeAlternativeClause]⟩,
   ⟨795, .TypedIdentifier, [.non .RegularId, .non .TypeAnnotation]⟩,
   ⟨816, .TypeAnnotation, [.tok .colon, .non .ScillaType]⟩,
   ⟨838, .TypeAlternativeClause, [.tok .pipe, .non .TypeNameIdentifier]⟩,
   ⟨843, .TypeAlternativeClause, [.tok .pipe, .non .TypeNameIdentifier, .tok .of_, .plus .TypeArgument]⟩,
   ⟨867, .TypeMapValueAllowingTypeArguments, [.non .MetaIdentifier, .plus .TypeMapValueArguments]⟩,
   ⟨873, .TypeMapValueAllowingTypeArguments, [.non .TypeMapValue]⟩,
   ⟨891, .ContractTypeArguments, [.tok .openBrace, .star .TypeArgument, .tok .closeBrace]⟩,
   ⟨922, .FullExpression, [.tok .let_, .non .RegularId, .opt .TypeAnnotation, .tok .equals, .non .FullExpression, .tok .in_, .non .FullExpression]⟩,
   ⟨935, .FullExpression, [.tok .fun_, .tok .openParen, .non .RegularId, .non .TypeAnnotation, .tok .closeParen, .tok .doubleArrow, .non .FullExpression]⟩,
   ⟨945, .FullExpression, [.non .VariableIdentifier, .plus .VariableIdentifier]⟩,
   ⟨954, .FullExpression, [.non .AtomicExpression]⟩,
   ⟨961, .FullExpression, [.tok .builtin, .non .RegularId, .opt .ContractTypeArguments, .non .BuiltinArguments]⟩,
   ⟨967, .FullExpression, [.tok .openBrace, .non .MessageEntry, .star .NextMessageEntry, .tok .closeBrace]⟩,
   ⟨979, .FullExpression, [.tok .match_, .non .VariableIdentifier, .tok .with_, .plus .PatternMatchExpressionClause, .tok .end_]⟩,
   ⟨988, .FullExpression, [.non .MetaIdentifier, .opt .ContractTypeArguments, .star .VariableIdentifier]⟩,
   ⟨995, .FullExpression, [.tok .tfun, .non .TemplateTypeId, .tok .doubleArrow, .non .FullExpression]⟩,
   ⟨1001, .FullExpression, [.tok .at_, .non .VariableIdentifier, .plus .TypeArgument]⟩,
   ⟨1022, .PatternMatchExpressionClause, [.tok .pipe, .non .Pattern, .tok .doubleArrow, .non .FullExpression]⟩,
   ⟨1045, .Pattern, [.tok .underscore]⟩,
   ⟨1051, .Pattern, [.non .RegularId]⟩,
   ⟨1057, .Pattern, [.non .MetaIdentifier, .star .ArgumentPattern]⟩,
   ⟨1080, .ArgumentPattern, [.tok .underscore]⟩,
   ⟨1086, .ArgumentPattern, [.non .RegularId]⟩,
   ⟨1092, .ArgumentPattern, [.non .MetaIdentifier]⟩,
   ⟨1098, .ArgumentPattern, [.tok .openParen, .non .Pattern, .tok .closeParen]⟩,
   ⟨1120, .NextMessageEntry, [.tok .semicolon, .non .MessageEntry]⟩,
   ⟨1124, .MessageEntry, [.non .VariableIdentifier, .tok .colon, .non .ValueLiteral]⟩,
   ⟨1130, .MessageEntry, [.non .VariableIdentifier, .tok .colon, .non .VariableIdentifier]⟩,
   ⟨1147, .AtomicExpression, [.non .VariableIdentifier]⟩,
   ⟨1153, .AtomicExpression, [.non .ValueLiteral]⟩,
   ⟨1181, .ValueLiteral, [.non .TypeNameIdentifier, .non .SignedInteger]⟩,
   ⟨1187, .ValueLiteral, [.non .HexNumber]⟩,
   ⟨1193, .ValueLiteral, [.non .StringLiteral]⟩,
   ⟨1199, .ValueLiteral, [.tok .emp, .non .TypeMapKey, .non .TypeMapValue]⟩,
   ⟨1240, .Statement, [.non .RegularId, .tok .leftArrow, .non .VariableIdentifier]⟩,
   ⟨1245, .Statement, [.non .RemoteFetchStatement]⟩,
   ⟨1246, .Statement, [.non .RegularId, .tok .colonEquals, .non .VariableIdentifier]⟩,
   ⟨1251, .Statement, [.non .RegularId, .tok .equals, .non .FullExpression]⟩,
   ⟨1257, .Statement, [.non .RegularId, .tok .leftArrow, .tok .ampersand, .non .TypeNameIdentifier, .opt .BlockchainFetchArguments]⟩,
   ⟨1263, .Statement, [.non .RegularId, .tok .leftArrow, .non .RegularId, .plus .MapAccess]⟩,
   ⟨1269, .Statement, [.non .RegularId, .tok .leftArrow, .tok .exists_, .non .RegularId, .plus .MapAccess]⟩,
   ⟨1275, .Statement, [.non .RegularId, .plus .MapAccess, .tok .colonEquals, .non .VariableIdentifier]⟩,
   ⟨1281, .Statement, [.tok .delete, .non .RegularId, .plus .MapAccess]⟩,
   ⟨1286, .Statement, [.tok .accept]⟩,
   ⟨1287, .Statement, [.tok .send, .non .VariableIdentifier]⟩,
   ⟨1290, .Statement, [.tok .event, .non .VariableIdentifier]⟩,
   ⟨1293, .Statement, [.tok .throw, .opt .VariableIdentifier]⟩,
   ⟨1296, .Statement, [.tok .match_, .non .VariableIdentifier, .tok .with_, .plus .PatternMatchClause, .tok .end_]⟩,
   ⟨1300, .Statement, [.non .ComponentId, .star .VariableIdentifier]⟩,
   ⟨1305, .Statement, [.tok .forall_, .non .VariableIdentifier, .non .ComponentId]⟩,
   ⟨1313, .NextStatement, [.tok .semicolon, .non .Statement]⟩,
   ⟨1330, .StatementBlock, [.non .Statement, .star .NextStatement]⟩,
   ⟨1359, .BlockchainFetchArguments, [.tok .openParen, .plus .VariableIdentifier, .tok .closeParen]⟩,
   ⟨1378, .ComponentId, [.non .TypeNameIdentifier]⟩,
   ⟨1384, .ComponentId, [.non .RegularId]⟩,
   ⟨1407, .PatternMatchClause, [.tok .pipe, .non .Pattern, .tok .doubleArrow, .opt .StatementBlock]⟩,
   ⟨1441, .RemoteFetchStatement, [.non .RegularId, .tok .leftArrow, .tok .ampersand, .non .RegularId, .tok .dot, .non .VariableIdentifier]⟩,
   ⟨1448, .RemoteFetchStatement, [.non .RegularId, .tok .leftArrow, .tok .ampersand, .non .SpecialId, .tok .dot, .non .SpecialId]⟩,
   ⟨1455, .RemoteFetchStatement, [.non .RegularId, .tok .leftArrow, .tok .ampersand, .non .RegularId, .tok .dot, .non .RegularId, .plus .MapAccess]⟩,
   ⟨1466, .RemoteFetchStatement, [.non .RegularId, .tok .leftArrow, .tok .ampersand, .tok .exists_, .non .RegularId, .tok .dot, .non .RegularId, .plus .MapAccess]⟩,
   ⟨1477, .RemoteFetchStatement, [.non .RegularId, .tok .leftArrow, .tok .ampersand, .non .VariableIdentifier, .tok .as_, .non .AddressType]⟩,
   ⟨1498, .MapAccess, [.tok .openBracket, .non .VariableIdentifier, .tok .closeBracket]⟩,
   ⟨1517, .ParameterPair, [.non .TypedIdentifier]⟩,
   ⟨1529, .NextParameterPair, [.tok .comma, .non .ParameterPair]⟩,
   ⟨1544, .ComponentParameters, [.tok .openParen, .opt .ParameterPair, .star .NextParameterPair, .tok .closeParen]⟩,
   ⟨1578, .ComponentDefinition, [.non .TransitionDefinition]⟩,
   ⟨1584, .ComponentDefinition, [.non .ProcedureDefinition]⟩,
   ⟨1604, .TransitionDefinition, [.tok .transition, .non .ComponentId, .non .ComponentParameters, .non .ComponentBody]⟩,
   ⟨1624, .ProcedureDefinition, [.tok .procedure, .non .ComponentId, .non .ComponentParameters, .non .ComponentBody]⟩,
   ⟨1647, .ComponentBody, [.opt .StatementBlock, .tok .end_]⟩,
   ⟨1672, .ContractDefinition, [.tok .contract, .non .TypeNameIdentifier, .non .ComponentParameters, .opt .WithConstraint, .star .ContractField, .star .ComponentDefinition]⟩,
   ⟨1706, .ContractField, [.tok .field, .non .TypedIdentifier, .tok .equals, .non .FullExpression]⟩,
   ⟨1725, .WithConstraint, [.tok .with_, .non .FullExpression, .tok .doubleArrow]⟩,
   ⟨1736, .HexNumber, [.tok (.hexNumber [])]⟩,
   ⟨1756, .SignedInteger, [.tok (.number [])]⟩,
   ⟨1775, .RegularId, [.tok (.identifier [])]⟩,
   ⟨1791, .SpecialId, [.tok (.specialIdentifier [])]⟩,
   ⟨1810, .TypeOrEnumLikeIdentifierId, [.tok (.customIdentifier [])]⟩,
   ⟨1818, .TemplateTypeId, [.tok (.templateIdentifier [])]⟩,
   ⟨1826, .StringLiteral, [.tok (.stringLiteral [])]⟩]

end Verif
