import Verif.Spec.GrammarFile
import Verif.Model.Parser
/-
The language of the grammar file: which token sequences a list of symbols generates.  This is the textbook
definition for context-free grammars with `X*`, `X+` and `X?`.
-/
namespace Verif

/-- `Gen α w`: the symbols `α` generate the tokens `w` with the productions of parser.lalrpop. -/
inductive Gen : List FSym → List Token → Prop
  | nil : Gen [] []
  | tok {k t : Token} {α : List FSym} {w : List Token} : t.kind = k → Gen α w → Gen (.tok k :: α) (t :: w)
  | non {q : FProd} {α : List FSym} {u w : List Token} : q ∈ grammarFile → Gen q.rhs u → Gen α w →
      Gen (.non q.lhs :: α) (u ++ w)
  | optNone {x : GName} {α : List FSym} {w : List Token} : Gen α w → Gen (.opt x :: α) w
  | optSome {x : GName} {α : List FSym} {u w : List Token} : Gen [.non x] u → Gen α w → Gen (.opt x :: α) (u ++ w)
  | starNil {x : GName} {α : List FSym} {w : List Token} : Gen α w → Gen (.star x :: α) w
  | starCons {x : GName} {α : List FSym} {u w : List Token} : Gen [.non x] u → Gen (.star x :: α) w →
      Gen (.star x :: α) (u ++ w)
  | plus {x : GName} {α : List FSym} {u w : List Token} : Gen [.non x] u → Gen (.star x :: α) w →
      Gen (.plus x :: α) (u ++ w)

/-- the nonterminal of the specification `Derives` that has a name in the file -/
def GName.nt : GName → NT
  | .ByteString => .byteString | .TypeNameIdentifier => .typeName | .ImportedName => .importedName
  | .ImportDeclarations => .importDecls | .MetaIdentifier => .metaId | .VariableIdentifier => .varId
  | .BuiltinArguments => .builtinArgs | .RemainingTypes => .remaining | .FunctionSignature => .funSig
  | .ScillaType => .scillaType | .TypeArgument => .typeArg | .AddressType => .addressType
  | .AddressTypeFieldList => .addressFieldList | .NextAddressTypeField => .nextAddressField
  | .AddressTypeField => .addressField | .TypeMapKey => .mapKey | .TypeMapValue => .mapValue
  | .TypeMapValueArguments => .mapValueArgs | .Program => .program | .LibraryDefinition => .libraryDef
  | .LibrarySingleDefinition => .librarySingle | .TypedIdentifier => .typedId | .TypeAnnotation => .typeAnn
  | .TypeAlternativeClause => .typeAlt | .TypeMapValueAllowingTypeArguments => .mapValueAllowing
  | .ContractTypeArguments => .contractTypeArgs | .FullExpression => .fullExpr
  | .PatternMatchExpressionClause => .pmExprClause | .Pattern => .pattern | .ArgumentPattern => .argPattern
  | .NextMessageEntry => .nextMessage | .MessageEntry => .messageEntry | .AtomicExpression => .atomic
  | .ValueLiteral => .valueLit | .Statement => .statement | .NextStatement => .nextStatement
  | .StatementBlock => .stmtBlock | .BlockchainFetchArguments => .bcFetchArgs | .ComponentId => .componentId
  | .PatternMatchClause => .pmClause | .RemoteFetchStatement => .remoteFetch | .MapAccess => .mapAccess
  | .ParameterPair => .paramPair | .NextParameterPair => .nextParamPair | .ComponentParameters => .compParams
  | .ComponentDefinition => .compDef | .TransitionDefinition => .transDef | .ProcedureDefinition => .procDef
  | .ComponentBody => .compBody | .ContractDefinition => .contractDef | .ContractField => .contractField
  | .WithConstraint => .withConstraint | .HexNumber => .hexNumber | .SignedInteger => .signedInt
  | .RegularId => .regularId | .SpecialId => .specialId | .TypeOrEnumLikeIdentifierId => .customId
  | .TemplateTypeId => .templateId | .StringLiteral => .stringLit

end Verif
