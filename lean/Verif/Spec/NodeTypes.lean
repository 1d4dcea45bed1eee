import Verif.Spec.RustValue
/-
The type declarations of src/ast/nodes.rs as data, written by tools/node_types.py, which reads the file, and which Rust
values are values of these types.
-/
namespace Verif

/-- the types declared in nodes.rs (besides `WithMetaData<T>`) -/
inductive TName where
  | NodeByteStr
  | NodeTypeNameIdentifier
  | NodeImportedName
  | NodeImportDeclarations
  | NodeMetaIdentifier
  | NodeVariableIdentifier
  | NodeBuiltinArguments
  | NodeTypeMapKey
  | NodeTypeMapValue
  | NodeTypeArgument
  | NodeScillaType
  | NodeTypeMapEntry
  | NodeAddressTypeField
  | NodeAddressType
  | NodeFullExpression
  | NodeMessageEntry
  | NodePatternMatchExpressionClause
  | NodeAtomicExpression
  | NodeContractTypeArguments
  | NodeValueLiteral
  | NodeMapAccess
  | NodePattern
  | NodeArgumentPattern
  | NodePatternMatchClause
  | NodeBlockchainFetchArguments
  | NodeStatement
  | NodeRemoteFetchStatement
  | NodeComponentId
  | NodeComponentParameters
  | NodeParameterPair
  | NodeComponentBody
  | NodeStatementBlock
  | NodeTypedIdentifier
  | NodeTypeAnnotation
  | NodeProgram
  | NodeLibraryDefinition
  | NodeLibrarySingleDefinition
  | NodeContractDefinition
  | NodeContractField
  | NodeWithConstraint
  | NodeComponentDefinition
  | NodeProcedureDefinition
  | NodeTransitionDefinition
  | NodeTypeAlternativeClause
  | NodeTypeMapValueArguments
  | NodeTypeMapValueAllowingTypeArguments
  deriving DecidableEq

/-- the types that occur in the declarations (a `Box<T>` is a `T`) -/
inductive RT where
  | string
  | named (t : TName)
  /-- `WithMetaData<T>`, nodes.rs 7-14 -/
  | located (t : RT)
  | vec (t : RT)
  | option (t : RT)
  deriving DecidableEq

/-- a variant of an enumeration (or a structure): its path, the names of its fields (none for a tuple), their types -/
structure Variant where
  path : Str
  fields : List Str
  types : List RT
  deriving DecidableEq

/-- nodes.rs 26-824: the variants of the types, in the order of the declarations -/
def TName.variants : TName → List Variant
  -- 26
  | .NodeByteStr => [⟨str! "NodeByteStr::Constant", [], [.located (.string)]⟩,
      ⟨str! "NodeByteStr::Type", [], [.located (.string)]⟩]
  -- 47
  | .NodeTypeNameIdentifier => [⟨str! "NodeTypeNameIdentifier::ByteStringType", [], [.named .NodeByteStr]⟩,
      ⟨str! "NodeTypeNameIdentifier::EventType", [], []⟩,
      ⟨str! "NodeTypeNameIdentifier::TypeOrEnumLikeIdentifier", [], [.located (.string)]⟩]
  -- 74
  | .NodeImportedName => [⟨str! "NodeImportedName::RegularImport", [], [.located (.named .NodeTypeNameIdentifier)]⟩,
      ⟨str! "NodeImportedName::AliasedImport", [], [.located (.named .NodeTypeNameIdentifier), .located (.named .NodeTypeNameIdentifier)]⟩]
  -- 88
  | .NodeImportDeclarations => [⟨str! "NodeImportDeclarations", [str! "import_list"], [.vec (.located (.named .NodeImportedName))]⟩]
  -- 94
  | .NodeMetaIdentifier => [⟨str! "NodeMetaIdentifier::MetaName", [], [.located (.named .NodeTypeNameIdentifier)]⟩,
      ⟨str! "NodeMetaIdentifier::MetaNameInNamespace", [], [.located (.named .NodeTypeNameIdentifier), .located (.named .NodeTypeNameIdentifier)]⟩,
      ⟨str! "NodeMetaIdentifier::MetaNameInHexspace", [], [.located (.string), .located (.named .NodeTypeNameIdentifier)]⟩,
      ⟨str! "NodeMetaIdentifier::ByteString", [], []⟩]
  -- 132
  | .NodeVariableIdentifier => [⟨str! "NodeVariableIdentifier::VariableName", [], [.located (.string)]⟩,
      ⟨str! "NodeVariableIdentifier::SpecialIdentifier", [], [.located (.string)]⟩,
      ⟨str! "NodeVariableIdentifier::VariableInNamespace", [], [.located (.named .NodeTypeNameIdentifier), .located (.string)]⟩]
  -- 159
  | .NodeBuiltinArguments => [⟨str! "NodeBuiltinArguments", [str! "arguments"], [.vec (.located (.named .NodeVariableIdentifier))]⟩]
  -- 165
  | .NodeTypeMapKey => [⟨str! "NodeTypeMapKey::GenericMapKey", [], [.located (.named .NodeMetaIdentifier)]⟩,
      ⟨str! "NodeTypeMapKey::EnclosedGenericId", [], [.located (.named .NodeMetaIdentifier)]⟩,
      ⟨str! "NodeTypeMapKey::EnclosedAddressMapKeyType", [], [.located (.named .NodeAddressType)]⟩,
      ⟨str! "NodeTypeMapKey::AddressMapKeyType", [], [.located (.named .NodeAddressType)]⟩]
  -- 182
  | .NodeTypeMapValue => [⟨str! "NodeTypeMapValue::MapValueTypeOrEnumLikeIdentifier", [], [.located (.named .NodeMetaIdentifier)]⟩,
      ⟨str! "NodeTypeMapValue::MapKeyValue", [], [.located (.named .NodeTypeMapEntry)]⟩,
      ⟨str! "NodeTypeMapValue::MapValueParenthesizedType", [], [.located (.named .NodeTypeMapValueAllowingTypeArguments)]⟩,
      ⟨str! "NodeTypeMapValue::MapValueAddressType", [], [.located (.named .NodeAddressType)]⟩]
  -- 199
  | .NodeTypeArgument => [⟨str! "NodeTypeArgument::EnclosedTypeArgument", [], [.located (.named .NodeScillaType)]⟩,
      ⟨str! "NodeTypeArgument::GenericTypeArgument", [], [.located (.named .NodeMetaIdentifier)]⟩,
      ⟨str! "NodeTypeArgument::TemplateTypeArgument", [], [.located (.string)]⟩,
      ⟨str! "NodeTypeArgument::AddressTypeArgument", [], [.located (.named .NodeAddressType)]⟩,
      ⟨str! "NodeTypeArgument::MapTypeArgument", [], [.located (.named .NodeTypeMapKey), .located (.named .NodeTypeMapValue)]⟩]
  -- 219
  | .NodeScillaType => [⟨str! "NodeScillaType::GenericTypeWithArgs", [], [.located (.named .NodeMetaIdentifier), .vec (.located (.named .NodeTypeArgument))]⟩,
      ⟨str! "NodeScillaType::MapType", [], [.located (.named .NodeTypeMapKey), .located (.named .NodeTypeMapValue)]⟩,
      ⟨str! "NodeScillaType::FunctionType", [], [.located (.named .NodeScillaType), .located (.named .NodeScillaType)]⟩,
      ⟨str! "NodeScillaType::EnclosedType", [], [.located (.named .NodeScillaType)]⟩,
      ⟨str! "NodeScillaType::ScillaAddresseType", [], [.located (.named .NodeAddressType)]⟩,
      ⟨str! "NodeScillaType::PolyFunctionType", [], [.located (.string), .located (.named .NodeScillaType)]⟩,
      ⟨str! "NodeScillaType::TypeVarType", [], [.located (.string)]⟩]
  -- 251
  | .NodeTypeMapEntry => [⟨str! "NodeTypeMapEntry", [str! "key", str! "value"], [.located (.named .NodeTypeMapKey), .located (.named .NodeTypeMapValue)]⟩]
  -- 258
  | .NodeAddressTypeField => [⟨str! "NodeAddressTypeField", [str! "identifier", str! "type_name"], [.located (.named .NodeVariableIdentifier), .located (.named .NodeScillaType)]⟩]
  -- 265
  | .NodeAddressType => [⟨str! "NodeAddressType", [str! "identifier", str! "type_name", str! "address_fields"], [.located (.named .NodeTypeNameIdentifier), .located (.string), .vec (.located (.named .NodeAddressTypeField))]⟩]
  -- 273
  | .NodeFullExpression => [⟨str! "NodeFullExpression::LocalVariableDeclaration", [str! "identifier_name", str! "expression", str! "type_annotation", str! "containing_expression"], [.located (.string), .located (.named .NodeFullExpression), .option (.located (.named .NodeTypeAnnotation)), .located (.named .NodeFullExpression)]⟩,
      ⟨str! "NodeFullExpression::FunctionDeclaration", [str! "identier_value", str! "type_annotation", str! "expression"], [.located (.string), .located (.named .NodeTypeAnnotation), .located (.named .NodeFullExpression)]⟩,
      ⟨str! "NodeFullExpression::FunctionCall", [str! "function_name", str! "argument_list"], [.located (.named .NodeVariableIdentifier), .vec (.located (.named .NodeVariableIdentifier))]⟩,
      ⟨str! "NodeFullExpression::ExpressionAtomic", [], [.located (.named .NodeAtomicExpression)]⟩,
      ⟨str! "NodeFullExpression::ExpressionBuiltin", [str! "b", str! "targs", str! "xs"], [.located (.string), .option (.located (.named .NodeContractTypeArguments)), .located (.named .NodeBuiltinArguments)]⟩,
      ⟨str! "NodeFullExpression::Message", [], [.vec (.located (.named .NodeMessageEntry))]⟩,
      ⟨str! "NodeFullExpression::Match", [str! "match_expression", str! "clauses"], [.located (.named .NodeVariableIdentifier), .vec (.located (.named .NodePatternMatchExpressionClause))]⟩,
      ⟨str! "NodeFullExpression::ConstructorCall", [str! "identifier_name", str! "contract_type_arguments", str! "argument_list"], [.located (.named .NodeMetaIdentifier), .option (.located (.named .NodeContractTypeArguments)), .vec (.located (.named .NodeVariableIdentifier))]⟩,
      ⟨str! "NodeFullExpression::TemplateFunction", [str! "identifier_name", str! "expression"], [.located (.string), .located (.named .NodeFullExpression)]⟩,
      ⟨str! "NodeFullExpression::TApp", [str! "identifier_name", str! "type_arguments"], [.located (.named .NodeVariableIdentifier), .vec (.located (.named .NodeTypeArgument))]⟩]
  -- 339
  | .NodeMessageEntry => [⟨str! "NodeMessageEntry::MessageLiteral", [], [.located (.named .NodeVariableIdentifier), .located (.named .NodeValueLiteral)]⟩,
      ⟨str! "NodeMessageEntry::MessageVariable", [], [.located (.named .NodeVariableIdentifier), .located (.named .NodeVariableIdentifier)]⟩]
  -- 357
  | .NodePatternMatchExpressionClause => [⟨str! "NodePatternMatchExpressionClause", [str! "pattern", str! "expression"], [.located (.named .NodePattern), .located (.named .NodeFullExpression)]⟩]
  -- 367
  | .NodeAtomicExpression => [⟨str! "NodeAtomicExpression::AtomicSid", [], [.located (.named .NodeVariableIdentifier)]⟩,
      ⟨str! "NodeAtomicExpression::AtomicLit", [], [.located (.named .NodeValueLiteral)]⟩]
  -- 379
  | .NodeContractTypeArguments => [⟨str! "NodeContractTypeArguments", [str! "type_arguments"], [.vec (.located (.named .NodeTypeArgument))]⟩]
  -- 387
  | .NodeValueLiteral => [⟨str! "NodeValueLiteral::LiteralInt", [], [.located (.named .NodeTypeNameIdentifier), .located (.string)]⟩,
      ⟨str! "NodeValueLiteral::LiteralHex", [], [.located (.string)]⟩,
      ⟨str! "NodeValueLiteral::LiteralString", [], [.located (.string)]⟩,
      ⟨str! "NodeValueLiteral::LiteralEmptyMap", [], [.located (.named .NodeTypeMapKey), .located (.named .NodeTypeMapValue)]⟩]
  -- 405
  | .NodeMapAccess => [⟨str! "NodeMapAccess", [str! "identifier_name"], [.located (.named .NodeVariableIdentifier)]⟩]
  -- 413
  | .NodePattern => [⟨str! "NodePattern::Wildcard", [], []⟩,
      ⟨str! "NodePattern::Binder", [], [.located (.string)]⟩,
      ⟨str! "NodePattern::Constructor", [], [.located (.named .NodeMetaIdentifier), .vec (.located (.named .NodeArgumentPattern))]⟩]
  -- 431
  | .NodeArgumentPattern => [⟨str! "NodeArgumentPattern::WildcardArgument", [], []⟩,
      ⟨str! "NodeArgumentPattern::BinderArgument", [], [.located (.string)]⟩,
      ⟨str! "NodeArgumentPattern::ConstructorArgument", [], [.located (.named .NodeMetaIdentifier)]⟩,
      ⟨str! "NodeArgumentPattern::PatternArgument", [], [.located (.named .NodePattern)]⟩]
  -- 449
  | .NodePatternMatchClause => [⟨str! "NodePatternMatchClause", [str! "pattern_expression", str! "statement_block"], [.located (.named .NodePattern), .option (.located (.named .NodeStatementBlock))]⟩]
  -- 459
  | .NodeBlockchainFetchArguments => [⟨str! "NodeBlockchainFetchArguments", [str! "arguments"], [.vec (.located (.named .NodeVariableIdentifier))]⟩]
  -- 467
  | .NodeStatement => [⟨str! "NodeStatement::Load", [str! "left_hand_side", str! "right_hand_side"], [.located (.string), .located (.named .NodeVariableIdentifier)]⟩,
      ⟨str! "NodeStatement::RemoteFetch", [], [.named .NodeRemoteFetchStatement]⟩,
      ⟨str! "NodeStatement::Store", [str! "left_hand_side", str! "right_hand_side"], [.located (.string), .located (.named .NodeVariableIdentifier)]⟩,
      ⟨str! "NodeStatement::Bind", [str! "left_hand_side", str! "right_hand_side"], [.located (.string), .located (.named .NodeFullExpression)]⟩,
      ⟨str! "NodeStatement::ReadFromBC", [str! "left_hand_side", str! "type_name", str! "arguments"], [.located (.string), .located (.named .NodeTypeNameIdentifier), .option (.named .NodeBlockchainFetchArguments)]⟩,
      ⟨str! "NodeStatement::MapGet", [str! "left_hand_side", str! "keys", str! "right_hand_side"], [.located (.string), .vec (.located (.named .NodeMapAccess)), .located (.string)]⟩,
      ⟨str! "NodeStatement::MapGetExists", [str! "left_hand_side", str! "keys", str! "right_hand_side"], [.located (.string), .vec (.located (.named .NodeMapAccess)), .located (.string)]⟩,
      ⟨str! "NodeStatement::MapUpdate", [str! "left_hand_side", str! "keys", str! "right_hand_side"], [.located (.string), .vec (.located (.named .NodeMapAccess)), .located (.named .NodeVariableIdentifier)]⟩,
      ⟨str! "NodeStatement::MapUpdateDelete", [str! "left_hand_side", str! "keys"], [.located (.string), .vec (.located (.named .NodeMapAccess))]⟩,
      ⟨str! "NodeStatement::Accept", [], []⟩,
      ⟨str! "NodeStatement::Send", [str! "identifier_name"], [.located (.named .NodeVariableIdentifier)]⟩,
      ⟨str! "NodeStatement::CreateEvnt", [str! "identifier_name"], [.located (.named .NodeVariableIdentifier)]⟩,
      ⟨str! "NodeStatement::Throw", [str! "error_variable"], [.option (.located (.named .NodeVariableIdentifier))]⟩,
      ⟨str! "NodeStatement::MatchStmt", [str! "variable", str! "clauses"], [.located (.named .NodeVariableIdentifier), .vec (.located (.named .NodePatternMatchClause))]⟩,
      ⟨str! "NodeStatement::CallProc", [str! "component_id", str! "arguments"], [.located (.named .NodeComponentId), .vec (.located (.named .NodeVariableIdentifier))]⟩,
      ⟨str! "NodeStatement::Iterate", [str! "identifier_name", str! "component_id"], [.located (.named .NodeVariableIdentifier), .located (.named .NodeComponentId)]⟩]
  -- 564
  | .NodeRemoteFetchStatement => [⟨str! "NodeRemoteFetchStatement::ReadStateMutable", [], [.located (.string), .located (.string), .located (.named .NodeVariableIdentifier)]⟩,
      ⟨str! "NodeRemoteFetchStatement::ReadStateMutableSpecialId", [], [.located (.string), .located (.string), .located (.string)]⟩,
      ⟨str! "NodeRemoteFetchStatement::ReadStateMutableMapAccess", [], [.located (.string), .located (.string), .located (.string), .vec (.located (.named .NodeMapAccess))]⟩,
      ⟨str! "NodeRemoteFetchStatement::ReadStateMutableMapAccessExists", [], [.located (.string), .located (.string), .located (.string), .vec (.located (.named .NodeMapAccess))]⟩,
      ⟨str! "NodeRemoteFetchStatement::ReadStateMutableCastAddress", [], [.located (.string), .located (.named .NodeVariableIdentifier), .located (.named .NodeAddressType)]⟩]
  -- 607
  | .NodeComponentId => [⟨str! "NodeComponentId::WithTypeLikeName", [], [.located (.named .NodeTypeNameIdentifier)]⟩,
      ⟨str! "NodeComponentId::WithRegularId", [], [.located (.string)]⟩]
  -- 619
  | .NodeComponentParameters => [⟨str! "NodeComponentParameters", [str! "parameters"], [.vec (.located (.named .NodeParameterPair))]⟩]
  -- 627
  | .NodeParameterPair => [⟨str! "NodeParameterPair", [str! "identifier_with_type"], [.located (.named .NodeTypedIdentifier)]⟩]
  -- 635
  | .NodeComponentBody => [⟨str! "NodeComponentBody", [str! "statement_block"], [.option (.located (.named .NodeStatementBlock))]⟩]
  -- 643
  | .NodeStatementBlock => [⟨str! "NodeStatementBlock", [str! "statements"], [.vec (.named .NodeStatement)]⟩]
  -- 651
  | .NodeTypedIdentifier => [⟨str! "NodeTypedIdentifier", [str! "identifier_name", str! "annotation"], [.located (.string), .located (.named .NodeTypeAnnotation)]⟩]
  -- 661
  | .NodeTypeAnnotation => [⟨str! "NodeTypeAnnotation", [str! "type_name"], [.located (.named .NodeScillaType)]⟩]
  -- 669
  | .NodeProgram => [⟨str! "NodeProgram", [str! "version", str! "import_declarations", str! "library_definition", str! "contract_definition"], [.located (.string), .option (.located (.named .NodeImportDeclarations)), .option (.located (.named .NodeLibraryDefinition)), .located (.named .NodeContractDefinition)]⟩]
  -- 683
  | .NodeLibraryDefinition => [⟨str! "NodeLibraryDefinition", [str! "name", str! "definitions"], [.located (.named .NodeTypeNameIdentifier), .vec (.located (.named .NodeLibrarySingleDefinition))]⟩]
  -- 693
  | .NodeLibrarySingleDefinition => [⟨str! "NodeLibrarySingleDefinition::LetDefinition", [str! "variable_name", str! "type_annotation", str! "expression"], [.located (.string), .option (.located (.named .NodeTypeAnnotation)), .located (.named .NodeFullExpression)]⟩,
      ⟨str! "NodeLibrarySingleDefinition::TypeDefinition", [], [.located (.named .NodeTypeNameIdentifier), .option (.vec (.located (.named .NodeTypeAlternativeClause)))]⟩]
  -- 713
  | .NodeContractDefinition => [⟨str! "NodeContractDefinition", [str! "contract_name", str! "parameters", str! "constraint", str! "fields", str! "components"], [.located (.named .NodeTypeNameIdentifier), .located (.named .NodeComponentParameters), .option (.located (.named .NodeWithConstraint)), .vec (.located (.named .NodeContractField)), .vec (.located (.named .NodeComponentDefinition))]⟩]
  -- 729
  | .NodeContractField => [⟨str! "NodeContractField", [str! "typed_identifier", str! "right_hand_side"], [.located (.named .NodeTypedIdentifier), .located (.named .NodeFullExpression)]⟩]
  -- 739
  | .NodeWithConstraint => [⟨str! "NodeWithConstraint", [str! "expression"], [.located (.named .NodeFullExpression)]⟩]
  -- 747
  | .NodeComponentDefinition => [⟨str! "NodeComponentDefinition::TransitionComponent", [], [.located (.named .NodeTransitionDefinition)]⟩,
      ⟨str! "NodeComponentDefinition::ProcedureComponent", [], [.located (.named .NodeProcedureDefinition)]⟩]
  -- 759
  | .NodeProcedureDefinition => [⟨str! "NodeProcedureDefinition", [str! "name", str! "parameters", str! "body"], [.located (.named .NodeComponentId), .located (.named .NodeComponentParameters), .located (.named .NodeComponentBody)]⟩]
  -- 772
  | .NodeTransitionDefinition => [⟨str! "NodeTransitionDefinition", [str! "name", str! "parameters", str! "body"], [.located (.named .NodeComponentId), .located (.named .NodeComponentParameters), .located (.named .NodeComponentBody)]⟩]
  -- 784
  | .NodeTypeAlternativeClause => [⟨str! "NodeTypeAlternativeClause::ClauseType", [], [.located (.named .NodeTypeNameIdentifier)]⟩,
      ⟨str! "NodeTypeAlternativeClause::ClauseTypeWithArgs", [], [.located (.named .NodeTypeNameIdentifier), .vec (.located (.named .NodeTypeArgument))]⟩]
  -- 799
  | .NodeTypeMapValueArguments => [⟨str! "NodeTypeMapValueArguments::EnclosedTypeMapValue", [], [.located (.named .NodeTypeMapValueAllowingTypeArguments)]⟩,
      ⟨str! "NodeTypeMapValueArguments::GenericMapValueArgument", [], [.located (.named .NodeMetaIdentifier)]⟩,
      ⟨str! "NodeTypeMapValueArguments::MapKeyValueType", [], [.located (.named .NodeTypeMapKey), .located (.named .NodeTypeMapValue)]⟩]
  -- 814
  | .NodeTypeMapValueAllowingTypeArguments => [⟨str! "NodeTypeMapValueAllowingTypeArguments::TypeMapValueNoArgs", [], [.located (.named .NodeTypeMapValue)]⟩,
      ⟨str! "NodeTypeMapValueAllowingTypeArguments::TypeMapValueWithArgs", [], [.located (.named .NodeMetaIdentifier), .vec (.located (.named .NodeTypeMapValueArguments))]⟩]

mutual
/-- The value is a value of the type. -/
inductive HasType : RV → RT → Prop where
  | string (x : Str) : HasType (.str x) .string
  | located {v : RV} {t : RT} (start stop : Pos) (h : HasType v t) :
      HasType (.node (str! "WithMetaData") [str! "node", str! "start", str! "end"] [v, .pos start, .pos stop]) (.located t)
  | vec {l : List RV} {t : RT} (h : HasTypeAll l t) : HasType (.vec l) (.vec t)
  | none (t : RT) : HasType .none (.option t)
  | some {v : RV} {t : RT} (h : HasType v t) : HasType (.some v) (.option t)
  | node {t : TName} {c : Variant} {vs : List RV} (hc : c ∈ t.variants) (h : HasTypes vs c.types) :
      HasType (.node c.path c.fields vs) (.named t)

/-- The values are values of the types, in order. -/
inductive HasTypes : List RV → List RT → Prop where
  | nil : HasTypes [] []
  | cons {v : RV} {t : RT} {vs : List RV} {ts : List RT} (h : HasType v t) (hs : HasTypes vs ts) :
      HasTypes (v :: vs) (t :: ts)

/-- The values are all values of the type. -/
inductive HasTypeAll : List RV → RT → Prop where
  | empty (t : RT) : HasTypeAll [] t
  | more {v : RV} {t : RT} {vs : List RV} (h : HasType v t) (hs : HasTypeAll vs t) : HasTypeAll (v :: vs) t
end

end Verif
