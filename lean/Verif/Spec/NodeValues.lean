import Verif.Spec.RustValue
/-
The syntax trees of the model as Rust values; written by tools/actions_lean.py from the types in src/ast/nodes.rs.
-/
namespace Verif

/-- `WithMetaData { node, start, end }` -/
def W.rv {α : Type} (f : α → RV) (w : W α) : RV :=
  .node (str! "WithMetaData") [str! "node", str! "start", str! "end"] [f w.node, .pos w.start, .pos w.stop]

def vecRv {α : Type} (f : α → RV) (l : List α) : RV := .vec (l.map f)

def optRv {α : Type} (f : α → RV) : Option α → RV
  | none => .none
  | some x => .some (f x)

/-- nodes.rs 26 -/
def NodeByteStr.rv : NodeByteStr → RV
  | .constant x0 => .node (str! "NodeByteStr::Constant") [] [(W.rv RV.str) x0]
  | .type x0 => .node (str! "NodeByteStr::Type") [] [(W.rv RV.str) x0]

/-- nodes.rs 47 -/
def NodeTypeNameIdentifier.rv : NodeTypeNameIdentifier → RV
  | .byteStringType x0 => .node (str! "NodeTypeNameIdentifier::ByteStringType") [] [NodeByteStr.rv x0]
  | .eventType => .node (str! "NodeTypeNameIdentifier::EventType") [] []
  | .typeOrEnumLikeIdentifier x0 => .node (str! "NodeTypeNameIdentifier::TypeOrEnumLikeIdentifier") [] [(W.rv RV.str) x0]

/-- nodes.rs 74 -/
def NodeImportedName.rv : NodeImportedName → RV
  | .regularImport x0 => .node (str! "NodeImportedName::RegularImport") [] [(W.rv NodeTypeNameIdentifier.rv) x0]
  | .aliasedImport x0 x1 => .node (str! "NodeImportedName::AliasedImport") [] [(W.rv NodeTypeNameIdentifier.rv) x0, (W.rv NodeTypeNameIdentifier.rv) x1]

/-- nodes.rs 88 -/
def NodeImportDeclarations.rv (x : NodeImportDeclarations) : RV :=
  .node (str! "NodeImportDeclarations") [str! "import_list"] [(vecRv (W.rv NodeImportedName.rv)) x.importList]

/-- nodes.rs 94 -/
def NodeMetaIdentifier.rv : NodeMetaIdentifier → RV
  | .metaName x0 => .node (str! "NodeMetaIdentifier::MetaName") [] [(W.rv NodeTypeNameIdentifier.rv) x0]
  | .metaNameInNamespace x0 x1 => .node (str! "NodeMetaIdentifier::MetaNameInNamespace") [] [(W.rv NodeTypeNameIdentifier.rv) x0, (W.rv NodeTypeNameIdentifier.rv) x1]
  | .metaNameInHexspace x0 x1 => .node (str! "NodeMetaIdentifier::MetaNameInHexspace") [] [(W.rv RV.str) x0, (W.rv NodeTypeNameIdentifier.rv) x1]
  | .byteString => .node (str! "NodeMetaIdentifier::ByteString") [] []

/-- nodes.rs 132 -/
def NodeVariableIdentifier.rv : NodeVariableIdentifier → RV
  | .variableName x0 => .node (str! "NodeVariableIdentifier::VariableName") [] [(W.rv RV.str) x0]
  | .specialIdentifier x0 => .node (str! "NodeVariableIdentifier::SpecialIdentifier") [] [(W.rv RV.str) x0]
  | .variableInNamespace x0 x1 => .node (str! "NodeVariableIdentifier::VariableInNamespace") [] [(W.rv NodeTypeNameIdentifier.rv) x0, (W.rv RV.str) x1]

/-- nodes.rs 159 -/
def NodeBuiltinArguments.rv (x : NodeBuiltinArguments) : RV :=
  .node (str! "NodeBuiltinArguments") [str! "arguments"] [(vecRv (W.rv NodeVariableIdentifier.rv)) x.arguments]

mutual
/-- nodes.rs 165 -/
def NodeTypeMapKey.rv : NodeTypeMapKey → RV
  | .genericMapKey x0 => .node (str! "NodeTypeMapKey::GenericMapKey") [] [(W.rv NodeMetaIdentifier.rv) x0]
  | .enclosedGenericId x0 => .node (str! "NodeTypeMapKey::EnclosedGenericId") [] [(W.rv NodeMetaIdentifier.rv) x0]
  | .enclosedAddressMapKeyType x0 => .node (str! "NodeTypeMapKey::EnclosedAddressMapKeyType") [] [wNodeAddressType x0]
  | .addressMapKeyType x0 => .node (str! "NodeTypeMapKey::AddressMapKeyType") [] [wNodeAddressType x0]

/-- nodes.rs 182 -/
def NodeTypeMapValue.rv : NodeTypeMapValue → RV
  | .mapValueTypeOrEnumLikeIdentifier x0 => .node (str! "NodeTypeMapValue::MapValueTypeOrEnumLikeIdentifier") [] [(W.rv NodeMetaIdentifier.rv) x0]
  | .mapKeyValue x0 => .node (str! "NodeTypeMapValue::MapKeyValue") [] [wNodeTypeMapEntry x0]
  | .mapValueParenthesizedType x0 => .node (str! "NodeTypeMapValue::MapValueParenthesizedType") [] [wNodeTypeMapValueAllowingTypeArguments x0]
  | .mapValueAddressType x0 => .node (str! "NodeTypeMapValue::MapValueAddressType") [] [wNodeAddressType x0]

/-- nodes.rs 199 -/
def NodeTypeArgument.rv : NodeTypeArgument → RV
  | .enclosedTypeArgument x0 => .node (str! "NodeTypeArgument::EnclosedTypeArgument") [] [wNodeScillaType x0]
  | .genericTypeArgument x0 => .node (str! "NodeTypeArgument::GenericTypeArgument") [] [(W.rv NodeMetaIdentifier.rv) x0]
  | .templateTypeArgument x0 => .node (str! "NodeTypeArgument::TemplateTypeArgument") [] [(W.rv RV.str) x0]
  | .addressTypeArgument x0 => .node (str! "NodeTypeArgument::AddressTypeArgument") [] [wNodeAddressType x0]
  | .mapTypeArgument x0 x1 => .node (str! "NodeTypeArgument::MapTypeArgument") [] [wNodeTypeMapKey x0, wNodeTypeMapValue x1]

/-- nodes.rs 219 -/
def NodeScillaType.rv : NodeScillaType → RV
  | .genericTypeWithArgs x0 x1 => .node (str! "NodeScillaType::GenericTypeWithArgs") [] [(W.rv NodeMetaIdentifier.rv) x0, .vec (lWNodeTypeArgument x1)]
  | .mapType x0 x1 => .node (str! "NodeScillaType::MapType") [] [wNodeTypeMapKey x0, wNodeTypeMapValue x1]
  | .functionType x0 x1 => .node (str! "NodeScillaType::FunctionType") [] [wNodeScillaType x0, wNodeScillaType x1]
  | .enclosedType x0 => .node (str! "NodeScillaType::EnclosedType") [] [wNodeScillaType x0]
  | .scillaAddresseType x0 => .node (str! "NodeScillaType::ScillaAddresseType") [] [wNodeAddressType x0]
  | .polyFunctionType x0 x1 => .node (str! "NodeScillaType::PolyFunctionType") [] [(W.rv RV.str) x0, wNodeScillaType x1]
  | .typeVarType x0 => .node (str! "NodeScillaType::TypeVarType") [] [(W.rv RV.str) x0]

/-- nodes.rs 251 -/
def NodeTypeMapEntry.rv : NodeTypeMapEntry → RV
  | .mk x0 x1 => .node (str! "NodeTypeMapEntry") [str! "key", str! "value"] [wNodeTypeMapKey x0, wNodeTypeMapValue x1]

/-- nodes.rs 258 -/
def NodeAddressTypeField.rv : NodeAddressTypeField → RV
  | .mk x0 x1 => .node (str! "NodeAddressTypeField") [str! "identifier", str! "type_name"] [(W.rv NodeVariableIdentifier.rv) x0, wNodeScillaType x1]

/-- nodes.rs 265 -/
def NodeAddressType.rv : NodeAddressType → RV
  | .mk x0 x1 x2 => .node (str! "NodeAddressType") [str! "identifier", str! "type_name", str! "address_fields"] [(W.rv NodeTypeNameIdentifier.rv) x0, (W.rv RV.str) x1, .vec (lWNodeAddressTypeField x2)]

/-- nodes.rs 799 -/
def NodeTypeMapValueArguments.rv : NodeTypeMapValueArguments → RV
  | .enclosedTypeMapValue x0 => .node (str! "NodeTypeMapValueArguments::EnclosedTypeMapValue") [] [wNodeTypeMapValueAllowingTypeArguments x0]
  | .genericMapValueArgument x0 => .node (str! "NodeTypeMapValueArguments::GenericMapValueArgument") [] [(W.rv NodeMetaIdentifier.rv) x0]
  | .mapKeyValueType x0 x1 => .node (str! "NodeTypeMapValueArguments::MapKeyValueType") [] [wNodeTypeMapKey x0, wNodeTypeMapValue x1]

/-- nodes.rs 814 -/
def NodeTypeMapValueAllowingTypeArguments.rv : NodeTypeMapValueAllowingTypeArguments → RV
  | .typeMapValueNoArgs x0 => .node (str! "NodeTypeMapValueAllowingTypeArguments::TypeMapValueNoArgs") [] [wNodeTypeMapValue x0]
  | .typeMapValueWithArgs x0 x1 => .node (str! "NodeTypeMapValueAllowingTypeArguments::TypeMapValueWithArgs") [] [(W.rv NodeMetaIdentifier.rv) x0, .vec (lWNodeTypeMapValueArguments x1)]

def wNodeAddressType : W NodeAddressType → RV
  | ⟨n, s, e⟩ => .node (str! "WithMetaData") [str! "node", str! "start", str! "end"] [NodeAddressType.rv n, .pos s, .pos e]

def wNodeTypeMapEntry : W NodeTypeMapEntry → RV
  | ⟨n, s, e⟩ => .node (str! "WithMetaData") [str! "node", str! "start", str! "end"] [NodeTypeMapEntry.rv n, .pos s, .pos e]

def wNodeTypeMapValueAllowingTypeArguments : W NodeTypeMapValueAllowingTypeArguments → RV
  | ⟨n, s, e⟩ => .node (str! "WithMetaData") [str! "node", str! "start", str! "end"] [NodeTypeMapValueAllowingTypeArguments.rv n, .pos s, .pos e]

def wNodeScillaType : W NodeScillaType → RV
  | ⟨n, s, e⟩ => .node (str! "WithMetaData") [str! "node", str! "start", str! "end"] [NodeScillaType.rv n, .pos s, .pos e]

def wNodeTypeMapKey : W NodeTypeMapKey → RV
  | ⟨n, s, e⟩ => .node (str! "WithMetaData") [str! "node", str! "start", str! "end"] [NodeTypeMapKey.rv n, .pos s, .pos e]

def wNodeTypeMapValue : W NodeTypeMapValue → RV
  | ⟨n, s, e⟩ => .node (str! "WithMetaData") [str! "node", str! "start", str! "end"] [NodeTypeMapValue.rv n, .pos s, .pos e]

def lWNodeTypeArgument : List (W NodeTypeArgument) → List RV
  | [] => []
  | x :: l => wNodeTypeArgument x :: lWNodeTypeArgument l

def wNodeTypeArgument : W NodeTypeArgument → RV
  | ⟨n, s, e⟩ => .node (str! "WithMetaData") [str! "node", str! "start", str! "end"] [NodeTypeArgument.rv n, .pos s, .pos e]

def lWNodeAddressTypeField : List (W NodeAddressTypeField) → List RV
  | [] => []
  | x :: l => wNodeAddressTypeField x :: lWNodeAddressTypeField l

def wNodeAddressTypeField : W NodeAddressTypeField → RV
  | ⟨n, s, e⟩ => .node (str! "WithMetaData") [str! "node", str! "start", str! "end"] [NodeAddressTypeField.rv n, .pos s, .pos e]

def lWNodeTypeMapValueArguments : List (W NodeTypeMapValueArguments) → List RV
  | [] => []
  | x :: l => wNodeTypeMapValueArguments x :: lWNodeTypeMapValueArguments l

def wNodeTypeMapValueArguments : W NodeTypeMapValueArguments → RV
  | ⟨n, s, e⟩ => .node (str! "WithMetaData") [str! "node", str! "start", str! "end"] [NodeTypeMapValueArguments.rv n, .pos s, .pos e]
end

/-- nodes.rs 387 -/
def NodeValueLiteral.rv : NodeValueLiteral → RV
  | .literalInt x0 x1 => .node (str! "NodeValueLiteral::LiteralInt") [] [(W.rv NodeTypeNameIdentifier.rv) x0, (W.rv RV.str) x1]
  | .literalHex x0 => .node (str! "NodeValueLiteral::LiteralHex") [] [(W.rv RV.str) x0]
  | .literalString x0 => .node (str! "NodeValueLiteral::LiteralString") [] [(W.rv RV.str) x0]
  | .literalEmptyMap x0 x1 => .node (str! "NodeValueLiteral::LiteralEmptyMap") [] [(W.rv NodeTypeMapKey.rv) x0, (W.rv NodeTypeMapValue.rv) x1]

/-- nodes.rs 367 -/
def NodeAtomicExpression.rv : NodeAtomicExpression → RV
  | .atomicSid x0 => .node (str! "NodeAtomicExpression::AtomicSid") [] [(W.rv NodeVariableIdentifier.rv) x0]
  | .atomicLit x0 => .node (str! "NodeAtomicExpression::AtomicLit") [] [(W.rv NodeValueLiteral.rv) x0]

/-- nodes.rs 379 -/
def NodeContractTypeArguments.rv (x : NodeContractTypeArguments) : RV :=
  .node (str! "NodeContractTypeArguments") [str! "type_arguments"] [(vecRv (W.rv NodeTypeArgument.rv)) x.typeArguments]

/-- nodes.rs 339 -/
def NodeMessageEntry.rv : NodeMessageEntry → RV
  | .messageLiteral x0 x1 => .node (str! "NodeMessageEntry::MessageLiteral") [] [(W.rv NodeVariableIdentifier.rv) x0, (W.rv NodeValueLiteral.rv) x1]
  | .messageVariable x0 x1 => .node (str! "NodeMessageEntry::MessageVariable") [] [(W.rv NodeVariableIdentifier.rv) x0, (W.rv NodeVariableIdentifier.rv) x1]

/-- nodes.rs 661 -/
def NodeTypeAnnotation.rv (x : NodeTypeAnnotation) : RV :=
  .node (str! "NodeTypeAnnotation") [str! "type_name"] [(W.rv NodeScillaType.rv) x.typeName]

mutual
/-- nodes.rs 413 -/
def NodePattern.rv : NodePattern → RV
  | .wildcard => .node (str! "NodePattern::Wildcard") [] []
  | .binder x0 => .node (str! "NodePattern::Binder") [] [(W.rv RV.str) x0]
  | .constructor x0 x1 => .node (str! "NodePattern::Constructor") [] [(W.rv NodeMetaIdentifier.rv) x0, .vec (lWNodeArgumentPattern x1)]

/-- nodes.rs 431 -/
def NodeArgumentPattern.rv : NodeArgumentPattern → RV
  | .wildcardArgument => .node (str! "NodeArgumentPattern::WildcardArgument") [] []
  | .binderArgument x0 => .node (str! "NodeArgumentPattern::BinderArgument") [] [(W.rv RV.str) x0]
  | .constructorArgument x0 => .node (str! "NodeArgumentPattern::ConstructorArgument") [] [(W.rv NodeMetaIdentifier.rv) x0]
  | .patternArgument x0 => .node (str! "NodeArgumentPattern::PatternArgument") [] [wNodePattern x0]

def lWNodeArgumentPattern : List (W NodeArgumentPattern) → List RV
  | [] => []
  | x :: l => wNodeArgumentPattern x :: lWNodeArgumentPattern l

def wNodeArgumentPattern : W NodeArgumentPattern → RV
  | ⟨n, s, e⟩ => .node (str! "WithMetaData") [str! "node", str! "start", str! "end"] [NodeArgumentPattern.rv n, .pos s, .pos e]

def wNodePattern : W NodePattern → RV
  | ⟨n, s, e⟩ => .node (str! "WithMetaData") [str! "node", str! "start", str! "end"] [NodePattern.rv n, .pos s, .pos e]
end

mutual
/-- nodes.rs 273 -/
def NodeFullExpression.rv : NodeFullExpression → RV
  | .localVariableDeclaration x0 x1 x2 x3 => .node (str! "NodeFullExpression::LocalVariableDeclaration") [str! "identifier_name", str! "expression", str! "type_annotation", str! "containing_expression"] [(W.rv RV.str) x0, wNodeFullExpression x1, (optRv (W.rv NodeTypeAnnotation.rv)) x2, wNodeFullExpression x3]
  | .functionDeclaration x0 x1 x2 => .node (str! "NodeFullExpression::FunctionDeclaration") [str! "identier_value", str! "type_annotation", str! "expression"] [(W.rv RV.str) x0, (W.rv NodeTypeAnnotation.rv) x1, wNodeFullExpression x2]
  | .functionCall x0 x1 => .node (str! "NodeFullExpression::FunctionCall") [str! "function_name", str! "argument_list"] [(W.rv NodeVariableIdentifier.rv) x0, (vecRv (W.rv NodeVariableIdentifier.rv)) x1]
  | .expressionAtomic x0 => .node (str! "NodeFullExpression::ExpressionAtomic") [] [(W.rv NodeAtomicExpression.rv) x0]
  | .expressionBuiltin x0 x1 x2 => .node (str! "NodeFullExpression::ExpressionBuiltin") [str! "b", str! "targs", str! "xs"] [(W.rv RV.str) x0, (optRv (W.rv NodeContractTypeArguments.rv)) x1, (W.rv NodeBuiltinArguments.rv) x2]
  | .message x0 => .node (str! "NodeFullExpression::Message") [] [(vecRv (W.rv NodeMessageEntry.rv)) x0]
  | .match_ x0 x1 => .node (str! "NodeFullExpression::Match") [str! "match_expression", str! "clauses"] [(W.rv NodeVariableIdentifier.rv) x0, .vec (lWNodePatternMatchExpressionClause x1)]
  | .constructorCall x0 x1 x2 => .node (str! "NodeFullExpression::ConstructorCall") [str! "identifier_name", str! "contract_type_arguments", str! "argument_list"] [(W.rv NodeMetaIdentifier.rv) x0, (optRv (W.rv NodeContractTypeArguments.rv)) x1, (vecRv (W.rv NodeVariableIdentifier.rv)) x2]
  | .templateFunction x0 x1 => .node (str! "NodeFullExpression::TemplateFunction") [str! "identifier_name", str! "expression"] [(W.rv RV.str) x0, wNodeFullExpression x1]
  | .tApp x0 x1 => .node (str! "NodeFullExpression::TApp") [str! "identifier_name", str! "type_arguments"] [(W.rv NodeVariableIdentifier.rv) x0, (vecRv (W.rv NodeTypeArgument.rv)) x1]

/-- nodes.rs 357 -/
def NodePatternMatchExpressionClause.rv : NodePatternMatchExpressionClause → RV
  | .mk x0 x1 => .node (str! "NodePatternMatchExpressionClause") [str! "pattern", str! "expression"] [(W.rv NodePattern.rv) x0, wNodeFullExpression x1]

def wNodeFullExpression : W NodeFullExpression → RV
  | ⟨n, s, e⟩ => .node (str! "WithMetaData") [str! "node", str! "start", str! "end"] [NodeFullExpression.rv n, .pos s, .pos e]

def lWNodePatternMatchExpressionClause : List (W NodePatternMatchExpressionClause) → List RV
  | [] => []
  | x :: l => wNodePatternMatchExpressionClause x :: lWNodePatternMatchExpressionClause l

def wNodePatternMatchExpressionClause : W NodePatternMatchExpressionClause → RV
  | ⟨n, s, e⟩ => .node (str! "WithMetaData") [str! "node", str! "start", str! "end"] [NodePatternMatchExpressionClause.rv n, .pos s, .pos e]
end

/-- nodes.rs 405 -/
def NodeMapAccess.rv (x : NodeMapAccess) : RV :=
  .node (str! "NodeMapAccess") [str! "identifier_name"] [(W.rv NodeVariableIdentifier.rv) x.identifierName]

/-- nodes.rs 459 -/
def NodeBlockchainFetchArguments.rv (x : NodeBlockchainFetchArguments) : RV :=
  .node (str! "NodeBlockchainFetchArguments") [str! "arguments"] [(vecRv (W.rv NodeVariableIdentifier.rv)) x.arguments]

/-- nodes.rs 607 -/
def NodeComponentId.rv : NodeComponentId → RV
  | .withTypeLikeName x0 => .node (str! "NodeComponentId::WithTypeLikeName") [] [(W.rv NodeTypeNameIdentifier.rv) x0]
  | .withRegularId x0 => .node (str! "NodeComponentId::WithRegularId") [] [(W.rv RV.str) x0]

/-- nodes.rs 564 -/
def NodeRemoteFetchStatement.rv : NodeRemoteFetchStatement → RV
  | .readStateMutable x0 x1 x2 => .node (str! "NodeRemoteFetchStatement::ReadStateMutable") [] [(W.rv RV.str) x0, (W.rv RV.str) x1, (W.rv NodeVariableIdentifier.rv) x2]
  | .readStateMutableSpecialId x0 x1 x2 => .node (str! "NodeRemoteFetchStatement::ReadStateMutableSpecialId") [] [(W.rv RV.str) x0, (W.rv RV.str) x1, (W.rv RV.str) x2]
  | .readStateMutableMapAccess x0 x1 x2 x3 => .node (str! "NodeRemoteFetchStatement::ReadStateMutableMapAccess") [] [(W.rv RV.str) x0, (W.rv RV.str) x1, (W.rv RV.str) x2, (vecRv (W.rv NodeMapAccess.rv)) x3]
  | .readStateMutableMapAccessExists x0 x1 x2 x3 => .node (str! "NodeRemoteFetchStatement::ReadStateMutableMapAccessExists") [] [(W.rv RV.str) x0, (W.rv RV.str) x1, (W.rv RV.str) x2, (vecRv (W.rv NodeMapAccess.rv)) x3]
  | .readStateMutableCastAddress x0 x1 x2 => .node (str! "NodeRemoteFetchStatement::ReadStateMutableCastAddress") [] [(W.rv RV.str) x0, (W.rv NodeVariableIdentifier.rv) x1, (W.rv NodeAddressType.rv) x2]

mutual
/-- nodes.rs 449 -/
def NodePatternMatchClause.rv : NodePatternMatchClause → RV
  | .mk x0 x1 => .node (str! "NodePatternMatchClause") [str! "pattern_expression", str! "statement_block"] [(W.rv NodePattern.rv) x0, oWNodeStatementBlock x1]

/-- nodes.rs 467 -/
def NodeStatement.rv : NodeStatement → RV
  | .load x0 x1 => .node (str! "NodeStatement::Load") [str! "left_hand_side", str! "right_hand_side"] [(W.rv RV.str) x0, (W.rv NodeVariableIdentifier.rv) x1]
  | .remoteFetch x0 => .node (str! "NodeStatement::RemoteFetch") [] [NodeRemoteFetchStatement.rv x0]
  | .store x0 x1 => .node (str! "NodeStatement::Store") [str! "left_hand_side", str! "right_hand_side"] [(W.rv RV.str) x0, (W.rv NodeVariableIdentifier.rv) x1]
  | .bind x0 x1 => .node (str! "NodeStatement::Bind") [str! "left_hand_side", str! "right_hand_side"] [(W.rv RV.str) x0, (W.rv NodeFullExpression.rv) x1]
  | .readFromBC x0 x1 x2 => .node (str! "NodeStatement::ReadFromBC") [str! "left_hand_side", str! "type_name", str! "arguments"] [(W.rv RV.str) x0, (W.rv NodeTypeNameIdentifier.rv) x1, (optRv NodeBlockchainFetchArguments.rv) x2]
  | .mapGet x0 x1 x2 => .node (str! "NodeStatement::MapGet") [str! "left_hand_side", str! "keys", str! "right_hand_side"] [(W.rv RV.str) x0, (vecRv (W.rv NodeMapAccess.rv)) x1, (W.rv RV.str) x2]
  | .mapGetExists x0 x1 x2 => .node (str! "NodeStatement::MapGetExists") [str! "left_hand_side", str! "keys", str! "right_hand_side"] [(W.rv RV.str) x0, (vecRv (W.rv NodeMapAccess.rv)) x1, (W.rv RV.str) x2]
  | .mapUpdate x0 x1 x2 => .node (str! "NodeStatement::MapUpdate") [str! "left_hand_side", str! "keys", str! "right_hand_side"] [(W.rv RV.str) x0, (vecRv (W.rv NodeMapAccess.rv)) x1, (W.rv NodeVariableIdentifier.rv) x2]
  | .mapUpdateDelete x0 x1 => .node (str! "NodeStatement::MapUpdateDelete") [str! "left_hand_side", str! "keys"] [(W.rv RV.str) x0, (vecRv (W.rv NodeMapAccess.rv)) x1]
  | .accept => .node (str! "NodeStatement::Accept") [] []
  | .send x0 => .node (str! "NodeStatement::Send") [str! "identifier_name"] [(W.rv NodeVariableIdentifier.rv) x0]
  | .createEvnt x0 => .node (str! "NodeStatement::CreateEvnt") [str! "identifier_name"] [(W.rv NodeVariableIdentifier.rv) x0]
  | .throw x0 => .node (str! "NodeStatement::Throw") [str! "error_variable"] [(optRv (W.rv NodeVariableIdentifier.rv)) x0]
  | .matchStmt x0 x1 => .node (str! "NodeStatement::MatchStmt") [str! "variable", str! "clauses"] [(W.rv NodeVariableIdentifier.rv) x0, .vec (lWNodePatternMatchClause x1)]
  | .callProc x0 x1 => .node (str! "NodeStatement::CallProc") [str! "component_id", str! "arguments"] [(W.rv NodeComponentId.rv) x0, (vecRv (W.rv NodeVariableIdentifier.rv)) x1]
  | .iterate x0 x1 => .node (str! "NodeStatement::Iterate") [str! "identifier_name", str! "component_id"] [(W.rv NodeVariableIdentifier.rv) x0, (W.rv NodeComponentId.rv) x1]

/-- nodes.rs 643 -/
def NodeStatementBlock.rv : NodeStatementBlock → RV
  | .mk x0 => .node (str! "NodeStatementBlock") [str! "statements"] [.vec (lNodeStatement x0)]

def oWNodeStatementBlock : Option (W NodeStatementBlock) → RV
  | none => .none
  | some x => .some (wNodeStatementBlock x)

def wNodeStatementBlock : W NodeStatementBlock → RV
  | ⟨n, s, e⟩ => .node (str! "WithMetaData") [str! "node", str! "start", str! "end"] [NodeStatementBlock.rv n, .pos s, .pos e]

def lWNodePatternMatchClause : List (W NodePatternMatchClause) → List RV
  | [] => []
  | x :: l => wNodePatternMatchClause x :: lWNodePatternMatchClause l

def wNodePatternMatchClause : W NodePatternMatchClause → RV
  | ⟨n, s, e⟩ => .node (str! "WithMetaData") [str! "node", str! "start", str! "end"] [NodePatternMatchClause.rv n, .pos s, .pos e]

def lNodeStatement : List NodeStatement → List RV
  | [] => []
  | x :: l => NodeStatement.rv x :: lNodeStatement l
end

/-- nodes.rs 651 -/
def NodeTypedIdentifier.rv (x : NodeTypedIdentifier) : RV :=
  .node (str! "NodeTypedIdentifier") [str! "identifier_name", str! "annotation"] [(W.rv RV.str) x.identifierName, (W.rv NodeTypeAnnotation.rv) x.annotation]

/-- nodes.rs 627 -/
def NodeParameterPair.rv (x : NodeParameterPair) : RV :=
  .node (str! "NodeParameterPair") [str! "identifier_with_type"] [(W.rv NodeTypedIdentifier.rv) x.identifierWithType]

/-- nodes.rs 619 -/
def NodeComponentParameters.rv (x : NodeComponentParameters) : RV :=
  .node (str! "NodeComponentParameters") [str! "parameters"] [(vecRv (W.rv NodeParameterPair.rv)) x.parameters]

/-- nodes.rs 635 -/
def NodeComponentBody.rv (x : NodeComponentBody) : RV :=
  .node (str! "NodeComponentBody") [str! "statement_block"] [(optRv (W.rv NodeStatementBlock.rv)) x.statementBlock]

/-- nodes.rs 759 -/
def NodeProcedureDefinition.rv (x : NodeProcedureDefinition) : RV :=
  .node (str! "NodeProcedureDefinition") [str! "name", str! "parameters", str! "body"] [(W.rv NodeComponentId.rv) x.name, (W.rv NodeComponentParameters.rv) x.parameters, (W.rv NodeComponentBody.rv) x.body]

/-- nodes.rs 772 -/
def NodeTransitionDefinition.rv (x : NodeTransitionDefinition) : RV :=
  .node (str! "NodeTransitionDefinition") [str! "name", str! "parameters", str! "body"] [(W.rv NodeComponentId.rv) x.name, (W.rv NodeComponentParameters.rv) x.parameters, (W.rv NodeComponentBody.rv) x.body]

/-- nodes.rs 747 -/
def NodeComponentDefinition.rv : NodeComponentDefinition → RV
  | .transitionComponent x0 => .node (str! "NodeComponentDefinition::TransitionComponent") [] [(W.rv NodeTransitionDefinition.rv) x0]
  | .procedureComponent x0 => .node (str! "NodeComponentDefinition::ProcedureComponent") [] [(W.rv NodeProcedureDefinition.rv) x0]

/-- nodes.rs 729 -/
def NodeContractField.rv (x : NodeContractField) : RV :=
  .node (str! "NodeContractField") [str! "typed_identifier", str! "right_hand_side"] [(W.rv NodeTypedIdentifier.rv) x.typedIdentifier, (W.rv NodeFullExpression.rv) x.rightHandSide]

/-- nodes.rs 739 -/
def NodeWithConstraint.rv (x : NodeWithConstraint) : RV :=
  .node (str! "NodeWithConstraint") [str! "expression"] [(W.rv NodeFullExpression.rv) x.expression]

/-- nodes.rs 713 -/
def NodeContractDefinition.rv (x : NodeContractDefinition) : RV :=
  .node (str! "NodeContractDefinition") [str! "contract_name", str! "parameters", str! "constraint", str! "fields", str! "components"] [(W.rv NodeTypeNameIdentifier.rv) x.contractName, (W.rv NodeComponentParameters.rv) x.parameters, (optRv (W.rv NodeWithConstraint.rv)) x.constraint, (vecRv (W.rv NodeContractField.rv)) x.fields, (vecRv (W.rv NodeComponentDefinition.rv)) x.components]

/-- nodes.rs 784 -/
def NodeTypeAlternativeClause.rv : NodeTypeAlternativeClause → RV
  | .clauseType x0 => .node (str! "NodeTypeAlternativeClause::ClauseType") [] [(W.rv NodeTypeNameIdentifier.rv) x0]
  | .clauseTypeWithArgs x0 x1 => .node (str! "NodeTypeAlternativeClause::ClauseTypeWithArgs") [] [(W.rv NodeTypeNameIdentifier.rv) x0, (vecRv (W.rv NodeTypeArgument.rv)) x1]

/-- nodes.rs 693 -/
def NodeLibrarySingleDefinition.rv : NodeLibrarySingleDefinition → RV
  | .letDefinition x0 x1 x2 => .node (str! "NodeLibrarySingleDefinition::LetDefinition") [str! "variable_name", str! "type_annotation", str! "expression"] [(W.rv RV.str) x0, (optRv (W.rv NodeTypeAnnotation.rv)) x1, (W.rv NodeFullExpression.rv) x2]
  | .typeDefinition x0 x1 => .node (str! "NodeLibrarySingleDefinition::TypeDefinition") [] [(W.rv NodeTypeNameIdentifier.rv) x0, (optRv (vecRv (W.rv NodeTypeAlternativeClause.rv))) x1]

/-- nodes.rs 683 -/
def NodeLibraryDefinition.rv (x : NodeLibraryDefinition) : RV :=
  .node (str! "NodeLibraryDefinition") [str! "name", str! "definitions"] [(W.rv NodeTypeNameIdentifier.rv) x.name, (vecRv (W.rv NodeLibrarySingleDefinition.rv)) x.definitions]

/-- nodes.rs 669 -/
def NodeProgram.rv (x : NodeProgram) : RV :=
  .node (str! "NodeProgram") [str! "version", str! "import_declarations", str! "library_definition", str! "contract_definition"] [(W.rv RV.str) x.version, (optRv (W.rv NodeImportDeclarations.rv)) x.importDeclarations, (optRv (W.rv NodeLibraryDefinition.rv)) x.libraryDefinition, (W.rv NodeContractDefinition.rv) x.contractDefinition]

theorem wNodeAddressType_eq (x : W NodeAddressType) : wNodeAddressType x = W.rv NodeAddressType.rv x := by cases x; rfl

theorem wNodeTypeMapEntry_eq (x : W NodeTypeMapEntry) : wNodeTypeMapEntry x = W.rv NodeTypeMapEntry.rv x := by cases x; rfl

theorem wNodeTypeMapValueAllowingTypeArguments_eq (x : W NodeTypeMapValueAllowingTypeArguments) : wNodeTypeMapValueAllowingTypeArguments x = W.rv NodeTypeMapValueAllowingTypeArguments.rv x := by cases x; rfl

theorem wNodeScillaType_eq (x : W NodeScillaType) : wNodeScillaType x = W.rv NodeScillaType.rv x := by cases x; rfl

theorem wNodeTypeMapKey_eq (x : W NodeTypeMapKey) : wNodeTypeMapKey x = W.rv NodeTypeMapKey.rv x := by cases x; rfl

theorem wNodeTypeMapValue_eq (x : W NodeTypeMapValue) : wNodeTypeMapValue x = W.rv NodeTypeMapValue.rv x := by cases x; rfl

theorem wNodeTypeArgument_eq (x : W NodeTypeArgument) : wNodeTypeArgument x = W.rv NodeTypeArgument.rv x := by cases x; rfl

theorem wNodeAddressTypeField_eq (x : W NodeAddressTypeField) : wNodeAddressTypeField x = W.rv NodeAddressTypeField.rv x := by cases x; rfl

theorem wNodeTypeMapValueArguments_eq (x : W NodeTypeMapValueArguments) : wNodeTypeMapValueArguments x = W.rv NodeTypeMapValueArguments.rv x := by cases x; rfl

theorem wNodeArgumentPattern_eq (x : W NodeArgumentPattern) : wNodeArgumentPattern x = W.rv NodeArgumentPattern.rv x := by cases x; rfl

theorem wNodePattern_eq (x : W NodePattern) : wNodePattern x = W.rv NodePattern.rv x := by cases x; rfl

theorem wNodeFullExpression_eq (x : W NodeFullExpression) : wNodeFullExpression x = W.rv NodeFullExpression.rv x := by cases x; rfl

theorem wNodePatternMatchExpressionClause_eq (x : W NodePatternMatchExpressionClause) : wNodePatternMatchExpressionClause x = W.rv NodePatternMatchExpressionClause.rv x := by cases x; rfl

theorem wNodeStatementBlock_eq (x : W NodeStatementBlock) : wNodeStatementBlock x = W.rv NodeStatementBlock.rv x := by cases x; rfl

theorem wNodePatternMatchClause_eq (x : W NodePatternMatchClause) : wNodePatternMatchClause x = W.rv NodePatternMatchClause.rv x := by cases x; rfl

theorem lWNodeTypeArgument_eq (l : List (W NodeTypeArgument)) : lWNodeTypeArgument l = l.map (W.rv NodeTypeArgument.rv) := by
  induction l with
  | nil => rfl
  | cons x l ih => simp only [lWNodeTypeArgument, List.map_cons, ih, wNodeTypeArgument_eq]

theorem lWNodeAddressTypeField_eq (l : List (W NodeAddressTypeField)) : lWNodeAddressTypeField l = l.map (W.rv NodeAddressTypeField.rv) := by
  induction l with
  | nil => rfl
  | cons x l ih => simp only [lWNodeAddressTypeField, List.map_cons, ih, wNodeAddressTypeField_eq]

theorem lWNodeTypeMapValueArguments_eq (l : List (W NodeTypeMapValueArguments)) : lWNodeTypeMapValueArguments l = l.map (W.rv NodeTypeMapValueArguments.rv) := by
  induction l with
  | nil => rfl
  | cons x l ih => simp only [lWNodeTypeMapValueArguments, List.map_cons, ih, wNodeTypeMapValueArguments_eq]

theorem lWNodeArgumentPattern_eq (l : List (W NodeArgumentPattern)) : lWNodeArgumentPattern l = l.map (W.rv NodeArgumentPattern.rv) := by
  induction l with
  | nil => rfl
  | cons x l ih => simp only [lWNodeArgumentPattern, List.map_cons, ih, wNodeArgumentPattern_eq]

theorem lWNodePatternMatchExpressionClause_eq (l : List (W NodePatternMatchExpressionClause)) : lWNodePatternMatchExpressionClause l = l.map (W.rv NodePatternMatchExpressionClause.rv) := by
  induction l with
  | nil => rfl
  | cons x l ih => simp only [lWNodePatternMatchExpressionClause, List.map_cons, ih, wNodePatternMatchExpressionClause_eq]

theorem lWNodePatternMatchClause_eq (l : List (W NodePatternMatchClause)) : lWNodePatternMatchClause l = l.map (W.rv NodePatternMatchClause.rv) := by
  induction l with
  | nil => rfl
  | cons x l ih => simp only [lWNodePatternMatchClause, List.map_cons, ih, wNodePatternMatchClause_eq]

theorem lNodeStatement_eq (l : List NodeStatement) : lNodeStatement l = l.map NodeStatement.rv := by
  induction l with
  | nil => rfl
  | cons x l ih => simp only [lNodeStatement, List.map_cons, ih]

theorem oWNodeStatementBlock_eq (x : Option (W NodeStatementBlock)) : oWNodeStatementBlock x = optRv (W.rv NodeStatementBlock.rv) x := by
  cases x with
  | none => rfl
  | some x => simp only [oWNodeStatementBlock, optRv, wNodeStatementBlock_eq]

/-- the value of a nonterminal as a Rust value -/
def rv : (n : NT) → Val n → RV
  | .byteString => NodeByteStr.rv
  | .typeName => W.rv NodeTypeNameIdentifier.rv
  | .importedName => W.rv NodeImportedName.rv
  | .importDecls => W.rv NodeImportDeclarations.rv
  | .metaId => W.rv NodeMetaIdentifier.rv
  | .varId => W.rv NodeVariableIdentifier.rv
  | .builtinArgs => W.rv NodeBuiltinArguments.rv
  | .remaining => W.rv NodeScillaType.rv
  | .funSig => W.rv NodeScillaType.rv
  | .scillaType => W.rv NodeScillaType.rv
  | .typeArg => W.rv NodeTypeArgument.rv
  | .addressType => W.rv NodeAddressType.rv
  | .addressFieldList => vecRv (W.rv NodeAddressTypeField.rv)
  | .nextAddressField => W.rv NodeAddressTypeField.rv
  | .addressField => W.rv NodeAddressTypeField.rv
  | .mapKey => W.rv NodeTypeMapKey.rv
  | .mapValue => W.rv NodeTypeMapValue.rv
  | .mapValueArgs => W.rv NodeTypeMapValueArguments.rv
  | .program => NodeProgram.rv
  | .libraryDef => W.rv NodeLibraryDefinition.rv
  | .librarySingle => W.rv NodeLibrarySingleDefinition.rv
  | .typedId => W.rv NodeTypedIdentifier.rv
  | .typeAnn => W.rv NodeTypeAnnotation.rv
  | .typeAlt => W.rv NodeTypeAlternativeClause.rv
  | .mapValueAllowing => W.rv NodeTypeMapValueAllowingTypeArguments.rv
  | .contractTypeArgs => W.rv NodeContractTypeArguments.rv
  | .fullExpr => W.rv NodeFullExpression.rv
  | .pmExprClause => W.rv NodePatternMatchExpressionClause.rv
  | .pattern => W.rv NodePattern.rv
  | .argPattern => W.rv NodeArgumentPattern.rv
  | .nextMessage => W.rv NodeMessageEntry.rv
  | .messageEntry => W.rv NodeMessageEntry.rv
  | .atomic => W.rv NodeAtomicExpression.rv
  | .valueLit => W.rv NodeValueLiteral.rv
  | .statement => NodeStatement.rv
  | .nextStatement => NodeStatement.rv
  | .stmtBlock => W.rv NodeStatementBlock.rv
  | .bcFetchArgs => NodeBlockchainFetchArguments.rv
  | .componentId => W.rv NodeComponentId.rv
  | .pmClause => W.rv NodePatternMatchClause.rv
  | .remoteFetch => NodeRemoteFetchStatement.rv
  | .mapAccess => W.rv NodeMapAccess.rv
  | .paramPair => W.rv NodeParameterPair.rv
  | .nextParamPair => W.rv NodeParameterPair.rv
  | .compParams => W.rv NodeComponentParameters.rv
  | .compDef => W.rv NodeComponentDefinition.rv
  | .transDef => W.rv NodeTransitionDefinition.rv
  | .procDef => W.rv NodeProcedureDefinition.rv
  | .compBody => W.rv NodeComponentBody.rv
  | .contractDef => W.rv NodeContractDefinition.rv
  | .contractField => W.rv NodeContractField.rv
  | .withConstraint => W.rv NodeWithConstraint.rv
  | .hexNumber => W.rv RV.str
  | .signedInt => W.rv RV.str
  | .regularId => W.rv RV.str
  | .specialId => W.rv RV.str
  | .customId => W.rv RV.str
  | .templateId => W.rv RV.str
  | .stringLit => W.rv RV.str
  | .star n => vecRv (rv n)
  | .plus n => vecRv (rv n)
  | .opt n => optRv (rv n)

end Verif
