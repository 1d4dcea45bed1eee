import Verif.Model.Ast
import Verif.Spec.Grammar
/-
Applying a function `f` to all names and literals of a syntax tree; positions are kept.
Generated by tools/gen_rename.py from Model/Ast.lean.
-/
namespace Verif

def W.ren {α : Type} (f : α → α) : W α → W α
  | ⟨x, s, e⟩ => ⟨f x, s, e⟩

def NodeByteStr.ren (f : Str → Str) : NodeByteStr → NodeByteStr
  | .constant x_s => .constant ((W.ren f) x_s)
  | .type x_s => .type ((W.ren f) x_s)

def NodeTypeNameIdentifier.ren (f : Str → Str) : NodeTypeNameIdentifier → NodeTypeNameIdentifier
  | .byteStringType x_b => .byteStringType ((NodeByteStr.ren f) x_b)
  | .eventType => .eventType
  | .typeOrEnumLikeIdentifier x_s => .typeOrEnumLikeIdentifier ((W.ren f) x_s)

def NodeImportedName.ren (f : Str → Str) : NodeImportedName → NodeImportedName
  | .regularImport x_n => .regularImport ((W.ren (NodeTypeNameIdentifier.ren f)) x_n)
  | .aliasedImport x_n x_alias => .aliasedImport ((W.ren (NodeTypeNameIdentifier.ren f)) x_n) ((W.ren (NodeTypeNameIdentifier.ren f)) x_alias)

def NodeImportDeclarations.ren (f : Str → Str) : NodeImportDeclarations → NodeImportDeclarations
  | ⟨x_importList⟩ => ⟨(List.map (W.ren (NodeImportedName.ren f))) x_importList⟩

def NodeMetaIdentifier.ren (f : Str → Str) : NodeMetaIdentifier → NodeMetaIdentifier
  | .metaName x_n => .metaName ((W.ren (NodeTypeNameIdentifier.ren f)) x_n)
  | .metaNameInNamespace x_ns x_n => .metaNameInNamespace ((W.ren (NodeTypeNameIdentifier.ren f)) x_ns) ((W.ren (NodeTypeNameIdentifier.ren f)) x_n)
  | .metaNameInHexspace x_hex x_n => .metaNameInHexspace ((W.ren f) x_hex) ((W.ren (NodeTypeNameIdentifier.ren f)) x_n)
  | .byteString => .byteString

def NodeVariableIdentifier.ren (f : Str → Str) : NodeVariableIdentifier → NodeVariableIdentifier
  | .variableName x_s => .variableName ((W.ren f) x_s)
  | .specialIdentifier x_s => .specialIdentifier ((W.ren f) x_s)
  | .variableInNamespace x_ns x_s => .variableInNamespace ((W.ren (NodeTypeNameIdentifier.ren f)) x_ns) ((W.ren f) x_s)

def NodeBuiltinArguments.ren (f : Str → Str) : NodeBuiltinArguments → NodeBuiltinArguments
  | ⟨x_arguments⟩ => ⟨(List.map (W.ren (NodeVariableIdentifier.ren f))) x_arguments⟩

mutual
def NodeTypeMapKey.ren (f : Str → Str) : NodeTypeMapKey → NodeTypeMapKey
  | .genericMapKey x_m => .genericMapKey ((W.ren (NodeMetaIdentifier.ren f)) x_m)
  | .enclosedGenericId x_m => .enclosedGenericId ((W.ren (NodeMetaIdentifier.ren f)) x_m)
  | .enclosedAddressMapKeyType x_a => .enclosedAddressMapKeyType (NodeAddressType.renW f x_a)
  | .addressMapKeyType x_a => .addressMapKeyType (NodeAddressType.renW f x_a)
def NodeTypeMapValue.ren (f : Str → Str) : NodeTypeMapValue → NodeTypeMapValue
  | .mapValueTypeOrEnumLikeIdentifier x_m => .mapValueTypeOrEnumLikeIdentifier ((W.ren (NodeMetaIdentifier.ren f)) x_m)
  | .mapKeyValue x_e => .mapKeyValue (NodeTypeMapEntry.renW f x_e)
  | .mapValueParenthesizedType x_t => .mapValueParenthesizedType (NodeTypeMapValueAllowingTypeArguments.renW f x_t)
  | .mapValueAddressType x_a => .mapValueAddressType (NodeAddressType.renW f x_a)
def NodeTypeArgument.ren (f : Str → Str) : NodeTypeArgument → NodeTypeArgument
  | .enclosedTypeArgument x_t => .enclosedTypeArgument (NodeScillaType.renW f x_t)
  | .genericTypeArgument x_m => .genericTypeArgument ((W.ren (NodeMetaIdentifier.ren f)) x_m)
  | .templateTypeArgument x_s => .templateTypeArgument ((W.ren f) x_s)
  | .addressTypeArgument x_a => .addressTypeArgument (NodeAddressType.renW f x_a)
  | .mapTypeArgument x_k x_v => .mapTypeArgument (NodeTypeMapKey.renW f x_k) (NodeTypeMapValue.renW f x_v)
def NodeScillaType.ren (f : Str → Str) : NodeScillaType → NodeScillaType
  | .genericTypeWithArgs x_m x_args => .genericTypeWithArgs ((W.ren (NodeMetaIdentifier.ren f)) x_m) (NodeTypeArgument.renLW f x_args)
  | .mapType x_k x_v => .mapType (NodeTypeMapKey.renW f x_k) (NodeTypeMapValue.renW f x_v)
  | .functionType x_a x_b => .functionType (NodeScillaType.renW f x_a) (NodeScillaType.renW f x_b)
  | .enclosedType x_t => .enclosedType (NodeScillaType.renW f x_t)
  | .scillaAddresseType x_a => .scillaAddresseType (NodeAddressType.renW f x_a)
  | .polyFunctionType x_s x_t => .polyFunctionType ((W.ren f) x_s) (NodeScillaType.renW f x_t)
  | .typeVarType x_s => .typeVarType ((W.ren f) x_s)
def NodeTypeMapEntry.ren (f : Str → Str) : NodeTypeMapEntry → NodeTypeMapEntry
  | .mk x_key x_value => .mk (NodeTypeMapKey.renW f x_key) (NodeTypeMapValue.renW f x_value)
def NodeAddressTypeField.ren (f : Str → Str) : NodeAddressTypeField → NodeAddressTypeField
  | .mk x_identifier x_typeName => .mk ((W.ren (NodeVariableIdentifier.ren f)) x_identifier) (NodeScillaType.renW f x_typeName)
def NodeAddressType.ren (f : Str → Str) : NodeAddressType → NodeAddressType
  | .mk x_identifier x_typeName x_addressFields => .mk ((W.ren (NodeTypeNameIdentifier.ren f)) x_identifier) ((W.ren f) x_typeName) (NodeAddressTypeField.renLW f x_addressFields)
def NodeTypeMapValueArguments.ren (f : Str → Str) : NodeTypeMapValueArguments → NodeTypeMapValueArguments
  | .enclosedTypeMapValue x_t => .enclosedTypeMapValue (NodeTypeMapValueAllowingTypeArguments.renW f x_t)
  | .genericMapValueArgument x_m => .genericMapValueArgument ((W.ren (NodeMetaIdentifier.ren f)) x_m)
  | .mapKeyValueType x_k x_v => .mapKeyValueType (NodeTypeMapKey.renW f x_k) (NodeTypeMapValue.renW f x_v)
def NodeTypeMapValueAllowingTypeArguments.ren (f : Str → Str) : NodeTypeMapValueAllowingTypeArguments → NodeTypeMapValueAllowingTypeArguments
  | .typeMapValueNoArgs x_v => .typeMapValueNoArgs (NodeTypeMapValue.renW f x_v)
  | .typeMapValueWithArgs x_m x_args => .typeMapValueWithArgs ((W.ren (NodeMetaIdentifier.ren f)) x_m) (NodeTypeMapValueArguments.renLW f x_args)
def NodeAddressType.renW (f : Str → Str) : W NodeAddressType → W NodeAddressType
  | ⟨x, s, e⟩ => ⟨NodeAddressType.ren f x, s, e⟩
def NodeTypeMapEntry.renW (f : Str → Str) : W NodeTypeMapEntry → W NodeTypeMapEntry
  | ⟨x, s, e⟩ => ⟨NodeTypeMapEntry.ren f x, s, e⟩
def NodeTypeMapValueAllowingTypeArguments.renW (f : Str → Str) : W NodeTypeMapValueAllowingTypeArguments → W NodeTypeMapValueAllowingTypeArguments
  | ⟨x, s, e⟩ => ⟨NodeTypeMapValueAllowingTypeArguments.ren f x, s, e⟩
def NodeScillaType.renW (f : Str → Str) : W NodeScillaType → W NodeScillaType
  | ⟨x, s, e⟩ => ⟨NodeScillaType.ren f x, s, e⟩
def NodeTypeMapKey.renW (f : Str → Str) : W NodeTypeMapKey → W NodeTypeMapKey
  | ⟨x, s, e⟩ => ⟨NodeTypeMapKey.ren f x, s, e⟩
def NodeTypeMapValue.renW (f : Str → Str) : W NodeTypeMapValue → W NodeTypeMapValue
  | ⟨x, s, e⟩ => ⟨NodeTypeMapValue.ren f x, s, e⟩
def NodeTypeArgument.renW (f : Str → Str) : W NodeTypeArgument → W NodeTypeArgument
  | ⟨x, s, e⟩ => ⟨NodeTypeArgument.ren f x, s, e⟩
def NodeTypeArgument.renLW (f : Str → Str) : List (W NodeTypeArgument) → List (W NodeTypeArgument)
  | [] => []
  | x :: xs => NodeTypeArgument.renW f x :: NodeTypeArgument.renLW f xs
def NodeAddressTypeField.renW (f : Str → Str) : W NodeAddressTypeField → W NodeAddressTypeField
  | ⟨x, s, e⟩ => ⟨NodeAddressTypeField.ren f x, s, e⟩
def NodeAddressTypeField.renLW (f : Str → Str) : List (W NodeAddressTypeField) → List (W NodeAddressTypeField)
  | [] => []
  | x :: xs => NodeAddressTypeField.renW f x :: NodeAddressTypeField.renLW f xs
def NodeTypeMapValueArguments.renW (f : Str → Str) : W NodeTypeMapValueArguments → W NodeTypeMapValueArguments
  | ⟨x, s, e⟩ => ⟨NodeTypeMapValueArguments.ren f x, s, e⟩
def NodeTypeMapValueArguments.renLW (f : Str → Str) : List (W NodeTypeMapValueArguments) → List (W NodeTypeMapValueArguments)
  | [] => []
  | x :: xs => NodeTypeMapValueArguments.renW f x :: NodeTypeMapValueArguments.renLW f xs
end

def NodeTypeAnnotation.ren (f : Str → Str) : NodeTypeAnnotation → NodeTypeAnnotation
  | ⟨x_typeName⟩ => ⟨(W.ren (NodeScillaType.ren f)) x_typeName⟩

def NodeTypedIdentifier.ren (f : Str → Str) : NodeTypedIdentifier → NodeTypedIdentifier
  | ⟨x_identifierName, x_annotation⟩ => ⟨(W.ren f) x_identifierName, (W.ren (NodeTypeAnnotation.ren f)) x_annotation⟩

def NodeContractTypeArguments.ren (f : Str → Str) : NodeContractTypeArguments → NodeContractTypeArguments
  | ⟨x_typeArguments⟩ => ⟨(List.map (W.ren (NodeTypeArgument.ren f))) x_typeArguments⟩

def NodeValueLiteral.ren (f : Str → Str) : NodeValueLiteral → NodeValueLiteral
  | .literalInt x_t x_n => .literalInt ((W.ren (NodeTypeNameIdentifier.ren f)) x_t) ((W.ren f) x_n)
  | .literalHex x_s => .literalHex ((W.ren f) x_s)
  | .literalString x_s => .literalString ((W.ren f) x_s)
  | .literalEmptyMap x_k x_v => .literalEmptyMap ((W.ren (NodeTypeMapKey.ren f)) x_k) ((W.ren (NodeTypeMapValue.ren f)) x_v)

def NodeMessageEntry.ren (f : Str → Str) : NodeMessageEntry → NodeMessageEntry
  | .messageLiteral x_i x_v => .messageLiteral ((W.ren (NodeVariableIdentifier.ren f)) x_i) ((W.ren (NodeValueLiteral.ren f)) x_v)
  | .messageVariable x_i x_v => .messageVariable ((W.ren (NodeVariableIdentifier.ren f)) x_i) ((W.ren (NodeVariableIdentifier.ren f)) x_v)

def NodeAtomicExpression.ren (f : Str → Str) : NodeAtomicExpression → NodeAtomicExpression
  | .atomicSid x_v => .atomicSid ((W.ren (NodeVariableIdentifier.ren f)) x_v)
  | .atomicLit x_l => .atomicLit ((W.ren (NodeValueLiteral.ren f)) x_l)

def NodeMapAccess.ren (f : Str → Str) : NodeMapAccess → NodeMapAccess
  | ⟨x_identifierName⟩ => ⟨(W.ren (NodeVariableIdentifier.ren f)) x_identifierName⟩

mutual
def NodePattern.ren (f : Str → Str) : NodePattern → NodePattern
  | .wildcard => .wildcard
  | .binder x_s => .binder ((W.ren f) x_s)
  | .constructor x_m x_args => .constructor ((W.ren (NodeMetaIdentifier.ren f)) x_m) (NodeArgumentPattern.renLW f x_args)
def NodeArgumentPattern.ren (f : Str → Str) : NodeArgumentPattern → NodeArgumentPattern
  | .wildcardArgument => .wildcardArgument
  | .binderArgument x_s => .binderArgument ((W.ren f) x_s)
  | .constructorArgument x_m => .constructorArgument ((W.ren (NodeMetaIdentifier.ren f)) x_m)
  | .patternArgument x_p => .patternArgument (NodePattern.renW f x_p)
def NodeArgumentPattern.renW (f : Str → Str) : W NodeArgumentPattern → W NodeArgumentPattern
  | ⟨x, s, e⟩ => ⟨NodeArgumentPattern.ren f x, s, e⟩
def NodeArgumentPattern.renLW (f : Str → Str) : List (W NodeArgumentPattern) → List (W NodeArgumentPattern)
  | [] => []
  | x :: xs => NodeArgumentPattern.renW f x :: NodeArgumentPattern.renLW f xs
def NodePattern.renW (f : Str → Str) : W NodePattern → W NodePattern
  | ⟨x, s, e⟩ => ⟨NodePattern.ren f x, s, e⟩
end

mutual
def NodeFullExpression.ren (f : Str → Str) : NodeFullExpression → NodeFullExpression
  | .localVariableDeclaration x_identifierName x_expression x_typeAnnotation x_containingExpression => .localVariableDeclaration ((W.ren f) x_identifierName) (NodeFullExpression.renW f x_expression) ((Option.map (W.ren (NodeTypeAnnotation.ren f))) x_typeAnnotation) (NodeFullExpression.renW f x_containingExpression)
  | .functionDeclaration x_identierValue x_typeAnnotation x_expression => .functionDeclaration ((W.ren f) x_identierValue) ((W.ren (NodeTypeAnnotation.ren f)) x_typeAnnotation) (NodeFullExpression.renW f x_expression)
  | .functionCall x_functionName x_argumentList => .functionCall ((W.ren (NodeVariableIdentifier.ren f)) x_functionName) ((List.map (W.ren (NodeVariableIdentifier.ren f))) x_argumentList)
  | .expressionAtomic x_a => .expressionAtomic ((W.ren (NodeAtomicExpression.ren f)) x_a)
  | .expressionBuiltin x_b x_targs x_xs => .expressionBuiltin ((W.ren f) x_b) ((Option.map (W.ren (NodeContractTypeArguments.ren f))) x_targs) ((W.ren (NodeBuiltinArguments.ren f)) x_xs)
  | .message x_entries => .message ((List.map (W.ren (NodeMessageEntry.ren f))) x_entries)
  | .match_ x_matchExpression x_clauses => .match_ ((W.ren (NodeVariableIdentifier.ren f)) x_matchExpression) (NodePatternMatchExpressionClause.renLW f x_clauses)
  | .constructorCall x_identifierName x_contractTypeArguments x_argumentList => .constructorCall ((W.ren (NodeMetaIdentifier.ren f)) x_identifierName) ((Option.map (W.ren (NodeContractTypeArguments.ren f))) x_contractTypeArguments) ((List.map (W.ren (NodeVariableIdentifier.ren f))) x_argumentList)
  | .templateFunction x_identifierName x_expression => .templateFunction ((W.ren f) x_identifierName) (NodeFullExpression.renW f x_expression)
  | .tApp x_identifierName x_typeArguments => .tApp ((W.ren (NodeVariableIdentifier.ren f)) x_identifierName) ((List.map (W.ren (NodeTypeArgument.ren f))) x_typeArguments)
def NodePatternMatchExpressionClause.ren (f : Str → Str) : NodePatternMatchExpressionClause → NodePatternMatchExpressionClause
  | .mk x_pattern x_expression => .mk ((W.ren (NodePattern.ren f)) x_pattern) (NodeFullExpression.renW f x_expression)
def NodeFullExpression.renW (f : Str → Str) : W NodeFullExpression → W NodeFullExpression
  | ⟨x, s, e⟩ => ⟨NodeFullExpression.ren f x, s, e⟩
def NodePatternMatchExpressionClause.renW (f : Str → Str) : W NodePatternMatchExpressionClause → W NodePatternMatchExpressionClause
  | ⟨x, s, e⟩ => ⟨NodePatternMatchExpressionClause.ren f x, s, e⟩
def NodePatternMatchExpressionClause.renLW (f : Str → Str) : List (W NodePatternMatchExpressionClause) → List (W NodePatternMatchExpressionClause)
  | [] => []
  | x :: xs => NodePatternMatchExpressionClause.renW f x :: NodePatternMatchExpressionClause.renLW f xs
end

def NodeBlockchainFetchArguments.ren (f : Str → Str) : NodeBlockchainFetchArguments → NodeBlockchainFetchArguments
  | ⟨x_arguments⟩ => ⟨(List.map (W.ren (NodeVariableIdentifier.ren f))) x_arguments⟩

def NodeComponentId.ren (f : Str → Str) : NodeComponentId → NodeComponentId
  | .withTypeLikeName x_n => .withTypeLikeName ((W.ren (NodeTypeNameIdentifier.ren f)) x_n)
  | .withRegularId x_s => .withRegularId ((W.ren f) x_s)

def NodeRemoteFetchStatement.ren (f : Str → Str) : NodeRemoteFetchStatement → NodeRemoteFetchStatement
  | .readStateMutable x_lhs x_address x_v => .readStateMutable ((W.ren f) x_lhs) ((W.ren f) x_address) ((W.ren (NodeVariableIdentifier.ren f)) x_v)
  | .readStateMutableSpecialId x_lhs x_address x_member => .readStateMutableSpecialId ((W.ren f) x_lhs) ((W.ren f) x_address) ((W.ren f) x_member)
  | .readStateMutableMapAccess x_lhs x_address x_member x_keys => .readStateMutableMapAccess ((W.ren f) x_lhs) ((W.ren f) x_address) ((W.ren f) x_member) ((List.map (W.ren (NodeMapAccess.ren f))) x_keys)
  | .readStateMutableMapAccessExists x_lhs x_address x_member x_keys => .readStateMutableMapAccessExists ((W.ren f) x_lhs) ((W.ren f) x_address) ((W.ren f) x_member) ((List.map (W.ren (NodeMapAccess.ren f))) x_keys)
  | .readStateMutableCastAddress x_lhs x_v x_a => .readStateMutableCastAddress ((W.ren f) x_lhs) ((W.ren (NodeVariableIdentifier.ren f)) x_v) ((W.ren (NodeAddressType.ren f)) x_a)

mutual
def NodeStatement.ren (f : Str → Str) : NodeStatement → NodeStatement
  | .load x_leftHandSide x_rightHandSide => .load ((W.ren f) x_leftHandSide) ((W.ren (NodeVariableIdentifier.ren f)) x_rightHandSide)
  | .remoteFetch x_s => .remoteFetch ((NodeRemoteFetchStatement.ren f) x_s)
  | .store x_leftHandSide x_rightHandSide => .store ((W.ren f) x_leftHandSide) ((W.ren (NodeVariableIdentifier.ren f)) x_rightHandSide)
  | .bind x_leftHandSide x_rightHandSide => .bind ((W.ren f) x_leftHandSide) ((W.ren (NodeFullExpression.ren f)) x_rightHandSide)
  | .readFromBC x_leftHandSide x_typeName x_arguments => .readFromBC ((W.ren f) x_leftHandSide) ((W.ren (NodeTypeNameIdentifier.ren f)) x_typeName) ((Option.map (NodeBlockchainFetchArguments.ren f)) x_arguments)
  | .mapGet x_leftHandSide x_keys x_rightHandSide => .mapGet ((W.ren f) x_leftHandSide) ((List.map (W.ren (NodeMapAccess.ren f))) x_keys) ((W.ren f) x_rightHandSide)
  | .mapGetExists x_leftHandSide x_keys x_rightHandSide => .mapGetExists ((W.ren f) x_leftHandSide) ((List.map (W.ren (NodeMapAccess.ren f))) x_keys) ((W.ren f) x_rightHandSide)
  | .mapUpdate x_leftHandSide x_keys x_rightHandSide => .mapUpdate ((W.ren f) x_leftHandSide) ((List.map (W.ren (NodeMapAccess.ren f))) x_keys) ((W.ren (NodeVariableIdentifier.ren f)) x_rightHandSide)
  | .mapUpdateDelete x_leftHandSide x_keys => .mapUpdateDelete ((W.ren f) x_leftHandSide) ((List.map (W.ren (NodeMapAccess.ren f))) x_keys)
  | .accept => .accept
  | .send x_identifierName => .send ((W.ren (NodeVariableIdentifier.ren f)) x_identifierName)
  | .createEvnt x_identifierName => .createEvnt ((W.ren (NodeVariableIdentifier.ren f)) x_identifierName)
  | .throw x_errorVariable => .throw ((Option.map (W.ren (NodeVariableIdentifier.ren f))) x_errorVariable)
  | .matchStmt x_var x_clauses => .matchStmt ((W.ren (NodeVariableIdentifier.ren f)) x_var) (NodePatternMatchClause.renLW f x_clauses)
  | .callProc x_componentId x_arguments => .callProc ((W.ren (NodeComponentId.ren f)) x_componentId) ((List.map (W.ren (NodeVariableIdentifier.ren f))) x_arguments)
  | .iterate x_identifierName x_componentId => .iterate ((W.ren (NodeVariableIdentifier.ren f)) x_identifierName) ((W.ren (NodeComponentId.ren f)) x_componentId)
def NodePatternMatchClause.ren (f : Str → Str) : NodePatternMatchClause → NodePatternMatchClause
  | .mk x_patternExpression x_statementBlock => .mk ((W.ren (NodePattern.ren f)) x_patternExpression) (NodeStatementBlock.renOW f x_statementBlock)
def NodeStatementBlock.ren (f : Str → Str) : NodeStatementBlock → NodeStatementBlock
  | .mk x_statements => .mk (NodeStatement.renL f x_statements)
def NodePatternMatchClause.renW (f : Str → Str) : W NodePatternMatchClause → W NodePatternMatchClause
  | ⟨x, s, e⟩ => ⟨NodePatternMatchClause.ren f x, s, e⟩
def NodePatternMatchClause.renLW (f : Str → Str) : List (W NodePatternMatchClause) → List (W NodePatternMatchClause)
  | [] => []
  | x :: xs => NodePatternMatchClause.renW f x :: NodePatternMatchClause.renLW f xs
def NodeStatementBlock.renW (f : Str → Str) : W NodeStatementBlock → W NodeStatementBlock
  | ⟨x, s, e⟩ => ⟨NodeStatementBlock.ren f x, s, e⟩
def NodeStatementBlock.renOW (f : Str → Str) : Option (W NodeStatementBlock) → Option (W NodeStatementBlock)
  | none => none
  | some x => some (NodeStatementBlock.renW f x)
def NodeStatement.renL (f : Str → Str) : List NodeStatement → List NodeStatement
  | [] => []
  | x :: xs => NodeStatement.ren f x :: NodeStatement.renL f xs
end

def NodeParameterPair.ren (f : Str → Str) : NodeParameterPair → NodeParameterPair
  | ⟨x_identifierWithType⟩ => ⟨(W.ren (NodeTypedIdentifier.ren f)) x_identifierWithType⟩

def NodeComponentParameters.ren (f : Str → Str) : NodeComponentParameters → NodeComponentParameters
  | ⟨x_parameters⟩ => ⟨(List.map (W.ren (NodeParameterPair.ren f))) x_parameters⟩

def NodeComponentBody.ren (f : Str → Str) : NodeComponentBody → NodeComponentBody
  | ⟨x_statementBlock⟩ => ⟨(Option.map (W.ren (NodeStatementBlock.ren f))) x_statementBlock⟩

def NodeTypeAlternativeClause.ren (f : Str → Str) : NodeTypeAlternativeClause → NodeTypeAlternativeClause
  | .clauseType x_n => .clauseType ((W.ren (NodeTypeNameIdentifier.ren f)) x_n)
  | .clauseTypeWithArgs x_n x_args => .clauseTypeWithArgs ((W.ren (NodeTypeNameIdentifier.ren f)) x_n) ((List.map (W.ren (NodeTypeArgument.ren f))) x_args)

def NodeLibrarySingleDefinition.ren (f : Str → Str) : NodeLibrarySingleDefinition → NodeLibrarySingleDefinition
  | .letDefinition x_variableName x_typeAnnotation x_expression => .letDefinition ((W.ren f) x_variableName) ((Option.map (W.ren (NodeTypeAnnotation.ren f))) x_typeAnnotation) ((W.ren (NodeFullExpression.ren f)) x_expression)
  | .typeDefinition x_n x_clauses => .typeDefinition ((W.ren (NodeTypeNameIdentifier.ren f)) x_n) ((Option.map (List.map (W.ren (NodeTypeAlternativeClause.ren f)))) x_clauses)

def NodeLibraryDefinition.ren (f : Str → Str) : NodeLibraryDefinition → NodeLibraryDefinition
  | ⟨x_name, x_definitions⟩ => ⟨(W.ren (NodeTypeNameIdentifier.ren f)) x_name, (List.map (W.ren (NodeLibrarySingleDefinition.ren f))) x_definitions⟩

def NodeContractField.ren (f : Str → Str) : NodeContractField → NodeContractField
  | ⟨x_typedIdentifier, x_rightHandSide⟩ => ⟨(W.ren (NodeTypedIdentifier.ren f)) x_typedIdentifier, (W.ren (NodeFullExpression.ren f)) x_rightHandSide⟩

def NodeWithConstraint.ren (f : Str → Str) : NodeWithConstraint → NodeWithConstraint
  | ⟨x_expression⟩ => ⟨(W.ren (NodeFullExpression.ren f)) x_expression⟩

def NodeProcedureDefinition.ren (f : Str → Str) : NodeProcedureDefinition → NodeProcedureDefinition
  | ⟨x_name, x_parameters, x_body⟩ => ⟨(W.ren (NodeComponentId.ren f)) x_name, (W.ren (NodeComponentParameters.ren f)) x_parameters, (W.ren (NodeComponentBody.ren f)) x_body⟩

def NodeTransitionDefinition.ren (f : Str → Str) : NodeTransitionDefinition → NodeTransitionDefinition
  | ⟨x_name, x_parameters, x_body⟩ => ⟨(W.ren (NodeComponentId.ren f)) x_name, (W.ren (NodeComponentParameters.ren f)) x_parameters, (W.ren (NodeComponentBody.ren f)) x_body⟩

def NodeComponentDefinition.ren (f : Str → Str) : NodeComponentDefinition → NodeComponentDefinition
  | .transitionComponent x_t => .transitionComponent ((W.ren (NodeTransitionDefinition.ren f)) x_t)
  | .procedureComponent x_p => .procedureComponent ((W.ren (NodeProcedureDefinition.ren f)) x_p)

def NodeContractDefinition.ren (f : Str → Str) : NodeContractDefinition → NodeContractDefinition
  | ⟨x_contractName, x_parameters, x_constraint, x_fields, x_components⟩ => ⟨(W.ren (NodeTypeNameIdentifier.ren f)) x_contractName, (W.ren (NodeComponentParameters.ren f)) x_parameters, (Option.map (W.ren (NodeWithConstraint.ren f))) x_constraint, (List.map (W.ren (NodeContractField.ren f))) x_fields, (List.map (W.ren (NodeComponentDefinition.ren f))) x_components⟩

def NodeProgram.ren (f : Str → Str) : NodeProgram → NodeProgram
  | ⟨x_version, x_importDeclarations, x_libraryDefinition, x_contractDefinition⟩ => ⟨(W.ren f) x_version, (Option.map (W.ren (NodeImportDeclarations.ren f))) x_importDeclarations, (Option.map (W.ren (NodeLibraryDefinition.ren f))) x_libraryDefinition, (W.ren (NodeContractDefinition.ren f)) x_contractDefinition⟩

/-- the same for the value of a nonterminal -/
def renV (f : Str → Str) : (n : NT) → Val n → Val n
  | .byteString => (NodeByteStr.ren f)
  | .typeName => (W.ren (NodeTypeNameIdentifier.ren f))
  | .importedName => (W.ren (NodeImportedName.ren f))
  | .importDecls => (W.ren (NodeImportDeclarations.ren f))
  | .metaId => (W.ren (NodeMetaIdentifier.ren f))
  | .varId => (W.ren (NodeVariableIdentifier.ren f))
  | .builtinArgs => (W.ren (NodeBuiltinArguments.ren f))
  | .remaining => (W.ren (NodeScillaType.ren f))
  | .funSig => (W.ren (NodeScillaType.ren f))
  | .scillaType => (W.ren (NodeScillaType.ren f))
  | .typeArg => (W.ren (NodeTypeArgument.ren f))
  | .addressType => (W.ren (NodeAddressType.ren f))
  | .addressFieldList => (List.map (W.ren (NodeAddressTypeField.ren f)))
  | .nextAddressField => (W.ren (NodeAddressTypeField.ren f))
  | .addressField => (W.ren (NodeAddressTypeField.ren f))
  | .mapKey => (W.ren (NodeTypeMapKey.ren f))
  | .mapValue => (W.ren (NodeTypeMapValue.ren f))
  | .mapValueArgs => (W.ren (NodeTypeMapValueArguments.ren f))
  | .program => (NodeProgram.ren f)
  | .libraryDef => (W.ren (NodeLibraryDefinition.ren f))
  | .librarySingle => (W.ren (NodeLibrarySingleDefinition.ren f))
  | .typedId => (W.ren (NodeTypedIdentifier.ren f))
  | .typeAnn => (W.ren (NodeTypeAnnotation.ren f))
  | .typeAlt => (W.ren (NodeTypeAlternativeClause.ren f))
  | .mapValueAllowing => (W.ren (NodeTypeMapValueAllowingTypeArguments.ren f))
  | .contractTypeArgs => (W.ren (NodeContractTypeArguments.ren f))
  | .fullExpr => (W.ren (NodeFullExpression.ren f))
  | .pmExprClause => (W.ren (NodePatternMatchExpressionClause.ren f))
  | .pattern => (W.ren (NodePattern.ren f))
  | .argPattern => (W.ren (NodeArgumentPattern.ren f))
  | .nextMessage => (W.ren (NodeMessageEntry.ren f))
  | .messageEntry => (W.ren (NodeMessageEntry.ren f))
  | .atomic => (W.ren (NodeAtomicExpression.ren f))
  | .valueLit => (W.ren (NodeValueLiteral.ren f))
  | .statement => (NodeStatement.ren f)
  | .nextStatement => (NodeStatement.ren f)
  | .stmtBlock => (W.ren (NodeStatementBlock.ren f))
  | .bcFetchArgs => (NodeBlockchainFetchArguments.ren f)
  | .componentId => (W.ren (NodeComponentId.ren f))
  | .pmClause => (W.ren (NodePatternMatchClause.ren f))
  | .remoteFetch => (NodeRemoteFetchStatement.ren f)
  | .mapAccess => (W.ren (NodeMapAccess.ren f))
  | .paramPair => (W.ren (NodeParameterPair.ren f))
  | .nextParamPair => (W.ren (NodeParameterPair.ren f))
  | .compParams => (W.ren (NodeComponentParameters.ren f))
  | .compDef => (W.ren (NodeComponentDefinition.ren f))
  | .transDef => (W.ren (NodeTransitionDefinition.ren f))
  | .procDef => (W.ren (NodeProcedureDefinition.ren f))
  | .compBody => (W.ren (NodeComponentBody.ren f))
  | .contractDef => (W.ren (NodeContractDefinition.ren f))
  | .contractField => (W.ren (NodeContractField.ren f))
  | .withConstraint => (W.ren (NodeWithConstraint.ren f))
  | .hexNumber => (W.ren f)
  | .signedInt => (W.ren f)
  | .regularId => (W.ren f)
  | .specialId => (W.ren f)
  | .customId => (W.ren f)
  | .templateId => (W.ren f)
  | .stringLit => (W.ren f)
  | .star n => List.map (renV f n)
  | .plus n => List.map (renV f n)
  | .opt n => Option.map (renV f n)

/-- the same for tokens: names and literals are replaced, keywords and punctuation are not -/
def Token.ren (f : Str → Str) : Token → Token
  | .identifier s => .identifier (f s)
  | .customIdentifier s => .customIdentifier (f s)
  | .specialIdentifier s => .specialIdentifier (f s)
  | .templateIdentifier s => .templateIdentifier (f s)
  | .byStrWithSize s => .byStrWithSize (f s)
  | .number s => .number (f s)
  | .hexNumber s => .hexNumber (f s)
  | .stringLiteral s => .stringLiteral (f s)
  | t => t

def STok.ren (f : Str → Str) (t : STok) : STok := ⟨t.start, t.tok.ren f, t.stop⟩

end Verif
