import Verif.Model.Ast
import Verif.Spec.Grammar
/-
Erasing the positions of a syntax tree: every `start`/`stop` becomes the default position, all else
is kept.  Two trees are equal up to positions iff their `strip`s are equal.
Generated by tools/gen_strip.py from Model/Ast.lean.
-/
namespace Verif

def W.strip {α : Type} (f : α → α) : W α → W α
  | ⟨x, _, _⟩ => ⟨f x, default, default⟩

def NodeByteStr.strip : NodeByteStr → NodeByteStr
  | .constant x_s => .constant (W.strip id x_s)
  | .type x_s => .type (W.strip id x_s)

def NodeTypeNameIdentifier.strip : NodeTypeNameIdentifier → NodeTypeNameIdentifier
  | .byteStringType x_b => .byteStringType (NodeByteStr.strip x_b)
  | .eventType => .eventType
  | .typeOrEnumLikeIdentifier x_s => .typeOrEnumLikeIdentifier (W.strip id x_s)

def NodeImportedName.strip : NodeImportedName → NodeImportedName
  | .regularImport x_n => .regularImport (W.strip NodeTypeNameIdentifier.strip x_n)
  | .aliasedImport x_n x_alias => .aliasedImport (W.strip NodeTypeNameIdentifier.strip x_n) (W.strip NodeTypeNameIdentifier.strip x_alias)

def NodeImportDeclarations.strip : NodeImportDeclarations → NodeImportDeclarations
  | ⟨x_importList⟩ => ⟨List.map (W.strip NodeImportedName.strip) x_importList⟩

def NodeMetaIdentifier.strip : NodeMetaIdentifier → NodeMetaIdentifier
  | .metaName x_n => .metaName (W.strip NodeTypeNameIdentifier.strip x_n)
  | .metaNameInNamespace x_ns x_n => .metaNameInNamespace (W.strip NodeTypeNameIdentifier.strip x_ns) (W.strip NodeTypeNameIdentifier.strip x_n)
  | .metaNameInHexspace x_hex x_n => .metaNameInHexspace (W.strip id x_hex) (W.strip NodeTypeNameIdentifier.strip x_n)
  | .byteString => .byteString

def NodeVariableIdentifier.strip : NodeVariableIdentifier → NodeVariableIdentifier
  | .variableName x_s => .variableName (W.strip id x_s)
  | .specialIdentifier x_s => .specialIdentifier (W.strip id x_s)
  | .variableInNamespace x_ns x_s => .variableInNamespace (W.strip NodeTypeNameIdentifier.strip x_ns) (W.strip id x_s)

def NodeBuiltinArguments.strip : NodeBuiltinArguments → NodeBuiltinArguments
  | ⟨x_arguments⟩ => ⟨List.map (W.strip NodeVariableIdentifier.strip) x_arguments⟩

mutual
def NodeTypeMapKey.strip : NodeTypeMapKey → NodeTypeMapKey
  | .genericMapKey x_m => .genericMapKey (W.strip NodeMetaIdentifier.strip x_m)
  | .enclosedGenericId x_m => .enclosedGenericId (W.strip NodeMetaIdentifier.strip x_m)
  | .enclosedAddressMapKeyType x_a => .enclosedAddressMapKeyType (NodeAddressType.stripW x_a)
  | .addressMapKeyType x_a => .addressMapKeyType (NodeAddressType.stripW x_a)
def NodeTypeMapValue.strip : NodeTypeMapValue → NodeTypeMapValue
  | .mapValueTypeOrEnumLikeIdentifier x_m => .mapValueTypeOrEnumLikeIdentifier (W.strip NodeMetaIdentifier.strip x_m)
  | .mapKeyValue x_e => .mapKeyValue (NodeTypeMapEntry.stripW x_e)
  | .mapValueParenthesizedType x_t => .mapValueParenthesizedType (NodeTypeMapValueAllowingTypeArguments.stripW x_t)
  | .mapValueAddressType x_a => .mapValueAddressType (NodeAddressType.stripW x_a)
def NodeTypeArgument.strip : NodeTypeArgument → NodeTypeArgument
  | .enclosedTypeArgument x_t => .enclosedTypeArgument (NodeScillaType.stripW x_t)
  | .genericTypeArgument x_m => .genericTypeArgument (W.strip NodeMetaIdentifier.strip x_m)
  | .templateTypeArgument x_s => .templateTypeArgument (W.strip id x_s)
  | .addressTypeArgument x_a => .addressTypeArgument (NodeAddressType.stripW x_a)
  | .mapTypeArgument x_k x_v => .mapTypeArgument (NodeTypeMapKey.stripW x_k) (NodeTypeMapValue.stripW x_v)
def NodeScillaType.strip : NodeScillaType → NodeScillaType
  | .genericTypeWithArgs x_m x_args => .genericTypeWithArgs (W.strip NodeMetaIdentifier.strip x_m) (NodeTypeArgument.stripLW x_args)
  | .mapType x_k x_v => .mapType (NodeTypeMapKey.stripW x_k) (NodeTypeMapValue.stripW x_v)
  | .functionType x_a x_b => .functionType (NodeScillaType.stripW x_a) (NodeScillaType.stripW x_b)
  | .enclosedType x_t => .enclosedType (NodeScillaType.stripW x_t)
  | .scillaAddresseType x_a => .scillaAddresseType (NodeAddressType.stripW x_a)
  | .polyFunctionType x_s x_t => .polyFunctionType (W.strip id x_s) (NodeScillaType.stripW x_t)
  | .typeVarType x_s => .typeVarType (W.strip id x_s)
def NodeTypeMapEntry.strip : NodeTypeMapEntry → NodeTypeMapEntry
  | .mk x_key x_value => .mk (NodeTypeMapKey.stripW x_key) (NodeTypeMapValue.stripW x_value)
def NodeAddressTypeField.strip : NodeAddressTypeField → NodeAddressTypeField
  | .mk x_identifier x_typeName => .mk (W.strip NodeVariableIdentifier.strip x_identifier) (NodeScillaType.stripW x_typeName)
def NodeAddressType.strip : NodeAddressType → NodeAddressType
  | .mk x_identifier x_typeName x_addressFields => .mk (W.strip NodeTypeNameIdentifier.strip x_identifier) (W.strip id x_typeName) (NodeAddressTypeField.stripLW x_addressFields)
def NodeTypeMapValueArguments.strip : NodeTypeMapValueArguments → NodeTypeMapValueArguments
  | .enclosedTypeMapValue x_t => .enclosedTypeMapValue (NodeTypeMapValueAllowingTypeArguments.stripW x_t)
  | .genericMapValueArgument x_m => .genericMapValueArgument (W.strip NodeMetaIdentifier.strip x_m)
  | .mapKeyValueType x_k x_v => .mapKeyValueType (NodeTypeMapKey.stripW x_k) (NodeTypeMapValue.stripW x_v)
def NodeTypeMapValueAllowingTypeArguments.strip : NodeTypeMapValueAllowingTypeArguments → NodeTypeMapValueAllowingTypeArguments
  | .typeMapValueNoArgs x_v => .typeMapValueNoArgs (NodeTypeMapValue.stripW x_v)
  | .typeMapValueWithArgs x_m x_args => .typeMapValueWithArgs (W.strip NodeMetaIdentifier.strip x_m) (NodeTypeMapValueArguments.stripLW x_args)
def NodeAddressType.stripW : W NodeAddressType → W NodeAddressType
  | ⟨x, _, _⟩ => ⟨NodeAddressType.strip x, default, default⟩
def NodeTypeMapEntry.stripW : W NodeTypeMapEntry → W NodeTypeMapEntry
  | ⟨x, _, _⟩ => ⟨NodeTypeMapEntry.strip x, default, default⟩
def NodeTypeMapValueAllowingTypeArguments.stripW : W NodeTypeMapValueAllowingTypeArguments → W NodeTypeMapValueAllowingTypeArguments
  | ⟨x, _, _⟩ => ⟨NodeTypeMapValueAllowingTypeArguments.strip x, default, default⟩
def NodeScillaType.stripW : W NodeScillaType → W NodeScillaType
  | ⟨x, _, _⟩ => ⟨NodeScillaType.strip x, default, default⟩
def NodeTypeMapKey.stripW : W NodeTypeMapKey → W NodeTypeMapKey
  | ⟨x, _, _⟩ => ⟨NodeTypeMapKey.strip x, default, default⟩
def NodeTypeMapValue.stripW : W NodeTypeMapValue → W NodeTypeMapValue
  | ⟨x, _, _⟩ => ⟨NodeTypeMapValue.strip x, default, default⟩
def NodeTypeArgument.stripW : W NodeTypeArgument → W NodeTypeArgument
  | ⟨x, _, _⟩ => ⟨NodeTypeArgument.strip x, default, default⟩
def NodeTypeArgument.stripLW : List (W NodeTypeArgument) → List (W NodeTypeArgument)
  | [] => []
  | x :: xs => NodeTypeArgument.stripW x :: NodeTypeArgument.stripLW xs
def NodeAddressTypeField.stripW : W NodeAddressTypeField → W NodeAddressTypeField
  | ⟨x, _, _⟩ => ⟨NodeAddressTypeField.strip x, default, default⟩
def NodeAddressTypeField.stripLW : List (W NodeAddressTypeField) → List (W NodeAddressTypeField)
  | [] => []
  | x :: xs => NodeAddressTypeField.stripW x :: NodeAddressTypeField.stripLW xs
def NodeTypeMapValueArguments.stripW : W NodeTypeMapValueArguments → W NodeTypeMapValueArguments
  | ⟨x, _, _⟩ => ⟨NodeTypeMapValueArguments.strip x, default, default⟩
def NodeTypeMapValueArguments.stripLW : List (W NodeTypeMapValueArguments) → List (W NodeTypeMapValueArguments)
  | [] => []
  | x :: xs => NodeTypeMapValueArguments.stripW x :: NodeTypeMapValueArguments.stripLW xs
end

def NodeTypeAnnotation.strip : NodeTypeAnnotation → NodeTypeAnnotation
  | ⟨x_typeName⟩ => ⟨W.strip NodeScillaType.strip x_typeName⟩

def NodeTypedIdentifier.strip : NodeTypedIdentifier → NodeTypedIdentifier
  | ⟨x_identifierName, x_annotation⟩ => ⟨W.strip id x_identifierName, W.strip NodeTypeAnnotation.strip x_annotation⟩

def NodeContractTypeArguments.strip : NodeContractTypeArguments → NodeContractTypeArguments
  | ⟨x_typeArguments⟩ => ⟨List.map (W.strip NodeTypeArgument.strip) x_typeArguments⟩

def NodeValueLiteral.strip : NodeValueLiteral → NodeValueLiteral
  | .literalInt x_t x_n => .literalInt (W.strip NodeTypeNameIdentifier.strip x_t) (W.strip id x_n)
  | .literalHex x_s => .literalHex (W.strip id x_s)
  | .literalString x_s => .literalString (W.strip id x_s)
  | .literalEmptyMap x_k x_v => .literalEmptyMap (W.strip NodeTypeMapKey.strip x_k) (W.strip NodeTypeMapValue.strip x_v)

def NodeMessageEntry.strip : NodeMessageEntry → NodeMessageEntry
  | .messageLiteral x_i x_v => .messageLiteral (W.strip NodeVariableIdentifier.strip x_i) (W.strip NodeValueLiteral.strip x_v)
  | .messageVariable x_i x_v => .messageVariable (W.strip NodeVariableIdentifier.strip x_i) (W.strip NodeVariableIdentifier.strip x_v)

def NodeAtomicExpression.strip : NodeAtomicExpression → NodeAtomicExpression
  | .atomicSid x_v => .atomicSid (W.strip NodeVariableIdentifier.strip x_v)
  | .atomicLit x_l => .atomicLit (W.strip NodeValueLiteral.strip x_l)

def NodeMapAccess.strip : NodeMapAccess → NodeMapAccess
  | ⟨x_identifierName⟩ => ⟨W.strip NodeVariableIdentifier.strip x_identifierName⟩

mutual
def NodePattern.strip : NodePattern → NodePattern
  | .wildcard => .wildcard
  | .binder x_s => .binder (W.strip id x_s)
  | .constructor x_m x_args => .constructor (W.strip NodeMetaIdentifier.strip x_m) (NodeArgumentPattern.stripLW x_args)
def NodeArgumentPattern.strip : NodeArgumentPattern → NodeArgumentPattern
  | .wildcardArgument => .wildcardArgument
  | .binderArgument x_s => .binderArgument (W.strip id x_s)
  | .constructorArgument x_m => .constructorArgument (W.strip NodeMetaIdentifier.strip x_m)
  | .patternArgument x_p => .patternArgument (NodePattern.stripW x_p)
def NodeArgumentPattern.stripW : W NodeArgumentPattern → W NodeArgumentPattern
  | ⟨x, _, _⟩ => ⟨NodeArgumentPattern.strip x, default, default⟩
def NodeArgumentPattern.stripLW : List (W NodeArgumentPattern) → List (W NodeArgumentPattern)
  | [] => []
  | x :: xs => NodeArgumentPattern.stripW x :: NodeArgumentPattern.stripLW xs
def NodePattern.stripW : W NodePattern → W NodePattern
  | ⟨x, _, _⟩ => ⟨NodePattern.strip x, default, default⟩
end

mutual
def NodeFullExpression.strip : NodeFullExpression → NodeFullExpression
  | .localVariableDeclaration x_identifierName x_expression x_typeAnnotation x_containingExpression => .localVariableDeclaration (W.strip id x_identifierName) (NodeFullExpression.stripW x_expression) (Option.map (W.strip NodeTypeAnnotation.strip) x_typeAnnotation) (NodeFullExpression.stripW x_containingExpression)
  | .functionDeclaration x_identierValue x_typeAnnotation x_expression => .functionDeclaration (W.strip id x_identierValue) (W.strip NodeTypeAnnotation.strip x_typeAnnotation) (NodeFullExpression.stripW x_expression)
  | .functionCall x_functionName x_argumentList => .functionCall (W.strip NodeVariableIdentifier.strip x_functionName) (List.map (W.strip NodeVariableIdentifier.strip) x_argumentList)
  | .expressionAtomic x_a => .expressionAtomic (W.strip NodeAtomicExpression.strip x_a)
  | .expressionBuiltin x_b x_targs x_xs => .expressionBuiltin (W.strip id x_b) (Option.map (W.strip NodeContractTypeArguments.strip) x_targs) (W.strip NodeBuiltinArguments.strip x_xs)
  | .message x_entries => .message (List.map (W.strip NodeMessageEntry.strip) x_entries)
  | .match_ x_matchExpression x_clauses => .match_ (W.strip NodeVariableIdentifier.strip x_matchExpression) (NodePatternMatchExpressionClause.stripLW x_clauses)
  | .constructorCall x_identifierName x_contractTypeArguments x_argumentList => .constructorCall (W.strip NodeMetaIdentifier.strip x_identifierName) (Option.map (W.strip NodeContractTypeArguments.strip) x_contractTypeArguments) (List.map (W.strip NodeVariableIdentifier.strip) x_argumentList)
  | .templateFunction x_identifierName x_expression => .templateFunction (W.strip id x_identifierName) (NodeFullExpression.stripW x_expression)
  | .tApp x_identifierName x_typeArguments => .tApp (W.strip NodeVariableIdentifier.strip x_identifierName) (List.map (W.strip NodeTypeArgument.strip) x_typeArguments)
def NodePatternMatchExpressionClause.strip : NodePatternMatchExpressionClause → NodePatternMatchExpressionClause
  | .mk x_pattern x_expression => .mk (W.strip NodePattern.strip x_pattern) (NodeFullExpression.stripW x_expression)
def NodeFullExpression.stripW : W NodeFullExpression → W NodeFullExpression
  | ⟨x, _, _⟩ => ⟨NodeFullExpression.strip x, default, default⟩
def NodePatternMatchExpressionClause.stripW : W NodePatternMatchExpressionClause → W NodePatternMatchExpressionClause
  | ⟨x, _, _⟩ => ⟨NodePatternMatchExpressionClause.strip x, default, default⟩
def NodePatternMatchExpressionClause.stripLW : List (W NodePatternMatchExpressionClause) → List (W NodePatternMatchExpressionClause)
  | [] => []
  | x :: xs => NodePatternMatchExpressionClause.stripW x :: NodePatternMatchExpressionClause.stripLW xs
end

def NodeBlockchainFetchArguments.strip : NodeBlockchainFetchArguments → NodeBlockchainFetchArguments
  | ⟨x_arguments⟩ => ⟨List.map (W.strip NodeVariableIdentifier.strip) x_arguments⟩

def NodeComponentId.strip : NodeComponentId → NodeComponentId
  | .withTypeLikeName x_n => .withTypeLikeName (W.strip NodeTypeNameIdentifier.strip x_n)
  | .withRegularId x_s => .withRegularId (W.strip id x_s)

def NodeRemoteFetchStatement.strip : NodeRemoteFetchStatement → NodeRemoteFetchStatement
  | .readStateMutable x_lhs x_address x_v => .readStateMutable (W.strip id x_lhs) (W.strip id x_address) (W.strip NodeVariableIdentifier.strip x_v)
  | .readStateMutableSpecialId x_lhs x_address x_member => .readStateMutableSpecialId (W.strip id x_lhs) (W.strip id x_address) (W.strip id x_member)
  | .readStateMutableMapAccess x_lhs x_address x_member x_keys => .readStateMutableMapAccess (W.strip id x_lhs) (W.strip id x_address) (W.strip id x_member) (List.map (W.strip NodeMapAccess.strip) x_keys)
  | .readStateMutableMapAccessExists x_lhs x_address x_member x_keys => .readStateMutableMapAccessExists (W.strip id x_lhs) (W.strip id x_address) (W.strip id x_member) (List.map (W.strip NodeMapAccess.strip) x_keys)
  | .readStateMutableCastAddress x_lhs x_v x_a => .readStateMutableCastAddress (W.strip id x_lhs) (W.strip NodeVariableIdentifier.strip x_v) (W.strip NodeAddressType.strip x_a)

mutual
def NodeStatement.strip : NodeStatement → NodeStatement
  | .load x_leftHandSide x_rightHandSide => .load (W.strip id x_leftHandSide) (W.strip NodeVariableIdentifier.strip x_rightHandSide)
  | .remoteFetch x_s => .remoteFetch (NodeRemoteFetchStatement.strip x_s)
  | .store x_leftHandSide x_rightHandSide => .store (W.strip id x_leftHandSide) (W.strip NodeVariableIdentifier.strip x_rightHandSide)
  | .bind x_leftHandSide x_rightHandSide => .bind (W.strip id x_leftHandSide) (W.strip NodeFullExpression.strip x_rightHandSide)
  | .readFromBC x_leftHandSide x_typeName x_arguments => .readFromBC (W.strip id x_leftHandSide) (W.strip NodeTypeNameIdentifier.strip x_typeName) (Option.map NodeBlockchainFetchArguments.strip x_arguments)
  | .mapGet x_leftHandSide x_keys x_rightHandSide => .mapGet (W.strip id x_leftHandSide) (List.map (W.strip NodeMapAccess.strip) x_keys) (W.strip id x_rightHandSide)
  | .mapGetExists x_leftHandSide x_keys x_rightHandSide => .mapGetExists (W.strip id x_leftHandSide) (List.map (W.strip NodeMapAccess.strip) x_keys) (W.strip id x_rightHandSide)
  | .mapUpdate x_leftHandSide x_keys x_rightHandSide => .mapUpdate (W.strip id x_leftHandSide) (List.map (W.strip NodeMapAccess.strip) x_keys) (W.strip NodeVariableIdentifier.strip x_rightHandSide)
  | .mapUpdateDelete x_leftHandSide x_keys => .mapUpdateDelete (W.strip id x_leftHandSide) (List.map (W.strip NodeMapAccess.strip) x_keys)
  | .accept => .accept
  | .send x_identifierName => .send (W.strip NodeVariableIdentifier.strip x_identifierName)
  | .createEvnt x_identifierName => .createEvnt (W.strip NodeVariableIdentifier.strip x_identifierName)
  | .throw x_errorVariable => .throw (Option.map (W.strip NodeVariableIdentifier.strip) x_errorVariable)
  | .matchStmt x_var x_clauses => .matchStmt (W.strip NodeVariableIdentifier.strip x_var) (NodePatternMatchClause.stripLW x_clauses)
  | .callProc x_componentId x_arguments => .callProc (W.strip NodeComponentId.strip x_componentId) (List.map (W.strip NodeVariableIdentifier.strip) x_arguments)
  | .iterate x_identifierName x_componentId => .iterate (W.strip NodeVariableIdentifier.strip x_identifierName) (W.strip NodeComponentId.strip x_componentId)
def NodePatternMatchClause.strip : NodePatternMatchClause → NodePatternMatchClause
  | .mk x_patternExpression x_statementBlock => .mk (W.strip NodePattern.strip x_patternExpression) (NodeStatementBlock.stripOW x_statementBlock)
def NodeStatementBlock.strip : NodeStatementBlock → NodeStatementBlock
  | .mk x_statements => .mk (NodeStatement.stripL x_statements)
def NodePatternMatchClause.stripW : W NodePatternMatchClause → W NodePatternMatchClause
  | ⟨x, _, _⟩ => ⟨NodePatternMatchClause.strip x, default, default⟩
def NodePatternMatchClause.stripLW : List (W NodePatternMatchClause) → List (W NodePatternMatchClause)
  | [] => []
  | x :: xs => NodePatternMatchClause.stripW x :: NodePatternMatchClause.stripLW xs
def NodeStatementBlock.stripW : W NodeStatementBlock → W NodeStatementBlock
  | ⟨x, _, _⟩ => ⟨NodeStatementBlock.strip x, default, default⟩
def NodeStatementBlock.stripOW : Option (W NodeStatementBlock) → Option (W NodeStatementBlock)
  | none => none
  | some x => some (NodeStatementBlock.stripW x)
def NodeStatement.stripL : List NodeStatement → List NodeStatement
  | [] => []
  | x :: xs => NodeStatement.strip x :: NodeStatement.stripL xs
end

def NodeParameterPair.strip : NodeParameterPair → NodeParameterPair
  | ⟨x_identifierWithType⟩ => ⟨W.strip NodeTypedIdentifier.strip x_identifierWithType⟩

def NodeComponentParameters.strip : NodeComponentParameters → NodeComponentParameters
  | ⟨x_parameters⟩ => ⟨List.map (W.strip NodeParameterPair.strip) x_parameters⟩

def NodeComponentBody.strip : NodeComponentBody → NodeComponentBody
  | ⟨x_statementBlock⟩ => ⟨Option.map (W.strip NodeStatementBlock.strip) x_statementBlock⟩

def NodeTypeAlternativeClause.strip : NodeTypeAlternativeClause → NodeTypeAlternativeClause
  | .clauseType x_n => .clauseType (W.strip NodeTypeNameIdentifier.strip x_n)
  | .clauseTypeWithArgs x_n x_args => .clauseTypeWithArgs (W.strip NodeTypeNameIdentifier.strip x_n) (List.map (W.strip NodeTypeArgument.strip) x_args)

def NodeLibrarySingleDefinition.strip : NodeLibrarySingleDefinition → NodeLibrarySingleDefinition
  | .letDefinition x_variableName x_typeAnnotation x_expression => .letDefinition (W.strip id x_variableName) (Option.map (W.strip NodeTypeAnnotation.strip) x_typeAnnotation) (W.strip NodeFullExpression.strip x_expression)
  | .typeDefinition x_n x_clauses => .typeDefinition (W.strip NodeTypeNameIdentifier.strip x_n) (Option.map (List.map (W.strip NodeTypeAlternativeClause.strip)) x_clauses)

def NodeLibraryDefinition.strip : NodeLibraryDefinition → NodeLibraryDefinition
  | ⟨x_name, x_definitions⟩ => ⟨W.strip NodeTypeNameIdentifier.strip x_name, List.map (W.strip NodeLibrarySingleDefinition.strip) x_definitions⟩

def NodeContractField.strip : NodeContractField → NodeContractField
  | ⟨x_typedIdentifier, x_rightHandSide⟩ => ⟨W.strip NodeTypedIdentifier.strip x_typedIdentifier, W.strip NodeFullExpression.strip x_rightHandSide⟩

def NodeWithConstraint.strip : NodeWithConstraint → NodeWithConstraint
  | ⟨x_expression⟩ => ⟨W.strip NodeFullExpression.strip x_expression⟩

def NodeProcedureDefinition.strip : NodeProcedureDefinition → NodeProcedureDefinition
  | ⟨x_name, x_parameters, x_body⟩ => ⟨W.strip NodeComponentId.strip x_name, W.strip NodeComponentParameters.strip x_parameters, W.strip NodeComponentBody.strip x_body⟩

def NodeTransitionDefinition.strip : NodeTransitionDefinition → NodeTransitionDefinition
  | ⟨x_name, x_parameters, x_body⟩ => ⟨W.strip NodeComponentId.strip x_name, W.strip NodeComponentParameters.strip x_parameters, W.strip NodeComponentBody.strip x_body⟩

def NodeComponentDefinition.strip : NodeComponentDefinition → NodeComponentDefinition
  | .transitionComponent x_t => .transitionComponent (W.strip NodeTransitionDefinition.strip x_t)
  | .procedureComponent x_p => .procedureComponent (W.strip NodeProcedureDefinition.strip x_p)

def NodeContractDefinition.strip : NodeContractDefinition → NodeContractDefinition
  | ⟨x_contractName, x_parameters, x_constraint, x_fields, x_components⟩ => ⟨W.strip NodeTypeNameIdentifier.strip x_contractName, W.strip NodeComponentParameters.strip x_parameters, Option.map (W.strip NodeWithConstraint.strip) x_constraint, List.map (W.strip NodeContractField.strip) x_fields, List.map (W.strip NodeComponentDefinition.strip) x_components⟩

def NodeProgram.strip : NodeProgram → NodeProgram
  | ⟨x_version, x_importDeclarations, x_libraryDefinition, x_contractDefinition⟩ => ⟨W.strip id x_version, Option.map (W.strip NodeImportDeclarations.strip) x_importDeclarations, Option.map (W.strip NodeLibraryDefinition.strip) x_libraryDefinition, W.strip NodeContractDefinition.strip x_contractDefinition⟩

/-- erasing the positions of the value of a nonterminal -/
def stripV : (n : NT) → Val n → Val n
  | .byteString => NodeByteStr.strip
  | .typeName => W.strip NodeTypeNameIdentifier.strip
  | .importedName => W.strip NodeImportedName.strip
  | .importDecls => W.strip NodeImportDeclarations.strip
  | .metaId => W.strip NodeMetaIdentifier.strip
  | .varId => W.strip NodeVariableIdentifier.strip
  | .builtinArgs => W.strip NodeBuiltinArguments.strip
  | .remaining => W.strip NodeScillaType.strip
  | .funSig => W.strip NodeScillaType.strip
  | .scillaType => W.strip NodeScillaType.strip
  | .typeArg => W.strip NodeTypeArgument.strip
  | .addressType => W.strip NodeAddressType.strip
  | .addressFieldList => List.map (W.strip NodeAddressTypeField.strip)
  | .nextAddressField => W.strip NodeAddressTypeField.strip
  | .addressField => W.strip NodeAddressTypeField.strip
  | .mapKey => W.strip NodeTypeMapKey.strip
  | .mapValue => W.strip NodeTypeMapValue.strip
  | .mapValueArgs => W.strip NodeTypeMapValueArguments.strip
  | .program => NodeProgram.strip
  | .libraryDef => W.strip NodeLibraryDefinition.strip
  | .librarySingle => W.strip NodeLibrarySingleDefinition.strip
  | .typedId => W.strip NodeTypedIdentifier.strip
  | .typeAnn => W.strip NodeTypeAnnotation.strip
  | .typeAlt => W.strip NodeTypeAlternativeClause.strip
  | .mapValueAllowing => W.strip NodeTypeMapValueAllowingTypeArguments.strip
  | .contractTypeArgs => W.strip NodeContractTypeArguments.strip
  | .fullExpr => W.strip NodeFullExpression.strip
  | .pmExprClause => W.strip NodePatternMatchExpressionClause.strip
  | .pattern => W.strip NodePattern.strip
  | .argPattern => W.strip NodeArgumentPattern.strip
  | .nextMessage => W.strip NodeMessageEntry.strip
  | .messageEntry => W.strip NodeMessageEntry.strip
  | .atomic => W.strip NodeAtomicExpression.strip
  | .valueLit => W.strip NodeValueLiteral.strip
  | .statement => NodeStatement.strip
  | .nextStatement => NodeStatement.strip
  | .stmtBlock => W.strip NodeStatementBlock.strip
  | .bcFetchArgs => NodeBlockchainFetchArguments.strip
  | .componentId => W.strip NodeComponentId.strip
  | .pmClause => W.strip NodePatternMatchClause.strip
  | .remoteFetch => NodeRemoteFetchStatement.strip
  | .mapAccess => W.strip NodeMapAccess.strip
  | .paramPair => W.strip NodeParameterPair.strip
  | .nextParamPair => W.strip NodeParameterPair.strip
  | .compParams => W.strip NodeComponentParameters.strip
  | .compDef => W.strip NodeComponentDefinition.strip
  | .transDef => W.strip NodeTransitionDefinition.strip
  | .procDef => W.strip NodeProcedureDefinition.strip
  | .compBody => W.strip NodeComponentBody.strip
  | .contractDef => W.strip NodeContractDefinition.strip
  | .contractField => W.strip NodeContractField.strip
  | .withConstraint => W.strip NodeWithConstraint.strip
  | .hexNumber => W.strip id
  | .signedInt => W.strip id
  | .regularId => W.strip id
  | .specialId => W.strip id
  | .customId => W.strip id
  | .templateId => W.strip id
  | .stringLit => W.strip id
  | .star n => List.map (stripV n)
  | .plus n => List.map (stripV n)
  | .opt n => Option.map (stripV n)

/-- the same for tokens -/
def STok.strip (t : STok) : STok := ⟨default, t.tok, default⟩

end Verif
