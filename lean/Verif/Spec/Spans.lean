import Verif.Model.Ast
import Verif.Spec.Grammar
/-
The spans recorded in a syntax tree: the forest of all `WithMetaData` nodes, in source order, with the
`start` and `stop` each of them records.  Two kinds of nodes are left out, because what they record is
different (see C19_import_span and C19_address_tag): the node of the import declarations (its imported
names are in the forest) and the tag of an address type.
Generated by tools/gen_spans.py from Model/Ast.lean.
-/
namespace Verif

inductive SpanTree where
  | node (start stop : Pos) (children : List SpanTree)

def noSpans {α : Type} (_ : α) : List SpanTree := []

def spanW {α : Type} (f : α → List SpanTree) : W α → List SpanTree
  | ⟨x, a, b⟩ => [.node a b (f x)]

def spanL {α : Type} (f : α → List SpanTree) : List α → List SpanTree
  | [] => []
  | x :: xs => f x ++ spanL f xs

def spanO {α : Type} (f : α → List SpanTree) : Option α → List SpanTree
  | none => []
  | some x => f x

def NodeByteStr.spans : NodeByteStr → List SpanTree
  | .constant x_s => spanW noSpans x_s
  | .type x_s => spanW noSpans x_s

def NodeTypeNameIdentifier.spans : NodeTypeNameIdentifier → List SpanTree
  | .byteStringType x_b => NodeByteStr.spans x_b
  | .eventType => []
  | .typeOrEnumLikeIdentifier x_s => spanW noSpans x_s

def NodeImportedName.spans : NodeImportedName → List SpanTree
  | .regularImport x_n => spanW NodeTypeNameIdentifier.spans x_n
  | .aliasedImport x_n x_alias => spanW NodeTypeNameIdentifier.spans x_n ++ spanW NodeTypeNameIdentifier.spans x_alias

def NodeImportDeclarations.spans : NodeImportDeclarations → List SpanTree
  | ⟨x_importList⟩ => spanL (spanW NodeImportedName.spans) x_importList

def NodeMetaIdentifier.spans : NodeMetaIdentifier → List SpanTree
  | .metaName x_n => spanW NodeTypeNameIdentifier.spans x_n
  | .metaNameInNamespace x_ns x_n => spanW NodeTypeNameIdentifier.spans x_ns ++ spanW NodeTypeNameIdentifier.spans x_n
  | .metaNameInHexspace x_hex x_n => spanW noSpans x_hex ++ spanW NodeTypeNameIdentifier.spans x_n
  | .byteString => []

def NodeVariableIdentifier.spans : NodeVariableIdentifier → List SpanTree
  | .variableName x_s => spanW noSpans x_s
  | .specialIdentifier x_s => spanW noSpans x_s
  | .variableInNamespace x_ns x_s => spanW NodeTypeNameIdentifier.spans x_ns ++ spanW noSpans x_s

def NodeBuiltinArguments.spans : NodeBuiltinArguments → List SpanTree
  | ⟨x_arguments⟩ => spanL (spanW NodeVariableIdentifier.spans) x_arguments

mutual
def NodeTypeMapKey.spans : NodeTypeMapKey → List SpanTree
  | .genericMapKey x_m => spanW NodeMetaIdentifier.spans x_m
  | .enclosedGenericId x_m => spanW NodeMetaIdentifier.spans x_m
  | .enclosedAddressMapKeyType x_a => NodeAddressType.spansW x_a
  | .addressMapKeyType x_a => NodeAddressType.spansW x_a
def NodeTypeMapValue.spans : NodeTypeMapValue → List SpanTree
  | .mapValueTypeOrEnumLikeIdentifier x_m => spanW NodeMetaIdentifier.spans x_m
  | .mapKeyValue x_e => NodeTypeMapEntry.spansW x_e
  | .mapValueParenthesizedType x_t => NodeTypeMapValueAllowingTypeArguments.spansW x_t
  | .mapValueAddressType x_a => NodeAddressType.spansW x_a
def NodeTypeArgument.spans : NodeTypeArgument → List SpanTree
  | .enclosedTypeArgument x_t => NodeScillaType.spansW x_t
  | .genericTypeArgument x_m => spanW NodeMetaIdentifier.spans x_m
  | .templateTypeArgument x_s => spanW noSpans x_s
  | .addressTypeArgument x_a => NodeAddressType.spansW x_a
  | .mapTypeArgument x_k x_v => NodeTypeMapKey.spansW x_k ++ NodeTypeMapValue.spansW x_v
def NodeScillaType.spans : NodeScillaType → List SpanTree
  | .genericTypeWithArgs x_m x_args => spanW NodeMetaIdentifier.spans x_m ++ NodeTypeArgument.spansLW x_args
  | .mapType x_k x_v => NodeTypeMapKey.spansW x_k ++ NodeTypeMapValue.spansW x_v
  | .functionType x_a x_b => NodeScillaType.spansW x_a ++ NodeScillaType.spansW x_b
  | .enclosedType x_t => NodeScillaType.spansW x_t
  | .scillaAddresseType x_a => NodeAddressType.spansW x_a
  | .polyFunctionType x_s x_t => spanW noSpans x_s ++ NodeScillaType.spansW x_t
  | .typeVarType x_s => spanW noSpans x_s
def NodeTypeMapEntry.spans : NodeTypeMapEntry → List SpanTree
  | .mk x_key x_value => NodeTypeMapKey.spansW x_key ++ NodeTypeMapValue.spansW x_value
def NodeAddressTypeField.spans : NodeAddressTypeField → List SpanTree
  | .mk x_identifier x_typeName => spanW NodeVariableIdentifier.spans x_identifier ++ NodeScillaType.spansW x_typeName
def NodeAddressType.spans : NodeAddressType → List SpanTree
  | .mk x_identifier _ x_addressFields => spanW NodeTypeNameIdentifier.spans x_identifier ++ NodeAddressTypeField.spansLW x_addressFields
def NodeTypeMapValueArguments.spans : NodeTypeMapValueArguments → List SpanTree
  | .enclosedTypeMapValue x_t => NodeTypeMapValueAllowingTypeArguments.spansW x_t
  | .genericMapValueArgument x_m => spanW NodeMetaIdentifier.spans x_m
  | .mapKeyValueType x_k x_v => NodeTypeMapKey.spansW x_k ++ NodeTypeMapValue.spansW x_v
def NodeTypeMapValueAllowingTypeArguments.spans : NodeTypeMapValueAllowingTypeArguments → List SpanTree
  | .typeMapValueNoArgs x_v => NodeTypeMapValue.spansW x_v
  | .typeMapValueWithArgs x_m x_args => spanW NodeMetaIdentifier.spans x_m ++ NodeTypeMapValueArguments.spansLW x_args
def NodeAddressType.spansW : W NodeAddressType → List SpanTree
  | ⟨x, a, b⟩ => [.node a b (NodeAddressType.spans x)]
def NodeTypeMapEntry.spansW : W NodeTypeMapEntry → List SpanTree
  | ⟨x, a, b⟩ => [.node a b (NodeTypeMapEntry.spans x)]
def NodeTypeMapValueAllowingTypeArguments.spansW : W NodeTypeMapValueAllowingTypeArguments → List SpanTree
  | ⟨x, a, b⟩ => [.node a b (NodeTypeMapValueAllowingTypeArguments.spans x)]
def NodeScillaType.spansW : W NodeScillaType → List SpanTree
  | ⟨x, a, b⟩ => [.node a b (NodeScillaType.spans x)]
def NodeTypeMapKey.spansW : W NodeTypeMapKey → List SpanTree
  | ⟨x, a, b⟩ => [.node a b (NodeTypeMapKey.spans x)]
def NodeTypeMapValue.spansW : W NodeTypeMapValue → List SpanTree
  | ⟨x, a, b⟩ => [.node a b (NodeTypeMapValue.spans x)]
def NodeTypeArgument.spansW : W NodeTypeArgument → List SpanTree
  | ⟨x, a, b⟩ => [.node a b (NodeTypeArgument.spans x)]
def NodeTypeArgument.spansLW : List (W NodeTypeArgument) → List SpanTree
  | [] => []
  | x :: xs => NodeTypeArgument.spansW x ++ NodeTypeArgument.spansLW xs
def NodeAddressTypeField.spansW : W NodeAddressTypeField → List SpanTree
  | ⟨x, a, b⟩ => [.node a b (NodeAddressTypeField.spans x)]
def NodeAddressTypeField.spansLW : List (W NodeAddressTypeField) → List SpanTree
  | [] => []
  | x :: xs => NodeAddressTypeField.spansW x ++ NodeAddressTypeField.spansLW xs
def NodeTypeMapValueArguments.spansW : W NodeTypeMapValueArguments → List SpanTree
  | ⟨x, a, b⟩ => [.node a b (NodeTypeMapValueArguments.spans x)]
def NodeTypeMapValueArguments.spansLW : List (W NodeTypeMapValueArguments) → List SpanTree
  | [] => []
  | x :: xs => NodeTypeMapValueArguments.spansW x ++ NodeTypeMapValueArguments.spansLW xs
end

def NodeTypeAnnotation.spans : NodeTypeAnnotation → List SpanTree
  | ⟨x_typeName⟩ => spanW NodeScillaType.spans x_typeName

def NodeTypedIdentifier.spans : NodeTypedIdentifier → List SpanTree
  | ⟨x_identifierName, x_annotation⟩ => spanW noSpans x_identifierName ++ spanW NodeTypeAnnotation.spans x_annotation

def NodeContractTypeArguments.spans : NodeContractTypeArguments → List SpanTree
  | ⟨x_typeArguments⟩ => spanL (spanW NodeTypeArgument.spans) x_typeArguments

def NodeValueLiteral.spans : NodeValueLiteral → List SpanTree
  | .literalInt x_t x_n => spanW NodeTypeNameIdentifier.spans x_t ++ spanW noSpans x_n
  | .literalHex x_s => spanW noSpans x_s
  | .literalString x_s => spanW noSpans x_s
  | .literalEmptyMap x_k x_v => spanW NodeTypeMapKey.spans x_k ++ spanW NodeTypeMapValue.spans x_v

def NodeMessageEntry.spans : NodeMessageEntry → List SpanTree
  | .messageLiteral x_i x_v => spanW NodeVariableIdentifier.spans x_i ++ spanW NodeValueLiteral.spans x_v
  | .messageVariable x_i x_v => spanW NodeVariableIdentifier.spans x_i ++ spanW NodeVariableIdentifier.spans x_v

def NodeAtomicExpression.spans : NodeAtomicExpression → List SpanTree
  | .atomicSid x_v => spanW NodeVariableIdentifier.spans x_v
  | .atomicLit x_l => spanW NodeValueLiteral.spans x_l

def NodeMapAccess.spans : NodeMapAccess → List SpanTree
  | ⟨x_identifierName⟩ => spanW NodeVariableIdentifier.spans x_identifierName

mutual
def NodePattern.spans : NodePattern → List SpanTree
  | .wildcard => []
  | .binder x_s => spanW noSpans x_s
  | .constructor x_m x_args => spanW NodeMetaIdentifier.spans x_m ++ NodeArgumentPattern.spansLW x_args
def NodeArgumentPattern.spans : NodeArgumentPattern → List SpanTree
  | .wildcardArgument => []
  | .binderArgument x_s => spanW noSpans x_s
  | .constructorArgument x_m => spanW NodeMetaIdentifier.spans x_m
  | .patternArgument x_p => NodePattern.spansW x_p
def NodeArgumentPattern.spansW : W NodeArgumentPattern → List SpanTree
  | ⟨x, a, b⟩ => [.node a b (NodeArgumentPattern.spans x)]
def NodeArgumentPattern.spansLW : List (W NodeArgumentPattern) → List SpanTree
  | [] => []
  | x :: xs => NodeArgumentPattern.spansW x ++ NodeArgumentPattern.spansLW xs
def NodePattern.spansW : W NodePattern → List SpanTree
  | ⟨x, a, b⟩ => [.node a b (NodePattern.spans x)]
end

mutual
def NodeFullExpression.spans : NodeFullExpression → List SpanTree
  | .localVariableDeclaration x_identifierName x_expression x_typeAnnotation x_containingExpression => spanW noSpans x_identifierName ++ (spanO (spanW NodeTypeAnnotation.spans) x_typeAnnotation ++ (NodeFullExpression.spansW x_expression ++ NodeFullExpression.spansW x_containingExpression))
  | .functionDeclaration x_identierValue x_typeAnnotation x_expression => spanW noSpans x_identierValue ++ (spanW NodeTypeAnnotation.spans x_typeAnnotation ++ NodeFullExpression.spansW x_expression)
  | .functionCall x_functionName x_argumentList => spanW NodeVariableIdentifier.spans x_functionName ++ spanL (spanW NodeVariableIdentifier.spans) x_argumentList
  | .expressionAtomic x_a => spanW NodeAtomicExpression.spans x_a
  | .expressionBuiltin x_b x_targs x_xs => spanW noSpans x_b ++ (spanO (spanW NodeContractTypeArguments.spans) x_targs ++ spanW NodeBuiltinArguments.spans x_xs)
  | .message x_entries => spanL (spanW NodeMessageEntry.spans) x_entries
  | .match_ x_matchExpression x_clauses => spanW NodeVariableIdentifier.spans x_matchExpression ++ NodePatternMatchExpressionClause.spansLW x_clauses
  | .constructorCall x_identifierName x_contractTypeArguments x_argumentList => spanW NodeMetaIdentifier.spans x_identifierName ++ (spanO (spanW NodeContractTypeArguments.spans) x_contractTypeArguments ++ spanL (spanW NodeVariableIdentifier.spans) x_argumentList)
  | .templateFunction x_identifierName x_expression => spanW noSpans x_identifierName ++ NodeFullExpression.spansW x_expression
  | .tApp x_identifierName x_typeArguments => spanW NodeVariableIdentifier.spans x_identifierName ++ spanL (spanW NodeTypeArgument.spans) x_typeArguments
def NodePatternMatchExpressionClause.spans : NodePatternMatchExpressionClause → List SpanTree
  | .mk x_pattern x_expression => spanW NodePattern.spans x_pattern ++ NodeFullExpression.spansW x_expression
def NodeFullExpression.spansW : W NodeFullExpression → List SpanTree
  | ⟨x, a, b⟩ => [.node a b (NodeFullExpression.spans x)]
def NodePatternMatchExpressionClause.spansW : W NodePatternMatchExpressionClause → List SpanTree
  | ⟨x, a, b⟩ => [.node a b (NodePatternMatchExpressionClause.spans x)]
def NodePatternMatchExpressionClause.spansLW : List (W NodePatternMatchExpressionClause) → List SpanTree
  | [] => []
  | x :: xs => NodePatternMatchExpressionClause.spansW x ++ NodePatternMatchExpressionClause.spansLW xs
end

def NodeBlockchainFetchArguments.spans : NodeBlockchainFetchArguments → List SpanTree
  | ⟨x_arguments⟩ => spanL (spanW NodeVariableIdentifier.spans) x_arguments

def NodeComponentId.spans : NodeComponentId → List SpanTree
  | .withTypeLikeName x_n => spanW NodeTypeNameIdentifier.spans x_n
  | .withRegularId x_s => spanW noSpans x_s

def NodeRemoteFetchStatement.spans : NodeRemoteFetchStatement → List SpanTree
  | .readStateMutable x_lhs x_address x_v => spanW noSpans x_lhs ++ (spanW noSpans x_address ++ spanW NodeVariableIdentifier.spans x_v)
  | .readStateMutableSpecialId x_lhs x_address x_member => spanW noSpans x_lhs ++ (spanW noSpans x_address ++ spanW noSpans x_member)
  | .readStateMutableMapAccess x_lhs x_address x_member x_keys => spanW noSpans x_lhs ++ (spanW noSpans x_address ++ (spanW noSpans x_member ++ spanL (spanW NodeMapAccess.spans) x_keys))
  | .readStateMutableMapAccessExists x_lhs x_address x_member x_keys => spanW noSpans x_lhs ++ (spanW noSpans x_address ++ (spanW noSpans x_member ++ spanL (spanW NodeMapAccess.spans) x_keys))
  | .readStateMutableCastAddress x_lhs x_v x_a => spanW noSpans x_lhs ++ (spanW NodeVariableIdentifier.spans x_v ++ spanW NodeAddressType.spans x_a)

mutual
def NodeStatement.spans : NodeStatement → List SpanTree
  | .load x_leftHandSide x_rightHandSide => spanW noSpans x_leftHandSide ++ spanW NodeVariableIdentifier.spans x_rightHandSide
  | .remoteFetch x_s => NodeRemoteFetchStatement.spans x_s
  | .store x_leftHandSide x_rightHandSide => spanW noSpans x_leftHandSide ++ spanW NodeVariableIdentifier.spans x_rightHandSide
  | .bind x_leftHandSide x_rightHandSide => spanW noSpans x_leftHandSide ++ spanW NodeFullExpression.spans x_rightHandSide
  | .readFromBC x_leftHandSide x_typeName x_arguments => spanW noSpans x_leftHandSide ++ (spanW NodeTypeNameIdentifier.spans x_typeName ++ spanO NodeBlockchainFetchArguments.spans x_arguments)
  | .mapGet x_leftHandSide x_keys x_rightHandSide => spanW noSpans x_leftHandSide ++ (spanW noSpans x_rightHandSide ++ spanL (spanW NodeMapAccess.spans) x_keys)
  | .mapGetExists x_leftHandSide x_keys x_rightHandSide => spanW noSpans x_leftHandSide ++ (spanW noSpans x_rightHandSide ++ spanL (spanW NodeMapAccess.spans) x_keys)
  | .mapUpdate x_leftHandSide x_keys x_rightHandSide => spanW noSpans x_leftHandSide ++ (spanL (spanW NodeMapAccess.spans) x_keys ++ spanW NodeVariableIdentifier.spans x_rightHandSide)
  | .mapUpdateDelete x_leftHandSide x_keys => spanW noSpans x_leftHandSide ++ spanL (spanW NodeMapAccess.spans) x_keys
  | .accept => []
  | .send x_identifierName => spanW NodeVariableIdentifier.spans x_identifierName
  | .createEvnt x_identifierName => spanW NodeVariableIdentifier.spans x_identifierName
  | .throw x_errorVariable => spanO (spanW NodeVariableIdentifier.spans) x_errorVariable
  | .matchStmt x_var x_clauses => spanW NodeVariableIdentifier.spans x_var ++ NodePatternMatchClause.spansLW x_clauses
  | .callProc x_componentId x_arguments => spanW NodeComponentId.spans x_componentId ++ spanL (spanW NodeVariableIdentifier.spans) x_arguments
  | .iterate x_identifierName x_componentId => spanW NodeVariableIdentifier.spans x_identifierName ++ spanW NodeComponentId.spans x_componentId
def NodePatternMatchClause.spans : NodePatternMatchClause → List SpanTree
  | .mk x_patternExpression x_statementBlock => spanW NodePattern.spans x_patternExpression ++ NodeStatementBlock.spansOW x_statementBlock
def NodeStatementBlock.spans : NodeStatementBlock → List SpanTree
  | .mk x_statements => NodeStatement.spansL x_statements
def NodePatternMatchClause.spansW : W NodePatternMatchClause → List SpanTree
  | ⟨x, a, b⟩ => [.node a b (NodePatternMatchClause.spans x)]
def NodePatternMatchClause.spansLW : List (W NodePatternMatchClause) → List SpanTree
  | [] => []
  | x :: xs => NodePatternMatchClause.spansW x ++ NodePatternMatchClause.spansLW xs
def NodeStatementBlock.spansW : W NodeStatementBlock → List SpanTree
  | ⟨x, a, b⟩ => [.node a b (NodeStatementBlock.spans x)]
def NodeStatementBlock.spansOW : Option (W NodeStatementBlock) → List SpanTree
  | none => []
  | some x => NodeStatementBlock.spansW x
def NodeStatement.spansL : List NodeStatement → List SpanTree
  | [] => []
  | x :: xs => NodeStatement.spans x ++ NodeStatement.spansL xs
end

def NodeParameterPair.spans : NodeParameterPair → List SpanTree
  | ⟨x_identifierWithType⟩ => spanW NodeTypedIdentifier.spans x_identifierWithType

def NodeComponentParameters.spans : NodeComponentParameters → List SpanTree
  | ⟨x_parameters⟩ => spanL (spanW NodeParameterPair.spans) x_parameters

def NodeComponentBody.spans : NodeComponentBody → List SpanTree
  | ⟨x_statementBlock⟩ => spanO (spanW NodeStatementBlock.spans) x_statementBlock

def NodeTypeAlternativeClause.spans : NodeTypeAlternativeClause → List SpanTree
  | .clauseType x_n => spanW NodeTypeNameIdentifier.spans x_n
  | .clauseTypeWithArgs x_n x_args => spanW NodeTypeNameIdentifier.spans x_n ++ spanL (spanW NodeTypeArgument.spans) x_args

def NodeLibrarySingleDefinition.spans : NodeLibrarySingleDefinition → List SpanTree
  | .letDefinition x_variableName x_typeAnnotation x_expression => spanW noSpans x_variableName ++ (spanO (spanW NodeTypeAnnotation.spans) x_typeAnnotation ++ spanW NodeFullExpression.spans x_expression)
  | .typeDefinition x_n x_clauses => spanW NodeTypeNameIdentifier.spans x_n ++ spanO (spanL (spanW NodeTypeAlternativeClause.spans)) x_clauses

def NodeLibraryDefinition.spans : NodeLibraryDefinition → List SpanTree
  | ⟨x_name, x_definitions⟩ => spanW NodeTypeNameIdentifier.spans x_name ++ spanL (spanW NodeLibrarySingleDefinition.spans) x_definitions

def NodeContractField.spans : NodeContractField → List SpanTree
  | ⟨x_typedIdentifier, x_rightHandSide⟩ => spanW NodeTypedIdentifier.spans x_typedIdentifier ++ spanW NodeFullExpression.spans x_rightHandSide

def NodeWithConstraint.spans : NodeWithConstraint → List SpanTree
  | ⟨x_expression⟩ => spanW NodeFullExpression.spans x_expression

def NodeProcedureDefinition.spans : NodeProcedureDefinition → List SpanTree
  | ⟨x_name, x_parameters, x_body⟩ => spanW NodeComponentId.spans x_name ++ (spanW NodeComponentParameters.spans x_parameters ++ spanW NodeComponentBody.spans x_body)

def NodeTransitionDefinition.spans : NodeTransitionDefinition → List SpanTree
  | ⟨x_name, x_parameters, x_body⟩ => spanW NodeComponentId.spans x_name ++ (spanW NodeComponentParameters.spans x_parameters ++ spanW NodeComponentBody.spans x_body)

def NodeComponentDefinition.spans : NodeComponentDefinition → List SpanTree
  | .transitionComponent x_t => spanW NodeTransitionDefinition.spans x_t
  | .procedureComponent x_p => spanW NodeProcedureDefinition.spans x_p

def NodeContractDefinition.spans : NodeContractDefinition → List SpanTree
  | ⟨x_contractName, x_parameters, x_constraint, x_fields, x_components⟩ => spanW NodeTypeNameIdentifier.spans x_contractName ++ (spanW NodeComponentParameters.spans x_parameters ++ (spanO (spanW NodeWithConstraint.spans) x_constraint ++ (spanL (spanW NodeContractField.spans) x_fields ++ spanL (spanW NodeComponentDefinition.spans) x_components)))

def NodeProgram.spans : NodeProgram → List SpanTree
  | ⟨x_version, x_importDeclarations, x_libraryDefinition, x_contractDefinition⟩ => spanW noSpans x_version ++ (spanO (fun d => NodeImportDeclarations.spans d.node) x_importDeclarations ++ (spanO (spanW NodeLibraryDefinition.spans) x_libraryDefinition ++ spanW NodeContractDefinition.spans x_contractDefinition))

/-- the same for the value of a nonterminal -/
def spansV : (n : NT) → Val n → List SpanTree
  | .byteString => NodeByteStr.spans
  | .typeName => spanW NodeTypeNameIdentifier.spans
  | .importedName => spanW NodeImportedName.spans
  | .importDecls => fun d => NodeImportDeclarations.spans d.node
  | .metaId => spanW NodeMetaIdentifier.spans
  | .varId => spanW NodeVariableIdentifier.spans
  | .builtinArgs => spanW NodeBuiltinArguments.spans
  | .remaining => spanW NodeScillaType.spans
  | .funSig => spanW NodeScillaType.spans
  | .scillaType => spanW NodeScillaType.spans
  | .typeArg => spanW NodeTypeArgument.spans
  | .addressType => spanW NodeAddressType.spans
  | .addressFieldList => spanL (spanW NodeAddressTypeField.spans)
  | .nextAddressField => spanW NodeAddressTypeField.spans
  | .addressField => spanW NodeAddressTypeField.spans
  | .mapKey => spanW NodeTypeMapKey.spans
  | .mapValue => spanW NodeTypeMapValue.spans
  | .mapValueArgs => spanW NodeTypeMapValueArguments.spans
  | .program => NodeProgram.spans
  | .libraryDef => spanW NodeLibraryDefinition.spans
  | .librarySingle => spanW NodeLibrarySingleDefinition.spans
  | .typedId => spanW NodeTypedIdentifier.spans
  | .typeAnn => spanW NodeTypeAnnotation.spans
  | .typeAlt => spanW NodeTypeAlternativeClause.spans
  | .mapValueAllowing => spanW NodeTypeMapValueAllowingTypeArguments.spans
  | .contractTypeArgs => spanW NodeContractTypeArguments.spans
  | .fullExpr => spanW NodeFullExpression.spans
  | .pmExprClause => spanW NodePatternMatchExpressionClause.spans
  | .pattern => spanW NodePattern.spans
  | .argPattern => spanW NodeArgumentPattern.spans
  | .nextMessage => spanW NodeMessageEntry.spans
  | .messageEntry => spanW NodeMessageEntry.spans
  | .atomic => spanW NodeAtomicExpression.spans
  | .valueLit => spanW NodeValueLiteral.spans
  | .statement => NodeStatement.spans
  | .nextStatement => NodeStatement.spans
  | .stmtBlock => spanW NodeStatementBlock.spans
  | .bcFetchArgs => NodeBlockchainFetchArguments.spans
  | .componentId => spanW NodeComponentId.spans
  | .pmClause => spanW NodePatternMatchClause.spans
  | .remoteFetch => NodeRemoteFetchStatement.spans
  | .mapAccess => spanW NodeMapAccess.spans
  | .paramPair => spanW NodeParameterPair.spans
  | .nextParamPair => spanW NodeParameterPair.spans
  | .compParams => spanW NodeComponentParameters.spans
  | .compDef => spanW NodeComponentDefinition.spans
  | .transDef => spanW NodeTransitionDefinition.spans
  | .procDef => spanW NodeProcedureDefinition.spans
  | .compBody => spanW NodeComponentBody.spans
  | .contractDef => spanW NodeContractDefinition.spans
  | .contractField => spanW NodeContractField.spans
  | .withConstraint => spanW NodeWithConstraint.spans
  | .hexNumber => spanW noSpans
  | .signedInt => spanW noSpans
  | .regularId => spanW noSpans
  | .specialId => spanW noSpans
  | .customId => spanW noSpans
  | .templateId => spanW noSpans
  | .stringLit => spanW noSpans
  | .star n => spanL (spansV n)
  | .plus n => spanL (spansV n)
  | .opt n => spanO (spansV n)

/-- `run` is a phrase of the grammar whose syntax tree is (up to kinds and texts) `t`. -/
def Phrase (run : List STok) (t : SpanTree) : Prop :=
  ∃ (n : NT) (v : Val n), Derives n run v ∧ spansV n v = [t]

/-- The forest `f` fits the tokens `w`: its trees, from left to right, belong to disjoint non-empty runs
of consecutive tokens of `w`; each run is a phrase of the grammar with this tree; the recorded start
(stop) is the start (stop) of the first (last) token of the run; the children of a node fit the run of
the node. -/
inductive Fits : List STok → List SpanTree → Prop
  | nil (w : List STok) : Fits w []
  | cons (before run after : List STok) (children rest : List SpanTree) : run ≠ [] →
      Phrase run (.node (startOf run) (stopOf run) children) →
      Fits run children → Fits after rest →
      Fits (before ++ (run ++ after)) (.node (startOf run) (stopOf run) children :: rest)

end Verif
