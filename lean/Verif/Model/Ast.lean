import Verif.Model.Basic
/-
The syntax tree: src/ast/nodes.rs.  Every type is transliterated constructor by constructor
(`Box<T>` is `T`, `Vec<T>` is `List T`, `String` is `Str`).  Structures that take part in mutual
recursion become one-constructor inductives `mk` with the fields in source order.
-/
namespace Verif

/-- `WithMetaData<T>`, src/ast/nodes.rs 7-14 (`end` is a Lean keyword, hence `stop`). -/
structure W (α : Type) where
  node : α
  start : Pos
  stop : Pos
deriving DecidableEq, Repr

/-- nodes.rs 26-33 -/
inductive NodeByteStr where
  | constant (s : W Str)
  | type (s : W Str)
deriving DecidableEq, Repr

/-- nodes.rs 47-57 -/
inductive NodeTypeNameIdentifier where
  | byteStringType (b : NodeByteStr)
  | eventType
  | typeOrEnumLikeIdentifier (s : W Str)
deriving DecidableEq, Repr

/-- nodes.rs 74-84 -/
inductive NodeImportedName where
  | regularImport (n : W NodeTypeNameIdentifier)
  | aliasedImport (n alias : W NodeTypeNameIdentifier)
deriving DecidableEq, Repr

/-- nodes.rs 88-90 -/
structure NodeImportDeclarations where
  importList : List (W NodeImportedName)
deriving DecidableEq, Repr

/-- nodes.rs 94-110 -/
inductive NodeMetaIdentifier where
  | metaName (n : W NodeTypeNameIdentifier)
  | metaNameInNamespace (ns n : W NodeTypeNameIdentifier)
  | metaNameInHexspace (hex : W Str) (n : W NodeTypeNameIdentifier)
  | byteString
deriving DecidableEq, Repr

/-- nodes.rs 132-142 -/
inductive NodeVariableIdentifier where
  | variableName (s : W Str)
  | specialIdentifier (s : W Str)
  | variableInNamespace (ns : W NodeTypeNameIdentifier) (s : W Str)
deriving DecidableEq, Repr

/-- nodes.rs 159-161 -/
structure NodeBuiltinArguments where
  arguments : List (W NodeVariableIdentifier)
deriving DecidableEq, Repr

mutual
/-- nodes.rs 165-178 -/
inductive NodeTypeMapKey where
  | genericMapKey (m : W NodeMetaIdentifier)
  | enclosedGenericId (m : W NodeMetaIdentifier)
  | enclosedAddressMapKeyType (a : W NodeAddressType)
  | addressMapKeyType (a : W NodeAddressType)

/-- nodes.rs 182-195 -/
inductive NodeTypeMapValue where
  | mapValueTypeOrEnumLikeIdentifier (m : W NodeMetaIdentifier)
  | mapKeyValue (e : W NodeTypeMapEntry)
  | mapValueParenthesizedType (t : W NodeTypeMapValueAllowingTypeArguments)
  | mapValueAddressType (a : W NodeAddressType)

/-- nodes.rs 199-215 -/
inductive NodeTypeArgument where
  | enclosedTypeArgument (t : W NodeScillaType)
  | genericTypeArgument (m : W NodeMetaIdentifier)
  | templateTypeArgument (s : W Str)
  | addressTypeArgument (a : W NodeAddressType)
  | mapTypeArgument (k : W NodeTypeMapKey) (v : W NodeTypeMapValue)

/-- nodes.rs 219-247 -/
inductive NodeScillaType where
  | genericTypeWithArgs (m : W NodeMetaIdentifier) (args : List (W NodeTypeArgument))
  | mapType (k : W NodeTypeMapKey) (v : W NodeTypeMapValue)
  | functionType (a b : W NodeScillaType)
  | enclosedType (t : W NodeScillaType)
  | scillaAddresseType (a : W NodeAddressType)
  | polyFunctionType (s : W Str) (t : W NodeScillaType)
  | typeVarType (s : W Str)

/-- nodes.rs 251-254: fields `key`, `value` -/
inductive NodeTypeMapEntry where
  | mk (key : W NodeTypeMapKey) (value : W NodeTypeMapValue)

/-- nodes.rs 258-261: fields `identifier`, `type_name` -/
inductive NodeAddressTypeField where
  | mk (identifier : W NodeVariableIdentifier) (typeName : W NodeScillaType)

/-- nodes.rs 265-269: fields `identifier`, `type_name`, `address_fields` -/
inductive NodeAddressType where
  | mk (identifier : W NodeTypeNameIdentifier) (typeName : W Str)
      (addressFields : List (W NodeAddressTypeField))

/-- nodes.rs 799-809 -/
inductive NodeTypeMapValueArguments where
  | enclosedTypeMapValue (t : W NodeTypeMapValueAllowingTypeArguments)
  | genericMapValueArgument (m : W NodeMetaIdentifier)
  | mapKeyValueType (k : W NodeTypeMapKey) (v : W NodeTypeMapValue)

/-- nodes.rs 814-824 -/
inductive NodeTypeMapValueAllowingTypeArguments where
  | typeMapValueNoArgs (v : W NodeTypeMapValue)
  | typeMapValueWithArgs (m : W NodeMetaIdentifier) (args : List (W NodeTypeMapValueArguments))
end

/-- nodes.rs 661-664 -/
structure NodeTypeAnnotation where
  typeName : W NodeScillaType

/-- nodes.rs 651-656 -/
structure NodeTypedIdentifier where
  identifierName : W Str
  annotation : W NodeTypeAnnotation

/-- nodes.rs 379-382 -/
structure NodeContractTypeArguments where
  typeArguments : List (W NodeTypeArgument)

/-- nodes.rs 387-400 -/
inductive NodeValueLiteral where
  | literalInt (t : W NodeTypeNameIdentifier) (n : W Str)
  | literalHex (s : W Str)
  | literalString (s : W Str)
  | literalEmptyMap (k : W NodeTypeMapKey) (v : W NodeTypeMapValue)

/-- nodes.rs 339-352 -/
inductive NodeMessageEntry where
  | messageLiteral (i : W NodeVariableIdentifier) (v : W NodeValueLiteral)
  | messageVariable (i v : W NodeVariableIdentifier)

/-- nodes.rs 367-374 -/
inductive NodeAtomicExpression where
  | atomicSid (v : W NodeVariableIdentifier)
  | atomicLit (l : W NodeValueLiteral)

/-- nodes.rs 405-408 -/
structure NodeMapAccess where
  identifierName : W NodeVariableIdentifier

mutual
/-- nodes.rs 413-426 -/
inductive NodePattern where
  | wildcard
  | binder (s : W Str)
  | constructor (m : W NodeMetaIdentifier) (args : List (W NodeArgumentPattern))

/-- nodes.rs 431-444 -/
inductive NodeArgumentPattern where
  | wildcardArgument
  | binderArgument (s : W Str)
  | constructorArgument (m : W NodeMetaIdentifier)
  | patternArgument (p : W NodePattern)
end

mutual
/-- nodes.rs 273-333 -/
inductive NodeFullExpression where
  | localVariableDeclaration (identifierName : W Str) (expression : W NodeFullExpression)
      (typeAnnotation : Option (W NodeTypeAnnotation)) (containingExpression : W NodeFullExpression)
  | functionDeclaration (identierValue : W Str) (typeAnnotation : W NodeTypeAnnotation)
      (expression : W NodeFullExpression)
  | functionCall (functionName : W NodeVariableIdentifier)
      (argumentList : List (W NodeVariableIdentifier))
  | expressionAtomic (a : W NodeAtomicExpression)
  | expressionBuiltin (b : W Str) (targs : Option (W NodeContractTypeArguments))
      (xs : W NodeBuiltinArguments)
  | message (entries : List (W NodeMessageEntry))
  | match_ (matchExpression : W NodeVariableIdentifier)
      (clauses : List (W NodePatternMatchExpressionClause))
  | constructorCall (identifierName : W NodeMetaIdentifier)
      (contractTypeArguments : Option (W NodeContractTypeArguments))
      (argumentList : List (W NodeVariableIdentifier))
  | templateFunction (identifierName : W Str) (expression : W NodeFullExpression)
  | tApp (identifierName : W NodeVariableIdentifier) (typeArguments : List (W NodeTypeArgument))

/-- nodes.rs 357-362: fields `pattern`, `expression` -/
inductive NodePatternMatchExpressionClause where
  | mk (pattern : W NodePattern) (expression : W NodeFullExpression)
end

/-- nodes.rs 459-462 -/
structure NodeBlockchainFetchArguments where
  arguments : List (W NodeVariableIdentifier)

/-- nodes.rs 607-614 -/
inductive NodeComponentId where
  | withTypeLikeName (n : W NodeTypeNameIdentifier)
  | withRegularId (s : W Str)

/-- nodes.rs 564-602 -/
inductive NodeRemoteFetchStatement where
  | readStateMutable (lhs address : W Str) (v : W NodeVariableIdentifier)
  | readStateMutableSpecialId (lhs address member : W Str)
  | readStateMutableMapAccess (lhs address member : W Str) (keys : List (W NodeMapAccess))
  | readStateMutableMapAccessExists (lhs address member : W Str) (keys : List (W NodeMapAccess))
  | readStateMutableCastAddress (lhs : W Str) (v : W NodeVariableIdentifier) (a : W NodeAddressType)

mutual
/-- nodes.rs 467-559 -/
inductive NodeStatement where
  | load (leftHandSide : W Str) (rightHandSide : W NodeVariableIdentifier)
  | remoteFetch (s : NodeRemoteFetchStatement)
  | store (leftHandSide : W Str) (rightHandSide : W NodeVariableIdentifier)
  | bind (leftHandSide : W Str) (rightHandSide : W NodeFullExpression)
  | readFromBC (leftHandSide : W Str) (typeName : W NodeTypeNameIdentifier)
      (arguments : Option NodeBlockchainFetchArguments)
  | mapGet (leftHandSide : W Str) (keys : List (W NodeMapAccess)) (rightHandSide : W Str)
  | mapGetExists (leftHandSide : W Str) (keys : List (W NodeMapAccess)) (rightHandSide : W Str)
  | mapUpdate (leftHandSide : W Str) (keys : List (W NodeMapAccess))
      (rightHandSide : W NodeVariableIdentifier)
  | mapUpdateDelete (leftHandSide : W Str) (keys : List (W NodeMapAccess))
  | accept
  | send (identifierName : W NodeVariableIdentifier)
  | createEvnt (identifierName : W NodeVariableIdentifier)
  | throw (errorVariable : Option (W NodeVariableIdentifier))
  | matchStmt (var : W NodeVariableIdentifier) (clauses : List (W NodePatternMatchClause))
  | callProc (componentId : W NodeComponentId) (arguments : List (W NodeVariableIdentifier))
  | iterate (identifierName : W NodeVariableIdentifier) (componentId : W NodeComponentId)

/-- nodes.rs 449-454: fields `pattern_expression`, `statement_block` -/
inductive NodePatternMatchClause where
  | mk (patternExpression : W NodePattern) (statementBlock : Option (W NodeStatementBlock))

/-- nodes.rs 643-646: field `statements` -/
inductive NodeStatementBlock where
  | mk (statements : List NodeStatement)
end

/-- nodes.rs 627-630 -/
structure NodeParameterPair where
  identifierWithType : W NodeTypedIdentifier

/-- nodes.rs 619-622 -/
structure NodeComponentParameters where
  parameters : List (W NodeParameterPair)

/-- nodes.rs 635-638 -/
structure NodeComponentBody where
  statementBlock : Option (W NodeStatementBlock)

/-- nodes.rs 784-794 -/
inductive NodeTypeAlternativeClause where
  | clauseType (n : W NodeTypeNameIdentifier)
  | clauseTypeWithArgs (n : W NodeTypeNameIdentifier) (args : List (W NodeTypeArgument))

/-- nodes.rs 693-708 -/
inductive NodeLibrarySingleDefinition where
  | letDefinition (variableName : W Str) (typeAnnotation : Option (W NodeTypeAnnotation))
      (expression : W NodeFullExpression)
  | typeDefinition (n : W NodeTypeNameIdentifier)
      (clauses : Option (List (W NodeTypeAlternativeClause)))

/-- nodes.rs 683-688 -/
structure NodeLibraryDefinition where
  name : W NodeTypeNameIdentifier
  definitions : List (W NodeLibrarySingleDefinition)

/-- nodes.rs 729-734 -/
structure NodeContractField where
  typedIdentifier : W NodeTypedIdentifier
  rightHandSide : W NodeFullExpression

/-- nodes.rs 739-742 -/
structure NodeWithConstraint where
  expression : W NodeFullExpression

/-- nodes.rs 759-766 -/
structure NodeProcedureDefinition where
  name : W NodeComponentId
  parameters : W NodeComponentParameters
  body : W NodeComponentBody

/-- nodes.rs 772-779 -/
structure NodeTransitionDefinition where
  name : W NodeComponentId
  parameters : W NodeComponentParameters
  body : W NodeComponentBody

/-- nodes.rs 747-754 -/
inductive NodeComponentDefinition where
  | transitionComponent (t : W NodeTransitionDefinition)
  | procedureComponent (p : W NodeProcedureDefinition)

/-- nodes.rs 713-724 -/
structure NodeContractDefinition where
  contractName : W NodeTypeNameIdentifier
  parameters : W NodeComponentParameters
  constraint : Option (W NodeWithConstraint)
  fields : List (W NodeContractField)
  components : List (W NodeComponentDefinition)

/-- nodes.rs 669-678 -/
structure NodeProgram where
  version : W Str
  importDeclarations : Option (W NodeImportDeclarations)
  libraryDefinition : Option (W NodeLibraryDefinition)
  contractDefinition : W NodeContractDefinition

/-! ### `Display` implementations used by the emitter -/

/-- `impl Display for NodeByteStr`, nodes.rs 35-40 -/
def NodeByteStr.display : NodeByteStr → Str
  | .constant s => s.node
  | .type s => s.node

/-- `impl Display for NodeTypeNameIdentifier`, nodes.rs 59-67 -/
def NodeTypeNameIdentifier.display : NodeTypeNameIdentifier → Str
  | .byteStringType b => b.display
  | .eventType => ['E', 'v', 'e', 'n', 't']
  | .typeOrEnumLikeIdentifier s => s.node

/-- `impl Display for NodeMetaIdentifier`, nodes.rs 112-125 -/
def NodeMetaIdentifier.display : NodeMetaIdentifier → Str
  | .metaName n => n.node.display
  | .metaNameInNamespace ns n => ns.node.display ++ '.' :: n.node.display
  | .metaNameInHexspace h n => h.node ++ '.' :: n.node.display
  | .byteString => ['B', 'y', 'S', 't', 'r']

/-- `impl Display for NodeVariableIdentifier`, nodes.rs 144-152 -/
def NodeVariableIdentifier.display : NodeVariableIdentifier → Str
  | .variableName n => n.node
  | .specialIdentifier n => n.node
  | .variableInNamespace ns n => ns.node.display ++ '.' :: n.node

end Verif
