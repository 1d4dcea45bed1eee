import Verif.Model.Ast
import Verif.Spec.Grammar
/-
How to write a syntax tree back as tokens.  One function per type of src/ast/nodes.rs, one equation
per constructor; each writes what the production of src/parser/parser.lalrpop that builds this
node consumes (the productions are cited in Spec/Grammar.lean).  Positions are not looked at.
The trees do not record three things, which are written in one fixed way:
* all imports after one `import`;
* a builtin without arguments with `()`, one with arguments without;
* the parameters without a leading comma.
-/
namespace Verif

def NodeByteStr.toks : NodeByteStr → List Token
  | .constant s => [.byStrWithSize s.node]
  | .type s => [.byStrWithSize s.node]

def NodeTypeNameIdentifier.toks : NodeTypeNameIdentifier → List Token
  | .byteStringType b => b.toks
  | .eventType => [.eventType]
  | .typeOrEnumLikeIdentifier s => [.customIdentifier s.node]

def NodeImportedName.toks : NodeImportedName → List Token
  | .regularImport n => n.node.toks
  | .aliasedImport n a => n.node.toks ++ .as_ :: a.node.toks

def NodeImportDeclarations.toks (d : NodeImportDeclarations) : List Token :=
  .import_ :: d.importList.flatMap (·.node.toks)

def NodeMetaIdentifier.toks : NodeMetaIdentifier → List Token
  | .metaName n => n.node.toks
  | .metaNameInNamespace l r => l.node.toks ++ .dot :: r.node.toks
  | .metaNameInHexspace l r => .hexNumber l.node :: .dot :: r.node.toks
  | .byteString => [.byStr]

def NodeVariableIdentifier.toks : NodeVariableIdentifier → List Token
  | .variableName n => [.identifier n.node]
  | .specialIdentifier n => [.specialIdentifier n.node]
  | .variableInNamespace l r => l.node.toks ++ [.dot, .identifier r.node]

def NodeBuiltinArguments.toks (b : NodeBuiltinArguments) : List Token :=
  if b.arguments = [] then [.openParen, .closeParen] else b.arguments.flatMap (·.node.toks)

/-- what stands between `with` and `end` in an address type -/
def addressTag (tag : Str) (fields : List Token) : List Token :=
  if tag = [] then []
  else if tag = str! "contract" then .contract :: fields
  else if tag = str! "library" then [.library]
  else [.specialIdentifier tag]

mutual
def NodeTypeMapKey.toks : NodeTypeMapKey → List Token
  | .genericMapKey m => m.node.toks
  | .enclosedGenericId m => .openParen :: (m.node.toks ++ [.closeParen])
  | .enclosedAddressMapKeyType ⟨a, _, _⟩ => .openParen :: (a.toks ++ [.closeParen])
  | .addressMapKeyType ⟨a, _, _⟩ => a.toks
def NodeTypeMapValue.toks : NodeTypeMapValue → List Token
  | .mapValueTypeOrEnumLikeIdentifier m => m.node.toks
  | .mapKeyValue ⟨e, _, _⟩ => e.toks
  | .mapValueParenthesizedType ⟨t, _, _⟩ => .openParen :: (t.toks ++ [.closeParen])
  | .mapValueAddressType ⟨a, _, _⟩ => a.toks
def NodeTypeArgument.toks : NodeTypeArgument → List Token
  | .enclosedTypeArgument ⟨t, _, _⟩ => .openParen :: (t.toks ++ [.closeParen])
  | .genericTypeArgument m => m.node.toks
  | .templateTypeArgument s => [.templateIdentifier s.node]
  | .addressTypeArgument ⟨a, _, _⟩ => a.toks
  | .mapTypeArgument ⟨k, _, _⟩ ⟨v, _, _⟩ => .map :: (k.toks ++ v.toks)
def NodeScillaType.toks : NodeScillaType → List Token
  | .genericTypeWithArgs m args => m.node.toks ++ NodeTypeArgument.toksL args
  | .mapType ⟨k, _, _⟩ ⟨v, _, _⟩ => .map :: (k.toks ++ v.toks)
  | .functionType ⟨a, _, _⟩ ⟨b, _, _⟩ => a.toks ++ .arrow :: b.toks
  | .enclosedType ⟨t, _, _⟩ => .openParen :: (t.toks ++ [.closeParen])
  | .scillaAddresseType ⟨a, _, _⟩ => a.toks
  | .polyFunctionType s ⟨t, _, _⟩ => .forall_ :: .templateIdentifier s.node :: .dot :: t.toks
  | .typeVarType s => [.templateIdentifier s.node]
def NodeTypeMapEntry.toks : NodeTypeMapEntry → List Token
  | .mk ⟨k, _, _⟩ ⟨v, _, _⟩ => .map :: (k.toks ++ v.toks)
def NodeAddressTypeField.toks : NodeAddressTypeField → List Token
  | .mk i ⟨t, _, _⟩ => .field :: (i.node.toks ++ .colon :: t.toks)
def NodeAddressType.toks : NodeAddressType → List Token
  | .mk n tag fs =>
    n.node.toks ++ .with_ :: (addressTag tag.node (NodeAddressTypeField.toksL fs) ++ [.end_])
def NodeTypeMapValueArguments.toks : NodeTypeMapValueArguments → List Token
  | .enclosedTypeMapValue ⟨t, _, _⟩ => .openParen :: (t.toks ++ [.closeParen])
  | .genericMapValueArgument m => m.node.toks
  | .mapKeyValueType ⟨k, _, _⟩ ⟨v, _, _⟩ => .map :: (k.toks ++ v.toks)
def NodeTypeMapValueAllowingTypeArguments.toks :
    NodeTypeMapValueAllowingTypeArguments → List Token
  | .typeMapValueNoArgs ⟨v, _, _⟩ => v.toks
  | .typeMapValueWithArgs m args => m.node.toks ++ NodeTypeMapValueArguments.toksL args
/-- one after the other -/
def NodeTypeArgument.toksL : List (W NodeTypeArgument) → List Token
  | [] => []
  | ⟨x, _, _⟩ :: xs => x.toks ++ NodeTypeArgument.toksL xs
/-- separated by commas -/
def NodeAddressTypeField.toksL : List (W NodeAddressTypeField) → List Token
  | [] => []
  | ⟨x, _, _⟩ :: xs => x.toks ++ NodeAddressTypeField.toksN xs
/-- each after a comma -/
def NodeAddressTypeField.toksN : List (W NodeAddressTypeField) → List Token
  | [] => []
  | ⟨x, _, _⟩ :: xs => .comma :: x.toks ++ NodeAddressTypeField.toksN xs
/-- one after the other -/
def NodeTypeMapValueArguments.toksL : List (W NodeTypeMapValueArguments) → List Token
  | [] => []
  | ⟨x, _, _⟩ :: xs => x.toks ++ NodeTypeMapValueArguments.toksL xs
end

def NodeTypeAnnotation.toks (a : NodeTypeAnnotation) : List Token := .colon :: a.typeName.node.toks

def NodeTypedIdentifier.toks (t : NodeTypedIdentifier) : List Token :=
  .identifier t.identifierName.node :: t.annotation.node.toks

def NodeContractTypeArguments.toks (a : NodeContractTypeArguments) : List Token :=
  .openBrace :: (a.typeArguments.flatMap (·.node.toks) ++ [.closeBrace])

def NodeValueLiteral.toks : NodeValueLiteral → List Token
  | .literalInt t n => t.node.toks ++ [.number n.node]
  | .literalHex s => [.hexNumber s.node]
  | .literalString s => [.stringLiteral s.node]
  | .literalEmptyMap k v => .emp :: (k.node.toks ++ v.node.toks)

def NodeMessageEntry.toks : NodeMessageEntry → List Token
  | .messageLiteral i v => i.node.toks ++ .colon :: v.node.toks
  | .messageVariable i v => i.node.toks ++ .colon :: v.node.toks

def NodeAtomicExpression.toks : NodeAtomicExpression → List Token
  | .atomicSid v => v.node.toks
  | .atomicLit l => l.node.toks

def NodeMapAccess.toks (a : NodeMapAccess) : List Token :=
  .openBracket :: (a.identifierName.node.toks ++ [.closeBracket])

mutual
def NodePattern.toks : NodePattern → List Token
  | .wildcard => [.underscore]
  | .binder s => [.identifier s.node]
  | .constructor m args => m.node.toks ++ NodeArgumentPattern.toksL args
def NodeArgumentPattern.toks : NodeArgumentPattern → List Token
  | .wildcardArgument => [.underscore]
  | .binderArgument s => [.identifier s.node]
  | .constructorArgument m => m.node.toks
  | .patternArgument ⟨p, _, _⟩ => .openParen :: (p.toks ++ [.closeParen])
/-- one after the other -/
def NodeArgumentPattern.toksL : List (W NodeArgumentPattern) → List Token
  | [] => []
  | ⟨x, _, _⟩ :: xs => x.toks ++ NodeArgumentPattern.toksL xs
end

/-- one after the other, with `sep` between -/
def sepBy {α : Type} (sep : Token) (f : α → List Token) : List α → List Token
  | [] => []
  | x :: xs => f x ++ xs.flatMap (fun y => sep :: f y)

mutual
def NodeFullExpression.toks : NodeFullExpression → List Token
  | .localVariableDeclaration x ⟨e, _, _⟩ ta ⟨body, _, _⟩ =>
    .let_ :: .identifier x.node :: (ta.toList.flatMap (·.node.toks) ++ .equals :: (e.toks ++
      .in_ :: body.toks))
  | .functionDeclaration x ta ⟨e, _, _⟩ =>
    .fun_ :: .openParen :: .identifier x.node :: (ta.node.toks ++ .closeParen :: .doubleArrow ::
      e.toks)
  | .functionCall f args => f.node.toks ++ args.flatMap (·.node.toks)
  | .expressionAtomic a => a.node.toks
  | .expressionBuiltin b targs xs =>
    .builtin :: .identifier b.node :: (targs.toList.flatMap (·.node.toks) ++ xs.node.toks)
  | .message entries => .openBrace :: (sepBy .semicolon (·.node.toks) entries ++ [.closeBrace])
  | .match_ x cs =>
    .match_ :: (x.node.toks ++ .with_ :: (NodePatternMatchExpressionClause.toksL cs ++ [.end_]))
  | .constructorCall m targs args =>
    m.node.toks ++ (targs.toList.flatMap (·.node.toks) ++ args.flatMap (·.node.toks))
  | .templateFunction x ⟨e, _, _⟩ => .tfun :: .templateIdentifier x.node :: .doubleArrow :: e.toks
  | .tApp x args => .at_ :: (x.node.toks ++ args.flatMap (·.node.toks))
def NodePatternMatchExpressionClause.toks : NodePatternMatchExpressionClause → List Token
  | .mk p ⟨e, _, _⟩ => .pipe :: (p.node.toks ++ .doubleArrow :: e.toks)
/-- one after the other -/
def NodePatternMatchExpressionClause.toksL :
    List (W NodePatternMatchExpressionClause) → List Token
  | [] => []
  | ⟨x, _, _⟩ :: xs => x.toks ++ NodePatternMatchExpressionClause.toksL xs
end

def NodeBlockchainFetchArguments.toks (a : NodeBlockchainFetchArguments) : List Token :=
  .openParen :: (a.arguments.flatMap (·.node.toks) ++ [.closeParen])

def NodeComponentId.toks : NodeComponentId → List Token
  | .withTypeLikeName n => n.node.toks
  | .withRegularId s => [.identifier s.node]

def NodeRemoteFetchStatement.toks : NodeRemoteFetchStatement → List Token
  | .readStateMutable x a v =>
    [.identifier x.node, .leftArrow, .ampersand, .identifier a.node, .dot] ++ v.node.toks
  | .readStateMutableSpecialId x a m =>
    [.identifier x.node, .leftArrow, .ampersand, .specialIdentifier a.node, .dot,
      .specialIdentifier m.node]
  | .readStateMutableMapAccess x a m ks =>
    [.identifier x.node, .leftArrow, .ampersand, .identifier a.node, .dot, .identifier m.node] ++
      ks.flatMap (·.node.toks)
  | .readStateMutableMapAccessExists x a m ks =>
    [.identifier x.node, .leftArrow, .ampersand, .exists_, .identifier a.node, .dot,
      .identifier m.node] ++ ks.flatMap (·.node.toks)
  | .readStateMutableCastAddress x v a =>
    [.identifier x.node, .leftArrow, .ampersand] ++ (v.node.toks ++ .as_ :: a.node.toks)

mutual
def NodeStatement.toks : NodeStatement → List Token
  | .load x v => .identifier x.node :: .leftArrow :: v.node.toks
  | .remoteFetch s => s.toks
  | .store x v => .identifier x.node :: .colonEquals :: v.node.toks
  | .bind x e => .identifier x.node :: .equals :: e.node.toks
  | .readFromBC x t args =>
    .identifier x.node :: .leftArrow :: .ampersand :: (t.node.toks ++ args.toList.flatMap (·.toks))
  | .mapGet x ks y =>
    .identifier x.node :: .leftArrow :: .identifier y.node :: ks.flatMap (·.node.toks)
  | .mapGetExists x ks y =>
    .identifier x.node :: .leftArrow :: .exists_ :: .identifier y.node :: ks.flatMap (·.node.toks)
  | .mapUpdate x ks v =>
    .identifier x.node :: (ks.flatMap (·.node.toks) ++ .colonEquals :: v.node.toks)
  | .mapUpdateDelete x ks => .delete :: .identifier x.node :: ks.flatMap (·.node.toks)
  | .accept => [.accept]
  | .send v => .send :: v.node.toks
  | .createEvnt v => .event :: v.node.toks
  | .throw v => .throw :: v.toList.flatMap (·.node.toks)
  | .matchStmt x cs =>
    .match_ :: (x.node.toks ++ .with_ :: (NodePatternMatchClause.toksL cs ++ [.end_]))
  | .callProc c args => c.node.toks ++ args.flatMap (·.node.toks)
  | .iterate x c => .forall_ :: (x.node.toks ++ c.node.toks)
def NodePatternMatchClause.toks : NodePatternMatchClause → List Token
  | .mk p none => .pipe :: (p.node.toks ++ [.doubleArrow])
  | .mk p (some ⟨b, _, _⟩) => .pipe :: (p.node.toks ++ .doubleArrow :: b.toks)
def NodeStatementBlock.toks : NodeStatementBlock → List Token
  | .mk sts => NodeStatement.toksL sts
/-- one after the other -/
def NodePatternMatchClause.toksL : List (W NodePatternMatchClause) → List Token
  | [] => []
  | ⟨x, _, _⟩ :: xs => x.toks ++ NodePatternMatchClause.toksL xs
/-- separated by semicolons -/
def NodeStatement.toksL : List NodeStatement → List Token
  | [] => []
  | x :: xs => x.toks ++ NodeStatement.toksN xs
/-- each after a semicolon -/
def NodeStatement.toksN : List NodeStatement → List Token
  | [] => []
  | x :: xs => .semicolon :: x.toks ++ NodeStatement.toksN xs
end

def NodeParameterPair.toks (p : NodeParameterPair) : List Token := p.identifierWithType.node.toks

def NodeComponentParameters.toks (p : NodeComponentParameters) : List Token :=
  .openParen :: (sepBy .comma (·.node.toks) p.parameters ++ [.closeParen])

def NodeComponentBody.toks (b : NodeComponentBody) : List Token :=
  b.statementBlock.toList.flatMap (·.node.toks) ++ [.end_]

def NodeTypeAlternativeClause.toks : NodeTypeAlternativeClause → List Token
  | .clauseType n => .pipe :: n.node.toks
  | .clauseTypeWithArgs n args => .pipe :: (n.node.toks ++ .of_ :: args.flatMap (·.node.toks))

def NodeLibrarySingleDefinition.toks : NodeLibrarySingleDefinition → List Token
  | .letDefinition x ta e =>
    .let_ :: .identifier x.node :: (ta.toList.flatMap (·.node.toks) ++ .equals :: e.node.toks)
  | .typeDefinition n none => .type :: n.node.toks
  | .typeDefinition n (some cs) => .type :: (n.node.toks ++ .equals :: cs.flatMap (·.node.toks))

def NodeLibraryDefinition.toks (l : NodeLibraryDefinition) : List Token :=
  .library :: (l.name.node.toks ++ l.definitions.flatMap (·.node.toks))

def NodeContractField.toks (f : NodeContractField) : List Token :=
  .field :: (f.typedIdentifier.node.toks ++ .equals :: f.rightHandSide.node.toks)

def NodeWithConstraint.toks (c : NodeWithConstraint) : List Token :=
  .with_ :: (c.expression.node.toks ++ [.doubleArrow])

def NodeProcedureDefinition.toks (d : NodeProcedureDefinition) : List Token :=
  .procedure :: (d.name.node.toks ++ (d.parameters.node.toks ++ d.body.node.toks))

def NodeTransitionDefinition.toks (d : NodeTransitionDefinition) : List Token :=
  .transition :: (d.name.node.toks ++ (d.parameters.node.toks ++ d.body.node.toks))

def NodeComponentDefinition.toks : NodeComponentDefinition → List Token
  | .transitionComponent t => t.node.toks
  | .procedureComponent p => p.node.toks

def NodeContractDefinition.toks (c : NodeContractDefinition) : List Token :=
  .contract :: (c.contractName.node.toks ++ (c.parameters.node.toks ++
    (c.constraint.toList.flatMap (·.node.toks) ++ (c.fields.flatMap (·.node.toks) ++
      c.components.flatMap (·.node.toks)))))

/-- The tokens of a whole program. -/
def NodeProgram.toks (p : NodeProgram) : List Token :=
  .scillaVersion :: .number p.version.node ::
    (p.importDeclarations.toList.flatMap (·.node.toks) ++
      (p.libraryDefinition.toList.flatMap (·.node.toks) ++ p.contractDefinition.node.toks))

/-- The tokens of the value of a nonterminal. -/
def unparse : (n : NT) → Val n → List Token
  | .byteString, v => v.toks
  | .typeName, v => v.node.toks
  | .importedName, v => v.node.toks
  | .importDecls, v => v.node.toks
  | .metaId, v => v.node.toks
  | .varId, v => v.node.toks
  | .builtinArgs, v => v.node.toks
  | .remaining, v => v.node.toks
  | .funSig, v => v.node.toks
  | .scillaType, v => v.node.toks
  | .typeArg, v => v.node.toks
  | .addressType, v => v.node.toks
  | .addressFieldList, v => NodeAddressTypeField.toksL v
  | .nextAddressField, v => .comma :: v.node.toks
  | .addressField, v => v.node.toks
  | .mapKey, v => v.node.toks
  | .mapValue, v => v.node.toks
  | .mapValueArgs, v => v.node.toks
  | .program, v => v.toks
  | .libraryDef, v => v.node.toks
  | .librarySingle, v => v.node.toks
  | .typedId, v => v.node.toks
  | .typeAnn, v => v.node.toks
  | .typeAlt, v => v.node.toks
  | .mapValueAllowing, v => v.node.toks
  | .contractTypeArgs, v => v.node.toks
  | .fullExpr, v => v.node.toks
  | .pmExprClause, v => v.node.toks
  | .pattern, v => v.node.toks
  | .argPattern, v => v.node.toks
  | .nextMessage, v => .semicolon :: v.node.toks
  | .messageEntry, v => v.node.toks
  | .atomic, v => v.node.toks
  | .valueLit, v => v.node.toks
  | .statement, v => v.toks
  | .nextStatement, v => .semicolon :: v.toks
  | .stmtBlock, v => v.node.toks
  | .bcFetchArgs, v => v.toks
  | .componentId, v => v.node.toks
  | .pmClause, v => v.node.toks
  | .remoteFetch, v => v.toks
  | .mapAccess, v => v.node.toks
  | .paramPair, v => v.node.toks
  | .nextParamPair, v => .comma :: v.node.toks
  | .compParams, v => v.node.toks
  | .compDef, v => v.node.toks
  | .transDef, v => v.node.toks
  | .procDef, v => v.node.toks
  | .compBody, v => v.node.toks
  | .contractDef, v => v.node.toks
  | .contractField, v => v.node.toks
  | .withConstraint, v => v.node.toks
  | .hexNumber, v => [.hexNumber v.node]
  | .signedInt, v => [.number v.node]
  | .regularId, v => [.identifier v.node]
  | .specialId, v => [.specialIdentifier v.node]
  | .customId, v => [.customIdentifier v.node]
  | .templateId, v => [.templateIdentifier v.node]
  | .stringLit, v => [.stringLiteral v.node]
  | .star n, v => v.flatMap (unparse n)
  | .plus n, v => v.flatMap (unparse n)
  | .opt n, v => v.toList.flatMap (unparse n)

end Verif
