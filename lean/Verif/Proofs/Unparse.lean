import Verif.Spec.Unparse
import Verif.Proofs.StripDerives
/-
Writing a tree: positions play no role, lists are written element by element.
-/
namespace Verif

theorem NodeTypeArgument.toksL_eq : ∀ xs : List (W NodeTypeArgument),
    NodeTypeArgument.toksL xs = xs.flatMap (·.node.toks)
  | [] => by simp [NodeTypeArgument.toksL]
  | ⟨x, _, _⟩ :: xs => by simp [NodeTypeArgument.toksL, NodeTypeArgument.toksL_eq xs]

theorem NodeAddressTypeField.toksN_eq : ∀ xs : List (W NodeAddressTypeField),
    NodeAddressTypeField.toksN xs = xs.flatMap (fun x => .comma :: x.node.toks)
  | [] => by simp [NodeAddressTypeField.toksN]
  | ⟨x, _, _⟩ :: xs => by simp [NodeAddressTypeField.toksN, NodeAddressTypeField.toksN_eq xs]

theorem NodeAddressTypeField.toksL_eq : ∀ xs : List (W NodeAddressTypeField),
    NodeAddressTypeField.toksL xs = sepBy .comma (·.node.toks) xs
  | [] => by simp [NodeAddressTypeField.toksL, sepBy]
  | ⟨x, _, _⟩ :: xs => by
    simp [NodeAddressTypeField.toksL, NodeAddressTypeField.toksN_eq xs, sepBy]

theorem NodeTypeMapValueArguments.toksL_eq : ∀ xs : List (W NodeTypeMapValueArguments),
    NodeTypeMapValueArguments.toksL xs = xs.flatMap (·.node.toks)
  | [] => by simp [NodeTypeMapValueArguments.toksL]
  | ⟨x, _, _⟩ :: xs => by
    simp [NodeTypeMapValueArguments.toksL, NodeTypeMapValueArguments.toksL_eq xs]

theorem NodeArgumentPattern.toksL_eq : ∀ xs : List (W NodeArgumentPattern),
    NodeArgumentPattern.toksL xs = xs.flatMap (·.node.toks)
  | [] => by simp [NodeArgumentPattern.toksL]
  | ⟨x, _, _⟩ :: xs => by simp [NodeArgumentPattern.toksL, NodeArgumentPattern.toksL_eq xs]

theorem NodePatternMatchExpressionClause.toksL_eq :
    ∀ xs : List (W NodePatternMatchExpressionClause),
    NodePatternMatchExpressionClause.toksL xs = xs.flatMap (·.node.toks)
  | [] => by simp [NodePatternMatchExpressionClause.toksL]
  | ⟨x, _, _⟩ :: xs => by
    simp [NodePatternMatchExpressionClause.toksL, NodePatternMatchExpressionClause.toksL_eq xs]

theorem NodePatternMatchClause.toksL_eq : ∀ xs : List (W NodePatternMatchClause),
    NodePatternMatchClause.toksL xs = xs.flatMap (·.node.toks)
  | [] => by simp [NodePatternMatchClause.toksL]
  | ⟨x, _, _⟩ :: xs => by simp [NodePatternMatchClause.toksL, NodePatternMatchClause.toksL_eq xs]

theorem NodeStatement.toksN_eq : ∀ xs : List NodeStatement,
    NodeStatement.toksN xs = xs.flatMap (fun x => .semicolon :: x.toks)
  | [] => by simp [NodeStatement.toksN]
  | x :: xs => by simp [NodeStatement.toksN, NodeStatement.toksN_eq xs]

theorem NodeStatement.toksL_eq : ∀ xs : List NodeStatement,
    NodeStatement.toksL xs = sepBy .semicolon NodeStatement.toks xs
  | [] => by simp [NodeStatement.toksL, sepBy]
  | x :: xs => by simp [NodeStatement.toksL, NodeStatement.toksN_eq xs, sepBy]

theorem NodePatternMatchClause.toks_eq (p : W NodePattern) (b : Option (W NodeStatementBlock)) :
    (NodePatternMatchClause.mk p b).toks =
      .pipe :: (p.node.toks ++ .doubleArrow :: b.toList.flatMap (·.node.toks)) := by
  cases b <;> simp [NodePatternMatchClause.toks]

theorem NodeLibrarySingleDefinition.toks_typeDefinition (n : W NodeTypeNameIdentifier)
    (b : Option (List (W NodeTypeAlternativeClause))) :
    (NodeLibrarySingleDefinition.typeDefinition n b).toks =
      .type :: (n.node.toks ++
        b.toList.flatMap (fun cs => .equals :: cs.flatMap (·.node.toks))) := by
  cases b <;> simp [NodeLibrarySingleDefinition.toks]

attribute [-simp] NodeByteStr.strip NodeTypeNameIdentifier.strip NodeImportedName.strip NodeImportDeclarations.strip NodeMetaIdentifier.strip NodeVariableIdentifier.strip NodeBuiltinArguments.strip NodeTypeMapKey.strip NodeTypeMapValue.strip NodeTypeArgument.strip NodeScillaType.strip NodeTypeMapEntry.strip NodeAddressTypeField.strip NodeAddressType.strip NodeTypeMapValueArguments.strip NodeTypeMapValueAllowingTypeArguments.strip NodeTypeAnnotation.strip NodeTypedIdentifier.strip NodeContractTypeArguments.strip NodeValueLiteral.strip NodeMessageEntry.strip NodeAtomicExpression.strip NodeMapAccess.strip NodePattern.strip NodeArgumentPattern.strip NodeFullExpression.strip NodePatternMatchExpressionClause.strip NodeBlockchainFetchArguments.strip NodeComponentId.strip NodeRemoteFetchStatement.strip NodeStatement.strip NodePatternMatchClause.strip NodeStatementBlock.strip NodeParameterPair.strip NodeComponentParameters.strip NodeComponentBody.strip NodeTypeAlternativeClause.strip NodeLibrarySingleDefinition.strip NodeLibraryDefinition.strip NodeContractField.strip NodeWithConstraint.strip NodeProcedureDefinition.strip NodeTransitionDefinition.strip NodeComponentDefinition.strip NodeContractDefinition.strip NodeProgram.strip

/-! ### positions play no role -/

theorem strip_flatMap {α : Type} {f : α → α} {g : α → List Token} (h : ∀ x, g (f x) = g x)
    (xs : List (W α)) :
    (xs.map (W.strip f)).flatMap (fun x => g x.node) = xs.flatMap (fun x => g x.node) := by
  induction xs with
  | nil => rfl
  | cons x xs ih => simp [h, ih]

theorem strip_option {α : Type} {f : α → α} {g : α → List Token} (h : ∀ x, g (f x) = g x)
    (x : Option (W α)) :
    (x.map (W.strip f)).toList.flatMap (fun x => g x.node) =
      x.toList.flatMap (fun x => g x.node) := by
  cases x <;> simp [h]

theorem strip_sepBy {α : Type} {f : α → α} {g : α → List Token} {t : Token}
    (h : ∀ x, g (f x) = g x) (xs : List (W α)) :
    sepBy t (fun x => g x.node) (xs.map (W.strip f)) = sepBy t (fun x => g x.node) xs := by
  cases xs with
  | nil => rfl
  | cons x xs =>
    have := strip_flatMap (g := fun y => t :: g y) (f := f) (fun x => by simp [h]) xs
    simp only [sepBy, List.map_cons, W.strip_node, h, this]

@[simp] theorem NodeByteStr.toks_strip (x : NodeByteStr) : x.strip.toks = x.toks := by
  cases x <;> rfl
@[simp] theorem NodeTypeNameIdentifier.toks_strip (x : NodeTypeNameIdentifier) :
    x.strip.toks = x.toks := by cases x <;> simp [NodeTypeNameIdentifier.toks, NodeTypeNameIdentifier.strip]
@[simp] theorem NodeImportedName.toks_strip (x : NodeImportedName) : x.strip.toks = x.toks := by
  cases x <;> simp [NodeImportedName.toks, NodeImportedName.strip]
@[simp] theorem NodeImportDeclarations.toks_strip (x : NodeImportDeclarations) :
    x.strip.toks = x.toks := by
  cases x; simp only [NodeImportDeclarations.strip, NodeImportDeclarations.toks, strip_flatMap NodeImportedName.toks_strip]
@[simp] theorem NodeMetaIdentifier.toks_strip (x : NodeMetaIdentifier) :
    x.strip.toks = x.toks := by cases x <;> simp [NodeMetaIdentifier.toks, NodeMetaIdentifier.strip]
@[simp] theorem NodeVariableIdentifier.toks_strip (x : NodeVariableIdentifier) :
    x.strip.toks = x.toks := by cases x <;> simp [NodeVariableIdentifier.toks, NodeVariableIdentifier.strip]
@[simp] theorem NodeBuiltinArguments.toks_strip (x : NodeBuiltinArguments) :
    x.strip.toks = x.toks := by
  cases x; simp only [NodeBuiltinArguments.strip, NodeBuiltinArguments.toks, strip_flatMap NodeVariableIdentifier.toks_strip, List.map_eq_nil_iff]

mutual
theorem NodeTypeMapKey.toks_strip : ∀ x : NodeTypeMapKey, x.strip.toks = x.toks
  | .genericMapKey m => by simp [NodeTypeMapKey.toks, NodeTypeMapKey.strip]
  | .enclosedGenericId m => by simp [NodeTypeMapKey.toks, NodeTypeMapKey.strip]
  | .enclosedAddressMapKeyType ⟨a, _, _⟩ => by
    simp [NodeTypeMapKey.toks, W.strip_eq, NodeAddressType.toks_strip a, NodeTypeMapKey.strip]
  | .addressMapKeyType ⟨a, _, _⟩ => by simp [NodeTypeMapKey.toks, W.strip_eq, NodeAddressType.toks_strip a, NodeTypeMapKey.strip]
theorem NodeTypeMapValue.toks_strip : ∀ x : NodeTypeMapValue, x.strip.toks = x.toks
  | .mapValueTypeOrEnumLikeIdentifier m => by simp [NodeTypeMapValue.toks, NodeTypeMapValue.strip]
  | .mapKeyValue ⟨e, _, _⟩ => by simp [NodeTypeMapValue.toks, W.strip_eq, NodeTypeMapEntry.toks_strip e, NodeTypeMapValue.strip]
  | .mapValueParenthesizedType ⟨t, _, _⟩ => by
    simp [NodeTypeMapValue.toks, W.strip_eq, NodeTypeMapValueAllowingTypeArguments.toks_strip t, NodeTypeMapValue.strip]
  | .mapValueAddressType ⟨a, _, _⟩ => by simp [NodeTypeMapValue.toks, W.strip_eq, NodeAddressType.toks_strip a, NodeTypeMapValue.strip]
theorem NodeTypeArgument.toks_strip : ∀ x : NodeTypeArgument, x.strip.toks = x.toks
  | .enclosedTypeArgument ⟨t, _, _⟩ => by simp [NodeTypeArgument.toks, W.strip_eq, NodeScillaType.toks_strip t, NodeTypeArgument.strip]
  | .genericTypeArgument m => by simp [NodeTypeArgument.toks, NodeTypeArgument.strip]
  | .templateTypeArgument s => by simp [NodeTypeArgument.toks, NodeTypeArgument.strip]
  | .addressTypeArgument ⟨a, _, _⟩ => by simp [NodeTypeArgument.toks, W.strip_eq, NodeAddressType.toks_strip a, NodeTypeArgument.strip]
  | .mapTypeArgument ⟨k, _, _⟩ ⟨v, _, _⟩ => by
    simp [NodeTypeArgument.toks, W.strip_eq, NodeTypeMapKey.toks_strip k, NodeTypeMapValue.toks_strip v, NodeTypeArgument.strip]
theorem NodeScillaType.toks_strip : ∀ x : NodeScillaType, x.strip.toks = x.toks
  | .genericTypeWithArgs m args => by
    simp only [NodeScillaType.toks, NodeScillaType.strip, NodeTypeArgument.toksL_strip args]; simp
  | .mapType ⟨k, _, _⟩ ⟨v, _, _⟩ => by
    simp [NodeScillaType.toks, W.strip_eq, NodeTypeMapKey.toks_strip k, NodeTypeMapValue.toks_strip v, NodeScillaType.strip]
  | .functionType ⟨a, _, _⟩ ⟨b, _, _⟩ => by
    simp [NodeScillaType.toks, W.strip_eq, NodeScillaType.toks_strip a, NodeScillaType.toks_strip b, NodeScillaType.strip]
  | .enclosedType ⟨t, _, _⟩ => by simp [NodeScillaType.toks, W.strip_eq, NodeScillaType.toks_strip t, NodeScillaType.strip]
  | .scillaAddresseType ⟨a, _, _⟩ => by simp [NodeScillaType.toks, W.strip_eq, NodeAddressType.toks_strip a, NodeScillaType.strip]
  | .polyFunctionType s ⟨t, _, _⟩ => by simp [NodeScillaType.toks, W.strip_eq, NodeScillaType.toks_strip t, NodeScillaType.strip]
  | .typeVarType s => by simp [NodeScillaType.toks, NodeScillaType.strip]
theorem NodeTypeMapEntry.toks_strip : ∀ x : NodeTypeMapEntry, x.strip.toks = x.toks
  | .mk ⟨k, _, _⟩ ⟨v, _, _⟩ => by
    simp [NodeTypeMapEntry.toks, W.strip_eq, NodeTypeMapKey.toks_strip k, NodeTypeMapValue.toks_strip v, NodeTypeMapEntry.strip]
theorem NodeAddressTypeField.toks_strip : ∀ x : NodeAddressTypeField, x.strip.toks = x.toks
  | .mk i ⟨t, _, _⟩ => by simp [NodeAddressTypeField.toks, W.strip_eq, NodeScillaType.toks_strip t, NodeAddressTypeField.strip]
theorem NodeAddressType.toks_strip : ∀ x : NodeAddressType, x.strip.toks = x.toks
  | .mk n tag fs => by
    simp only [NodeAddressType.toks, NodeAddressType.strip, NodeAddressTypeField.toksL_strip fs]; simp
theorem NodeTypeMapValueArguments.toks_strip : ∀ x : NodeTypeMapValueArguments,
    x.strip.toks = x.toks
  | .enclosedTypeMapValue ⟨t, _, _⟩ => by
    simp [NodeTypeMapValueArguments.toks, W.strip_eq, NodeTypeMapValueAllowingTypeArguments.toks_strip t, NodeTypeMapValueArguments.strip]
  | .genericMapValueArgument m => by simp [NodeTypeMapValueArguments.toks, NodeTypeMapValueArguments.strip]
  | .mapKeyValueType ⟨k, _, _⟩ ⟨v, _, _⟩ => by
    simp [NodeTypeMapValueArguments.toks, W.strip_eq, NodeTypeMapKey.toks_strip k, NodeTypeMapValue.toks_strip v, NodeTypeMapValueArguments.strip]
theorem NodeTypeMapValueAllowingTypeArguments.toks_strip :
    ∀ x : NodeTypeMapValueAllowingTypeArguments, x.strip.toks = x.toks
  | .typeMapValueNoArgs ⟨v, _, _⟩ => by simp [NodeTypeMapValueAllowingTypeArguments.toks, W.strip_eq, NodeTypeMapValue.toks_strip v, NodeTypeMapValueAllowingTypeArguments.strip]
  | .typeMapValueWithArgs m args => by
    simp only [NodeTypeMapValueAllowingTypeArguments.toks, NodeTypeMapValueAllowingTypeArguments.strip, NodeTypeMapValueArguments.toksL_strip args]; simp
theorem NodeTypeArgument.toksL_strip : ∀ xs : List (W NodeTypeArgument),
    NodeTypeArgument.toksL (NodeTypeArgument.stripLW xs) = NodeTypeArgument.toksL xs
  | [] => rfl
  | ⟨x, _, _⟩ :: xs => by
    have := NodeTypeArgument.toksL_strip xs
    simp only [NodeTypeArgument.stripLW, NodeTypeArgument.stripW, NodeTypeArgument.toksL, this, NodeTypeArgument.toks_strip x]
theorem NodeAddressTypeField.toksL_strip : ∀ xs : List (W NodeAddressTypeField),
    NodeAddressTypeField.toksL (NodeAddressTypeField.stripLW xs) = NodeAddressTypeField.toksL xs
  | [] => rfl
  | ⟨x, _, _⟩ :: xs => by
    have := NodeAddressTypeField.toksN_strip xs
    simp only [NodeAddressTypeField.stripLW, NodeAddressTypeField.stripW, NodeAddressTypeField.toksL, this, NodeAddressTypeField.toks_strip x]
theorem NodeAddressTypeField.toksN_strip : ∀ xs : List (W NodeAddressTypeField),
    NodeAddressTypeField.toksN (NodeAddressTypeField.stripLW xs) = NodeAddressTypeField.toksN xs
  | [] => rfl
  | ⟨x, _, _⟩ :: xs => by
    have := NodeAddressTypeField.toksN_strip xs
    simp only [NodeAddressTypeField.stripLW, NodeAddressTypeField.stripW, NodeAddressTypeField.toksN, this, NodeAddressTypeField.toks_strip x]
theorem NodeTypeMapValueArguments.toksL_strip : ∀ xs : List (W NodeTypeMapValueArguments),
    NodeTypeMapValueArguments.toksL (NodeTypeMapValueArguments.stripLW xs) =
      NodeTypeMapValueArguments.toksL xs
  | [] => rfl
  | ⟨x, _, _⟩ :: xs => by
    have := NodeTypeMapValueArguments.toksL_strip xs
    simp only [NodeTypeMapValueArguments.stripLW, NodeTypeMapValueArguments.stripW, NodeTypeMapValueArguments.toksL, this, NodeTypeMapValueArguments.toks_strip x]
end

attribute [simp] NodeTypeMapKey.toks_strip NodeTypeMapValue.toks_strip NodeTypeArgument.toks_strip
  NodeScillaType.toks_strip NodeTypeMapEntry.toks_strip NodeAddressTypeField.toks_strip
  NodeAddressType.toks_strip NodeTypeMapValueArguments.toks_strip
  NodeTypeMapValueAllowingTypeArguments.toks_strip

@[simp] theorem NodeTypeAnnotation.toks_strip (x : NodeTypeAnnotation) :
    x.strip.toks = x.toks := by cases x; simp [NodeTypeAnnotation.toks, NodeTypeAnnotation.strip]
@[simp] theorem NodeTypedIdentifier.toks_strip (x : NodeTypedIdentifier) :
    x.strip.toks = x.toks := by cases x; simp [NodeTypedIdentifier.toks, NodeTypedIdentifier.strip]
@[simp] theorem NodeContractTypeArguments.toks_strip (x : NodeContractTypeArguments) :
    x.strip.toks = x.toks := by
  cases x; simp only [NodeContractTypeArguments.strip, NodeContractTypeArguments.toks, strip_flatMap NodeTypeArgument.toks_strip]
@[simp] theorem NodeValueLiteral.toks_strip (x : NodeValueLiteral) :
    x.strip.toks = x.toks := by cases x <;> simp [NodeValueLiteral.toks, NodeValueLiteral.strip]
@[simp] theorem NodeMessageEntry.toks_strip (x : NodeMessageEntry) :
    x.strip.toks = x.toks := by cases x <;> simp [NodeMessageEntry.toks, NodeMessageEntry.strip]
@[simp] theorem NodeAtomicExpression.toks_strip (x : NodeAtomicExpression) :
    x.strip.toks = x.toks := by cases x <;> simp [NodeAtomicExpression.toks, NodeAtomicExpression.strip]
@[simp] theorem NodeMapAccess.toks_strip (x : NodeMapAccess) :
    x.strip.toks = x.toks := by cases x; simp [NodeMapAccess.toks, NodeMapAccess.strip]

mutual
theorem NodePattern.toks_strip : ∀ x : NodePattern, x.strip.toks = x.toks
  | .wildcard => by simp [NodePattern.toks, NodePattern.strip]
  | .binder s => by simp [NodePattern.toks, NodePattern.strip]
  | .constructor m args => by
    simp only [NodePattern.toks, NodePattern.strip, NodeArgumentPattern.toksL_strip args]; simp
theorem NodeArgumentPattern.toks_strip : ∀ x : NodeArgumentPattern, x.strip.toks = x.toks
  | .wildcardArgument => by simp [NodeArgumentPattern.toks, NodeArgumentPattern.strip]
  | .binderArgument s => by simp [NodeArgumentPattern.toks, NodeArgumentPattern.strip]
  | .constructorArgument m => by simp [NodeArgumentPattern.toks, NodeArgumentPattern.strip]
  | .patternArgument ⟨p, _, _⟩ => by simp [NodeArgumentPattern.toks, W.strip_eq, NodePattern.toks_strip p, NodeArgumentPattern.strip]
theorem NodeArgumentPattern.toksL_strip : ∀ xs : List (W NodeArgumentPattern),
    NodeArgumentPattern.toksL (NodeArgumentPattern.stripLW xs) = NodeArgumentPattern.toksL xs
  | [] => rfl
  | ⟨x, _, _⟩ :: xs => by
    have := NodeArgumentPattern.toksL_strip xs
    simp only [NodeArgumentPattern.stripLW, NodeArgumentPattern.stripW, NodeArgumentPattern.toksL, this, NodeArgumentPattern.toks_strip x]
end

attribute [simp] NodePattern.toks_strip NodeArgumentPattern.toks_strip

mutual
theorem NodeFullExpression.toks_strip : ∀ x : NodeFullExpression, x.strip.toks = x.toks
  | .localVariableDeclaration x ⟨e, _, _⟩ ta ⟨body, _, _⟩ => by
    simp only [NodeFullExpression.toks, NodeFullExpression.strip, NodeFullExpression.stripW, NodeFullExpression.toks_strip e, NodeFullExpression.toks_strip body, strip_option NodeTypeAnnotation.toks_strip]; simp
  | .functionDeclaration x ta ⟨e, _, _⟩ => by
    simp only [NodeFullExpression.toks, NodeFullExpression.strip, NodeFullExpression.stripW, NodeFullExpression.toks_strip e]; simp
  | .functionCall f args => by
    simp only [NodeFullExpression.toks, NodeFullExpression.strip, strip_flatMap NodeVariableIdentifier.toks_strip]; simp
  | .expressionAtomic a => by simp [NodeFullExpression.toks, NodeFullExpression.strip]
  | .expressionBuiltin b targs xs => by
    simp only [NodeFullExpression.toks, NodeFullExpression.strip, strip_option NodeContractTypeArguments.toks_strip]; simp
  | .message entries => by
    simp only [NodeFullExpression.toks, NodeFullExpression.strip, strip_sepBy NodeMessageEntry.toks_strip]
  | .match_ x cs => by
    simp only [NodeFullExpression.toks, NodeFullExpression.strip, NodePatternMatchExpressionClause.toksL_strip cs]; simp
  | .constructorCall m targs args => by
    simp only [NodeFullExpression.toks, NodeFullExpression.strip, strip_option NodeContractTypeArguments.toks_strip, strip_flatMap NodeVariableIdentifier.toks_strip]; simp
  | .templateFunction x ⟨e, _, _⟩ => by
    simp only [NodeFullExpression.toks, NodeFullExpression.strip, NodeFullExpression.stripW, NodeFullExpression.toks_strip e]; simp
  | .tApp x args => by
    simp only [NodeFullExpression.toks, NodeFullExpression.strip, strip_flatMap NodeTypeArgument.toks_strip]; simp
theorem NodePatternMatchExpressionClause.toks_strip :
    ∀ x : NodePatternMatchExpressionClause, x.strip.toks = x.toks
  | .mk p ⟨e, _, _⟩ => by
    simp only [NodePatternMatchExpressionClause.toks, NodePatternMatchExpressionClause.strip, NodeFullExpression.stripW, NodeFullExpression.toks_strip e]; simp
theorem NodePatternMatchExpressionClause.toksL_strip :
    ∀ xs : List (W NodePatternMatchExpressionClause),
    NodePatternMatchExpressionClause.toksL (NodePatternMatchExpressionClause.stripLW xs) =
      NodePatternMatchExpressionClause.toksL xs
  | [] => rfl
  | ⟨x, _, _⟩ :: xs => by
    have := NodePatternMatchExpressionClause.toksL_strip xs
    simp only [NodePatternMatchExpressionClause.stripLW, NodePatternMatchExpressionClause.stripW, NodePatternMatchExpressionClause.toksL, this, NodePatternMatchExpressionClause.toks_strip x]
end

attribute [simp] NodeFullExpression.toks_strip NodePatternMatchExpressionClause.toks_strip

@[simp] theorem NodeBlockchainFetchArguments.toks_strip (x : NodeBlockchainFetchArguments) :
    x.strip.toks = x.toks := by
  cases x; simp only [NodeBlockchainFetchArguments.strip, NodeBlockchainFetchArguments.toks, strip_flatMap NodeVariableIdentifier.toks_strip]
@[simp] theorem NodeComponentId.toks_strip (x : NodeComponentId) :
    x.strip.toks = x.toks := by cases x <;> simp [NodeComponentId.toks, NodeComponentId.strip]
@[simp] theorem NodeRemoteFetchStatement.toks_strip (x : NodeRemoteFetchStatement) :
    x.strip.toks = x.toks := by
  cases x <;> simp only [NodeRemoteFetchStatement.strip, NodeRemoteFetchStatement.toks, strip_flatMap NodeMapAccess.toks_strip] <;> simp

mutual
theorem NodeStatement.toks_strip : ∀ x : NodeStatement, x.strip.toks = x.toks
  | .load x v => by simp [NodeStatement.toks, NodeStatement.strip]
  | .remoteFetch s => by simp [NodeStatement.toks, NodeStatement.strip]
  | .store x v => by simp [NodeStatement.toks, NodeStatement.strip]
  | .bind x e => by simp [NodeStatement.toks, NodeStatement.strip]
  | .readFromBC x t args => by cases args <;> simp [NodeStatement.toks, NodeStatement.strip]
  | .mapGet x ks y => by
    simp only [NodeStatement.toks, NodeStatement.strip, strip_flatMap NodeMapAccess.toks_strip]; simp
  | .mapGetExists x ks y => by
    simp only [NodeStatement.toks, NodeStatement.strip, strip_flatMap NodeMapAccess.toks_strip]; simp
  | .mapUpdate x ks v => by
    simp only [NodeStatement.toks, NodeStatement.strip, strip_flatMap NodeMapAccess.toks_strip]; simp
  | .mapUpdateDelete x ks => by
    simp only [NodeStatement.toks, NodeStatement.strip, strip_flatMap NodeMapAccess.toks_strip]; simp
  | .accept => by simp [NodeStatement.toks, NodeStatement.strip]
  | .send v => by simp [NodeStatement.toks, NodeStatement.strip]
  | .createEvnt v => by simp [NodeStatement.toks, NodeStatement.strip]
  | .throw v => by
    simp only [NodeStatement.toks, NodeStatement.strip, strip_option NodeVariableIdentifier.toks_strip]
  | .matchStmt x cs => by
    simp only [NodeStatement.toks, NodeStatement.strip, NodePatternMatchClause.toksL_strip cs]; simp
  | .callProc c args => by
    simp only [NodeStatement.toks, NodeStatement.strip, strip_flatMap NodeVariableIdentifier.toks_strip]; simp
  | .iterate x c => by simp [NodeStatement.toks, NodeStatement.strip]
theorem NodePatternMatchClause.toks_strip : ∀ x : NodePatternMatchClause, x.strip.toks = x.toks
  | .mk p none => by simp [NodePatternMatchClause.toks, NodePatternMatchClause.strip]
  | .mk p (some ⟨b, _, _⟩) => by
    simp only [NodePatternMatchClause.toks, NodePatternMatchClause.strip, NodeStatementBlock.stripOW, NodeStatementBlock.stripW, NodeStatementBlock.toks_strip b]; simp
theorem NodeStatementBlock.toks_strip : ∀ x : NodeStatementBlock, x.strip.toks = x.toks
  | .mk sts => by simp only [NodeStatementBlock.toks, NodeStatementBlock.strip, NodeStatement.toksL_strip sts]
theorem NodePatternMatchClause.toksL_strip : ∀ xs : List (W NodePatternMatchClause),
    NodePatternMatchClause.toksL (NodePatternMatchClause.stripLW xs) =
      NodePatternMatchClause.toksL xs
  | [] => rfl
  | ⟨x, _, _⟩ :: xs => by
    have := NodePatternMatchClause.toksL_strip xs
    simp only [NodePatternMatchClause.stripLW, NodePatternMatchClause.stripW, NodePatternMatchClause.toksL, this, NodePatternMatchClause.toks_strip x]
theorem NodeStatement.toksL_strip : ∀ xs : List NodeStatement,
    NodeStatement.toksL (NodeStatement.stripL xs) = NodeStatement.toksL xs
  | [] => rfl
  | x :: xs => by
    have := NodeStatement.toksN_strip xs
    simp only [NodeStatement.stripL, NodeStatement.toksL, this, NodeStatement.toks_strip x]
theorem NodeStatement.toksN_strip : ∀ xs : List NodeStatement,
    NodeStatement.toksN (NodeStatement.stripL xs) = NodeStatement.toksN xs
  | [] => rfl
  | x :: xs => by
    have := NodeStatement.toksN_strip xs
    simp only [NodeStatement.stripL, NodeStatement.toksN, this, NodeStatement.toks_strip x]
end

attribute [simp] NodeStatement.toks_strip NodePatternMatchClause.toks_strip
  NodeStatementBlock.toks_strip

@[simp] theorem NodeParameterPair.toks_strip (x : NodeParameterPair) :
    x.strip.toks = x.toks := by cases x; simp [NodeParameterPair.toks, NodeParameterPair.strip]
@[simp] theorem NodeComponentParameters.toks_strip (x : NodeComponentParameters) :
    x.strip.toks = x.toks := by
  cases x; simp only [NodeComponentParameters.strip, NodeComponentParameters.toks, strip_sepBy NodeParameterPair.toks_strip]
@[simp] theorem NodeComponentBody.toks_strip (x : NodeComponentBody) :
    x.strip.toks = x.toks := by
  cases x; simp only [NodeComponentBody.strip, NodeComponentBody.toks, strip_option NodeStatementBlock.toks_strip]
@[simp] theorem NodeTypeAlternativeClause.toks_strip (x : NodeTypeAlternativeClause) :
    x.strip.toks = x.toks := by
  cases x <;> simp only [NodeTypeAlternativeClause.strip, NodeTypeAlternativeClause.toks, strip_flatMap NodeTypeArgument.toks_strip] <;> simp
@[simp] theorem NodeLibrarySingleDefinition.toks_strip (x : NodeLibrarySingleDefinition) :
    x.strip.toks = x.toks := by
  cases x with
  | letDefinition x ta e =>
    simp only [NodeLibrarySingleDefinition.strip, NodeLibrarySingleDefinition.toks, strip_option NodeTypeAnnotation.toks_strip]; simp
  | typeDefinition n cs =>
    cases cs with
    | none => simp [NodeLibrarySingleDefinition.toks, NodeLibrarySingleDefinition.strip]
    | some cs =>
      simp only [NodeLibrarySingleDefinition.strip, NodeLibrarySingleDefinition.toks, Option.map_some, strip_flatMap NodeTypeAlternativeClause.toks_strip]; simp
@[simp] theorem NodeLibraryDefinition.toks_strip (x : NodeLibraryDefinition) :
    x.strip.toks = x.toks := by
  cases x; simp only [NodeLibraryDefinition.strip, NodeLibraryDefinition.toks, strip_flatMap NodeLibrarySingleDefinition.toks_strip]; simp
@[simp] theorem NodeContractField.toks_strip (x : NodeContractField) :
    x.strip.toks = x.toks := by cases x; simp [NodeContractField.toks, NodeContractField.strip]
@[simp] theorem NodeWithConstraint.toks_strip (x : NodeWithConstraint) :
    x.strip.toks = x.toks := by cases x; simp [NodeWithConstraint.toks, NodeWithConstraint.strip]
@[simp] theorem NodeProcedureDefinition.toks_strip (x : NodeProcedureDefinition) :
    x.strip.toks = x.toks := by cases x; simp [NodeProcedureDefinition.toks, NodeProcedureDefinition.strip]
@[simp] theorem NodeTransitionDefinition.toks_strip (x : NodeTransitionDefinition) :
    x.strip.toks = x.toks := by cases x; simp [NodeTransitionDefinition.toks, NodeTransitionDefinition.strip]
@[simp] theorem NodeComponentDefinition.toks_strip (x : NodeComponentDefinition) :
    x.strip.toks = x.toks := by cases x <;> simp [NodeComponentDefinition.toks, NodeComponentDefinition.strip]
@[simp] theorem NodeContractDefinition.toks_strip (x : NodeContractDefinition) :
    x.strip.toks = x.toks := by
  cases x
  simp only [NodeContractDefinition.strip, NodeContractDefinition.toks, strip_option NodeWithConstraint.toks_strip, strip_flatMap NodeContractField.toks_strip, strip_flatMap NodeComponentDefinition.toks_strip]
  simp
/-- the tokens of a tree do not depend on its positions -/
@[simp] theorem NodeProgram.toks_strip (x : NodeProgram) : x.strip.toks = x.toks := by
  cases x
  simp only [NodeProgram.strip, NodeProgram.toks, strip_option NodeImportDeclarations.toks_strip, strip_option NodeLibraryDefinition.toks_strip]
  simp

end Verif
