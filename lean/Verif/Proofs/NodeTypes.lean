import Verif.Spec.NodeTypes
import Verif.Proofs.NodeValues
/-
The trees of the model are exactly the values of the types of nodes.rs (written by tools/node_types.py).
-/
set_option linter.unusedSimpArgs false
namespace Verif

/-- the types of the model -/
@[reducible] def TName.El : TName → Type
  | .NodeByteStr => Verif.NodeByteStr
  | .NodeTypeNameIdentifier => Verif.NodeTypeNameIdentifier
  | .NodeImportedName => Verif.NodeImportedName
  | .NodeImportDeclarations => Verif.NodeImportDeclarations
  | .NodeMetaIdentifier => Verif.NodeMetaIdentifier
  | .NodeVariableIdentifier => Verif.NodeVariableIdentifier
  | .NodeBuiltinArguments => Verif.NodeBuiltinArguments
  | .NodeTypeMapKey => Verif.NodeTypeMapKey
  | .NodeTypeMapValue => Verif.NodeTypeMapValue
  | .NodeTypeArgument => Verif.NodeTypeArgument
  | .NodeScillaType => Verif.NodeScillaType
  | .NodeTypeMapEntry => Verif.NodeTypeMapEntry
  | .NodeAddressTypeField => Verif.NodeAddressTypeField
  | .NodeAddressType => Verif.NodeAddressType
  | .NodeFullExpression => Verif.NodeFullExpression
  | .NodeMessageEntry => Verif.NodeMessageEntry
  | .NodePatternMatchExpressionClause => Verif.NodePatternMatchExpressionClause
  | .NodeAtomicExpression => Verif.NodeAtomicExpression
  | .NodeContractTypeArguments => Verif.NodeContractTypeArguments
  | .NodeValueLiteral => Verif.NodeValueLiteral
  | .NodeMapAccess => Verif.NodeMapAccess
  | .NodePattern => Verif.NodePattern
  | .NodeArgumentPattern => Verif.NodeArgumentPattern
  | .NodePatternMatchClause => Verif.NodePatternMatchClause
  | .NodeBlockchainFetchArguments => Verif.NodeBlockchainFetchArguments
  | .NodeStatement => Verif.NodeStatement
  | .NodeRemoteFetchStatement => Verif.NodeRemoteFetchStatement
  | .NodeComponentId => Verif.NodeComponentId
  | .NodeComponentParameters => Verif.NodeComponentParameters
  | .NodeParameterPair => Verif.NodeParameterPair
  | .NodeComponentBody => Verif.NodeComponentBody
  | .NodeStatementBlock => Verif.NodeStatementBlock
  | .NodeTypedIdentifier => Verif.NodeTypedIdentifier
  | .NodeTypeAnnotation => Verif.NodeTypeAnnotation
  | .NodeProgram => Verif.NodeProgram
  | .NodeLibraryDefinition => Verif.NodeLibraryDefinition
  | .NodeLibrarySingleDefinition => Verif.NodeLibrarySingleDefinition
  | .NodeContractDefinition => Verif.NodeContractDefinition
  | .NodeContractField => Verif.NodeContractField
  | .NodeWithConstraint => Verif.NodeWithConstraint
  | .NodeComponentDefinition => Verif.NodeComponentDefinition
  | .NodeProcedureDefinition => Verif.NodeProcedureDefinition
  | .NodeTransitionDefinition => Verif.NodeTransitionDefinition
  | .NodeTypeAlternativeClause => Verif.NodeTypeAlternativeClause
  | .NodeTypeMapValueArguments => Verif.NodeTypeMapValueArguments
  | .NodeTypeMapValueAllowingTypeArguments => Verif.NodeTypeMapValueAllowingTypeArguments

/-- the trees of the model as Rust values -/
def TName.rv : (t : TName) → t.El → RV
  | .NodeByteStr => Verif.NodeByteStr.rv
  | .NodeTypeNameIdentifier => Verif.NodeTypeNameIdentifier.rv
  | .NodeImportedName => Verif.NodeImportedName.rv
  | .NodeImportDeclarations => Verif.NodeImportDeclarations.rv
  | .NodeMetaIdentifier => Verif.NodeMetaIdentifier.rv
  | .NodeVariableIdentifier => Verif.NodeVariableIdentifier.rv
  | .NodeBuiltinArguments => Verif.NodeBuiltinArguments.rv
  | .NodeTypeMapKey => Verif.NodeTypeMapKey.rv
  | .NodeTypeMapValue => Verif.NodeTypeMapValue.rv
  | .NodeTypeArgument => Verif.NodeTypeArgument.rv
  | .NodeScillaType => Verif.NodeScillaType.rv
  | .NodeTypeMapEntry => Verif.NodeTypeMapEntry.rv
  | .NodeAddressTypeField => Verif.NodeAddressTypeField.rv
  | .NodeAddressType => Verif.NodeAddressType.rv
  | .NodeFullExpression => Verif.NodeFullExpression.rv
  | .NodeMessageEntry => Verif.NodeMessageEntry.rv
  | .NodePatternMatchExpressionClause => Verif.NodePatternMatchExpressionClause.rv
  | .NodeAtomicExpression => Verif.NodeAtomicExpression.rv
  | .NodeContractTypeArguments => Verif.NodeContractTypeArguments.rv
  | .NodeValueLiteral => Verif.NodeValueLiteral.rv
  | .NodeMapAccess => Verif.NodeMapAccess.rv
  | .NodePattern => Verif.NodePattern.rv
  | .NodeArgumentPattern => Verif.NodeArgumentPattern.rv
  | .NodePatternMatchClause => Verif.NodePatternMatchClause.rv
  | .NodeBlockchainFetchArguments => Verif.NodeBlockchainFetchArguments.rv
  | .NodeStatement => Verif.NodeStatement.rv
  | .NodeRemoteFetchStatement => Verif.NodeRemoteFetchStatement.rv
  | .NodeComponentId => Verif.NodeComponentId.rv
  | .NodeComponentParameters => Verif.NodeComponentParameters.rv
  | .NodeParameterPair => Verif.NodeParameterPair.rv
  | .NodeComponentBody => Verif.NodeComponentBody.rv
  | .NodeStatementBlock => Verif.NodeStatementBlock.rv
  | .NodeTypedIdentifier => Verif.NodeTypedIdentifier.rv
  | .NodeTypeAnnotation => Verif.NodeTypeAnnotation.rv
  | .NodeProgram => Verif.NodeProgram.rv
  | .NodeLibraryDefinition => Verif.NodeLibraryDefinition.rv
  | .NodeLibrarySingleDefinition => Verif.NodeLibrarySingleDefinition.rv
  | .NodeContractDefinition => Verif.NodeContractDefinition.rv
  | .NodeContractField => Verif.NodeContractField.rv
  | .NodeWithConstraint => Verif.NodeWithConstraint.rv
  | .NodeComponentDefinition => Verif.NodeComponentDefinition.rv
  | .NodeProcedureDefinition => Verif.NodeProcedureDefinition.rv
  | .NodeTransitionDefinition => Verif.NodeTransitionDefinition.rv
  | .NodeTypeAlternativeClause => Verif.NodeTypeAlternativeClause.rv
  | .NodeTypeMapValueArguments => Verif.NodeTypeMapValueArguments.rv
  | .NodeTypeMapValueAllowingTypeArguments => Verif.NodeTypeMapValueAllowingTypeArguments.rv

@[reducible] def RT.El : RT → Type
  | .string => Str
  | .named t => t.El
  | .located t => W t.El
  | .vec t => List t.El
  | .option t => Option t.El

def RT.rv : (t : RT) → t.El → RV
  | .string => RV.str
  | .named t => t.rv
  | .located t => W.rv t.rv
  | .vec t => vecRv t.rv
  | .option t => optRv t.rv

@[reducible] def Els : List RT → Type
  | [] => Unit
  | t :: ts => t.El × Els ts

def rvs : (ts : List RT) → Els ts → List RV
  | [], _ => []
  | t :: ts, (x, xs) => t.rv x :: rvs ts xs

theorem all_map {t : RT} {l : List t.El} (h : ∀ x ∈ l, HasType (t.rv x) t) : HasTypeAll (l.map t.rv) t := by
  induction l with
  | nil => exact .empty t
  | cons x l ih => exact .more (h x (by simp)) (ih fun y hy => h y (by simp [hy]))

theorem W.ht {α : Type} {f : α → RV} {t : RT} (h : ∀ x, HasType (f x) t) (w : W α) : HasType (W.rv f w) (.located t) :=
  .located _ _ (h _)
theorem vec_ht {α : Type} {f : α → RV} {t : RT} (h : ∀ x, HasType (f x) t) (l : List α) : HasType (vecRv f l) (.vec t) := by
  refine .vec ?_
  induction l with
  | nil => exact .empty t
  | cons x l ih => exact .more (h x) ih
theorem opt_ht {α : Type} {f : α → RV} {t : RT} (h : ∀ x, HasType (f x) t) : ∀ x : Option α, HasType (optRv f x) (.option t)
  | none => .none t
  | some x => .some (h x)

theorem NodeByteStr.ht : ∀ x : NodeByteStr, HasType x.rv (.named .NodeByteStr)
  | .constant x0 => .node (t := .NodeByteStr) (c := ⟨str! "NodeByteStr::Constant", [], [.located (.string)]⟩) (by simp [TName.variants]) (.cons (W.ht (fun x => .string _) x0) (HasTypes.nil))
  | .type x0 => .node (t := .NodeByteStr) (c := ⟨str! "NodeByteStr::Type", [], [.located (.string)]⟩) (by simp [TName.variants]) (.cons (W.ht (fun x => .string _) x0) (HasTypes.nil))

theorem NodeTypeNameIdentifier.ht : ∀ x : NodeTypeNameIdentifier, HasType x.rv (.named .NodeTypeNameIdentifier)
  | .byteStringType x0 => .node (t := .NodeTypeNameIdentifier) (c := ⟨str! "NodeTypeNameIdentifier::ByteStringType", [], [.named .NodeByteStr]⟩) (by simp [TName.variants]) (.cons (NodeByteStr.ht x0) (HasTypes.nil))
  | .eventType => .node (t := .NodeTypeNameIdentifier) (c := ⟨str! "NodeTypeNameIdentifier::EventType", [], []⟩) (by simp [TName.variants]) (HasTypes.nil)
  | .typeOrEnumLikeIdentifier x0 => .node (t := .NodeTypeNameIdentifier) (c := ⟨str! "NodeTypeNameIdentifier::TypeOrEnumLikeIdentifier", [], [.located (.string)]⟩) (by simp [TName.variants]) (.cons (W.ht (fun x => .string _) x0) (HasTypes.nil))

theorem NodeImportedName.ht : ∀ x : NodeImportedName, HasType x.rv (.named .NodeImportedName)
  | .regularImport x0 => .node (t := .NodeImportedName) (c := ⟨str! "NodeImportedName::RegularImport", [], [.located (.named .NodeTypeNameIdentifier)]⟩) (by simp [TName.variants]) (.cons (W.ht (fun x => NodeTypeNameIdentifier.ht x) x0) (HasTypes.nil))
  | .aliasedImport x0 x1 => .node (t := .NodeImportedName) (c := ⟨str! "NodeImportedName::AliasedImport", [], [.located (.named .NodeTypeNameIdentifier), .located (.named .NodeTypeNameIdentifier)]⟩) (by simp [TName.variants]) (.cons (W.ht (fun x => NodeTypeNameIdentifier.ht x) x0) (.cons (W.ht (fun x => NodeTypeNameIdentifier.ht x) x1) (HasTypes.nil)))

theorem NodeImportDeclarations.ht : ∀ x : NodeImportDeclarations, HasType x.rv (.named .NodeImportDeclarations)
  | ⟨x0⟩ => .node (t := .NodeImportDeclarations) (c := ⟨str! "NodeImportDeclarations", [str! "import_list"], [.vec (.located (.named .NodeImportedName))]⟩) (by simp [TName.variants]) (.cons (vec_ht (fun x => W.ht (fun x => NodeImportedName.ht x) x) x0) (HasTypes.nil))

theorem NodeMetaIdentifier.ht : ∀ x : NodeMetaIdentifier, HasType x.rv (.named .NodeMetaIdentifier)
  | .metaName x0 => .node (t := .NodeMetaIdentifier) (c := ⟨str! "NodeMetaIdentifier::MetaName", [], [.located (.named .NodeTypeNameIdentifier)]⟩) (by simp [TName.variants]) (.cons (W.ht (fun x => NodeTypeNameIdentifier.ht x) x0) (HasTypes.nil))
  | .metaNameInNamespace x0 x1 => .node (t := .NodeMetaIdentifier) (c := ⟨str! "NodeMetaIdentifier::MetaNameInNamespace", [], [.located (.named .NodeTypeNameIdentifier), .located (.named .NodeTypeNameIdentifier)]⟩) (by simp [TName.variants]) (.cons (W.ht (fun x => NodeTypeNameIdentifier.ht x) x0) (.cons (W.ht (fun x => NodeTypeNameIdentifier.ht x) x1) (HasTypes.nil)))
  | .metaNameInHexspace x0 x1 => .node (t := .NodeMetaIdentifier) (c := ⟨str! "NodeMetaIdentifier::MetaNameInHexspace", [], [.located (.string), .located (.named .NodeTypeNameIdentifier)]⟩) (by simp [TName.variants]) (.cons (W.ht (fun x => .string _) x0) (.cons (W.ht (fun x => NodeTypeNameIdentifier.ht x) x1) (HasTypes.nil)))
  | .byteString => .node (t := .NodeMetaIdentifier) (c := ⟨str! "NodeMetaIdentifier::ByteString", [], []⟩) (by simp [TName.variants]) (HasTypes.nil)

theorem NodeVariableIdentifier.ht : ∀ x : NodeVariableIdentifier, HasType x.rv (.named .NodeVariableIdentifier)
  | .variableName x0 => .node (t := .NodeVariableIdentifier) (c := ⟨str! "NodeVariableIdentifier::VariableName", [], [.located (.string)]⟩) (by simp [TName.variants]) (.cons (W.ht (fun x => .string _) x0) (HasTypes.nil))
  | .specialIdentifier x0 => .node (t := .NodeVariableIdentifier) (c := ⟨str! "NodeVariableIdentifier::SpecialIdentifier", [], [.located (.string)]⟩) (by simp [TName.variants]) (.cons (W.ht (fun x => .string _) x0) (HasTypes.nil))
  | .variableInNamespace x0 x1 => .node (t := .NodeVariableIdentifier) (c := ⟨str! "NodeVariableIdentifier::VariableInNamespace", [], [.located (.named .NodeTypeNameIdentifier), .located (.string)]⟩) (by simp [TName.variants]) (.cons (W.ht (fun x => NodeTypeNameIdentifier.ht x) x0) (.cons (W.ht (fun x => .string _) x1) (HasTypes.nil)))

theorem NodeBuiltinArguments.ht : ∀ x : NodeBuiltinArguments, HasType x.rv (.named .NodeBuiltinArguments)
  | ⟨x0⟩ => .node (t := .NodeBuiltinArguments) (c := ⟨str! "NodeBuiltinArguments", [str! "arguments"], [.vec (.located (.named .NodeVariableIdentifier))]⟩) (by simp [TName.variants]) (.cons (vec_ht (fun x => W.ht (fun x => NodeVariableIdentifier.ht x) x) x0) (HasTypes.nil))

mutual
theorem NodeTypeMapKey.ht : ∀ x : NodeTypeMapKey, HasType x.rv (.named .NodeTypeMapKey)
  | .genericMapKey x0 => .node (t := .NodeTypeMapKey) (c := ⟨str! "NodeTypeMapKey::GenericMapKey", [], [.located (.named .NodeMetaIdentifier)]⟩) (by simp [TName.variants]) (.cons (W.ht (fun x => NodeMetaIdentifier.ht x) x0) (HasTypes.nil))
  | .enclosedGenericId x0 => .node (t := .NodeTypeMapKey) (c := ⟨str! "NodeTypeMapKey::EnclosedGenericId", [], [.located (.named .NodeMetaIdentifier)]⟩) (by simp [TName.variants]) (.cons (W.ht (fun x => NodeMetaIdentifier.ht x) x0) (HasTypes.nil))
  | .enclosedAddressMapKeyType x0 => .node (t := .NodeTypeMapKey) (c := ⟨str! "NodeTypeMapKey::EnclosedAddressMapKeyType", [], [.located (.named .NodeAddressType)]⟩) (by simp [TName.variants]) (.cons (wNodeAddressType_ht x0) (HasTypes.nil))
  | .addressMapKeyType x0 => .node (t := .NodeTypeMapKey) (c := ⟨str! "NodeTypeMapKey::AddressMapKeyType", [], [.located (.named .NodeAddressType)]⟩) (by simp [TName.variants]) (.cons (wNodeAddressType_ht x0) (HasTypes.nil))

theorem NodeTypeMapValue.ht : ∀ x : NodeTypeMapValue, HasType x.rv (.named .NodeTypeMapValue)
  | .mapValueTypeOrEnumLikeIdentifier x0 => .node (t := .NodeTypeMapValue) (c := ⟨str! "NodeTypeMapValue::MapValueTypeOrEnumLikeIdentifier", [], [.located (.named .NodeMetaIdentifier)]⟩) (by simp [TName.variants]) (.cons (W.ht (fun x => NodeMetaIdentifier.ht x) x0) (HasTypes.nil))
  | .mapKeyValue x0 => .node (t := .NodeTypeMapValue) (c := ⟨str! "NodeTypeMapValue::MapKeyValue", [], [.located (.named .NodeTypeMapEntry)]⟩) (by simp [TName.variants]) (.cons (wNodeTypeMapEntry_ht x0) (HasTypes.nil))
  | .mapValueParenthesizedType x0 => .node (t := .NodeTypeMapValue) (c := ⟨str! "NodeTypeMapValue::MapValueParenthesizedType", [], [.located (.named .NodeTypeMapValueAllowingTypeArguments)]⟩) (by simp [TName.variants]) (.cons (wNodeTypeMapValueAllowingTypeArguments_ht x0) (HasTypes.nil))
  | .mapValueAddressType x0 => .node (t := .NodeTypeMapValue) (c := ⟨str! "NodeTypeMapValue::MapValueAddressType", [], [.located (.named .NodeAddressType)]⟩) (by simp [TName.variants]) (.cons (wNodeAddressType_ht x0) (HasTypes.nil))

theorem NodeTypeArgument.ht : ∀ x : NodeTypeArgument, HasType x.rv (.named .NodeTypeArgument)
  | .enclosedTypeArgument x0 => .node (t := .NodeTypeArgument) (c := ⟨str! "NodeTypeArgument::EnclosedTypeArgument", [], [.located (.named .NodeScillaType)]⟩) (by simp [TName.variants]) (.cons (wNodeScillaType_ht x0) (HasTypes.nil))
  | .genericTypeArgument x0 => .node (t := .NodeTypeArgument) (c := ⟨str! "NodeTypeArgument::GenericTypeArgument", [], [.located (.named .NodeMetaIdentifier)]⟩) (by simp [TName.variants]) (.cons (W.ht (fun x => NodeMetaIdentifier.ht x) x0) (HasTypes.nil))
  | .templateTypeArgument x0 => .node (t := .NodeTypeArgument) (c := ⟨str! "NodeTypeArgument::TemplateTypeArgument", [], [.located (.string)]⟩) (by simp [TName.variants]) (.cons (W.ht (fun x => .string _) x0) (HasTypes.nil))
  | .addressTypeArgument x0 => .node (t := .NodeTypeArgument) (c := ⟨str! "NodeTypeArgument::AddressTypeArgument", [], [.located (.named .NodeAddressType)]⟩) (by simp [TName.variants]) (.cons (wNodeAddressType_ht x0) (HasTypes.nil))
  | .mapTypeArgument x0 x1 => .node (t := .NodeTypeArgument) (c := ⟨str! "NodeTypeArgument::MapTypeArgument", [], [.located (.named .NodeTypeMapKey), .located (.named .NodeTypeMapValue)]⟩) (by simp [TName.variants]) (.cons (wNodeTypeMapKey_ht x0) (.cons (wNodeTypeMapValue_ht x1) (HasTypes.nil)))

theorem NodeScillaType.ht : ∀ x : NodeScillaType, HasType x.rv (.named .NodeScillaType)
  | .genericTypeWithArgs x0 x1 => .node (t := .NodeScillaType) (c := ⟨str! "NodeScillaType::GenericTypeWithArgs", [], [.located (.named .NodeMetaIdentifier), .vec (.located (.named .NodeTypeArgument))]⟩) (by simp [TName.variants]) (.cons (W.ht (fun x => NodeMetaIdentifier.ht x) x0) (.cons (.vec (lWNodeTypeArgument_ht x1)) (HasTypes.nil)))
  | .mapType x0 x1 => .node (t := .NodeScillaType) (c := ⟨str! "NodeScillaType::MapType", [], [.located (.named .NodeTypeMapKey), .located (.named .NodeTypeMapValue)]⟩) (by simp [TName.variants]) (.cons (wNodeTypeMapKey_ht x0) (.cons (wNodeTypeMapValue_ht x1) (HasTypes.nil)))
  | .functionType x0 x1 => .node (t := .NodeScillaType) (c := ⟨str! "NodeScillaType::FunctionType", [], [.located (.named .NodeScillaType), .located (.named .NodeScillaType)]⟩) (by simp [TName.variants]) (.cons (wNodeScillaType_ht x0) (.cons (wNodeScillaType_ht x1) (HasTypes.nil)))
  | .enclosedType x0 => .node (t := .NodeScillaType) (c := ⟨str! "NodeScillaType::EnclosedType", [], [.located (.named .NodeScillaType)]⟩) (by simp [TName.variants]) (.cons (wNodeScillaType_ht x0) (HasTypes.nil))
  | .scillaAddresseType x0 => .node (t := .NodeScillaType) (c := ⟨str! "NodeScillaType::ScillaAddresseType", [], [.located (.named .NodeAddressType)]⟩) (by simp [TName.variants]) (.cons (wNodeAddressType_ht x0) (HasTypes.nil))
  | .polyFunctionType x0 x1 => .node (t := .NodeScillaType) (c := ⟨str! "NodeScillaType::PolyFunctionType", [], [.located (.string), .located (.named .NodeScillaType)]⟩) (by simp [TName.variants]) (.cons (W.ht (fun x => .string _) x0) (.cons (wNodeScillaType_ht x1) (HasTypes.nil)))
  | .typeVarType x0 => .node (t := .NodeScillaType) (c := ⟨str! "NodeScillaType::TypeVarType", [], [.located (.string)]⟩) (by simp [TName.variants]) (.cons (W.ht (fun x => .string _) x0) (HasTypes.nil))

theorem NodeTypeMapEntry.ht : ∀ x : NodeTypeMapEntry, HasType x.rv (.named .NodeTypeMapEntry)
  | ⟨x0, x1⟩ => .node (t := .NodeTypeMapEntry) (c := ⟨str! "NodeTypeMapEntry", [str! "key", str! "value"], [.located (.named .NodeTypeMapKey), .located (.named .NodeTypeMapValue)]⟩) (by simp [TName.variants]) (.cons (wNodeTypeMapKey_ht x0) (.cons (wNodeTypeMapValue_ht x1) (HasTypes.nil)))

theorem NodeAddressTypeField.ht : ∀ x : NodeAddressTypeField, HasType x.rv (.named .NodeAddressTypeField)
  | ⟨x0, x1⟩ => .node (t := .NodeAddressTypeField) (c := ⟨str! "NodeAddressTypeField", [str! "identifier", str! "type_name"], [.located (.named .NodeVariableIdentifier), .located (.named .NodeScillaType)]⟩) (by simp [TName.variants]) (.cons (W.ht (fun x => NodeVariableIdentifier.ht x) x0) (.cons (wNodeScillaType_ht x1) (HasTypes.nil)))

theorem NodeAddressType.ht : ∀ x : NodeAddressType, HasType x.rv (.named .NodeAddressType)
  | ⟨x0, x1, x2⟩ => .node (t := .NodeAddressType) (c := ⟨str! "NodeAddressType", [str! "identifier", str! "type_name", str! "address_fields"], [.located (.named .NodeTypeNameIdentifier), .located (.string), .vec (.located (.named .NodeAddressTypeField))]⟩) (by simp [TName.variants]) (.cons (W.ht (fun x => NodeTypeNameIdentifier.ht x) x0) (.cons (W.ht (fun x => .string _) x1) (.cons (.vec (lWNodeAddressTypeField_ht x2)) (HasTypes.nil))))

theorem NodeTypeMapValueArguments.ht : ∀ x : NodeTypeMapValueArguments, HasType x.rv (.named .NodeTypeMapValueArguments)
  | .enclosedTypeMapValue x0 => .node (t := .NodeTypeMapValueArguments) (c := ⟨str! "NodeTypeMapValueArguments::EnclosedTypeMapValue", [], [.located (.named .NodeTypeMapValueAllowingTypeArguments)]⟩) (by simp [TName.variants]) (.cons (wNodeTypeMapValueAllowingTypeArguments_ht x0) (HasTypes.nil))
  | .genericMapValueArgument x0 => .node (t := .NodeTypeMapValueArguments) (c := ⟨str! "NodeTypeMapValueArguments::GenericMapValueArgument", [], [.located (.named .NodeMetaIdentifier)]⟩) (by simp [TName.variants]) (.cons (W.ht (fun x => NodeMetaIdentifier.ht x) x0) (HasTypes.nil))
  | .mapKeyValueType x0 x1 => .node (t := .NodeTypeMapValueArguments) (c := ⟨str! "NodeTypeMapValueArguments::MapKeyValueType", [], [.located (.named .NodeTypeMapKey), .located (.named .NodeTypeMapValue)]⟩) (by simp [TName.variants]) (.cons (wNodeTypeMapKey_ht x0) (.cons (wNodeTypeMapValue_ht x1) (HasTypes.nil)))

theorem NodeTypeMapValueAllowingTypeArguments.ht : ∀ x : NodeTypeMapValueAllowingTypeArguments, HasType x.rv (.named .NodeTypeMapValueAllowingTypeArguments)
  | .typeMapValueNoArgs x0 => .node (t := .NodeTypeMapValueAllowingTypeArguments) (c := ⟨str! "NodeTypeMapValueAllowingTypeArguments::TypeMapValueNoArgs", [], [.located (.named .NodeTypeMapValue)]⟩) (by simp [TName.variants]) (.cons (wNodeTypeMapValue_ht x0) (HasTypes.nil))
  | .typeMapValueWithArgs x0 x1 => .node (t := .NodeTypeMapValueAllowingTypeArguments) (c := ⟨str! "NodeTypeMapValueAllowingTypeArguments::TypeMapValueWithArgs", [], [.located (.named .NodeMetaIdentifier), .vec (.located (.named .NodeTypeMapValueArguments))]⟩) (by simp [TName.variants]) (.cons (W.ht (fun x => NodeMetaIdentifier.ht x) x0) (.cons (.vec (lWNodeTypeMapValueArguments_ht x1)) (HasTypes.nil)))

theorem wNodeAddressType_ht : ∀ x : W NodeAddressType, HasType (wNodeAddressType x) (.located (.named .NodeAddressType))
  | ⟨n, s, e⟩ => .located s e (NodeAddressType.ht n)

theorem wNodeTypeMapEntry_ht : ∀ x : W NodeTypeMapEntry, HasType (wNodeTypeMapEntry x) (.located (.named .NodeTypeMapEntry))
  | ⟨n, s, e⟩ => .located s e (NodeTypeMapEntry.ht n)

theorem wNodeTypeMapValueAllowingTypeArguments_ht : ∀ x : W NodeTypeMapValueAllowingTypeArguments, HasType (wNodeTypeMapValueAllowingTypeArguments x) (.located (.named .NodeTypeMapValueAllowingTypeArguments))
  | ⟨n, s, e⟩ => .located s e (NodeTypeMapValueAllowingTypeArguments.ht n)

theorem wNodeScillaType_ht : ∀ x : W NodeScillaType, HasType (wNodeScillaType x) (.located (.named .NodeScillaType))
  | ⟨n, s, e⟩ => .located s e (NodeScillaType.ht n)

theorem wNodeTypeMapKey_ht : ∀ x : W NodeTypeMapKey, HasType (wNodeTypeMapKey x) (.located (.named .NodeTypeMapKey))
  | ⟨n, s, e⟩ => .located s e (NodeTypeMapKey.ht n)

theorem wNodeTypeMapValue_ht : ∀ x : W NodeTypeMapValue, HasType (wNodeTypeMapValue x) (.located (.named .NodeTypeMapValue))
  | ⟨n, s, e⟩ => .located s e (NodeTypeMapValue.ht n)

theorem lWNodeTypeArgument_ht : ∀ x : List (W NodeTypeArgument), HasTypeAll (lWNodeTypeArgument x) (.located (.named .NodeTypeArgument))
  | [] => .empty _
  | x :: l => .more (wNodeTypeArgument_ht x) (lWNodeTypeArgument_ht l)

theorem wNodeTypeArgument_ht : ∀ x : W NodeTypeArgument, HasType (wNodeTypeArgument x) (.located (.named .NodeTypeArgument))
  | ⟨n, s, e⟩ => .located s e (NodeTypeArgument.ht n)

theorem lWNodeAddressTypeField_ht : ∀ x : List (W NodeAddressTypeField), HasTypeAll (lWNodeAddressTypeField x) (.located (.named .NodeAddressTypeField))
  | [] => .empty _
  | x :: l => .more (wNodeAddressTypeField_ht x) (lWNodeAddressTypeField_ht l)

theorem wNodeAddressTypeField_ht : ∀ x : W NodeAddressTypeField, HasType (wNodeAddressTypeField x) (.located (.named .NodeAddressTypeField))
  | ⟨n, s, e⟩ => .located s e (NodeAddressTypeField.ht n)

theorem lWNodeTypeMapValueArguments_ht : ∀ x : List (W NodeTypeMapValueArguments), HasTypeAll (lWNodeTypeMapValueArguments x) (.located (.named .NodeTypeMapValueArguments))
  | [] => .empty _
  | x :: l => .more (wNodeTypeMapValueArguments_ht x) (lWNodeTypeMapValueArguments_ht l)

theorem wNodeTypeMapValueArguments_ht : ∀ x : W NodeTypeMapValueArguments, HasType (wNodeTypeMapValueArguments x) (.located (.named .NodeTypeMapValueArguments))
  | ⟨n, s, e⟩ => .located s e (NodeTypeMapValueArguments.ht n)
end

theorem NodeValueLiteral.ht : ∀ x : NodeValueLiteral, HasType x.rv (.named .NodeValueLiteral)
  | .literalInt x0 x1 => .node (t := .NodeValueLiteral) (c := ⟨str! "NodeValueLiteral::LiteralInt", [], [.located (.named .NodeTypeNameIdentifier), .located (.string)]⟩) (by simp [TName.variants]) (.cons (W.ht (fun x => NodeTypeNameIdentifier.ht x) x0) (.cons (W.ht (fun x => .string _) x1) (HasTypes.nil)))
  | .literalHex x0 => .node (t := .NodeValueLiteral) (c := ⟨str! "NodeValueLiteral::LiteralHex", [], [.located (.string)]⟩) (by simp [TName.variants]) (.cons (W.ht (fun x => .string _) x0) (HasTypes.nil))
  | .literalString x0 => .node (t := .NodeValueLiteral) (c := ⟨str! "NodeValueLiteral::LiteralString", [], [.located (.string)]⟩) (by simp [TName.variants]) (.cons (W.ht (fun x => .string _) x0) (HasTypes.nil))
  | .literalEmptyMap x0 x1 => .node (t := .NodeValueLiteral) (c := ⟨str! "NodeValueLiteral::LiteralEmptyMap", [], [.located (.named .NodeTypeMapKey), .located (.named .NodeTypeMapValue)]⟩) (by simp [TName.variants]) (.cons (W.ht (fun x => NodeTypeMapKey.ht x) x0) (.cons (W.ht (fun x => NodeTypeMapValue.ht x) x1) (HasTypes.nil)))

theorem NodeAtomicExpression.ht : ∀ x : NodeAtomicExpression, HasType x.rv (.named .NodeAtomicExpression)
  | .atomicSid x0 => .node (t := .NodeAtomicExpression) (c := ⟨str! "NodeAtomicExpression::AtomicSid", [], [.located (.named .NodeVariableIdentifier)]⟩) (by simp [TName.variants]) (.cons (W.ht (fun x => NodeVariableIdentifier.ht x) x0) (HasTypes.nil))
  | .atomicLit x0 => .node (t := .NodeAtomicExpression) (c := ⟨str! "NodeAtomicExpression::AtomicLit", [], [.located (.named .NodeValueLiteral)]⟩) (by simp [TName.variants]) (.cons (W.ht (fun x => NodeValueLiteral.ht x) x0) (HasTypes.nil))

theorem NodeContractTypeArguments.ht : ∀ x : NodeContractTypeArguments, HasType x.rv (.named .NodeContractTypeArguments)
  | ⟨x0⟩ => .node (t := .NodeContractTypeArguments) (c := ⟨str! "NodeContractTypeArguments", [str! "type_arguments"], [.vec (.located (.named .NodeTypeArgument))]⟩) (by simp [TName.variants]) (.cons (vec_ht (fun x => W.ht (fun x => NodeTypeArgument.ht x) x) x0) (HasTypes.nil))

theorem NodeMessageEntry.ht : ∀ x : NodeMessageEntry, HasType x.rv (.named .NodeMessageEntry)
  | .messageLiteral x0 x1 => .node (t := .NodeMessageEntry) (c := ⟨str! "NodeMessageEntry::MessageLiteral", [], [.located (.named .NodeVariableIdentifier), .located (.named .NodeValueLiteral)]⟩) (by simp [TName.variants]) (.cons (W.ht (fun x => NodeVariableIdentifier.ht x) x0) (.cons (W.ht (fun x => NodeValueLiteral.ht x) x1) (HasTypes.nil)))
  | .messageVariable x0 x1 => .node (t := .NodeMessageEntry) (c := ⟨str! "NodeMessageEntry::MessageVariable", [], [.located (.named .NodeVariableIdentifier), .located (.named .NodeVariableIdentifier)]⟩) (by simp [TName.variants]) (.cons (W.ht (fun x => NodeVariableIdentifier.ht x) x0) (.cons (W.ht (fun x => NodeVariableIdentifier.ht x) x1) (HasTypes.nil)))

theorem NodeTypeAnnotation.ht : ∀ x : NodeTypeAnnotation, HasType x.rv (.named .NodeTypeAnnotation)
  | ⟨x0⟩ => .node (t := .NodeTypeAnnotation) (c := ⟨str! "NodeTypeAnnotation", [str! "type_name"], [.located (.named .NodeScillaType)]⟩) (by simp [TName.variants]) (.cons (W.ht (fun x => NodeScillaType.ht x) x0) (HasTypes.nil))

mutual
theorem NodePattern.ht : ∀ x : NodePattern, HasType x.rv (.named .NodePattern)
  | .wildcard => .node (t := .NodePattern) (c := ⟨str! "NodePattern::Wildcard", [], []⟩) (by simp [TName.variants]) (HasTypes.nil)
  | .binder x0 => .node (t := .NodePattern) (c := ⟨str! "NodePattern::Binder", [], [.located (.string)]⟩) (by simp [TName.variants]) (.cons (W.ht (fun x => .string _) x0) (HasTypes.nil))
  | .constructor x0 x1 => .node (t := .NodePattern) (c := ⟨str! "NodePattern::Constructor", [], [.located (.named .NodeMetaIdentifier), .vec (.located (.named .NodeArgumentPattern))]⟩) (by simp [TName.variants]) (.cons (W.ht (fun x => NodeMetaIdentifier.ht x) x0) (.cons (.vec (lWNodeArgumentPattern_ht x1)) (HasTypes.nil)))

theorem NodeArgumentPattern.ht : ∀ x : NodeArgumentPattern, HasType x.rv (.named .NodeArgumentPattern)
  | .wildcardArgument => .node (t := .NodeArgumentPattern) (c := ⟨str! "NodeArgumentPattern::WildcardArgument", [], []⟩) (by simp [TName.variants]) (HasTypes.nil)
  | .binderArgument x0 => .node (t := .NodeArgumentPattern) (c := ⟨str! "NodeArgumentPattern::BinderArgument", [], [.located (.string)]⟩) (by simp [TName.variants]) (.cons (W.ht (fun x => .string _) x0) (HasTypes.nil))
  | .constructorArgument x0 => .node (t := .NodeArgumentPattern) (c := ⟨str! "NodeArgumentPattern::ConstructorArgument", [], [.located (.named .NodeMetaIdentifier)]⟩) (by simp [TName.variants]) (.cons (W.ht (fun x => NodeMetaIdentifier.ht x) x0) (HasTypes.nil))
  | .patternArgument x0 => .node (t := .NodeArgumentPattern) (c := ⟨str! "NodeArgumentPattern::PatternArgument", [], [.located (.named .NodePattern)]⟩) (by simp [TName.variants]) (.cons (wNodePattern_ht x0) (HasTypes.nil))

theorem lWNodeArgumentPattern_ht : ∀ x : List (W NodeArgumentPattern), HasTypeAll (lWNodeArgumentPattern x) (.located (.named .NodeArgumentPattern))
  | [] => .empty _
  | x :: l => .more (wNodeArgumentPattern_ht x) (lWNodeArgumentPattern_ht l)

theorem wNodeArgumentPattern_ht : ∀ x : W NodeArgumentPattern, HasType (wNodeArgumentPattern x) (.located (.named .NodeArgumentPattern))
  | ⟨n, s, e⟩ => .located s e (NodeArgumentPattern.ht n)

theorem wNodePattern_ht : ∀ x : W NodePattern, HasType (wNodePattern x) (.located (.named .NodePattern))
  | ⟨n, s, e⟩ => .located s e (NodePattern.ht n)
end

mutual
theorem NodeFullExpression.ht : ∀ x : NodeFullExpression, HasType x.rv (.named .NodeFullExpression)
  | .localVariableDeclaration x0 x1 x2 x3 => .node (t := .NodeFullExpression) (c := ⟨str! "NodeFullExpression::LocalVariableDeclaration", [str! "identifier_name", str! "expression", str! "type_annotation", str! "containing_expression"], [.located (.string), .located (.named .NodeFullExpression), .option (.located (.named .NodeTypeAnnotation)), .located (.named .NodeFullExpression)]⟩) (by simp [TName.variants]) (.cons (W.ht (fun x => .string _) x0) (.cons (wNodeFullExpression_ht x1) (.cons (opt_ht (fun x => W.ht (fun x => NodeTypeAnnotation.ht x) x) x2) (.cons (wNodeFullExpression_ht x3) (HasTypes.nil)))))
  | .functionDeclaration x0 x1 x2 => .node (t := .NodeFullExpression) (c := ⟨str! "NodeFullExpression::FunctionDeclaration", [str! "identier_value", str! "type_annotation", str! "expression"], [.located (.string), .located (.named .NodeTypeAnnotation), .located (.named .NodeFullExpression)]⟩) (by simp [TName.variants]) (.cons (W.ht (fun x => .string _) x0) (.cons (W.ht (fun x => NodeTypeAnnotation.ht x) x1) (.cons (wNodeFullExpression_ht x2) (HasTypes.nil))))
  | .functionCall x0 x1 => .node (t := .NodeFullExpression) (c := ⟨str! "NodeFullExpression::FunctionCall", [str! "function_name", str! "argument_list"], [.located (.named .NodeVariableIdentifier), .vec (.located (.named .NodeVariableIdentifier))]⟩) (by simp [TName.variants]) (.cons (W.ht (fun x => NodeVariableIdentifier.ht x) x0) (.cons (vec_ht (fun x => W.ht (fun x => NodeVariableIdentifier.ht x) x) x1) (HasTypes.nil)))
  | .expressionAtomic x0 => .node (t := .NodeFullExpression) (c := ⟨str! "NodeFullExpression::ExpressionAtomic", [], [.located (.named .NodeAtomicExpression)]⟩) (by simp [TName.variants]) (.cons (W.ht (fun x => NodeAtomicExpression.ht x) x0) (HasTypes.nil))
  | .expressionBuiltin x0 x1 x2 => .node (t := .NodeFullExpression) (c := ⟨str! "NodeFullExpression::ExpressionBuiltin", [str! "b", str! "targs", str! "xs"], [.located (.string), .option (.located (.named .NodeContractTypeArguments)), .located (.named .NodeBuiltinArguments)]⟩) (by simp [TName.variants]) (.cons (W.ht (fun x => .string _) x0) (.cons (opt_ht (fun x => W.ht (fun x => NodeContractTypeArguments.ht x) x) x1) (.cons (W.ht (fun x => NodeBuiltinArguments.ht x) x2) (HasTypes.nil))))
  | .message x0 => .node (t := .NodeFullExpression) (c := ⟨str! "NodeFullExpression::Message", [], [.vec (.located (.named .NodeMessageEntry))]⟩) (by simp [TName.variants]) (.cons (vec_ht (fun x => W.ht (fun x => NodeMessageEntry.ht x) x) x0) (HasTypes.nil))
  | .match_ x0 x1 => .node (t := .NodeFullExpression) (c := ⟨str! "NodeFullExpression::Match", [str! "match_expression", str! "clauses"], [.located (.named .NodeVariableIdentifier), .vec (.located (.named .NodePatternMatchExpressionClause))]⟩) (by simp [TName.variants]) (.cons (W.ht (fun x => NodeVariableIdentifier.ht x) x0) (.cons (.vec (lWNodePatternMatchExpressionClause_ht x1)) (HasTypes.nil)))
  | .constructorCall x0 x1 x2 => .node (t := .NodeFullExpression) (c := ⟨str! "NodeFullExpression::ConstructorCall", [str! "identifier_name", str! "contract_type_arguments", str! "argument_list"], [.located (.named .NodeMetaIdentifier), .option (.located (.named .NodeContractTypeArguments)), .vec (.located (.named .NodeVariableIdentifier))]⟩) (by simp [TName.variants]) (.cons (W.ht (fun x => NodeMetaIdentifier.ht x) x0) (.cons (opt_ht (fun x => W.ht (fun x => NodeContractTypeArguments.ht x) x) x1) (.cons (vec_ht (fun x => W.ht (fun x => NodeVariableIdentifier.ht x) x) x2) (HasTypes.nil))))
  | .templateFunction x0 x1 => .node (t := .NodeFullExpression) (c := ⟨str! "NodeFullExpression::TemplateFunction", [str! "identifier_name", str! "expression"], [.located (.string), .located (.named .NodeFullExpression)]⟩) (by simp [TName.variants]) (.cons (W.ht (fun x => .string _) x0) (.cons (wNodeFullExpression_ht x1) (HasTypes.nil)))
  | .tApp x0 x1 => .node (t := .NodeFullExpression) (c := ⟨str! "NodeFullExpression::TApp", [str! "identifier_name", str! "type_arguments"], [.located (.named .NodeVariableIdentifier), .vec (.located (.named .NodeTypeArgument))]⟩) (by simp [TName.variants]) (.cons (W.ht (fun x => NodeVariableIdentifier.ht x) x0) (.cons (vec_ht (fun x => W.ht (fun x => NodeTypeArgument.ht x) x) x1) (HasTypes.nil)))

theorem NodePatternMatchExpressionClause.ht : ∀ x : NodePatternMatchExpressionClause, HasType x.rv (.named .NodePatternMatchExpressionClause)
  | ⟨x0, x1⟩ => .node (t := .NodePatternMatchExpressionClause) (c := ⟨str! "NodePatternMatchExpressionClause", [str! "pattern", str! "expression"], [.located (.named .NodePattern), .located (.named .NodeFullExpression)]⟩) (by simp [TName.variants]) (.cons (W.ht (fun x => NodePattern.ht x) x0) (.cons (wNodeFullExpression_ht x1) (HasTypes.nil)))

theorem wNodeFullExpression_ht : ∀ x : W NodeFullExpression, HasType (wNodeFullExpression x) (.located (.named .NodeFullExpression))
  | ⟨n, s, e⟩ => .located s e (NodeFullExpression.ht n)

theorem lWNodePatternMatchExpressionClause_ht : ∀ x : List (W NodePatternMatchExpressionClause), HasTypeAll (lWNodePatternMatchExpressionClause x) (.located (.named .NodePatternMatchExpressionClause))
  | [] => .empty _
  | x :: l => .more (wNodePatternMatchExpressionClause_ht x) (lWNodePatternMatchExpressionClause_ht l)

theorem wNodePatternMatchExpressionClause_ht : ∀ x : W NodePatternMatchExpressionClause, HasType (wNodePatternMatchExpressionClause x) (.located (.named .NodePatternMatchExpressionClause))
  | ⟨n, s, e⟩ => .located s e (NodePatternMatchExpressionClause.ht n)
end

theorem NodeMapAccess.ht : ∀ x : NodeMapAccess, HasType x.rv (.named .NodeMapAccess)
  | ⟨x0⟩ => .node (t := .NodeMapAccess) (c := ⟨str! "NodeMapAccess", [str! "identifier_name"], [.located (.named .NodeVariableIdentifier)]⟩) (by simp [TName.variants]) (.cons (W.ht (fun x => NodeVariableIdentifier.ht x) x0) (HasTypes.nil))

theorem NodeBlockchainFetchArguments.ht : ∀ x : NodeBlockchainFetchArguments, HasType x.rv (.named .NodeBlockchainFetchArguments)
  | ⟨x0⟩ => .node (t := .NodeBlockchainFetchArguments) (c := ⟨str! "NodeBlockchainFetchArguments", [str! "arguments"], [.vec (.located (.named .NodeVariableIdentifier))]⟩) (by simp [TName.variants]) (.cons (vec_ht (fun x => W.ht (fun x => NodeVariableIdentifier.ht x) x) x0) (HasTypes.nil))

theorem NodeComponentId.ht : ∀ x : NodeComponentId, HasType x.rv (.named .NodeComponentId)
  | .withTypeLikeName x0 => .node (t := .NodeComponentId) (c := ⟨str! "NodeComponentId::WithTypeLikeName", [], [.located (.named .NodeTypeNameIdentifier)]⟩) (by simp [TName.variants]) (.cons (W.ht (fun x => NodeTypeNameIdentifier.ht x) x0) (HasTypes.nil))
  | .withRegularId x0 => .node (t := .NodeComponentId) (c := ⟨str! "NodeComponentId::WithRegularId", [], [.located (.string)]⟩) (by simp [TName.variants]) (.cons (W.ht (fun x => .string _) x0) (HasTypes.nil))

theorem NodeRemoteFetchStatement.ht : ∀ x : NodeRemoteFetchStatement, HasType x.rv (.named .NodeRemoteFetchStatement)
  | .readStateMutable x0 x1 x2 => .node (t := .NodeRemoteFetchStatement) (c := ⟨str! "NodeRemoteFetchStatement::ReadStateMutable", [], [.located (.string), .located (.string), .located (.named .NodeVariableIdentifier)]⟩) (by simp [TName.variants]) (.cons (W.ht (fun x => .string _) x0) (.cons (W.ht (fun x => .string _) x1) (.cons (W.ht (fun x => NodeVariableIdentifier.ht x) x2) (HasTypes.nil))))
  | .readStateMutableSpecialId x0 x1 x2 => .node (t := .NodeRemoteFetchStatement) (c := ⟨str! "NodeRemoteFetchStatement::ReadStateMutableSpecialId", [], [.located (.string), .located (.string), .located (.string)]⟩) (by simp [TName.variants]) (.cons (W.ht (fun x => .string _) x0) (.cons (W.ht (fun x => .string _) x1) (.cons (W.ht (fun x => .string _) x2) (HasTypes.nil))))
  | .readStateMutableMapAccess x0 x1 x2 x3 => .node (t := .NodeRemoteFetchStatement) (c := ⟨str! "NodeRemoteFetchStatement::ReadStateMutableMapAccess", [], [.located (.string), .located (.string), .located (.string), .vec (.located (.named .NodeMapAccess))]⟩) (by simp [TName.variants]) (.cons (W.ht (fun x => .string _) x0) (.cons (W.ht (fun x => .string _) x1) (.cons (W.ht (fun x => .string _) x2) (.cons (vec_ht (fun x => W.ht (fun x => NodeMapAccess.ht x) x) x3) (HasTypes.nil)))))
  | .readStateMutableMapAccessExists x0 x1 x2 x3 => .node (t := .NodeRemoteFetchStatement) (c := ⟨str! "NodeRemoteFetchStatement::ReadStateMutableMapAccessExists", [], [.located (.string), .located (.string), .located (.string), .vec (.located (.named .NodeMapAccess))]⟩) (by simp [TName.variants]) (.cons (W.ht (fun x => .string _) x0) (.cons (W.ht (fun x => .string _) x1) (.cons (W.ht (fun x => .string _) x2) (.cons (vec_ht (fun x => W.ht (fun x => NodeMapAccess.ht x) x) x3) (HasTypes.nil)))))
  | .readStateMutableCastAddress x0 x1 x2 => .node (t := .NodeRemoteFetchStatement) (c := ⟨str! "NodeRemoteFetchStatement::ReadStateMutableCastAddress", [], [.located (.string), .located (.named .NodeVariableIdentifier), .located (.named .NodeAddressType)]⟩) (by simp [TName.variants]) (.cons (W.ht (fun x => .string _) x0) (.cons (W.ht (fun x => NodeVariableIdentifier.ht x) x1) (.cons (W.ht (fun x => NodeAddressType.ht x) x2) (HasTypes.nil))))

mutual
theorem NodePatternMatchClause.ht : ∀ x : NodePatternMatchClause, HasType x.rv (.named .NodePatternMatchClause)
  | ⟨x0, x1⟩ => .node (t := .NodePatternMatchClause) (c := ⟨str! "NodePatternMatchClause", [str! "pattern_expression", str! "statement_block"], [.located (.named .NodePattern), .option (.located (.named .NodeStatementBlock))]⟩) (by simp [TName.variants]) (.cons (W.ht (fun x => NodePattern.ht x) x0) (.cons (oWNodeStatementBlock_ht x1) (HasTypes.nil)))

theorem NodeStatement.ht : ∀ x : NodeStatement, HasType x.rv (.named .NodeStatement)
  | .load x0 x1 => .node (t := .NodeStatement) (c := ⟨str! "NodeStatement::Load", [str! "left_hand_side", str! "right_hand_side"], [.located (.string), .located (.named .NodeVariableIdentifier)]⟩) (by simp [TName.variants]) (.cons (W.ht (fun x => .string _) x0) (.cons (W.ht (fun x => NodeVariableIdentifier.ht x) x1) (HasTypes.nil)))
  | .remoteFetch x0 => .node (t := .NodeStatement) (c := ⟨str! "NodeStatement::RemoteFetch", [], [.named .NodeRemoteFetchStatement]⟩) (by simp [TName.variants]) (.cons (NodeRemoteFetchStatement.ht x0) (HasTypes.nil))
  | .store x0 x1 => .node (t := .NodeStatement) (c := ⟨str! "NodeStatement::Store", [str! "left_hand_side", str! "right_hand_side"], [.located (.string), .located (.named .NodeVariableIdentifier)]⟩) (by simp [TName.variants]) (.cons (W.ht (fun x => .string _) x0) (.cons (W.ht (fun x => NodeVariableIdentifier.ht x) x1) (HasTypes.nil)))
  | .bind x0 x1 => .node (t := .NodeStatement) (c := ⟨str! "NodeStatement::Bind", [str! "left_hand_side", str! "right_hand_side"], [.located (.string), .located (.named .NodeFullExpression)]⟩) (by simp [TName.variants]) (.cons (W.ht (fun x => .string _) x0) (.cons (W.ht (fun x => NodeFullExpression.ht x) x1) (HasTypes.nil)))
  | .readFromBC x0 x1 x2 => .node (t := .NodeStatement) (c := ⟨str! "NodeStatement::ReadFromBC", [str! "left_hand_side", str! "type_name", str! "arguments"], [.located (.string), .located (.named .NodeTypeNameIdentifier), .option (.named .NodeBlockchainFetchArguments)]⟩) (by simp [TName.variants]) (.cons (W.ht (fun x => .string _) x0) (.cons (W.ht (fun x => NodeTypeNameIdentifier.ht x) x1) (.cons (opt_ht (fun x => NodeBlockchainFetchArguments.ht x) x2) (HasTypes.nil))))
  | .mapGet x0 x1 x2 => .node (t := .NodeStatement) (c := ⟨str! "NodeStatement::MapGet", [str! "left_hand_side", str! "keys", str! "right_hand_side"], [.located (.string), .vec (.located (.named .NodeMapAccess)), .located (.string)]⟩) (by simp [TName.variants]) (.cons (W.ht (fun x => .string _) x0) (.cons (vec_ht (fun x => W.ht (fun x => NodeMapAccess.ht x) x) x1) (.cons (W.ht (fun x => .string _) x2) (HasTypes.nil))))
  | .mapGetExists x0 x1 x2 => .node (t := .NodeStatement) (c := ⟨str! "NodeStatement::MapGetExists", [str! "left_hand_side", str! "keys", str! "right_hand_side"], [.located (.string), .vec (.located (.named .NodeMapAccess)), .located (.string)]⟩) (by simp [TName.variants]) (.cons (W.ht (fun x => .string _) x0) (.cons (vec_ht (fun x => W.ht (fun x => NodeMapAccess.ht x) x) x1) (.cons (W.ht (fun x => .string _) x2) (HasTypes.nil))))
  | .mapUpdate x0 x1 x2 => .node (t := .NodeStatement) (c := ⟨str! "NodeStatement::MapUpdate", [str! "left_hand_side", str! "keys", str! "right_hand_side"], [.located (.string), .vec (.located (.named .NodeMapAccess)), .located (.named .NodeVariableIdentifier)]⟩) (by simp [TName.variants]) (.cons (W.ht (fun x => .string _) x0) (.cons (vec_ht (fun x => W.ht (fun x => NodeMapAccess.ht x) x) x1) (.cons (W.ht (fun x => NodeVariableIdentifier.ht x) x2) (HasTypes.nil))))
  | .mapUpdateDelete x0 x1 => .node (t := .NodeStatement) (c := ⟨str! "NodeStatement::MapUpdateDelete", [str! "left_hand_side", str! "keys"], [.located (.string), .vec (.located (.named .NodeMapAccess))]⟩) (by simp [TName.variants]) (.cons (W.ht (fun x => .string _) x0) (.cons (vec_ht (fun x => W.ht (fun x => NodeMapAccess.ht x) x) x1) (HasTypes.nil)))
  | .accept => .node (t := .NodeStatement) (c := ⟨str! "NodeStatement::Accept", [], []⟩) (by simp [TName.variants]) (HasTypes.nil)
  | .send x0 => .node (t := .NodeStatement) (c := ⟨str! "NodeStatement::Send", [str! "identifier_name"], [.located (.named .NodeVariableIdentifier)]⟩) (by simp [TName.variants]) (.cons (W.ht (fun x => NodeVariableIdentifier.ht x) x0) (HasTypes.nil))
  | .createEvnt x0 => .node (t := .NodeStatement) (c := ⟨str! "NodeStatement::CreateEvnt", [str! "identifier_name"], [.located (.named .NodeVariableIdentifier)]⟩) (by simp [TName.variants]) (.cons (W.ht (fun x => NodeVariableIdentifier.ht x) x0) (HasTypes.nil))
  | .throw x0 => .node (t := .NodeStatement) (c := ⟨str! "NodeStatement::Throw", [str! "error_variable"], [.option (.located (.named .NodeVariableIdentifier))]⟩) (by simp [TName.variants]) (.cons (opt_ht (fun x => W.ht (fun x => NodeVariableIdentifier.ht x) x) x0) (HasTypes.nil))
  | .matchStmt x0 x1 => .node (t := .NodeStatement) (c := ⟨str! "NodeStatement::MatchStmt", [str! "variable", str! "clauses"], [.located (.named .NodeVariableIdentifier), .vec (.located (.named .NodePatternMatchClause))]⟩) (by simp [TName.variants]) (.cons (W.ht (fun x => NodeVariableIdentifier.ht x) x0) (.cons (.vec (lWNodePatternMatchClause_ht x1)) (HasTypes.nil)))
  | .callProc x0 x1 => .node (t := .NodeStatement) (c := ⟨str! "NodeStatement::CallProc", [str! "component_id", str! "arguments"], [.located (.named .NodeComponentId), .vec (.located (.named .NodeVariableIdentifier))]⟩) (by simp [TName.variants]) (.cons (W.ht (fun x => NodeComponentId.ht x) x0) (.cons (vec_ht (fun x => W.ht (fun x => NodeVariableIdentifier.ht x) x) x1) (HasTypes.nil)))
  | .iterate x0 x1 => .node (t := .NodeStatement) (c := ⟨str! "NodeStatement::Iterate", [str! "identifier_name", str! "component_id"], [.located (.named .NodeVariableIdentifier), .located (.named .NodeComponentId)]⟩) (by simp [TName.variants]) (.cons (W.ht (fun x => NodeVariableIdentifier.ht x) x0) (.cons (W.ht (fun x => NodeComponentId.ht x) x1) (HasTypes.nil)))

theorem NodeStatementBlock.ht : ∀ x : NodeStatementBlock, HasType x.rv (.named .NodeStatementBlock)
  | ⟨x0⟩ => .node (t := .NodeStatementBlock) (c := ⟨str! "NodeStatementBlock", [str! "statements"], [.vec (.named .NodeStatement)]⟩) (by simp [TName.variants]) (.cons (.vec (lNodeStatement_ht x0)) (HasTypes.nil))

theorem oWNodeStatementBlock_ht : ∀ x : Option (W NodeStatementBlock), HasType (oWNodeStatementBlock x) (.option (.located (.named .NodeStatementBlock)))
  | none => .none _
  | some x => .some (wNodeStatementBlock_ht x)

theorem wNodeStatementBlock_ht : ∀ x : W NodeStatementBlock, HasType (wNodeStatementBlock x) (.located (.named .NodeStatementBlock))
  | ⟨n, s, e⟩ => .located s e (NodeStatementBlock.ht n)

theorem lWNodePatternMatchClause_ht : ∀ x : List (W NodePatternMatchClause), HasTypeAll (lWNodePatternMatchClause x) (.located (.named .NodePatternMatchClause))
  | [] => .empty _
  | x :: l => .more (wNodePatternMatchClause_ht x) (lWNodePatternMatchClause_ht l)

theorem wNodePatternMatchClause_ht : ∀ x : W NodePatternMatchClause, HasType (wNodePatternMatchClause x) (.located (.named .NodePatternMatchClause))
  | ⟨n, s, e⟩ => .located s e (NodePatternMatchClause.ht n)

theorem lNodeStatement_ht : ∀ x : List NodeStatement, HasTypeAll (lNodeStatement x) (.named .NodeStatement)
  | [] => .empty _
  | x :: l => .more (NodeStatement.ht x) (lNodeStatement_ht l)
end

theorem NodeTypedIdentifier.ht : ∀ x : NodeTypedIdentifier, HasType x.rv (.named .NodeTypedIdentifier)
  | ⟨x0, x1⟩ => .node (t := .NodeTypedIdentifier) (c := ⟨str! "NodeTypedIdentifier", [str! "identifier_name", str! "annotation"], [.located (.string), .located (.named .NodeTypeAnnotation)]⟩) (by simp [TName.variants]) (.cons (W.ht (fun x => .string _) x0) (.cons (W.ht (fun x => NodeTypeAnnotation.ht x) x1) (HasTypes.nil)))

theorem NodeParameterPair.ht : ∀ x : NodeParameterPair, HasType x.rv (.named .NodeParameterPair)
  | ⟨x0⟩ => .node (t := .NodeParameterPair) (c := ⟨str! "NodeParameterPair", [str! "identifier_with_type"], [.located (.named .NodeTypedIdentifier)]⟩) (by simp [TName.variants]) (.cons (W.ht (fun x => NodeTypedIdentifier.ht x) x0) (HasTypes.nil))

theorem NodeComponentParameters.ht : ∀ x : NodeComponentParameters, HasType x.rv (.named .NodeComponentParameters)
  | ⟨x0⟩ => .node (t := .NodeComponentParameters) (c := ⟨str! "NodeComponentParameters", [str! "parameters"], [.vec (.located (.named .NodeParameterPair))]⟩) (by simp [TName.variants]) (.cons (vec_ht (fun x => W.ht (fun x => NodeParameterPair.ht x) x) x0) (HasTypes.nil))

theorem NodeComponentBody.ht : ∀ x : NodeComponentBody, HasType x.rv (.named .NodeComponentBody)
  | ⟨x0⟩ => .node (t := .NodeComponentBody) (c := ⟨str! "NodeComponentBody", [str! "statement_block"], [.option (.located (.named .NodeStatementBlock))]⟩) (by simp [TName.variants]) (.cons (opt_ht (fun x => W.ht (fun x => NodeStatementBlock.ht x) x) x0) (HasTypes.nil))

theorem NodeProcedureDefinition.ht : ∀ x : NodeProcedureDefinition, HasType x.rv (.named .NodeProcedureDefinition)
  | ⟨x0, x1, x2⟩ => .node (t := .NodeProcedureDefinition) (c := ⟨str! "NodeProcedureDefinition", [str! "name", str! "parameters", str! "body"], [.located (.named .NodeComponentId), .located (.named .NodeComponentParameters), .located (.named .NodeComponentBody)]⟩) (by simp [TName.variants]) (.cons (W.ht (fun x => NodeComponentId.ht x) x0) (.cons (W.ht (fun x => NodeComponentParameters.ht x) x1) (.cons (W.ht (fun x => NodeComponentBody.ht x) x2) (HasTypes.nil))))

theorem NodeTransitionDefinition.ht : ∀ x : NodeTransitionDefinition, HasType x.rv (.named .NodeTransitionDefinition)
  | ⟨x0, x1, x2⟩ => .node (t := .NodeTransitionDefinition) (c := ⟨str! "NodeTransitionDefinition", [str! "name", str! "parameters", str! "body"], [.located (.named .NodeComponentId), .located (.named .NodeComponentParameters), .located (.named .NodeComponentBody)]⟩) (by simp [TName.variants]) (.cons (W.ht (fun x => NodeComponentId.ht x) x0) (.cons (W.ht (fun x => NodeComponentParameters.ht x) x1) (.cons (W.ht (fun x => NodeComponentBody.ht x) x2) (HasTypes.nil))))

theorem NodeComponentDefinition.ht : ∀ x : NodeComponentDefinition, HasType x.rv (.named .NodeComponentDefinition)
  | .transitionComponent x0 => .node (t := .NodeComponentDefinition) (c := ⟨str! "NodeComponentDefinition::TransitionComponent", [], [.located (.named .NodeTransitionDefinition)]⟩) (by simp [TName.variants]) (.cons (W.ht (fun x => NodeTransitionDefinition.ht x) x0) (HasTypes.nil))
  | .procedureComponent x0 => .node (t := .NodeComponentDefinition) (c := ⟨str! "NodeComponentDefinition::ProcedureComponent", [], [.located (.named .NodeProcedureDefinition)]⟩) (by simp [TName.variants]) (.cons (W.ht (fun x => NodeProcedureDefinition.ht x) x0) (HasTypes.nil))

theorem NodeContractField.ht : ∀ x : NodeContractField, HasType x.rv (.named .NodeContractField)
  | ⟨x0, x1⟩ => .node (t := .NodeContractField) (c := ⟨str! "NodeContractField", [str! "typed_identifier", str! "right_hand_side"], [.located (.named .NodeTypedIdentifier), .located (.named .NodeFullExpression)]⟩) (by simp [TName.variants]) (.cons (W.ht (fun x => NodeTypedIdentifier.ht x) x0) (.cons (W.ht (fun x => NodeFullExpression.ht x) x1) (HasTypes.nil)))

theorem NodeWithConstraint.ht : ∀ x : NodeWithConstraint, HasType x.rv (.named .NodeWithConstraint)
  | ⟨x0⟩ => .node (t := .NodeWithConstraint) (c := ⟨str! "NodeWithConstraint", [str! "expression"], [.located (.named .NodeFullExpression)]⟩) (by simp [TName.variants]) (.cons (W.ht (fun x => NodeFullExpression.ht x) x0) (HasTypes.nil))

theorem NodeContractDefinition.ht : ∀ x : NodeContractDefinition, HasType x.rv (.named .NodeContractDefinition)
  | ⟨x0, x1, x2, x3, x4⟩ => .node (t := .NodeContractDefinition) (c := ⟨str! "NodeContractDefinition", [str! "contract_name", str! "parameters", str! "constraint", str! "fields", str! "components"], [.located (.named .NodeTypeNameIdentifier), .located (.named .NodeComponentParameters), .option (.located (.named .NodeWithConstraint)), .vec (.located (.named .NodeContractField)), .vec (.located (.named .NodeComponentDefinition))]⟩) (by simp [TName.variants]) (.cons (W.ht (fun x => NodeTypeNameIdentifier.ht x) x0) (.cons (W.ht (fun x => NodeComponentParameters.ht x) x1) (.cons (opt_ht (fun x => W.ht (fun x => NodeWithConstraint.ht x) x) x2) (.cons (vec_ht (fun x => W.ht (fun x => NodeContractField.ht x) x) x3) (.cons (vec_ht (fun x => W.ht (fun x => NodeComponentDefinition.ht x) x) x4) (HasTypes.nil))))))

theorem NodeTypeAlternativeClause.ht : ∀ x : NodeTypeAlternativeClause, HasType x.rv (.named .NodeTypeAlternativeClause)
  | .clauseType x0 => .node (t := .NodeTypeAlternativeClause) (c := ⟨str! "NodeTypeAlternativeClause::ClauseType", [], [.located (.named .NodeTypeNameIdentifier)]⟩) (by simp [TName.variants]) (.cons (W.ht (fun x => NodeTypeNameIdentifier.ht x) x0) (HasTypes.nil))
  | .clauseTypeWithArgs x0 x1 => .node (t := .NodeTypeAlternativeClause) (c := ⟨str! "NodeTypeAlternativeClause::ClauseTypeWithArgs", [], [.located (.named .NodeTypeNameIdentifier), .vec (.located (.named .NodeTypeArgument))]⟩) (by simp [TName.variants]) (.cons (W.ht (fun x => NodeTypeNameIdentifier.ht x) x0) (.cons (vec_ht (fun x => W.ht (fun x => NodeTypeArgument.ht x) x) x1) (HasTypes.nil)))

theorem NodeLibrarySingleDefinition.ht : ∀ x : NodeLibrarySingleDefinition, HasType x.rv (.named .NodeLibrarySingleDefinition)
  | .letDefinition x0 x1 x2 => .node (t := .NodeLibrarySingleDefinition) (c := ⟨str! "NodeLibrarySingleDefinition::LetDefinition", [str! "variable_name", str! "type_annotation", str! "expression"], [.located (.string), .option (.located (.named .NodeTypeAnnotation)), .located (.named .NodeFullExpression)]⟩) (by simp [TName.variants]) (.cons (W.ht (fun x => .string _) x0) (.cons (opt_ht (fun x => W.ht (fun x => NodeTypeAnnotation.ht x) x) x1) (.cons (W.ht (fun x => NodeFullExpression.ht x) x2) (HasTypes.nil))))
  | .typeDefinition x0 x1 => .node (t := .NodeLibrarySingleDefinition) (c := ⟨str! "NodeLibrarySingleDefinition::TypeDefinition", [], [.located (.named .NodeTypeNameIdentifier), .option (.vec (.located (.named .NodeTypeAlternativeClause)))]⟩) (by simp [TName.variants]) (.cons (W.ht (fun x => NodeTypeNameIdentifier.ht x) x0) (.cons (opt_ht (fun x => vec_ht (fun x => W.ht (fun x => NodeTypeAlternativeClause.ht x) x) x) x1) (HasTypes.nil)))

theorem NodeLibraryDefinition.ht : ∀ x : NodeLibraryDefinition, HasType x.rv (.named .NodeLibraryDefinition)
  | ⟨x0, x1⟩ => .node (t := .NodeLibraryDefinition) (c := ⟨str! "NodeLibraryDefinition", [str! "name", str! "definitions"], [.located (.named .NodeTypeNameIdentifier), .vec (.located (.named .NodeLibrarySingleDefinition))]⟩) (by simp [TName.variants]) (.cons (W.ht (fun x => NodeTypeNameIdentifier.ht x) x0) (.cons (vec_ht (fun x => W.ht (fun x => NodeLibrarySingleDefinition.ht x) x) x1) (HasTypes.nil)))

theorem NodeProgram.ht : ∀ x : NodeProgram, HasType x.rv (.named .NodeProgram)
  | ⟨x0, x1, x2, x3⟩ => .node (t := .NodeProgram) (c := ⟨str! "NodeProgram", [str! "version", str! "import_declarations", str! "library_definition", str! "contract_definition"], [.located (.string), .option (.located (.named .NodeImportDeclarations)), .option (.located (.named .NodeLibraryDefinition)), .located (.named .NodeContractDefinition)]⟩) (by simp [TName.variants]) (.cons (W.ht (fun x => .string _) x0) (.cons (opt_ht (fun x => W.ht (fun x => NodeImportDeclarations.ht x) x) x1) (.cons (opt_ht (fun x => W.ht (fun x => NodeLibraryDefinition.ht x) x) x2) (.cons (W.ht (fun x => NodeContractDefinition.ht x) x3) (HasTypes.nil)))))

theorem TName.ht : ∀ (t : TName) (x : t.El), HasType (t.rv x) (.named t)
  | .NodeByteStr, x => Verif.NodeByteStr.ht x
  | .NodeTypeNameIdentifier, x => Verif.NodeTypeNameIdentifier.ht x
  | .NodeImportedName, x => Verif.NodeImportedName.ht x
  | .NodeImportDeclarations, x => Verif.NodeImportDeclarations.ht x
  | .NodeMetaIdentifier, x => Verif.NodeMetaIdentifier.ht x
  | .NodeVariableIdentifier, x => Verif.NodeVariableIdentifier.ht x
  | .NodeBuiltinArguments, x => Verif.NodeBuiltinArguments.ht x
  | .NodeTypeMapKey, x => Verif.NodeTypeMapKey.ht x
  | .NodeTypeMapValue, x => Verif.NodeTypeMapValue.ht x
  | .NodeTypeArgument, x => Verif.NodeTypeArgument.ht x
  | .NodeScillaType, x => Verif.NodeScillaType.ht x
  | .NodeTypeMapEntry, x => Verif.NodeTypeMapEntry.ht x
  | .NodeAddressTypeField, x => Verif.NodeAddressTypeField.ht x
  | .NodeAddressType, x => Verif.NodeAddressType.ht x
  | .NodeFullExpression, x => Verif.NodeFullExpression.ht x
  | .NodeMessageEntry, x => Verif.NodeMessageEntry.ht x
  | .NodePatternMatchExpressionClause, x => Verif.NodePatternMatchExpressionClause.ht x
  | .NodeAtomicExpression, x => Verif.NodeAtomicExpression.ht x
  | .NodeContractTypeArguments, x => Verif.NodeContractTypeArguments.ht x
  | .NodeValueLiteral, x => Verif.NodeValueLiteral.ht x
  | .NodeMapAccess, x => Verif.NodeMapAccess.ht x
  | .NodePattern, x => Verif.NodePattern.ht x
  | .NodeArgumentPattern, x => Verif.NodeArgumentPattern.ht x
  | .NodePatternMatchClause, x => Verif.NodePatternMatchClause.ht x
  | .NodeBlockchainFetchArguments, x => Verif.NodeBlockchainFetchArguments.ht x
  | .NodeStatement, x => Verif.NodeStatement.ht x
  | .NodeRemoteFetchStatement, x => Verif.NodeRemoteFetchStatement.ht x
  | .NodeComponentId, x => Verif.NodeComponentId.ht x
  | .NodeComponentParameters, x => Verif.NodeComponentParameters.ht x
  | .NodeParameterPair, x => Verif.NodeParameterPair.ht x
  | .NodeComponentBody, x => Verif.NodeComponentBody.ht x
  | .NodeStatementBlock, x => Verif.NodeStatementBlock.ht x
  | .NodeTypedIdentifier, x => Verif.NodeTypedIdentifier.ht x
  | .NodeTypeAnnotation, x => Verif.NodeTypeAnnotation.ht x
  | .NodeProgram, x => Verif.NodeProgram.ht x
  | .NodeLibraryDefinition, x => Verif.NodeLibraryDefinition.ht x
  | .NodeLibrarySingleDefinition, x => Verif.NodeLibrarySingleDefinition.ht x
  | .NodeContractDefinition, x => Verif.NodeContractDefinition.ht x
  | .NodeContractField, x => Verif.NodeContractField.ht x
  | .NodeWithConstraint, x => Verif.NodeWithConstraint.ht x
  | .NodeComponentDefinition, x => Verif.NodeComponentDefinition.ht x
  | .NodeProcedureDefinition, x => Verif.NodeProcedureDefinition.ht x
  | .NodeTransitionDefinition, x => Verif.NodeTransitionDefinition.ht x
  | .NodeTypeAlternativeClause, x => Verif.NodeTypeAlternativeClause.ht x
  | .NodeTypeMapValueArguments, x => Verif.NodeTypeMapValueArguments.ht x
  | .NodeTypeMapValueAllowingTypeArguments, x => Verif.NodeTypeMapValueAllowingTypeArguments.ht x

theorem RT.ht : ∀ (t : RT) (x : t.El), HasType (t.rv x) t
  | .string, x => .string x
  | .named t, x => t.ht x
  | .located t, x => W.ht t.ht x
  | .vec t, x => vec_ht t.ht x
  | .option t, x => opt_ht t.ht x

theorem NodeByteStr.made {c : Variant} (hc : c ∈ TName.variants .NodeByteStr) (xs : Els c.types) :
    ∃ x : NodeByteStr, x.rv = .node c.path c.fields (rvs c.types xs) := by
  simp only [TName.variants, List.mem_cons, List.not_mem_nil, or_false] at hc
  rcases hc with rfl | rfl
  · obtain ⟨x0, _⟩ := xs
    exact ⟨.constant x0, by simp only [NodeByteStr.rv, rvs, RT.rv, TName.rv, vecRv, wNodeAddressType_eq, wNodeTypeMapEntry_eq, wNodeTypeMapValueAllowingTypeArguments_eq, wNodeScillaType_eq, wNodeTypeMapKey_eq, wNodeTypeMapValue_eq, wNodeTypeArgument_eq, wNodeAddressTypeField_eq, wNodeTypeMapValueArguments_eq, wNodeArgumentPattern_eq, wNodePattern_eq, wNodeFullExpression_eq, wNodePatternMatchExpressionClause_eq, wNodeStatementBlock_eq, wNodePatternMatchClause_eq, lWNodeTypeArgument_eq, lWNodeAddressTypeField_eq, lWNodeTypeMapValueArguments_eq, lWNodeArgumentPattern_eq, lWNodePatternMatchExpressionClause_eq, lWNodePatternMatchClause_eq, lNodeStatement_eq, oWNodeStatementBlock_eq]⟩
  · obtain ⟨x0, _⟩ := xs
    exact ⟨.type x0, by simp only [NodeByteStr.rv, rvs, RT.rv, TName.rv, vecRv, wNodeAddressType_eq, wNodeTypeMapEntry_eq, wNodeTypeMapValueAllowingTypeArguments_eq, wNodeScillaType_eq, wNodeTypeMapKey_eq, wNodeTypeMapValue_eq, wNodeTypeArgument_eq, wNodeAddressTypeField_eq, wNodeTypeMapValueArguments_eq, wNodeArgumentPattern_eq, wNodePattern_eq, wNodeFullExpression_eq, wNodePatternMatchExpressionClause_eq, wNodeStatementBlock_eq, wNodePatternMatchClause_eq, lWNodeTypeArgument_eq, lWNodeAddressTypeField_eq, lWNodeTypeMapValueArguments_eq, lWNodeArgumentPattern_eq, lWNodePatternMatchExpressionClause_eq, lWNodePatternMatchClause_eq, lNodeStatement_eq, oWNodeStatementBlock_eq]⟩

theorem NodeTypeNameIdentifier.made {c : Variant} (hc : c ∈ TName.variants .NodeTypeNameIdentifier) (xs : Els c.types) :
    ∃ x : NodeTypeNameIdentifier, x.rv = .node c.path c.fields (rvs c.types xs) := by
  simp only [TName.variants, List.mem_cons, List.not_mem_nil, or_false] at hc
  rcases hc with rfl | rfl | rfl
  · obtain ⟨x0, _⟩ := xs
    exact ⟨.byteStringType x0, by simp only [NodeTypeNameIdentifier.rv, rvs, RT.rv, TName.rv, vecRv, wNodeAddressType_eq, wNodeTypeMapEntry_eq, wNodeTypeMapValueAllowingTypeArguments_eq, wNodeScillaType_eq, wNodeTypeMapKey_eq, wNodeTypeMapValue_eq, wNodeTypeArgument_eq, wNodeAddressTypeField_eq, wNodeTypeMapValueArguments_eq, wNodeArgumentPattern_eq, wNodePattern_eq, wNodeFullExpression_eq, wNodePatternMatchExpressionClause_eq, wNodeStatementBlock_eq, wNodePatternMatchClause_eq, lWNodeTypeArgument_eq, lWNodeAddressTypeField_eq, lWNodeTypeMapValueArguments_eq, lWNodeArgumentPattern_eq, lWNodePatternMatchExpressionClause_eq, lWNodePatternMatchClause_eq, lNodeStatement_eq, oWNodeStatementBlock_eq]⟩
  · cases xs
    exact ⟨.eventType, by simp only [NodeTypeNameIdentifier.rv, rvs, RT.rv, TName.rv, vecRv, wNodeAddressType_eq, wNodeTypeMapEntry_eq, wNodeTypeMapValueAllowingTypeArguments_eq, wNodeScillaType_eq, wNodeTypeMapKey_eq, wNodeTypeMapValue_eq, wNodeTypeArgument_eq, wNodeAddressTypeField_eq, wNodeTypeMapValueArguments_eq, wNodeArgumentPattern_eq, wNodePattern_eq, wNodeFullExpression_eq, wNodePatternMatchExpressionClause_eq, wNodeStatementBlock_eq, wNodePatternMatchClause_eq, lWNodeTypeArgument_eq, lWNodeAddressTypeField_eq, lWNodeTypeMapValueArguments_eq, lWNodeArgumentPattern_eq, lWNodePatternMatchExpressionClause_eq, lWNodePatternMatchClause_eq, lNodeStatement_eq, oWNodeStatementBlock_eq]⟩
  · obtain ⟨x0, _⟩ := xs
    exact ⟨.typeOrEnumLikeIdentifier x0, by simp only [NodeTypeNameIdentifier.rv, rvs, RT.rv, TName.rv, vecRv, wNodeAddressType_eq, wNodeTypeMapEntry_eq, wNodeTypeMapValueAllowingTypeArguments_eq, wNodeScillaType_eq, wNodeTypeMapKey_eq, wNodeTypeMapValue_eq, wNodeTypeArgument_eq, wNodeAddressTypeField_eq, wNodeTypeMapValueArguments_eq, wNodeArgumentPattern_eq, wNodePattern_eq, wNodeFullExpression_eq, wNodePatternMatchExpressionClause_eq, wNodeStatementBlock_eq, wNodePatternMatchClause_eq, lWNodeTypeArgument_eq, lWNodeAddressTypeField_eq, lWNodeTypeMapValueArguments_eq, lWNodeArgumentPattern_eq, lWNodePatternMatchExpressionClause_eq, lWNodePatternMatchClause_eq, lNodeStatement_eq, oWNodeStatementBlock_eq]⟩

theorem NodeImportedName.made {c : Variant} (hc : c ∈ TName.variants .NodeImportedName) (xs : Els c.types) :
    ∃ x : NodeImportedName, x.rv = .node c.path c.fields (rvs c.types xs) := by
  simp only [TName.variants, List.mem_cons, List.not_mem_nil, or_false] at hc
  rcases hc with rfl | rfl
  · obtain ⟨x0, _⟩ := xs
    exact ⟨.regularImport x0, by simp only [NodeImportedName.rv, rvs, RT.rv, TName.rv, vecRv, wNodeAddressType_eq, wNodeTypeMapEntry_eq, wNodeTypeMapValueAllowingTypeArguments_eq, wNodeScillaType_eq, wNodeTypeMapKey_eq, wNodeTypeMapValue_eq, wNodeTypeArgument_eq, wNodeAddressTypeField_eq, wNodeTypeMapValueArguments_eq, wNodeArgumentPattern_eq, wNodePattern_eq, wNodeFullExpression_eq, wNodePatternMatchExpressionClause_eq, wNodeStatementBlock_eq, wNodePatternMatchClause_eq, lWNodeTypeArgument_eq, lWNodeAddressTypeField_eq, lWNodeTypeMapValueArguments_eq, lWNodeArgumentPattern_eq, lWNodePatternMatchExpressionClause_eq, lWNodePatternMatchClause_eq, lNodeStatement_eq, oWNodeStatementBlock_eq]⟩
  · obtain ⟨x0, x1, _⟩ := xs
    exact ⟨.aliasedImport x0 x1, by simp only [NodeImportedName.rv, rvs, RT.rv, TName.rv, vecRv, wNodeAddressType_eq, wNodeTypeMapEntry_eq, wNodeTypeMapValueAllowingTypeArguments_eq, wNodeScillaType_eq, wNodeTypeMapKey_eq, wNodeTypeMapValue_eq, wNodeTypeArgument_eq, wNodeAddressTypeField_eq, wNodeTypeMapValueArguments_eq, wNodeArgumentPattern_eq, wNodePattern_eq, wNodeFullExpression_eq, wNodePatternMatchExpressionClause_eq, wNodeStatementBlock_eq, wNodePatternMatchClause_eq, lWNodeTypeArgument_eq, lWNodeAddressTypeField_eq, lWNodeTypeMapValueArguments_eq, lWNodeArgumentPattern_eq, lWNodePatternMatchExpressionClause_eq, lWNodePatternMatchClause_eq, lNodeStatement_eq, oWNodeStatementBlock_eq]⟩

theorem NodeImportDeclarations.made {c : Variant} (hc : c ∈ TName.variants .NodeImportDeclarations) (xs : Els c.types) :
    ∃ x : NodeImportDeclarations, x.rv = .node c.path c.fields (rvs c.types xs) := by
  simp only [TName.variants, List.mem_cons, List.not_mem_nil, or_false] at hc
  rcases hc with rfl
  · obtain ⟨x0, _⟩ := xs
    exact ⟨⟨x0⟩, by simp only [NodeImportDeclarations.rv, rvs, RT.rv, TName.rv, vecRv, wNodeAddressType_eq, wNodeTypeMapEntry_eq, wNodeTypeMapValueAllowingTypeArguments_eq, wNodeScillaType_eq, wNodeTypeMapKey_eq, wNodeTypeMapValue_eq, wNodeTypeArgument_eq, wNodeAddressTypeField_eq, wNodeTypeMapValueArguments_eq, wNodeArgumentPattern_eq, wNodePattern_eq, wNodeFullExpression_eq, wNodePatternMatchExpressionClause_eq, wNodeStatementBlock_eq, wNodePatternMatchClause_eq, lWNodeTypeArgument_eq, lWNodeAddressTypeField_eq, lWNodeTypeMapValueArguments_eq, lWNodeArgumentPattern_eq, lWNodePatternMatchExpressionClause_eq, lWNodePatternMatchClause_eq, lNodeStatement_eq, oWNodeStatementBlock_eq]⟩

theorem NodeMetaIdentifier.made {c : Variant} (hc : c ∈ TName.variants .NodeMetaIdentifier) (xs : Els c.types) :
    ∃ x : NodeMetaIdentifier, x.rv = .node c.path c.fields (rvs c.types xs) := by
  simp only [TName.variants, List.mem_cons, List.not_mem_nil, or_false] at hc
  rcases hc with rfl | rfl | rfl | rfl
  · obtain ⟨x0, _⟩ := xs
    exact ⟨.metaName x0, by simp only [NodeMetaIdentifier.rv, rvs, RT.rv, TName.rv, vecRv, wNodeAddressType_eq, wNodeTypeMapEntry_eq, wNodeTypeMapValueAllowingTypeArguments_eq, wNodeScillaType_eq, wNodeTypeMapKey_eq, wNodeTypeMapValue_eq, wNodeTypeArgument_eq, wNodeAddressTypeField_eq, wNodeTypeMapValueArguments_eq, wNodeArgumentPattern_eq, wNodePattern_eq, wNodeFullExpression_eq, wNodePatternMatchExpressionClause_eq, wNodeStatementBlock_eq, wNodePatternMatchClause_eq, lWNodeTypeArgument_eq, lWNodeAddressTypeField_eq, lWNodeTypeMapValueArguments_eq, lWNodeArgumentPattern_eq, lWNodePatternMatchExpressionClause_eq, lWNodePatternMatchClause_eq, lNodeStatement_eq, oWNodeStatementBlock_eq]⟩
  · obtain ⟨x0, x1, _⟩ := xs
    exact ⟨.metaNameInNamespace x0 x1, by simp only [NodeMetaIdentifier.rv, rvs, RT.rv, TName.rv, vecRv, wNodeAddressType_eq, wNodeTypeMapEntry_eq, wNodeTypeMapValueAllowingTypeArguments_eq, wNodeScillaType_eq, wNodeTypeMapKey_eq, wNodeTypeMapValue_eq, wNodeTypeArgument_eq, wNodeAddressTypeField_eq, wNodeTypeMapValueArguments_eq, wNodeArgumentPattern_eq, wNodePattern_eq, wNodeFullExpression_eq, wNodePatternMatchExpressionClause_eq, wNodeStatementBlock_eq, wNodePatternMatchClause_eq, lWNodeTypeArgument_eq, lWNodeAddressTypeField_eq, lWNodeTypeMapValueArguments_eq, lWNodeArgumentPattern_eq, lWNodePatternMatchExpressionClause_eq, lWNodePatternMatchClause_eq, lNodeStatement_eq, oWNodeStatementBlock_eq]⟩
  · obtain ⟨x0, x1, _⟩ := xs
    exact ⟨.metaNameInHexspace x0 x1, by simp only [NodeMetaIdentifier.rv, rvs, RT.rv, TName.rv, vecRv, wNodeAddressType_eq, wNodeTypeMapEntry_eq, wNodeTypeMapValueAllowingTypeArguments_eq, wNodeScillaType_eq, wNodeTypeMapKey_eq, wNodeTypeMapValue_eq, wNodeTypeArgument_eq, wNodeAddressTypeField_eq, wNodeTypeMapValueArguments_eq, wNodeArgumentPattern_eq, wNodePattern_eq, wNodeFullExpression_eq, wNodePatternMatchExpressionClause_eq, wNodeStatementBlock_eq, wNodePatternMatchClause_eq, lWNodeTypeArgument_eq, lWNodeAddressTypeField_eq, lWNodeTypeMapValueArguments_eq, lWNodeArgumentPattern_eq, lWNodePatternMatchExpressionClause_eq, lWNodePatternMatchClause_eq, lNodeStatement_eq, oWNodeStatementBlock_eq]⟩
  · cases xs
    exact ⟨.byteString, by simp only [NodeMetaIdentifier.rv, rvs, RT.rv, TName.rv, vecRv, wNodeAddressType_eq, wNodeTypeMapEntry_eq, wNodeTypeMapValueAllowingTypeArguments_eq, wNodeScillaType_eq, wNodeTypeMapKey_eq, wNodeTypeMapValue_eq, wNodeTypeArgument_eq, wNodeAddressTypeField_eq, wNodeTypeMapValueArguments_eq, wNodeArgumentPattern_eq, wNodePattern_eq, wNodeFullExpression_eq, wNodePatternMatchExpressionClause_eq, wNodeStatementBlock_eq, wNodePatternMatchClause_eq, lWNodeTypeArgument_eq, lWNodeAddressTypeField_eq, lWNodeTypeMapValueArguments_eq, lWNodeArgumentPattern_eq, lWNodePatternMatchExpressionClause_eq, lWNodePatternMatchClause_eq, lNodeStatement_eq, oWNodeStatementBlock_eq]⟩

theorem NodeVariableIdentifier.made {c : Variant} (hc : c ∈ TName.variants .NodeVariableIdentifier) (xs : Els c.types) :
    ∃ x : NodeVariableIdentifier, x.rv = .node c.path c.fields (rvs c.types xs) := by
  simp only [TName.variants, List.mem_cons, List.not_mem_nil, or_false] at hc
  rcases hc with rfl | rfl | rfl
  · obtain ⟨x0, _⟩ := xs
    exact ⟨.variableName x0, by simp only [NodeVariableIdentifier.rv, rvs, RT.rv, TName.rv, vecRv, wNodeAddressType_eq, wNodeTypeMapEntry_eq, wNodeTypeMapValueAllowingTypeArguments_eq, wNodeScillaType_eq, wNodeTypeMapKey_eq, wNodeTypeMapValue_eq, wNodeTypeArgument_eq, wNodeAddressTypeField_eq, wNodeTypeMapValueArguments_eq, wNodeArgumentPattern_eq, wNodePattern_eq, wNodeFullExpression_eq, wNodePatternMatchExpressionClause_eq, wNodeStatementBlock_eq, wNodePatternMatchClause_eq, lWNodeTypeArgument_eq, lWNodeAddressTypeField_eq, lWNodeTypeMapValueArguments_eq, lWNodeArgumentPattern_eq, lWNodePatternMatchExpressionClause_eq, lWNodePatternMatchClause_eq, lNodeStatement_eq, oWNodeStatementBlock_eq]⟩
  · obtain ⟨x0, _⟩ := xs
    exact ⟨.specialIdentifier x0, by simp only [NodeVariableIdentifier.rv, rvs, RT.rv, TName.rv, vecRv, wNodeAddressType_eq, wNodeTypeMapEntry_eq, wNodeTypeMapValueAllowingTypeArguments_eq, wNodeScillaType_eq, wNodeTypeMapKey_eq, wNodeTypeMapValue_eq, wNodeTypeArgument_eq, wNodeAddressTypeField_eq, wNodeTypeMapValueArguments_eq, wNodeArgumentPattern_eq, wNodePattern_eq, wNodeFullExpression_eq, wNodePatternMatchExpressionClause_eq, wNodeStatementBlock_eq, wNodePatternMatchClause_eq, lWNodeTypeArgument_eq, lWNodeAddressTypeField_eq, lWNodeTypeMapValueArguments_eq, lWNodeArgumentPattern_eq, lWNodePatternMatchExpressionClause_eq, lWNodePatternMatchClause_eq, lNodeStatement_eq, oWNodeStatementBlock_eq]⟩
  · obtain ⟨x0, x1, _⟩ := xs
    exact ⟨.variableInNamespace x0 x1, by simp only [NodeVariableIdentifier.rv, rvs, RT.rv, TName.rv, vecRv, wNodeAddressType_eq, wNodeTypeMapEntry_eq, wNodeTypeMapValueAllowingTypeArguments_eq, wNodeScillaType_eq, wNodeTypeMapKey_eq, wNodeTypeMapValue_eq, wNodeTypeArgument_eq, wNodeAddressTypeField_eq, wNodeTypeMapValueArguments_eq, wNodeArgumentPattern_eq, wNodePattern_eq, wNodeFullExpression_eq, wNodePatternMatchExpressionClause_eq, wNodeStatementBlock_eq, wNodePatternMatchClause_eq, lWNodeTypeArgument_eq, lWNodeAddressTypeField_eq, lWNodeTypeMapValueArguments_eq, lWNodeArgumentPattern_eq, lWNodePatternMatchExpressionClause_eq, lWNodePatternMatchClause_eq, lNodeStatement_eq, oWNodeStatementBlock_eq]⟩

theorem NodeBuiltinArguments.made {c : Variant} (hc : c ∈ TName.variants .NodeBuiltinArguments) (xs : Els c.types) :
    ∃ x : NodeBuiltinArguments, x.rv = .node c.path c.fields (rvs c.types xs) := by
  simp only [TName.variants, List.mem_cons, List.not_mem_nil, or_false] at hc
  rcases hc with rfl
  · obtain ⟨x0, _⟩ := xs
    exact ⟨⟨x0⟩, by simp only [NodeBuiltinArguments.rv, rvs, RT.rv, TName.rv, vecRv, wNodeAddressType_eq, wNodeTypeMapEntry_eq, wNodeTypeMapValueAllowingTypeArguments_eq, wNodeScillaType_eq, wNodeTypeMapKey_eq, wNodeTypeMapValue_eq, wNodeTypeArgument_eq, wNodeAddressTypeField_eq, wNodeTypeMapValueArguments_eq, wNodeArgumentPattern_eq, wNodePattern_eq, wNodeFullExpression_eq, wNodePatternMatchExpressionClause_eq, wNodeStatementBlock_eq, wNodePatternMatchClause_eq, lWNodeTypeArgument_eq, lWNodeAddressTypeField_eq, lWNodeTypeMapValueArguments_eq, lWNodeArgumentPattern_eq, lWNodePatternMatchExpressionClause_eq, lWNodePatternMatchClause_eq, lNodeStatement_eq, oWNodeStatementBlock_eq]⟩

theorem NodeTypeMapKey.made {c : Variant} (hc : c ∈ TName.variants .NodeTypeMapKey) (xs : Els c.types) :
    ∃ x : NodeTypeMapKey, x.rv = .node c.path c.fields (rvs c.types xs) := by
  simp only [TName.variants, List.mem_cons, List.not_mem_nil, or_false] at hc
  rcases hc with rfl | rfl | rfl | rfl
  · obtain ⟨x0, _⟩ := xs
    exact ⟨.genericMapKey x0, by simp only [NodeTypeMapKey.rv, rvs, RT.rv, TName.rv, vecRv, wNodeAddressType_eq, wNodeTypeMapEntry_eq, wNodeTypeMapValueAllowingTypeArguments_eq, wNodeScillaType_eq, wNodeTypeMapKey_eq, wNodeTypeMapValue_eq, wNodeTypeArgument_eq, wNodeAddressTypeField_eq, wNodeTypeMapValueArguments_eq, wNodeArgumentPattern_eq, wNodePattern_eq, wNodeFullExpression_eq, wNodePatternMatchExpressionClause_eq, wNodeStatementBlock_eq, wNodePatternMatchClause_eq, lWNodeTypeArgument_eq, lWNodeAddressTypeField_eq, lWNodeTypeMapValueArguments_eq, lWNodeArgumentPattern_eq, lWNodePatternMatchExpressionClause_eq, lWNodePatternMatchClause_eq, lNodeStatement_eq, oWNodeStatementBlock_eq]⟩
  · obtain ⟨x0, _⟩ := xs
    exact ⟨.enclosedGenericId x0, by simp only [NodeTypeMapKey.rv, rvs, RT.rv, TName.rv, vecRv, wNodeAddressType_eq, wNodeTypeMapEntry_eq, wNodeTypeMapValueAllowingTypeArguments_eq, wNodeScillaType_eq, wNodeTypeMapKey_eq, wNodeTypeMapValue_eq, wNodeTypeArgument_eq, wNodeAddressTypeField_eq, wNodeTypeMapValueArguments_eq, wNodeArgumentPattern_eq, wNodePattern_eq, wNodeFullExpression_eq, wNodePatternMatchExpressionClause_eq, wNodeStatementBlock_eq, wNodePatternMatchClause_eq, lWNodeTypeArgument_eq, lWNodeAddressTypeField_eq, lWNodeTypeMapValueArguments_eq, lWNodeArgumentPattern_eq, lWNodePatternMatchExpressionClause_eq, lWNodePatternMatchClause_eq, lNodeStatement_eq, oWNodeStatementBlock_eq]⟩
  · obtain ⟨x0, _⟩ := xs
    exact ⟨.enclosedAddressMapKeyType x0, by simp only [NodeTypeMapKey.rv, rvs, RT.rv, TName.rv, vecRv, wNodeAddressType_eq, wNodeTypeMapEntry_eq, wNodeTypeMapValueAllowingTypeArguments_eq, wNodeScillaType_eq, wNodeTypeMapKey_eq, wNodeTypeMapValue_eq, wNodeTypeArgument_eq, wNodeAddressTypeField_eq, wNodeTypeMapValueArguments_eq, wNodeArgumentPattern_eq, wNodePattern_eq, wNodeFullExpression_eq, wNodePatternMatchExpressionClause_eq, wNodeStatementBlock_eq, wNodePatternMatchClause_eq, lWNodeTypeArgument_eq, lWNodeAddressTypeField_eq, lWNodeTypeMapValueArguments_eq, lWNodeArgumentPattern_eq, lWNodePatternMatchExpressionClause_eq, lWNodePatternMatchClause_eq, lNodeStatement_eq, oWNodeStatementBlock_eq]⟩
  · obtain ⟨x0, _⟩ := xs
    exact ⟨.addressMapKeyType x0, by simp only [NodeTypeMapKey.rv, rvs, RT.rv, TName.rv, vecRv, wNodeAddressType_eq, wNodeTypeMapEntry_eq, wNodeTypeMapValueAllowingTypeArguments_eq, wNodeScillaType_eq, wNodeTypeMapKey_eq, wNodeTypeMapValue_eq, wNodeTypeArgument_eq, wNodeAddressTypeField_eq, wNodeTypeMapValueArguments_eq, wNodeArgumentPattern_eq, wNodePattern_eq, wNodeFullExpression_eq, wNodePatternMatchExpressionClause_eq, wNodeStatementBlock_eq, wNodePatternMatchClause_eq, lWNodeTypeArgument_eq, lWNodeAddressTypeField_eq, lWNodeTypeMapValueArguments_eq, lWNodeArgumentPattern_eq, lWNodePatternMatchExpressionClause_eq, lWNodePatternMatchClause_eq, lNodeStatement_eq, oWNodeStatementBlock_eq]⟩

theorem NodeTypeMapValue.made {c : Variant} (hc : c ∈ TName.variants .NodeTypeMapValue) (xs : Els c.types) :
    ∃ x : NodeTypeMapValue, x.rv = .node c.path c.fields (rvs c.types xs) := by
  simp only [TName.variants, List.mem_cons, List.not_mem_nil, or_false] at hc
  rcases hc with rfl | rfl | rfl | rfl
  · obtain ⟨x0, _⟩ := xs
    exact ⟨.mapValueTypeOrEnumLikeIdentifier x0, by simp only [NodeTypeMapValue.rv, rvs, RT.rv, TName.rv, vecRv, wNodeAddressType_eq, wNodeTypeMapEntry_eq, wNodeTypeMapValueAllowingTypeArguments_eq, wNodeScillaType_eq, wNodeTypeMapKey_eq, wNodeTypeMapValue_eq, wNodeTypeArgument_eq, wNodeAddressTypeField_eq, wNodeTypeMapValueArguments_eq, wNodeArgumentPattern_eq, wNodePattern_eq, wNodeFullExpression_eq, wNodePatternMatchExpressionClause_eq, wNodeStatementBlock_eq, wNodePatternMatchClause_eq, lWNodeTypeArgument_eq, lWNodeAddressTypeField_eq, lWNodeTypeMapValueArguments_eq, lWNodeArgumentPattern_eq, lWNodePatternMatchExpressionClause_eq, lWNodePatternMatchClause_eq, lNodeStatement_eq, oWNodeStatementBlock_eq]⟩
  · obtain ⟨x0, _⟩ := xs
    exact ⟨.mapKeyValue x0, by simp only [NodeTypeMapValue.rv, rvs, RT.rv, TName.rv, vecRv, wNodeAddressType_eq, wNodeTypeMapEntry_eq, wNodeTypeMapValueAllowingTypeArguments_eq, wNodeScillaType_eq, wNodeTypeMapKey_eq, wNodeTypeMapValue_eq, wNodeTypeArgument_eq, wNodeAddressTypeField_eq, wNodeTypeMapValueArguments_eq, wNodeArgumentPattern_eq, wNodePattern_eq, wNodeFullExpression_eq, wNodePatternMatchExpressionClause_eq, wNodeStatementBlock_eq, wNodePatternMatchClause_eq, lWNodeTypeArgument_eq, lWNodeAddressTypeField_eq, lWNodeTypeMapValueArguments_eq, lWNodeArgumentPattern_eq, lWNodePatternMatchExpressionClause_eq, lWNodePatternMatchClause_eq, lNodeStatement_eq, oWNodeStatementBlock_eq]⟩
  · obtain ⟨x0, _⟩ := xs
    exact ⟨.mapValueParenthesizedType x0, by simp only [NodeTypeMapValue.rv, rvs, RT.rv, TName.rv, vecRv, wNodeAddressType_eq, wNodeTypeMapEntry_eq, wNodeTypeMapValueAllowingTypeArguments_eq, wNodeScillaType_eq, wNodeTypeMapKey_eq, wNodeTypeMapValue_eq, wNodeTypeArgument_eq, wNodeAddressTypeField_eq, wNodeTypeMapValueArguments_eq, wNodeArgumentPattern_eq, wNodePattern_eq, wNodeFullExpression_eq, wNodePatternMatchExpressionClause_eq, wNodeStatementBlock_eq, wNodePatternMatchClause_eq, lWNodeTypeArgument_eq, lWNodeAddressTypeField_eq, lWNodeTypeMapValueArguments_eq, lWNodeArgumentPattern_eq, lWNodePatternMatchExpressionClause_eq, lWNodePatternMatchClause_eq, lNodeStatement_eq, oWNodeStatementBlock_eq]⟩
  · obtain ⟨x0, _⟩ := xs
    exact ⟨.mapValueAddressType x0, by simp only [NodeTypeMapValue.rv, rvs, RT.rv, TName.rv, vecRv, wNodeAddressType_eq, wNodeTypeMapEntry_eq, wNodeTypeMapValueAllowingTypeArguments_eq, wNodeScillaType_eq, wNodeTypeMapKey_eq, wNodeTypeMapValue_eq, wNodeTypeArgument_eq, wNodeAddressTypeField_eq, wNodeTypeMapValueArguments_eq, wNodeArgumentPattern_eq, wNodePattern_eq, wNodeFullExpression_eq, wNodePatternMatchExpressionClause_eq, wNodeStatementBlock_eq, wNodePatternMatchClause_eq, lWNodeTypeArgument_eq, lWNodeAddressTypeField_eq, lWNodeTypeMapValueArguments_eq, lWNodeArgumentPattern_eq, lWNodePatternMatchExpressionClause_eq, lWNodePatternMatchClause_eq, lNodeStatement_eq, oWNodeStatementBlock_eq]⟩

theorem NodeTypeArgument.made {c : Variant} (hc : c ∈ TName.variants .NodeTypeArgument) (xs : Els c.types) :
    ∃ x : NodeTypeArgument, x.rv = .node c.path c.fields (rvs c.types xs) := by
  simp only [TName.variants, List.mem_cons, List.not_mem_nil, or_false] at hc
  rcases hc with rfl | rfl | rfl | rfl | rfl
  · obtain ⟨x0, _⟩ := xs
    exact ⟨.enclosedTypeArgument x0, by simp only [NodeTypeArgument.rv, rvs, RT.rv, TName.rv, vecRv, wNodeAddressType_eq, wNodeTypeMapEntry_eq, wNodeTypeMapValueAllowingTypeArguments_eq, wNodeScillaType_eq, wNodeTypeMapKey_eq, wNodeTypeMapValue_eq, wNodeTypeArgument_eq, wNodeAddressTypeField_eq, wNodeTypeMapValueArguments_eq, wNodeArgumentPattern_eq, wNodePattern_eq, wNodeFullExpression_eq, wNodePatternMatchExpressionClause_eq, wNodeStatementBlock_eq, wNodePatternMatchClause_eq, lWNodeTypeArgument_eq, lWNodeAddressTypeField_eq, lWNodeTypeMapValueArguments_eq, lWNodeArgumentPattern_eq, lWNodePatternMatchExpressionClause_eq, lWNodePatternMatchClause_eq, lNodeStatement_eq, oWNodeStatementBlock_eq]⟩
  · obtain ⟨x0, _⟩ := xs
    exact ⟨.genericTypeArgument x0, by simp only [NodeTypeArgument.rv, rvs, RT.rv, TName.rv, vecRv, wNodeAddressType_eq, wNodeTypeMapEntry_eq, wNodeTypeMapValueAllowingTypeArguments_eq, wNodeScillaType_eq, wNodeTypeMapKey_eq, wNodeTypeMapValue_eq, wNodeTypeArgument_eq, wNodeAddressTypeField_eq, wNodeTypeMapValueArguments_eq, wNodeArgumentPattern_eq, wNodePattern_eq, wNodeFullExpression_eq, wNodePatternMatchExpressionClause_eq, wNodeStatementBlock_eq, wNodePatternMatchClause_eq, lWNodeTypeArgument_eq, lWNodeAddressTypeField_eq, lWNodeTypeMapValueArguments_eq, lWNodeArgumentPattern_eq, lWNodePatternMatchExpressionClause_eq, lWNodePatternMatchClause_eq, lNodeStatement_eq, oWNodeStatementBlock_eq]⟩
  · obtain ⟨x0, _⟩ := xs
    exact ⟨.templateTypeArgument x0, by simp only [NodeTypeArgument.rv, rvs, RT.rv, TName.rv, vecRv, wNodeAddressType_eq, wNodeTypeMapEntry_eq, wNodeTypeMapValueAllowingTypeArguments_eq, wNodeScillaType_eq, wNodeTypeMapKey_eq, wNodeTypeMapValue_eq, wNodeTypeArgument_eq, wNodeAddressTypeField_eq, wNodeTypeMapValueArguments_eq, wNodeArgumentPattern_eq, wNodePattern_eq, wNodeFullExpression_eq, wNodePatternMatchExpressionClause_eq, wNodeStatementBlock_eq, wNodePatternMatchClause_eq, lWNodeTypeArgument_eq, lWNodeAddressTypeField_eq, lWNodeTypeMapValueArguments_eq, lWNodeArgumentPattern_eq, lWNodePatternMatchExpressionClause_eq, lWNodePatternMatchClause_eq, lNodeStatement_eq, oWNodeStatementBlock_eq]⟩
  · obtain ⟨x0, _⟩ := xs
    exact ⟨.addressTypeArgument x0, by simp only [NodeTypeArgument.rv, rvs, RT.rv, TName.rv, vecRv, wNodeAddressType_eq, wNodeTypeMapEntry_eq, wNodeTypeMapValueAllowingTypeArguments_eq, wNodeScillaType_eq, wNodeTypeMapKey_eq, wNodeTypeMapValue_eq, wNodeTypeArgument_eq, wNodeAddressTypeField_eq, wNodeTypeMapValueArguments_eq, wNodeArgumentPattern_eq, wNodePattern_eq, wNodeFullExpression_eq, wNodePatternMatchExpressionClause_eq, wNodeStatementBlock_eq, wNodePatternMatchClause_eq, lWNodeTypeArgument_eq, lWNodeAddressTypeField_eq, lWNodeTypeMapValueArguments_eq, lWNodeArgumentPattern_eq, lWNodePatternMatchExpressionClause_eq, lWNodePatternMatchClause_eq, lNodeStatement_eq, oWNodeStatementBlock_eq]⟩
  · obtain ⟨x0, x1, _⟩ := xs
    exact ⟨.mapTypeArgument x0 x1, by simp only [NodeTypeArgument.rv, rvs, RT.rv, TName.rv, vecRv, wNodeAddressType_eq, wNodeTypeMapEntry_eq, wNodeTypeMapValueAllowingTypeArguments_eq, wNodeScillaType_eq, wNodeTypeMapKey_eq, wNodeTypeMapValue_eq, wNodeTypeArgument_eq, wNodeAddressTypeField_eq, wNodeTypeMapValueArguments_eq, wNodeArgumentPattern_eq, wNodePattern_eq, wNodeFullExpression_eq, wNodePatternMatchExpressionClause_eq, wNodeStatementBlock_eq, wNodePatternMatchClause_eq, lWNodeTypeArgument_eq, lWNodeAddressTypeField_eq, lWNodeTypeMapValueArguments_eq, lWNodeArgumentPattern_eq, lWNodePatternMatchExpressionClause_eq, lWNodePatternMatchClause_eq, lNodeStatement_eq, oWNodeStatementBlock_eq]⟩

theorem NodeScillaType.made {c : Variant} (hc : c ∈ TName.variants .NodeScillaType) (xs : Els c.types) :
    ∃ x : NodeScillaType, x.rv = .node c.path c.fields (rvs c.types xs) := by
  simp only [TName.variants, List.mem_cons, List.not_mem_nil, or_false] at hc
  rcases hc with rfl | rfl | rfl | rfl | rfl | rfl | rfl
  · obtain ⟨x0, x1, _⟩ := xs
    exact ⟨.genericTypeWithArgs x0 x1, by simp only [NodeScillaType.rv, rvs, RT.rv, TName.rv, vecRv, wNodeAddressType_eq, wNodeTypeMapEntry_eq, wNodeTypeMapValueAllowingTypeArguments_eq, wNodeScillaType_eq, wNodeTypeMapKey_eq, wNodeTypeMapValue_eq, wNodeTypeArgument_eq, wNodeAddressTypeField_eq, wNodeTypeMapValueArguments_eq, wNodeArgumentPattern_eq, wNodePattern_eq, wNodeFullExpression_eq, wNodePatternMatchExpressionClause_eq, wNodeStatementBlock_eq, wNodePatternMatchClause_eq, lWNodeTypeArgument_eq, lWNodeAddressTypeField_eq, lWNodeTypeMapValueArguments_eq, lWNodeArgumentPattern_eq, lWNodePatternMatchExpressionClause_eq, lWNodePatternMatchClause_eq, lNodeStatement_eq, oWNodeStatementBlock_eq]⟩
  · obtain ⟨x0, x1, _⟩ := xs
    exact ⟨.mapType x0 x1, by simp only [NodeScillaType.rv, rvs, RT.rv, TName.rv, vecRv, wNodeAddressType_eq, wNodeTypeMapEntry_eq, wNodeTypeMapValueAllowingTypeArguments_eq, wNodeScillaType_eq, wNodeTypeMapKey_eq, wNodeTypeMapValue_eq, wNodeTypeArgument_eq, wNodeAddressTypeField_eq, wNodeTypeMapValueArguments_eq, wNodeArgumentPattern_eq, wNodePattern_eq, wNodeFullExpression_eq, wNodePatternMatchExpressionClause_eq, wNodeStatementBlock_eq, wNodePatternMatchClause_eq, lWNodeTypeArgument_eq, lWNodeAddressTypeField_eq, lWNodeTypeMapValueArguments_eq, lWNodeArgumentPattern_eq, lWNodePatternMatchExpressionClause_eq, lWNodePatternMatchClause_eq, lNodeStatement_eq, oWNodeStatementBlock_eq]⟩
  · obtain ⟨x0, x1, _⟩ := xs
    exact ⟨.functionType x0 x1, by simp only [NodeScillaType.rv, rvs, RT.rv, TName.rv, vecRv, wNodeAddressType_eq, wNodeTypeMapEntry_eq, wNodeTypeMapValueAllowingTypeArguments_eq, wNodeScillaType_eq, wNodeTypeMapKey_eq, wNodeTypeMapValue_eq, wNodeTypeArgument_eq, wNodeAddressTypeField_eq, wNodeTypeMapValueArguments_eq, wNodeArgumentPattern_eq, wNodePattern_eq, wNodeFullExpression_eq, wNodePatternMatchExpressionClause_eq, wNodeStatementBlock_eq, wNodePatternMatchClause_eq, lWNodeTypeArgument_eq, lWNodeAddressTypeField_eq, lWNodeTypeMapValueArguments_eq, lWNodeArgumentPattern_eq, lWNodePatternMatchExpressionClause_eq, lWNodePatternMatchClause_eq, lNodeStatement_eq, oWNodeStatementBlock_eq]⟩
  · obtain ⟨x0, _⟩ := xs
    exact ⟨.enclosedType x0, by simp only [NodeScillaType.rv, rvs, RT.rv, TName.rv, vecRv, wNodeAddressType_eq, wNodeTypeMapEntry_eq, wNodeTypeMapValueAllowingTypeArguments_eq, wNodeScillaType_eq, wNodeTypeMapKey_eq, wNodeTypeMapValue_eq, wNodeTypeArgument_eq, wNodeAddressTypeField_eq, wNodeTypeMapValueArguments_eq, wNodeArgumentPattern_eq, wNodePattern_eq, wNodeFullExpression_eq, wNodePatternMatchExpressionClause_eq, wNodeStatementBlock_eq, wNodePatternMatchClause_eq, lWNodeTypeArgument_eq, lWNodeAddressTypeField_eq, lWNodeTypeMapValueArguments_eq, lWNodeArgumentPattern_eq, lWNodePatternMatchExpressionClause_eq, lWNodePatternMatchClause_eq, lNodeStatement_eq, oWNodeStatementBlock_eq]⟩
  · obtain ⟨x0, _⟩ := xs
    exact ⟨.scillaAddresseType x0, by simp only [NodeScillaType.rv, rvs, RT.rv, TName.rv, vecRv, wNodeAddressType_eq, wNodeTypeMapEntry_eq, wNodeTypeMapValueAllowingTypeArguments_eq, wNodeScillaType_eq, wNodeTypeMapKey_eq, wNodeTypeMapValue_eq, wNodeTypeArgument_eq, wNodeAddressTypeField_eq, wNodeTypeMapValueArguments_eq, wNodeArgumentPattern_eq, wNodePattern_eq, wNodeFullExpression_eq, wNodePatternMatchExpressionClause_eq, wNodeStatementBlock_eq, wNodePatternMatchClause_eq, lWNodeTypeArgument_eq, lWNodeAddressTypeField_eq, lWNodeTypeMapValueArguments_eq, lWNodeArgumentPattern_eq, lWNodePatternMatchExpressionClause_eq, lWNodePatternMatchClause_eq, lNodeStatement_eq, oWNodeStatementBlock_eq]⟩
  · obtain ⟨x0, x1, _⟩ := xs
    exact ⟨.polyFunctionType x0 x1, by simp only [NodeScillaType.rv, rvs, RT.rv, TName.rv, vecRv, wNodeAddressType_eq, wNodeTypeMapEntry_eq, wNodeTypeMapValueAllowingTypeArguments_eq, wNodeScillaType_eq, wNodeTypeMapKey_eq, wNodeTypeMapValue_eq, wNodeTypeArgument_eq, wNodeAddressTypeField_eq, wNodeTypeMapValueArguments_eq, wNodeArgumentPattern_eq, wNodePattern_eq, wNodeFullExpression_eq, wNodePatternMatchExpressionClause_eq, wNodeStatementBlock_eq, wNodePatternMatchClause_eq, lWNodeTypeArgument_eq, lWNodeAddressTypeField_eq, lWNodeTypeMapValueArguments_eq, lWNodeArgumentPattern_eq, lWNodePatternMatchExpressionClause_eq, lWNodePatternMatchClause_eq, lNodeStatement_eq, oWNodeStatementBlock_eq]⟩
  · obtain ⟨x0, _⟩ := xs
    exact ⟨.typeVarType x0, by simp only [NodeScillaType.rv, rvs, RT.rv, TName.rv, vecRv, wNodeAddressType_eq, wNodeTypeMapEntry_eq, wNodeTypeMapValueAllowingTypeArguments_eq, wNodeScillaType_eq, wNodeTypeMapKey_eq, wNodeTypeMapValue_eq, wNodeTypeArgument_eq, wNodeAddressTypeField_eq, wNodeTypeMapValueArguments_eq, wNodeArgumentPattern_eq, wNodePattern_eq, wNodeFullExpression_eq, wNodePatternMatchExpressionClause_eq, wNodeStatementBlock_eq, wNodePatternMatchClause_eq, lWNodeTypeArgument_eq, lWNodeAddressTypeField_eq, lWNodeTypeMapValueArguments_eq, lWNodeArgumentPattern_eq, lWNodePatternMatchExpressionClause_eq, lWNodePatternMatchClause_eq, lNodeStatement_eq, oWNodeStatementBlock_eq]⟩

theorem NodeTypeMapEntry.made {c : Variant} (hc : c ∈ TName.variants .NodeTypeMapEntry) (xs : Els c.types) :
    ∃ x : NodeTypeMapEntry, x.rv = .node c.path c.fields (rvs c.types xs) := by
  simp only [TName.variants, List.mem_cons, List.not_mem_nil, or_false] at hc
  rcases hc with rfl
  · obtain ⟨x0, x1, _⟩ := xs
    exact ⟨⟨x0, x1⟩, by simp only [NodeTypeMapEntry.rv, rvs, RT.rv, TName.rv, vecRv, wNodeAddressType_eq, wNodeTypeMapEntry_eq, wNodeTypeMapValueAllowingTypeArguments_eq, wNodeScillaType_eq, wNodeTypeMapKey_eq, wNodeTypeMapValue_eq, wNodeTypeArgument_eq, wNodeAddressTypeField_eq, wNodeTypeMapValueArguments_eq, wNodeArgumentPattern_eq, wNodePattern_eq, wNodeFullExpression_eq, wNodePatternMatchExpressionClause_eq, wNodeStatementBlock_eq, wNodePatternMatchClause_eq, lWNodeTypeArgument_eq, lWNodeAddressTypeField_eq, lWNodeTypeMapValueArguments_eq, lWNodeArgumentPattern_eq, lWNodePatternMatchExpressionClause_eq, lWNodePatternMatchClause_eq, lNodeStatement_eq, oWNodeStatementBlock_eq]⟩

theorem NodeAddressTypeField.made {c : Variant} (hc : c ∈ TName.variants .NodeAddressTypeField) (xs : Els c.types) :
    ∃ x : NodeAddressTypeField, x.rv = .node c.path c.fields (rvs c.types xs) := by
  simp only [TName.variants, List.mem_cons, List.not_mem_nil, or_false] at hc
  rcases hc with rfl
  · obtain ⟨x0, x1, _⟩ := xs
    exact ⟨⟨x0, x1⟩, by simp only [NodeAddressTypeField.rv, rvs, RT.rv, TName.rv, vecRv, wNodeAddressType_eq, wNodeTypeMapEntry_eq, wNodeTypeMapValueAllowingTypeArguments_eq, wNodeScillaType_eq, wNodeTypeMapKey_eq, wNodeTypeMapValue_eq, wNodeTypeArgument_eq, wNodeAddressTypeField_eq, wNodeTypeMapValueArguments_eq, wNodeArgumentPattern_eq, wNodePattern_eq, wNodeFullExpression_eq, wNodePatternMatchExpressionClause_eq, wNodeStatementBlock_eq, wNodePatternMatchClause_eq, lWNodeTypeArgument_eq, lWNodeAddressTypeField_eq, lWNodeTypeMapValueArguments_eq, lWNodeArgumentPattern_eq, lWNodePatternMatchExpressionClause_eq, lWNodePatternMatchClause_eq, lNodeStatement_eq, oWNodeStatementBlock_eq]⟩

theorem NodeAddressType.made {c : Variant} (hc : c ∈ TName.variants .NodeAddressType) (xs : Els c.types) :
    ∃ x : NodeAddressType, x.rv = .node c.path c.fields (rvs c.types xs) := by
  simp only [TName.variants, List.mem_cons, List.not_mem_nil, or_false] at hc
  rcases hc with rfl
  · obtain ⟨x0, x1, x2, _⟩ := xs
    exact ⟨⟨x0, x1, x2⟩, by simp only [NodeAddressType.rv, rvs, RT.rv, TName.rv, vecRv, wNodeAddressType_eq, wNodeTypeMapEntry_eq, wNodeTypeMapValueAllowingTypeArguments_eq, wNodeScillaType_eq, wNodeTypeMapKey_eq, wNodeTypeMapValue_eq, wNodeTypeArgument_eq, wNodeAddressTypeField_eq, wNodeTypeMapValueArguments_eq, wNodeArgumentPattern_eq, wNodePattern_eq, wNodeFullExpression_eq, wNodePatternMatchExpressionClause_eq, wNodeStatementBlock_eq, wNodePatternMatchClause_eq, lWNodeTypeArgument_eq, lWNodeAddressTypeField_eq, lWNodeTypeMapValueArguments_eq, lWNodeArgumentPattern_eq, lWNodePatternMatchExpressionClause_eq, lWNodePatternMatchClause_eq, lNodeStatement_eq, oWNodeStatementBlock_eq]⟩

theorem NodeFullExpression.made {c : Variant} (hc : c ∈ TName.variants .NodeFullExpression) (xs : Els c.types) :
    ∃ x : NodeFullExpression, x.rv = .node c.path c.fields (rvs c.types xs) := by
  simp only [TName.variants, List.mem_cons, List.not_mem_nil, or_false] at hc
  rcases hc with rfl | rfl | rfl | rfl | rfl | rfl | rfl | rfl | rfl | rfl
  · obtain ⟨x0, x1, x2, x3, _⟩ := xs
    exact ⟨.localVariableDeclaration x0 x1 x2 x3, by simp only [NodeFullExpression.rv, rvs, RT.rv, TName.rv, vecRv, wNodeAddressType_eq, wNodeTypeMapEntry_eq, wNodeTypeMapValueAllowingTypeArguments_eq, wNodeScillaType_eq, wNodeTypeMapKey_eq, wNodeTypeMapValue_eq, wNodeTypeArgument_eq, wNodeAddressTypeField_eq, wNodeTypeMapValueArguments_eq, wNodeArgumentPattern_eq, wNodePattern_eq, wNodeFullExpression_eq, wNodePatternMatchExpressionClause_eq, wNodeStatementBlock_eq, wNodePatternMatchClause_eq, lWNodeTypeArgument_eq, lWNodeAddressTypeField_eq, lWNodeTypeMapValueArguments_eq, lWNodeArgumentPattern_eq, lWNodePatternMatchExpressionClause_eq, lWNodePatternMatchClause_eq, lNodeStatement_eq, oWNodeStatementBlock_eq]⟩
  · obtain ⟨x0, x1, x2, _⟩ := xs
    exact ⟨.functionDeclaration x0 x1 x2, by simp only [NodeFullExpression.rv, rvs, RT.rv, TName.rv, vecRv, wNodeAddressType_eq, wNodeTypeMapEntry_eq, wNodeTypeMapValueAllowingTypeArguments_eq, wNodeScillaType_eq, wNodeTypeMapKey_eq, wNodeTypeMapValue_eq, wNodeTypeArgument_eq, wNodeAddressTypeField_eq, wNodeTypeMapValueArguments_eq, wNodeArgumentPattern_eq, wNodePattern_eq, wNodeFullExpression_eq, wNodePatternMatchExpressionClause_eq, wNodeStatementBlock_eq, wNodePatternMatchClause_eq, lWNodeTypeArgument_eq, lWNodeAddressTypeField_eq, lWNodeTypeMapValueArguments_eq, lWNodeArgumentPattern_eq, lWNodePatternMatchExpressionClause_eq, lWNodePatternMatchClause_eq, lNodeStatement_eq, oWNodeStatementBlock_eq]⟩
  · obtain ⟨x0, x1, _⟩ := xs
    exact ⟨.functionCall x0 x1, by simp only [NodeFullExpression.rv, rvs, RT.rv, TName.rv, vecRv, wNodeAddressType_eq, wNodeTypeMapEntry_eq, wNodeTypeMapValueAllowingTypeArguments_eq, wNodeScillaType_eq, wNodeTypeMapKey_eq, wNodeTypeMapValue_eq, wNodeTypeArgument_eq, wNodeAddressTypeField_eq, wNodeTypeMapValueArguments_eq, wNodeArgumentPattern_eq, wNodePattern_eq, wNodeFullExpression_eq, wNodePatternMatchExpressionClause_eq, wNodeStatementBlock_eq, wNodePatternMatchClause_eq, lWNodeTypeArgument_eq, lWNodeAddressTypeField_eq, lWNodeTypeMapValueArguments_eq, lWNodeArgumentPattern_eq, lWNodePatternMatchExpressionClause_eq, lWNodePatternMatchClause_eq, lNodeStatement_eq, oWNodeStatementBlock_eq]⟩
  · obtain ⟨x0, _⟩ := xs
    exact ⟨.expressionAtomic x0, by simp only [NodeFullExpression.rv, rvs, RT.rv, TName.rv, vecRv, wNodeAddressType_eq, wNodeTypeMapEntry_eq, wNodeTypeMapValueAllowingTypeArguments_eq, wNodeScillaType_eq, wNodeTypeMapKey_eq, wNodeTypeMapValue_eq, wNodeTypeArgument_eq, wNodeAddressTypeField_eq, wNodeTypeMapValueArguments_eq, wNodeArgumentPattern_eq, wNodePattern_eq, wNodeFullExpression_eq, wNodePatternMatchExpressionClause_eq, wNodeStatementBlock_eq, wNodePatternMatchClause_eq, lWNodeTypeArgument_eq, lWNodeAddressTypeField_eq, lWNodeTypeMapValueArguments_eq, lWNodeArgumentPattern_eq, lWNodePatternMatchExpressionClause_eq, lWNodePatternMatchClause_eq, lNodeStatement_eq, oWNodeStatementBlock_eq]⟩
  · obtain ⟨x0, x1, x2, _⟩ := xs
    exact ⟨.expressionBuiltin x0 x1 x2, by simp only [NodeFullExpression.rv, rvs, RT.rv, TName.rv, vecRv, wNodeAddressType_eq, wNodeTypeMapEntry_eq, wNodeTypeMapValueAllowingTypeArguments_eq, wNodeScillaType_eq, wNodeTypeMapKey_eq, wNodeTypeMapValue_eq, wNodeTypeArgument_eq, wNodeAddressTypeField_eq, wNodeTypeMapValueArguments_eq, wNodeArgumentPattern_eq, wNodePattern_eq, wNodeFullExpression_eq, wNodePatternMatchExpressionClause_eq, wNodeStatementBlock_eq, wNodePatternMatchClause_eq, lWNodeTypeArgument_eq, lWNodeAddressTypeField_eq, lWNodeTypeMapValueArguments_eq, lWNodeArgumentPattern_eq, lWNodePatternMatchExpressionClause_eq, lWNodePatternMatchClause_eq, lNodeStatement_eq, oWNodeStatementBlock_eq]⟩
  · obtain ⟨x0, _⟩ := xs
    exact ⟨.message x0, by simp only [NodeFullExpression.rv, rvs, RT.rv, TName.rv, vecRv, wNodeAddressType_eq, wNodeTypeMapEntry_eq, wNodeTypeMapValueAllowingTypeArguments_eq, wNodeScillaType_eq, wNodeTypeMapKey_eq, wNodeTypeMapValue_eq, wNodeTypeArgument_eq, wNodeAddressTypeField_eq, wNodeTypeMapValueArguments_eq, wNodeArgumentPattern_eq, wNodePattern_eq, wNodeFullExpression_eq, wNodePatternMatchExpressionClause_eq, wNodeStatementBlock_eq, wNodePatternMatchClause_eq, lWNodeTypeArgument_eq, lWNodeAddressTypeField_eq, lWNodeTypeMapValueArguments_eq, lWNodeArgumentPattern_eq, lWNodePatternMatchExpressionClause_eq, lWNodePatternMatchClause_eq, lNodeStatement_eq, oWNodeStatementBlock_eq]⟩
  · obtain ⟨x0, x1, _⟩ := xs
    exact ⟨.match_ x0 x1, by simp only [NodeFullExpression.rv, rvs, RT.rv, TName.rv, vecRv, wNodeAddressType_eq, wNodeTypeMapEntry_eq, wNodeTypeMapValueAllowingTypeArguments_eq, wNodeScillaType_eq, wNodeTypeMapKey_eq, wNodeTypeMapValue_eq, wNodeTypeArgument_eq, wNodeAddressTypeField_eq, wNodeTypeMapValueArguments_eq, wNodeArgumentPattern_eq, wNodePattern_eq, wNodeFullExpression_eq, wNodePatternMatchExpressionClause_eq, wNodeStatementBlock_eq, wNodePatternMatchClause_eq, lWNodeTypeArgument_eq, lWNodeAddressTypeField_eq, lWNodeTypeMapValueArguments_eq, lWNodeArgumentPattern_eq, lWNodePatternMatchExpressionClause_eq, lWNodePatternMatchClause_eq, lNodeStatement_eq, oWNodeStatementBlock_eq]⟩
  · obtain ⟨x0, x1, x2, _⟩ := xs
    exact ⟨.constructorCall x0 x1 x2, by simp only [NodeFullExpression.rv, rvs, RT.rv, TName.rv, vecRv, wNodeAddressType_eq, wNodeTypeMapEntry_eq, wNodeTypeMapValueAllowingTypeArguments_eq, wNodeScillaType_eq, wNodeTypeMapKey_eq, wNodeTypeMapValue_eq, wNodeTypeArgument_eq, wNodeAddressTypeField_eq, wNodeTypeMapValueArguments_eq, wNodeArgumentPattern_eq, wNodePattern_eq, wNodeFullExpression_eq, wNodePatternMatchExpressionClause_eq, wNodeStatementBlock_eq, wNodePatternMatchClause_eq, lWNodeTypeArgument_eq, lWNodeAddressTypeField_eq, lWNodeTypeMapValueArguments_eq, lWNodeArgumentPattern_eq, lWNodePatternMatchExpressionClause_eq, lWNodePatternMatchClause_eq, lNodeStatement_eq, oWNodeStatementBlock_eq]⟩
  · obtain ⟨x0, x1, _⟩ := xs
    exact ⟨.templateFunction x0 x1, by simp only [NodeFullExpression.rv, rvs, RT.rv, TName.rv, vecRv, wNodeAddressType_eq, wNodeTypeMapEntry_eq, wNodeTypeMapValueAllowingTypeArguments_eq, wNodeScillaType_eq, wNodeTypeMapKey_eq, wNodeTypeMapValue_eq, wNodeTypeArgument_eq, wNodeAddressTypeField_eq, wNodeTypeMapValueArguments_eq, wNodeArgumentPattern_eq, wNodePattern_eq, wNodeFullExpression_eq, wNodePatternMatchExpressionClause_eq, wNodeStatementBlock_eq, wNodePatternMatchClause_eq, lWNodeTypeArgument_eq, lWNodeAddressTypeField_eq, lWNodeTypeMapValueArguments_eq, lWNodeArgumentPattern_eq, lWNodePatternMatchExpressionClause_eq, lWNodePatternMatchClause_eq, lNodeStatement_eq, oWNodeStatementBlock_eq]⟩
  · obtain ⟨x0, x1, _⟩ := xs
    exact ⟨.tApp x0 x1, by simp only [NodeFullExpression.rv, rvs, RT.rv, TName.rv, vecRv, wNodeAddressType_eq, wNodeTypeMapEntry_eq, wNodeTypeMapValueAllowingTypeArguments_eq, wNodeScillaType_eq, wNodeTypeMapKey_eq, wNodeTypeMapValue_eq, wNodeTypeArgument_eq, wNodeAddressTypeField_eq, wNodeTypeMapValueArguments_eq, wNodeArgumentPattern_eq, wNodePattern_eq, wNodeFullExpression_eq, wNodePatternMatchExpressionClause_eq, wNodeStatementBlock_eq, wNodePatternMatchClause_eq, lWNodeTypeArgument_eq, lWNodeAddressTypeField_eq, lWNodeTypeMapValueArguments_eq, lWNodeArgumentPattern_eq, lWNodePatternMatchExpressionClause_eq, lWNodePatternMatchClause_eq, lNodeStatement_eq, oWNodeStatementBlock_eq]⟩

theorem NodeMessageEntry.made {c : Variant} (hc : c ∈ TName.variants .NodeMessageEntry) (xs : Els c.types) :
    ∃ x : NodeMessageEntry, x.rv = .node c.path c.fields (rvs c.types xs) := by
  simp only [TName.variants, List.mem_cons, List.not_mem_nil, or_false] at hc
  rcases hc with rfl | rfl
  · obtain ⟨x0, x1, _⟩ := xs
    exact ⟨.messageLiteral x0 x1, by simp only [NodeMessageEntry.rv, rvs, RT.rv, TName.rv, vecRv, wNodeAddressType_eq, wNodeTypeMapEntry_eq, wNodeTypeMapValueAllowingTypeArguments_eq, wNodeScillaType_eq, wNodeTypeMapKey_eq, wNodeTypeMapValue_eq, wNodeTypeArgument_eq, wNodeAddressTypeField_eq, wNodeTypeMapValueArguments_eq, wNodeArgumentPattern_eq, wNodePattern_eq, wNodeFullExpression_eq, wNodePatternMatchExpressionClause_eq, wNodeStatementBlock_eq, wNodePatternMatchClause_eq, lWNodeTypeArgument_eq, lWNodeAddressTypeField_eq, lWNodeTypeMapValueArguments_eq, lWNodeArgumentPattern_eq, lWNodePatternMatchExpressionClause_eq, lWNodePatternMatchClause_eq, lNodeStatement_eq, oWNodeStatementBlock_eq]⟩
  · obtain ⟨x0, x1, _⟩ := xs
    exact ⟨.messageVariable x0 x1, by simp only [NodeMessageEntry.rv, rvs, RT.rv, TName.rv, vecRv, wNodeAddressType_eq, wNodeTypeMapEntry_eq, wNodeTypeMapValueAllowingTypeArguments_eq, wNodeScillaType_eq, wNodeTypeMapKey_eq, wNodeTypeMapValue_eq, wNodeTypeArgument_eq, wNodeAddressTypeField_eq, wNodeTypeMapValueArguments_eq, wNodeArgumentPattern_eq, wNodePattern_eq, wNodeFullExpression_eq, wNodePatternMatchExpressionClause_eq, wNodeStatementBlock_eq, wNodePatternMatchClause_eq, lWNodeTypeArgument_eq, lWNodeAddressTypeField_eq, lWNodeTypeMapValueArguments_eq, lWNodeArgumentPattern_eq, lWNodePatternMatchExpressionClause_eq, lWNodePatternMatchClause_eq, lNodeStatement_eq, oWNodeStatementBlock_eq]⟩

theorem NodePatternMatchExpressionClause.made {c : Variant} (hc : c ∈ TName.variants .NodePatternMatchExpressionClause) (xs : Els c.types) :
    ∃ x : NodePatternMatchExpressionClause, x.rv = .node c.path c.fields (rvs c.types xs) := by
  simp only [TName.variants, List.mem_cons, List.not_mem_nil, or_false] at hc
  rcases hc with rfl
  · obtain ⟨x0, x1, _⟩ := xs
    exact ⟨⟨x0, x1⟩, by simp only [NodePatternMatchExpressionClause.rv, rvs, RT.rv, TName.rv, vecRv, wNodeAddressType_eq, wNodeTypeMapEntry_eq, wNodeTypeMapValueAllowingTypeArguments_eq, wNodeScillaType_eq, wNodeTypeMapKey_eq, wNodeTypeMapValue_eq, wNodeTypeArgument_eq, wNodeAddressTypeField_eq, wNodeTypeMapValueArguments_eq, wNodeArgumentPattern_eq, wNodePattern_eq, wNodeFullExpression_eq, wNodePatternMatchExpressionClause_eq, wNodeStatementBlock_eq, wNodePatternMatchClause_eq, lWNodeTypeArgument_eq, lWNodeAddressTypeField_eq, lWNodeTypeMapValueArguments_eq, lWNodeArgumentPattern_eq, lWNodePatternMatchExpressionClause_eq, lWNodePatternMatchClause_eq, lNodeStatement_eq, oWNodeStatementBlock_eq]⟩

theorem NodeAtomicExpression.made {c : Variant} (hc : c ∈ TName.variants .NodeAtomicExpression) (xs : Els c.types) :
    ∃ x : NodeAtomicExpression, x.rv = .node c.path c.fields (rvs c.types xs) := by
  simp only [TName.variants, List.mem_cons, List.not_mem_nil, or_false] at hc
  rcases hc with rfl | rfl
  · obtain ⟨x0, _⟩ := xs
    exact ⟨.atomicSid x0, by simp only [NodeAtomicExpression.rv, rvs, RT.rv, TName.rv, vecRv, wNodeAddressType_eq, wNodeTypeMapEntry_eq, wNodeTypeMapValueAllowingTypeArguments_eq, wNodeScillaType_eq, wNodeTypeMapKey_eq, wNodeTypeMapValue_eq, wNodeTypeArgument_eq, wNodeAddressTypeField_eq, wNodeTypeMapValueArguments_eq, wNodeArgumentPattern_eq, wNodePattern_eq, wNodeFullExpression_eq, wNodePatternMatchExpressionClause_eq, wNodeStatementBlock_eq, wNodePatternMatchClause_eq, lWNodeTypeArgument_eq, lWNodeAddressTypeField_eq, lWNodeTypeMapValueArguments_eq, lWNodeArgumentPattern_eq, lWNodePatternMatchExpressionClause_eq, lWNodePatternMatchClause_eq, lNodeStatement_eq, oWNodeStatementBlock_eq]⟩
  · obtain ⟨x0, _⟩ := xs
    exact ⟨.atomicLit x0, by simp only [NodeAtomicExpression.rv, rvs, RT.rv, TName.rv, vecRv, wNodeAddressType_eq, wNodeTypeMapEntry_eq, wNodeTypeMapValueAllowingTypeArguments_eq, wNodeScillaType_eq, wNodeTypeMapKey_eq, wNodeTypeMapValue_eq, wNodeTypeArgument_eq, wNodeAddressTypeField_eq, wNodeTypeMapValueArguments_eq, wNodeArgumentPattern_eq, wNodePattern_eq, wNodeFullExpression_eq, wNodePatternMatchExpressionClause_eq, wNodeStatementBlock_eq, wNodePatternMatchClause_eq, lWNodeTypeArgument_eq, lWNodeAddressTypeField_eq, lWNodeTypeMapValueArguments_eq, lWNodeArgumentPattern_eq, lWNodePatternMatchExpressionClause_eq, lWNodePatternMatchClause_eq, lNodeStatement_eq, oWNodeStatementBlock_eq]⟩

theorem NodeContractTypeArguments.made {c : Variant} (hc : c ∈ TName.variants .NodeContractTypeArguments) (xs : Els c.types) :
    ∃ x : NodeContractTypeArguments, x.rv = .node c.path c.fields (rvs c.types xs) := by
  simp only [TName.variants, List.mem_cons, List.not_mem_nil, or_false] at hc
  rcases hc with rfl
  · obtain ⟨x0, _⟩ := xs
    exact ⟨⟨x0⟩, by simp only [NodeContractTypeArguments.rv, rvs, RT.rv, TName.rv, vecRv, wNodeAddressType_eq, wNodeTypeMapEntry_eq, wNodeTypeMapValueAllowingTypeArguments_eq, wNodeScillaType_eq, wNodeTypeMapKey_eq, wNodeTypeMapValue_eq, wNodeTypeArgument_eq, wNodeAddressTypeField_eq, wNodeTypeMapValueArguments_eq, wNodeArgumentPattern_eq, wNodePattern_eq, wNodeFullExpression_eq, wNodePatternMatchExpressionClause_eq, wNodeStatementBlock_eq, wNodePatternMatchClause_eq, lWNodeTypeArgument_eq, lWNodeAddressTypeField_eq, lWNodeTypeMapValueArguments_eq, lWNodeArgumentPattern_eq, lWNodePatternMatchExpressionClause_eq, lWNodePatternMatchClause_eq, lNodeStatement_eq, oWNodeStatementBlock_eq]⟩

theorem NodeValueLiteral.made {c : Variant} (hc : c ∈ TName.variants .NodeValueLiteral) (xs : Els c.types) :
    ∃ x : NodeValueLiteral, x.rv = .node c.path c.fields (rvs c.types xs) := by
  simp only [TName.variants, List.mem_cons, List.not_mem_nil, or_false] at hc
  rcases hc with rfl | rfl | rfl | rfl
  · obtain ⟨x0, x1, _⟩ := xs
    exact ⟨.literalInt x0 x1, by simp only [NodeValueLiteral.rv, rvs, RT.rv, TName.rv, vecRv, wNodeAddressType_eq, wNodeTypeMapEntry_eq, wNodeTypeMapValueAllowingTypeArguments_eq, wNodeScillaType_eq, wNodeTypeMapKey_eq, wNodeTypeMapValue_eq, wNodeTypeArgument_eq, wNodeAddressTypeField_eq, wNodeTypeMapValueArguments_eq, wNodeArgumentPattern_eq, wNodePattern_eq, wNodeFullExpression_eq, wNodePatternMatchExpressionClause_eq, wNodeStatementBlock_eq, wNodePatternMatchClause_eq, lWNodeTypeArgument_eq, lWNodeAddressTypeField_eq, lWNodeTypeMapValueArguments_eq, lWNodeArgumentPattern_eq, lWNodePatternMatchExpressionClause_eq, lWNodePatternMatchClause_eq, lNodeStatement_eq, oWNodeStatementBlock_eq]⟩
  · obtain ⟨x0, _⟩ := xs
    exact ⟨.literalHex x0, by simp only [NodeValueLiteral.rv, rvs, RT.rv, TName.rv, vecRv, wNodeAddressType_eq, wNodeTypeMapEntry_eq, wNodeTypeMapValueAllowingTypeArguments_eq, wNodeScillaType_eq, wNodeTypeMapKey_eq, wNodeTypeMapValue_eq, wNodeTypeArgument_eq, wNodeAddressTypeField_eq, wNodeTypeMapValueArguments_eq, wNodeArgumentPattern_eq, wNodePattern_eq, wNodeFullExpression_eq, wNodePatternMatchExpressionClause_eq, wNodeStatementBlock_eq, wNodePatternMatchClause_eq, lWNodeTypeArgument_eq, lWNodeAddressTypeField_eq, lWNodeTypeMapValueArguments_eq, lWNodeArgumentPattern_eq, lWNodePatternMatchExpressionClause_eq, lWNodePatternMatchClause_eq, lNodeStatement_eq, oWNodeStatementBlock_eq]⟩
  · obtain ⟨x0, _⟩ := xs
    exact ⟨.literalString x0, by simp only [NodeValueLiteral.rv, rvs, RT.rv, TName.rv, vecRv, wNodeAddressType_eq, wNodeTypeMapEntry_eq, wNodeTypeMapValueAllowingTypeArguments_eq, wNodeScillaType_eq, wNodeTypeMapKey_eq, wNodeTypeMapValue_eq, wNodeTypeArgument_eq, wNodeAddressTypeField_eq, wNodeTypeMapValueArguments_eq, wNodeArgumentPattern_eq, wNodePattern_eq, wNodeFullExpression_eq, wNodePatternMatchExpressionClause_eq, wNodeStatementBlock_eq, wNodePatternMatchClause_eq, lWNodeTypeArgument_eq, lWNodeAddressTypeField_eq, lWNodeTypeMapValueArguments_eq, lWNodeArgumentPattern_eq, lWNodePatternMatchExpressionClause_eq, lWNodePatternMatchClause_eq, lNodeStatement_eq, oWNodeStatementBlock_eq]⟩
  · obtain ⟨x0, x1, _⟩ := xs
    exact ⟨.literalEmptyMap x0 x1, by simp only [NodeValueLiteral.rv, rvs, RT.rv, TName.rv, vecRv, wNodeAddressType_eq, wNodeTypeMapEntry_eq, wNodeTypeMapValueAllowingTypeArguments_eq, wNodeScillaType_eq, wNodeTypeMapKey_eq, wNodeTypeMapValue_eq, wNodeTypeArgument_eq, wNodeAddressTypeField_eq, wNodeTypeMapValueArguments_eq, wNodeArgumentPattern_eq, wNodePattern_eq, wNodeFullExpression_eq, wNodePatternMatchExpressionClause_eq, wNodeStatementBlock_eq, wNodePatternMatchClause_eq, lWNodeTypeArgument_eq, lWNodeAddressTypeField_eq, lWNodeTypeMapValueArguments_eq, lWNodeArgumentPattern_eq, lWNodePatternMatchExpressionClause_eq, lWNodePatternMatchClause_eq, lNodeStatement_eq, oWNodeStatementBlock_eq]⟩

theorem NodeMapAccess.made {c : Variant} (hc : c ∈ TName.variants .NodeMapAccess) (xs : Els c.types) :
    ∃ x : NodeMapAccess, x.rv = .node c.path c.fields (rvs c.types xs) := by
  simp only [TName.variants, List.mem_cons, List.not_mem_nil, or_false] at hc
  rcases hc with rfl
  · obtain ⟨x0, _⟩ := xs
    exact ⟨⟨x0⟩, by simp only [NodeMapAccess.rv, rvs, RT.rv, TName.rv, vecRv, wNodeAddressType_eq, wNodeTypeMapEntry_eq, wNodeTypeMapValueAllowingTypeArguments_eq, wNodeScillaType_eq, wNodeTypeMapKey_eq, wNodeTypeMapValue_eq, wNodeTypeArgument_eq, wNodeAddressTypeField_eq, wNodeTypeMapValueArguments_eq, wNodeArgumentPattern_eq, wNodePattern_eq, wNodeFullExpression_eq, wNodePatternMatchExpressionClause_eq, wNodeStatementBlock_eq, wNodePatternMatchClause_eq, lWNodeTypeArgument_eq, lWNodeAddressTypeField_eq, lWNodeTypeMapValueArguments_eq, lWNodeArgumentPattern_eq, lWNodePatternMatchExpressionClause_eq, lWNodePatternMatchClause_eq, lNodeStatement_eq, oWNodeStatementBlock_eq]⟩

theorem NodePattern.made {c : Variant} (hc : c ∈ TName.variants .NodePattern) (xs : Els c.types) :
    ∃ x : NodePattern, x.rv = .node c.path c.fields (rvs c.types xs) := by
  simp only [TName.variants, List.mem_cons, List.not_mem_nil, or_false] at hc
  rcases hc with rfl | rfl | rfl
  · cases xs
    exact ⟨.wildcard, by simp only [NodePattern.rv, rvs, RT.rv, TName.rv, vecRv, wNodeAddressType_eq, wNodeTypeMapEntry_eq, wNodeTypeMapValueAllowingTypeArguments_eq, wNodeScillaType_eq, wNodeTypeMapKey_eq, wNodeTypeMapValue_eq, wNodeTypeArgument_eq, wNodeAddressTypeField_eq, wNodeTypeMapValueArguments_eq, wNodeArgumentPattern_eq, wNodePattern_eq, wNodeFullExpression_eq, wNodePatternMatchExpressionClause_eq, wNodeStatementBlock_eq, wNodePatternMatchClause_eq, lWNodeTypeArgument_eq, lWNodeAddressTypeField_eq, lWNodeTypeMapValueArguments_eq, lWNodeArgumentPattern_eq, lWNodePatternMatchExpressionClause_eq, lWNodePatternMatchClause_eq, lNodeStatement_eq, oWNodeStatementBlock_eq]⟩
  · obtain ⟨x0, _⟩ := xs
    exact ⟨.binder x0, by simp only [NodePattern.rv, rvs, RT.rv, TName.rv, vecRv, wNodeAddressType_eq, wNodeTypeMapEntry_eq, wNodeTypeMapValueAllowingTypeArguments_eq, wNodeScillaType_eq, wNodeTypeMapKey_eq, wNodeTypeMapValue_eq, wNodeTypeArgument_eq, wNodeAddressTypeField_eq, wNodeTypeMapValueArguments_eq, wNodeArgumentPattern_eq, wNodePattern_eq, wNodeFullExpression_eq, wNodePatternMatchExpressionClause_eq, wNodeStatementBlock_eq, wNodePatternMatchClause_eq, lWNodeTypeArgument_eq, lWNodeAddressTypeField_eq, lWNodeTypeMapValueArguments_eq, lWNodeArgumentPattern_eq, lWNodePatternMatchExpressionClause_eq, lWNodePatternMatchClause_eq, lNodeStatement_eq, oWNodeStatementBlock_eq]⟩
  · obtain ⟨x0, x1, _⟩ := xs
    exact ⟨.constructor x0 x1, by simp only [NodePattern.rv, rvs, RT.rv, TName.rv, vecRv, wNodeAddressType_eq, wNodeTypeMapEntry_eq, wNodeTypeMapValueAllowingTypeArguments_eq, wNodeScillaType_eq, wNodeTypeMapKey_eq, wNodeTypeMapValue_eq, wNodeTypeArgument_eq, wNodeAddressTypeField_eq, wNodeTypeMapValueArguments_eq, wNodeArgumentPattern_eq, wNodePattern_eq, wNodeFullExpression_eq, wNodePatternMatchExpressionClause_eq, wNodeStatementBlock_eq, wNodePatternMatchClause_eq, lWNodeTypeArgument_eq, lWNodeAddressTypeField_eq, lWNodeTypeMapValueArguments_eq, lWNodeArgumentPattern_eq, lWNodePatternMatchExpressionClause_eq, lWNodePatternMatchClause_eq, lNodeStatement_eq, oWNodeStatementBlock_eq]⟩

theorem NodeArgumentPattern.made {c : Variant} (hc : c ∈ TName.variants .NodeArgumentPattern) (xs : Els c.types) :
    ∃ x : NodeArgumentPattern, x.rv = .node c.path c.fields (rvs c.types xs) := by
  simp only [TName.variants, List.mem_cons, List.not_mem_nil, or_false] at hc
  rcases hc with rfl | rfl | rfl | rfl
  · cases xs
    exact ⟨.wildcardArgument, by simp only [NodeArgumentPattern.rv, rvs, RT.rv, TName.rv, vecRv, wNodeAddressType_eq, wNodeTypeMapEntry_eq, wNodeTypeMapValueAllowingTypeArguments_eq, wNodeScillaType_eq, wNodeTypeMapKey_eq, wNodeTypeMapValue_eq, wNodeTypeArgument_eq, wNodeAddressTypeField_eq, wNodeTypeMapValueArguments_eq, wNodeArgumentPattern_eq, wNodePattern_eq, wNodeFullExpression_eq, wNodePatternMatchExpressionClause_eq, wNodeStatementBlock_eq, wNodePatternMatchClause_eq, lWNodeTypeArgument_eq, lWNodeAddressTypeField_eq, lWNodeTypeMapValueArguments_eq, lWNodeArgumentPattern_eq, lWNodePatternMatchExpressionClause_eq, lWNodePatternMatchClause_eq, lNodeStatement_eq, oWNodeStatementBlock_eq]⟩
  · obtain ⟨x0, _⟩ := xs
    exact ⟨.binderArgument x0, by simp only [NodeArgumentPattern.rv, rvs, RT.rv, TName.rv, vecRv, wNodeAddressType_eq, wNodeTypeMapEntry_eq, wNodeTypeMapValueAllowingTypeArguments_eq, wNodeScillaType_eq, wNodeTypeMapKey_eq, wNodeTypeMapValue_eq, wNodeTypeArgument_eq, wNodeAddressTypeField_eq, wNodeTypeMapValueArguments_eq, wNodeArgumentPattern_eq, wNodePattern_eq, wNodeFullExpression_eq, wNodePatternMatchExpressionClause_eq, wNodeStatementBlock_eq, wNodePatternMatchClause_eq, lWNodeTypeArgument_eq, lWNodeAddressTypeField_eq, lWNodeTypeMapValueArguments_eq, lWNodeArgumentPattern_eq, lWNodePatternMatchExpressionClause_eq, lWNodePatternMatchClause_eq, lNodeStatement_eq, oWNodeStatementBlock_eq]⟩
  · obtain ⟨x0, _⟩ := xs
    exact ⟨.constructorArgument x0, by simp only [NodeArgumentPattern.rv, rvs, RT.rv, TName.rv, vecRv, wNodeAddressType_eq, wNodeTypeMapEntry_eq, wNodeTypeMapValueAllowingTypeArguments_eq, wNodeScillaType_eq, wNodeTypeMapKey_eq, wNodeTypeMapValue_eq, wNodeTypeArgument_eq, wNodeAddressTypeField_eq, wNodeTypeMapValueArguments_eq, wNodeArgumentPattern_eq, wNodePattern_eq, wNodeFullExpression_eq, wNodePatternMatchExpressionClause_eq, wNodeStatementBlock_eq, wNodePatternMatchClause_eq, lWNodeTypeArgument_eq, lWNodeAddressTypeField_eq, lWNodeTypeMapValueArguments_eq, lWNodeArgumentPattern_eq, lWNodePatternMatchExpressionClause_eq, lWNodePatternMatchClause_eq, lNodeStatement_eq, oWNodeStatementBlock_eq]⟩
  · obtain ⟨x0, _⟩ := xs
    exact ⟨.patternArgument x0, by simp only [NodeArgumentPattern.rv, rvs, RT.rv, TName.rv, vecRv, wNodeAddressType_eq, wNodeTypeMapEntry_eq, wNodeTypeMapValueAllowingTypeArguments_eq, wNodeScillaType_eq, wNodeTypeMapKey_eq, wNodeTypeMapValue_eq, wNodeTypeArgument_eq, wNodeAddressTypeField_eq, wNodeTypeMapValueArguments_eq, wNodeArgumentPattern_eq, wNodePattern_eq, wNodeFullExpression_eq, wNodePatternMatchExpressionClause_eq, wNodeStatementBlock_eq, wNodePatternMatchClause_eq, lWNodeTypeArgument_eq, lWNodeAddressTypeField_eq, lWNodeTypeMapValueArguments_eq, lWNodeArgumentPattern_eq, lWNodePatternMatchExpressionClause_eq, lWNodePatternMatchClause_eq, lNodeStatement_eq, oWNodeStatementBlock_eq]⟩

theorem NodePatternMatchClause.made {c : Variant} (hc : c ∈ TName.variants .NodePatternMatchClause) (xs : Els c.types) :
    ∃ x : NodePatternMatchClause, x.rv = .node c.path c.fields (rvs c.types xs) := by
  simp only [TName.variants, List.mem_cons, List.not_mem_nil, or_false] at hc
  rcases hc with rfl
  · obtain ⟨x0, x1, _⟩ := xs
    exact ⟨⟨x0, x1⟩, by simp only [NodePatternMatchClause.rv, rvs, RT.rv, TName.rv, vecRv, wNodeAddressType_eq, wNodeTypeMapEntry_eq, wNodeTypeMapValueAllowingTypeArguments_eq, wNodeScillaType_eq, wNodeTypeMapKey_eq, wNodeTypeMapValue_eq, wNodeTypeArgument_eq, wNodeAddressTypeField_eq, wNodeTypeMapValueArguments_eq, wNodeArgumentPattern_eq, wNodePattern_eq, wNodeFullExpression_eq, wNodePatternMatchExpressionClause_eq, wNodeStatementBlock_eq, wNodePatternMatchClause_eq, lWNodeTypeArgument_eq, lWNodeAddressTypeField_eq, lWNodeTypeMapValueArguments_eq, lWNodeArgumentPattern_eq, lWNodePatternMatchExpressionClause_eq, lWNodePatternMatchClause_eq, lNodeStatement_eq, oWNodeStatementBlock_eq]⟩

theorem NodeBlockchainFetchArguments.made {c : Variant} (hc : c ∈ TName.variants .NodeBlockchainFetchArguments) (xs : Els c.types) :
    ∃ x : NodeBlockchainFetchArguments, x.rv = .node c.path c.fields (rvs c.types xs) := by
  simp only [TName.variants, List.mem_cons, List.not_mem_nil, or_false] at hc
  rcases hc with rfl
  · obtain ⟨x0, _⟩ := xs
    exact ⟨⟨x0⟩, by simp only [NodeBlockchainFetchArguments.rv, rvs, RT.rv, TName.rv, vecRv, wNodeAddressType_eq, wNodeTypeMapEntry_eq, wNodeTypeMapValueAllowingTypeArguments_eq, wNodeScillaType_eq, wNodeTypeMapKey_eq, wNodeTypeMapValue_eq, wNodeTypeArgument_eq, wNodeAddressTypeField_eq, wNodeTypeMapValueArguments_eq, wNodeArgumentPattern_eq, wNodePattern_eq, wNodeFullExpression_eq, wNodePatternMatchExpressionClause_eq, wNodeStatementBlock_eq, wNodePatternMatchClause_eq, lWNodeTypeArgument_eq, lWNodeAddressTypeField_eq, lWNodeTypeMapValueArguments_eq, lWNodeArgumentPattern_eq, lWNodePatternMatchExpressionClause_eq, lWNodePatternMatchClause_eq, lNodeStatement_eq, oWNodeStatementBlock_eq]⟩

theorem NodeStatement.made {c : Variant} (hc : c ∈ TName.variants .NodeStatement) (xs : Els c.types) :
    ∃ x : NodeStatement, x.rv = .node c.path c.fields (rvs c.types xs) := by
  simp only [TName.variants, List.mem_cons, List.not_mem_nil, or_false] at hc
  rcases hc with rfl | rfl | rfl | rfl | rfl | rfl | rfl | rfl | rfl | rfl | rfl | rfl | rfl | rfl | rfl | rfl
  · obtain ⟨x0, x1, _⟩ := xs
    exact ⟨.load x0 x1, by simp only [NodeStatement.rv, rvs, RT.rv, TName.rv, vecRv, wNodeAddressType_eq, wNodeTypeMapEntry_eq, wNodeTypeMapValueAllowingTypeArguments_eq, wNodeScillaType_eq, wNodeTypeMapKey_eq, wNodeTypeMapValue_eq, wNodeTypeArgument_eq, wNodeAddressTypeField_eq, wNodeTypeMapValueArguments_eq, wNodeArgumentPattern_eq, wNodePattern_eq, wNodeFullExpression_eq, wNodePatternMatchExpressionClause_eq, wNodeStatementBlock_eq, wNodePatternMatchClause_eq, lWNodeTypeArgument_eq, lWNodeAddressTypeField_eq, lWNodeTypeMapValueArguments_eq, lWNodeArgumentPattern_eq, lWNodePatternMatchExpressionClause_eq, lWNodePatternMatchClause_eq, lNodeStatement_eq, oWNodeStatementBlock_eq]⟩
  · obtain ⟨x0, _⟩ := xs
    exact ⟨.remoteFetch x0, by simp only [NodeStatement.rv, rvs, RT.rv, TName.rv, vecRv, wNodeAddressType_eq, wNodeTypeMapEntry_eq, wNodeTypeMapValueAllowingTypeArguments_eq, wNodeScillaType_eq, wNodeTypeMapKey_eq, wNodeTypeMapValue_eq, wNodeTypeArgument_eq, wNodeAddressTypeField_eq, wNodeTypeMapValueArguments_eq, wNodeArgumentPattern_eq, wNodePattern_eq, wNodeFullExpression_eq, wNodePatternMatchExpressionClause_eq, wNodeStatementBlock_eq, wNodePatternMatchClause_eq, lWNodeTypeArgument_eq, lWNodeAddressTypeField_eq, lWNodeTypeMapValueArguments_eq, lWNodeArgumentPattern_eq, lWNodePatternMatchExpressionClause_eq, lWNodePatternMatchClause_eq, lNodeStatement_eq, oWNodeStatementBlock_eq]⟩
  · obtain ⟨x0, x1, _⟩ := xs
    exact ⟨.store x0 x1, by simp only [NodeStatement.rv, rvs, RT.rv, TName.rv, vecRv, wNodeAddressType_eq, wNodeTypeMapEntry_eq, wNodeTypeMapValueAllowingTypeArguments_eq, wNodeScillaType_eq, wNodeTypeMapKey_eq, wNodeTypeMapValue_eq, wNodeTypeArgument_eq, wNodeAddressTypeField_eq, wNodeTypeMapValueArguments_eq, wNodeArgumentPattern_eq, wNodePattern_eq, wNodeFullExpression_eq, wNodePatternMatchExpressionClause_eq, wNodeStatementBlock_eq, wNodePatternMatchClause_eq, lWNodeTypeArgument_eq, lWNodeAddressTypeField_eq, lWNodeTypeMapValueArguments_eq, lWNodeArgumentPattern_eq, lWNodePatternMatchExpressionClause_eq, lWNodePatternMatchClause_eq, lNodeStatement_eq, oWNodeStatementBlock_eq]⟩
  · obtain ⟨x0, x1, _⟩ := xs
    exact ⟨.bind x0 x1, by simp only [NodeStatement.rv, rvs, RT.rv, TName.rv, vecRv, wNodeAddressType_eq, wNodeTypeMapEntry_eq, wNodeTypeMapValueAllowingTypeArguments_eq, wNodeScillaType_eq, wNodeTypeMapKey_eq, wNodeTypeMapValue_eq, wNodeTypeArgument_eq, wNodeAddressTypeField_eq, wNodeTypeMapValueArguments_eq, wNodeArgumentPattern_eq, wNodePattern_eq, wNodeFullExpression_eq, wNodePatternMatchExpressionClause_eq, wNodeStatementBlock_eq, wNodePatternMatchClause_eq, lWNodeTypeArgument_eq, lWNodeAddressTypeField_eq, lWNodeTypeMapValueArguments_eq, lWNodeArgumentPattern_eq, lWNodePatternMatchExpressionClause_eq, lWNodePatternMatchClause_eq, lNodeStatement_eq, oWNodeStatementBlock_eq]⟩
  · obtain ⟨x0, x1, x2, _⟩ := xs
    exact ⟨.readFromBC x0 x1 x2, by simp only [NodeStatement.rv, rvs, RT.rv, TName.rv, vecRv, wNodeAddressType_eq, wNodeTypeMapEntry_eq, wNodeTypeMapValueAllowingTypeArguments_eq, wNodeScillaType_eq, wNodeTypeMapKey_eq, wNodeTypeMapValue_eq, wNodeTypeArgument_eq, wNodeAddressTypeField_eq, wNodeTypeMapValueArguments_eq, wNodeArgumentPattern_eq, wNodePattern_eq, wNodeFullExpression_eq, wNodePatternMatchExpressionClause_eq, wNodeStatementBlock_eq, wNodePatternMatchClause_eq, lWNodeTypeArgument_eq, lWNodeAddressTypeField_eq, lWNodeTypeMapValueArguments_eq, lWNodeArgumentPattern_eq, lWNodePatternMatchExpressionClause_eq, lWNodePatternMatchClause_eq, lNodeStatement_eq, oWNodeStatementBlock_eq]⟩
  · obtain ⟨x0, x1, x2, _⟩ := xs
    exact ⟨.mapGet x0 x1 x2, by simp only [NodeStatement.rv, rvs, RT.rv, TName.rv, vecRv, wNodeAddressType_eq, wNodeTypeMapEntry_eq, wNodeTypeMapValueAllowingTypeArguments_eq, wNodeScillaType_eq, wNodeTypeMapKey_eq, wNodeTypeMapValue_eq, wNodeTypeArgument_eq, wNodeAddressTypeField_eq, wNodeTypeMapValueArguments_eq, wNodeArgumentPattern_eq, wNodePattern_eq, wNodeFullExpression_eq, wNodePatternMatchExpressionClause_eq, wNodeStatementBlock_eq, wNodePatternMatchClause_eq, lWNodeTypeArgument_eq, lWNodeAddressTypeField_eq, lWNodeTypeMapValueArguments_eq, lWNodeArgumentPattern_eq, lWNodePatternMatchExpressionClause_eq, lWNodePatternMatchClause_eq, lNodeStatement_eq, oWNodeStatementBlock_eq]⟩
  · obtain ⟨x0, x1, x2, _⟩ := xs
    exact ⟨.mapGetExists x0 x1 x2, by simp only [NodeStatement.rv, rvs, RT.rv, TName.rv, vecRv, wNodeAddressType_eq, wNodeTypeMapEntry_eq, wNodeTypeMapValueAllowingTypeArguments_eq, wNodeScillaType_eq, wNodeTypeMapKey_eq, wNodeTypeMapValue_eq, wNodeTypeArgument_eq, wNodeAddressTypeField_eq, wNodeTypeMapValueArguments_eq, wNodeArgumentPattern_eq, wNodePattern_eq, wNodeFullExpression_eq, wNodePatternMatchExpressionClause_eq, wNodeStatementBlock_eq, wNodePatternMatchClause_eq, lWNodeTypeArgument_eq, lWNodeAddressTypeField_eq, lWNodeTypeMapValueArguments_eq, lWNodeArgumentPattern_eq, lWNodePatternMatchExpressionClause_eq, lWNodePatternMatchClause_eq, lNodeStatement_eq, oWNodeStatementBlock_eq]⟩
  · obtain ⟨x0, x1, x2, _⟩ := xs
    exact ⟨.mapUpdate x0 x1 x2, by simp only [NodeStatement.rv, rvs, RT.rv, TName.rv, vecRv, wNodeAddressType_eq, wNodeTypeMapEntry_eq, wNodeTypeMapValueAllowingTypeArguments_eq, wNodeScillaType_eq, wNodeTypeMapKey_eq, wNodeTypeMapValue_eq, wNodeTypeArgument_eq, wNodeAddressTypeField_eq, wNodeTypeMapValueArguments_eq, wNodeArgumentPattern_eq, wNodePattern_eq, wNodeFullExpression_eq, wNodePatternMatchExpressionClause_eq, wNodeStatementBlock_eq, wNodePatternMatchClause_eq, lWNodeTypeArgument_eq, lWNodeAddressTypeField_eq, lWNodeTypeMapValueArguments_eq, lWNodeArgumentPattern_eq, lWNodePatternMatchExpressionClause_eq, lWNodePatternMatchClause_eq, lNodeStatement_eq, oWNodeStatementBlock_eq]⟩
  · obtain ⟨x0, x1, _⟩ := xs
    exact ⟨.mapUpdateDelete x0 x1, by simp only [NodeStatement.rv, rvs, RT.rv, TName.rv, vecRv, wNodeAddressType_eq, wNodeTypeMapEntry_eq, wNodeTypeMapValueAllowingTypeArguments_eq, wNodeScillaType_eq, wNodeTypeMapKey_eq, wNodeTypeMapValue_eq, wNodeTypeArgument_eq, wNodeAddressTypeField_eq, wNodeTypeMapValueArguments_eq, wNodeArgumentPattern_eq, wNodePattern_eq, wNodeFullExpression_eq, wNodePatternMatchExpressionClause_eq, wNodeStatementBlock_eq, wNodePatternMatchClause_eq, lWNodeTypeArgument_eq, lWNodeAddressTypeField_eq, lWNodeTypeMapValueArguments_eq, lWNodeArgumentPattern_eq, lWNodePatternMatchExpressionClause_eq, lWNodePatternMatchClause_eq, lNodeStatement_eq, oWNodeStatementBlock_eq]⟩
  · cases xs
    exact ⟨.accept, by simp only [NodeStatement.rv, rvs, RT.rv, TName.rv, vecRv, wNodeAddressType_eq, wNodeTypeMapEntry_eq, wNodeTypeMapValueAllowingTypeArguments_eq, wNodeScillaType_eq, wNodeTypeMapKey_eq, wNodeTypeMapValue_eq, wNodeTypeArgument_eq, wNodeAddressTypeField_eq, wNodeTypeMapValueArguments_eq, wNodeArgumentPattern_eq, wNodePattern_eq, wNodeFullExpression_eq, wNodePatternMatchExpressionClause_eq, wNodeStatementBlock_eq, wNodePatternMatchClause_eq, lWNodeTypeArgument_eq, lWNodeAddressTypeField_eq, lWNodeTypeMapValueArguments_eq, lWNodeArgumentPattern_eq, lWNodePatternMatchExpressionClause_eq, lWNodePatternMatchClause_eq, lNodeStatement_eq, oWNodeStatementBlock_eq]⟩
  · obtain ⟨x0, _⟩ := xs
    exact ⟨.send x0, by simp only [NodeStatement.rv, rvs, RT.rv, TName.rv, vecRv, wNodeAddressType_eq, wNodeTypeMapEntry_eq, wNodeTypeMapValueAllowingTypeArguments_eq, wNodeScillaType_eq, wNodeTypeMapKey_eq, wNodeTypeMapValue_eq, wNodeTypeArgument_eq, wNodeAddressTypeField_eq, wNodeTypeMapValueArguments_eq, wNodeArgumentPattern_eq, wNodePattern_eq, wNodeFullExpression_eq, wNodePatternMatchExpressionClause_eq, wNodeStatementBlock_eq, wNodePatternMatchClause_eq, lWNodeTypeArgument_eq, lWNodeAddressTypeField_eq, lWNodeTypeMapValueArguments_eq, lWNodeArgumentPattern_eq, lWNodePatternMatchExpressionClause_eq, lWNodePatternMatchClause_eq, lNodeStatement_eq, oWNodeStatementBlock_eq]⟩
  · obtain ⟨x0, _⟩ := xs
    exact ⟨.createEvnt x0, by simp only [NodeStatement.rv, rvs, RT.rv, TName.rv, vecRv, wNodeAddressType_eq, wNodeTypeMapEntry_eq, wNodeTypeMapValueAllowingTypeArguments_eq, wNodeScillaType_eq, wNodeTypeMapKey_eq, wNodeTypeMapValue_eq, wNodeTypeArgument_eq, wNodeAddressTypeField_eq, wNodeTypeMapValueArguments_eq, wNodeArgumentPattern_eq, wNodePattern_eq, wNodeFullExpression_eq, wNodePatternMatchExpressionClause_eq, wNodeStatementBlock_eq, wNodePatternMatchClause_eq, lWNodeTypeArgument_eq, lWNodeAddressTypeField_eq, lWNodeTypeMapValueArguments_eq, lWNodeArgumentPattern_eq, lWNodePatternMatchExpressionClause_eq, lWNodePatternMatchClause_eq, lNodeStatement_eq, oWNodeStatementBlock_eq]⟩
  · obtain ⟨x0, _⟩ := xs
    exact ⟨.throw x0, by simp only [NodeStatement.rv, rvs, RT.rv, TName.rv, vecRv, wNodeAddressType_eq, wNodeTypeMapEntry_eq, wNodeTypeMapValueAllowingTypeArguments_eq, wNodeScillaType_eq, wNodeTypeMapKey_eq, wNodeTypeMapValue_eq, wNodeTypeArgument_eq, wNodeAddressTypeField_eq, wNodeTypeMapValueArguments_eq, wNodeArgumentPattern_eq, wNodePattern_eq, wNodeFullExpression_eq, wNodePatternMatchExpressionClause_eq, wNodeStatementBlock_eq, wNodePatternMatchClause_eq, lWNodeTypeArgument_eq, lWNodeAddressTypeField_eq, lWNodeTypeMapValueArguments_eq, lWNodeArgumentPattern_eq, lWNodePatternMatchExpressionClause_eq, lWNodePatternMatchClause_eq, lNodeStatement_eq, oWNodeStatementBlock_eq]⟩
  · obtain ⟨x0, x1, _⟩ := xs
    exact ⟨.matchStmt x0 x1, by simp only [NodeStatement.rv, rvs, RT.rv, TName.rv, vecRv, wNodeAddressType_eq, wNodeTypeMapEntry_eq, wNodeTypeMapValueAllowingTypeArguments_eq, wNodeScillaType_eq, wNodeTypeMapKey_eq, wNodeTypeMapValue_eq, wNodeTypeArgument_eq, wNodeAddressTypeField_eq, wNodeTypeMapValueArguments_eq, wNodeArgumentPattern_eq, wNodePattern_eq, wNodeFullExpression_eq, wNodePatternMatchExpressionClause_eq, wNodeStatementBlock_eq, wNodePatternMatchClause_eq, lWNodeTypeArgument_eq, lWNodeAddressTypeField_eq, lWNodeTypeMapValueArguments_eq, lWNodeArgumentPattern_eq, lWNodePatternMatchExpressionClause_eq, lWNodePatternMatchClause_eq, lNodeStatement_eq, oWNodeStatementBlock_eq]⟩
  · obtain ⟨x0, x1, _⟩ := xs
    exact ⟨.callProc x0 x1, by simp only [NodeStatement.rv, rvs, RT.rv, TName.rv, vecRv, wNodeAddressType_eq, wNodeTypeMapEntry_eq, wNodeTypeMapValueAllowingTypeArguments_eq, wNodeScillaType_eq, wNodeTypeMapKey_eq, wNodeTypeMapValue_eq, wNodeTypeArgument_eq, wNodeAddressTypeField_eq, wNodeTypeMapValueArguments_eq, wNodeArgumentPattern_eq, wNodePattern_eq, wNodeFullExpression_eq, wNodePatternMatchExpressionClause_eq, wNodeStatementBlock_eq, wNodePatternMatchClause_eq, lWNodeTypeArgument_eq, lWNodeAddressTypeField_eq, lWNodeTypeMapValueArguments_eq, lWNodeArgumentPattern_eq, lWNodePatternMatchExpressionClause_eq, lWNodePatternMatchClause_eq, lNodeStatement_eq, oWNodeStatementBlock_eq]⟩
  · obtain ⟨x0, x1, _⟩ := xs
    exact ⟨.iterate x0 x1, by simp only [NodeStatement.rv, rvs, RT.rv, TName.rv, vecRv, wNodeAddressType_eq, wNodeTypeMapEntry_eq, wNodeTypeMapValueAllowingTypeArguments_eq, wNodeScillaType_eq, wNodeTypeMapKey_eq, wNodeTypeMapValue_eq, wNodeTypeArgument_eq, wNodeAddressTypeField_eq, wNodeTypeMapValueArguments_eq, wNodeArgumentPattern_eq, wNodePattern_eq, wNodeFullExpression_eq, wNodePatternMatchExpressionClause_eq, wNodeStatementBlock_eq, wNodePatternMatchClause_eq, lWNodeTypeArgument_eq, lWNodeAddressTypeField_eq, lWNodeTypeMapValueArguments_eq, lWNodeArgumentPattern_eq, lWNodePatternMatchExpressionClause_eq, lWNodePatternMatchClause_eq, lNodeStatement_eq, oWNodeStatementBlock_eq]⟩

theorem NodeRemoteFetchStatement.made {c : Variant} (hc : c ∈ TName.variants .NodeRemoteFetchStatement) (xs : Els c.types) :
    ∃ x : NodeRemoteFetchStatement, x.rv = .node c.path c.fields (rvs c.types xs) := by
  simp only [TName.variants, List.mem_cons, List.not_mem_nil, or_false] at hc
  rcases hc with rfl | rfl | rfl | rfl | rfl
  · obtain ⟨x0, x1, x2, _⟩ := xs
    exact ⟨.readStateMutable x0 x1 x2, by simp only [NodeRemoteFetchStatement.rv, rvs, RT.rv, TName.rv, vecRv, wNodeAddressType_eq, wNodeTypeMapEntry_eq, wNodeTypeMapValueAllowingTypeArguments_eq, wNodeScillaType_eq, wNodeTypeMapKey_eq, wNodeTypeMapValue_eq, wNodeTypeArgument_eq, wNodeAddressTypeField_eq, wNodeTypeMapValueArguments_eq, wNodeArgumentPattern_eq, wNodePattern_eq, wNodeFullExpression_eq, wNodePatternMatchExpressionClause_eq, wNodeStatementBlock_eq, wNodePatternMatchClause_eq, lWNodeTypeArgument_eq, lWNodeAddressTypeField_eq, lWNodeTypeMapValueArguments_eq, lWNodeArgumentPattern_eq, lWNodePatternMatchExpressionClause_eq, lWNodePatternMatchClause_eq, lNodeStatement_eq, oWNodeStatementBlock_eq]⟩
  · obtain ⟨x0, x1, x2, _⟩ := xs
    exact ⟨.readStateMutableSpecialId x0 x1 x2, by simp only [NodeRemoteFetchStatement.rv, rvs, RT.rv, TName.rv, vecRv, wNodeAddressType_eq, wNodeTypeMapEntry_eq, wNodeTypeMapValueAllowingTypeArguments_eq, wNodeScillaType_eq, wNodeTypeMapKey_eq, wNodeTypeMapValue_eq, wNodeTypeArgument_eq, wNodeAddressTypeField_eq, wNodeTypeMapValueArguments_eq, wNodeArgumentPattern_eq, wNodePattern_eq, wNodeFullExpression_eq, wNodePatternMatchExpressionClause_eq, wNodeStatementBlock_eq, wNodePatternMatchClause_eq, lWNodeTypeArgument_eq, lWNodeAddressTypeField_eq, lWNodeTypeMapValueArguments_eq, lWNodeArgumentPattern_eq, lWNodePatternMatchExpressionClause_eq, lWNodePatternMatchClause_eq, lNodeStatement_eq, oWNodeStatementBlock_eq]⟩
  · obtain ⟨x0, x1, x2, x3, _⟩ := xs
    exact ⟨.readStateMutableMapAccess x0 x1 x2 x3, by simp only [NodeRemoteFetchStatement.rv, rvs, RT.rv, TName.rv, vecRv, wNodeAddressType_eq, wNodeTypeMapEntry_eq, wNodeTypeMapValueAllowingTypeArguments_eq, wNodeScillaType_eq, wNodeTypeMapKey_eq, wNodeTypeMapValue_eq, wNodeTypeArgument_eq, wNodeAddressTypeField_eq, wNodeTypeMapValueArguments_eq, wNodeArgumentPattern_eq, wNodePattern_eq, wNodeFullExpression_eq, wNodePatternMatchExpressionClause_eq, wNodeStatementBlock_eq, wNodePatternMatchClause_eq, lWNodeTypeArgument_eq, lWNodeAddressTypeField_eq, lWNodeTypeMapValueArguments_eq, lWNodeArgumentPattern_eq, lWNodePatternMatchExpressionClause_eq, lWNodePatternMatchClause_eq, lNodeStatement_eq, oWNodeStatementBlock_eq]⟩
  · obtain ⟨x0, x1, x2, x3, _⟩ := xs
    exact ⟨.readStateMutableMapAccessExists x0 x1 x2 x3, by simp only [NodeRemoteFetchStatement.rv, rvs, RT.rv, TName.rv, vecRv, wNodeAddressType_eq, wNodeTypeMapEntry_eq, wNodeTypeMapValueAllowingTypeArguments_eq, wNodeScillaType_eq, wNodeTypeMapKey_eq, wNodeTypeMapValue_eq, wNodeTypeArgument_eq, wNodeAddressTypeField_eq, wNodeTypeMapValueArguments_eq, wNodeArgumentPattern_eq, wNodePattern_eq, wNodeFullExpression_eq, wNodePatternMatchExpressionClause_eq, wNodeStatementBlock_eq, wNodePatternMatchClause_eq, lWNodeTypeArgument_eq, lWNodeAddressTypeField_eq, lWNodeTypeMapValueArguments_eq, lWNodeArgumentPattern_eq, lWNodePatternMatchExpressionClause_eq, lWNodePatternMatchClause_eq, lNodeStatement_eq, oWNodeStatementBlock_eq]⟩
  · obtain ⟨x0, x1, x2, _⟩ := xs
    exact ⟨.readStateMutableCastAddress x0 x1 x2, by simp only [NodeRemoteFetchStatement.rv, rvs, RT.rv, TName.rv, vecRv, wNodeAddressType_eq, wNodeTypeMapEntry_eq, wNodeTypeMapValueAllowingTypeArguments_eq, wNodeScillaType_eq, wNodeTypeMapKey_eq, wNodeTypeMapValue_eq, wNodeTypeArgument_eq, wNodeAddressTypeField_eq, wNodeTypeMapValueArguments_eq, wNodeArgumentPattern_eq, wNodePattern_eq, wNodeFullExpression_eq, wNodePatternMatchExpressionClause_eq, wNodeStatementBlock_eq, wNodePatternMatchClause_eq, lWNodeTypeArgument_eq, lWNodeAddressTypeField_eq, lWNodeTypeMapValueArguments_eq, lWNodeArgumentPattern_eq, lWNodePatternMatchExpressionClause_eq, lWNodePatternMatchClause_eq, lNodeStatement_eq, oWNodeStatementBlock_eq]⟩

theorem NodeComponentId.made {c : Variant} (hc : c ∈ TName.variants .NodeComponentId) (xs : Els c.types) :
    ∃ x : NodeComponentId, x.rv = .node c.path c.fields (rvs c.types xs) := by
  simp only [TName.variants, List.mem_cons, List.not_mem_nil, or_false] at hc
  rcases hc with rfl | rfl
  · obtain ⟨x0, _⟩ := xs
    exact ⟨.withTypeLikeName x0, by simp only [NodeComponentId.rv, rvs, RT.rv, TName.rv, vecRv, wNodeAddressType_eq, wNodeTypeMapEntry_eq, wNodeTypeMapValueAllowingTypeArguments_eq, wNodeScillaType_eq, wNodeTypeMapKey_eq, wNodeTypeMapValue_eq, wNodeTypeArgument_eq, wNodeAddressTypeField_eq, wNodeTypeMapValueArguments_eq, wNodeArgumentPattern_eq, wNodePattern_eq, wNodeFullExpression_eq, wNodePatternMatchExpressionClause_eq, wNodeStatementBlock_eq, wNodePatternMatchClause_eq, lWNodeTypeArgument_eq, lWNodeAddressTypeField_eq, lWNodeTypeMapValueArguments_eq, lWNodeArgumentPattern_eq, lWNodePatternMatchExpressionClause_eq, lWNodePatternMatchClause_eq, lNodeStatement_eq, oWNodeStatementBlock_eq]⟩
  · obtain ⟨x0, _⟩ := xs
    exact ⟨.withRegularId x0, by simp only [NodeComponentId.rv, rvs, RT.rv, TName.rv, vecRv, wNodeAddressType_eq, wNodeTypeMapEntry_eq, wNodeTypeMapValueAllowingTypeArguments_eq, wNodeScillaType_eq, wNodeTypeMapKey_eq, wNodeTypeMapValue_eq, wNodeTypeArgument_eq, wNodeAddressTypeField_eq, wNodeTypeMapValueArguments_eq, wNodeArgumentPattern_eq, wNodePattern_eq, wNodeFullExpression_eq, wNodePatternMatchExpressionClause_eq, wNodeStatementBlock_eq, wNodePatternMatchClause_eq, lWNodeTypeArgument_eq, lWNodeAddressTypeField_eq, lWNodeTypeMapValueArguments_eq, lWNodeArgumentPattern_eq, lWNodePatternMatchExpressionClause_eq, lWNodePatternMatchClause_eq, lNodeStatement_eq, oWNodeStatementBlock_eq]⟩

theorem NodeComponentParameters.made {c : Variant} (hc : c ∈ TName.variants .NodeComponentParameters) (xs : Els c.types) :
    ∃ x : NodeComponentParameters, x.rv = .node c.path c.fields (rvs c.types xs) := by
  simp only [TName.variants, List.mem_cons, List.not_mem_nil, or_false] at hc
  rcases hc with rfl
  · obtain ⟨x0, _⟩ := xs
    exact ⟨⟨x0⟩, by simp only [NodeComponentParameters.rv, rvs, RT.rv, TName.rv, vecRv, wNodeAddressType_eq, wNodeTypeMapEntry_eq, wNodeTypeMapValueAllowingTypeArguments_eq, wNodeScillaType_eq, wNodeTypeMapKey_eq, wNodeTypeMapValue_eq, wNodeTypeArgument_eq, wNodeAddressTypeField_eq, wNodeTypeMapValueArguments_eq, wNodeArgumentPattern_eq, wNodePattern_eq, wNodeFullExpression_eq, wNodePatternMatchExpressionClause_eq, wNodeStatementBlock_eq, wNodePatternMatchClause_eq, lWNodeTypeArgument_eq, lWNodeAddressTypeField_eq, lWNodeTypeMapValueArguments_eq, lWNodeArgumentPattern_eq, lWNodePatternMatchExpressionClause_eq, lWNodePatternMatchClause_eq, lNodeStatement_eq, oWNodeStatementBlock_eq]⟩

theorem NodeParameterPair.made {c : Variant} (hc : c ∈ TName.variants .NodeParameterPair) (xs : Els c.types) :
    ∃ x : NodeParameterPair, x.rv = .node c.path c.fields (rvs c.types xs) := by
  simp only [TName.variants, List.mem_cons, List.not_mem_nil, or_false] at hc
  rcases hc with rfl
  · obtain ⟨x0, _⟩ := xs
    exact ⟨⟨x0⟩, by simp only [NodeParameterPair.rv, rvs, RT.rv, TName.rv, vecRv, wNodeAddressType_eq, wNodeTypeMapEntry_eq, wNodeTypeMapValueAllowingTypeArguments_eq, wNodeScillaType_eq, wNodeTypeMapKey_eq, wNodeTypeMapValue_eq, wNodeTypeArgument_eq, wNodeAddressTypeField_eq, wNodeTypeMapValueArguments_eq, wNodeArgumentPattern_eq, wNodePattern_eq, wNodeFullExpression_eq, wNodePatternMatchExpressionClause_eq, wNodeStatementBlock_eq, wNodePatternMatchClause_eq, lWNodeTypeArgument_eq, lWNodeAddressTypeField_eq, lWNodeTypeMapValueArguments_eq, lWNodeArgumentPattern_eq, lWNodePatternMatchExpressionClause_eq, lWNodePatternMatchClause_eq, lNodeStatement_eq, oWNodeStatementBlock_eq]⟩

theorem NodeComponentBody.made {c : Variant} (hc : c ∈ TName.variants .NodeComponentBody) (xs : Els c.types) :
    ∃ x : NodeComponentBody, x.rv = .node c.path c.fields (rvs c.types xs) := by
  simp only [TName.variants, List.mem_cons, List.not_mem_nil, or_false] at hc
  rcases hc with rfl
  · obtain ⟨x0, _⟩ := xs
    exact ⟨⟨x0⟩, by simp only [NodeComponentBody.rv, rvs, RT.rv, TName.rv, vecRv, wNodeAddressType_eq, wNodeTypeMapEntry_eq, wNodeTypeMapValueAllowingTypeArguments_eq, wNodeScillaType_eq, wNodeTypeMapKey_eq, wNodeTypeMapValue_eq, wNodeTypeArgument_eq, wNodeAddressTypeField_eq, wNodeTypeMapValueArguments_eq, wNodeArgumentPattern_eq, wNodePattern_eq, wNodeFullExpression_eq, wNodePatternMatchExpressionClause_eq, wNodeStatementBlock_eq, wNodePatternMatchClause_eq, lWNodeTypeArgument_eq, lWNodeAddressTypeField_eq, lWNodeTypeMapValueArguments_eq, lWNodeArgumentPattern_eq, lWNodePatternMatchExpressionClause_eq, lWNodePatternMatchClause_eq, lNodeStatement_eq, oWNodeStatementBlock_eq]⟩

theorem NodeStatementBlock.made {c : Variant} (hc : c ∈ TName.variants .NodeStatementBlock) (xs : Els c.types) :
    ∃ x : NodeStatementBlock, x.rv = .node c.path c.fields (rvs c.types xs) := by
  simp only [TName.variants, List.mem_cons, List.not_mem_nil, or_false] at hc
  rcases hc with rfl
  · obtain ⟨x0, _⟩ := xs
    exact ⟨⟨x0⟩, by simp only [NodeStatementBlock.rv, rvs, RT.rv, TName.rv, vecRv, wNodeAddressType_eq, wNodeTypeMapEntry_eq, wNodeTypeMapValueAllowingTypeArguments_eq, wNodeScillaType_eq, wNodeTypeMapKey_eq, wNodeTypeMapValue_eq, wNodeTypeArgument_eq, wNodeAddressTypeField_eq, wNodeTypeMapValueArguments_eq, wNodeArgumentPattern_eq, wNodePattern_eq, wNodeFullExpression_eq, wNodePatternMatchExpressionClause_eq, wNodeStatementBlock_eq, wNodePatternMatchClause_eq, lWNodeTypeArgument_eq, lWNodeAddressTypeField_eq, lWNodeTypeMapValueArguments_eq, lWNodeArgumentPattern_eq, lWNodePatternMatchExpressionClause_eq, lWNodePatternMatchClause_eq, lNodeStatement_eq, oWNodeStatementBlock_eq]⟩

theorem NodeTypedIdentifier.made {c : Variant} (hc : c ∈ TName.variants .NodeTypedIdentifier) (xs : Els c.types) :
    ∃ x : NodeTypedIdentifier, x.rv = .node c.path c.fields (rvs c.types xs) := by
  simp only [TName.variants, List.mem_cons, List.not_mem_nil, or_false] at hc
  rcases hc with rfl
  · obtain ⟨x0, x1, _⟩ := xs
    exact ⟨⟨x0, x1⟩, by simp only [NodeTypedIdentifier.rv, rvs, RT.rv, TName.rv, vecRv, wNodeAddressType_eq, wNodeTypeMapEntry_eq, wNodeTypeMapValueAllowingTypeArguments_eq, wNodeScillaType_eq, wNodeTypeMapKey_eq, wNodeTypeMapValue_eq, wNodeTypeArgument_eq, wNodeAddressTypeField_eq, wNodeTypeMapValueArguments_eq, wNodeArgumentPattern_eq, wNodePattern_eq, wNodeFullExpression_eq, wNodePatternMatchExpressionClause_eq, wNodeStatementBlock_eq, wNodePatternMatchClause_eq, lWNodeTypeArgument_eq, lWNodeAddressTypeField_eq, lWNodeTypeMapValueArguments_eq, lWNodeArgumentPattern_eq, lWNodePatternMatchExpressionClause_eq, lWNodePatternMatchClause_eq, lNodeStatement_eq, oWNodeStatementBlock_eq]⟩

theorem NodeTypeAnnotation.made {c : Variant} (hc : c ∈ TName.variants .NodeTypeAnnotation) (xs : Els c.types) :
    ∃ x : NodeTypeAnnotation, x.rv = .node c.path c.fields (rvs c.types xs) := by
  simp only [TName.variants, List.mem_cons, List.not_mem_nil, or_false] at hc
  rcases hc with rfl
  · obtain ⟨x0, _⟩ := xs
    exact ⟨⟨x0⟩, by simp only [NodeTypeAnnotation.rv, rvs, RT.rv, TName.rv, vecRv, wNodeAddressType_eq, wNodeTypeMapEntry_eq, wNodeTypeMapValueAllowingTypeArguments_eq, wNodeScillaType_eq, wNodeTypeMapKey_eq, wNodeTypeMapValue_eq, wNodeTypeArgument_eq, wNodeAddressTypeField_eq, wNodeTypeMapValueArguments_eq, wNodeArgumentPattern_eq, wNodePattern_eq, wNodeFullExpression_eq, wNodePatternMatchExpressionClause_eq, wNodeStatementBlock_eq, wNodePatternMatchClause_eq, lWNodeTypeArgument_eq, lWNodeAddressTypeField_eq, lWNodeTypeMapValueArguments_eq, lWNodeArgumentPattern_eq, lWNodePatternMatchExpressionClause_eq, lWNodePatternMatchClause_eq, lNodeStatement_eq, oWNodeStatementBlock_eq]⟩

theorem NodeProgram.made {c : Variant} (hc : c ∈ TName.variants .NodeProgram) (xs : Els c.types) :
    ∃ x : NodeProgram, x.rv = .node c.path c.fields (rvs c.types xs) := by
  simp only [TName.variants, List.mem_cons, List.not_mem_nil, or_false] at hc
  rcases hc with rfl
  · obtain ⟨x0, x1, x2, x3, _⟩ := xs
    exact ⟨⟨x0, x1, x2, x3⟩, by simp only [NodeProgram.rv, rvs, RT.rv, TName.rv, vecRv, wNodeAddressType_eq, wNodeTypeMapEntry_eq, wNodeTypeMapValueAllowingTypeArguments_eq, wNodeScillaType_eq, wNodeTypeMapKey_eq, wNodeTypeMapValue_eq, wNodeTypeArgument_eq, wNodeAddressTypeField_eq, wNodeTypeMapValueArguments_eq, wNodeArgumentPattern_eq, wNodePattern_eq, wNodeFullExpression_eq, wNodePatternMatchExpressionClause_eq, wNodeStatementBlock_eq, wNodePatternMatchClause_eq, lWNodeTypeArgument_eq, lWNodeAddressTypeField_eq, lWNodeTypeMapValueArguments_eq, lWNodeArgumentPattern_eq, lWNodePatternMatchExpressionClause_eq, lWNodePatternMatchClause_eq, lNodeStatement_eq, oWNodeStatementBlock_eq]⟩

theorem NodeLibraryDefinition.made {c : Variant} (hc : c ∈ TName.variants .NodeLibraryDefinition) (xs : Els c.types) :
    ∃ x : NodeLibraryDefinition, x.rv = .node c.path c.fields (rvs c.types xs) := by
  simp only [TName.variants, List.mem_cons, List.not_mem_nil, or_false] at hc
  rcases hc with rfl
  · obtain ⟨x0, x1, _⟩ := xs
    exact ⟨⟨x0, x1⟩, by simp only [NodeLibraryDefinition.rv, rvs, RT.rv, TName.rv, vecRv, wNodeAddressType_eq, wNodeTypeMapEntry_eq, wNodeTypeMapValueAllowingTypeArguments_eq, wNodeScillaType_eq, wNodeTypeMapKey_eq, wNodeTypeMapValue_eq, wNodeTypeArgument_eq, wNodeAddressTypeField_eq, wNodeTypeMapValueArguments_eq, wNodeArgumentPattern_eq, wNodePattern_eq, wNodeFullExpression_eq, wNodePatternMatchExpressionClause_eq, wNodeStatementBlock_eq, wNodePatternMatchClause_eq, lWNodeTypeArgument_eq, lWNodeAddressTypeField_eq, lWNodeTypeMapValueArguments_eq, lWNodeArgumentPattern_eq, lWNodePatternMatchExpressionClause_eq, lWNodePatternMatchClause_eq, lNodeStatement_eq, oWNodeStatementBlock_eq]⟩

theorem NodeLibrarySingleDefinition.made {c : Variant} (hc : c ∈ TName.variants .NodeLibrarySingleDefinition) (xs : Els c.types) :
    ∃ x : NodeLibrarySingleDefinition, x.rv = .node c.path c.fields (rvs c.types xs) := by
  simp only [TName.variants, List.mem_cons, List.not_mem_nil, or_false] at hc
  rcases hc with rfl | rfl
  · obtain ⟨x0, x1, x2, _⟩ := xs
    exact ⟨.letDefinition x0 x1 x2, by simp only [NodeLibrarySingleDefinition.rv, rvs, RT.rv, TName.rv, vecRv, wNodeAddressType_eq, wNodeTypeMapEntry_eq, wNodeTypeMapValueAllowingTypeArguments_eq, wNodeScillaType_eq, wNodeTypeMapKey_eq, wNodeTypeMapValue_eq, wNodeTypeArgument_eq, wNodeAddressTypeField_eq, wNodeTypeMapValueArguments_eq, wNodeArgumentPattern_eq, wNodePattern_eq, wNodeFullExpression_eq, wNodePatternMatchExpressionClause_eq, wNodeStatementBlock_eq, wNodePatternMatchClause_eq, lWNodeTypeArgument_eq, lWNodeAddressTypeField_eq, lWNodeTypeMapValueArguments_eq, lWNodeArgumentPattern_eq, lWNodePatternMatchExpressionClause_eq, lWNodePatternMatchClause_eq, lNodeStatement_eq, oWNodeStatementBlock_eq]⟩
  · obtain ⟨x0, x1, _⟩ := xs
    exact ⟨.typeDefinition x0 x1, by simp only [NodeLibrarySingleDefinition.rv, rvs, RT.rv, TName.rv, vecRv, wNodeAddressType_eq, wNodeTypeMapEntry_eq, wNodeTypeMapValueAllowingTypeArguments_eq, wNodeScillaType_eq, wNodeTypeMapKey_eq, wNodeTypeMapValue_eq, wNodeTypeArgument_eq, wNodeAddressTypeField_eq, wNodeTypeMapValueArguments_eq, wNodeArgumentPattern_eq, wNodePattern_eq, wNodeFullExpression_eq, wNodePatternMatchExpressionClause_eq, wNodeStatementBlock_eq, wNodePatternMatchClause_eq, lWNodeTypeArgument_eq, lWNodeAddressTypeField_eq, lWNodeTypeMapValueArguments_eq, lWNodeArgumentPattern_eq, lWNodePatternMatchExpressionClause_eq, lWNodePatternMatchClause_eq, lNodeStatement_eq, oWNodeStatementBlock_eq]⟩

theorem NodeContractDefinition.made {c : Variant} (hc : c ∈ TName.variants .NodeContractDefinition) (xs : Els c.types) :
    ∃ x : NodeContractDefinition, x.rv = .node c.path c.fields (rvs c.types xs) := by
  simp only [TName.variants, List.mem_cons, List.not_mem_nil, or_false] at hc
  rcases hc with rfl
  · obtain ⟨x0, x1, x2, x3, x4, _⟩ := xs
    exact ⟨⟨x0, x1, x2, x3, x4⟩, by simp only [NodeContractDefinition.rv, rvs, RT.rv, TName.rv, vecRv, wNodeAddressType_eq, wNodeTypeMapEntry_eq, wNodeTypeMapValueAllowingTypeArguments_eq, wNodeScillaType_eq, wNodeTypeMapKey_eq, wNodeTypeMapValue_eq, wNodeTypeArgument_eq, wNodeAddressTypeField_eq, wNodeTypeMapValueArguments_eq, wNodeArgumentPattern_eq, wNodePattern_eq, wNodeFullExpression_eq, wNodePatternMatchExpressionClause_eq, wNodeStatementBlock_eq, wNodePatternMatchClause_eq, lWNodeTypeArgument_eq, lWNodeAddressTypeField_eq, lWNodeTypeMapValueArguments_eq, lWNodeArgumentPattern_eq, lWNodePatternMatchExpressionClause_eq, lWNodePatternMatchClause_eq, lNodeStatement_eq, oWNodeStatementBlock_eq]⟩

theorem NodeContractField.made {c : Variant} (hc : c ∈ TName.variants .NodeContractField) (xs : Els c.types) :
    ∃ x : NodeContractField, x.rv = .node c.path c.fields (rvs c.types xs) := by
  simp only [TName.variants, List.mem_cons, List.not_mem_nil, or_false] at hc
  rcases hc with rfl
  · obtain ⟨x0, x1, _⟩ := xs
    exact ⟨⟨x0, x1⟩, by simp only [NodeContractField.rv, rvs, RT.rv, TName.rv, vecRv, wNodeAddressType_eq, wNodeTypeMapEntry_eq, wNodeTypeMapValueAllowingTypeArguments_eq, wNodeScillaType_eq, wNodeTypeMapKey_eq, wNodeTypeMapValue_eq, wNodeTypeArgument_eq, wNodeAddressTypeField_eq, wNodeTypeMapValueArguments_eq, wNodeArgumentPattern_eq, wNodePattern_eq, wNodeFullExpression_eq, wNodePatternMatchExpressionClause_eq, wNodeStatementBlock_eq, wNodePatternMatchClause_eq, lWNodeTypeArgument_eq, lWNodeAddressTypeField_eq, lWNodeTypeMapValueArguments_eq, lWNodeArgumentPattern_eq, lWNodePatternMatchExpressionClause_eq, lWNodePatternMatchClause_eq, lNodeStatement_eq, oWNodeStatementBlock_eq]⟩

theorem NodeWithConstraint.made {c : Variant} (hc : c ∈ TName.variants .NodeWithConstraint) (xs : Els c.types) :
    ∃ x : NodeWithConstraint, x.rv = .node c.path c.fields (rvs c.types xs) := by
  simp only [TName.variants, List.mem_cons, List.not_mem_nil, or_false] at hc
  rcases hc with rfl
  · obtain ⟨x0, _⟩ := xs
    exact ⟨⟨x0⟩, by simp only [NodeWithConstraint.rv, rvs, RT.rv, TName.rv, vecRv, wNodeAddressType_eq, wNodeTypeMapEntry_eq, wNodeTypeMapValueAllowingTypeArguments_eq, wNodeScillaType_eq, wNodeTypeMapKey_eq, wNodeTypeMapValue_eq, wNodeTypeArgument_eq, wNodeAddressTypeField_eq, wNodeTypeMapValueArguments_eq, wNodeArgumentPattern_eq, wNodePattern_eq, wNodeFullExpression_eq, wNodePatternMatchExpressionClause_eq, wNodeStatementBlock_eq, wNodePatternMatchClause_eq, lWNodeTypeArgument_eq, lWNodeAddressTypeField_eq, lWNodeTypeMapValueArguments_eq, lWNodeArgumentPattern_eq, lWNodePatternMatchExpressionClause_eq, lWNodePatternMatchClause_eq, lNodeStatement_eq, oWNodeStatementBlock_eq]⟩

theorem NodeComponentDefinition.made {c : Variant} (hc : c ∈ TName.variants .NodeComponentDefinition) (xs : Els c.types) :
    ∃ x : NodeComponentDefinition, x.rv = .node c.path c.fields (rvs c.types xs) := by
  simp only [TName.variants, List.mem_cons, List.not_mem_nil, or_false] at hc
  rcases hc with rfl | rfl
  · obtain ⟨x0, _⟩ := xs
    exact ⟨.transitionComponent x0, by simp only [NodeComponentDefinition.rv, rvs, RT.rv, TName.rv, vecRv, wNodeAddressType_eq, wNodeTypeMapEntry_eq, wNodeTypeMapValueAllowingTypeArguments_eq, wNodeScillaType_eq, wNodeTypeMapKey_eq, wNodeTypeMapValue_eq, wNodeTypeArgument_eq, wNodeAddressTypeField_eq, wNodeTypeMapValueArguments_eq, wNodeArgumentPattern_eq, wNodePattern_eq, wNodeFullExpression_eq, wNodePatternMatchExpressionClause_eq, wNodeStatementBlock_eq, wNodePatternMatchClause_eq, lWNodeTypeArgument_eq, lWNodeAddressTypeField_eq, lWNodeTypeMapValueArguments_eq, lWNodeArgumentPattern_eq, lWNodePatternMatchExpressionClause_eq, lWNodePatternMatchClause_eq, lNodeStatement_eq, oWNodeStatementBlock_eq]⟩
  · obtain ⟨x0, _⟩ := xs
    exact ⟨.procedureComponent x0, by simp only [NodeComponentDefinition.rv, rvs, RT.rv, TName.rv, vecRv, wNodeAddressType_eq, wNodeTypeMapEntry_eq, wNodeTypeMapValueAllowingTypeArguments_eq, wNodeScillaType_eq, wNodeTypeMapKey_eq, wNodeTypeMapValue_eq, wNodeTypeArgument_eq, wNodeAddressTypeField_eq, wNodeTypeMapValueArguments_eq, wNodeArgumentPattern_eq, wNodePattern_eq, wNodeFullExpression_eq, wNodePatternMatchExpressionClause_eq, wNodeStatementBlock_eq, wNodePatternMatchClause_eq, lWNodeTypeArgument_eq, lWNodeAddressTypeField_eq, lWNodeTypeMapValueArguments_eq, lWNodeArgumentPattern_eq, lWNodePatternMatchExpressionClause_eq, lWNodePatternMatchClause_eq, lNodeStatement_eq, oWNodeStatementBlock_eq]⟩

theorem NodeProcedureDefinition.made {c : Variant} (hc : c ∈ TName.variants .NodeProcedureDefinition) (xs : Els c.types) :
    ∃ x : NodeProcedureDefinition, x.rv = .node c.path c.fields (rvs c.types xs) := by
  simp only [TName.variants, List.mem_cons, List.not_mem_nil, or_false] at hc
  rcases hc with rfl
  · obtain ⟨x0, x1, x2, _⟩ := xs
    exact ⟨⟨x0, x1, x2⟩, by simp only [NodeProcedureDefinition.rv, rvs, RT.rv, TName.rv, vecRv, wNodeAddressType_eq, wNodeTypeMapEntry_eq, wNodeTypeMapValueAllowingTypeArguments_eq, wNodeScillaType_eq, wNodeTypeMapKey_eq, wNodeTypeMapValue_eq, wNodeTypeArgument_eq, wNodeAddressTypeField_eq, wNodeTypeMapValueArguments_eq, wNodeArgumentPattern_eq, wNodePattern_eq, wNodeFullExpression_eq, wNodePatternMatchExpressionClause_eq, wNodeStatementBlock_eq, wNodePatternMatchClause_eq, lWNodeTypeArgument_eq, lWNodeAddressTypeField_eq, lWNodeTypeMapValueArguments_eq, lWNodeArgumentPattern_eq, lWNodePatternMatchExpressionClause_eq, lWNodePatternMatchClause_eq, lNodeStatement_eq, oWNodeStatementBlock_eq]⟩

theorem NodeTransitionDefinition.made {c : Variant} (hc : c ∈ TName.variants .NodeTransitionDefinition) (xs : Els c.types) :
    ∃ x : NodeTransitionDefinition, x.rv = .node c.path c.fields (rvs c.types xs) := by
  simp only [TName.variants, List.mem_cons, List.not_mem_nil, or_false] at hc
  rcases hc with rfl
  · obtain ⟨x0, x1, x2, _⟩ := xs
    exact ⟨⟨x0, x1, x2⟩, by simp only [NodeTransitionDefinition.rv, rvs, RT.rv, TName.rv, vecRv, wNodeAddressType_eq, wNodeTypeMapEntry_eq, wNodeTypeMapValueAllowingTypeArguments_eq, wNodeScillaType_eq, wNodeTypeMapKey_eq, wNodeTypeMapValue_eq, wNodeTypeArgument_eq, wNodeAddressTypeField_eq, wNodeTypeMapValueArguments_eq, wNodeArgumentPattern_eq, wNodePattern_eq, wNodeFullExpression_eq, wNodePatternMatchExpressionClause_eq, wNodeStatementBlock_eq, wNodePatternMatchClause_eq, lWNodeTypeArgument_eq, lWNodeAddressTypeField_eq, lWNodeTypeMapValueArguments_eq, lWNodeArgumentPattern_eq, lWNodePatternMatchExpressionClause_eq, lWNodePatternMatchClause_eq, lNodeStatement_eq, oWNodeStatementBlock_eq]⟩

theorem NodeTypeAlternativeClause.made {c : Variant} (hc : c ∈ TName.variants .NodeTypeAlternativeClause) (xs : Els c.types) :
    ∃ x : NodeTypeAlternativeClause, x.rv = .node c.path c.fields (rvs c.types xs) := by
  simp only [TName.variants, List.mem_cons, List.not_mem_nil, or_false] at hc
  rcases hc with rfl | rfl
  · obtain ⟨x0, _⟩ := xs
    exact ⟨.clauseType x0, by simp only [NodeTypeAlternativeClause.rv, rvs, RT.rv, TName.rv, vecRv, wNodeAddressType_eq, wNodeTypeMapEntry_eq, wNodeTypeMapValueAllowingTypeArguments_eq, wNodeScillaType_eq, wNodeTypeMapKey_eq, wNodeTypeMapValue_eq, wNodeTypeArgument_eq, wNodeAddressTypeField_eq, wNodeTypeMapValueArguments_eq, wNodeArgumentPattern_eq, wNodePattern_eq, wNodeFullExpression_eq, wNodePatternMatchExpressionClause_eq, wNodeStatementBlock_eq, wNodePatternMatchClause_eq, lWNodeTypeArgument_eq, lWNodeAddressTypeField_eq, lWNodeTypeMapValueArguments_eq, lWNodeArgumentPattern_eq, lWNodePatternMatchExpressionClause_eq, lWNodePatternMatchClause_eq, lNodeStatement_eq, oWNodeStatementBlock_eq]⟩
  · obtain ⟨x0, x1, _⟩ := xs
    exact ⟨.clauseTypeWithArgs x0 x1, by simp only [NodeTypeAlternativeClause.rv, rvs, RT.rv, TName.rv, vecRv, wNodeAddressType_eq, wNodeTypeMapEntry_eq, wNodeTypeMapValueAllowingTypeArguments_eq, wNodeScillaType_eq, wNodeTypeMapKey_eq, wNodeTypeMapValue_eq, wNodeTypeArgument_eq, wNodeAddressTypeField_eq, wNodeTypeMapValueArguments_eq, wNodeArgumentPattern_eq, wNodePattern_eq, wNodeFullExpression_eq, wNodePatternMatchExpressionClause_eq, wNodeStatementBlock_eq, wNodePatternMatchClause_eq, lWNodeTypeArgument_eq, lWNodeAddressTypeField_eq, lWNodeTypeMapValueArguments_eq, lWNodeArgumentPattern_eq, lWNodePatternMatchExpressionClause_eq, lWNodePatternMatchClause_eq, lNodeStatement_eq, oWNodeStatementBlock_eq]⟩

theorem NodeTypeMapValueArguments.made {c : Variant} (hc : c ∈ TName.variants .NodeTypeMapValueArguments) (xs : Els c.types) :
    ∃ x : NodeTypeMapValueArguments, x.rv = .node c.path c.fields (rvs c.types xs) := by
  simp only [TName.variants, List.mem_cons, List.not_mem_nil, or_false] at hc
  rcases hc with rfl | rfl | rfl
  · obtain ⟨x0, _⟩ := xs
    exact ⟨.enclosedTypeMapValue x0, by simp only [NodeTypeMapValueArguments.rv, rvs, RT.rv, TName.rv, vecRv, wNodeAddressType_eq, wNodeTypeMapEntry_eq, wNodeTypeMapValueAllowingTypeArguments_eq, wNodeScillaType_eq, wNodeTypeMapKey_eq, wNodeTypeMapValue_eq, wNodeTypeArgument_eq, wNodeAddressTypeField_eq, wNodeTypeMapValueArguments_eq, wNodeArgumentPattern_eq, wNodePattern_eq, wNodeFullExpression_eq, wNodePatternMatchExpressionClause_eq, wNodeStatementBlock_eq, wNodePatternMatchClause_eq, lWNodeTypeArgument_eq, lWNodeAddressTypeField_eq, lWNodeTypeMapValueArguments_eq, lWNodeArgumentPattern_eq, lWNodePatternMatchExpressionClause_eq, lWNodePatternMatchClause_eq, lNodeStatement_eq, oWNodeStatementBlock_eq]⟩
  · obtain ⟨x0, _⟩ := xs
    exact ⟨.genericMapValueArgument x0, by simp only [NodeTypeMapValueArguments.rv, rvs, RT.rv, TName.rv, vecRv, wNodeAddressType_eq, wNodeTypeMapEntry_eq, wNodeTypeMapValueAllowingTypeArguments_eq, wNodeScillaType_eq, wNodeTypeMapKey_eq, wNodeTypeMapValue_eq, wNodeTypeArgument_eq, wNodeAddressTypeField_eq, wNodeTypeMapValueArguments_eq, wNodeArgumentPattern_eq, wNodePattern_eq, wNodeFullExpression_eq, wNodePatternMatchExpressionClause_eq, wNodeStatementBlock_eq, wNodePatternMatchClause_eq, lWNodeTypeArgument_eq, lWNodeAddressTypeField_eq, lWNodeTypeMapValueArguments_eq, lWNodeArgumentPattern_eq, lWNodePatternMatchExpressionClause_eq, lWNodePatternMatchClause_eq, lNodeStatement_eq, oWNodeStatementBlock_eq]⟩
  · obtain ⟨x0, x1, _⟩ := xs
    exact ⟨.mapKeyValueType x0 x1, by simp only [NodeTypeMapValueArguments.rv, rvs, RT.rv, TName.rv, vecRv, wNodeAddressType_eq, wNodeTypeMapEntry_eq, wNodeTypeMapValueAllowingTypeArguments_eq, wNodeScillaType_eq, wNodeTypeMapKey_eq, wNodeTypeMapValue_eq, wNodeTypeArgument_eq, wNodeAddressTypeField_eq, wNodeTypeMapValueArguments_eq, wNodeArgumentPattern_eq, wNodePattern_eq, wNodeFullExpression_eq, wNodePatternMatchExpressionClause_eq, wNodeStatementBlock_eq, wNodePatternMatchClause_eq, lWNodeTypeArgument_eq, lWNodeAddressTypeField_eq, lWNodeTypeMapValueArguments_eq, lWNodeArgumentPattern_eq, lWNodePatternMatchExpressionClause_eq, lWNodePatternMatchClause_eq, lNodeStatement_eq, oWNodeStatementBlock_eq]⟩

theorem NodeTypeMapValueAllowingTypeArguments.made {c : Variant} (hc : c ∈ TName.variants .NodeTypeMapValueAllowingTypeArguments) (xs : Els c.types) :
    ∃ x : NodeTypeMapValueAllowingTypeArguments, x.rv = .node c.path c.fields (rvs c.types xs) := by
  simp only [TName.variants, List.mem_cons, List.not_mem_nil, or_false] at hc
  rcases hc with rfl | rfl
  · obtain ⟨x0, _⟩ := xs
    exact ⟨.typeMapValueNoArgs x0, by simp only [NodeTypeMapValueAllowingTypeArguments.rv, rvs, RT.rv, TName.rv, vecRv, wNodeAddressType_eq, wNodeTypeMapEntry_eq, wNodeTypeMapValueAllowingTypeArguments_eq, wNodeScillaType_eq, wNodeTypeMapKey_eq, wNodeTypeMapValue_eq, wNodeTypeArgument_eq, wNodeAddressTypeField_eq, wNodeTypeMapValueArguments_eq, wNodeArgumentPattern_eq, wNodePattern_eq, wNodeFullExpression_eq, wNodePatternMatchExpressionClause_eq, wNodeStatementBlock_eq, wNodePatternMatchClause_eq, lWNodeTypeArgument_eq, lWNodeAddressTypeField_eq, lWNodeTypeMapValueArguments_eq, lWNodeArgumentPattern_eq, lWNodePatternMatchExpressionClause_eq, lWNodePatternMatchClause_eq, lNodeStatement_eq, oWNodeStatementBlock_eq]⟩
  · obtain ⟨x0, x1, _⟩ := xs
    exact ⟨.typeMapValueWithArgs x0 x1, by simp only [NodeTypeMapValueAllowingTypeArguments.rv, rvs, RT.rv, TName.rv, vecRv, wNodeAddressType_eq, wNodeTypeMapEntry_eq, wNodeTypeMapValueAllowingTypeArguments_eq, wNodeScillaType_eq, wNodeTypeMapKey_eq, wNodeTypeMapValue_eq, wNodeTypeArgument_eq, wNodeAddressTypeField_eq, wNodeTypeMapValueArguments_eq, wNodeArgumentPattern_eq, wNodePattern_eq, wNodeFullExpression_eq, wNodePatternMatchExpressionClause_eq, wNodeStatementBlock_eq, wNodePatternMatchClause_eq, lWNodeTypeArgument_eq, lWNodeAddressTypeField_eq, lWNodeTypeMapValueArguments_eq, lWNodeArgumentPattern_eq, lWNodePatternMatchExpressionClause_eq, lWNodePatternMatchClause_eq, lNodeStatement_eq, oWNodeStatementBlock_eq]⟩

theorem TName.made : ∀ (t : TName) {c : Variant} (_ : c ∈ t.variants) (xs : Els c.types),
    ∃ x : t.El, t.rv x = .node c.path c.fields (rvs c.types xs)
  | .NodeByteStr, _, hc, xs => Verif.NodeByteStr.made hc xs
  | .NodeTypeNameIdentifier, _, hc, xs => Verif.NodeTypeNameIdentifier.made hc xs
  | .NodeImportedName, _, hc, xs => Verif.NodeImportedName.made hc xs
  | .NodeImportDeclarations, _, hc, xs => Verif.NodeImportDeclarations.made hc xs
  | .NodeMetaIdentifier, _, hc, xs => Verif.NodeMetaIdentifier.made hc xs
  | .NodeVariableIdentifier, _, hc, xs => Verif.NodeVariableIdentifier.made hc xs
  | .NodeBuiltinArguments, _, hc, xs => Verif.NodeBuiltinArguments.made hc xs
  | .NodeTypeMapKey, _, hc, xs => Verif.NodeTypeMapKey.made hc xs
  | .NodeTypeMapValue, _, hc, xs => Verif.NodeTypeMapValue.made hc xs
  | .NodeTypeArgument, _, hc, xs => Verif.NodeTypeArgument.made hc xs
  | .NodeScillaType, _, hc, xs => Verif.NodeScillaType.made hc xs
  | .NodeTypeMapEntry, _, hc, xs => Verif.NodeTypeMapEntry.made hc xs
  | .NodeAddressTypeField, _, hc, xs => Verif.NodeAddressTypeField.made hc xs
  | .NodeAddressType, _, hc, xs => Verif.NodeAddressType.made hc xs
  | .NodeFullExpression, _, hc, xs => Verif.NodeFullExpression.made hc xs
  | .NodeMessageEntry, _, hc, xs => Verif.NodeMessageEntry.made hc xs
  | .NodePatternMatchExpressionClause, _, hc, xs => Verif.NodePatternMatchExpressionClause.made hc xs
  | .NodeAtomicExpression, _, hc, xs => Verif.NodeAtomicExpression.made hc xs
  | .NodeContractTypeArguments, _, hc, xs => Verif.NodeContractTypeArguments.made hc xs
  | .NodeValueLiteral, _, hc, xs => Verif.NodeValueLiteral.made hc xs
  | .NodeMapAccess, _, hc, xs => Verif.NodeMapAccess.made hc xs
  | .NodePattern, _, hc, xs => Verif.NodePattern.made hc xs
  | .NodeArgumentPattern, _, hc, xs => Verif.NodeArgumentPattern.made hc xs
  | .NodePatternMatchClause, _, hc, xs => Verif.NodePatternMatchClause.made hc xs
  | .NodeBlockchainFetchArguments, _, hc, xs => Verif.NodeBlockchainFetchArguments.made hc xs
  | .NodeStatement, _, hc, xs => Verif.NodeStatement.made hc xs
  | .NodeRemoteFetchStatement, _, hc, xs => Verif.NodeRemoteFetchStatement.made hc xs
  | .NodeComponentId, _, hc, xs => Verif.NodeComponentId.made hc xs
  | .NodeComponentParameters, _, hc, xs => Verif.NodeComponentParameters.made hc xs
  | .NodeParameterPair, _, hc, xs => Verif.NodeParameterPair.made hc xs
  | .NodeComponentBody, _, hc, xs => Verif.NodeComponentBody.made hc xs
  | .NodeStatementBlock, _, hc, xs => Verif.NodeStatementBlock.made hc xs
  | .NodeTypedIdentifier, _, hc, xs => Verif.NodeTypedIdentifier.made hc xs
  | .NodeTypeAnnotation, _, hc, xs => Verif.NodeTypeAnnotation.made hc xs
  | .NodeProgram, _, hc, xs => Verif.NodeProgram.made hc xs
  | .NodeLibraryDefinition, _, hc, xs => Verif.NodeLibraryDefinition.made hc xs
  | .NodeLibrarySingleDefinition, _, hc, xs => Verif.NodeLibrarySingleDefinition.made hc xs
  | .NodeContractDefinition, _, hc, xs => Verif.NodeContractDefinition.made hc xs
  | .NodeContractField, _, hc, xs => Verif.NodeContractField.made hc xs
  | .NodeWithConstraint, _, hc, xs => Verif.NodeWithConstraint.made hc xs
  | .NodeComponentDefinition, _, hc, xs => Verif.NodeComponentDefinition.made hc xs
  | .NodeProcedureDefinition, _, hc, xs => Verif.NodeProcedureDefinition.made hc xs
  | .NodeTransitionDefinition, _, hc, xs => Verif.NodeTransitionDefinition.made hc xs
  | .NodeTypeAlternativeClause, _, hc, xs => Verif.NodeTypeAlternativeClause.made hc xs
  | .NodeTypeMapValueArguments, _, hc, xs => Verif.NodeTypeMapValueArguments.made hc xs
  | .NodeTypeMapValueAllowingTypeArguments, _, hc, xs => Verif.NodeTypeMapValueAllowingTypeArguments.made hc xs

theorem TName.rv_inj : ∀ (t : TName) (x y : t.El), t.rv x = t.rv y → x = y
  | .NodeByteStr => Verif.NodeByteStr.rv_inj
  | .NodeTypeNameIdentifier => Verif.NodeTypeNameIdentifier.rv_inj
  | .NodeImportedName => Verif.NodeImportedName.rv_inj
  | .NodeImportDeclarations => Verif.NodeImportDeclarations.rv_inj
  | .NodeMetaIdentifier => Verif.NodeMetaIdentifier.rv_inj
  | .NodeVariableIdentifier => Verif.NodeVariableIdentifier.rv_inj
  | .NodeBuiltinArguments => Verif.NodeBuiltinArguments.rv_inj
  | .NodeTypeMapKey => Verif.NodeTypeMapKey.rv_inj
  | .NodeTypeMapValue => Verif.NodeTypeMapValue.rv_inj
  | .NodeTypeArgument => Verif.NodeTypeArgument.rv_inj
  | .NodeScillaType => Verif.NodeScillaType.rv_inj
  | .NodeTypeMapEntry => Verif.NodeTypeMapEntry.rv_inj
  | .NodeAddressTypeField => Verif.NodeAddressTypeField.rv_inj
  | .NodeAddressType => Verif.NodeAddressType.rv_inj
  | .NodeFullExpression => Verif.NodeFullExpression.rv_inj
  | .NodeMessageEntry => Verif.NodeMessageEntry.rv_inj
  | .NodePatternMatchExpressionClause => Verif.NodePatternMatchExpressionClause.rv_inj
  | .NodeAtomicExpression => Verif.NodeAtomicExpression.rv_inj
  | .NodeContractTypeArguments => Verif.NodeContractTypeArguments.rv_inj
  | .NodeValueLiteral => Verif.NodeValueLiteral.rv_inj
  | .NodeMapAccess => Verif.NodeMapAccess.rv_inj
  | .NodePattern => Verif.NodePattern.rv_inj
  | .NodeArgumentPattern => Verif.NodeArgumentPattern.rv_inj
  | .NodePatternMatchClause => Verif.NodePatternMatchClause.rv_inj
  | .NodeBlockchainFetchArguments => Verif.NodeBlockchainFetchArguments.rv_inj
  | .NodeStatement => Verif.NodeStatement.rv_inj
  | .NodeRemoteFetchStatement => Verif.NodeRemoteFetchStatement.rv_inj
  | .NodeComponentId => Verif.NodeComponentId.rv_inj
  | .NodeComponentParameters => Verif.NodeComponentParameters.rv_inj
  | .NodeParameterPair => Verif.NodeParameterPair.rv_inj
  | .NodeComponentBody => Verif.NodeComponentBody.rv_inj
  | .NodeStatementBlock => Verif.NodeStatementBlock.rv_inj
  | .NodeTypedIdentifier => Verif.NodeTypedIdentifier.rv_inj
  | .NodeTypeAnnotation => Verif.NodeTypeAnnotation.rv_inj
  | .NodeProgram => Verif.NodeProgram.rv_inj
  | .NodeLibraryDefinition => Verif.NodeLibraryDefinition.rv_inj
  | .NodeLibrarySingleDefinition => Verif.NodeLibrarySingleDefinition.rv_inj
  | .NodeContractDefinition => Verif.NodeContractDefinition.rv_inj
  | .NodeContractField => Verif.NodeContractField.rv_inj
  | .NodeWithConstraint => Verif.NodeWithConstraint.rv_inj
  | .NodeComponentDefinition => Verif.NodeComponentDefinition.rv_inj
  | .NodeProcedureDefinition => Verif.NodeProcedureDefinition.rv_inj
  | .NodeTransitionDefinition => Verif.NodeTransitionDefinition.rv_inj
  | .NodeTypeAlternativeClause => Verif.NodeTypeAlternativeClause.rv_inj
  | .NodeTypeMapValueArguments => Verif.NodeTypeMapValueArguments.rv_inj
  | .NodeTypeMapValueAllowingTypeArguments => Verif.NodeTypeMapValueAllowingTypeArguments.rv_inj

theorem RT.rv_inj : ∀ (t : RT) (x y : t.El), t.rv x = t.rv y → x = y
  | .string => strInj
  | .named t => t.rv_inj
  | .located t => W.rv_inj t.rv_inj
  | .vec t => vecRv_inj t.rv_inj
  | .option t => optRv_inj t.rv_inj

mutual
theorem HasType.el : ∀ {v : RV} {t : RT}, HasType v t → ∃ x : t.El, t.rv x = v
  | _, _, .string x => ⟨x, rfl⟩
  | _, _, .located s e h => by
    obtain ⟨x, rfl⟩ := h.el
    exact ⟨⟨x, s, e⟩, rfl⟩
  | _, _, .vec h => by
    obtain ⟨l, rfl⟩ := h.els
    exact ⟨l, rfl⟩
  | _, _, .none t => ⟨(none : Option t.El), rfl⟩
  | _, _, .some h => by
    obtain ⟨x, rfl⟩ := h.el
    exact ⟨some x, rfl⟩
  | _, _, .node (t := t) hc h => by
    obtain ⟨xs, rfl⟩ := h.els
    exact t.made hc xs
theorem HasTypes.els : ∀ {vs : List RV} {ts : List RT}, HasTypes vs ts → ∃ xs : Els ts, rvs ts xs = vs
  | _, _, .nil => ⟨(), rfl⟩
  | _, _, .cons h hs => by
    obtain ⟨x, rfl⟩ := h.el
    obtain ⟨xs, rfl⟩ := hs.els
    exact ⟨(x, xs), rfl⟩
theorem HasTypeAll.els : ∀ {vs : List RV} {t : RT}, HasTypeAll vs t → ∃ l : List t.El, l.map t.rv = vs
  | _, _, .empty _ => ⟨[], rfl⟩
  | _, _, .more h hs => by
    obtain ⟨x, rfl⟩ := h.el
    obtain ⟨xs, rfl⟩ := hs.els
    exact ⟨x :: xs, rfl⟩
end

end Verif
