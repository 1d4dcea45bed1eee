import Verif.Spec.NodeValues
/-
Different trees are different Rust values (written by tools/actions_lean.py).
-/
namespace Verif

theorem strInj (a b : Str) (h : RV.str a = RV.str b) : a = b := RV.str.inj h

theorem W.rv_inj {α : Type} {f : α → RV} (hf : ∀ a b, f a = f b → a = b) (a b : W α) (h : W.rv f a = W.rv f b) :
    a = b := by
  obtain ⟨n, s, e⟩ := a
  obtain ⟨n', s', e'⟩ := b
  simp only [W.rv, RV.node.injEq, List.cons.injEq, RV.pos.injEq, and_true, true_and] at h
  obtain ⟨h1, rfl, rfl⟩ := h
  rw [hf _ _ h1]

theorem map_inj {α : Type} {f : α → RV} (hf : ∀ a b, f a = f b → a = b) (a b : List α) (h : a.map f = b.map f) :
    a = b := by
  induction a generalizing b with
  | nil => cases b with
    | nil => rfl
    | cons y b => cases h
  | cons x a ih => cases b with
    | nil => cases h
    | cons y b =>
      simp only [List.map_cons, List.cons.injEq] at h
      rw [hf _ _ h.1, ih b h.2]

theorem vecRv_inj {α : Type} {f : α → RV} (hf : ∀ a b, f a = f b → a = b) (a b : List α) (h : vecRv f a = vecRv f b) :
    a = b := map_inj hf a b (RV.vec.inj h)

theorem RV.some_inj {a b : RV} (h : RV.some a = RV.some b) : a = b := by
  simpa [RV.some] using h

theorem RV.some_ne_none {a : RV} : RV.some a ≠ RV.none := by
  simp [RV.some, RV.none]

theorem optRv_inj {α : Type} {f : α → RV} (hf : ∀ a b, f a = f b → a = b) (a b : Option α) (h : optRv f a = optRv f b) :
    a = b := by
  cases a with
  | none => cases b with
    | none => rfl
    | some y => exact absurd h.symm RV.some_ne_none
  | some x => cases b with
    | none => exact absurd h RV.some_ne_none
    | some y => rw [hf _ _ (RV.some_inj h)]

theorem NodeByteStr.rv_inj : ∀ a b : NodeByteStr, a.rv = b.rv → a = b
  | .constant x0, b, h => by
    cases b <;> simp [NodeByteStr.rv] at h
    rename_i y0
    have e0 := (W.rv_inj strInj) x0 y0 h
    rw [e0]
  | .type x0, b, h => by
    cases b <;> simp [NodeByteStr.rv] at h
    rename_i y0
    have e0 := (W.rv_inj strInj) x0 y0 h
    rw [e0]

theorem NodeTypeNameIdentifier.rv_inj : ∀ a b : NodeTypeNameIdentifier, a.rv = b.rv → a = b
  | .byteStringType x0, b, h => by
    cases b <;> simp [NodeTypeNameIdentifier.rv] at h
    rename_i y0
    have e0 := NodeByteStr.rv_inj x0 y0 h
    rw [e0]
  | .eventType, b, h => by
    cases b <;> first | rfl | (simp [NodeTypeNameIdentifier.rv] at h; done)
  | .typeOrEnumLikeIdentifier x0, b, h => by
    cases b <;> simp [NodeTypeNameIdentifier.rv] at h
    rename_i y0
    have e0 := (W.rv_inj strInj) x0 y0 h
    rw [e0]

theorem NodeImportedName.rv_inj : ∀ a b : NodeImportedName, a.rv = b.rv → a = b
  | .regularImport x0, b, h => by
    cases b <;> simp [NodeImportedName.rv] at h
    rename_i y0
    have e0 := (W.rv_inj NodeTypeNameIdentifier.rv_inj) x0 y0 h
    rw [e0]
  | .aliasedImport x0 x1, b, h => by
    cases b <;> simp [NodeImportedName.rv] at h
    rename_i y0 y1
    have e0 := (W.rv_inj NodeTypeNameIdentifier.rv_inj) x0 y0 h.1
    have e1 := (W.rv_inj NodeTypeNameIdentifier.rv_inj) x1 y1 h.2
    rw [e0, e1]

theorem NodeImportDeclarations.rv_inj : ∀ a b : NodeImportDeclarations, a.rv = b.rv → a = b
  | ⟨x0⟩, b, h => by
    cases b <;> simp [NodeImportDeclarations.rv] at h
    rename_i y0
    have e0 := (vecRv_inj (W.rv_inj NodeImportedName.rv_inj)) x0 y0 h
    rw [e0]

theorem NodeMetaIdentifier.rv_inj : ∀ a b : NodeMetaIdentifier, a.rv = b.rv → a = b
  | .metaName x0, b, h => by
    cases b <;> simp [NodeMetaIdentifier.rv] at h
    rename_i y0
    have e0 := (W.rv_inj NodeTypeNameIdentifier.rv_inj) x0 y0 h
    rw [e0]
  | .metaNameInNamespace x0 x1, b, h => by
    cases b <;> simp [NodeMetaIdentifier.rv] at h
    rename_i y0 y1
    have e0 := (W.rv_inj NodeTypeNameIdentifier.rv_inj) x0 y0 h.1
    have e1 := (W.rv_inj NodeTypeNameIdentifier.rv_inj) x1 y1 h.2
    rw [e0, e1]
  | .metaNameInHexspace x0 x1, b, h => by
    cases b <;> simp [NodeMetaIdentifier.rv] at h
    rename_i y0 y1
    have e0 := (W.rv_inj strInj) x0 y0 h.1
    have e1 := (W.rv_inj NodeTypeNameIdentifier.rv_inj) x1 y1 h.2
    rw [e0, e1]
  | .byteString, b, h => by
    cases b <;> first | rfl | (simp [NodeMetaIdentifier.rv] at h; done)

theorem NodeVariableIdentifier.rv_inj : ∀ a b : NodeVariableIdentifier, a.rv = b.rv → a = b
  | .variableName x0, b, h => by
    cases b <;> simp [NodeVariableIdentifier.rv] at h
    rename_i y0
    have e0 := (W.rv_inj strInj) x0 y0 h
    rw [e0]
  | .specialIdentifier x0, b, h => by
    cases b <;> simp [NodeVariableIdentifier.rv] at h
    rename_i y0
    have e0 := (W.rv_inj strInj) x0 y0 h
    rw [e0]
  | .variableInNamespace x0 x1, b, h => by
    cases b <;> simp [NodeVariableIdentifier.rv] at h
    rename_i y0 y1
    have e0 := (W.rv_inj NodeTypeNameIdentifier.rv_inj) x0 y0 h.1
    have e1 := (W.rv_inj strInj) x1 y1 h.2
    rw [e0, e1]

theorem NodeBuiltinArguments.rv_inj : ∀ a b : NodeBuiltinArguments, a.rv = b.rv → a = b
  | ⟨x0⟩, b, h => by
    cases b <;> simp [NodeBuiltinArguments.rv] at h
    rename_i y0
    have e0 := (vecRv_inj (W.rv_inj NodeVariableIdentifier.rv_inj)) x0 y0 h
    rw [e0]

mutual
theorem NodeTypeMapKey.rv_inj : ∀ a b : NodeTypeMapKey, a.rv = b.rv → a = b
  | .genericMapKey x0, b, h => by
    cases b <;> simp [NodeTypeMapKey.rv] at h
    rename_i y0
    have e0 := (W.rv_inj NodeMetaIdentifier.rv_inj) x0 y0 h
    rw [e0]
  | .enclosedGenericId x0, b, h => by
    cases b <;> simp [NodeTypeMapKey.rv] at h
    rename_i y0
    have e0 := (W.rv_inj NodeMetaIdentifier.rv_inj) x0 y0 h
    rw [e0]
  | .enclosedAddressMapKeyType x0, b, h => by
    cases b <;> simp [NodeTypeMapKey.rv] at h
    rename_i y0
    have e0 := wNodeAddressType_inj x0 y0 h
    rw [e0]
  | .addressMapKeyType x0, b, h => by
    cases b <;> simp [NodeTypeMapKey.rv] at h
    rename_i y0
    have e0 := wNodeAddressType_inj x0 y0 h
    rw [e0]

theorem NodeTypeMapValue.rv_inj : ∀ a b : NodeTypeMapValue, a.rv = b.rv → a = b
  | .mapValueTypeOrEnumLikeIdentifier x0, b, h => by
    cases b <;> simp [NodeTypeMapValue.rv] at h
    rename_i y0
    have e0 := (W.rv_inj NodeMetaIdentifier.rv_inj) x0 y0 h
    rw [e0]
  | .mapKeyValue x0, b, h => by
    cases b <;> simp [NodeTypeMapValue.rv] at h
    rename_i y0
    have e0 := wNodeTypeMapEntry_inj x0 y0 h
    rw [e0]
  | .mapValueParenthesizedType x0, b, h => by
    cases b <;> simp [NodeTypeMapValue.rv] at h
    rename_i y0
    have e0 := wNodeTypeMapValueAllowingTypeArguments_inj x0 y0 h
    rw [e0]
  | .mapValueAddressType x0, b, h => by
    cases b <;> simp [NodeTypeMapValue.rv] at h
    rename_i y0
    have e0 := wNodeAddressType_inj x0 y0 h
    rw [e0]

theorem NodeTypeArgument.rv_inj : ∀ a b : NodeTypeArgument, a.rv = b.rv → a = b
  | .enclosedTypeArgument x0, b, h => by
    cases b <;> simp [NodeTypeArgument.rv] at h
    rename_i y0
    have e0 := wNodeScillaType_inj x0 y0 h
    rw [e0]
  | .genericTypeArgument x0, b, h => by
    cases b <;> simp [NodeTypeArgument.rv] at h
    rename_i y0
    have e0 := (W.rv_inj NodeMetaIdentifier.rv_inj) x0 y0 h
    rw [e0]
  | .templateTypeArgument x0, b, h => by
    cases b <;> simp [NodeTypeArgument.rv] at h
    rename_i y0
    have e0 := (W.rv_inj strInj) x0 y0 h
    rw [e0]
  | .addressTypeArgument x0, b, h => by
    cases b <;> simp [NodeTypeArgument.rv] at h
    rename_i y0
    have e0 := wNodeAddressType_inj x0 y0 h
    rw [e0]
  | .mapTypeArgument x0 x1, b, h => by
    cases b <;> simp [NodeTypeArgument.rv] at h
    rename_i y0 y1
    have e0 := wNodeTypeMapKey_inj x0 y0 h.1
    have e1 := wNodeTypeMapValue_inj x1 y1 h.2
    rw [e0, e1]

theorem NodeScillaType.rv_inj : ∀ a b : NodeScillaType, a.rv = b.rv → a = b
  | .genericTypeWithArgs x0 x1, b, h => by
    cases b <;> simp [NodeScillaType.rv] at h
    rename_i y0 y1
    have e0 := (W.rv_inj NodeMetaIdentifier.rv_inj) x0 y0 h.1
    have e1 := lWNodeTypeArgument_inj x1 y1 h.2
    rw [e0, e1]
  | .mapType x0 x1, b, h => by
    cases b <;> simp [NodeScillaType.rv] at h
    rename_i y0 y1
    have e0 := wNodeTypeMapKey_inj x0 y0 h.1
    have e1 := wNodeTypeMapValue_inj x1 y1 h.2
    rw [e0, e1]
  | .functionType x0 x1, b, h => by
    cases b <;> simp [NodeScillaType.rv] at h
    rename_i y0 y1
    have e0 := wNodeScillaType_inj x0 y0 h.1
    have e1 := wNodeScillaType_inj x1 y1 h.2
    rw [e0, e1]
  | .enclosedType x0, b, h => by
    cases b <;> simp [NodeScillaType.rv] at h
    rename_i y0
    have e0 := wNodeScillaType_inj x0 y0 h
    rw [e0]
  | .scillaAddresseType x0, b, h => by
    cases b <;> simp [NodeScillaType.rv] at h
    rename_i y0
    have e0 := wNodeAddressType_inj x0 y0 h
    rw [e0]
  | .polyFunctionType x0 x1, b, h => by
    cases b <;> simp [NodeScillaType.rv] at h
    rename_i y0 y1
    have e0 := (W.rv_inj strInj) x0 y0 h.1
    have e1 := wNodeScillaType_inj x1 y1 h.2
    rw [e0, e1]
  | .typeVarType x0, b, h => by
    cases b <;> simp [NodeScillaType.rv] at h
    rename_i y0
    have e0 := (W.rv_inj strInj) x0 y0 h
    rw [e0]

theorem NodeTypeMapEntry.rv_inj : ∀ a b : NodeTypeMapEntry, a.rv = b.rv → a = b
  | ⟨x0, x1⟩, b, h => by
    cases b <;> simp [NodeTypeMapEntry.rv] at h
    rename_i y0 y1
    have e0 := wNodeTypeMapKey_inj x0 y0 h.1
    have e1 := wNodeTypeMapValue_inj x1 y1 h.2
    rw [e0, e1]

theorem NodeAddressTypeField.rv_inj : ∀ a b : NodeAddressTypeField, a.rv = b.rv → a = b
  | ⟨x0, x1⟩, b, h => by
    cases b <;> simp [NodeAddressTypeField.rv] at h
    rename_i y0 y1
    have e0 := (W.rv_inj NodeVariableIdentifier.rv_inj) x0 y0 h.1
    have e1 := wNodeScillaType_inj x1 y1 h.2
    rw [e0, e1]

theorem NodeAddressType.rv_inj : ∀ a b : NodeAddressType, a.rv = b.rv → a = b
  | ⟨x0, x1, x2⟩, b, h => by
    cases b <;> simp [NodeAddressType.rv] at h
    rename_i y0 y1 y2
    have e0 := (W.rv_inj NodeTypeNameIdentifier.rv_inj) x0 y0 h.1
    have e1 := (W.rv_inj strInj) x1 y1 h.2.1
    have e2 := lWNodeAddressTypeField_inj x2 y2 h.2.2
    rw [e0, e1, e2]

theorem NodeTypeMapValueArguments.rv_inj : ∀ a b : NodeTypeMapValueArguments, a.rv = b.rv → a = b
  | .enclosedTypeMapValue x0, b, h => by
    cases b <;> simp [NodeTypeMapValueArguments.rv] at h
    rename_i y0
    have e0 := wNodeTypeMapValueAllowingTypeArguments_inj x0 y0 h
    rw [e0]
  | .genericMapValueArgument x0, b, h => by
    cases b <;> simp [NodeTypeMapValueArguments.rv] at h
    rename_i y0
    have e0 := (W.rv_inj NodeMetaIdentifier.rv_inj) x0 y0 h
    rw [e0]
  | .mapKeyValueType x0 x1, b, h => by
    cases b <;> simp [NodeTypeMapValueArguments.rv] at h
    rename_i y0 y1
    have e0 := wNodeTypeMapKey_inj x0 y0 h.1
    have e1 := wNodeTypeMapValue_inj x1 y1 h.2
    rw [e0, e1]

theorem NodeTypeMapValueAllowingTypeArguments.rv_inj : ∀ a b : NodeTypeMapValueAllowingTypeArguments, a.rv = b.rv → a = b
  | .typeMapValueNoArgs x0, b, h => by
    cases b <;> simp [NodeTypeMapValueAllowingTypeArguments.rv] at h
    rename_i y0
    have e0 := wNodeTypeMapValue_inj x0 y0 h
    rw [e0]
  | .typeMapValueWithArgs x0 x1, b, h => by
    cases b <;> simp [NodeTypeMapValueAllowingTypeArguments.rv] at h
    rename_i y0 y1
    have e0 := (W.rv_inj NodeMetaIdentifier.rv_inj) x0 y0 h.1
    have e1 := lWNodeTypeMapValueArguments_inj x1 y1 h.2
    rw [e0, e1]

theorem wNodeAddressType_inj : ∀ a b : W NodeAddressType, wNodeAddressType a = wNodeAddressType b → a = b
  | ⟨n, s, e⟩, ⟨n', s', e'⟩, h => by
    simp only [wNodeAddressType, RV.node.injEq, List.cons.injEq, RV.pos.injEq, and_true, true_and] at h
    obtain ⟨h1, rfl, rfl⟩ := h
    rw [NodeAddressType.rv_inj n n' h1]

theorem wNodeTypeMapEntry_inj : ∀ a b : W NodeTypeMapEntry, wNodeTypeMapEntry a = wNodeTypeMapEntry b → a = b
  | ⟨n, s, e⟩, ⟨n', s', e'⟩, h => by
    simp only [wNodeTypeMapEntry, RV.node.injEq, List.cons.injEq, RV.pos.injEq, and_true, true_and] at h
    obtain ⟨h1, rfl, rfl⟩ := h
    rw [NodeTypeMapEntry.rv_inj n n' h1]

theorem wNodeTypeMapValueAllowingTypeArguments_inj : ∀ a b : W NodeTypeMapValueAllowingTypeArguments, wNodeTypeMapValueAllowingTypeArguments a = wNodeTypeMapValueAllowingTypeArguments b → a = b
  | ⟨n, s, e⟩, ⟨n', s', e'⟩, h => by
    simp only [wNodeTypeMapValueAllowingTypeArguments, RV.node.injEq, List.cons.injEq, RV.pos.injEq, and_true, true_and] at h
    obtain ⟨h1, rfl, rfl⟩ := h
    rw [NodeTypeMapValueAllowingTypeArguments.rv_inj n n' h1]

theorem wNodeScillaType_inj : ∀ a b : W NodeScillaType, wNodeScillaType a = wNodeScillaType b → a = b
  | ⟨n, s, e⟩, ⟨n', s', e'⟩, h => by
    simp only [wNodeScillaType, RV.node.injEq, List.cons.injEq, RV.pos.injEq, and_true, true_and] at h
    obtain ⟨h1, rfl, rfl⟩ := h
    rw [NodeScillaType.rv_inj n n' h1]

theorem wNodeTypeMapKey_inj : ∀ a b : W NodeTypeMapKey, wNodeTypeMapKey a = wNodeTypeMapKey b → a = b
  | ⟨n, s, e⟩, ⟨n', s', e'⟩, h => by
    simp only [wNodeTypeMapKey, RV.node.injEq, List.cons.injEq, RV.pos.injEq, and_true, true_and] at h
    obtain ⟨h1, rfl, rfl⟩ := h
    rw [NodeTypeMapKey.rv_inj n n' h1]

theorem wNodeTypeMapValue_inj : ∀ a b : W NodeTypeMapValue, wNodeTypeMapValue a = wNodeTypeMapValue b → a = b
  | ⟨n, s, e⟩, ⟨n', s', e'⟩, h => by
    simp only [wNodeTypeMapValue, RV.node.injEq, List.cons.injEq, RV.pos.injEq, and_true, true_and] at h
    obtain ⟨h1, rfl, rfl⟩ := h
    rw [NodeTypeMapValue.rv_inj n n' h1]

theorem lWNodeTypeArgument_inj : ∀ a b : List (W NodeTypeArgument), lWNodeTypeArgument a = lWNodeTypeArgument b → a = b
  | [], [], _ => rfl
  | [], _ :: _, h => by simp [lWNodeTypeArgument] at h
  | _ :: _, [], h => by simp [lWNodeTypeArgument] at h
  | x :: l, y :: m, h => by
    simp only [lWNodeTypeArgument, List.cons.injEq] at h
    rw [wNodeTypeArgument_inj x y h.1, lWNodeTypeArgument_inj l m h.2]

theorem wNodeTypeArgument_inj : ∀ a b : W NodeTypeArgument, wNodeTypeArgument a = wNodeTypeArgument b → a = b
  | ⟨n, s, e⟩, ⟨n', s', e'⟩, h => by
    simp only [wNodeTypeArgument, RV.node.injEq, List.cons.injEq, RV.pos.injEq, and_true, true_and] at h
    obtain ⟨h1, rfl, rfl⟩ := h
    rw [NodeTypeArgument.rv_inj n n' h1]

theorem lWNodeAddressTypeField_inj : ∀ a b : List (W NodeAddressTypeField), lWNodeAddressTypeField a = lWNodeAddressTypeField b → a = b
  | [], [], _ => rfl
  | [], _ :: _, h => by simp [lWNodeAddressTypeField] at h
  | _ :: _, [], h => by simp [lWNodeAddressTypeField] at h
  | x :: l, y :: m, h => by
    simp only [lWNodeAddressTypeField, List.cons.injEq] at h
    rw [wNodeAddressTypeField_inj x y h.1, lWNodeAddressTypeField_inj l m h.2]

theorem wNodeAddressTypeField_inj : ∀ a b : W NodeAddressTypeField, wNodeAddressTypeField a = wNodeAddressTypeField b → a = b
  | ⟨n, s, e⟩, ⟨n', s', e'⟩, h => by
    simp only [wNodeAddressTypeField, RV.node.injEq, List.cons.injEq, RV.pos.injEq, and_true, true_and] at h
    obtain ⟨h1, rfl, rfl⟩ := h
    rw [NodeAddressTypeField.rv_inj n n' h1]

theorem lWNodeTypeMapValueArguments_inj : ∀ a b : List (W NodeTypeMapValueArguments), lWNodeTypeMapValueArguments a = lWNodeTypeMapValueArguments b → a = b
  | [], [], _ => rfl
  | [], _ :: _, h => by simp [lWNodeTypeMapValueArguments] at h
  | _ :: _, [], h => by simp [lWNodeTypeMapValueArguments] at h
  | x :: l, y :: m, h => by
    simp only [lWNodeTypeMapValueArguments, List.cons.injEq] at h
    rw [wNodeTypeMapValueArguments_inj x y h.1, lWNodeTypeMapValueArguments_inj l m h.2]

theorem wNodeTypeMapValueArguments_inj : ∀ a b : W NodeTypeMapValueArguments, wNodeTypeMapValueArguments a = wNodeTypeMapValueArguments b → a = b
  | ⟨n, s, e⟩, ⟨n', s', e'⟩, h => by
    simp only [wNodeTypeMapValueArguments, RV.node.injEq, List.cons.injEq, RV.pos.injEq, and_true, true_and] at h
    obtain ⟨h1, rfl, rfl⟩ := h
    rw [NodeTypeMapValueArguments.rv_inj n n' h1]
end

theorem NodeValueLiteral.rv_inj : ∀ a b : NodeValueLiteral, a.rv = b.rv → a = b
  | .literalInt x0 x1, b, h => by
    cases b <;> simp [NodeValueLiteral.rv] at h
    rename_i y0 y1
    have e0 := (W.rv_inj NodeTypeNameIdentifier.rv_inj) x0 y0 h.1
    have e1 := (W.rv_inj strInj) x1 y1 h.2
    rw [e0, e1]
  | .literalHex x0, b, h => by
    cases b <;> simp [NodeValueLiteral.rv] at h
    rename_i y0
    have e0 := (W.rv_inj strInj) x0 y0 h
    rw [e0]
  | .literalString x0, b, h => by
    cases b <;> simp [NodeValueLiteral.rv] at h
    rename_i y0
    have e0 := (W.rv_inj strInj) x0 y0 h
    rw [e0]
  | .literalEmptyMap x0 x1, b, h => by
    cases b <;> simp [NodeValueLiteral.rv] at h
    rename_i y0 y1
    have e0 := (W.rv_inj NodeTypeMapKey.rv_inj) x0 y0 h.1
    have e1 := (W.rv_inj NodeTypeMapValue.rv_inj) x1 y1 h.2
    rw [e0, e1]

theorem NodeAtomicExpression.rv_inj : ∀ a b : NodeAtomicExpression, a.rv = b.rv → a = b
  | .atomicSid x0, b, h => by
    cases b <;> simp [NodeAtomicExpression.rv] at h
    rename_i y0
    have e0 := (W.rv_inj NodeVariableIdentifier.rv_inj) x0 y0 h
    rw [e0]
  | .atomicLit x0, b, h => by
    cases b <;> simp [NodeAtomicExpression.rv] at h
    rename_i y0
    have e0 := (W.rv_inj NodeValueLiteral.rv_inj) x0 y0 h
    rw [e0]

theorem NodeContractTypeArguments.rv_inj : ∀ a b : NodeContractTypeArguments, a.rv = b.rv → a = b
  | ⟨x0⟩, b, h => by
    cases b <;> simp [NodeContractTypeArguments.rv] at h
    rename_i y0
    have e0 := (vecRv_inj (W.rv_inj NodeTypeArgument.rv_inj)) x0 y0 h
    rw [e0]

theorem NodeMessageEntry.rv_inj : ∀ a b : NodeMessageEntry, a.rv = b.rv → a = b
  | .messageLiteral x0 x1, b, h => by
    cases b <;> simp [NodeMessageEntry.rv] at h
    rename_i y0 y1
    have e0 := (W.rv_inj NodeVariableIdentifier.rv_inj) x0 y0 h.1
    have e1 := (W.rv_inj NodeValueLiteral.rv_inj) x1 y1 h.2
    rw [e0, e1]
  | .messageVariable x0 x1, b, h => by
    cases b <;> simp [NodeMessageEntry.rv] at h
    rename_i y0 y1
    have e0 := (W.rv_inj NodeVariableIdentifier.rv_inj) x0 y0 h.1
    have e1 := (W.rv_inj NodeVariableIdentifier.rv_inj) x1 y1 h.2
    rw [e0, e1]

theorem NodeTypeAnnotation.rv_inj : ∀ a b : NodeTypeAnnotation, a.rv = b.rv → a = b
  | ⟨x0⟩, b, h => by
    cases b <;> simp [NodeTypeAnnotation.rv] at h
    rename_i y0
    have e0 := (W.rv_inj NodeScillaType.rv_inj) x0 y0 h
    rw [e0]

mutual
theorem NodePattern.rv_inj : ∀ a b : NodePattern, a.rv = b.rv → a = b
  | .wildcard, b, h => by
    cases b <;> first | rfl | (simp [NodePattern.rv] at h; done)
  | .binder x0, b, h => by
    cases b <;> simp [NodePattern.rv] at h
    rename_i y0
    have e0 := (W.rv_inj strInj) x0 y0 h
    rw [e0]
  | .constructor x0 x1, b, h => by
    cases b <;> simp [NodePattern.rv] at h
    rename_i y0 y1
    have e0 := (W.rv_inj NodeMetaIdentifier.rv_inj) x0 y0 h.1
    have e1 := lWNodeArgumentPattern_inj x1 y1 h.2
    rw [e0, e1]

theorem NodeArgumentPattern.rv_inj : ∀ a b : NodeArgumentPattern, a.rv = b.rv → a = b
  | .wildcardArgument, b, h => by
    cases b <;> first | rfl | (simp [NodeArgumentPattern.rv] at h; done)
  | .binderArgument x0, b, h => by
    cases b <;> simp [NodeArgumentPattern.rv] at h
    rename_i y0
    have e0 := (W.rv_inj strInj) x0 y0 h
    rw [e0]
  | .constructorArgument x0, b, h => by
    cases b <;> simp [NodeArgumentPattern.rv] at h
    rename_i y0
    have e0 := (W.rv_inj NodeMetaIdentifier.rv_inj) x0 y0 h
    rw [e0]
  | .patternArgument x0, b, h => by
    cases b <;> simp [NodeArgumentPattern.rv] at h
    rename_i y0
    have e0 := wNodePattern_inj x0 y0 h
    rw [e0]

theorem lWNodeArgumentPattern_inj : ∀ a b : List (W NodeArgumentPattern), lWNodeArgumentPattern a = lWNodeArgumentPattern b → a = b
  | [], [], _ => rfl
  | [], _ :: _, h => by simp [lWNodeArgumentPattern] at h
  | _ :: _, [], h => by simp [lWNodeArgumentPattern] at h
  | x :: l, y :: m, h => by
    simp only [lWNodeArgumentPattern, List.cons.injEq] at h
    rw [wNodeArgumentPattern_inj x y h.1, lWNodeArgumentPattern_inj l m h.2]

theorem wNodeArgumentPattern_inj : ∀ a b : W NodeArgumentPattern, wNodeArgumentPattern a = wNodeArgumentPattern b → a = b
  | ⟨n, s, e⟩, ⟨n', s', e'⟩, h => by
    simp only [wNodeArgumentPattern, RV.node.injEq, List.cons.injEq, RV.pos.injEq, and_true, true_and] at h
    obtain ⟨h1, rfl, rfl⟩ := h
    rw [NodeArgumentPattern.rv_inj n n' h1]

theorem wNodePattern_inj : ∀ a b : W NodePattern, wNodePattern a = wNodePattern b → a = b
  | ⟨n, s, e⟩, ⟨n', s', e'⟩, h => by
    simp only [wNodePattern, RV.node.injEq, List.cons.injEq, RV.pos.injEq, and_true, true_and] at h
    obtain ⟨h1, rfl, rfl⟩ := h
    rw [NodePattern.rv_inj n n' h1]
end

mutual
theorem NodeFullExpression.rv_inj : ∀ a b : NodeFullExpression, a.rv = b.rv → a = b
  | .localVariableDeclaration x0 x1 x2 x3, b, h => by
    cases b <;> simp [NodeFullExpression.rv] at h
    rename_i y0 y1 y2 y3
    have e0 := (W.rv_inj strInj) x0 y0 h.1
    have e1 := wNodeFullExpression_inj x1 y1 h.2.1
    have e2 := (optRv_inj (W.rv_inj NodeTypeAnnotation.rv_inj)) x2 y2 h.2.2.1
    have e3 := wNodeFullExpression_inj x3 y3 h.2.2.2
    rw [e0, e1, e2, e3]
  | .functionDeclaration x0 x1 x2, b, h => by
    cases b <;> simp [NodeFullExpression.rv] at h
    rename_i y0 y1 y2
    have e0 := (W.rv_inj strInj) x0 y0 h.1
    have e1 := (W.rv_inj NodeTypeAnnotation.rv_inj) x1 y1 h.2.1
    have e2 := wNodeFullExpression_inj x2 y2 h.2.2
    rw [e0, e1, e2]
  | .functionCall x0 x1, b, h => by
    cases b <;> simp [NodeFullExpression.rv] at h
    rename_i y0 y1
    have e0 := (W.rv_inj NodeVariableIdentifier.rv_inj) x0 y0 h.1
    have e1 := (vecRv_inj (W.rv_inj NodeVariableIdentifier.rv_inj)) x1 y1 h.2
    rw [e0, e1]
  | .expressionAtomic x0, b, h => by
    cases b <;> simp [NodeFullExpression.rv] at h
    rename_i y0
    have e0 := (W.rv_inj NodeAtomicExpression.rv_inj) x0 y0 h
    rw [e0]
  | .expressionBuiltin x0 x1 x2, b, h => by
    cases b <;> simp [NodeFullExpression.rv] at h
    rename_i y0 y1 y2
    have e0 := (W.rv_inj strInj) x0 y0 h.1
    have e1 := (optRv_inj (W.rv_inj NodeContractTypeArguments.rv_inj)) x1 y1 h.2.1
    have e2 := (W.rv_inj NodeBuiltinArguments.rv_inj) x2 y2 h.2.2
    rw [e0, e1, e2]
  | .message x0, b, h => by
    cases b <;> simp [NodeFullExpression.rv] at h
    rename_i y0
    have e0 := (vecRv_inj (W.rv_inj NodeMessageEntry.rv_inj)) x0 y0 h
    rw [e0]
  | .match_ x0 x1, b, h => by
    cases b <;> simp [NodeFullExpression.rv] at h
    rename_i y0 y1
    have e0 := (W.rv_inj NodeVariableIdentifier.rv_inj) x0 y0 h.1
    have e1 := lWNodePatternMatchExpressionClause_inj x1 y1 h.2
    rw [e0, e1]
  | .constructorCall x0 x1 x2, b, h => by
    cases b <;> simp [NodeFullExpression.rv] at h
    rename_i y0 y1 y2
    have e0 := (W.rv_inj NodeMetaIdentifier.rv_inj) x0 y0 h.1
    have e1 := (optRv_inj (W.rv_inj NodeContractTypeArguments.rv_inj)) x1 y1 h.2.1
    have e2 := (vecRv_inj (W.rv_inj NodeVariableIdentifier.rv_inj)) x2 y2 h.2.2
    rw [e0, e1, e2]
  | .templateFunction x0 x1, b, h => by
    cases b <;> simp [NodeFullExpression.rv] at h
    rename_i y0 y1
    have e0 := (W.rv_inj strInj) x0 y0 h.1
    have e1 := wNodeFullExpression_inj x1 y1 h.2
    rw [e0, e1]
  | .tApp x0 x1, b, h => by
    cases b <;> simp [NodeFullExpression.rv] at h
    rename_i y0 y1
    have e0 := (W.rv_inj NodeVariableIdentifier.rv_inj) x0 y0 h.1
    have e1 := (vecRv_inj (W.rv_inj NodeTypeArgument.rv_inj)) x1 y1 h.2
    rw [e0, e1]

theorem NodePatternMatchExpressionClause.rv_inj : ∀ a b : NodePatternMatchExpressionClause, a.rv = b.rv → a = b
  | ⟨x0, x1⟩, b, h => by
    cases b <;> simp [NodePatternMatchExpressionClause.rv] at h
    rename_i y0 y1
    have e0 := (W.rv_inj NodePattern.rv_inj) x0 y0 h.1
    have e1 := wNodeFullExpression_inj x1 y1 h.2
    rw [e0, e1]

theorem wNodeFullExpression_inj : ∀ a b : W NodeFullExpression, wNodeFullExpression a = wNodeFullExpression b → a = b
  | ⟨n, s, e⟩, ⟨n', s', e'⟩, h => by
    simp only [wNodeFullExpression, RV.node.injEq, List.cons.injEq, RV.pos.injEq, and_true, true_and] at h
    obtain ⟨h1, rfl, rfl⟩ := h
    rw [NodeFullExpression.rv_inj n n' h1]

theorem lWNodePatternMatchExpressionClause_inj : ∀ a b : List (W NodePatternMatchExpressionClause), lWNodePatternMatchExpressionClause a = lWNodePatternMatchExpressionClause b → a = b
  | [], [], _ => rfl
  | [], _ :: _, h => by simp [lWNodePatternMatchExpressionClause] at h
  | _ :: _, [], h => by simp [lWNodePatternMatchExpressionClause] at h
  | x :: l, y :: m, h => by
    simp only [lWNodePatternMatchExpressionClause, List.cons.injEq] at h
    rw [wNodePatternMatchExpressionClause_inj x y h.1, lWNodePatternMatchExpressionClause_inj l m h.2]

theorem wNodePatternMatchExpressionClause_inj : ∀ a b : W NodePatternMatchExpressionClause, wNodePatternMatchExpressionClause a = wNodePatternMatchExpressionClause b → a = b
  | ⟨n, s, e⟩, ⟨n', s', e'⟩, h => by
    simp only [wNodePatternMatchExpressionClause, RV.node.injEq, List.cons.injEq, RV.pos.injEq, and_true, true_and] at h
    obtain ⟨h1, rfl, rfl⟩ := h
    rw [NodePatternMatchExpressionClause.rv_inj n n' h1]
end

theorem NodeMapAccess.rv_inj : ∀ a b : NodeMapAccess, a.rv = b.rv → a = b
  | ⟨x0⟩, b, h => by
    cases b <;> simp [NodeMapAccess.rv] at h
    rename_i y0
    have e0 := (W.rv_inj NodeVariableIdentifier.rv_inj) x0 y0 h
    rw [e0]

theorem NodeBlockchainFetchArguments.rv_inj : ∀ a b : NodeBlockchainFetchArguments, a.rv = b.rv → a = b
  | ⟨x0⟩, b, h => by
    cases b <;> simp [NodeBlockchainFetchArguments.rv] at h
    rename_i y0
    have e0 := (vecRv_inj (W.rv_inj NodeVariableIdentifier.rv_inj)) x0 y0 h
    rw [e0]

theorem NodeComponentId.rv_inj : ∀ a b : NodeComponentId, a.rv = b.rv → a = b
  | .withTypeLikeName x0, b, h => by
    cases b <;> simp [NodeComponentId.rv] at h
    rename_i y0
    have e0 := (W.rv_inj NodeTypeNameIdentifier.rv_inj) x0 y0 h
    rw [e0]
  | .withRegularId x0, b, h => by
    cases b <;> simp [NodeComponentId.rv] at h
    rename_i y0
    have e0 := (W.rv_inj strInj) x0 y0 h
    rw [e0]

theorem NodeRemoteFetchStatement.rv_inj : ∀ a b : NodeRemoteFetchStatement, a.rv = b.rv → a = b
  | .readStateMutable x0 x1 x2, b, h => by
    cases b <;> simp [NodeRemoteFetchStatement.rv] at h
    rename_i y0 y1 y2
    have e0 := (W.rv_inj strInj) x0 y0 h.1
    have e1 := (W.rv_inj strInj) x1 y1 h.2.1
    have e2 := (W.rv_inj NodeVariableIdentifier.rv_inj) x2 y2 h.2.2
    rw [e0, e1, e2]
  | .readStateMutableSpecialId x0 x1 x2, b, h => by
    cases b <;> simp [NodeRemoteFetchStatement.rv] at h
    rename_i y0 y1 y2
    have e0 := (W.rv_inj strInj) x0 y0 h.1
    have e1 := (W.rv_inj strInj) x1 y1 h.2.1
    have e2 := (W.rv_inj strInj) x2 y2 h.2.2
    rw [e0, e1, e2]
  | .readStateMutableMapAccess x0 x1 x2 x3, b, h => by
    cases b <;> simp [NodeRemoteFetchStatement.rv] at h
    rename_i y0 y1 y2 y3
    have e0 := (W.rv_inj strInj) x0 y0 h.1
    have e1 := (W.rv_inj strInj) x1 y1 h.2.1
    have e2 := (W.rv_inj strInj) x2 y2 h.2.2.1
    have e3 := (vecRv_inj (W.rv_inj NodeMapAccess.rv_inj)) x3 y3 h.2.2.2
    rw [e0, e1, e2, e3]
  | .readStateMutableMapAccessExists x0 x1 x2 x3, b, h => by
    cases b <;> simp [NodeRemoteFetchStatement.rv] at h
    rename_i y0 y1 y2 y3
    have e0 := (W.rv_inj strInj) x0 y0 h.1
    have e1 := (W.rv_inj strInj) x1 y1 h.2.1
    have e2 := (W.rv_inj strInj) x2 y2 h.2.2.1
    have e3 := (vecRv_inj (W.rv_inj NodeMapAccess.rv_inj)) x3 y3 h.2.2.2
    rw [e0, e1, e2, e3]
  | .readStateMutableCastAddress x0 x1 x2, b, h => by
    cases b <;> simp [NodeRemoteFetchStatement.rv] at h
    rename_i y0 y1 y2
    have e0 := (W.rv_inj strInj) x0 y0 h.1
    have e1 := (W.rv_inj NodeVariableIdentifier.rv_inj) x1 y1 h.2.1
    have e2 := (W.rv_inj NodeAddressType.rv_inj) x2 y2 h.2.2
    rw [e0, e1, e2]

mutual
theorem NodePatternMatchClause.rv_inj : ∀ a b : NodePatternMatchClause, a.rv = b.rv → a = b
  | ⟨x0, x1⟩, b, h => by
    cases b <;> simp [NodePatternMatchClause.rv] at h
    rename_i y0 y1
    have e0 := (W.rv_inj NodePattern.rv_inj) x0 y0 h.1
    have e1 := oWNodeStatementBlock_inj x1 y1 h.2
    rw [e0, e1]

theorem NodeStatement.rv_inj : ∀ a b : NodeStatement, a.rv = b.rv → a = b
  | .load x0 x1, b, h => by
    cases b <;> simp [NodeStatement.rv] at h
    rename_i y0 y1
    have e0 := (W.rv_inj strInj) x0 y0 h.1
    have e1 := (W.rv_inj NodeVariableIdentifier.rv_inj) x1 y1 h.2
    rw [e0, e1]
  | .remoteFetch x0, b, h => by
    cases b <;> simp [NodeStatement.rv] at h
    rename_i y0
    have e0 := NodeRemoteFetchStatement.rv_inj x0 y0 h
    rw [e0]
  | .store x0 x1, b, h => by
    cases b <;> simp [NodeStatement.rv] at h
    rename_i y0 y1
    have e0 := (W.rv_inj strInj) x0 y0 h.1
    have e1 := (W.rv_inj NodeVariableIdentifier.rv_inj) x1 y1 h.2
    rw [e0, e1]
  | .bind x0 x1, b, h => by
    cases b <;> simp [NodeStatement.rv] at h
    rename_i y0 y1
    have e0 := (W.rv_inj strInj) x0 y0 h.1
    have e1 := (W.rv_inj NodeFullExpression.rv_inj) x1 y1 h.2
    rw [e0, e1]
  | .readFromBC x0 x1 x2, b, h => by
    cases b <;> simp [NodeStatement.rv] at h
    rename_i y0 y1 y2
    have e0 := (W.rv_inj strInj) x0 y0 h.1
    have e1 := (W.rv_inj NodeTypeNameIdentifier.rv_inj) x1 y1 h.2.1
    have e2 := (optRv_inj NodeBlockchainFetchArguments.rv_inj) x2 y2 h.2.2
    rw [e0, e1, e2]
  | .mapGet x0 x1 x2, b, h => by
    cases b <;> simp [NodeStatement.rv] at h
    rename_i y0 y1 y2
    have e0 := (W.rv_inj strInj) x0 y0 h.1
    have e1 := (vecRv_inj (W.rv_inj NodeMapAccess.rv_inj)) x1 y1 h.2.1
    have e2 := (W.rv_inj strInj) x2 y2 h.2.2
    rw [e0, e1, e2]
  | .mapGetExists x0 x1 x2, b, h => by
    cases b <;> simp [NodeStatement.rv] at h
    rename_i y0 y1 y2
    have e0 := (W.rv_inj strInj) x0 y0 h.1
    have e1 := (vecRv_inj (W.rv_inj NodeMapAccess.rv_inj)) x1 y1 h.2.1
    have e2 := (W.rv_inj strInj) x2 y2 h.2.2
    rw [e0, e1, e2]
  | .mapUpdate x0 x1 x2, b, h => by
    cases b <;> simp [NodeStatement.rv] at h
    rename_i y0 y1 y2
    have e0 := (W.rv_inj strInj) x0 y0 h.1
    have e1 := (vecRv_inj (W.rv_inj NodeMapAccess.rv_inj)) x1 y1 h.2.1
    have e2 := (W.rv_inj NodeVariableIdentifier.rv_inj) x2 y2 h.2.2
    rw [e0, e1, e2]
  | .mapUpdateDelete x0 x1, b, h => by
    cases b <;> simp [NodeStatement.rv] at h
    rename_i y0 y1
    have e0 := (W.rv_inj strInj) x0 y0 h.1
    have e1 := (vecRv_inj (W.rv_inj NodeMapAccess.rv_inj)) x1 y1 h.2
    rw [e0, e1]
  | .accept, b, h => by
    cases b <;> first | rfl | (simp [NodeStatement.rv] at h; done)
  | .send x0, b, h => by
    cases b <;> simp [NodeStatement.rv] at h
    rename_i y0
    have e0 := (W.rv_inj NodeVariableIdentifier.rv_inj) x0 y0 h
    rw [e0]
  | .createEvnt x0, b, h => by
    cases b <;> simp [NodeStatement.rv] at h
    rename_i y0
    have e0 := (W.rv_inj NodeVariableIdentifier.rv_inj) x0 y0 h
    rw [e0]
  | .throw x0, b, h => by
    cases b <;> simp [NodeStatement.rv] at h
    rename_i y0
    have e0 := (optRv_inj (W.rv_inj NodeVariableIdentifier.rv_inj)) x0 y0 h
    rw [e0]
  | .matchStmt x0 x1, b, h => by
    cases b <;> simp [NodeStatement.rv] at h
    rename_i y0 y1
    have e0 := (W.rv_inj NodeVariableIdentifier.rv_inj) x0 y0 h.1
    have e1 := lWNodePatternMatchClause_inj x1 y1 h.2
    rw [e0, e1]
  | .callProc x0 x1, b, h => by
    cases b <;> simp [NodeStatement.rv] at h
    rename_i y0 y1
    have e0 := (W.rv_inj NodeComponentId.rv_inj) x0 y0 h.1
    have e1 := (vecRv_inj (W.rv_inj NodeVariableIdentifier.rv_inj)) x1 y1 h.2
    rw [e0, e1]
  | .iterate x0 x1, b, h => by
    cases b <;> simp [NodeStatement.rv] at h
    rename_i y0 y1
    have e0 := (W.rv_inj NodeVariableIdentifier.rv_inj) x0 y0 h.1
    have e1 := (W.rv_inj NodeComponentId.rv_inj) x1 y1 h.2
    rw [e0, e1]

theorem NodeStatementBlock.rv_inj : ∀ a b : NodeStatementBlock, a.rv = b.rv → a = b
  | ⟨x0⟩, b, h => by
    cases b <;> simp [NodeStatementBlock.rv] at h
    rename_i y0
    have e0 := lNodeStatement_inj x0 y0 h
    rw [e0]

theorem oWNodeStatementBlock_inj : ∀ a b : Option (W NodeStatementBlock), oWNodeStatementBlock a = oWNodeStatementBlock b → a = b
  | none, none, _ => rfl
  | none, some _, h => absurd h.symm RV.some_ne_none
  | some _, none, h => absurd h RV.some_ne_none
  | some x, some y, h => by
    simp only [oWNodeStatementBlock] at h
    rw [wNodeStatementBlock_inj x y (RV.some_inj h)]

theorem wNodeStatementBlock_inj : ∀ a b : W NodeStatementBlock, wNodeStatementBlock a = wNodeStatementBlock b → a = b
  | ⟨n, s, e⟩, ⟨n', s', e'⟩, h => by
    simp only [wNodeStatementBlock, RV.node.injEq, List.cons.injEq, RV.pos.injEq, and_true, true_and] at h
    obtain ⟨h1, rfl, rfl⟩ := h
    rw [NodeStatementBlock.rv_inj n n' h1]

theorem lWNodePatternMatchClause_inj : ∀ a b : List (W NodePatternMatchClause), lWNodePatternMatchClause a = lWNodePatternMatchClause b → a = b
  | [], [], _ => rfl
  | [], _ :: _, h => by simp [lWNodePatternMatchClause] at h
  | _ :: _, [], h => by simp [lWNodePatternMatchClause] at h
  | x :: l, y :: m, h => by
    simp only [lWNodePatternMatchClause, List.cons.injEq] at h
    rw [wNodePatternMatchClause_inj x y h.1, lWNodePatternMatchClause_inj l m h.2]

theorem wNodePatternMatchClause_inj : ∀ a b : W NodePatternMatchClause, wNodePatternMatchClause a = wNodePatternMatchClause b → a = b
  | ⟨n, s, e⟩, ⟨n', s', e'⟩, h => by
    simp only [wNodePatternMatchClause, RV.node.injEq, List.cons.injEq, RV.pos.injEq, and_true, true_and] at h
    obtain ⟨h1, rfl, rfl⟩ := h
    rw [NodePatternMatchClause.rv_inj n n' h1]

theorem lNodeStatement_inj : ∀ a b : List NodeStatement, lNodeStatement a = lNodeStatement b → a = b
  | [], [], _ => rfl
  | [], _ :: _, h => by simp [lNodeStatement] at h
  | _ :: _, [], h => by simp [lNodeStatement] at h
  | x :: l, y :: m, h => by
    simp only [lNodeStatement, List.cons.injEq] at h
    rw [NodeStatement.rv_inj x y h.1, lNodeStatement_inj l m h.2]
end

theorem NodeTypedIdentifier.rv_inj : ∀ a b : NodeTypedIdentifier, a.rv = b.rv → a = b
  | ⟨x0, x1⟩, b, h => by
    cases b <;> simp [NodeTypedIdentifier.rv] at h
    rename_i y0 y1
    have e0 := (W.rv_inj strInj) x0 y0 h.1
    have e1 := (W.rv_inj NodeTypeAnnotation.rv_inj) x1 y1 h.2
    rw [e0, e1]

theorem NodeParameterPair.rv_inj : ∀ a b : NodeParameterPair, a.rv = b.rv → a = b
  | ⟨x0⟩, b, h => by
    cases b <;> simp [NodeParameterPair.rv] at h
    rename_i y0
    have e0 := (W.rv_inj NodeTypedIdentifier.rv_inj) x0 y0 h
    rw [e0]

theorem NodeComponentParameters.rv_inj : ∀ a b : NodeComponentParameters, a.rv = b.rv → a = b
  | ⟨x0⟩, b, h => by
    cases b <;> simp [NodeComponentParameters.rv] at h
    rename_i y0
    have e0 := (vecRv_inj (W.rv_inj NodeParameterPair.rv_inj)) x0 y0 h
    rw [e0]

theorem NodeComponentBody.rv_inj : ∀ a b : NodeComponentBody, a.rv = b.rv → a = b
  | ⟨x0⟩, b, h => by
    cases b <;> simp [NodeComponentBody.rv] at h
    rename_i y0
    have e0 := (optRv_inj (W.rv_inj NodeStatementBlock.rv_inj)) x0 y0 h
    rw [e0]

theorem NodeProcedureDefinition.rv_inj : ∀ a b : NodeProcedureDefinition, a.rv = b.rv → a = b
  | ⟨x0, x1, x2⟩, b, h => by
    cases b <;> simp [NodeProcedureDefinition.rv] at h
    rename_i y0 y1 y2
    have e0 := (W.rv_inj NodeComponentId.rv_inj) x0 y0 h.1
    have e1 := (W.rv_inj NodeComponentParameters.rv_inj) x1 y1 h.2.1
    have e2 := (W.rv_inj NodeComponentBody.rv_inj) x2 y2 h.2.2
    rw [e0, e1, e2]

theorem NodeTransitionDefinition.rv_inj : ∀ a b : NodeTransitionDefinition, a.rv = b.rv → a = b
  | ⟨x0, x1, x2⟩, b, h => by
    cases b <;> simp [NodeTransitionDefinition.rv] at h
    rename_i y0 y1 y2
    have e0 := (W.rv_inj NodeComponentId.rv_inj) x0 y0 h.1
    have e1 := (W.rv_inj NodeComponentParameters.rv_inj) x1 y1 h.2.1
    have e2 := (W.rv_inj NodeComponentBody.rv_inj) x2 y2 h.2.2
    rw [e0, e1, e2]

theorem NodeComponentDefinition.rv_inj : ∀ a b : NodeComponentDefinition, a.rv = b.rv → a = b
  | .transitionComponent x0, b, h => by
    cases b <;> simp [NodeComponentDefinition.rv] at h
    rename_i y0
    have e0 := (W.rv_inj NodeTransitionDefinition.rv_inj) x0 y0 h
    rw [e0]
  | .procedureComponent x0, b, h => by
    cases b <;> simp [NodeComponentDefinition.rv] at h
    rename_i y0
    have e0 := (W.rv_inj NodeProcedureDefinition.rv_inj) x0 y0 h
    rw [e0]

theorem NodeContractField.rv_inj : ∀ a b : NodeContractField, a.rv = b.rv → a = b
  | ⟨x0, x1⟩, b, h => by
    cases b <;> simp [NodeContractField.rv] at h
    rename_i y0 y1
    have e0 := (W.rv_inj NodeTypedIdentifier.rv_inj) x0 y0 h.1
    have e1 := (W.rv_inj NodeFullExpression.rv_inj) x1 y1 h.2
    rw [e0, e1]

theorem NodeWithConstraint.rv_inj : ∀ a b : NodeWithConstraint, a.rv = b.rv → a = b
  | ⟨x0⟩, b, h => by
    cases b <;> simp [NodeWithConstraint.rv] at h
    rename_i y0
    have e0 := (W.rv_inj NodeFullExpression.rv_inj) x0 y0 h
    rw [e0]

theorem NodeContractDefinition.rv_inj : ∀ a b : NodeContractDefinition, a.rv = b.rv → a = b
  | ⟨x0, x1, x2, x3, x4⟩, b, h => by
    cases b <;> simp [NodeContractDefinition.rv] at h
    rename_i y0 y1 y2 y3 y4
    have e0 := (W.rv_inj NodeTypeNameIdentifier.rv_inj) x0 y0 h.1
    have e1 := (W.rv_inj NodeComponentParameters.rv_inj) x1 y1 h.2.1
    have e2 := (optRv_inj (W.rv_inj NodeWithConstraint.rv_inj)) x2 y2 h.2.2.1
    have e3 := (vecRv_inj (W.rv_inj NodeContractField.rv_inj)) x3 y3 h.2.2.2.1
    have e4 := (vecRv_inj (W.rv_inj NodeComponentDefinition.rv_inj)) x4 y4 h.2.2.2.2
    rw [e0, e1, e2, e3, e4]

theorem NodeTypeAlternativeClause.rv_inj : ∀ a b : NodeTypeAlternativeClause, a.rv = b.rv → a = b
  | .clauseType x0, b, h => by
    cases b <;> simp [NodeTypeAlternativeClause.rv] at h
    rename_i y0
    have e0 := (W.rv_inj NodeTypeNameIdentifier.rv_inj) x0 y0 h
    rw [e0]
  | .clauseTypeWithArgs x0 x1, b, h => by
    cases b <;> simp [NodeTypeAlternativeClause.rv] at h
    rename_i y0 y1
    have e0 := (W.rv_inj NodeTypeNameIdentifier.rv_inj) x0 y0 h.1
    have e1 := (vecRv_inj (W.rv_inj NodeTypeArgument.rv_inj)) x1 y1 h.2
    rw [e0, e1]

theorem NodeLibrarySingleDefinition.rv_inj : ∀ a b : NodeLibrarySingleDefinition, a.rv = b.rv → a = b
  | .letDefinition x0 x1 x2, b, h => by
    cases b <;> simp [NodeLibrarySingleDefinition.rv] at h
    rename_i y0 y1 y2
    have e0 := (W.rv_inj strInj) x0 y0 h.1
    have e1 := (optRv_inj (W.rv_inj NodeTypeAnnotation.rv_inj)) x1 y1 h.2.1
    have e2 := (W.rv_inj NodeFullExpression.rv_inj) x2 y2 h.2.2
    rw [e0, e1, e2]
  | .typeDefinition x0 x1, b, h => by
    cases b <;> simp [NodeLibrarySingleDefinition.rv] at h
    rename_i y0 y1
    have e0 := (W.rv_inj NodeTypeNameIdentifier.rv_inj) x0 y0 h.1
    have e1 := (optRv_inj (vecRv_inj (W.rv_inj NodeTypeAlternativeClause.rv_inj))) x1 y1 h.2
    rw [e0, e1]

theorem NodeLibraryDefinition.rv_inj : ∀ a b : NodeLibraryDefinition, a.rv = b.rv → a = b
  | ⟨x0, x1⟩, b, h => by
    cases b <;> simp [NodeLibraryDefinition.rv] at h
    rename_i y0 y1
    have e0 := (W.rv_inj NodeTypeNameIdentifier.rv_inj) x0 y0 h.1
    have e1 := (vecRv_inj (W.rv_inj NodeLibrarySingleDefinition.rv_inj)) x1 y1 h.2
    rw [e0, e1]

theorem NodeProgram.rv_inj : ∀ a b : NodeProgram, a.rv = b.rv → a = b
  | ⟨x0, x1, x2, x3⟩, b, h => by
    cases b <;> simp [NodeProgram.rv] at h
    rename_i y0 y1 y2 y3
    have e0 := (W.rv_inj strInj) x0 y0 h.1
    have e1 := (optRv_inj (W.rv_inj NodeImportDeclarations.rv_inj)) x1 y1 h.2.1
    have e2 := (optRv_inj (W.rv_inj NodeLibraryDefinition.rv_inj)) x2 y2 h.2.2.1
    have e3 := (W.rv_inj NodeContractDefinition.rv_inj) x3 y3 h.2.2.2
    rw [e0, e1, e2, e3]

theorem rv_inj : ∀ (n : NT) (a b : Val n), rv n a = rv n b → a = b
  | .byteString => NodeByteStr.rv_inj
  | .typeName => W.rv_inj NodeTypeNameIdentifier.rv_inj
  | .importedName => W.rv_inj NodeImportedName.rv_inj
  | .importDecls => W.rv_inj NodeImportDeclarations.rv_inj
  | .metaId => W.rv_inj NodeMetaIdentifier.rv_inj
  | .varId => W.rv_inj NodeVariableIdentifier.rv_inj
  | .builtinArgs => W.rv_inj NodeBuiltinArguments.rv_inj
  | .remaining => W.rv_inj NodeScillaType.rv_inj
  | .funSig => W.rv_inj NodeScillaType.rv_inj
  | .scillaType => W.rv_inj NodeScillaType.rv_inj
  | .typeArg => W.rv_inj NodeTypeArgument.rv_inj
  | .addressType => W.rv_inj NodeAddressType.rv_inj
  | .addressFieldList => vecRv_inj (W.rv_inj NodeAddressTypeField.rv_inj)
  | .nextAddressField => W.rv_inj NodeAddressTypeField.rv_inj
  | .addressField => W.rv_inj NodeAddressTypeField.rv_inj
  | .mapKey => W.rv_inj NodeTypeMapKey.rv_inj
  | .mapValue => W.rv_inj NodeTypeMapValue.rv_inj
  | .mapValueArgs => W.rv_inj NodeTypeMapValueArguments.rv_inj
  | .program => NodeProgram.rv_inj
  | .libraryDef => W.rv_inj NodeLibraryDefinition.rv_inj
  | .librarySingle => W.rv_inj NodeLibrarySingleDefinition.rv_inj
  | .typedId => W.rv_inj NodeTypedIdentifier.rv_inj
  | .typeAnn => W.rv_inj NodeTypeAnnotation.rv_inj
  | .typeAlt => W.rv_inj NodeTypeAlternativeClause.rv_inj
  | .mapValueAllowing => W.rv_inj NodeTypeMapValueAllowingTypeArguments.rv_inj
  | .contractTypeArgs => W.rv_inj NodeContractTypeArguments.rv_inj
  | .fullExpr => W.rv_inj NodeFullExpression.rv_inj
  | .pmExprClause => W.rv_inj NodePatternMatchExpressionClause.rv_inj
  | .pattern => W.rv_inj NodePattern.rv_inj
  | .argPattern => W.rv_inj NodeArgumentPattern.rv_inj
  | .nextMessage => W.rv_inj NodeMessageEntry.rv_inj
  | .messageEntry => W.rv_inj NodeMessageEntry.rv_inj
  | .atomic => W.rv_inj NodeAtomicExpression.rv_inj
  | .valueLit => W.rv_inj NodeValueLiteral.rv_inj
  | .statement => NodeStatement.rv_inj
  | .nextStatement => NodeStatement.rv_inj
  | .stmtBlock => W.rv_inj NodeStatementBlock.rv_inj
  | .bcFetchArgs => NodeBlockchainFetchArguments.rv_inj
  | .componentId => W.rv_inj NodeComponentId.rv_inj
  | .pmClause => W.rv_inj NodePatternMatchClause.rv_inj
  | .remoteFetch => NodeRemoteFetchStatement.rv_inj
  | .mapAccess => W.rv_inj NodeMapAccess.rv_inj
  | .paramPair => W.rv_inj NodeParameterPair.rv_inj
  | .nextParamPair => W.rv_inj NodeParameterPair.rv_inj
  | .compParams => W.rv_inj NodeComponentParameters.rv_inj
  | .compDef => W.rv_inj NodeComponentDefinition.rv_inj
  | .transDef => W.rv_inj NodeTransitionDefinition.rv_inj
  | .procDef => W.rv_inj NodeProcedureDefinition.rv_inj
  | .compBody => W.rv_inj NodeComponentBody.rv_inj
  | .contractDef => W.rv_inj NodeContractDefinition.rv_inj
  | .contractField => W.rv_inj NodeContractField.rv_inj
  | .withConstraint => W.rv_inj NodeWithConstraint.rv_inj
  | .hexNumber => W.rv_inj strInj
  | .signedInt => W.rv_inj strInj
  | .regularId => W.rv_inj strInj
  | .specialId => W.rv_inj strInj
  | .customId => W.rv_inj strInj
  | .templateId => W.rv_inj strInj
  | .stringLit => W.rv_inj strInj
  | .star n => vecRv_inj (rv_inj n)
  | .plus n => vecRv_inj (rv_inj n)
  | .opt n => optRv_inj (rv_inj n)

end Verif
