import Verif.Proofs.StripEmit
import Verif.Spec.Interface
/-
Positions do not influence what a written type denotes.
-/
namespace Verif

set_option linter.unusedSimpArgs false

theorem plainName_strip (n : NodeTypeNameIdentifier) : plainName n.strip = plainName n := by
  cases n with
  | byteStringType b => cases b <;> rfl
  | eventType => rfl
  | typeOrEnumLikeIdentifier s => rfl

theorem metaText_strip (n : NodeMetaIdentifier) : metaText n.strip = metaText n := by
  cases n <;> simp only [NodeMetaIdentifier.strip.eq_1, NodeMetaIdentifier.strip.eq_2,
    NodeMetaIdentifier.strip.eq_3, NodeMetaIdentifier.strip.eq_4, metaText, W.strip_node, plainName_strip]

theorem readName_strip (n : NodeMetaIdentifier) : readName n.strip = readName n := by
  simp only [readName, metaText_strip]

theorem applyName_strip (n : NodeMetaIdentifier) (l : List Reading) :
    applyName n.strip l = applyName n l := by
  simp only [applyName, metaText_strip]

mutual
theorem readKeyW_strip : ∀ w : W NodeTypeMapKey, readKeyW (NodeTypeMapKey.stripW w) = readKeyW w
  | ⟨.genericMapKey m, _, _⟩ => by
    simp only [NodeTypeMapKey.stripW, NodeTypeMapKey.strip, readKeyW, readKey, W.strip_node, readName_strip, applyName_strip]
  | ⟨.enclosedGenericId m, _, _⟩ => by
    simp only [NodeTypeMapKey.stripW, NodeTypeMapKey.strip, readKeyW, readKey, W.strip_node, readName_strip, applyName_strip]
  | ⟨.enclosedAddressMapKeyType a, _, _⟩ => by
    simp only [NodeTypeMapKey.stripW, NodeTypeMapKey.strip, readKeyW, readKey, readAddrW_strip a]
  | ⟨.addressMapKeyType a, _, _⟩ => by
    simp only [NodeTypeMapKey.stripW, NodeTypeMapKey.strip, readKeyW, readKey, readAddrW_strip a]
theorem readValueW_strip : ∀ w : W NodeTypeMapValue,
    readValueW (NodeTypeMapValue.stripW w) = readValueW w
  | ⟨.mapValueTypeOrEnumLikeIdentifier m, _, _⟩ => by
    simp only [NodeTypeMapValue.stripW, NodeTypeMapValue.strip, readValueW, readValue, W.strip_node,
      readName_strip, applyName_strip]
  | ⟨.mapKeyValue ⟨.mk k v, _, _⟩, _, _⟩ => by
    simp only [NodeTypeMapValue.stripW, NodeTypeMapValue.strip, readValueW, readValue,
      NodeTypeMapEntry.stripW, NodeTypeMapEntry.strip, readEntryW, readEntry, readKeyW_strip k,
      readValueW_strip v]
  | ⟨.mapValueParenthesizedType t, _, _⟩ => by
    simp only [NodeTypeMapValue.stripW, NodeTypeMapValue.strip, readValueW, readValue, readMvW_strip t]
  | ⟨.mapValueAddressType a, _, _⟩ => by
    simp only [NodeTypeMapValue.stripW, NodeTypeMapValue.strip, readValueW, readValue, readAddrW_strip a]
theorem readArgW_strip : ∀ w : W NodeTypeArgument,
    readArgW (NodeTypeArgument.stripW w) = readArgW w
  | ⟨.enclosedTypeArgument t, _, _⟩ => by
    simp only [NodeTypeArgument.stripW, NodeTypeArgument.strip, readArgW, readArg, readTypeW_strip t]
  | ⟨.genericTypeArgument m, _, _⟩ => by
    simp only [NodeTypeArgument.stripW, NodeTypeArgument.strip, readArgW, readArg, W.strip_node,
      readName_strip, applyName_strip]
  | ⟨.templateTypeArgument _, _, _⟩ => by
    simp only [NodeTypeArgument.stripW, NodeTypeArgument.strip, readArgW, readArg]
  | ⟨.addressTypeArgument a, _, _⟩ => by
    simp only [NodeTypeArgument.stripW, NodeTypeArgument.strip, readArgW, readArg, readAddrW_strip a]
  | ⟨.mapTypeArgument k v, _, _⟩ => by
    simp only [NodeTypeArgument.stripW, NodeTypeArgument.strip, readArgW, readArg, readKeyW_strip k,
      readValueW_strip v]
theorem readTypeW_strip : ∀ w : W NodeScillaType,
    readTypeW (NodeScillaType.stripW w) = readTypeW w
  | ⟨.genericTypeWithArgs m [], _, _⟩ => by
    simp only [NodeScillaType.stripW, NodeScillaType.strip, NodeTypeArgument.stripLW, readTypeW, readType,
      W.strip_node, readName_strip, applyName_strip]
  | ⟨.genericTypeWithArgs m (a :: as), _, _⟩ => by
    simp only [NodeScillaType.stripW, NodeScillaType.strip, NodeTypeArgument.stripLW, readTypeW, readType,
      W.strip_node, readName_strip, applyName_strip, readArgs, readArgW_strip a, readArgs_strip as]
  | ⟨.mapType k v, _, _⟩ => by
    simp only [NodeScillaType.stripW, NodeScillaType.strip, readTypeW, readType, readKeyW_strip k,
      readValueW_strip v]
  | ⟨.functionType _ _, _, _⟩ => by
    simp only [NodeScillaType.stripW, NodeScillaType.strip, readTypeW, readType]
  | ⟨.enclosedType t, _, _⟩ => by
    simp only [NodeScillaType.stripW, NodeScillaType.strip, readTypeW, readType, readTypeW_strip t]
  | ⟨.scillaAddresseType a, _, _⟩ => by
    simp only [NodeScillaType.stripW, NodeScillaType.strip, readTypeW, readType, readAddrW_strip a]
  | ⟨.polyFunctionType _ _, _, _⟩ => by
    simp only [NodeScillaType.stripW, NodeScillaType.strip, readTypeW, readType]
  | ⟨.typeVarType _, _, _⟩ => by
    simp only [NodeScillaType.stripW, NodeScillaType.strip, readTypeW, readType]
theorem readAddrW_strip : ∀ w : W NodeAddressType,
    readAddrW (NodeAddressType.stripW w) = readAddrW w
  | ⟨.mk i tn fs, _, _⟩ => by
    simp only [NodeAddressType.stripW, NodeAddressType.strip, readAddrW, readAddr, W.strip_node,
      plainName_strip, readFields_strip fs, id]
theorem readMvaW_strip : ∀ w : W NodeTypeMapValueArguments,
    readMvaW (NodeTypeMapValueArguments.stripW w) = readMvaW w
  | ⟨.enclosedTypeMapValue t, _, _⟩ => by
    simp only [NodeTypeMapValueArguments.stripW, NodeTypeMapValueArguments.strip, readMvaW, readMva,
      readMvW_strip t]
  | ⟨.genericMapValueArgument m, _, _⟩ => by
    simp only [NodeTypeMapValueArguments.stripW, NodeTypeMapValueArguments.strip, readMvaW, readMva,
      W.strip_node, readName_strip, applyName_strip]
  | ⟨.mapKeyValueType k v, _, _⟩ => by
    simp only [NodeTypeMapValueArguments.stripW, NodeTypeMapValueArguments.strip, readMvaW, readMva]
theorem readMvW_strip : ∀ w : W NodeTypeMapValueAllowingTypeArguments,
    readMvW (NodeTypeMapValueAllowingTypeArguments.stripW w) = readMvW w
  | ⟨.typeMapValueNoArgs v, _, _⟩ => by
    simp only [NodeTypeMapValueAllowingTypeArguments.stripW,
      NodeTypeMapValueAllowingTypeArguments.strip, readMvW, readMv, readValueW_strip v]
  | ⟨.typeMapValueWithArgs m [], _, _⟩ => by
    simp only [NodeTypeMapValueAllowingTypeArguments.stripW,
      NodeTypeMapValueAllowingTypeArguments.strip, NodeTypeMapValueArguments.stripLW, readMvW, readMv,
      W.strip_node, readName_strip, applyName_strip]
  | ⟨.typeMapValueWithArgs m (a :: as), _, _⟩ => by
    simp only [NodeTypeMapValueAllowingTypeArguments.stripW,
      NodeTypeMapValueAllowingTypeArguments.strip, NodeTypeMapValueArguments.stripLW, readMvW, readMv,
      W.strip_node, readName_strip, applyName_strip, readMvas, readMvaW_strip a, readMvas_strip as]
theorem readArgs_strip : ∀ l : List (W NodeTypeArgument),
    readArgs (NodeTypeArgument.stripLW l) = readArgs l
  | [] => rfl
  | a :: as => by
    simp only [NodeTypeArgument.stripLW, readArgs, readArgW_strip a, readArgs_strip as]
theorem readMvas_strip : ∀ l : List (W NodeTypeMapValueArguments),
    readMvas (NodeTypeMapValueArguments.stripLW l) = readMvas l
  | [] => rfl
  | a :: as => by
    simp only [NodeTypeMapValueArguments.stripLW, readMvas, readMvaW_strip a, readMvas_strip as]
theorem readFields_strip : ∀ l : List (W NodeAddressTypeField),
    readFields (NodeAddressTypeField.stripLW l) = readFields l
  | [] => rfl
  | ⟨.mk ⟨.variableName x, _, _⟩ t, _, _⟩ :: as => by
    simp only [NodeAddressTypeField.stripLW, NodeAddressTypeField.stripW, NodeAddressTypeField.strip,
      W.strip, NodeVariableIdentifier.strip, readFields, readTypeW_strip t,
      readFields_strip as, id]
  | ⟨.mk ⟨.specialIdentifier x, _, _⟩ t, _, _⟩ :: as => by
    simp only [NodeAddressTypeField.stripLW, NodeAddressTypeField.stripW, NodeAddressTypeField.strip,
      W.strip, NodeVariableIdentifier.strip, readFields, readFields_strip as, id]
  | ⟨.mk ⟨.variableInNamespace _ _, _, _⟩ t, _, _⟩ :: as => by
    simp only [NodeAddressTypeField.stripLW, NodeAddressTypeField.stripW, NodeAddressTypeField.strip,
      W.strip, NodeVariableIdentifier.strip, readFields, readFields_strip as, id]
end

end Verif
