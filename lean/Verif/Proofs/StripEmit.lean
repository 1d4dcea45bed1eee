import Verif.Proofs.StripDerives
import Verif.Proofs.EmitContract
/-
Positions do not influence the emitter.
-/
namespace Verif

set_option linter.unusedSimpArgs false

variable (dbg : StackObj → Str)

theorem display_strip (n : NodeTypeNameIdentifier) : n.strip.display = n.display := by
  cases n with
  | byteStringType b => cases b <;> rfl
  | eventType => rfl
  | typeOrEnumLikeIdentifier s => rfl

theorem evTypeName_strip (n : NodeTypeNameIdentifier) : evTypeName n.strip = evTypeName n := by
  cases n with
  | byteStringType b => cases b <;> rfl
  | eventType => rfl
  | typeOrEnumLikeIdentifier s => rfl

theorem evMeta_strip (n : NodeMetaIdentifier) : evMeta n.strip = evMeta n := by
  cases n <;> simp only [NodeMetaIdentifier.strip.eq_1, NodeMetaIdentifier.strip.eq_2,
    NodeMetaIdentifier.strip.eq_3, NodeMetaIdentifier.strip.eq_4, evMeta, W.strip_node, evTypeName_strip]

mutual
theorem evKeyW_strip : ∀ w : W NodeTypeMapKey, evKeyW dbg (NodeTypeMapKey.stripW w) = evKeyW dbg w
  | ⟨.genericMapKey m, _, _⟩ => by
    simp only [NodeTypeMapKey.stripW, NodeTypeMapKey.strip, evKeyW, evKey, W.strip_node, evMeta_strip]
  | ⟨.enclosedGenericId m, _, _⟩ => by
    simp only [NodeTypeMapKey.stripW, NodeTypeMapKey.strip, evKeyW, evKey, W.strip_node, evMeta_strip]
  | ⟨.enclosedAddressMapKeyType a, _, _⟩ => by
    simp only [NodeTypeMapKey.stripW, NodeTypeMapKey.strip, evKeyW, evKey, evAddrW_strip a]
  | ⟨.addressMapKeyType a, _, _⟩ => by
    simp only [NodeTypeMapKey.stripW, NodeTypeMapKey.strip, evKeyW, evKey, evAddrW_strip a]
theorem evValueW_strip : ∀ w : W NodeTypeMapValue,
    evValueW dbg (NodeTypeMapValue.stripW w) = evValueW dbg w
  | ⟨.mapValueTypeOrEnumLikeIdentifier m, _, _⟩ => by
    simp only [NodeTypeMapValue.stripW, NodeTypeMapValue.strip, evValueW, evValue, W.strip_node,
      evMeta_strip]
  | ⟨.mapKeyValue ⟨.mk k v, _, _⟩, _, _⟩ => by
    simp only [NodeTypeMapValue.stripW, NodeTypeMapValue.strip, evValueW, evValue,
      NodeTypeMapEntry.stripW, NodeTypeMapEntry.strip, evEntryW, evEntry, evKeyW_strip k,
      evValueW_strip v]
  | ⟨.mapValueParenthesizedType t, _, _⟩ => by
    simp only [NodeTypeMapValue.stripW, NodeTypeMapValue.strip, evValueW, evValue, evMvW_strip t]
  | ⟨.mapValueAddressType a, _, _⟩ => by
    simp only [NodeTypeMapValue.stripW, NodeTypeMapValue.strip, evValueW, evValue, evAddrW_strip a]
theorem evArgW_strip : ∀ w : W NodeTypeArgument,
    evArgW dbg (NodeTypeArgument.stripW w) = evArgW dbg w
  | ⟨.enclosedTypeArgument t, _, _⟩ => by
    simp only [NodeTypeArgument.stripW, NodeTypeArgument.strip, evArgW, evArg, evTypeW_strip t]
  | ⟨.genericTypeArgument m, _, _⟩ => by
    simp only [NodeTypeArgument.stripW, NodeTypeArgument.strip, evArgW, evArg, W.strip_node,
      evMeta_strip]
  | ⟨.templateTypeArgument _, _, _⟩ => by
    simp only [NodeTypeArgument.stripW, NodeTypeArgument.strip, evArgW, evArg]
  | ⟨.addressTypeArgument a, _, _⟩ => by
    simp only [NodeTypeArgument.stripW, NodeTypeArgument.strip, evArgW, evArg, evAddrW_strip a]
  | ⟨.mapTypeArgument k v, _, _⟩ => by
    simp only [NodeTypeArgument.stripW, NodeTypeArgument.strip, evArgW, evArg, evKeyW_strip k,
      evValueW_strip v]
theorem evTypeW_strip : ∀ w : W NodeScillaType,
    evTypeW dbg (NodeScillaType.stripW w) = evTypeW dbg w
  | ⟨.genericTypeWithArgs m [], _, _⟩ => by
    simp only [NodeScillaType.stripW, NodeScillaType.strip, NodeTypeArgument.stripLW, evTypeW, evType,
      W.strip_node, evMeta_strip]
  | ⟨.genericTypeWithArgs m (a :: as), _, _⟩ => by
    simp only [NodeScillaType.stripW, NodeScillaType.strip, NodeTypeArgument.stripLW, evTypeW, evType,
      W.strip_node, evMeta_strip, evArgs, evArgW_strip a, evArgs_strip as]
  | ⟨.mapType k v, _, _⟩ => by
    simp only [NodeScillaType.stripW, NodeScillaType.strip, evTypeW, evType, evKeyW_strip k,
      evValueW_strip v]
  | ⟨.functionType _ _, _, _⟩ => by
    simp only [NodeScillaType.stripW, NodeScillaType.strip, evTypeW, evType]
  | ⟨.enclosedType t, _, _⟩ => by
    simp only [NodeScillaType.stripW, NodeScillaType.strip, evTypeW, evType, evTypeW_strip t]
  | ⟨.scillaAddresseType a, _, _⟩ => by
    simp only [NodeScillaType.stripW, NodeScillaType.strip, evTypeW, evType, evAddrW_strip a]
  | ⟨.polyFunctionType _ _, _, _⟩ => by
    simp only [NodeScillaType.stripW, NodeScillaType.strip, evTypeW, evType]
  | ⟨.typeVarType _, _, _⟩ => by
    simp only [NodeScillaType.stripW, NodeScillaType.strip, evTypeW, evType]
theorem evAddrW_strip : ∀ w : W NodeAddressType,
    evAddrW dbg (NodeAddressType.stripW w) = evAddrW dbg w
  | ⟨.mk i tn fs, _, _⟩ => by
    simp only [NodeAddressType.stripW, NodeAddressType.strip, evAddrW, evAddr, W.strip_node,
      evTypeName_strip, evFields_strip fs, id]
theorem evMvaW_strip : ∀ w : W NodeTypeMapValueArguments,
    evMvaW dbg (NodeTypeMapValueArguments.stripW w) = evMvaW dbg w
  | ⟨.enclosedTypeMapValue t, _, _⟩ => by
    simp only [NodeTypeMapValueArguments.stripW, NodeTypeMapValueArguments.strip, evMvaW, evMva,
      evMvW_strip t]
  | ⟨.genericMapValueArgument m, _, _⟩ => by
    simp only [NodeTypeMapValueArguments.stripW, NodeTypeMapValueArguments.strip, evMvaW, evMva,
      W.strip_node, evMeta_strip]
  | ⟨.mapKeyValueType k v, _, _⟩ => by
    simp only [NodeTypeMapValueArguments.stripW, NodeTypeMapValueArguments.strip, evMvaW, evMva]
theorem evMvW_strip : ∀ w : W NodeTypeMapValueAllowingTypeArguments,
    evMvW dbg (NodeTypeMapValueAllowingTypeArguments.stripW w) = evMvW dbg w
  | ⟨.typeMapValueNoArgs v, _, _⟩ => by
    simp only [NodeTypeMapValueAllowingTypeArguments.stripW,
      NodeTypeMapValueAllowingTypeArguments.strip, evMvW, evMv, evValueW_strip v]
  | ⟨.typeMapValueWithArgs m [], _, _⟩ => by
    simp only [NodeTypeMapValueAllowingTypeArguments.stripW,
      NodeTypeMapValueAllowingTypeArguments.strip, NodeTypeMapValueArguments.stripLW, evMvW, evMv,
      W.strip_node, evMeta_strip]
  | ⟨.typeMapValueWithArgs m (a :: as), _, _⟩ => by
    simp only [NodeTypeMapValueAllowingTypeArguments.stripW,
      NodeTypeMapValueAllowingTypeArguments.strip, NodeTypeMapValueArguments.stripLW, evMvW, evMv,
      W.strip_node, evMeta_strip, evMvas, evMvaW_strip a, evMvas_strip as]
theorem evArgs_strip : ∀ l : List (W NodeTypeArgument),
    evArgs dbg (NodeTypeArgument.stripLW l) = evArgs dbg l
  | [] => rfl
  | a :: as => by
    funext m
    simp only [NodeTypeArgument.stripLW, evArgs, evArgW_strip a, evArgs_strip as]
theorem evMvas_strip : ∀ l : List (W NodeTypeMapValueArguments),
    evMvas dbg (NodeTypeMapValueArguments.stripLW l) = evMvas dbg l
  | [] => rfl
  | a :: as => by
    funext m
    simp only [NodeTypeMapValueArguments.stripLW, evMvas, evMvaW_strip a, evMvas_strip as]
theorem evFields_strip : ∀ l : List (W NodeAddressTypeField),
    evFields dbg (NodeAddressTypeField.stripLW l) = evFields dbg l
  | [] => rfl
  | ⟨.mk ⟨.variableName x, _, _⟩ t, _, _⟩ :: as => by
    simp only [NodeAddressTypeField.stripLW, NodeAddressTypeField.stripW, NodeAddressTypeField.strip,
      W.strip, NodeVariableIdentifier.strip, evFields, evFieldW, evField, evTypeW_strip t,
      evFields_strip as, id]
  | ⟨.mk ⟨.specialIdentifier x, _, _⟩ t, _, _⟩ :: as => by
    simp only [NodeAddressTypeField.stripLW, NodeAddressTypeField.stripW, NodeAddressTypeField.strip,
      W.strip, NodeVariableIdentifier.strip, evFields, evFieldW, evField, evFields_strip as, id]
  | ⟨.mk ⟨.variableInNamespace _ _, _, _⟩ t, _, _⟩ :: as => by
    simp only [NodeAddressTypeField.stripLW, NodeAddressTypeField.stripW, NodeAddressTypeField.strip,
      W.strip, NodeVariableIdentifier.strip, evFields, evFieldW, evField, evFields_strip as, id]
end

theorem evTyped_strip (n : NodeTypedIdentifier) : evTyped dbg n.strip = evTyped dbg n := by
  obtain ⟨x, a⟩ := n
  have := evTypeW_strip dbg a.node.typeName
  rw [NodeScillaType.stripW_eq] at this
  simp only [evTyped, NodeTypedIdentifier.strip, W.strip_node, id, ← this]
  rfl

/-- two lists of typed identifiers that agree up to positions -/
def SameT (a b : List NodeTypedIdentifier) : Prop :=
  a.map NodeTypedIdentifier.strip = b.map NodeTypedIdentifier.strip

theorem evInitT_strip : ∀ ps, evInitT dbg (ps.map NodeTypedIdentifier.strip) = evInitT dbg ps
  | [] => rfl
  | p :: ps => by simp only [List.map_cons, evInitT, evTyped_strip, evInitT_strip ps]

theorem evAgainT_strip : ∀ ps, evAgainT dbg (ps.map NodeTypedIdentifier.strip) = evAgainT dbg ps
  | [] => rfl
  | p :: ps => by simp only [List.map_cons, evAgainT, evTyped_strip, evAgainT_strip ps]

theorem evParamsT_strip : ∀ ps, evParamsT dbg (ps.map NodeTypedIdentifier.strip) = evParamsT dbg ps
  | [] => rfl
  | p :: ps => by simp only [List.map_cons, evParamsT, evTyped_strip, evParamsT_strip ps]

theorem evFieldsT_strip : ∀ ps, evFieldsT dbg (ps.map NodeTypedIdentifier.strip) = evFieldsT dbg ps
  | [] => rfl
  | p :: ps => by simp only [List.map_cons, evFieldsT, evTyped_strip, evFieldsT_strip ps]

theorem typedOf_strip (ps : List (W NodeParameterPair)) :
    typedOf (ps.map (W.strip NodeParameterPair.strip)) =
      (typedOf ps).map NodeTypedIdentifier.strip := by
  simp only [typedOf, List.map_map]
  apply List.map_congr_left
  rintro ⟨⟨x⟩, _, _⟩ -
  rfl

theorem fieldTypedOf_strip (ps : List (W NodeContractField)) :
    fieldTypedOf (ps.map (W.strip NodeContractField.strip)) =
      (fieldTypedOf ps).map NodeTypedIdentifier.strip := by
  simp only [fieldTypedOf, List.map_map]
  apply List.map_congr_left
  rintro ⟨⟨x, y⟩, _, _⟩ -
  rfl

theorem transitionsOf_strip : ∀ cs : List (W NodeComponentDefinition),
    transitionsOf (cs.map (W.strip NodeComponentDefinition.strip)) =
      (transitionsOf cs).map NodeTransitionDefinition.strip
  | [] => rfl
  | ⟨.transitionComponent t, _, _⟩ :: cs => by
    have := transitionsOf_strip cs
    simp only [transitionsOf, List.map_cons] at this ⊢
    simp only [W.strip, NodeComponentDefinition.strip, List.filterMap_cons, List.map_cons]
    rw [this]
  | ⟨.procedureComponent t, _, _⟩ :: cs => by
    have := transitionsOf_strip cs
    simp only [transitionsOf, List.map_cons] at this ⊢
    simp only [W.strip, NodeComponentDefinition.strip, List.filterMap_cons]
    rw [this]

theorem componentName_strip (n : NodeComponentId) : componentName n.strip = componentName n := by
  cases n with
  | withTypeLikeName x => exact display_strip x.node
  | withRegularId x => rfl

theorem evTranssT_strip : ∀ ts : List NodeTransitionDefinition,
    evTranssT dbg (ts.map NodeTransitionDefinition.strip) = evTranssT dbg ts
  | [] => rfl
  | ⟨⟨n, _, _⟩, ⟨⟨ps⟩, _, _⟩, b⟩ :: ts => by
    simp only [List.map_cons, evTranssT, NodeTransitionDefinition.strip, W.strip,
      NodeComponentParameters.strip, componentName_strip, typedOf_strip, evTransT, evParamsT_strip,
      evTranssT_strip ts]

theorem evContract_strip (c : NodeContractDefinition) :
    evContract dbg c.strip = evContract dbg c := by
  obtain ⟨n, ⟨⟨ps⟩, _, _⟩, w, fs, cs⟩ := c
  simp only [evContract_T, NodeContractDefinition.strip, W.strip, NodeComponentParameters.strip,
    typedOf_strip, fieldTypedOf_strip, transitionsOf_strip, evIface, evTypeName_strip, display_strip,
    evInitT_strip, evAgainT_strip, evFieldsT_strip, evTranssT_strip]

theorem emitProgram_strip (p : NodeProgram) : emitProgram dbg p.strip = emitProgram dbg p := by
  obtain ⟨v, i, l, c⟩ := p
  simp only [emitProgram_ev, NodeProgram.strip, W.strip_node, evContract_strip]

/-! ### Parsing -/

theorem strip_eq_of_bare : ∀ {a b : List STok}, bare a = bare b → a.map STok.strip = b.map STok.strip
  | [], [], _ => rfl
  | [], _ :: _, h => by simp [bare] at h
  | _ :: _, [], h => by simp [bare] at h
  | x :: a, y :: b, h => by
    simp only [bare_cons, List.cons.injEq] at h
    simp only [List.map_cons, STok.strip, h.1, strip_eq_of_bare h.2]

/-- parsing token lists that differ only in positions -/
theorem parse_bare {a b : List STok} (h : bare a = bare b) :
    (parseProgram a).map NodeProgram.strip = (parseProgram b).map NodeProgram.strip := by
  have key : ∀ {a b : List STok} {p}, bare a = bare b → parseProgram a = some p →
      ∃ q, parseProgram b = some q ∧ q.strip = p.strip := by
    intro a b p h hp
    have d := parseProgram_sound hp
    obtain ⟨q, e⟩ := d.relift b h.symm
    refine ⟨q, parseProgram_complete e, ?_⟩
    have d' := d.strip
    have e' := e.strip
    rw [strip_eq_of_bare h] at d'
    have := (parseProgram_complete e').symm.trans (parseProgram_complete d')
    exact Option.some.inj this
  cases ha : parseProgram a with
  | some p =>
    obtain ⟨q, hq, e⟩ := key h ha
    rw [hq, Option.map_some, Option.map_some, e]
  | none =>
    cases hb : parseProgram b with
    | none => rfl
    | some q =>
      obtain ⟨p, hp, _⟩ := key h.symm hb
      rw [ha] at hp
      simp at hp

end Verif
