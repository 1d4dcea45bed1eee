import Verif.Spec.Depth
import Verif.Proofs.EmitContract
/-
The nesting of the emitter's visits is bounded by the height of the types.
-/
namespace Verif

theorem Within.kid {α : Type} {h : Nat} {n : AnyNode} (hw : Within h n) {how : OnSkip} {mk : α → AnyNode} {w : W α}
    (hk : kid how mk w ∈ kids n) : ∃ h', h = h' + 1 ∧ Within h' (mk w.node) := by
  cases hw with
  | mk hc => exact ⟨_, rfl, hc _ _ _ hk⟩

theorem Within.pos {h : Nat} {n : AnyNode} (hw : Within h n) : 1 ≤ h := by
  cases hw; omega

mutual
theorem dKeyW_le : ∀ (w : W NodeTypeMapKey) (h : Nat), Within h (.mapKey w.node) → dKeyW w ≤ 2 * h
  | ⟨n, _, _⟩, h, hw => by
    cases n with
    | genericMapKey m =>
      obtain ⟨h', rfl, h1⟩ := hw.kid (w := m) (mk := .metaId) (how := .stop) (by simp [kids])
      simp only [dKeyW, dKey]; omega
    | enclosedGenericId m =>
      obtain ⟨h', rfl, h1⟩ := hw.kid (w := m) (mk := .metaId) (how := .stop) (by simp [kids])
      simp only [dKeyW, dKey]; omega
    | enclosedAddressMapKeyType a =>
      obtain ⟨h', rfl, h1⟩ := hw.kid (w := a) (mk := .addrType) (how := .stop) (by simp [kids])
      have := dAddrW_le a h' h1
      simp only [dKeyW, dKey]; omega
    | addressMapKeyType a =>
      obtain ⟨h', rfl, h1⟩ := hw.kid (w := a) (mk := .addrType) (how := .stop) (by simp [kids])
      have := dAddrW_le a h' h1
      simp only [dKeyW, dKey]; omega
theorem dValueW_le : ∀ (w : W NodeTypeMapValue) (h : Nat), Within h (.mapValue w.node) → dValueW w ≤ 2 * h
  | ⟨n, _, _⟩, h, hw => by
    cases n with
    | mapValueTypeOrEnumLikeIdentifier m =>
      obtain ⟨h', rfl, h1⟩ := hw.kid (w := m) (mk := .metaId) (how := .stop) (by simp [kids])
      simp only [dValueW, dValue]; omega
    | mapKeyValue e =>
      obtain ⟨h', rfl, h1⟩ := hw.kid (w := e) (mk := .mapEntry) (how := .stop) (by simp [kids])
      have := dEntryW_le e h' h1
      simp only [dValueW, dValue]; omega
    | mapValueParenthesizedType t =>
      obtain ⟨h', rfl, h1⟩ := hw.kid (w := t) (mk := .mapValueAllowing) (how := .stop) (by simp [kids])
      have := dMvW_le t h' h1
      simp only [dValueW, dValue]; omega
    | mapValueAddressType a =>
      obtain ⟨h', rfl, h1⟩ := hw.kid (w := a) (mk := .addrType) (how := .stop) (by simp [kids])
      have := dAddrW_le a h' h1
      simp only [dValueW, dValue]; omega
theorem dArgW_le : ∀ (w : W NodeTypeArgument) (h : Nat), Within h (.typeArg w.node) → dArgW w ≤ 2 * h
  | ⟨n, _, _⟩, h, hw => by
    cases n with
    | enclosedTypeArgument t =>
      obtain ⟨h', rfl, h1⟩ := hw.kid (w := t) (mk := .scillaType) (how := .stop) (by simp [kids])
      have := dTypeW_le t h' h1
      simp only [dArgW, dArg]; omega
    | genericTypeArgument m =>
      obtain ⟨h', rfl, h1⟩ := hw.kid (w := m) (mk := .metaId) (how := .stop) (by simp [kids])
      simp only [dArgW, dArg]; omega
    | templateTypeArgument x => have := hw.pos; simp only [dArgW, dArg]; omega
    | addressTypeArgument a =>
      obtain ⟨h', rfl, h1⟩ := hw.kid (w := a) (mk := .addrType) (how := .stop) (by simp [kids])
      have := dAddrW_le a h' h1
      simp only [dArgW, dArg]; omega
    | mapTypeArgument k v =>
      obtain ⟨h', rfl, h1⟩ := hw.kid (w := k) (mk := .mapKey) (how := .cut) (by simp [kids])
      obtain ⟨h'', e, h2⟩ := hw.kid (w := v) (mk := .mapValue) (how := .stop) (by simp [kids])
      obtain rfl : h' = h'' := by omega
      have := dKeyW_le k h' h1
      have := dValueW_le v h' h2
      simp only [dArgW, dArg]; omega
theorem dTypeW_le : ∀ (w : W NodeScillaType) (h : Nat), Within h (.scillaType w.node) → dTypeW w ≤ 2 * h
  | ⟨n, _, _⟩, h, hw => by
    cases n with
    | genericTypeWithArgs m args =>
      obtain ⟨h', rfl, h1⟩ := hw.kid (w := m) (mk := .metaId) (how := .go) (by simp [kids])
      have := dArgs_le args h' fun a ha => by
        obtain ⟨h'', e, h2⟩ := hw.kid (w := a) (mk := .typeArg) (how := .go)
          (by simp only [kids, kidsL, List.mem_cons, List.mem_map]; exact .inr ⟨a, ha, rfl⟩)
        obtain rfl : h' = h'' := by omega
        exact h2
      simp only [dTypeW, dType]; omega
    | mapType k v =>
      obtain ⟨h', rfl, h1⟩ := hw.kid (w := k) (mk := .mapKey) (how := .go) (by simp [kids])
      obtain ⟨h'', e, h2⟩ := hw.kid (w := v) (mk := .mapValue) (how := .stop) (by simp [kids])
      obtain rfl : h' = h'' := by omega
      have := dKeyW_le k h' h1
      have := dValueW_le v h' h2
      simp only [dTypeW, dType]; omega
    | functionType a b => have := hw.pos; simp only [dTypeW, dType]; omega
    | enclosedType t =>
      obtain ⟨h', rfl, h1⟩ := hw.kid (w := t) (mk := .scillaType) (how := .stop) (by simp [kids])
      have := dTypeW_le t h' h1
      simp only [dTypeW, dType]; omega
    | scillaAddresseType a =>
      obtain ⟨h', rfl, h1⟩ := hw.kid (w := a) (mk := .addrType) (how := .stop) (by simp [kids])
      have := dAddrW_le a h' h1
      simp only [dTypeW, dType]; omega
    | polyFunctionType x t => have := hw.pos; simp only [dTypeW, dType]; omega
    | typeVarType x => have := hw.pos; simp only [dTypeW, dType]; omega
theorem dEntryW_le : ∀ (w : W NodeTypeMapEntry) (h : Nat), Within h (.mapEntry w.node) → dEntryW w ≤ 2 * h
  | ⟨.mk k v, _, _⟩, h, hw => by
    obtain ⟨h', rfl, h1⟩ := hw.kid (w := k) (mk := .mapKey) (how := .go) (by simp [kids])
    obtain ⟨h'', e, h2⟩ := hw.kid (w := v) (mk := .mapValue) (how := .stop) (by simp [kids])
    obtain rfl : h' = h'' := by omega
    have := dKeyW_le k h' h1
    have := dValueW_le v h' h2
    simp only [dEntryW, dEntry]; omega
theorem dFieldW_le : ∀ (w : W NodeAddressTypeField) (h : Nat), Within h (.addrField w.node) → dFieldW w ≤ 2 * h
  | ⟨.mk i t, _, _⟩, h, hw => by
    obtain ⟨h', rfl, h1⟩ := hw.kid (w := t) (mk := .scillaType) (how := .stop) (by simp [kids])
    have := dTypeW_le t h' h1
    simp only [dFieldW, dField]; omega
theorem dAddrW_le : ∀ (w : W NodeAddressType) (h : Nat), Within h (.addrType w.node) → dAddrW w ≤ 2 * h
  | ⟨.mk i tn fs, _, _⟩, h, hw => by
    obtain ⟨h', rfl, h1⟩ := hw.kid (w := i) (mk := .typeNameId) (how := .go) (by simp [kids])
    have := dFields_le fs h' fun a ha => by
      obtain ⟨h'', e, h2⟩ := hw.kid (w := a) (mk := .addrField) (how := .go)
        (by simp only [kids, kidsL, List.mem_cons, List.mem_map]; exact .inr ⟨a, ha, rfl⟩)
      obtain rfl : h' = h'' := by omega
      exact h2
    simp only [dAddrW, dAddr]; omega
theorem dMvaW_le : ∀ (w : W NodeTypeMapValueArguments) (h : Nat), Within h (.mapValueArgs w.node) → dMvaW w ≤ 2 * h
  | ⟨n, _, _⟩, h, hw => by
    cases n with
    | enclosedTypeMapValue t =>
      obtain ⟨h', rfl, h1⟩ := hw.kid (w := t) (mk := .mapValueAllowing) (how := .stop) (by simp [kids])
      have := dMvW_le t h' h1
      simp only [dMvaW, dMva]; omega
    | genericMapValueArgument m =>
      obtain ⟨h', rfl, h1⟩ := hw.kid (w := m) (mk := .metaId) (how := .stop) (by simp [kids])
      simp only [dMvaW, dMva]; omega
    | mapKeyValueType k v => have := hw.pos; simp only [dMvaW, dMva]; omega
theorem dMvW_le : ∀ (w : W NodeTypeMapValueAllowingTypeArguments) (h : Nat),
    Within h (.mapValueAllowing w.node) → dMvW w ≤ 2 * h
  | ⟨n, _, _⟩, h, hw => by
    cases n with
    | typeMapValueNoArgs v =>
      obtain ⟨h', rfl, h1⟩ := hw.kid (w := v) (mk := .mapValue) (how := .stop) (by simp [kids])
      have := dValueW_le v h' h1
      simp only [dMvW, dMv]; omega
    | typeMapValueWithArgs m args =>
      obtain ⟨h', rfl, h1⟩ := hw.kid (w := m) (mk := .metaId) (how := .stop) (by simp [kids])
      have := dMvas_le args h' fun a ha => by
        obtain ⟨h'', e, h2⟩ := hw.kid (w := a) (mk := .mapValueArgs) (how := .stop)
          (by simp only [kids, kidsL, List.mem_cons, List.mem_map]; exact .inr ⟨a, ha, rfl⟩)
        obtain rfl : h' = h'' := by omega
        exact h2
      simp only [dMvW, dMv]; omega
theorem dArgs_le : ∀ (l : List (W NodeTypeArgument)) (h : Nat), (∀ a ∈ l, Within h (.typeArg a.node)) →
    dArgs l ≤ 2 * h
  | [], _, _ => by simp [dArgs]
  | a :: as, h, hw => by
    have := dArgW_le a h (hw a (by simp))
    have := dArgs_le as h fun x hx => hw x (by simp [hx])
    simp only [dArgs]; omega
theorem dFields_le : ∀ (l : List (W NodeAddressTypeField)) (h : Nat), (∀ a ∈ l, Within h (.addrField a.node)) →
    dFields l ≤ 2 * h
  | [], _, _ => by simp [dFields]
  | a :: as, h, hw => by
    have := dFieldW_le a h (hw a (by simp))
    have := dFields_le as h fun x hx => hw x (by simp [hx])
    simp only [dFields]; omega
theorem dMvas_le : ∀ (l : List (W NodeTypeMapValueArguments)) (h : Nat),
    (∀ a ∈ l, Within h (.mapValueArgs a.node)) → dMvas l ≤ 2 * h
  | [], _, _ => by simp [dMvas]
  | a :: as, h, hw => by
    have := dMvaW_le a h (hw a (by simp))
    have := dMvas_le as h fun x hx => hw x (by simp [hx])
    simp only [dMvas]; omega
end

theorem dMax_le {α : Type} {f : α → Nat} {b : Nat} : ∀ {l : List α}, (∀ x ∈ l, f x ≤ b) → dMax f l ≤ b
  | [], _ => by simp [dMax]
  | x :: l, h => by
    have := h x (by simp)
    have := dMax_le (l := l) fun y hy => h y (by simp [hy])
    simp only [dMax]; omega

theorem emitFuel_le (p : NodeProgram) (h : Nat)
    (hw : ∀ n ∈ interfaceTyped p, Within h (.scillaType n.annotation.node.typeName.node)) :
    emitFuel p.contractDefinition.node ≤ 2 * h + 8 := by
  simp only [interfaceTyped, List.mem_append, List.mem_flatMap] at hw
  have hps : ∀ l : List (W NodeParameterPair), (∀ n ∈ typedOf l, Within h (.scillaType n.annotation.node.typeName.node)) →
      dParams l ≤ 2 * h := by
    intro l hl
    refine dMax_le fun x hx => dTypeW_le _ _ (hl _ ?_)
    exact List.mem_map.mpr ⟨x, hx, rfl⟩
  have h1 := hps p.contractDefinition.node.parameters.node.parameters fun n hn => hw n (.inl (.inl hn))
  have h2 : dMax dContractField p.contractDefinition.node.fields ≤ 2 * h := by
    refine dMax_le fun x hx => dTypeW_le _ _ (hw _ (.inl (.inr ?_)))
    exact List.mem_map.mpr ⟨x, hx, rfl⟩
  have h3 : dMax dComponent p.contractDefinition.node.components ≤ 2 * h := by
    refine dMax_le fun x hx => ?_
    unfold dComponent
    split
    · rename_i t ht
      refine hps _ fun n hn => hw n (.inr ⟨t.node, ?_, hn⟩)
      exact List.mem_filterMap.mpr ⟨x, hx, by rw [ht]⟩
    · omega
  simp only [emitFuel]; omega

end Verif
