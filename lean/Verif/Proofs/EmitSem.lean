import Verif.Model.Emitter
/-
The emitter without visitor and fuel: `ev…` are the stack transformers the emitter performs on each
kind of type node, by structural recursion; `visit… (srEmitter k) = ev…` whenever the fuel is at
least the nesting depth.
-/
namespace Verif

set_option linter.unusedSimpArgs false

section
variable {σ α β γ : Type}

theorem M.bind_assoc (m : M σ α) (f : α → M σ β) (g : β → M σ γ) :
    (m.bind f).bind g = m.bind fun a => (f a).bind g := by
  funext s
  simp only [M.bind]
  cases h : m s with
  | mk s1 r => cases r <;> simp

@[simp] theorem M.pure_bind (a : α) (f : α → M σ β) : (M.pure a : M σ α).bind f = f a := by
  funext s; simp [M.bind, M.pure]

theorem M.bind_pure (m : M σ α) : m.bind M.pure = m := by
  funext s
  simp only [M.bind, M.pure]
  cases h : m s with
  | mk s1 r => cases r <;> rfl

@[simp] theorem M.bind_unit (m : M σ Unit) : (m.bind fun _ => M.pure ()) = m := M.bind_pure m

@[simp] theorem M.panic_bind (f : α → M σ β) : (M.panic : M σ α).bind f = M.panic := rfl

@[simp] theorem M.cont_bind (f : TR → M σ β) : (M.cont : M σ TR).bind f = f .continue_ := by
  simp [M.cont]

@[simp] theorem M.skip_bind (f : TR → M σ β) : (M.skip : M σ TR).bind f = f .skip := by
  simp [M.skip]

/-- `?` on a computation whose error is dropped -/
def swallow (m : M σ Unit) : M σ Unit := fun s =>
  match m s with
  | (s1, .panic) => (s1, .panic)
  | (s1, _) => (s1, .ok ())

/-- do the effect, return `Continue` -/
def M.thenCont (m : M σ Unit) : M σ TR := m.bind fun _ => M.cont

theorem thenCont_bind (m : M σ Unit) (f : TR → M σ β) :
    m.thenCont.bind f = m.bind fun _ => f .continue_ := by
  simp [M.thenCont, M.bind_assoc]

theorem visitNode_skip {E : Emitter σ} {n : AnyNode} {m : M σ Unit} {ch : M σ TR}
    (h : E.emit .enter n = m.bind fun _ => M.skip) : visitNode E n ch = m.thenCont := by
  funext s
  simp only [visitNode, h, M.bind, M.thenCont]
  cases hm : m s with
  | mk s1 r => cases r <;> rfl

theorem visitNode_panic {E : Emitter σ} {n : AnyNode} {ch : M σ TR}
    (h : E.emit .enter n = M.panic) : visitNode E n ch = M.panic := by
  funext s
  simp [visitNode, h, M.panic]

theorem visitNode_cont {E : Emitter σ} {n : AnyNode} {m : M σ Unit} {ch : M σ TR}
    (h : E.emit .enter n = M.cont) (h2 : E.emit .exit n = M.cont)
    (hc : ch = m.thenCont) : visitNode E n ch = m.thenCont := by
  funext s
  simp only [visitNode, h, h2, hc, M.bind, M.thenCont, M.cont, M.pure]
  cases hm : m s with
  | mk s1 r => cases r <;> rfl

theorem visitAddrNode_skip {E : Emitter σ} {n : AnyNode} {m : M σ Unit} {ch : M σ TR}
    (h : E.emit .enter n = m.bind fun _ => M.skip) (h2 : E.emit .exit n = M.skip) :
    visitAddrNode E n ch = (swallow m).bind fun _ => M.skip := by
  funext s
  simp only [visitAddrNode, h, h2, M.bind, swallow]
  cases hm : m s with
  | mk s1 r => cases r <;> rfl

end

variable (dbg : StackObj → Str)

theorem withPos_sr (k : Nat) (a b : Pos) (m : M SrState TR) :
    withPos (srEmitter dbg k) a b m = m := by
  funext s
  have hp : ∀ s, (srEmitter dbg k).push a b s = s := by intro s; cases k <;> rfl
  have hq : ∀ s, (srEmitter dbg k).pop s = s := by intro s; cases k <;> rfl
  simp only [withPos, hp, hq]
  cases hm : m s with
  | mk s1 r => cases r <;> rfl

theorem srEmitter_emit (k : Nat) (mode : Mode) (n : AnyNode) :
    (srEmitter dbg (k + 1)).emit mode n = emitSr dbg (srEmitter dbg k) mode n := rfl

/-! ### Type nodes -/

def evTypeName : NodeTypeNameIdentifier → M SrState Unit
  | .byteStringType b => SrState.pushObj (.ident b.display .unknown)
  | .eventType => M.pure ()
  | .typeOrEnumLikeIdentifier s => SrState.pushObj (.ident s.node .unknown)

def evMeta : NodeMetaIdentifier → M SrState Unit
  | .metaName x => evTypeName x.node
  | .metaNameInNamespace x y => (evTypeName x.node).bind fun _ => evTypeName y.node
  | .metaNameInHexspace _ x => evTypeName x.node
  | .byteString => SrState.pushObj (.ident (str! "ByStr") .unknown)

mutual
def evKey : NodeTypeMapKey → M SrState Unit
  | .genericMapKey m => (evMeta m.node).bind fun _ => identToType dbg
  | .enclosedGenericId m => (evMeta m.node).bind fun _ => identToType dbg
  | .enclosedAddressMapKeyType a => (evAddrW a).bind fun _ => identToType dbg
  | .addressMapKeyType a => (evAddrW a).bind fun _ => identToType dbg
def evValue : NodeTypeMapValue → M SrState Unit
  | .mapValueTypeOrEnumLikeIdentifier m => (evMeta m.node).bind fun _ => identToType dbg
  | .mapKeyValue e => (evEntryW e).bind fun _ => makeMap dbg
  | .mapValueParenthesizedType t => evMvW t
  | .mapValueAddressType a => evAddrW a
def evArg : NodeTypeArgument → M SrState Unit
  | .enclosedTypeArgument t => evTypeW t
  | .genericTypeArgument m => (evMeta m.node).bind fun _ => identToType dbg
  | .templateTypeArgument _ => M.panic
  | .addressTypeArgument a => evAddrW a
  | .mapTypeArgument k v =>
    (evKeyW k).bind fun _ => (evValueW v).bind fun _ => makeMap dbg
def evType : NodeScillaType → M SrState Unit
  | .genericTypeWithArgs m [] => (evMeta m.node).bind fun _ => identToType dbg
  | .genericTypeWithArgs m (a :: args) =>
    (evMeta m.node).bind fun _ => (identToType dbg).bind fun _ => (popType dbg).bind fun main =>
      (evArgs (a :: args) main).bind fun t => SrState.pushObj (.typeDef t)
  | .mapType k v => (evKeyW k).bind fun _ => (evValueW v).bind fun _ => makeMap dbg
  | .functionType _ _ => M.panic
  | .enclosedType t => evTypeW t
  | .scillaAddresseType a => evAddrW a
  | .polyFunctionType _ _ => M.panic
  | .typeVarType _ => M.panic
def evEntry : NodeTypeMapEntry → M SrState Unit
  | .mk k v => (evKeyW k).bind fun _ => evValueW v
def evField : NodeAddressTypeField → M SrState Unit
  | .mk ⟨.variableName x, _, _⟩ t =>
    (evTypeW t).bind fun _ => (popType dbg).bind fun ty => (intoType ty).bind fun ty =>
      SrState.pushObj (.varDecl (.mk x.node ty))
  | .mk ⟨.specialIdentifier _, _, _⟩ _ => M.pure ()
  | .mk ⟨.variableInNamespace _ _, _, _⟩ _ => M.pure ()
def evAddr : NodeAddressType → M SrState Unit
  | .mk i tn fs =>
    swallow <| (evTypeName i.node).bind fun _ => (identToType dbg).bind fun _ =>
      (popType dbg).bind fun main => (evFields fs).bind fun fields =>
        SrState.pushObj (.typeDef (main.setAddress (tn.node, fields)))
def evMva : NodeTypeMapValueArguments → M SrState Unit
  | .enclosedTypeMapValue t => evMvW t
  | .genericMapValueArgument m => (evMeta m.node).bind fun _ => identToType dbg
  | .mapKeyValueType _ _ => M.panic
def evMv : NodeTypeMapValueAllowingTypeArguments → M SrState Unit
  | .typeMapValueNoArgs v => evValueW v
  | .typeMapValueWithArgs m [] => (evMeta m.node).bind fun _ => identToType dbg
  | .typeMapValueWithArgs m (a :: args) =>
    (evMeta m.node).bind fun _ => (identToType dbg).bind fun _ => (popType dbg).bind fun main =>
      (evMvas (a :: args) main).bind fun t => SrState.pushObj (.typeDef t)
def evKeyW : W NodeTypeMapKey → M SrState Unit
  | ⟨n, _, _⟩ => evKey n
def evValueW : W NodeTypeMapValue → M SrState Unit
  | ⟨n, _, _⟩ => evValue n
def evArgW : W NodeTypeArgument → M SrState Unit
  | ⟨n, _, _⟩ => evArg n
def evTypeW : W NodeScillaType → M SrState Unit
  | ⟨n, _, _⟩ => evType n
def evEntryW : W NodeTypeMapEntry → M SrState Unit
  | ⟨n, _, _⟩ => evEntry n
def evFieldW : W NodeAddressTypeField → M SrState Unit
  | ⟨n, _, _⟩ => evField n
def evAddrW : W NodeAddressType → M SrState Unit
  | ⟨n, _, _⟩ => evAddr n
def evMvaW : W NodeTypeMapValueArguments → M SrState Unit
  | ⟨n, _, _⟩ => evMva n
def evMvW : W NodeTypeMapValueAllowingTypeArguments → M SrState Unit
  | ⟨n, _, _⟩ => evMv n
def evArgs : List (W NodeTypeArgument) → SrType → M SrState SrType
  | [], main => M.pure main
  | a :: as, main =>
    (evArgW a).bind fun _ => (popType dbg).bind fun t => evArgs as (main.pushSubType t)
def evFields : List (W NodeAddressTypeField) → M SrState (List Field)
  | [] => M.pure []
  | f :: fs =>
    (evFieldW f).bind fun _ => (popVar dbg).bind fun x => (evFields fs).bind fun xs =>
      M.pure (x :: xs)
def evMvas : List (W NodeTypeMapValueArguments) → SrType → M SrState SrType
  | [], main => M.pure main
  | a :: as, main =>
    (evMvaW a).bind fun _ => (popType dbg).bind fun t => evMvas as (main.pushSubType t)
end

theorem visitTypeNameId_ev (k : Nat) (hk : 1 ≤ k) (n : NodeTypeNameIdentifier) :
    visitTypeNameId (srEmitter dbg k) n = (evTypeName n).thenCont := by
  obtain ⟨k, rfl⟩ : ∃ j, k = j + 1 := ⟨k - 1, by omega⟩
  funext s
  cases n <;> rfl

theorem visitTypeNameIdW_ev (k : Nat) (hk : 1 ≤ k) (w : W NodeTypeNameIdentifier) :
    visitTypeNameIdW (srEmitter dbg k) w = (evTypeName w.node).thenCont := by
  rw [visitTypeNameIdW, withPos_sr, visitTypeNameId_ev dbg k hk]

theorem visitMetaIdW_ev (k : Nat) (hk : 1 ≤ k) (w : W NodeMetaIdentifier) :
    visitMetaIdW (srEmitter dbg k) w = (evMeta w.node).thenCont := by
  rw [visitMetaIdW, withPos_sr]
  unfold visitMetaId
  obtain ⟨k, rfl⟩ : ∃ j, k = j + 1 := ⟨k - 1, by omega⟩
  cases w.node with
  | metaName x => exact visitNode_cont rfl rfl (visitTypeNameIdW_ev dbg _ hk x)
  | metaNameInNamespace x y =>
    refine visitNode_cont rfl rfl ?_
    simp only [visitTypeNameIdW_ev dbg _ hk, M.andThen, thenCont_bind, evMeta, M.thenCont,
      M.bind_assoc, M.cont_bind]
  | metaNameInHexspace h x => exact visitNode_cont rfl rfl (visitTypeNameIdW_ev dbg _ hk x)
  | byteString => exact visitNode_skip rfl

mutual
theorem visitMapKeyW_ev : ∀ (w : W NodeTypeMapKey) (k : Nat), dKeyW w ≤ k →
    visitMapKeyW (srEmitter dbg k) w = (evKeyW dbg w).thenCont
  | ⟨n, s, e⟩, k, hk => by
    rw [visitMapKeyW, withPos_sr, evKeyW]
    rw [dKeyW] at hk
    cases n with
    | genericMapKey m =>
      simp only [dKey] at hk
      obtain ⟨k, rfl⟩ : ∃ j, k = j + 1 := ⟨k - 1, by omega⟩
      rw [visitMapKey]
      refine visitNode_skip ?_
      simp only [srEmitter_emit, emitSr, visitMetaIdW_ev dbg k (by omega), M.andThen, thenCont_bind,
        evKey, M.bind_assoc]
    | enclosedGenericId m =>
      simp only [dKey] at hk
      obtain ⟨k, rfl⟩ : ∃ j, k = j + 1 := ⟨k - 1, by omega⟩
      rw [visitMapKey]
      refine visitNode_skip ?_
      simp only [srEmitter_emit, emitSr, visitMetaIdW_ev dbg k (by omega), M.andThen, thenCont_bind,
        evKey, M.bind_assoc]
    | enclosedAddressMapKeyType a =>
      simp only [dKey] at hk
      obtain ⟨k, rfl⟩ : ∃ j, k = j + 1 := ⟨k - 1, by omega⟩
      rw [visitMapKey]
      refine visitNode_skip ?_
      simp only [srEmitter_emit, emitSr, visitAddrTypeW_ev a k (by omega), M.andThen,
        evKey, M.bind_assoc, M.skip_bind]
    | addressMapKeyType a =>
      simp only [dKey] at hk
      obtain ⟨k, rfl⟩ : ∃ j, k = j + 1 := ⟨k - 1, by omega⟩
      rw [visitMapKey]
      refine visitNode_skip ?_
      simp only [srEmitter_emit, emitSr, visitAddrTypeW_ev a k (by omega), M.andThen,
        evKey, M.bind_assoc, M.skip_bind]
theorem visitMapValueW_ev : ∀ (w : W NodeTypeMapValue) (k : Nat), dValueW w ≤ k →
    visitMapValueW (srEmitter dbg k) w = (evValueW dbg w).thenCont
  | ⟨n, s, e⟩, k, hk => by
    rw [visitMapValueW, withPos_sr, evValueW]
    rw [dValueW] at hk
    cases n with
    | mapValueTypeOrEnumLikeIdentifier m =>
      simp only [dValue] at hk
      obtain ⟨k, rfl⟩ : ∃ j, k = j + 1 := ⟨k - 1, by omega⟩
      rw [visitMapValue]
      refine visitNode_skip ?_
      simp only [srEmitter_emit, emitSr, visitMetaIdW_ev dbg k (by omega), M.andThen, thenCont_bind,
        evValue, M.bind_assoc]
    | mapKeyValue e =>
      simp only [dValue] at hk
      obtain ⟨k, rfl⟩ : ∃ j, k = j + 1 := ⟨k - 1, by omega⟩
      rw [visitMapValue]
      refine visitNode_skip ?_
      simp only [srEmitter_emit, emitSr, visitMapEntryW_ev e k (by omega), M.andThen, thenCont_bind,
        evValue, M.bind_assoc]
    | mapValueParenthesizedType t =>
      simp only [dValue] at hk
      obtain ⟨k, rfl⟩ : ∃ j, k = j + 1 := ⟨k - 1, by omega⟩
      rw [visitMapValue]
      refine visitNode_skip ?_
      simp only [srEmitter_emit, emitSr, visitMapValueAllowingW_ev t k (by omega), M.andThen,
        thenCont_bind, evValue, M.bind_assoc]
    | mapValueAddressType a =>
      simp only [dValue] at hk
      obtain ⟨k, rfl⟩ : ∃ j, k = j + 1 := ⟨k - 1, by omega⟩
      rw [visitMapValue]
      refine visitNode_skip ?_
      simp only [srEmitter_emit, emitSr, visitAddrTypeW_ev a k (by omega), M.andThen,
        evValue, M.bind_assoc, M.skip_bind]
theorem visitTypeArgW_ev : ∀ (w : W NodeTypeArgument) (k : Nat), dArgW w ≤ k →
    visitTypeArgW (srEmitter dbg k) w = (evArgW dbg w).thenCont
  | ⟨n, s, e⟩, k, hk => by
    rw [visitTypeArgW, withPos_sr, evArgW]
    rw [dArgW] at hk
    cases n with
    | enclosedTypeArgument t =>
      simp only [dArg] at hk
      obtain ⟨k, rfl⟩ : ∃ j, k = j + 1 := ⟨k - 1, by omega⟩
      rw [visitTypeArg]
      refine visitNode_skip ?_
      simp only [srEmitter_emit, emitSr, visitScillaTypeW_ev t k (by omega), M.andThen,
        thenCont_bind, evArg, M.bind_assoc]
    | genericTypeArgument m =>
      simp only [dArg] at hk
      obtain ⟨k, rfl⟩ : ∃ j, k = j + 1 := ⟨k - 1, by omega⟩
      rw [visitTypeArg]
      refine visitNode_skip ?_
      simp only [srEmitter_emit, emitSr, visitMetaIdW_ev dbg k (by omega), M.andThen, thenCont_bind,
        evArg, M.bind_assoc]
    | templateTypeArgument x =>
      simp only [dArg] at hk
      obtain ⟨k, rfl⟩ : ∃ j, k = j + 1 := ⟨k - 1, by omega⟩
      rw [visitTypeArg, evArg]
      exact visitNode_panic rfl
    | addressTypeArgument a =>
      simp only [dArg] at hk
      obtain ⟨k, rfl⟩ : ∃ j, k = j + 1 := ⟨k - 1, by omega⟩
      rw [visitTypeArg]
      refine visitNode_skip ?_
      simp only [srEmitter_emit, emitSr, visitAddrTypeW_ev a k (by omega), M.andThen,
        evArg, M.bind_assoc, M.skip_bind]
    | mapTypeArgument key v =>
      simp only [dArg] at hk
      obtain ⟨k, rfl⟩ : ∃ j, k = j + 1 := ⟨k - 1, by omega⟩
      rw [visitTypeArg]
      refine visitNode_skip ?_
      simp only [srEmitter_emit, emitSr, visitMapKeyW_ev key k (by omega),
        visitMapValueW_ev v k (by omega), M.andThen, thenCont_bind, evArg, M.bind_assoc]
theorem visitScillaTypeW_ev : ∀ (w : W NodeScillaType) (k : Nat), dTypeW w ≤ k →
    visitScillaTypeW (srEmitter dbg k) w = (evTypeW dbg w).thenCont
  | ⟨n, s, e⟩, k, hk => by
    rw [visitScillaTypeW, withPos_sr, evTypeW]
    rw [dTypeW] at hk
    cases n with
    | genericTypeWithArgs m args =>
      simp only [dType] at hk
      obtain ⟨k, rfl⟩ : ∃ j, k = j + 1 := ⟨k - 1, by omega⟩
      rw [visitScillaType]
      refine visitNode_skip ?_
      cases args with
      | nil =>
        simp only [srEmitter_emit, emitSr, genericType, visitMetaIdW_ev dbg k (by omega), M.andThen,
          thenCont_bind, evType, M.bind_assoc, M.pure_bind]
      | cons a args =>
        simp only [srEmitter_emit, emitSr, genericType, visitMetaIdW_ev dbg k (by omega), M.andThen,
          thenCont_bind, evType, M.bind_assoc, M.pure_bind,
          collectArgs_ev (a :: args) k (by omega)]
    | mapType key v =>
      simp only [dType] at hk
      obtain ⟨k, rfl⟩ : ∃ j, k = j + 1 := ⟨k - 1, by omega⟩
      rw [visitScillaType]
      refine visitNode_skip ?_
      simp only [srEmitter_emit, emitSr, visitMapKeyW_ev key k (by omega),
        visitMapValueW_ev v k (by omega), M.andThen, thenCont_bind, evType, M.bind_assoc]
    | functionType a b =>
      simp only [dType] at hk
      obtain ⟨k, rfl⟩ : ∃ j, k = j + 1 := ⟨k - 1, by omega⟩
      rw [visitScillaType, evType]
      exact visitNode_panic rfl
    | enclosedType t =>
      simp only [dType] at hk
      obtain ⟨k, rfl⟩ : ∃ j, k = j + 1 := ⟨k - 1, by omega⟩
      rw [visitScillaType]
      refine visitNode_skip ?_
      simp only [srEmitter_emit, emitSr, visitScillaTypeW_ev t k (by omega), M.andThen,
        thenCont_bind, evType, M.bind_assoc]
    | scillaAddresseType a =>
      simp only [dType] at hk
      obtain ⟨k, rfl⟩ : ∃ j, k = j + 1 := ⟨k - 1, by omega⟩
      rw [visitScillaType]
      refine visitNode_skip ?_
      simp only [srEmitter_emit, emitSr, visitAddrTypeW_ev a k (by omega), M.andThen,
        evType, M.bind_assoc, M.skip_bind]
    | polyFunctionType x t =>
      simp only [dType] at hk
      obtain ⟨k, rfl⟩ : ∃ j, k = j + 1 := ⟨k - 1, by omega⟩
      rw [visitScillaType, evType]
      exact visitNode_panic rfl
    | typeVarType x =>
      simp only [dType] at hk
      obtain ⟨k, rfl⟩ : ∃ j, k = j + 1 := ⟨k - 1, by omega⟩
      rw [visitScillaType, evType]
      exact visitNode_panic rfl
theorem visitMapEntryW_ev : ∀ (w : W NodeTypeMapEntry) (k : Nat), dEntryW w ≤ k →
    visitMapEntryW (srEmitter dbg k) w = (evEntryW dbg w).thenCont
  | ⟨.mk key v, s, e⟩, k, hk => by
    rw [visitMapEntryW, withPos_sr, evEntryW]
    simp only [dEntryW, dEntry] at hk
    obtain ⟨k, rfl⟩ : ∃ j, k = j + 1 := ⟨k - 1, by omega⟩
    rw [visitMapEntry]
    refine visitNode_cont rfl rfl ?_
    simp only [visitMapKeyW_ev key (k + 1) (by omega), visitMapValueW_ev v (k + 1) (by omega),
      M.andThen, evEntry, M.thenCont, M.bind_assoc, M.cont_bind]
theorem visitAddrFieldW_ev : ∀ (w : W NodeAddressTypeField) (k : Nat), dFieldW w ≤ k →
    visitAddrFieldW (srEmitter dbg k) w = (evFieldW dbg w).thenCont
  | ⟨.mk ⟨i, a, b⟩ t, s, e⟩, k, hk => by
    rw [visitAddrFieldW, withPos_sr, evFieldW]
    simp only [dFieldW, dField] at hk
    obtain ⟨k, rfl⟩ : ∃ j, k = j + 1 := ⟨k - 1, by omega⟩
    rw [visitAddrField]
    refine visitNode_skip ?_
    cases i <;>
    simp only [srEmitter_emit, emitSr, visitScillaTypeW_ev t k (by omega), M.andThen,
      thenCont_bind, evField, M.bind_assoc, M.pure_bind]
theorem visitAddrTypeW_ev : ∀ (w : W NodeAddressType) (k : Nat), dAddrW w ≤ k →
    visitAddrTypeW (srEmitter dbg k) w = (evAddrW dbg w).bind fun _ => M.skip
  | ⟨.mk i tn fs, s, e⟩, k, hk => by
    rw [visitAddrTypeW, withPos_sr, evAddrW]
    simp only [dAddrW, dAddr] at hk
    obtain ⟨k, rfl⟩ : ∃ j, k = j + 1 := ⟨k - 1, by omega⟩
    rw [visitAddrType, evAddr]
    refine visitAddrNode_skip ?_ rfl
    simp only [srEmitter_emit, emitSr, visitTypeNameIdW_ev dbg k (by omega), M.andThen,
      thenCont_bind, M.bind_assoc, collectVars_ev fs k (by omega)]
theorem visitMapValueArgsW_ev : ∀ (w : W NodeTypeMapValueArguments) (k : Nat), dMvaW w ≤ k →
    visitMapValueArgsW (srEmitter dbg k) w = (evMvaW dbg w).thenCont
  | ⟨n, s, e⟩, k, hk => by
    rw [visitMapValueArgsW, withPos_sr, evMvaW]
    rw [dMvaW] at hk
    cases n with
    | enclosedTypeMapValue t =>
      simp only [dMva] at hk
      obtain ⟨k, rfl⟩ : ∃ j, k = j + 1 := ⟨k - 1, by omega⟩
      rw [visitMapValueArgs]
      refine visitNode_skip ?_
      simp only [srEmitter_emit, emitSr, visitMapValueAllowingW_ev t k (by omega), M.andThen,
        thenCont_bind, evMva, M.bind_assoc]
    | genericMapValueArgument m =>
      simp only [dMva] at hk
      obtain ⟨k, rfl⟩ : ∃ j, k = j + 1 := ⟨k - 1, by omega⟩
      rw [visitMapValueArgs]
      refine visitNode_skip ?_
      simp only [srEmitter_emit, emitSr, visitMetaIdW_ev dbg k (by omega), M.andThen, thenCont_bind,
        evMva, M.bind_assoc]
    | mapKeyValueType key v =>
      simp only [dMva] at hk
      obtain ⟨k, rfl⟩ : ∃ j, k = j + 1 := ⟨k - 1, by omega⟩
      rw [visitMapValueArgs, evMva]
      exact visitNode_panic rfl
theorem visitMapValueAllowingW_ev : ∀ (w : W NodeTypeMapValueAllowingTypeArguments) (k : Nat),
    dMvW w ≤ k → visitMapValueAllowingW (srEmitter dbg k) w = (evMvW dbg w).thenCont
  | ⟨n, s, e⟩, k, hk => by
    rw [visitMapValueAllowingW, withPos_sr, evMvW]
    rw [dMvW] at hk
    cases n with
    | typeMapValueNoArgs v =>
      simp only [dMv] at hk
      obtain ⟨k, rfl⟩ : ∃ j, k = j + 1 := ⟨k - 1, by omega⟩
      rw [visitMapValueAllowing]
      refine visitNode_skip ?_
      simp only [srEmitter_emit, emitSr, visitMapValueW_ev v k (by omega), M.andThen,
        thenCont_bind, evMv, M.bind_assoc]
    | typeMapValueWithArgs m args =>
      simp only [dMv] at hk
      obtain ⟨k, rfl⟩ : ∃ j, k = j + 1 := ⟨k - 1, by omega⟩
      rw [visitMapValueAllowing]
      refine visitNode_skip ?_
      cases args with
      | nil =>
        simp only [srEmitter_emit, emitSr, genericType, visitMetaIdW_ev dbg k (by omega), M.andThen,
          thenCont_bind, evMv, M.bind_assoc, M.pure_bind]
      | cons a args =>
        simp only [srEmitter_emit, emitSr, genericType, visitMetaIdW_ev dbg k (by omega), M.andThen,
          thenCont_bind, evMv, M.bind_assoc, M.pure_bind,
          collectMvas_ev (a :: args) k (by omega)]
theorem collectArgs_ev : ∀ (l : List (W NodeTypeArgument)) (k : Nat), dArgs l ≤ k →
    ∀ main, collectArgs dbg (visitTypeArgW (srEmitter dbg k)) l main = evArgs dbg l main
  | [], k, _, main => by simp only [collectArgs, evArgs]
  | a :: as, k, hk, main => by
    simp only [dArgs] at hk
    simp only [collectArgs, evArgs, visitTypeArgW_ev a k (by omega), M.andThen, thenCont_bind,
      collectArgs_ev as k (by omega)]
theorem collectVars_ev : ∀ (l : List (W NodeAddressTypeField)) (k : Nat), dFields l ≤ k →
    collectVars dbg (visitAddrFieldW (srEmitter dbg k)) l = evFields dbg l
  | [], k, _ => by simp only [collectVars, evFields]
  | a :: as, k, hk => by
    simp only [dFields] at hk
    simp only [collectVars, evFields, visitAddrFieldW_ev a k (by omega), M.andThen, thenCont_bind,
      collectVars_ev as k (by omega)]
theorem collectMvas_ev : ∀ (l : List (W NodeTypeMapValueArguments)) (k : Nat), dMvas l ≤ k →
    ∀ main, collectArgs dbg (visitMapValueArgsW (srEmitter dbg k)) l main = evMvas dbg l main
  | [], k, _, main => by simp only [collectArgs, evMvas]
  | a :: as, k, hk, main => by
    simp only [dMvas] at hk
    simp only [collectArgs, evMvas, visitMapValueArgsW_ev a k (by omega), M.andThen, thenCont_bind,
      collectMvas_ev as k (by omega)]
end

/-! ### Declarations -/

/-- a typed identifier becomes a variable declaration on the stack -/
def evTyped (n : NodeTypedIdentifier) : M SrState Unit :=
  (evTypeW dbg n.annotation.node.typeName).bind fun _ => (popType dbg).bind fun ty =>
    (intoType ty).bind fun ty => SrState.pushObj (.varDecl (.mk n.identifierName.node ty))

def evParam (p : W NodeParameterPair) : M SrState Unit := evTyped dbg p.node.identifierWithType.node

/-- first pass over the contract parameters -/
def evInit : List (W NodeParameterPair) → M SrState Unit
  | [] => M.pure ()
  | p :: ps =>
    (evParam dbg p).bind fun _ => (popVar dbg).bind fun x =>
      M.bind (fun s => ({ s with contract :=
          { s.contract with initParams := s.contract.initParams ++ [x] } }, .ok ())) fun _ => evInit ps

/-- second pass over the contract parameters (the declarations stay on the stack) -/
def evAgain : List (W NodeParameterPair) → M SrState Unit
  | [] => M.pure ()
  | p :: ps => (evParam dbg p).bind fun _ => evAgain ps

/-- the parameters of a transition -/
def evParams : List (W NodeParameterPair) → M SrState (List Field)
  | [] => M.pure []
  | p :: ps =>
    (evParam dbg p).bind fun _ => (popVar dbg).bind fun x => (evParams ps).bind fun xs =>
      M.pure (x :: xs)

def addField (f : Field) : M SrState Unit :=
  fun s => ({ s with contract := { s.contract with fields := s.contract.fields ++ [f] } }, .ok ())

def evContractField (f : W NodeContractField) : M SrState Unit :=
  (evTyped dbg f.node.typedIdentifier.node).bind fun _ => (popVar dbg).bind addField

def NodeComponentId.text : NodeComponentId → Str
  | .withTypeLikeName n => n.node.display
  | .withRegularId s => s.node

def addTransition (t : Transition) : M SrState Unit :=
  fun s => ({ s with contract := { s.contract with transitions := s.contract.transitions ++ [t] } },
    .ok ())

def evTransition (t : NodeTransitionDefinition) : M SrState Unit :=
  (SrState.pushObj (.ident t.name.node.text .componentName)).bind fun _ =>
    (evParams dbg t.parameters.node.parameters).bind fun ps =>
      (popIdent dbg).bind fun x =>
        if x.2 = .componentName then addTransition ⟨x.1, ps⟩ else M.panic

def evComponent (c : W NodeComponentDefinition) : M SrState Unit :=
  match c.node with
  | .transitionComponent t => evTransition dbg t.node
  | .procedureComponent _ => M.pure ()

def evEach {α : Type} (f : α → M SrState Unit) : List α → M SrState Unit
  | [] => M.pure ()
  | a :: as => (f a).bind fun _ => evEach f as

def setName (n : Str) : M SrState Unit :=
  fun s => ({ s with contract := { s.contract with name := n } }, .ok ())

def evContract (c : NodeContractDefinition) : M SrState Unit :=
  (evTypeName c.contractName.node).bind fun _ => (setName c.contractName.node.display).bind fun _ =>
    (evInit dbg c.parameters.node.parameters).bind fun _ =>
    (evAgain dbg c.parameters.node.parameters).bind fun _ =>
    (evEach (evContractField dbg) c.fields).bind fun _ =>
    evEach (evComponent dbg) c.components

theorem visitTypedIdW_ev (w : W NodeTypedIdentifier) (k : Nat)
    (hk : dTypeW w.node.annotation.node.typeName + 1 ≤ k) :
    visitTypedIdW (srEmitter dbg k) w = (evTyped dbg w.node).thenCont := by
  obtain ⟨k, rfl⟩ : ∃ j, k = j + 1 := ⟨k - 1, by omega⟩
  have hd : 1 ≤ dTypeW w.node.annotation.node.typeName := by
    cases w.node.annotation.node.typeName with
    | mk n s e => cases n <;> simp [dTypeW, dType]
  obtain ⟨k, rfl⟩ : ∃ j, k = j + 1 := ⟨k - 1, by omega⟩
  rw [visitTypedIdW, withPos_sr, visitTypedId]
  refine visitNode_skip ?_
  have : visitTypeAnnW (srEmitter dbg (k + 1)) w.node.annotation =
      (evTypeW dbg w.node.annotation.node.typeName).thenCont := by
    rw [visitTypeAnnW, withPos_sr, visitTypeAnn]
    exact visitNode_cont rfl rfl (visitScillaTypeW_ev dbg _ _ (by omega))
  simp only [srEmitter_emit, emitSr, this, M.andThen, thenCont_bind, evTyped, M.bind_assoc]

theorem visitParamPairW_ev (p : W NodeParameterPair) (k : Nat) (hk : dParam p + 1 ≤ k) :
    visitParamPairW (srEmitter dbg k) p = (evParam dbg p).thenCont := by
  obtain ⟨k, rfl⟩ : ∃ j, k = j + 1 := ⟨k - 1, by omega⟩
  rw [visitParamPairW, withPos_sr, visitParamPair]
  exact visitNode_cont rfl rfl (visitTypedIdW_ev dbg _ _ hk)

theorem collectInitParams_ev (k : Nat) : ∀ (ps : List (W NodeParameterPair)), dParams ps + 1 ≤ k →
    collectInitParams dbg (visitParamPairW (srEmitter dbg k)) ps = evInit dbg ps
  | [], _ => rfl
  | p :: ps, h => by
    simp only [dParams, dMax] at h
    have := collectInitParams_ev k ps (by simp only [dParams]; omega)
    simp only [collectInitParams, evInit, visitParamPairW_ev dbg p k (by omega), M.andThen,
      thenCont_bind, this]

theorem visitParams_ev (k : Nat) : ∀ (ps : List (W NodeParameterPair)), dParams ps + 1 ≤ k →
    visitList (visitParamPairW (srEmitter dbg k)) ps = (evAgain dbg ps).thenCont
  | [], _ => rfl
  | p :: ps, h => by
    simp only [dParams, dMax] at h
    have := visitParams_ev k ps (by simp only [dParams]; omega)
    simp only [visitList, evAgain, visitParamPairW_ev dbg p k (by omega), M.andThen,
      thenCont_bind, this, M.thenCont, M.bind_assoc, M.cont_bind]

theorem collectParams_ev (k : Nat) : ∀ (ps : List (W NodeParameterPair)), dParams ps + 1 ≤ k →
    collectVars dbg (visitParamPairW (srEmitter dbg k)) ps = evParams dbg ps
  | [], _ => rfl
  | p :: ps, h => by
    simp only [dParams, dMax] at h
    have := collectParams_ev k ps (by simp only [dParams]; omega)
    simp only [collectVars, evParams, visitParamPairW_ev dbg p k (by omega), M.andThen,
      thenCont_bind, this]

theorem visitNode_then {σ : Type} {E : Emitter σ} {n : AnyNode} {a b : M σ Unit} {ch : M σ TR}
    (h : E.emit .enter n = a.thenCont) (h2 : E.emit .exit n = M.cont)
    (hc : ch = b.thenCont) : visitNode E n ch = (a.bind fun _ => b).thenCont := by
  funext s
  simp only [visitNode, h, h2, hc, M.bind, M.thenCont, M.cont, M.pure]
  cases ha : a s with
  | mk s1 r =>
    cases r with
    | ok u =>
      simp only
      cases hb : b s1 with
      | mk s2 r => cases r <;> rfl
    | err e => rfl
    | panic => rfl

theorem visitCompParamsW_ev (w : W NodeComponentParameters) (k : Nat)
    (hk : dParams w.node.parameters + 2 ≤ k) :
    visitCompParamsW (srEmitter dbg k) w =
      ((evInit dbg w.node.parameters).bind fun _ => evAgain dbg w.node.parameters).thenCont := by
  obtain ⟨k, rfl⟩ : ∃ j, k = j + 1 := ⟨k - 1, by omega⟩
  rw [visitCompParamsW, withPos_sr, visitCompParams]
  refine visitNode_then ?_ rfl (visitParams_ev dbg _ _ (by omega))
  simp only [srEmitter_emit, emitSr, collectInitParams_ev dbg k w.node.parameters (by omega), M.andThen,
    M.thenCont]

theorem visitFullExpr_ev (k : Nat) (hk : 1 ≤ k) (n : NodeFullExpression) :
    visitFullExpr (srEmitter dbg k) n = M.cont := by
  obtain ⟨k, rfl⟩ : ∃ j, k = j + 1 := ⟨k - 1, by omega⟩
  have : ∀ ch, visitNode (srEmitter dbg (k + 1)) (.fullExpr n) ch = M.cont := by
    intro ch
    rw [visitNode_skip (m := M.pure ()) (by rfl)]
    rfl
  cases n <;> simp only [visitFullExpr, this]

theorem visitFullExprW_ev (k : Nat) (hk : 1 ≤ k) (w : W NodeFullExpression) :
    visitFullExprW (srEmitter dbg k) w = M.cont := by
  cases w with
  | mk n s e => rw [visitFullExprW, withPos_sr, visitFullExpr_ev dbg k hk]

theorem visitConstraint_ev (k : Nat) (hk : 1 ≤ k) (c : Option (W NodeWithConstraint)) :
    visitOpt (visitWithConstraintW (srEmitter dbg k)) c = M.cont := by
  obtain ⟨k, rfl⟩ : ∃ j, k = j + 1 := ⟨k - 1, by omega⟩
  cases c with
  | none => rfl
  | some w =>
    simp only [visitOpt, visitWithConstraintW, withPos_sr, visitWithConstraint,
      visitFullExprW_ev dbg _ hk]
    rfl

theorem visitContractFieldW_ev (w : W NodeContractField) (k : Nat)
    (hk : dContractField w + 2 ≤ k) :
    visitContractFieldW (srEmitter dbg k) w = (evContractField dbg w).thenCont := by
  obtain ⟨k, rfl⟩ : ∃ j, k = j + 1 := ⟨k - 1, by omega⟩
  simp only [dContractField] at hk
  rw [visitContractFieldW, withPos_sr, visitContractField]
  refine visitNode_skip ?_
  simp only [srEmitter_emit, emitSr, visitTypedIdW_ev dbg w.node.typedIdentifier k (by omega),
    M.andThen, thenCont_bind, visitFullExprW_ev dbg k (by omega), M.cont_bind, evContractField,
    M.bind_assoc]
  rfl

theorem visitCompDefW_ev (w : W NodeComponentDefinition) (k : Nat) (hk : dComponent w + 3 ≤ k) :
    visitCompDefW (srEmitter dbg k) w = (evComponent dbg w).thenCont := by
  obtain ⟨k, rfl⟩ : ∃ j, k = j + 1 := ⟨k - 1, by omega⟩
  obtain ⟨n, a, b⟩ := w
  rw [visitCompDefW, withPos_sr]
  unfold visitCompDef
  refine visitNode_cont rfl rfl ?_
  cases n with
  | transitionComponent t =>
    simp only [dComponent] at hk
    simp only [visitTransDefW, withPos_sr, visitTransDef, evComponent]
    refine visitNode_skip ?_
    obtain ⟨k, rfl⟩ : ∃ j, k = j + 1 := ⟨k - 1, by omega⟩
    have hc : visitComponentIdW (srEmitter dbg (k + 1)) t.node.name =
        (SrState.pushObj (.ident t.node.name.node.text .componentName)).thenCont := by
      rw [visitComponentIdW, withPos_sr]
      unfold visitComponentId
      refine visitNode_skip ?_
      cases t.node.name.node <;> rfl
    simp only [srEmitter_emit, emitSr, hc, M.andThen, thenCont_bind,
      collectParams_ev dbg (k + 1) t.node.parameters.node.parameters (by omega), evTransition, M.bind_assoc]
    congr; funext _; congr; funext _; congr; funext x
    obtain ⟨n, kd⟩ := x
    cases kd <;> rfl
  | procedureComponent p =>
    simp only [visitProcDefW, withPos_sr, visitProcDef, evComponent]
    exact visitNode_skip rfl

theorem visitFields_ev (k : Nat) : ∀ (fs : List (W NodeContractField)),
    dMax dContractField fs + 2 ≤ k →
    visitList (visitContractFieldW (srEmitter dbg k)) fs =
      (evEach (evContractField dbg) fs).thenCont
  | [], _ => rfl
  | p :: ps, h => by
    simp only [dMax] at h
    have := visitFields_ev k ps (by omega)
    simp only [visitList, evEach, visitContractFieldW_ev dbg p k (by omega), M.andThen,
      thenCont_bind, this, M.thenCont, M.bind_assoc, M.cont_bind]

theorem visitComponents_ev (k : Nat) : ∀ (fs : List (W NodeComponentDefinition)),
    dMax dComponent fs + 3 ≤ k →
    visitList (visitCompDefW (srEmitter dbg k)) fs =
      (evEach (evComponent dbg) fs).thenCont
  | [], _ => rfl
  | p :: ps, h => by
    simp only [dMax] at h
    have := visitComponents_ev k ps (by omega)
    simp only [visitList, evEach, visitCompDefW_ev dbg p k (by omega), M.andThen,
      thenCont_bind, this, M.thenCont, M.bind_assoc, M.cont_bind]

theorem visitContractDefW_ev (w : W NodeContractDefinition) (k : Nat) (hk : emitFuel w.node ≤ k) :
    visitContractDefW (srEmitter dbg k) w = (evContract dbg w.node).thenCont := by
  simp only [emitFuel] at hk
  obtain ⟨k, rfl⟩ : ∃ j, k = j + 1 := ⟨k - 1, by omega⟩
  rw [visitContractDefW, withPos_sr, visitContractDef]
  refine visitNode_skip ?_
  simp only [srEmitter_emit, emitSr, visitTypeNameIdW_ev dbg k (by omega),
    visitCompParamsW_ev dbg w.node.parameters k (by omega), visitConstraint_ev dbg k (by omega),
    visitFields_ev dbg k w.node.fields (by omega), visitComponents_ev dbg k w.node.components
    (by omega), M.andThen, thenCont_bind, M.cont_bind, evContract, M.bind_assoc]
  rfl

/-- `emitProgram` as a structural evaluation of the contract definition. -/
theorem emitProgram_ev (p : NodeProgram) :
    emitProgram dbg p = match evContract dbg p.contractDefinition.node SrState.init with
      | (s, .ok _) => .ok s.contract
      | (_, .err e) => .err e
      | (_, .panic) => .panic := by
  simp only [emitProgram, visitContractDefW_ev dbg _ _ (Nat.le_refl _), M.thenCont, M.bind]
  cases evContract dbg p.contractDefinition.node SrState.init with
  | mk s r => cases r <;> rfl

/-- The fuel of the model never matters: any larger fuel gives the same result. -/
theorem emitProgram_fuel (p : NodeProgram) (k : Nat)
    (hk : emitFuel p.contractDefinition.node ≤ k) :
    visitContractDefW (srEmitter dbg k) p.contractDefinition =
      visitContractDefW (srEmitter dbg (emitFuel p.contractDefinition.node)) p.contractDefinition := by
  rw [visitContractDefW_ev dbg _ _ hk, visitContractDefW_ev dbg _ _ (Nat.le_refl _)]

end Verif
