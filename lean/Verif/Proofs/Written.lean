import Verif.Proofs.EmitContract
import Verif.Proofs.Legal
import Verif.Spec.NodeValues
import Verif.Spec.Occurs
import Verif.Spec.RenameResult
/-
Every string the emitter puts into a result is a string of the tree (for C50).
-/
namespace Verif

variable (S : Str → Prop)

/-- all strings of the value satisfy `S` -/
def RV.AllStr (v : RV) : Prop := ∀ s, RV.Occurs (.str s) v → S s

mutual
/-- the strings of a type under construction; two of its names are not from the tree -/
def SrType.Made : SrType → Prop
  | .mk n ts a => (S n ∨ n = str! "ByStr" ∨ n = str! "Map") ∧ madeAll ts ∧
      ∀ x, a = some x → S x.1 ∧ ∀ y ∈ fieldsNames x.2, S y
def madeAll : List SrType → Prop
  | [] => True
  | t :: ts => t.Made ∧ madeAll ts
end

theorem madeAll_append : ∀ a b : List SrType, madeAll S (a ++ b) ↔ madeAll S a ∧ madeAll S b
  | [], b => by simp [madeAll]
  | t :: a, b => by simp [madeAll, madeAll_append a b, and_assoc]

theorem baseType_names {m : Str} {t : Ty} (h : baseType m = some t) : t.names = [] := by
  rw [baseType] at h
  repeat' (replace h := ite_split h; rcases h with ⟨_, h⟩ | ⟨_, h⟩)
  all_goals first | (injection h with h; subst h; rfl) | cases h

mutual
theorem SrType.Made.toTy : ∀ (t : SrType), t.Made S → ∀ ty, t.toTy = some ty → ∀ x ∈ ty.names, S x
  | .mk m ts a, h, ty, e => by
    rw [SrType.Made] at h
    obtain ⟨hn, ht, ha⟩ := h
    have hc := SrType.Made.convLast ts ht
    rw [SrType.toTy] at e
    split at e
    · rename_i hb
      injection e with e; subst e
      rw [baseType_names hb]; simp
    · rename_i hb
      split at e
      · split at e
        · rename_i t _ hl
          injection e with e; subst e
          rw [hl] at hc
          intro x hx; rw [Ty.names] at hx
          exact hc.1 _ rfl x hx
        · simp at e
      split at e
      · split at e
        · rename_i t _ hl
          injection e with e; subst e
          rw [hl] at hc
          intro x hx; rw [Ty.names] at hx
          exact hc.1 _ rfl x hx
        · simp at e
      split at e
      · split at e
        · rename_i t2 t1 hl
          injection e with e; subst e
          rw [hl] at hc
          intro x hx; rw [Ty.names] at hx
          rcases List.mem_append.1 hx with hx | hx
          · exact hc.2 _ rfl x hx
          · exact hc.1 _ rfl x hx
        · simp at e
      split at e
      · split at e
        · rename_i t2 t1 hl
          injection e with e; subst e
          rw [hl] at hc
          intro x hx; rw [Ty.names] at hx
          rcases List.mem_append.1 hx with hx | hx
          · exact hc.2 _ rfl x hx
          · exact hc.1 _ rfl x hx
        · simp at e
      rename_i hm
      injection e with e; subst e
      unfold otherType
      split
      · cases a with
        | none => simp [Ty.names]
        | some y =>
          intro x hx
          obtain ⟨h1, h2⟩ := ha _ rfl
          obtain ⟨g, fs⟩ := y
          simp only [Ty.names, List.mem_cons] at hx
          rcases hx with rfl | hx
          · exact h1
          · exact h2 x hx
      · split
        · simp [Ty.names]
        · intro x hx
          simp only [Ty.names, List.mem_singleton] at hx
          subst hx
          rcases hn with hn | rfl | rfl
          · exact hn
          · simp [baseType] at hb
          · exact absurd rfl hm
theorem SrType.Made.convLast : ∀ (ts : List SrType), madeAll S ts →
    (∀ t, (Verif.convLast ts).1 = some (some t) → ∀ x ∈ t.names, S x) ∧
      (∀ t, (Verif.convLast ts).2 = some (some t) → ∀ x ∈ t.names, S x)
  | [], _ => by simp [Verif.convLast]
  | [t], h => by
    rw [madeAll] at h
    have := SrType.Made.toTy t h.1
    simp only [Verif.convLast, Option.some.injEq, reduceCtorEq, false_implies, implies_true, and_true]
    exact this
  | t :: u :: ts, h => by
    rw [madeAll] at h
    have h1 := SrType.Made.toTy t h.1
    have h2 := SrType.Made.convLast (u :: ts) h.2
    rw [Verif.convLast]
    · split
      · rename_i x hx
        rw [hx] at h2
        refine ⟨h2.1, ?_⟩
        intro ty hty
        simp only [Option.some.injEq] at hty
        exact h1 ty hty
      · exact h2
    · simp
end

/-- the strings of a stack object -/
def StackObj.Made : StackObj → Prop
  | .ident n _ => S n ∨ n = str! "ByStr"
  | .varDecl f => ∀ x ∈ fieldsNames [f], S x
  | .typeDef t => t.Made S

/-- all strings of the state except names of transitions and of the contract -/
structure SrState.Made (s : SrState) : Prop where
  stack : ∀ o ∈ s.stack, o.Made S
  params : ∀ x ∈ fieldsNames s.contract.initParams, S x
  fields : ∀ x ∈ fieldsNames s.contract.fields, S x
  transitions : ∀ t ∈ s.contract.transitions, ∀ x ∈ fieldsNames t.params, S x

/-- The computation only uses such strings. -/
def Uses {α : Type} (m : M SrState α) (Q : α → Prop) : Prop :=
  ∀ s : SrState, s.Made S → (m s).1.Made S ∧ ∀ a, (m s).2 = .ok a → Q a

variable {S}

theorem Uses.bind {α β : Type} {m : M SrState α} {f : α → M SrState β} {P : α → Prop} {Q : β → Prop}
    (hm : Uses S m P) (hf : ∀ a, P a → Uses S (f a) Q) : Uses S (m.bind f) Q := by
  intro s hs
  obtain ⟨h1, h2⟩ := hm s hs
  simp only [M.bind]
  cases h : m s with
  | mk s1 r =>
    rw [h] at h1 h2
    cases r with
    | ok a => exact hf a (h2 a rfl) s1 h1
    | err e => exact ⟨h1, by simp⟩
    | panic => exact ⟨h1, by simp⟩

theorem Uses.pure {α : Type} {Q : α → Prop} {a : α} (h : Q a) : Uses S (M.pure a : M SrState α) Q :=
  fun _ hs => ⟨hs, fun b hb => by simp only [M.pure, Outcome.ok.injEq] at hb; exact hb ▸ h⟩

theorem Uses.panic {α : Type} {Q : α → Prop} : Uses S (M.panic : M SrState α) Q :=
  fun _ hs => ⟨hs, fun b hb => by simp [M.panic] at hb⟩

theorem Uses.swallow {m : M SrState Unit} {P Q : Unit → Prop} (h : Uses S m P) (hq : Q ()) :
    Uses S (Verif.swallow m) Q := by
  intro s hs
  have := h s hs
  refine ⟨?_, fun _ _ => hq⟩
  simp only [Verif.swallow]
  cases hm : m s with
  | mk s1 r => rw [hm] at this; cases r <;> exact this.1

abbrev Always {α : Type} : α → Prop := fun _ => True

theorem SrState.Made.popped {x : StackObj} {st : List StackObj} {c : Contract} (h : SrState.Made S ⟨x :: st, c⟩) :
    SrState.Made S ⟨st, c⟩ :=
  ⟨fun o ho => h.stack o (List.mem_cons_of_mem _ ho), h.params, h.fields, h.transitions⟩

theorem Uses.popIdent (dbg : StackObj → Str) : Uses S (popIdent dbg) fun x => S x.1 ∨ x.1 = str! "ByStr" := by
  rintro ⟨st, c⟩ hs
  cases st with
  | nil => exact ⟨hs, fun a ha => by simp [Verif.popIdent] at ha⟩
  | cons x st =>
    cases x with
    | ident n k =>
      refine ⟨hs.popped, fun a ha => ?_⟩
      simp only [Verif.popIdent, Outcome.ok.injEq] at ha
      subst ha
      exact hs.stack _ (List.mem_cons_self ..)
    | varDecl f => exact ⟨hs.popped, fun a ha => by simp [Verif.popIdent] at ha⟩
    | typeDef f => exact ⟨hs.popped, fun a ha => by simp [Verif.popIdent] at ha⟩

theorem Uses.popVar (dbg : StackObj → Str) : Uses S (popVar dbg) fun f => ∀ x ∈ fieldsNames [f], S x := by
  rintro ⟨st, c⟩ hs
  cases st with
  | nil => exact ⟨hs, fun a ha => by simp [Verif.popVar] at ha⟩
  | cons x st =>
    cases x with
    | varDecl f =>
      refine ⟨hs.popped, fun a ha => ?_⟩
      simp only [Verif.popVar, Outcome.ok.injEq] at ha
      subst ha
      exact hs.stack _ (List.mem_cons_self ..)
    | ident n k => exact ⟨hs.popped, fun a ha => by simp [Verif.popVar] at ha⟩
    | typeDef f => exact ⟨hs.popped, fun a ha => by simp [Verif.popVar] at ha⟩

theorem Uses.popType (dbg : StackObj → Str) : Uses S (popType dbg) fun t => t.Made S := by
  rintro ⟨st, c⟩ hs
  cases st with
  | nil => exact ⟨hs, fun a ha => by simp [Verif.popType] at ha⟩
  | cons x st =>
    cases x with
    | typeDef f =>
      refine ⟨hs.popped, fun a ha => ?_⟩
      simp only [Verif.popType, Outcome.ok.injEq] at ha
      subst ha
      exact hs.stack _ (List.mem_cons_self ..)
    | ident n k => exact ⟨hs.popped, fun a ha => by simp [Verif.popType] at ha⟩
    | varDecl f => exact ⟨hs.popped, fun a ha => by simp [Verif.popType] at ha⟩

theorem Uses.push {x : StackObj} (h : x.Made S) : Uses S (SrState.pushObj x) Always :=
  fun _ hs => ⟨⟨fun o ho => by
    rcases List.mem_cons.1 ho with rfl | ho
    · exact h
    · exact hs.stack o ho, hs.params, hs.fields, hs.transitions⟩, fun _ _ => trivial⟩

theorem Uses.intoType {t : SrType} (h : t.Made S) : Uses S (intoType t) fun ty => ∀ x ∈ ty.names, S x := by
  intro s hs
  simp only [Verif.intoType]
  cases e : t.toTy with
  | none => exact ⟨hs, fun a ha => by simp at ha⟩
  | some ty => exact ⟨hs, fun a ha => by simp only [Outcome.ok.injEq] at ha; exact ha ▸ h.toTy S _ ty e⟩

theorem Uses.identToType (dbg : StackObj → Str) : Uses S (identToType dbg) Always :=
  Uses.bind (Uses.popIdent dbg) fun x hx => Uses.push (by
    refine ⟨?_, trivial, by simp⟩
    rcases hx with h | h
    · exact .inl h
    · exact .inr (.inl h))

theorem Uses.makeMap (dbg : StackObj → Str) : Uses S (makeMap dbg) Always :=
  Uses.bind (Uses.popType dbg) fun _ hv => Uses.bind (Uses.popType dbg) fun _ hk =>
    Uses.push ⟨.inr (.inr rfl), ⟨hk, hv, trivial⟩, by simp⟩

theorem SrType.Made.push {t u : SrType} (h : t.Made S) (hu : u.Made S) : (t.pushSubType u).Made S := by
  obtain ⟨n, ts, a⟩ := t
  rw [SrType.Made] at h
  rw [SrType.pushSubType, SrType.Made, madeAll_append]
  exact ⟨h.1, ⟨h.2.1, hu, trivial⟩, h.2.2⟩

theorem SrType.Made.address {t : SrType} (h : t.Made S) {g : Str} {fs : List Field} (hg : S g)
    (hf : ∀ x ∈ fieldsNames fs, S x) : (t.setAddress (g, fs)).Made S := by
  obtain ⟨n, ts, a⟩ := t
  rw [SrType.Made] at h
  rw [SrType.setAddress, SrType.Made]
  refine ⟨h.1, h.2.1, ?_⟩
  intro x hx
  injection hx with hx; subst hx
  exact ⟨hg, hf⟩

/-! ### Strings of the tree -/

theorem RV.AllStr.arg {p : Str} {fs : List Str} {l : List RV} {v : RV} (h : RV.AllStr S (.node p fs l)) (hv : v ∈ l) :
    RV.AllStr S v := fun s hs => h s (.node hv hs)

theorem RV.AllStr.item {l : List RV} {v : RV} (h : RV.AllStr S (.vec l)) (hv : v ∈ l) :
    RV.AllStr S v := fun s hs => h s (.vec hv hs)

theorem RV.AllStr.str {s : Str} (h : RV.AllStr S (.str s)) : S s := h s .refl

theorem RV.AllStr.inner {α : Type} {f : α → RV} {w : W α} (h : RV.AllStr S (W.rv f w)) : RV.AllStr S (f w.node) :=
  h.arg (by simp)

theorem Uses.typeName {n : NodeTypeNameIdentifier} (h : RV.AllStr S n.rv) : Uses S (evTypeName n) Always := by
  cases n with
  | byteStringType b =>
    refine Uses.push (.inl ?_)
    have := h.arg (v := NodeByteStr.rv b) (by simp)
    cases b with
    | constant x => exact (this.arg (v := W.rv RV.str x) (by simp)).inner.str
    | type x => exact (this.arg (v := W.rv RV.str x) (by simp)).inner.str
  | eventType => exact Uses.pure trivial
  | typeOrEnumLikeIdentifier s =>
    exact Uses.push (.inl (h.arg (v := W.rv RV.str s) (by simp)).inner.str)

theorem Uses.meta {n : NodeMetaIdentifier} (h : RV.AllStr S n.rv) : Uses S (evMeta n) Always := by
  cases n with
  | metaName n => exact Uses.typeName (h.arg (v := W.rv _ n) (by simp)).inner
  | metaNameInNamespace a b =>
    exact Uses.bind (Uses.typeName (h.arg (v := W.rv _ a) (by simp)).inner) fun _ _ =>
      Uses.typeName (h.arg (v := W.rv _ b) (by simp)).inner
  | metaNameInHexspace a b => exact Uses.typeName (h.arg (v := W.rv _ b) (by simp)).inner
  | byteString => exact Uses.push (.inr rfl)

theorem Uses.name (dbg : StackObj → Str) {n : W NodeMetaIdentifier} (h : RV.AllStr S (W.rv NodeMetaIdentifier.rv n)) :
    Uses S ((evMeta n.node).bind fun _ => Verif.identToType dbg) Always :=
  Uses.bind (Uses.meta h.inner) fun _ _ => Uses.identToType dbg

variable (dbg : StackObj → Str)

mutual
theorem Uses.keyW : ∀ w : W NodeTypeMapKey, RV.AllStr S (wNodeTypeMapKey w) → Uses S (evKeyW dbg w) Always
  | ⟨n, p, q⟩, h => by
    replace h : RV.AllStr S n.rv := h.arg (by simp)
    cases n with
    | genericMapKey m => simp only [evKeyW, evKey]; exact Uses.name dbg (h.arg (by simp))
    | enclosedGenericId m => simp only [evKeyW, evKey]; exact Uses.name dbg (h.arg (by simp))
    | enclosedAddressMapKeyType a =>
      simp only [evKeyW, evKey]
      exact Uses.bind (Uses.addrW a (h.arg (by simp))) fun _ _ => Uses.identToType dbg
    | addressMapKeyType a =>
      simp only [evKeyW, evKey]
      exact Uses.bind (Uses.addrW a (h.arg (by simp))) fun _ _ => Uses.identToType dbg
theorem Uses.valueW : ∀ w : W NodeTypeMapValue, RV.AllStr S (wNodeTypeMapValue w) → Uses S (evValueW dbg w) Always
  | ⟨n, p, q⟩, h => by
    replace h : RV.AllStr S n.rv := h.arg (by simp)
    cases n with
    | mapValueTypeOrEnumLikeIdentifier m => simp only [evValueW, evValue]; exact Uses.name dbg (h.arg (by simp))
    | mapKeyValue e =>
      simp only [evValueW, evValue]
      exact Uses.bind (Uses.entryW e (h.arg (by simp))) fun _ _ => Uses.makeMap dbg
    | mapValueParenthesizedType t => simp only [evValueW, evValue]; exact Uses.mvW t (h.arg (by simp))
    | mapValueAddressType a => simp only [evValueW, evValue]; exact Uses.addrW a (h.arg (by simp))
theorem Uses.entryW : ∀ w : W NodeTypeMapEntry, RV.AllStr S (wNodeTypeMapEntry w) → Uses S (evEntryW dbg w) Always
  | ⟨.mk k v, p, q⟩, h => by
    replace h : RV.AllStr S (NodeTypeMapEntry.rv (.mk k v)) := h.arg (by simp)
    simp only [evEntryW, evEntry]
    exact Uses.bind (Uses.keyW k (h.arg (by simp))) fun _ _ => Uses.valueW v (h.arg (by simp))
theorem Uses.argW : ∀ w : W NodeTypeArgument, RV.AllStr S (wNodeTypeArgument w) → Uses S (evArgW dbg w) Always
  | ⟨n, p, q⟩, h => by
    replace h : RV.AllStr S n.rv := h.arg (by simp)
    cases n with
    | enclosedTypeArgument t => simp only [evArgW, evArg]; exact Uses.typeW t (h.arg (by simp))
    | genericTypeArgument m => simp only [evArgW, evArg]; exact Uses.name dbg (h.arg (by simp))
    | templateTypeArgument x => simp only [evArgW, evArg]; exact Uses.panic
    | addressTypeArgument a => simp only [evArgW, evArg]; exact Uses.addrW a (h.arg (by simp))
    | mapTypeArgument k v =>
      simp only [evArgW, evArg]
      exact Uses.bind (Uses.keyW k (h.arg (by simp))) fun _ _ => Uses.bind (Uses.valueW v (h.arg (by simp)))
        fun _ _ => Uses.makeMap dbg
theorem Uses.typeW : ∀ w : W NodeScillaType, RV.AllStr S (wNodeScillaType w) → Uses S (evTypeW dbg w) Always
  | ⟨n, p, q⟩, h => by
    replace h : RV.AllStr S n.rv := h.arg (by simp)
    cases n with
    | genericTypeWithArgs m args =>
      have hm := h.arg (v := W.rv NodeMetaIdentifier.rv m) (by simp)
      cases args with
      | nil => simp only [evTypeW, evType]; exact Uses.name dbg hm
      | cons a args =>
        have hl := h.arg (v := .vec (lWNodeTypeArgument (a :: args))) (by simp)
        simp only [evTypeW, evType]
        exact Uses.bind (Uses.meta hm.inner) fun _ _ => Uses.bind (Uses.identToType dbg) fun _ _ =>
          Uses.bind (Uses.popType dbg) fun main hmain =>
            Uses.bind (Uses.args (a :: args) main hl hmain) fun t ht => Uses.push ht
    | mapType k v =>
      simp only [evTypeW, evType]
      exact Uses.bind (Uses.keyW k (h.arg (by simp))) fun _ _ => Uses.bind (Uses.valueW v (h.arg (by simp)))
        fun _ _ => Uses.makeMap dbg
    | functionType a b => simp only [evTypeW, evType]; exact Uses.panic
    | enclosedType t => simp only [evTypeW, evType]; exact Uses.typeW t (h.arg (by simp))
    | scillaAddresseType a => simp only [evTypeW, evType]; exact Uses.addrW a (h.arg (by simp))
    | polyFunctionType x t => simp only [evTypeW, evType]; exact Uses.panic
    | typeVarType x => simp only [evTypeW, evType]; exact Uses.panic
theorem Uses.addrW : ∀ w : W NodeAddressType, RV.AllStr S (wNodeAddressType w) → Uses S (evAddrW dbg w) Always
  | ⟨.mk i tag fs, p, q⟩, h => by
    replace h : RV.AllStr S (NodeAddressType.rv (.mk i tag fs)) := h.arg (by simp)
    have hi := (h.arg (v := W.rv NodeTypeNameIdentifier.rv i) (by simp)).inner
    have ht := (h.arg (v := W.rv RV.str tag) (by simp)).inner.str
    have hf := h.arg (v := .vec (lWNodeAddressTypeField fs)) (by simp)
    simp only [evAddrW, evAddr]
    exact Uses.swallow (Uses.bind (Uses.typeName hi) fun _ _ => Uses.bind (Uses.identToType dbg) fun _ _ =>
      Uses.bind (Uses.popType dbg) fun _ hmain => Uses.bind (Uses.fields fs hf) fun _ hx =>
        Uses.push (hmain.address ht hx)) trivial
theorem Uses.mvaW : ∀ w : W NodeTypeMapValueArguments, RV.AllStr S (wNodeTypeMapValueArguments w) →
    Uses S (evMvaW dbg w) Always
  | ⟨n, p, q⟩, h => by
    replace h : RV.AllStr S n.rv := h.arg (by simp)
    cases n with
    | enclosedTypeMapValue t => simp only [evMvaW, evMva]; exact Uses.mvW t (h.arg (by simp))
    | genericMapValueArgument m => simp only [evMvaW, evMva]; exact Uses.name dbg (h.arg (by simp))
    | mapKeyValueType k v => simp only [evMvaW, evMva]; exact Uses.panic
theorem Uses.mvW : ∀ w : W NodeTypeMapValueAllowingTypeArguments,
    RV.AllStr S (wNodeTypeMapValueAllowingTypeArguments w) → Uses S (evMvW dbg w) Always
  | ⟨n, p, q⟩, h => by
    replace h : RV.AllStr S n.rv := h.arg (by simp)
    cases n with
    | typeMapValueNoArgs v => simp only [evMvW, evMv]; exact Uses.valueW v (h.arg (by simp))
    | typeMapValueWithArgs m args =>
      have hm := h.arg (v := W.rv NodeMetaIdentifier.rv m) (by simp)
      cases args with
      | nil => simp only [evMvW, evMv]; exact Uses.name dbg hm
      | cons a args =>
        have hl := h.arg (v := .vec (lWNodeTypeMapValueArguments (a :: args))) (by simp)
        simp only [evMvW, evMv]
        exact Uses.bind (Uses.meta hm.inner) fun _ _ => Uses.bind (Uses.identToType dbg) fun _ _ =>
          Uses.bind (Uses.popType dbg) fun main hmain =>
            Uses.bind (Uses.mvas (a :: args) main hl hmain) fun t ht => Uses.push ht
theorem Uses.args : ∀ (l : List (W NodeTypeArgument)) (main : SrType), RV.AllStr S (.vec (lWNodeTypeArgument l)) →
    main.Made S → Uses S (evArgs dbg l main) fun t => t.Made S
  | [], main, _, hmain => by rw [evArgs]; exact Uses.pure hmain
  | a :: as, main, h, hmain => by
    rw [evArgs]
    rw [lWNodeTypeArgument] at h
    exact Uses.bind (Uses.argW a (h.item (by simp))) fun _ _ => Uses.bind (Uses.popType dbg) fun _ hu =>
      Uses.args as _ (fun s hs => h s (by cases hs with | vec hv ho => exact .vec (List.mem_cons_of_mem _ hv) ho))
        (hmain.push hu)
theorem Uses.mvas : ∀ (l : List (W NodeTypeMapValueArguments)) (main : SrType),
    RV.AllStr S (.vec (lWNodeTypeMapValueArguments l)) →
    main.Made S → Uses S (evMvas dbg l main) fun t => t.Made S
  | [], main, _, hmain => by rw [evMvas]; exact Uses.pure hmain
  | a :: as, main, h, hmain => by
    rw [evMvas]
    rw [lWNodeTypeMapValueArguments] at h
    exact Uses.bind (Uses.mvaW a (h.item (by simp))) fun _ _ => Uses.bind (Uses.popType dbg) fun _ hu =>
      Uses.mvas as _ (fun s hs => h s (by cases hs with | vec hv ho => exact .vec (List.mem_cons_of_mem _ hv) ho))
        (hmain.push hu)
theorem Uses.fields : ∀ (l : List (W NodeAddressTypeField)), RV.AllStr S (.vec (lWNodeAddressTypeField l)) →
    Uses S (evFields dbg l) fun fs => ∀ x ∈ fieldsNames fs, S x
  | [], _ => by rw [evFields]; exact Uses.pure (by simp [fieldsNames])
  | ⟨.mk ⟨i, a, b⟩ t, p, q⟩ :: fs, h => by
    rw [evFields]
    rw [lWNodeAddressTypeField] at h
    have h0 : RV.AllStr S (NodeAddressTypeField.rv (.mk ⟨i, a, b⟩ t)) :=
      (h.item (List.mem_cons_self ..)).arg (by simp)
    have h1 := Uses.typeW t (h0.arg (by simp))
    have h2 := Uses.fields fs
      (fun s hs => h s (by cases hs with | vec hv ho => exact .vec (List.mem_cons_of_mem _ hv) ho))
    refine Uses.bind (P := Always) ?_ fun _ _ => Uses.bind (Uses.popVar dbg) fun f hf => Uses.bind h2 fun fs' hfs =>
      Uses.pure ?_
    · cases i with
      | variableName x =>
        simp only [evFieldW, evField]
        have hx : RV.AllStr S (NodeVariableIdentifier.rv (.variableName x)) :=
          (h0.arg (v := W.rv NodeVariableIdentifier.rv ⟨.variableName x, a, b⟩) (by simp)).inner
        have hx := (hx.arg (v := W.rv RV.str x) (by simp)).inner.str
        exact Uses.bind h1 fun _ _ => Uses.bind (Uses.popType dbg) fun _ hu =>
          Uses.bind (Uses.intoType hu) fun ty hty => Uses.push (by
            intro y hy
            simp only [fieldsNames, List.append_nil, List.mem_cons] at hy
            rcases hy with rfl | hy
            · exact hx
            · exact hty y hy)
      | specialIdentifier x => simp only [evFieldW, evField]; exact Uses.pure trivial
      | variableInNamespace x y => simp only [evFieldW, evField]; exact Uses.pure trivial
    · obtain ⟨n, ty⟩ := f
      intro y hy
      simp only [fieldsNames, List.append_nil, List.mem_cons, List.mem_append] at hf hy
      rcases hy with rfl | hy | hy
      · exact hf _ (.inl rfl)
      · exact hf _ (.inr hy)
      · exact hfs y hy
end

theorem Uses.typed {n : NodeTypedIdentifier} (h : RV.AllStr S n.rv) : Uses S (evTyped dbg n) Always := by
  have hx := (h.arg (v := W.rv RV.str n.identifierName) (by simp)).inner.str
  have ha : RV.AllStr S n.annotation.node.rv :=
    (h.arg (v := W.rv NodeTypeAnnotation.rv n.annotation) (by simp)).inner
  have ht : RV.AllStr S (W.rv NodeScillaType.rv n.annotation.node.typeName) := ha.arg (by simp)
  rw [← wNodeScillaType_eq] at ht
  exact Uses.bind (Uses.typeW dbg _ ht) fun _ _ => Uses.bind (Uses.popType dbg) fun _ hu =>
    Uses.bind (Uses.intoType hu) fun ty hty => Uses.push (by
      intro y hy
      simp only [fieldsNames, List.append_nil, List.mem_cons] at hy
      rcases hy with rfl | hy
      · exact hx
      · exact hty y hy)

theorem fieldsNames_append : ∀ a b : List Field, fieldsNames (a ++ b) = fieldsNames a ++ fieldsNames b
  | [], _ => rfl
  | ⟨x, t⟩ :: a, b => by simp [fieldsNames, fieldsNames_append a b]

theorem Uses.init : ∀ ps : List NodeTypedIdentifier, (∀ p ∈ ps, RV.AllStr S p.rv) → Uses S (evInitT dbg ps) Always
  | [], _ => Uses.pure trivial
  | p :: ps, h => by
    rw [evInitT]
    refine Uses.bind (Uses.typed dbg (h p (by simp))) fun _ _ => Uses.bind (Uses.popVar dbg) fun f hf =>
      Uses.bind (P := Always) ?_ fun _ _ => Uses.init ps fun q hq => h q (by simp [hq])
    intro s hs
    refine ⟨⟨hs.stack, ?_, hs.fields, hs.transitions⟩, fun _ _ => trivial⟩
    intro x hx
    simp only [fieldsNames_append, List.mem_append] at hx
    exact hx.elim (hs.params x) (hf x)

theorem Uses.again : ∀ ps : List NodeTypedIdentifier, (∀ p ∈ ps, RV.AllStr S p.rv) → Uses S (evAgainT dbg ps) Always
  | [], _ => Uses.pure trivial
  | p :: ps, h => by
    rw [evAgainT]
    exact Uses.bind (Uses.typed dbg (h p (by simp))) fun _ _ => Uses.again ps fun q hq => h q (by simp [hq])

theorem Uses.fieldsT : ∀ ps : List NodeTypedIdentifier, (∀ p ∈ ps, RV.AllStr S p.rv) →
    Uses S (evFieldsT dbg ps) Always
  | [], _ => Uses.pure trivial
  | p :: ps, h => by
    rw [evFieldsT]
    refine Uses.bind (Uses.typed dbg (h p (by simp))) fun _ _ => Uses.bind (Uses.popVar dbg) fun f hf =>
      Uses.bind (P := Always) ?_ fun _ _ => Uses.fieldsT ps fun q hq => h q (by simp [hq])
    intro s hs
    refine ⟨⟨hs.stack, hs.params, ?_, hs.transitions⟩, fun _ _ => trivial⟩
    intro x hx
    simp only [addField, fieldsNames_append, List.mem_append] at hx
    exact hx.elim (hs.fields x) (hf x)

theorem Uses.paramsT : ∀ ps : List NodeTypedIdentifier, (∀ p ∈ ps, RV.AllStr S p.rv) →
    Uses S (evParamsT dbg ps) fun fs => ∀ x ∈ fieldsNames fs, S x
  | [], _ => Uses.pure (by simp [fieldsNames])
  | p :: ps, h => by
    rw [evParamsT]
    refine Uses.bind (Uses.typed dbg (h p (by simp))) fun _ _ => Uses.bind (Uses.popVar dbg) fun f hf =>
      Uses.bind (Uses.paramsT ps fun q hq => h q (by simp [hq])) fun fs hfs => Uses.pure ?_
    intro x hx
    have e : fieldsNames (f :: fs) = fieldsNames [f] ++ fieldsNames fs := fieldsNames_append [f] fs
    rw [e, List.mem_append] at hx
    exact hx.elim (hf x) (hfs x)

/-- what is used of a transition -/
structure TransStr (S : Str → Prop) (t : NodeTransitionDefinition) : Prop where
  name : S (componentName t.name.node)
  params : ∀ p ∈ typedOf t.parameters.node.parameters, RV.AllStr S p.rv

theorem Uses.trans {t : NodeTransitionDefinition} (h : TransStr S t) :
    Uses S (evTransT dbg (componentName t.name.node) (typedOf t.parameters.node.parameters)) Always := by
  rw [evTransT]
  refine Uses.bind (Uses.push (.inl h.name)) fun _ _ => Uses.bind (Uses.paramsT dbg _ h.params) fun fs hfs =>
    Uses.bind (Uses.popIdent dbg) fun x _ => ?_
  split
  · intro s hs
    refine ⟨⟨hs.stack, hs.params, hs.fields, ?_⟩, fun _ _ => trivial⟩
    intro t ht
    simp only [addTransition, List.mem_append, List.mem_singleton] at ht
    rcases ht with ht | rfl
    · exact hs.transitions t ht
    · exact hfs
  · exact Uses.panic

theorem Uses.transs : ∀ ts : List NodeTransitionDefinition, (∀ t ∈ ts, TransStr S t) → Uses S (evTranssT dbg ts) Always
  | [], _ => Uses.pure trivial
  | t :: ts, h => by
    rw [evTranssT]
    exact Uses.bind (Uses.trans dbg (h t (by simp))) fun _ _ => Uses.transs ts fun q hq => h q (by simp [hq])

/-- the names in a result other than those of the contract and of transitions -/
theorem emitted_names {p : NodeProgram} {c : Contract} (h : emitProgram dbg p = .ok c) (hp : RV.AllStr S p.rv)
    (ht : ∀ t ∈ transitionsOf p.contractDefinition.node.components, S (componentName t.name.node)) :
    (∀ x ∈ fieldsNames c.initParams, S x) ∧ (∀ x ∈ fieldsNames c.fields, S x) ∧
      ∀ t ∈ c.transitions, ∀ x ∈ fieldsNames t.params, S x := by
  have hc : RV.AllStr S p.contractDefinition.node.rv :=
    (hp.arg (v := W.rv NodeContractDefinition.rv p.contractDefinition) (by simp)).inner
  rw [emitProgram_ev] at h
  generalize p.contractDefinition.node = d at hc ht h
  have typed : ∀ l : W NodeComponentParameters, RV.AllStr S (W.rv NodeComponentParameters.rv l) →
      ∀ q ∈ typedOf l.node.parameters, RV.AllStr S q.rv := by
    intro l hl q hq
    obtain ⟨w, hw, rfl⟩ := List.mem_map.1 hq
    have h1 : RV.AllStr S (vecRv (W.rv NodeParameterPair.rv) l.node.parameters) := hl.inner.arg (by simp)
    have h2 : RV.AllStr S w.node.rv := (h1.item (List.mem_map_of_mem hw)).inner
    have h3 : RV.AllStr S (W.rv NodeTypedIdentifier.rv w.node.identifierWithType) := h2.arg (by simp)
    exact h3.inner
  have hps := typed d.parameters (hc.arg (by simp))
  have hfs : ∀ q ∈ fieldTypedOf d.fields, RV.AllStr S q.rv := by
    intro q hq
    obtain ⟨w, hw, rfl⟩ := List.mem_map.1 hq
    have h1 : RV.AllStr S (vecRv (W.rv NodeContractField.rv) d.fields) := hc.arg (by simp)
    have h2 : RV.AllStr S w.node.rv := (h1.item (List.mem_map_of_mem hw)).inner
    have h3 : RV.AllStr S (W.rv NodeTypedIdentifier.rv w.node.typedIdentifier) := h2.arg (by simp)
    exact h3.inner
  have hts : ∀ t ∈ transitionsOf d.components, TransStr S t := by
    intro t htm
    refine ⟨ht t htm, typed _ ?_⟩
    obtain ⟨w, hw, e⟩ := List.mem_filterMap.1 htm
    have h1 : RV.AllStr S (vecRv (W.rv NodeComponentDefinition.rv) d.components) := hc.arg (by simp)
    have h2 : RV.AllStr S w.node.rv := (h1.item (List.mem_map_of_mem hw)).inner
    obtain ⟨n, _, _⟩ := w
    cases n with
    | procedureComponent x => simp at e
    | transitionComponent x =>
      simp only [Option.some.injEq] at e
      subst e
      have h3 : RV.AllStr S (W.rv NodeTransitionDefinition.rv x) := h2.arg (by simp)
      exact h3.inner.arg (by simp)
  have hn : RV.AllStr S d.contractName.node.rv :=
    (hc.arg (v := W.rv NodeTypeNameIdentifier.rv d.contractName) (by simp)).inner
  have hi : Uses S (evIface dbg d.contractName.node (typedOf d.parameters.node.parameters) (fieldTypedOf d.fields)
      (transitionsOf d.components)) Always := by
    rw [evIface]
    refine Uses.bind (Uses.typeName hn) fun _ _ => Uses.bind (P := Always) ?_ fun _ _ =>
      Uses.bind (Uses.init dbg _ hps) fun _ _ => Uses.bind (Uses.again dbg _ hps) fun _ _ =>
        Uses.bind (Uses.fieldsT dbg _ hfs) fun _ _ => Uses.transs dbg _ hts
    intro s hs
    exact ⟨⟨hs.stack, hs.params, hs.fields, hs.transitions⟩, fun _ _ => trivial⟩
  have h0 : SrState.Made S SrState.init :=
    ⟨by simp [SrState.init], by simp [SrState.init, Contract.empty, fieldsNames],
      by simp [SrState.init, Contract.empty, fieldsNames], by simp [SrState.init, Contract.empty]⟩
  have hr := (hi _ h0).1
  rw [evContract_T] at h
  cases e : evIface dbg d.contractName.node (typedOf d.parameters.node.parameters) (fieldTypedOf d.fields)
      (transitionsOf d.components) SrState.init with
  | mk s1 r =>
    rw [e] at h hr
    cases r with
    | err e => simp at h
    | panic => simp at h
    | ok u =>
      simp only [Outcome.ok.injEq] at h
      subst h
      exact ⟨hr.params, hr.fields, hr.transitions⟩

end Verif
