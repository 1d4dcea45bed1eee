import Verif.Proofs.RenameDerives
import Verif.Proofs.EmitContract
import Verif.Spec.RenameResult
/-
The emitter does not look at names, except the reserved ones, and a success does not depend on the `Debug`
rendering of stack objects.
-/
namespace Verif

set_option linter.unusedSimpArgs false

theorem renFields_map (f : Str → Str) : ∀ fs, renFields f fs = fs.map (Field.ren f)
  | [] => rfl
  | ⟨x, t⟩ :: fs => by rw [renFields, renFields_map f fs]; rfl

mutual
def SrType.ren (f : Str → Str) : SrType → SrType
  | .mk m ts a => .mk (f m) (SrType.renL f ts) (a.map fun p => (f p.1, p.2.map (Field.ren f)))
def SrType.renL (f : Str → Str) : List SrType → List SrType
  | [] => []
  | t :: ts => t.ren f :: SrType.renL f ts
end

theorem SrType.renL_map (f : Str → Str) : ∀ ts, SrType.renL f ts = ts.map (SrType.ren f)
  | [] => rfl
  | t :: ts => by rw [SrType.renL, SrType.renL_map f ts]; rfl

def StackObj.ren (f : Str → Str) : StackObj → StackObj
  | .ident n k => .ident (f n) k
  | .varDecl x => .varDecl (x.ren f)
  | .typeDef t => .typeDef (t.ren f)

def SrState.ren (f : Str → Str) (s : SrState) : SrState := ⟨s.stack.map (StackObj.ren f), s.contract.ren f⟩

section
variable {f : Str → Str} (hf : Renaming f)
include hf

theorem Renaming.iff {s r : Str} (hr : Reserved r) : f s = r ↔ s = r := by
  constructor
  · intro h
    have : Reserved s := hf.avoids s (h ▸ hr)
    rw [hf.keeps s this] at h
    exact h
  · rintro rfl; exact hf.keeps _ hr

theorem Renaming.mem {s : Str} (hr : s ∈ fixedNames) (t : Str) : f t = s ↔ t = s := hf.iff (.inl hr)

theorem Renaming.fix {s : Str} (hr : s ∈ fixedNames) : f s = s := hf.keeps s (.inl hr)

theorem baseType_ren (m : Str) : baseType (f m) = baseType m := by
  have hb : f m = str! "ByStr" ↔ m = str! "ByStr" := hf.iff (.inr (List.prefix_rfl))
  simp only [baseType, hb, hf.mem (s := str! "Int32") (by decide), hf.mem (s := str! "Int64") (by decide),
    hf.mem (s := str! "Int128") (by decide), hf.mem (s := str! "Int256") (by decide),
    hf.mem (s := str! "Uint32") (by decide), hf.mem (s := str! "Uint64") (by decide),
    hf.mem (s := str! "Uint128") (by decide), hf.mem (s := str! "Uint256") (by decide),
    hf.mem (s := str! "String") (by decide), hf.mem (s := str! "BNum") (by decide),
    hf.mem (s := str! "Bool") (by decide)]

omit hf in
theorem ite_cases {α : Type} {c : Prop} [Decidable c] {x y o : α} (h : (if c then x else y) = o) :
    x = o ∨ y = o := by
  by_cases hc : c
  · rw [if_pos hc] at h; exact .inl h
  · rw [if_neg hc] at h; exact .inr h

omit hf in
theorem baseType_ty_ren {m : Str} {t : Ty} (h : baseType m = some t) : t.ren f = t := by
  unfold baseType at h
  repeat (rcases ite_cases h with h | h; · injection h with h; subst h; rfl)
  cases h

omit hf in
theorem stripByStr_prefix (m : Str) : (stripByStr m).isSome = true ↔ str! "ByStr" <+: m := by
  constructor
  · intro h
    unfold stripByStr at h
    split at h
    · exact ⟨_, rfl⟩
    · simp at h
  · rintro ⟨r, rfl⟩; rfl

theorem otherType_ren (m : Str) (a : Option (Str × List Field)) :
    otherType (f m) (a.map fun p => (f p.1, p.2.map (Field.ren f))) = (otherType m a).ren f := by
  have hb : f m = str! "ByStr20" ↔ m = str! "ByStr20" := hf.iff (.inr (by decide))
  by_cases hr : str! "ByStr" <+: m
  · rw [hf.keeps m (.inr hr)]
    unfold otherType
    split
    · cases a with
      | none => rfl
      | some p => simp [Ty.ren, renFields_map]
    · split
      · rfl
      · rw [Ty.ren, hf.keeps m (.inr hr)]
  · have h1 : stripByStr m = none := by
      rw [← Option.not_isSome_iff_eq_none, stripByStr_prefix]; exact hr
    have hr' : ¬ str! "ByStr" <+: f m := by
      intro h
      have h2 := hf.avoids m (.inr h)
      rw [hf.keeps m h2] at h
      exact hr h
    have h2 : stripByStr (f m) = none := by
      rw [← Option.not_isSome_iff_eq_none, stripByStr_prefix]; exact hr'
    have h3 : m ≠ str! "ByStr20" := by rintro rfl; exact hr (by decide)
    unfold otherType
    rw [if_neg h3, if_neg (fun h => h3 (hb.mp h)), h1, h2]
    rfl

mutual
theorem toTy_ren : ∀ t : SrType, (t.ren f).toTy = t.toTy.map (Ty.ren f)
  | .mk m ts a => by
    have ih := convLast_ren ts
    rw [SrType.ren, SrType.toTy, SrType.toTy, baseType_ren hf]
    cases hb : baseType m with
    | some t => simp only [Option.map_some, baseType_ty_ren hb]
    | none =>
      simp only [hf.mem (s := str! "Option") (by decide), hf.mem (s := str! "List") (by decide),
        hf.mem (s := str! "Pair") (by decide), hf.mem (s := str! "Map") (by decide), ih]
      cases convLast ts with
      | mk x y =>
        simp only
        repeat' split
        all_goals first
          | (simp [otherType_ren hf]; done)
          | (simp_all [Ty.ren]; done)
          | (rcases x with _ | _ | x <;> rcases y with _ | _ | y <;> simp_all [Ty.ren])
theorem convLast_ren : ∀ ts : List SrType, convLast (SrType.renL f ts) =
    ((convLast ts).1.map (Option.map (Ty.ren f)), (convLast ts).2.map (Option.map (Ty.ren f)))
  | [] => rfl
  | [t] => by simp only [SrType.renL, convLast, toTy_ren t, Option.map_some, Option.map_none]
  | t :: t' :: ts => by
    have ih := convLast_ren (t' :: ts)
    have h1 := toTy_ren t
    have e : ∀ (a b : SrType) (l : List SrType), convLast (a :: b :: l) =
        match convLast (b :: l) with
        | (some x, none) => (some x, some a.toTy)
        | r => r := fun a b l => convLast.eq_3 a (b :: l) (by intro h; cases h)
    rw [SrType.renL] at ih
    rw [SrType.renL, SrType.renL, e, ih, e]
    rcases convLast (t' :: ts) with ⟨_ | x, _ | y⟩ <;> simp [h1]
end

end

/-! ### The relation -/

/-- the same outcome, up to renaming of the value and the text of the error -/
def OutRel {α : Type} (r : α → α) : Outcome α → Outcome α → Prop
  | .ok a, .ok b => b = r a
  | .err _, .err _ => True
  | .panic, .panic => True
  | _, _ => False

/-- `m'` does on renamed states what `m` does -/
def Eqv (f : Str → Str) {α : Type} (r : α → α) (m m' : M SrState α) : Prop :=
  ∀ s, (m' (s.ren f)).1 = ((m s).1).ren f ∧ OutRel r (m s).2 (m' (s.ren f)).2

section
variable {f : Str → Str} {α β : Type}

theorem Eqv.pure {r : α → α} {a b : α} (h : b = r a) : Eqv f r (M.pure a) (M.pure b) :=
  fun _ => ⟨rfl, h⟩

theorem Eqv.unit : Eqv f id (M.pure ()) (M.pure ()) := Eqv.pure rfl

theorem Eqv.panic {r : α → α} : Eqv f r (M.panic : M SrState α) M.panic := fun _ => ⟨rfl, trivial⟩

theorem Eqv.bind {r : α → α} {q : β → β} {m m' : M SrState α} {g g' : α → M SrState β}
    (h : Eqv f r m m') (hg : ∀ a, Eqv f q (g a) (g' (r a))) : Eqv f q (m.bind g) (m'.bind g') := by
  intro s
  have h1 := h s
  simp only [M.bind]
  cases hm : m s with
  | mk s1 o =>
    cases hm' : m' (s.ren f) with
    | mk s2 o' =>
      rw [hm, hm'] at h1
      obtain ⟨e, h1⟩ := h1
      simp only at e; subst e
      cases o <;> cases o' <;> simp only [OutRel] at h1
      · subst h1; exact hg _ s1
      · exact ⟨rfl, trivial⟩
      · exact ⟨rfl, trivial⟩

theorem Eqv.swallow {m m' : M SrState Unit} (h : Eqv f id m m') : Eqv f id (swallow m) (swallow m') := by
  intro s
  have h1 := h s
  simp only [Verif.swallow]
  cases hm : m s with
  | mk s1 o =>
    cases hm' : m' (s.ren f) with
    | mk s2 o' =>
      rw [hm, hm'] at h1
      obtain ⟨e, h1⟩ := h1
      simp only at e; subst e
      cases o <;> cases o' <;> simp only [OutRel] at h1
      · exact ⟨rfl, rfl⟩
      · exact ⟨rfl, rfl⟩
      · exact ⟨rfl, trivial⟩

theorem Eqv.push {x x' : StackObj} (h : x' = x.ren f) :
    Eqv f id (SrState.pushObj x) (SrState.pushObj x') := by
  subst h
  intro s
  exact ⟨rfl, rfl⟩

variable (dbg dbg' : StackObj → Str)

theorem Eqv.popIdent : Eqv f (fun p : Str × IdKind => (f p.1, p.2)) (popIdent dbg) (popIdent dbg') := by
  rintro ⟨st, c⟩
  rcases st with _ | ⟨_ | _ | _, st⟩ <;> exact ⟨rfl, by first | trivial | rfl⟩

theorem Eqv.popVar : Eqv f (Field.ren f) (popVar dbg) (popVar dbg') := by
  rintro ⟨st, c⟩
  rcases st with _ | ⟨_ | _ | _, st⟩ <;> exact ⟨rfl, by first | trivial | rfl⟩

theorem Eqv.popType : Eqv f (SrType.ren f) (popType dbg) (popType dbg') := by
  rintro ⟨st, c⟩
  rcases st with _ | ⟨_ | _ | _, st⟩ <;> exact ⟨rfl, by first | trivial | rfl⟩

theorem Eqv.identToType : Eqv f id (identToType dbg) (identToType dbg') := by
  refine (Eqv.popIdent dbg dbg').bind fun ⟨n, k⟩ => Eqv.push ?_
  simp [StackObj.ren, SrType.ofName, SrType.ren, SrType.renL]

variable (hf : Renaming f)
include hf

theorem Eqv.makeMap : Eqv f id (makeMap dbg) (makeMap dbg') := by
  refine (Eqv.popType dbg dbg').bind fun v => (Eqv.popType dbg dbg').bind fun k => Eqv.push ?_
  simp only [StackObj.ren, SrType.ren, SrType.renL, Option.map_none, hf.fix (s := str! "Map") (by decide)]

theorem Eqv.intoType (t : SrType) : Eqv f (Ty.ren f) (intoType t) (intoType (t.ren f)) := by
  intro s
  simp only [Verif.intoType, toTy_ren hf]
  cases t.toTy with
  | none => exact ⟨rfl, trivial⟩
  | some t => exact ⟨rfl, rfl⟩

theorem display_ren (n : NodeTypeNameIdentifier) : (n.ren f).display = f n.display := by
  cases n with
  | byteStringType b => cases b <;> rfl
  | eventType => exact (hf.fix (s := str! "Event") (by decide)).symm
  | typeOrEnumLikeIdentifier s => rfl

theorem Eqv.typeName (n : NodeTypeNameIdentifier) : Eqv f id (evTypeName n) (evTypeName (n.ren f)) := by
  cases n with
  | byteStringType b => cases b <;> exact Eqv.push rfl
  | eventType => exact Eqv.unit
  | typeOrEnumLikeIdentifier s => exact Eqv.push rfl

theorem Eqv.meta (n : NodeMetaIdentifier) : Eqv f id (evMeta n) (evMeta (n.ren f)) := by
  cases n with
  | metaName x => exact Eqv.typeName hf _
  | metaNameInNamespace x y => exact (Eqv.typeName hf _).bind fun _ => Eqv.typeName hf _
  | metaNameInHexspace x y => exact Eqv.typeName hf _
  | byteString =>
    refine Eqv.push ?_
    rw [StackObj.ren, hf.keeps _ (.inr (List.prefix_rfl))]

theorem pushSub_ren (t u : SrType) : (t.pushSubType u).ren f = (t.ren f).pushSubType (u.ren f) := by
  cases t
  simp [SrType.pushSubType, SrType.ren, SrType.renL_map]

theorem setAddress_ren (t : SrType) (x : Str) (fs : List Field) :
    (t.setAddress (x, fs)).ren f = (t.ren f).setAddress (f x, fs.map (Field.ren f)) := by
  cases t
  simp [SrType.setAddress, SrType.ren]

mutual
theorem Eqv.keyW : ∀ w : W NodeTypeMapKey, Eqv f id (evKeyW dbg w) (evKeyW dbg' (NodeTypeMapKey.renW f w))
  | ⟨.genericMapKey m, _, _⟩ => (Eqv.meta hf m.node).bind fun _ => Eqv.identToType dbg dbg'
  | ⟨.enclosedGenericId m, _, _⟩ => (Eqv.meta hf m.node).bind fun _ => Eqv.identToType dbg dbg'
  | ⟨.enclosedAddressMapKeyType a, _, _⟩ => (Eqv.addrW a).bind fun _ => Eqv.identToType dbg dbg'
  | ⟨.addressMapKeyType a, _, _⟩ => (Eqv.addrW a).bind fun _ => Eqv.identToType dbg dbg'
theorem Eqv.valueW : ∀ w : W NodeTypeMapValue,
    Eqv f id (evValueW dbg w) (evValueW dbg' (NodeTypeMapValue.renW f w))
  | ⟨.mapValueTypeOrEnumLikeIdentifier m, _, _⟩ =>
    (Eqv.meta hf m.node).bind fun _ => Eqv.identToType dbg dbg'
  | ⟨.mapKeyValue ⟨.mk k v, _, _⟩, _, _⟩ =>
    ((Eqv.keyW k).bind fun _ => Eqv.valueW v).bind fun _ => Eqv.makeMap dbg dbg' hf
  | ⟨.mapValueParenthesizedType t, _, _⟩ => Eqv.mvW t
  | ⟨.mapValueAddressType a, _, _⟩ => Eqv.addrW a
theorem Eqv.argW : ∀ w : W NodeTypeArgument,
    Eqv f id (evArgW dbg w) (evArgW dbg' (NodeTypeArgument.renW f w))
  | ⟨.enclosedTypeArgument t, _, _⟩ => Eqv.typeW t
  | ⟨.genericTypeArgument m, _, _⟩ => (Eqv.meta hf m.node).bind fun _ => Eqv.identToType dbg dbg'
  | ⟨.templateTypeArgument _, _, _⟩ => Eqv.panic
  | ⟨.addressTypeArgument a, _, _⟩ => Eqv.addrW a
  | ⟨.mapTypeArgument k v, _, _⟩ =>
    (Eqv.keyW k).bind fun _ => (Eqv.valueW v).bind fun _ => Eqv.makeMap dbg dbg' hf
theorem Eqv.typeW : ∀ w : W NodeScillaType,
    Eqv f id (evTypeW dbg w) (evTypeW dbg' (NodeScillaType.renW f w))
  | ⟨.genericTypeWithArgs m [], _, _⟩ => (Eqv.meta hf m.node).bind fun _ => Eqv.identToType dbg dbg'
  | ⟨.genericTypeWithArgs m (a :: as), _, _⟩ =>
    (Eqv.meta hf m.node).bind fun _ => (Eqv.identToType dbg dbg').bind fun _ =>
      (Eqv.popType dbg dbg').bind fun main =>
        Eqv.bind (r := SrType.ren f)
          ((Eqv.argW a).bind fun _ => (Eqv.popType dbg dbg').bind fun t => by
            rw [← pushSub_ren hf]; exact Eqv.args as (main.pushSubType t)) fun t => Eqv.push rfl
  | ⟨.mapType k v, _, _⟩ =>
    (Eqv.keyW k).bind fun _ => (Eqv.valueW v).bind fun _ => Eqv.makeMap dbg dbg' hf
  | ⟨.functionType _ _, _, _⟩ => Eqv.panic
  | ⟨.enclosedType t, _, _⟩ => Eqv.typeW t
  | ⟨.scillaAddresseType a, _, _⟩ => Eqv.addrW a
  | ⟨.polyFunctionType _ _, _, _⟩ => Eqv.panic
  | ⟨.typeVarType _, _, _⟩ => Eqv.panic
theorem Eqv.addrW : ∀ w : W NodeAddressType,
    Eqv f id (evAddrW dbg w) (evAddrW dbg' (NodeAddressType.renW f w))
  | ⟨.mk i tn fs, _, _⟩ =>
    Eqv.swallow <| (Eqv.typeName hf i.node).bind fun _ => (Eqv.identToType dbg dbg').bind fun _ =>
      (Eqv.popType dbg dbg').bind fun main => (Eqv.fields fs).bind fun fields =>
        Eqv.push (by rw [StackObj.ren, setAddress_ren hf]; rfl)
theorem Eqv.mvaW : ∀ w : W NodeTypeMapValueArguments,
    Eqv f id (evMvaW dbg w) (evMvaW dbg' (NodeTypeMapValueArguments.renW f w))
  | ⟨.enclosedTypeMapValue t, _, _⟩ => Eqv.mvW t
  | ⟨.genericMapValueArgument m, _, _⟩ => (Eqv.meta hf m.node).bind fun _ => Eqv.identToType dbg dbg'
  | ⟨.mapKeyValueType _ _, _, _⟩ => Eqv.panic
theorem Eqv.mvW : ∀ w : W NodeTypeMapValueAllowingTypeArguments,
    Eqv f id (evMvW dbg w) (evMvW dbg' (NodeTypeMapValueAllowingTypeArguments.renW f w))
  | ⟨.typeMapValueNoArgs v, _, _⟩ => Eqv.valueW v
  | ⟨.typeMapValueWithArgs m [], _, _⟩ => (Eqv.meta hf m.node).bind fun _ => Eqv.identToType dbg dbg'
  | ⟨.typeMapValueWithArgs m (a :: as), _, _⟩ =>
    (Eqv.meta hf m.node).bind fun _ => (Eqv.identToType dbg dbg').bind fun _ =>
      (Eqv.popType dbg dbg').bind fun main =>
        Eqv.bind (r := SrType.ren f)
          ((Eqv.mvaW a).bind fun _ => (Eqv.popType dbg dbg').bind fun t => by
            rw [← pushSub_ren hf]; exact Eqv.mvas as (main.pushSubType t)) fun t => Eqv.push rfl
theorem Eqv.args : ∀ (l : List (W NodeTypeArgument)) (main : SrType),
    Eqv f (SrType.ren f) (evArgs dbg l main) (evArgs dbg' (NodeTypeArgument.renLW f l) (main.ren f))
  | [], main => Eqv.pure rfl
  | a :: as, main =>
    (Eqv.argW a).bind fun _ => (Eqv.popType dbg dbg').bind fun t => by
      rw [← pushSub_ren hf]; exact Eqv.args as (main.pushSubType t)
theorem Eqv.mvas : ∀ (l : List (W NodeTypeMapValueArguments)) (main : SrType),
    Eqv f (SrType.ren f) (evMvas dbg l main)
      (evMvas dbg' (NodeTypeMapValueArguments.renLW f l) (main.ren f))
  | [], main => Eqv.pure rfl
  | a :: as, main =>
    (Eqv.mvaW a).bind fun _ => (Eqv.popType dbg dbg').bind fun t => by
      rw [← pushSub_ren hf]; exact Eqv.mvas as (main.pushSubType t)
theorem Eqv.fields : ∀ l : List (W NodeAddressTypeField),
    Eqv f (List.map (Field.ren f)) (evFields dbg l) (evFields dbg' (NodeAddressTypeField.renLW f l))
  | [] => Eqv.pure rfl
  | ⟨.mk ⟨.variableName x, _, _⟩ t, _, _⟩ :: as =>
    ((Eqv.typeW t).bind fun _ => (Eqv.popType dbg dbg').bind fun ty => (Eqv.intoType hf ty).bind fun ty =>
      Eqv.push rfl).bind fun _ => (Eqv.popVar dbg dbg').bind fun y => (Eqv.fields as).bind fun ys =>
        Eqv.pure rfl
  | ⟨.mk ⟨.specialIdentifier x, _, _⟩ t, _, _⟩ :: as =>
    Eqv.unit.bind fun _ => (Eqv.popVar dbg dbg').bind fun y => (Eqv.fields as).bind fun ys =>
        Eqv.pure rfl
  | ⟨.mk ⟨.variableInNamespace _ _, _, _⟩ t, _, _⟩ :: as =>
    Eqv.unit.bind fun _ => (Eqv.popVar dbg dbg').bind fun y => (Eqv.fields as).bind fun ys =>
        Eqv.pure rfl
end

theorem Eqv.typed (n : NodeTypedIdentifier) : Eqv f id (evTyped dbg n) (evTyped dbg' (n.ren f)) := by
  obtain ⟨x, ⟨⟨t⟩, a, b⟩⟩ := n
  have := Eqv.typeW dbg dbg' hf t
  rw [NodeScillaType.renW_eq] at this
  exact this.bind fun _ => (Eqv.popType dbg dbg').bind fun ty => (Eqv.intoType hf ty).bind fun ty =>
      Eqv.push rfl

theorem Eqv.initT : ∀ ps : List NodeTypedIdentifier,
    Eqv f id (evInitT dbg ps) (evInitT dbg' (ps.map (NodeTypedIdentifier.ren f)))
  | [] => Eqv.unit
  | p :: ps => (Eqv.typed dbg dbg' hf p).bind fun _ => (Eqv.popVar dbg dbg').bind fun x =>
    Eqv.bind (r := id) (fun s => ⟨by simp [SrState.ren, Contract.ren], rfl⟩) fun _ => Eqv.initT ps

theorem Eqv.againT : ∀ ps : List NodeTypedIdentifier,
    Eqv f id (evAgainT dbg ps) (evAgainT dbg' (ps.map (NodeTypedIdentifier.ren f)))
  | [] => Eqv.unit
  | p :: ps => (Eqv.typed dbg dbg' hf p).bind fun _ => Eqv.againT ps

theorem Eqv.paramsT : ∀ ps : List NodeTypedIdentifier,
    Eqv f (List.map (Field.ren f)) (evParamsT dbg ps) (evParamsT dbg' (ps.map (NodeTypedIdentifier.ren f)))
  | [] => Eqv.pure rfl
  | p :: ps => (Eqv.typed dbg dbg' hf p).bind fun _ => (Eqv.popVar dbg dbg').bind fun x =>
    (Eqv.paramsT ps).bind fun xs => Eqv.pure rfl

theorem Eqv.fieldsT : ∀ ps : List NodeTypedIdentifier,
    Eqv f id (evFieldsT dbg ps) (evFieldsT dbg' (ps.map (NodeTypedIdentifier.ren f)))
  | [] => Eqv.unit
  | p :: ps => (Eqv.typed dbg dbg' hf p).bind fun _ => (Eqv.popVar dbg dbg').bind fun x =>
    Eqv.bind (r := id) (fun s => ⟨by simp [SrState.ren, Contract.ren, addField], rfl⟩) fun _ => Eqv.fieldsT ps

theorem Eqv.transT (name : Str) (ps : List NodeTypedIdentifier) :
    Eqv f id (evTransT dbg name ps) (evTransT dbg' (f name) (ps.map (NodeTypedIdentifier.ren f))) :=
  (Eqv.push rfl).bind fun _ => (Eqv.paramsT dbg dbg' hf ps).bind fun qs =>
    (Eqv.popIdent dbg dbg').bind fun ⟨x, k⟩ => by
      cases k with
      | unknown => exact Eqv.panic
      | componentName =>
        exact fun s => ⟨by simp [SrState.ren, Contract.ren, addTransition, Transition.ren], rfl⟩

theorem componentName_ren (n : NodeComponentId) : componentName (n.ren f) = f (componentName n) := by
  cases n with
  | withTypeLikeName x => exact display_ren hf x.node
  | withRegularId x => rfl

omit hf in
theorem typedOf_ren (ps : List (W NodeParameterPair)) :
    typedOf (ps.map (W.ren (NodeParameterPair.ren f))) =
      (typedOf ps).map (NodeTypedIdentifier.ren f) := by
  simp only [typedOf, List.map_map]
  apply List.map_congr_left
  rintro ⟨⟨x⟩, _, _⟩ -
  rfl

omit hf in
theorem fieldTypedOf_ren (ps : List (W NodeContractField)) :
    fieldTypedOf (ps.map (W.ren (NodeContractField.ren f))) =
      (fieldTypedOf ps).map (NodeTypedIdentifier.ren f) := by
  simp only [fieldTypedOf, List.map_map]
  apply List.map_congr_left
  rintro ⟨⟨x, y⟩, _, _⟩ -
  rfl

omit hf in
theorem transitionsOf_ren : ∀ cs : List (W NodeComponentDefinition),
    transitionsOf (cs.map (W.ren (NodeComponentDefinition.ren f))) =
      (transitionsOf cs).map (NodeTransitionDefinition.ren f)
  | [] => rfl
  | ⟨.transitionComponent t, _, _⟩ :: cs => by
    have := transitionsOf_ren cs
    simp only [transitionsOf, List.map_cons] at this ⊢
    simp only [W.ren, NodeComponentDefinition.ren, List.filterMap_cons, List.map_cons]
    rw [this]
  | ⟨.procedureComponent t, _, _⟩ :: cs => by
    have := transitionsOf_ren cs
    simp only [transitionsOf, List.map_cons] at this ⊢
    simp only [W.ren, NodeComponentDefinition.ren, List.filterMap_cons]
    rw [this]

theorem Eqv.transsT : ∀ ts : List NodeTransitionDefinition,
    Eqv f id (evTranssT dbg ts) (evTranssT dbg' (ts.map (NodeTransitionDefinition.ren f)))
  | [] => Eqv.unit
  | ⟨⟨n, _, _⟩, ⟨⟨ps⟩, _, _⟩, b⟩ :: ts => by
    simp only [List.map_cons, evTranssT, NodeTransitionDefinition.ren, W.ren,
      NodeComponentParameters.ren, componentName_ren hf, typedOf_ren]
    exact (Eqv.transT dbg dbg' hf _ _).bind fun _ => Eqv.transsT ts

theorem Eqv.contract (c : NodeContractDefinition) :
    Eqv f id (evContract dbg c) (evContract dbg' (c.ren f)) := by
  obtain ⟨n, ⟨⟨ps⟩, _, _⟩, w, fs, cs⟩ := c
  simp only [evContract_T, NodeContractDefinition.ren, W.ren, NodeComponentParameters.ren,
    typedOf_ren, fieldTypedOf_ren, transitionsOf_ren, evIface, display_ren hf]
  exact (Eqv.typeName hf _).bind fun _ =>
    Eqv.bind (r := id) (fun s => ⟨by simp [SrState.ren, Contract.ren, setName], rfl⟩) fun _ =>
    (Eqv.initT dbg dbg' hf _).bind fun _ => (Eqv.againT dbg dbg' hf _).bind fun _ =>
    (Eqv.fieldsT dbg dbg' hf _).bind fun _ => Eqv.transsT dbg dbg' hf _

/-- emitting a renamed program -/
theorem emitProgram_ren (p : NodeProgram) :
    OutRel (Contract.ren f) (emitProgram dbg p) (emitProgram dbg' (p.ren f)) := by
  obtain ⟨v, i, l, ⟨c, a, b⟩⟩ := p
  have h := Eqv.contract dbg dbg' hf c SrState.init
  have h0 : SrState.init.ren f = SrState.init := by
    simp [SrState.ren, SrState.init, Contract.ren, Contract.empty, hf.fix (s := []) (by decide)]
  rw [h0] at h
  simp only [emitProgram_ev, NodeProgram.ren, W.ren]
  revert h
  cases evContract dbg c SrState.init with
  | mk s o =>
    cases evContract dbg' (c.ren f) SrState.init with
    | mk s' o' =>
      rintro ⟨h1, h2⟩
      simp only at h1 h2
      subst h1
      cases o <;> cases o' <;> simp only [OutRel] at h2 ⊢
      rfl

end

/-! ### Parsing -/

theorem kinds_map_ren (f : Str → Str) (w : List STok) : kinds (w.map (STok.ren f)) = kinds w := by
  simp only [kinds, List.map_map]
  apply List.map_congr_left
  rintro ⟨s, t, e⟩ -
  cases t <;> rfl

/-- whether tokens are a program depends only on their kinds -/
theorem parse_kinds {a b : List STok} (h : kinds a = kinds b) :
    (parseProgram a).isSome = (parseProgram b).isSome := by
  have key : ∀ {a b : List STok}, kinds a = kinds b → (parseProgram a).isSome = true →
      (parseProgram b).isSome = true := by
    intro a b h ha
    obtain ⟨p, hp⟩ := Option.isSome_iff_exists.mp ha
    obtain ⟨q, hq⟩ := (parseProgram_sound hp).rekind b h.symm
    rw [parseProgram_complete hq]; rfl
  rw [Bool.eq_iff_iff]
  exact ⟨key h, key h.symm⟩

theorem parse_ren {f : Str → Str} (hf : Renaming f) (w : List STok) :
    parseProgram (w.map (STok.ren f)) = (parseProgram w).map (NodeProgram.ren f) := by
  cases h : parseProgram w with
  | some p =>
    have := (parseProgram_sound h).ren f (hf.fix (by decide)) (hf.fix (by decide)) (hf.fix (by decide))
    exact parseProgram_complete this
  | none =>
    have := parse_kinds (kinds_map_ren f w)
    rw [h] at this
    rw [Option.map_none]
    exact Option.isSome_eq_false_iff.mp (by simpa using this) |> Option.isNone_iff_eq_none.mp

end Verif
