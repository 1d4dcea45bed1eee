import Verif.Spec.Pile
import Verif.Proofs.EmitContract
/-
The emitter computes what `Spec/Pile` says, step by step: `Sim`.
-/
namespace Verif.Pile

set_option linter.unusedSimpArgs false

variable (dbg : StackObj → Str)

/-! ### Conversion of types -/

theorem parseUsize_size (s : Str) (h : ∀ r, s ≠ '+' :: r) : parseUsize s = byStrSize.size s := by
  cases s with
  | nil => simp [parseUsize, byStrSize.size]
  | cons c s =>
    have hc : c ≠ '+' := by rintro rfl; exact h s rfl
    have : parseUsize (c :: s) = parseDigits 0 (c :: s) := by
      unfold parseUsize
      split
      · rename_i e; simp at e
      · rename_i e; simp only [List.cons.injEq] at e; exact absurd e.1 hc
      · rename_i e; simp only [List.cons.injEq] at e; exact absurd e.1 hc
      · rfl
    rw [this, parseDigits_eq _ _ (by decide)]
    simp [digitsValue, byStrSize.size]

theorem parseUsize_plus (s : Str) : parseUsize ('+' :: s) = byStrSize.size s := by
  cases s with
  | nil => simp [parseUsize, byStrSize.size]
  | cons c s =>
    have : parseUsize ('+' :: c :: s) = parseDigits 0 (c :: s) := rfl
    rw [this, parseDigits_eq _ _ (by decide)]
    simp [digitsValue, byStrSize.size]

/-- names that begin with `ByStr+` -/
def Plus (n : Str) : Prop := ∃ ds, n = 'B' :: 'y' :: 'S' :: 't' :: 'r' :: '+' :: ds

theorem applied_plus (ds : Str) (args : List (Option Ty)) :
    applied ('B' :: 'y' :: 'S' :: 't' :: 'r' :: '+' :: ds) args =
      match byStrSize.size ds with
      | some n => some (.byStrX n)
      | none => some (.other ('B' :: 'y' :: 'S' :: 't' :: 'r' :: '+' :: ds)) := rfl

theorem applied_named {n : Str} (h : ¬ Plus n) (args : List (Option Ty)) : applied n args = namedType n args := by
  unfold applied
  split
  · exact absurd ⟨_, rfl⟩ h
  · rfl

theorem otherType_user (m : Str) (h : ¬ Plus m) (h20 : m ≠ str! "ByStr20") (a : Option (Str × List Field)) :
    otherType m a = userType m := by
  unfold otherType
  rw [if_neg h20]
  by_cases hm : ∃ ds, m = 'B' :: 'y' :: 'S' :: 't' :: 'r' :: ds
  · obtain ⟨ds, rfl⟩ := hm
    have hp : ∀ r, ds ≠ '+' :: r := by rintro r rfl; exact h ⟨r, rfl⟩
    simp only [stripByStr, Option.bind_some, parseUsize_size ds hp, userType, byStrSize.size]
    by_cases hc : ds ≠ [] ∧ ds.all isDec = true ∧ digitsValue ds < 2 ^ 64
    · rw [if_pos hc, if_pos hc]
    · rw [if_neg hc, if_neg hc]
  · have h1 : stripByStr m = none := by
      unfold stripByStr
      split
      · exact absurd ⟨_, rfl⟩ hm
      · rfl
    have h2 : userType m = .other m := by
      unfold userType
      split
      · exact absurd ⟨_, rfl⟩ hm
      · rfl
    rw [h1, h2]
    rfl

theorem toTy_applied (n : Str) (subs : List SrType) (a : Option (Str × List Field))
    (ha : n = str! "ByStr20" → a = none) :
    (SrType.mk n subs a).toTy = applied n (subs.map SrType.toTy) := by
  by_cases hp : Plus n
  · obtain ⟨ds, rfl⟩ := hp
    rw [applied_plus, ← parseUsize_plus]
    rw [SrType.toTy]
    have : baseType ('B' :: 'y' :: 'S' :: 't' :: 'r' :: '+' :: ds) = none := by
      simp [baseType]
    rw [this]
    simp only
    rw [if_neg (by simp), if_neg (by simp), if_neg (by simp), if_neg (by simp)]
    unfold otherType
    rw [if_neg (by simp)]
    simp only [stripByStr, Option.bind_some]
    cases parseUsize ('+' :: ds) <;> rfl
  · rw [applied_named hp, SrType.toTy, namedType, convLast_eq, baseType_eq]
    by_cases h20 : n = str! "ByStr20"
    · rw [if_pos h20, ha h20]
      subst h20
      rfl
    · rw [if_neg h20]
      cases builtinTypes.lookup n with
      | some t => rfl
      | none =>
        simp only [otherType_user n hp h20]
        generalize (subs.map SrType.toTy).reverse = l
        cases l with
        | nil => rfl
        | cons x l =>
          cases l with
          | nil => cases x <;> rfl
          | cons y l => cases x <;> cases y <;> rfl

theorem toTy_address (n tag : Str) (fs : List Field) :
    (SrType.mk n [] (some (tag, fs))).toTy = address n tag fs := by
  rw [address]
  split
  · rename_i e; subst e; rfl
  · rename_i e
    exact toTy_applied n [] _ (fun h => absurd h e)

/-! ### The simulation -/

/-- what an object on the emitter's stack is -/
def thing : StackObj → Thing
  | .ident x .unknown => .name x
  | .ident x .componentName => .transition x
  | .varDecl f => .decl f
  | .typeDef t => .type t.toTy

/-- the things the emitter says it expected -/
def wantedText : Wanted → Str
  | .name => str! "symbol name"
  | .type => str! "type definition"
  | .decl => str! "variable declaration"

/-- the text of an error -/
def Says (w : Wanted) (found : Option Thing) (e : Str) : Prop :=
  ∃ what, e = str! "Expected " ++ wantedText w ++ str! ", but found " ++ what ++ str! "." ∧
    match found with
    | none => what = str! "nothing"
    | some x => ∃ o, thing o = x ∧ what = dbg o

/-- The emitter's computation does what the step does; `Q` relates the contract before and after and the results. -/
def Sim {α β : Type} (Q : Contract → Contract → α → β → Prop) (m : M SrState α) (d : Step β) : Prop :=
  ∀ s, match m s with
    | (s', .ok a) => ∃ b, d (s.stack.map thing) = .fine b (s'.stack.map thing) ∧ Q s.contract s'.contract a b
    | (s', .err e) => ∃ w x, d (s.stack.map thing) = .error w x (s'.stack.map thing) ∧ Says dbg w x e
    | (_, .panic) => d (s.stack.map thing) = .panic

/-- the contract stays as it is, the results are related by `R` -/
def Same {α β : Type} (R : α → β → Prop) : Contract → Contract → α → β → Prop := fun c c' a b => c' = c ∧ R a b

def Any {α β : Type} : α → β → Prop := fun _ _ => True

variable {dbg}

/-- steps that leave the contract alone -/
theorem Sim.then {α β α' β' : Type} {R : α → β → Prop} {Q : Contract → Contract → α' → β' → Prop}
    {m : M SrState α} {d : Step β} {f : α → M SrState α'} {g : β → Step β'}
    (h : Sim dbg (Same R) m d) (hf : ∀ a b, R a b → Sim dbg Q (f a) (g b)) : Sim dbg Q (m.bind f) (d.bind g) := by
  intro s
  have h1 := h s
  simp only [M.bind, Step.bind]
  cases hm : m s with
  | mk s1 r =>
    rw [hm] at h1
    cases r with
    | ok a =>
      obtain ⟨b, h2, h3, h4⟩ := h1
      have h5 := hf a b h4 s1
      simp only [h2]
      rw [h3] at h5
      exact h5
    | err e =>
      obtain ⟨w, x, h2, h3⟩ := h1
      simp only [h2]
      exact ⟨w, x, rfl, h3⟩
    | panic => simp only [h1]

theorem Sim.pure {α β : Type} {R : α → β → Prop} {a : α} {b : β} (h : R a b) :
    Sim dbg (Same R) (M.pure a) (Step.pure b) := fun _ => ⟨b, rfl, rfl, h⟩

theorem Sim.panic {α β : Type} {Q : Contract → Contract → α → β → Prop} : Sim dbg Q M.panic panic := fun _ => rfl

theorem Sim.put {o : StackObj} {x : Thing} (h : thing o = x) :
    Sim dbg (Same Any) (SrState.pushObj o) (put x) := fun s => ⟨(), by simp [Pile.put, h, SrState.pushObj], rfl, trivial⟩

theorem Sim.takeName : Sim dbg (Same fun a b => a.1 = b.1 ∧ (a.2 = .componentName ↔ b.2 = true)) (popIdent dbg) takeName := by
  intro s
  rcases s with ⟨st, c⟩
  cases st with
  | nil => exact ⟨.name, none, rfl, _, rfl, rfl⟩
  | cons o st =>
    cases o with
    | ident x k =>
      cases k with
      | unknown => exact ⟨(x, false), rfl, rfl, rfl, by simp⟩
      | componentName => exact ⟨(x, true), rfl, rfl, rfl, by simp⟩
    | varDecl f => exact ⟨.name, _, rfl, _, by simp [wantedText, List.append_assoc], _, rfl, rfl⟩
    | typeDef t => exact ⟨.name, _, rfl, _, by simp [wantedText, List.append_assoc], _, rfl, rfl⟩

theorem Sim.takeType : Sim dbg (Same fun a b => a.toTy = b) (popType dbg) takeType := by
  intro s
  rcases s with ⟨st, c⟩
  cases st with
  | nil => exact ⟨.type, none, rfl, _, rfl, rfl⟩
  | cons o st =>
    cases o with
    | typeDef t => exact ⟨t.toTy, rfl, rfl, rfl⟩
    | varDecl f => exact ⟨.type, _, rfl, _, by simp [wantedText, List.append_assoc], _, rfl, rfl⟩
    | ident x k =>
      cases k <;> exact ⟨.type, _, rfl, _, by simp [wantedText, List.append_assoc], _, rfl, rfl⟩

theorem Sim.takeDecl : Sim dbg (Same fun a b => a = b) (popVar dbg) takeDecl := by
  intro s
  rcases s with ⟨st, c⟩
  cases st with
  | nil => exact ⟨.decl, none, rfl, _, rfl, rfl⟩
  | cons o st =>
    cases o with
    | varDecl f => exact ⟨f, rfl, rfl, rfl⟩
    | typeDef t => exact ⟨.decl, _, rfl, _, by simp [wantedText, List.append_assoc], _, rfl, rfl⟩
    | ident x k =>
      cases k <;> exact ⟨.decl, _, rfl, _, by simp [wantedText, List.append_assoc], _, rfl, rfl⟩

/-- an effect on the stack alone, followed by another -/
theorem Sim.seq {α' β' : Type} {Q : Contract → Contract → α' → β' → Prop} {m : M SrState Unit} {d : Step Unit}
    {f : Unit → M SrState α'} {g : Unit → Step β'} (h : Sim dbg (Same Any) m d) (hf : Sim dbg Q (f ()) (g ())) :
    Sim dbg Q (m.bind f) (d.bind g) := h.then fun _ _ _ => hf

theorem Sim.ignoring {m : M SrState Unit} {d : Step Unit} (ht : Tame m) (h : Sim dbg (Same Any) m d) :
    Sim dbg (Same Any) (swallow m) (ignoringErrors d) := by
  intro s
  have h1 := h s
  have h2 := (ht s).1
  simp only [swallow, ignoringErrors]
  cases hm : m s with
  | mk s1 r =>
    rw [hm] at h1 h2
    cases r with
    | ok a =>
      obtain ⟨b, h3, h4⟩ := h1
      simp only [h3]
      exact ⟨(), trivial, h4⟩
    | err e =>
      obtain ⟨w, x, h3, _⟩ := h1
      simp only [h3]
      exact ⟨(), trivial, h2, trivial⟩
    | panic => simp only [h1]

theorem thing_ofName (n : Str) : thing (.typeDef (SrType.ofName n)) = .type (applied n []) := by
  simp only [thing, SrType.ofName]
  rw [toTy_applied n [] none fun _ => rfl]
  rfl

theorem Sim.asType : Sim dbg (Same Any) (identToType dbg) asType := by
  refine Sim.then Sim.takeName fun a b h => ?_
  rw [← h.1]
  exact Sim.put (thing_ofName _)

theorem Sim.asMap : Sim dbg (Same Any) (makeMap dbg) asMap := by
  refine Sim.then Sim.takeType fun v v' hv => Sim.then Sim.takeType fun k k' hk => Sim.put ?_
  simp only [thing]
  rw [toTy_applied _ _ none fun _ => rfl, ← hv, ← hk]
  rfl

theorem Sim.typeName (n : NodeTypeNameIdentifier) : Sim dbg (Same Any) (evTypeName n) (typeName n) := by
  cases n with
  | byteStringType b => exact Sim.put rfl
  | eventType => exact Sim.pure trivial
  | typeOrEnumLikeIdentifier s => exact Sim.put rfl

theorem Sim.qualified (m : NodeMetaIdentifier) : Sim dbg (Same Any) (evMeta m) (qualified m) := by
  cases m with
  | metaName n => exact Sim.typeName _
  | metaNameInNamespace l r => exact Sim.seq (Sim.typeName _) (Sim.typeName _)
  | metaNameInHexspace h n => exact Sim.typeName _
  | byteString => exact Sim.put rfl

theorem Sim.name (m : NodeMetaIdentifier) :
    Sim dbg (Same Any) ((evMeta m).bind fun _ => identToType dbg) ((Pile.qualified m).bind fun _ => Pile.asType) :=
  Sim.seq (Sim.qualified m) Sim.asType

/-- the name in front of arguments is taken as a name and becomes a type at the end -/
theorem lead_eq {α : Type} (f : SrType → M SrState α) :
    ((identToType dbg).bind fun _ => (popType dbg).bind f) = (popIdent dbg).bind fun n => f (SrType.ofName n.1) := by
  simp only [identToType, M.bind_assoc]
  congr 1

/-- taking a type and putting a declaration of that type -/
theorem Sim.declare (x : Str) :
    Sim dbg (Same Any)
      ((popType dbg).bind fun ty => (intoType ty).bind fun ty => SrState.pushObj (.varDecl (.mk x ty)))
      (Pile.takeType.bind fun o => match o with
        | some t => Pile.put (.decl (.mk x t))
        | none => Pile.panic) := by
  refine Sim.then Sim.takeType fun ty o h => ?_
  subst h
  cases h : ty.toTy with
  | some t =>
    have : ((intoType ty).bind fun ty => SrState.pushObj (.varDecl (.mk x ty))) =
        SrState.pushObj (.varDecl (.mk x t)) := by
      funext s
      simp only [M.bind, intoType, h]
    rw [this]
    exact Sim.put rfl
  | none =>
    intro s
    simp only [M.bind, intoType, h, Pile.panic]

/-- collected arguments -/
def Collected (n : Str) (done : List SrType) (t : SrType) (ts : List (Option Ty)) : Prop :=
  ∃ subs, t = .mk n (done ++ subs) none ∧ subs.map SrType.toTy = ts

mutual
theorem Sim.keyW : ∀ w : W NodeTypeMapKey, Sim dbg (Same Any) (evKeyW dbg w) (keyW w)
  | ⟨n, _, _⟩ => by
    cases n with
    | genericMapKey m => simp only [evKeyW, evKey, Pile.keyW, key]; exact Sim.name _
    | enclosedGenericId m => simp only [evKeyW, evKey, Pile.keyW, key]; exact Sim.name _
    | enclosedAddressMapKeyType a =>
      simp only [evKeyW, evKey, Pile.keyW, key]; exact Sim.seq (Sim.addressW a) Sim.asType
    | addressMapKeyType a => simp only [evKeyW, evKey, Pile.keyW, key]; exact Sim.seq (Sim.addressW a) Sim.asType
theorem Sim.valueW : ∀ w : W NodeTypeMapValue, Sim dbg (Same Any) (evValueW dbg w) (valueW w)
  | ⟨n, _, _⟩ => by
    cases n with
    | mapValueTypeOrEnumLikeIdentifier m => simp only [evValueW, evValue, Pile.valueW, value]; exact Sim.name _
    | mapKeyValue e => 
      simp only [evValueW, evValue, Pile.valueW, value]; exact Sim.seq (Sim.entryW e) Sim.asMap
    | mapValueParenthesizedType t => simp only [evValueW, evValue, Pile.valueW, value]; exact Sim.mvW t
    | mapValueAddressType a => simp only [evValueW, evValue, Pile.valueW, value]; exact Sim.addressW a
theorem Sim.argW : ∀ w : W NodeTypeArgument, Sim dbg (Same Any) (evArgW dbg w) (argW w)
  | ⟨n, _, _⟩ => by
    cases n with
    | enclosedTypeArgument t => simp only [evArgW, evArg, Pile.argW, arg]; exact Sim.typeW t
    | genericTypeArgument m => simp only [evArgW, evArg, Pile.argW, arg]; exact Sim.name _
    | templateTypeArgument x => simp only [evArgW, evArg, Pile.argW, arg]; exact Sim.panic
    | addressTypeArgument a => simp only [evArgW, evArg, Pile.argW, arg]; exact Sim.addressW a
    | mapTypeArgument k v =>
      simp only [evArgW, evArg, Pile.argW, arg]
      exact Sim.seq (Sim.keyW k) (Sim.seq (Sim.valueW v) Sim.asMap)
theorem Sim.typeW : ∀ w : W NodeScillaType, Sim dbg (Same Any) (evTypeW dbg w) (typeW w)
  | ⟨n, _, _⟩ => by
    cases n with
    | genericTypeWithArgs m as =>
      have ha := fun n => Sim.args as n []
      cases as with
      | nil =>
        simp only [evTypeW, evType, Pile.typeW, type, args]
        exact Sim.seq (Sim.qualified _) Sim.asType
      | cons a as =>
        simp only [evTypeW, evType, Pile.typeW, type]
        refine Sim.seq (Sim.qualified _) ?_
        rw [lead_eq]
        refine Sim.then Sim.takeName fun n n' hn => Sim.then (ha n.1) fun t ts ht => Sim.put ?_
        obtain ⟨subs, rfl, rfl⟩ := ht
        rw [← hn.1]
        simp only [thing]
        rw [toTy_applied _ _ none fun _ => rfl]
        rfl
    | mapType k v =>
      simp only [evTypeW, evType, Pile.typeW, type]
      exact Sim.seq (Sim.keyW k) (Sim.seq (Sim.valueW v) Sim.asMap)
    | functionType a b => simp only [evTypeW, evType, Pile.typeW, type]; exact Sim.panic
    | enclosedType t => simp only [evTypeW, evType, Pile.typeW, type]; exact Sim.typeW t
    | scillaAddresseType a => simp only [evTypeW, evType, Pile.typeW, type]; exact Sim.addressW a
    | polyFunctionType x t => simp only [evTypeW, evType, Pile.typeW, type]; exact Sim.panic
    | typeVarType x => simp only [evTypeW, evType, Pile.typeW, type]; exact Sim.panic
theorem Sim.entryW : ∀ w : W NodeTypeMapEntry, Sim dbg (Same Any) (evEntryW dbg w) (entryW w)
  | ⟨.mk k v, _, _⟩ => by
    simp only [evEntryW, evEntry, Pile.entryW, entry]
    exact Sim.seq (Sim.keyW k) (Sim.valueW v)
theorem Sim.addressW : ∀ w : W NodeAddressType, Sim dbg (Same Any) (evAddrW dbg w) (addressW w)
  | ⟨.mk i tag fs, a, b⟩ => by
    have hf := Sim.fields fs
    simp only [evAddrW, evAddr, Pile.addressW, Pile.addressType]
    refine Sim.ignoring ?_ ?_
    · exact Tame.bind (Tame.typeName _) fun _ => Tame.bind (Tame.identToType dbg) fun _ =>
        Tame.bind (Tame.popType dbg) fun _ => Tame.bind (Tame.fields dbg fs) fun _ => Tame.pushType _
    · refine Sim.seq (Sim.typeName _) ?_
      rw [lead_eq]
      refine Sim.then Sim.takeName fun n n' hn => Sim.then hf fun xs ys hx => Sim.put ?_
      subst hx
      rw [← hn.1]
      simp only [thing, SrType.ofName, SrType.setAddress]
      rw [toTy_address]
theorem Sim.mvaW : ∀ w : W NodeTypeMapValueArguments, Sim dbg (Same Any) (evMvaW dbg w) (mvaW w)
  | ⟨n, _, _⟩ => by
    cases n with
    | enclosedTypeMapValue t => simp only [evMvaW, evMva, Pile.mvaW, mva]; exact Sim.mvW t
    | genericMapValueArgument m => simp only [evMvaW, evMva, Pile.mvaW, mva]; exact Sim.name _
    | mapKeyValueType k v => simp only [evMvaW, evMva, Pile.mvaW, mva]; exact Sim.panic
theorem Sim.mvW : ∀ w : W NodeTypeMapValueAllowingTypeArguments, Sim dbg (Same Any) (evMvW dbg w) (mvW w)
  | ⟨n, _, _⟩ => by
    cases n with
    | typeMapValueNoArgs v => simp only [evMvW, evMv, Pile.mvW, mv]; exact Sim.valueW v
    | typeMapValueWithArgs m as =>
      have ha := fun n => Sim.mvas as n []
      cases as with
      | nil =>
        simp only [evMvW, evMv, Pile.mvW, mv, mvas]
        exact Sim.seq (Sim.qualified _) Sim.asType
      | cons a as =>
        simp only [evMvW, evMv, Pile.mvW, mv]
        refine Sim.seq (Sim.qualified _) ?_
        rw [lead_eq]
        refine Sim.then Sim.takeName fun n n' hn => Sim.then (ha n.1) fun t ts ht => Sim.put ?_
        obtain ⟨subs, rfl, rfl⟩ := ht
        rw [← hn.1]
        simp only [thing]
        rw [toTy_applied _ _ none fun _ => rfl]
        rfl
theorem Sim.args : ∀ (l : List (W NodeTypeArgument)) (n : Str) (done : List SrType),
    Sim dbg (Same (Collected n done)) (evArgs dbg l (.mk n done none)) (args l)
  | [], n, done => by
    simp only [evArgs, Pile.args]
    exact Sim.pure ⟨[], by simp, rfl⟩
  | a :: as, n, done => by
    simp only [evArgs, Pile.args]
    refine Sim.seq (Sim.argW a) (Sim.then Sim.takeType fun t t' ht => ?_)
    rw [← M.bind_pure (evArgs dbg as _)]
    refine Sim.then (Sim.args as n (done ++ [t])) fun r ts hr => Sim.pure ?_
    obtain ⟨subs, rfl, rfl⟩ := hr
    exact ⟨t :: subs, by simp, by simp [ht]⟩
theorem Sim.mvas : ∀ (l : List (W NodeTypeMapValueArguments)) (n : Str) (done : List SrType),
    Sim dbg (Same (Collected n done)) (evMvas dbg l (.mk n done none)) (mvas l)
  | [], n, done => by
    simp only [evMvas, Pile.mvas]
    exact Sim.pure ⟨[], by simp, rfl⟩
  | a :: as, n, done => by
    simp only [evMvas, Pile.mvas]
    refine Sim.seq (Sim.mvaW a) (Sim.then Sim.takeType fun t t' ht => ?_)
    rw [← M.bind_pure (evMvas dbg as _)]
    refine Sim.then (Sim.mvas as n (done ++ [t])) fun r ts hr => Sim.pure ?_
    obtain ⟨subs, rfl, rfl⟩ := hr
    exact ⟨t :: subs, by simp, by simp [ht]⟩
theorem Sim.fields : ∀ l : List (W NodeAddressTypeField),
    Sim dbg (Same fun a b => a = b) (evFields dbg l) (fields l)
  | [] => by
    simp only [evFields, Pile.fields]
    exact Sim.pure rfl
  | ⟨.mk ⟨i, _, _⟩ t, _, _⟩ :: fs => by
    have h1 := Sim.typeW t
    have h2 := Sim.fields fs
    simp only [evFields, Pile.fields]
    refine Sim.seq ?_ (Sim.then Sim.takeDecl fun x y hx => Sim.then h2 fun xs ys hxs => Sim.pure (by rw [hx, hxs]))
    cases i with
    | variableName x =>
      simp only [evFieldW, evField, Pile.fieldW, field]
      exact Sim.seq h1 (Sim.declare x.node)
    | specialIdentifier x => simp only [evFieldW, evField, Pile.fieldW, field]; exact Sim.pure trivial
    | variableInNamespace x y => simp only [evFieldW, evField, Pile.fieldW, field]; exact Sim.pure trivial
end

/-! ### Declarations and contracts -/

theorem Sim.typed (n : NodeTypedIdentifier) : Sim dbg (Same Any) (evTyped dbg n) (typed n) :=
  Sim.seq (Sim.typeW _) (Sim.declare _)

/-- the next step may start from a changed contract -/
theorem Sim.next {α β α' β' : Type} {Q : Contract → Contract → α → β → Prop}
    {P : Contract → Contract → α' → β' → Prop}
    {m : M SrState α} {d : Step β} {f : α → M SrState α'} {g : β → Step β'}
    (h : Sim dbg Q m d) (hP : ∀ a b, Sim dbg (fun c1 c2 x y => ∀ c0, Q c0 c1 a b → P c0 c2 x y) (f a) (g b)) :
    Sim dbg P (m.bind f) (d.bind g) := by
  intro s
  have h1 := h s
  simp only [M.bind, Step.bind]
  cases hm : m s with
  | mk s1 r =>
    rw [hm] at h1
    cases r with
    | ok a =>
      obtain ⟨b, h2, h3⟩ := h1
      have h4 := hP a b s1
      simp only [h2]
      cases hf : f a s1 with
      | mk s2 r2 =>
        rw [hf] at h4
        cases r2 with
        | ok x =>
          obtain ⟨y, h5, h6⟩ := h4
          exact ⟨y, h5, h6 _ h3⟩
        | err e => exact h4
        | panic => exact h4
    | err e =>
      obtain ⟨w, x, h2, h3⟩ := h1
      simp only [h2]
      exact ⟨w, x, rfl, h3⟩
    | panic => simp only [h1]

/-- a change of the contract that the pile does not see -/
theorem Sim.change {α' β' : Type} {P Q : Contract → Contract → α' → β' → Prop} {u : Contract → Contract}
    {f : Unit → M SrState α'} {d : Step β'} (h : Sim dbg Q (f ()) d) (hP : ∀ c c' x y, Q (u c) c' x y → P c c' x y) :
    Sim dbg P (M.bind (fun s => (⟨s.stack, u s.contract⟩, .ok ())) f) d := by
  intro s
  have h1 := h ⟨s.stack, u s.contract⟩
  simp only [M.bind]
  cases hf : f () ⟨s.stack, u s.contract⟩ with
  | mk s2 r2 =>
    rw [hf] at h1
    cases r2 with
    | ok x =>
      obtain ⟨y, h5, h6⟩ := h1
      exact ⟨y, h5, hP _ _ _ _ h6⟩
    | err e => exact h1
    | panic => exact h1

theorem Sim.weaken {α β : Type} {P Q : Contract → Contract → α → β → Prop} {m : M SrState α} {d : Step β}
    (h : Sim dbg Q m d) (hP : ∀ c c' x y, Q c c' x y → P c c' x y) : Sim dbg P m d := by
  intro s
  have h1 := h s
  cases hf : m s with
  | mk s2 r2 =>
    rw [hf] at h1
    cases r2 with
    | ok x =>
      obtain ⟨y, h5, h6⟩ := h1
      exact ⟨y, h5, hP _ _ _ _ h6⟩
    | err e => exact h1
    | panic => exact h1

theorem bind_right {β : Type} (d : Step β) : d.bind (fun b => Step.pure b) = d := by
  funext p
  simp only [Step.bind, Step.pure]
  cases d p <;> rfl

theorem Sim.init : ∀ ps : List NodeTypedIdentifier,
    Sim dbg (fun c c' _ xs => c' = { c with initParams := c.initParams ++ xs }) (evInitT dbg ps) (declared ps)
  | [] => by
    intro s
    exact ⟨[], rfl, by simp⟩
  | n :: ns => by
    simp only [evInitT, declared]
    refine Sim.seq (Sim.typed n) (Sim.then Sim.takeDecl fun x y hx => ?_)
    subst hx
    refine Sim.change (u := fun c => { c with initParams := c.initParams ++ [x] })
      (Q := fun c c' _ xs => ∃ ys, xs = x :: ys ∧ c' = { c with initParams := c.initParams ++ ys }) ?_ ?_
    · rw [← M.bind_pure (evInitT dbg ns)]
      exact Sim.next (Sim.init ns) fun _ ys => fun s => ⟨x :: ys, rfl, fun c0 h => ⟨ys, rfl, h⟩⟩
    · rintro c c' _ _ ⟨ys, rfl, rfl⟩
      simp

theorem Sim.again : ∀ ps : List NodeTypedIdentifier, Sim dbg (Same Any) (evAgainT dbg ps) (again ps)
  | [] => Sim.pure trivial
  | n :: ns => Sim.seq (Sim.typed n) (Sim.again ns)

theorem Sim.params : ∀ ps : List NodeTypedIdentifier,
    Sim dbg (Same fun a b => a = b) (evParamsT dbg ps) (declared ps)
  | [] => Sim.pure rfl
  | n :: ns => by
    simp only [evParamsT, declared]
    exact Sim.seq (Sim.typed n) (Sim.then Sim.takeDecl fun x y hx =>
      Sim.then (Sim.params ns) fun xs ys hxs => Sim.pure (by rw [hx, hxs]))

theorem Sim.contractFields : ∀ ps : List NodeTypedIdentifier,
    Sim dbg (fun c c' _ xs => c' = { c with fields := c.fields ++ xs }) (evFieldsT dbg ps) (declared ps)
  | [] => by
    intro s
    exact ⟨[], rfl, by simp⟩
  | n :: ns => by
    simp only [evFieldsT, declared]
    refine Sim.seq (Sim.typed n) (Sim.then Sim.takeDecl fun x y hx => ?_)
    subst hx
    refine Sim.change (u := fun c => { c with fields := c.fields ++ [x] })
      (Q := fun c c' _ xs => ∃ ys, xs = x :: ys ∧ c' = { c with fields := c.fields ++ ys }) ?_ ?_
    · rw [← M.bind_pure (evFieldsT dbg ns)]
      exact Sim.next (Sim.contractFields ns) fun _ ys => fun s => ⟨x :: ys, rfl, fun c0 h => ⟨ys, rfl, h⟩⟩
    · rintro c c' _ _ ⟨ys, rfl, rfl⟩
      simp

theorem Sim.transition (t : NodeTransitionDefinition) :
    Sim dbg (fun c c' _ r => c' = { c with transitions := c.transitions ++ [r] })
      (evTransT dbg (componentName t.name.node) (typedOf t.parameters.node.parameters)) (transition t) := by
  simp only [evTransT, Pile.transition]
  refine Sim.seq (Sim.put rfl) (Sim.then (Sim.params _) fun ps ps' hp => Sim.then Sim.takeName fun n n' hn => ?_)
  subst hp
  by_cases hk : n.2 = .componentName
  · rw [if_pos hk, if_pos (hn.2.mp hk), hn.1]
    intro s
    exact ⟨_, rfl, rfl⟩
  · rw [if_neg hk, if_neg (fun h => hk (hn.2.mpr h))]
    exact Sim.panic

theorem Sim.transitions : ∀ ts : List NodeTransitionDefinition,
    Sim dbg (fun c c' _ rs => c' = { c with transitions := c.transitions ++ rs }) (evTranssT dbg ts) (transitions ts)
  | [] => by
    intro s
    exact ⟨[], rfl, by simp⟩
  | t :: ts => by
    simp only [evTranssT, Pile.transitions]
    refine Sim.next (Sim.transition t) fun _ r => ?_
    rw [← M.bind_pure (evTranssT dbg ts)]
    refine Sim.next (Sim.transitions ts) fun _ rs => fun s => ⟨r :: rs, rfl, fun c1 h1 c0 h0 => ?_⟩
    subst h0
    rw [h1]
    simp

theorem Sim.contract (p : NodeProgram) :
    Sim dbg (fun c c' _ r => c = Contract.empty → c' = r) (evContract dbg p.contractDefinition.node) (contract p) := by
  rw [evContract_T]
  simp only [evIface, Pile.contract]
  refine Sim.seq (Sim.typeName _) ?_
  refine Sim.change (u := fun c => { c with name := p.contractDefinition.node.contractName.node.display })
    (Q := fun c c' _ r => c = { Contract.empty with name := p.contractDefinition.node.contractName.node.display } →
      c' = r) ?_ ?_
  · refine Sim.next (Sim.init _) fun _ ps => ?_
    refine Sim.next (Sim.again _) fun _ _ => ?_
    refine Sim.next (Sim.contractFields _) fun _ fs => ?_
    rw [← M.bind_pure (evTranssT dbg _)]
    refine Sim.next (Sim.transitions _) fun _ ts => fun s => ⟨_, rfl, fun c3 h3 c2 h2 c1 h1 c0 h0 hc => ?_⟩
    subst hc h0
    rw [h3, h2, h1.1]
    simp [Contract.empty]
  · rintro c c' _ r h rfl
    exact h rfl

end Verif.Pile
