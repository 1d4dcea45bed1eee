import Verif.Proofs.Legal
/-
What the emitter does with a tree of the grammar, if the names among the tokens are legal.
-/
namespace Verif

set_option linter.unusedSimpArgs false
set_option linter.unusedVariables false

variable (dbg : StackObj → Str)

/-- the names among the tokens are legal -/
def Token.NameOk : Token → Prop
  | .identifier s => Printable (.identifier s)
  | .customIdentifier s => Printable (.customIdentifier s)
  | .byStrWithSize s => Printable (.byStrWithSize s)
  | .specialIdentifier s => Printable (.specialIdentifier s)
  | _ => True

def TypeNameOk : NodeTypeNameIdentifier → Prop
  | .byteStringType b => Printable (.byStrWithSize b.display)
  | .eventType => True
  | .typeOrEnumLikeIdentifier s => Printable (.customIdentifier s.node)

def ComponentOk : NodeComponentId → Prop
  | .withTypeLikeName n => TypeNameOk n.node
  | .withRegularId x => Printable (.identifier x.node)

/-- evaluation of a typed identifier keeps the stack good -/
def TypedOk (n : NodeTypedIdentifier) : Prop := ∀ b, Ht b (Good b) (evTyped dbg n) fun _ => Good b

structure TransOk (t : NodeTransitionDefinition) : Prop where
  name : ComponentOk t.name.node
  params : ∀ p ∈ typedOf t.parameters.node.parameters, TypedOk dbg p

structure ContractOk (c : NodeContractDefinition) : Prop where
  name : TypeNameOk c.contractName.node
  params : ∀ p ∈ typedOf c.parameters.node.parameters, TypedOk dbg p
  fields : ∀ p ∈ fieldTypedOf c.fields, TypedOk dbg p
  transitions : ∀ t ∈ transitionsOf c.components, TransOk dbg t

/-- the property of the values of each nonterminal -/
def LegalV : (n : NT) → Val n → Prop
  | .byteString, v => Printable (.byStrWithSize v.display)
  | .typeName, v => TypeNameOk v.node
  | .metaId, v => ∀ b, Ht b (Good b) (evMeta v.node) fun _ => Good b
  | .varId, v => ∀ x, v.node = .variableName x → Printable (.identifier x.node)
  | .remaining, v => ∀ b, Ht b (Good b) (evTypeW dbg v) fun _ => Top b
  | .funSig, v => ∀ b, Ht b (Good b) (evTypeW dbg v) fun _ => Top b
  | .scillaType, v => ∀ b, Ht b (Good b) (evTypeW dbg v) fun _ => Top b
  | .typeArg, v => ∀ b, Ht b (Good b) (evArgW dbg v) fun _ => Top b
  | .addressType, v => ∀ b, Ht b (Good b) (evAddrW dbg v) fun _ => Top b
  | .addressFieldList, v => ∀ f ∈ v, ∀ b, Ht b (Good b) (evFieldW dbg f) fun _ => Good b
  | .nextAddressField, v => ∀ b, Ht b (Good b) (evFieldW dbg v) fun _ => Good b
  | .addressField, v => ∀ b, Ht b (Good b) (evFieldW dbg v) fun _ => Good b
  | .mapKey, v => ∀ b, Ht b (Good b) (evKeyW dbg v) fun _ => Good b
  | .mapValue, v => ∀ b, Ht b (Good b) (evValueW dbg v) fun _ => Top b
  | .mapValueArgs, v => ∀ b, Ht b (Good b) (evMvaW dbg v) fun _ => Top b
  | .mapValueAllowing, v => ∀ b, Ht b (Good b) (evMvW dbg v) fun _ => Top b
  | .program, v => ContractOk dbg v.contractDefinition.node
  | .typedId, v => TypedOk dbg v.node
  | .typeAnn, v => ∀ b, Ht b (Good b) (evTypeW dbg v.node.typeName) fun _ => Top b
  | .componentId, v => ComponentOk v.node
  | .paramPair, v => TypedOk dbg v.node.identifierWithType.node
  | .nextParamPair, v => TypedOk dbg v.node.identifierWithType.node
  | .compParams, v => ∀ p ∈ typedOf v.node.parameters, TypedOk dbg p
  | .compDef, v => ∀ t, v.node = .transitionComponent t → TransOk dbg t.node
  | .transDef, v => TransOk dbg v.node
  | .contractDef, v => ContractOk dbg v.node
  | .contractField, v => TypedOk dbg v.node.typedIdentifier.node
  | .regularId, v => Printable (.identifier v.node)
  | .specialId, v => Printable (.specialIdentifier v.node)
  | .customId, v => Printable (.customIdentifier v.node)
  | .star n, v => ∀ x ∈ v, LegalV n x
  | .plus n, v => ∀ x ∈ v, LegalV n x
  | .opt n, v => ∀ x, v = some x → LegalV n x
  | _, _ => True

theorem TypeNameOk.run {n : NodeTypeNameIdentifier} (h : TypeNameOk n) (b : Nat) :
    Ht b (Good b) (evTypeName n) fun _ => Good b := by
  cases n with
  | byteStringType s => exact Ht.pushId (.inr (.inl h))
  | eventType => exact Ht.pure (Q := fun _ => Good b) ()
  | typeOrEnumLikeIdentifier s => exact Ht.pushId (.inl h)

theorem Ht.name {n : NodeMetaIdentifier} (h : ∀ b, Ht b (Good b) (evMeta n) fun _ => Good b) (b : Nat) :
    Ht b (Good b) ((evMeta n).bind fun _ => Verif.identToType dbg) fun _ => Good b :=
  (h b).bind fun _ => (Ht.identToType dbg).weaken (fun _ h => h.top) fun _ _ h => h

theorem Ht.toTop {b : Nat} {P : List StackObj → Prop} {m : M SrState Unit}
    (h : Ht b P m fun _ => Good b) : Ht b P m fun _ => Top b := h.weaken (fun _ h => h) fun _ _ h => h.top

theorem Ht.fromTop {α : Type} {b : Nat} {m : M SrState α} {Q : α → List StackObj → Prop}
    (h : Ht b (Top b) m Q) : Ht b (Good b) m Q := h.weaken (fun _ h => h.top) fun _ _ h => h

/-- a type under construction: a name and arguments -/
def Partial (t : SrType) : Prop := ∃ n ts, TypeText n ∧ (∀ x ∈ ts, SrOk x) ∧ t = .mk n ts none

theorem NameSr.partial {t : SrType} (h : NameSr t) : Partial t := by
  obtain ⟨n, hn, rfl⟩ := h
  exact ⟨n, [], hn, by simp, rfl⟩

theorem Partial.push {t u : SrType} (h : Partial t) (hu : SrOk u) : Partial (t.pushSubType u) := by
  obtain ⟨n, ts, hn, hs, rfl⟩ := h
  refine ⟨n, ts ++ [u], hn, ?_, rfl⟩
  intro x hx
  rcases List.mem_append.1 hx with hx | hx
  · exact hs x hx
  · simp only [List.mem_cons, List.not_mem_nil, or_false] at hx
    rw [hx]; exact hu

theorem Partial.ok {t : SrType} (h : Partial t) : SrOk t := by
  obtain ⟨n, ts, hn, hs, rfl⟩ := h
  exact srOk_mk hn hs .none

theorem Ht.args (b : Nat) : ∀ (l : List (W NodeTypeArgument)) (main : SrType),
    (∀ x ∈ l, ∀ b, Ht b (Good b) (evArgW dbg x) fun _ => Top b) →
    Ht b (fun st => Partial main ∧ Good b st) (evArgs dbg l main) fun t st => Partial t ∧ Good b st
  | [], main, _ => by rw [evArgs]; exact Ht.pure (Q := fun t st => Partial t ∧ Good b st) main
  | a :: as, main, h => by
    rw [evArgs]
    refine Ht.assume (Tame.bind (Tame.argW dbg a) fun _ => Tame.bind (Tame.popType dbg) fun _ =>
      Tame.args dbg as _) fun hm => ?_
    refine (h a (by simp) b).bind fun _ => (Ht.popType dbg).bind fun t => ?_
    exact (Ht.args b as _ fun x hx => h x (by simp [hx])).weaken (fun st hs => ⟨hm.push hs.1, hs.2⟩)
      fun _ _ h => h

theorem Ht.mvas (b : Nat) : ∀ (l : List (W NodeTypeMapValueArguments)) (main : SrType),
    (∀ x ∈ l, ∀ b, Ht b (Good b) (evMvaW dbg x) fun _ => Top b) →
    Ht b (fun st => Partial main ∧ Good b st) (evMvas dbg l main) fun t st => Partial t ∧ Good b st
  | [], main, _ => by rw [evMvas]; exact Ht.pure (Q := fun t st => Partial t ∧ Good b st) main
  | a :: as, main, h => by
    rw [evMvas]
    refine Ht.assume (Tame.bind (Tame.mvaW dbg a) fun _ => Tame.bind (Tame.popType dbg) fun _ =>
      Tame.mvas dbg as _) fun hm => ?_
    refine (h a (by simp) b).bind fun _ => (Ht.popType dbg).bind fun t => ?_
    exact (Ht.mvas b as _ fun x hx => h x (by simp [hx])).weaken (fun st hs => ⟨hm.push hs.1, hs.2⟩)
      fun _ _ h => h

theorem fieldsWritable_add {f : Field} {fs : List Field} (h : fieldsWritable [f]) (h' : fieldsWritable fs) :
    fieldsWritable (f :: fs) := by
  obtain ⟨x, t⟩ := f
  exact ⟨h.1, h.2.1, h'⟩

theorem Ht.fields (b : Nat) : ∀ (l : List (W NodeAddressTypeField)),
    (∀ x ∈ l, ∀ b, Ht b (Good b) (evFieldW dbg x) fun _ => Good b) →
    Ht b (Good b) (evFields dbg l) fun fs st => (fieldsWritable fs ∧ (l = [] → fs = [])) ∧ Good b st
  | [], _ => by
    rw [evFields]
    exact (Ht.pure (Q := fun fs st => (fieldsWritable fs ∧ (([] : List (W NodeAddressTypeField)) = [] → fs = [])) ∧
      Good b st) []).weaken (fun st h => ⟨⟨trivial, fun _ => rfl⟩, h⟩) fun _ _ h => h
  | f :: fs, h => by
    rw [evFields]
    refine (h f (by simp) b).bind fun _ => (Ht.fromTop (Ht.popVar dbg)).bind fun x => ?_
    refine Ht.assume (Tame.bind (Tame.fields dbg fs) fun _ => Tame.pure _) fun hx => ?_
    refine (Ht.fields b fs fun x hx => h x (by simp [hx])).bind fun xs => ?_
    exact (Ht.pure (Q := fun gs st => (fieldsWritable gs ∧ (f :: fs = [] → gs = [])) ∧ Good b st)
      (x :: xs)).weaken (fun st hs => ⟨⟨fieldsWritable_add hx hs.1.1, fun h => by simp at h⟩, hs.2⟩)
      fun _ _ h => h

/-- a name with arguments -/
theorem Ht.applied (b : Nat) {m : NodeMetaIdentifier} {f : SrType → M SrState SrType}
    (hm : ∀ b, Ht b (Good b) (evMeta m) fun _ => Good b)
    (hf : ∀ main, Ht b (fun st => Partial main ∧ Good b st) (f main) fun t st => Partial t ∧ Good b st) :
    Ht b (Good b) ((evMeta m).bind fun _ => (Verif.identToType dbg).bind fun _ => (Verif.popType dbg).bind fun main =>
      (f main).bind fun t => SrState.pushObj (.typeDef t)) fun _ => Top b := by
  refine (hm b).bind fun _ => (Ht.fromTop (Ht.identToType dbg)).bind fun _ => (Ht.popName dbg).bind fun main => ?_
  refine Ht.bind ((hf main).weaken (fun st h => ⟨h.1.partial, h.2⟩) fun _ _ h => h) fun t => ?_
  exact Ht.pushType fun h => h.ok

/-- a map type -/
theorem Ht.mapped {b : Nat} {k v : M SrState Unit} (hk : Ht b (Good b) k fun _ => Good b)
    (hv : Ht b (Good b) v fun _ => Top b) :
    Ht b (Good b) (k.bind fun _ => v.bind fun _ => Verif.makeMap dbg) fun _ => Top b :=
  hk.bind fun _ => hv.bind fun _ => Ht.makeMap dbg

/-- a declared type becomes a declaration -/
theorem Ht.declared {b : Nat} {x : Str} {m : M SrState Unit} (hx : Printable (.identifier x))
    (h : Ht b (Good b) m fun _ => Top b) :
    Ht b (Good b) (m.bind fun _ => (Verif.popType dbg).bind fun ty => (Verif.intoType ty).bind fun ty =>
      SrState.pushObj (.varDecl (.mk x ty))) fun _ => Good b :=
  h.bind fun _ => (Ht.popType dbg).bind fun t => Ht.intoType.bind fun ty =>
    Ht.pushVar fun hw => ⟨hx, hw, trivial⟩

theorem Ht.field {b : Nat} {i : W NodeVariableIdentifier} {t : W NodeScillaType}
    (hi : ∀ x, i.node = .variableName x → Printable (.identifier x.node))
    (h : Ht b (Good b) (evTypeW dbg t) fun _ => Top b) : Ht b (Good b) (evField dbg (.mk i t)) fun _ => Good b := by
  obtain ⟨i, _, _⟩ := i
  cases i with
  | variableName x => simp only [evField]; exact Ht.declared dbg (hi x rfl) h
  | specialIdentifier x => simp only [evField]; exact Ht.pure (Q := fun _ => Good b) ()
  | variableInNamespace x y => simp only [evField]; exact Ht.pure (Q := fun _ => Good b) ()

theorem Ht.address {b : Nat} {i : NodeTypeNameIdentifier} {tag : Str} {fs : List (W NodeAddressTypeField)}
    (hi : TypeNameOk i) (hf : ∀ x ∈ fs, ∀ b, Ht b (Good b) (evFieldW dbg x) fun _ => Good b)
    (ht : tag = str! "contract" ∨ (fs = [] ∧ (tag = [] ∨ tag = str! "library" ∨ Printable (.specialIdentifier tag)))) :
    Ht b (Good b) (Verif.swallow <| (evTypeName i).bind fun _ => (Verif.identToType dbg).bind fun _ =>
      (Verif.popType dbg).bind fun main => (evFields dbg fs).bind fun fields =>
        SrState.pushObj (.typeDef (main.setAddress (tag, fields)))) fun _ => Top b := by
  refine Ht.swallow ?_ fun st h => h.top
  refine (hi.run b).bind fun _ => (Ht.fromTop (Ht.identToType dbg)).bind fun _ => (Ht.popName dbg).bind fun main => ?_
  refine Ht.assume (Tame.bind (Tame.fields dbg fs) fun _ => Tame.pushType _) fun hm => ?_
  refine (Ht.fields dbg b fs hf).bind fun gs => Ht.pushType fun hg => ?_
  obtain ⟨n, hn, rfl⟩ := hm
  refine srOk_mk hn (by simp) ?_
  intro p hp
  simp only [Option.some.injEq] at hp
  subst hp
  refine ⟨ht.imp id fun h => ⟨hg.2 h.1, h.2⟩, hg.1⟩

theorem typedOf_append (a b : List (W NodeParameterPair)) : typedOf (a ++ b) = typedOf a ++ typedOf b := by
  simp [typedOf]

theorem getD_all {α : Type} {o : Option (List α)} {P : α → Prop} (h : ∀ l, o = some l → ∀ x ∈ l, P x) :
    ∀ x ∈ o.getD [], P x := by
  cases o with
  | none => simp
  | some l => exact h l rfl

theorem Derives.legal {n : NT} {w : List STok} {v : Val n} (d : Derives n w v)
    (hw : ∀ t ∈ w, t.tok.NameOk) : LegalV dbg n v := by
  induction d with
  | starNil => intro x hx; simp at hx
  | starCons d1 d2 ih1 ih2 =>
    intro x hx
    rcases List.mem_cons.1 hx with rfl | hx
    · exact ih1 fun t ht => hw t (by simp [ht])
    · exact ih2 (fun t ht => hw t (by simp [ht])) x hx
  | plusIntro d1 d2 ih1 ih2 =>
    intro x hx
    rcases List.mem_cons.1 hx with rfl | hx
    · exact ih1 fun t ht => hw t (by simp [ht])
    · exact ih2 (fun t ht => hw t (by simp [ht])) x hx
  | optNone => intro x hx; simp at hx
  | optSome d1 ih1 =>
    intro x hx
    simp only [Option.some.injEq] at hx
    subst hx
    exact ih1 hw
  | regularId h => subst h; exact hw _ (List.mem_singleton.2 rfl)
  | specialId h => subst h; exact hw _ (List.mem_singleton.2 rfl)
  | customId h => subst h; exact hw _ (List.mem_singleton.2 rfl)
  | byteString h => subst h; exact hw _ (List.mem_singleton.2 rfl)
  | typeNameBytes d ih => exact ih hw
  | typeNameEvent h => trivial
  | typeNameCustom d ih => exact ih hw
  | metaName d ih => exact fun b => (ih hw : TypeNameOk _).run b
  | metaNamespace h d1 d2 ih1 ih2 =>
    subst h
    have h1 : TypeNameOk _ := ih1 fun t ht => hw t (by simp [ht])
    have h2 : TypeNameOk _ := ih2 fun t ht => hw t (by simp [ht])
    exact fun b => (h1.run b).bind fun _ => h2.run b
  | metaHexspace h d1 d2 ih1 ih2 =>
    subst h
    have h2 : TypeNameOk _ := ih2 fun t ht => hw t (by simp [ht])
    exact fun b => h2.run b
  | metaByStr h => exact fun b => Ht.pushId (.inr (.inr rfl))
  | varName d ih =>
    intro x hx
    simp only [mkW, NodeVariableIdentifier.variableName.injEq] at hx
    subst hx
    exact ih hw
  | varSpecial d ih => intro x hx; simp [mkW] at hx
  | varNamespace h d1 d2 ih1 ih2 => intro x hx; simp [mkW] at hx
  | remGeneric h d1 d2 ih1 ih2 =>
    subst h
    have h1 := ih1 fun t ht => hw t (by simp [ht])
    have h2 := ih2 fun t ht => hw t (by simp [ht])
    rename_i m args
    intro b
    cases args with
    | nil => simp only [mkW, evTypeW, evType]; exact (Ht.name dbg h1 b).toTop
    | cons a args =>
      simp only [mkW, evTypeW, evType]
      exact Ht.applied dbg b h1 fun main => Ht.args dbg b _ main h2
  | remMap h d1 d2 ih1 ih2 =>
    subst h
    have h1 := ih1 fun t ht => hw t (by simp [ht])
    have h2 := ih2 fun t ht => hw t (by simp [ht])
    intro b
    simp only [mkW, evTypeW, evType]
    exact Ht.mapped dbg (h1 b) (h2 b)
  | remParen h d1 ih1 =>
    subst h
    have h1 := ih1 fun t ht => hw t (by simp [ht])
    intro b
    simp only [mkW, evTypeW, evType]
    exact h1 b
  | remAddress d ih =>
    intro b
    simp only [mkW, evTypeW, evType]
    exact ih hw b
  | remForall h d1 d2 ih1 ih2 => intro b; simp only [mkW, evTypeW, evType]; exact Ht.panic
  | remTypeVar d ih => intro b; simp only [mkW, evTypeW, evType]; exact Ht.panic
  | funSigMore h d1 d2 ih1 ih2 => intro b; simp only [mkW, evTypeW, evType]; exact Ht.panic
  | funSigLast h d1 d2 ih1 ih2 => intro b; simp only [mkW, evTypeW, evType]; exact Ht.panic
  | typeFun d ih => exact ih hw
  | typeRem d ih => exact ih hw
  | argParen h d1 ih1 =>
    subst h
    have h1 := ih1 fun t ht => hw t (by simp [ht])
    intro b
    simp only [mkW, evArgW, evArg]
    exact h1 b
  | argMeta d ih =>
    intro b
    simp only [mkW, evArgW, evArg]
    exact (Ht.name dbg (ih hw) b).toTop
  | argTemplate d ih => intro b; simp only [mkW, evArgW, evArg]; exact Ht.panic
  | argAddress d ih =>
    intro b
    simp only [mkW, evArgW, evArg]
    exact ih hw b
  | argMap h d1 d2 ih1 ih2 =>
    subst h
    have h1 := ih1 fun t ht => hw t (by simp [ht])
    have h2 := ih2 fun t ht => hw t (by simp [ht])
    intro b
    simp only [mkW, evArgW, evArg]
    exact Ht.mapped dbg (h1 b) (h2 b)
  | addrEmpty h d1 ih1 =>
    subst h
    have h1 := ih1 fun t ht => hw t (by simp [ht])
    intro b
    simp only [mkW, evAddrW, evAddr]
    exact Ht.address dbg h1 (by simp) (.inr ⟨rfl, .inl rfl⟩)
  | addrContract h d1 d2 ih1 ih2 =>
    subst h
    have h1 := ih1 fun t ht => hw t (by simp [ht])
    have h2 := ih2 fun t ht => hw t (by simp [ht])
    intro b
    simp only [mkW, evAddrW, evAddr]
    exact Ht.address dbg h1 (getD_all h2) (.inl rfl)
  | addrLibrary h d1 ih1 =>
    subst h
    have h1 := ih1 fun t ht => hw t (by simp [ht])
    intro b
    simp only [mkW, evAddrW, evAddr]
    exact Ht.address dbg h1 (by simp) (.inr ⟨rfl, .inr (.inl rfl)⟩)
  | addrSpecial h d1 d2 ih1 ih2 =>
    subst h
    have h1 := ih1 fun t ht => hw t (by simp [ht])
    have h2 := ih2 fun t ht => hw t (by simp [ht])
    intro b
    simp only [mkW, evAddrW, evAddr]
    exact Ht.address dbg h1 (by simp) (.inr ⟨rfl, .inr (.inr h2)⟩)
  | addrFieldList h d1 d2 ih1 ih2 =>
    subst h
    have h1 := ih1 fun t ht => hw t (by simp [ht])
    have h2 := ih2 fun t ht => hw t (by simp [ht])
    intro f hf
    rcases List.mem_cons.1 hf with rfl | hf
    · exact h1
    · exact h2 f hf
  | nextAddrField h d1 ih1 => subst h; exact ih1 fun t ht => hw t (by simp [ht])
  | addrField h d1 d2 ih1 ih2 =>
    subst h
    have h1 := ih1 fun t ht => hw t (by simp [ht])
    have h2 := ih2 fun t ht => hw t (by simp [ht])
    exact fun b => Ht.field dbg h1 (h2 b)
  | keyMeta d ih =>
    intro b
    simp only [mkW, evKeyW, evKey]
    exact Ht.name dbg (ih hw) b
  | keyParenMeta h d1 ih1 =>
    subst h
    have h1 := ih1 fun t ht => hw t (by simp [ht])
    intro b
    simp only [mkW, evKeyW, evKey]
    exact Ht.name dbg h1 b
  | keyParenAddress h d1 ih1 =>
    subst h
    have h1 := ih1 fun t ht => hw t (by simp [ht])
    intro b
    simp only [mkW, evKeyW, evKey]
    exact (h1 b).bind fun _ => Ht.identToType dbg
  | keyAddress d ih =>
    intro b
    simp only [mkW, evKeyW, evKey]
    exact (ih hw b).bind fun _ => Ht.identToType dbg
  | valMeta d ih =>
    intro b
    simp only [mkW, evValueW, evValue]
    exact (Ht.name dbg (ih hw) b).toTop
  | valMap h d1 d2 ih1 ih2 =>
    subst h
    have h1 := ih1 fun t ht => hw t (by simp [ht])
    have h2 := ih2 fun t ht => hw t (by simp [ht])
    intro b
    simp only [mkW, evValueW, evValue, evEntryW, evEntry, M.bind_assoc]
    exact Ht.mapped dbg (h1 b) (h2 b)
  | valParen h d1 ih1 =>
    subst h
    have h1 := ih1 fun t ht => hw t (by simp [ht])
    intro b
    simp only [mkW, evValueW, evValue]
    exact h1 b
  | valAddress d ih =>
    intro b
    simp only [mkW, evValueW, evValue]
    exact ih hw b
  | mvaParen h d1 ih1 =>
    subst h
    have h1 := ih1 fun t ht => hw t (by simp [ht])
    intro b
    simp only [mkW, evMvaW, evMva]
    exact h1 b
  | mvaMeta d ih =>
    intro b
    simp only [mkW, evMvaW, evMva]
    exact (Ht.name dbg (ih hw) b).toTop
  | mvaMap h d1 d2 ih1 ih2 => intro b; simp only [mkW, evMvaW, evMva]; exact Ht.panic
  | mvWithArgs h d1 d2 ih1 ih2 =>
    subst h
    have h1 := ih1 fun t ht => hw t (by simp [ht])
    have h2 := ih2 fun t ht => hw t (by simp [ht])
    rename_i m args
    intro b
    cases args with
    | nil => simp only [mkW, evMvW, evMv]; exact (Ht.name dbg h1 b).toTop
    | cons a args =>
      simp only [mkW, evMvW, evMv]
      exact Ht.applied dbg b h1 fun main => Ht.mvas dbg b _ main h2
  | mvNoArgs d ih =>
    intro b
    simp only [mkW, evMvW, evMv]
    exact ih hw b
  | program h d1 d2 d3 d4 ih1 ih2 ih3 ih4 =>
    subst h
    exact ih4 fun t ht => hw t (by simp [ht])
  | typedId h d1 d2 ih1 ih2 =>
    subst h
    have h1 := ih1 fun t ht => hw t (by simp [ht])
    have h2 := ih2 fun t ht => hw t (by simp [ht])
    exact fun b => Ht.declared dbg h1 (h2 b)
  | typeAnn h d1 ih1 =>
    subst h
    exact ih1 fun t ht => hw t (by simp [ht])
  | componentType d ih => exact ih hw
  | componentRegular d ih => exact ih hw
  | paramPair d ih => exact ih hw
  | nextParamPair h d1 ih1 => subst h; exact ih1 fun t ht => hw t (by simp [ht])
  | compParams h d1 d2 ih1 ih2 =>
    subst h
    have h1 := ih1 fun t ht => hw t (by simp [ht])
    have h2 := ih2 fun t ht => hw t (by simp [ht])
    intro p hp
    simp only [mkW, typedOf_append] at hp
    rcases List.mem_append.1 hp with hp | hp
    · simp only [typedOf, List.mem_map, Option.mem_toList] at hp
      obtain ⟨q, hq, rfl⟩ := hp
      exact h1 q hq
    · simp only [typedOf, List.mem_map] at hp
      obtain ⟨q, hq, rfl⟩ := hp
      exact h2 q hq
  | compTransition d ih =>
    intro t ht
    simp only [mkW, NodeComponentDefinition.transitionComponent.injEq] at ht
    subst ht
    exact ih hw
  | compProcedure d ih => intro t ht; simp [mkW] at ht
  | transDef h d1 d2 d3 ih1 ih2 ih3 =>
    subst h
    exact ⟨ih1 fun t ht => hw t (by simp [ht]), ih2 fun t ht => hw t (by simp [ht])⟩
  | contractDef h d1 d2 d3 d4 d5 ih1 ih2 ih3 ih4 ih5 =>
    subst h
    have h4 := ih4 fun t ht => hw t (by simp [ht])
    have h5 := ih5 fun t ht => hw t (by simp [ht])
    refine ⟨ih1 fun t ht => hw t (by simp [ht]), ih2 fun t ht => hw t (by simp [ht]), ?_, ?_⟩
    · intro p hp
      simp only [mkW, fieldTypedOf, List.mem_map] at hp
      obtain ⟨q, hq, rfl⟩ := hp
      exact h4 q hq
    · intro t ht
      simp only [mkW, transitionsOf, List.mem_filterMap] at ht
      obtain ⟨q, hq, e⟩ := ht
      have := h5 q hq
      split at e
      · rename_i t' e'
        simp only [Option.some.injEq] at e
        subst e
        exact this _ e'
      · simp at e
  | contractField h d1 d2 ih1 ih2 =>
    subst h
    exact ih1 fun t ht => hw t (by simp [ht])
  | _ => trivial

end Verif
