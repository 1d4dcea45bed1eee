import Verif.Proofs.EmitContract
/-
The type name `Event` in an interface: the emitter takes whatever name is on top of its stack.
-/
namespace Verif

variable (dbg : StackObj → Str)

theorem evTyped_event {n : NodeTypedIdentifier} (h : isEvent n = true) (s : SrState) :
    evTyped dbg n s = ((identToType dbg).bind fun _ => (popType dbg).bind fun ty =>
    (intoType ty).bind fun ty => SrState.pushObj (.varDecl (.mk n.identifierName.node ty))) s := by
  unfold isEvent at h
  split at h
  · rename_i h1
    rw [evTyped]
    cases hw : n.annotation.node.typeName with
    | mk t a b =>
      rw [hw] at h1
      simp only at h1
      subst h1
      rw [evTypeW, evType]
      simp only [evMeta, evTypeName, M.pure_bind]
  · simp at h

theorem evTyped_event_ident {n : NodeTypedIdentifier} (h : isEvent n = true) (x : Str) (k : IdKind)
    (hx : '+' ∉ x) (st : List StackObj) (c : Contract) :
    evTyped dbg n ⟨.ident x k :: st, c⟩ = match namedType x [] with
      | some t => (⟨.varDecl (.mk n.identifierName.node t) :: st, c⟩, .ok ())
      | none => (⟨st, c⟩, .panic) := by
  rw [evTyped_event dbg h]
  simp only [M.bind, identToType, popIdent, SrState.pushObj, popType, intoType, toTy_ofName x hx]
  cases namedType x [] <;> rfl

theorem evTyped_event_err {n : NodeTypedIdentifier} (h : isEvent n = true) (st : List StackObj)
    (c : Contract) (hs : st = [] ∨ ∃ f st', st = .varDecl f :: st') :
    ∃ s e, evTyped dbg n ⟨st, c⟩ = (s, .err e) := by
  rw [evTyped_event dbg h]
  rcases hs with rfl | ⟨f, st', rfl⟩ <;> exact ⟨_, _, rfl⟩

theorem evFieldsT_append : ∀ a b : List NodeTypedIdentifier,
    evFieldsT dbg (a ++ b) = (evFieldsT dbg a).bind fun _ => evFieldsT dbg b
  | [], b => by simp only [List.nil_append, evFieldsT, M.pure_bind]
  | x :: a, b => by
    simp only [List.cons_append, evFieldsT, M.bind_assoc, evFieldsT_append a b]

theorem evInitT_append : ∀ a b : List NodeTypedIdentifier,
    evInitT dbg (a ++ b) = (evInitT dbg a).bind fun _ => evInitT dbg b
  | [], b => by simp only [List.nil_append, evInitT, M.pure_bind]
  | x :: a, b => by
    simp only [List.cons_append, evInitT, M.bind_assoc, evInitT_append a b]

theorem evAgainT_append : ∀ a b : List NodeTypedIdentifier,
    evAgainT dbg (a ++ b) = (evAgainT dbg a).bind fun _ => evAgainT dbg b
  | [], b => by simp only [List.nil_append, evAgainT, M.pure_bind]
  | x :: a, b => by
    simp only [List.cons_append, evAgainT, M.bind_assoc, evAgainT_append a b]

theorem evParamsT_append : ∀ a b : List NodeTypedIdentifier,
    evParamsT dbg (a ++ b) = (evParamsT dbg a).bind fun xs => (evParamsT dbg b).bind fun ys =>
      M.pure (xs ++ ys)
  | [], b => by simp only [List.nil_append, evParamsT, M.pure_bind, M.bind_pure]
  | x :: a, b => by
    simp only [List.cons_append, evParamsT, M.bind_assoc, evParamsT_append a b, M.pure_bind]

theorem evTranssT_append : ∀ a b : List NodeTransitionDefinition,
    evTranssT dbg (a ++ b) = (evTranssT dbg a).bind fun _ => evTranssT dbg b
  | [], b => by simp only [List.nil_append, evTranssT, M.pure_bind]
  | x :: a, b => by
    simp only [List.cons_append, evTranssT, M.bind_assoc, evTranssT_append a b]

theorem plainName_push {n : NodeTypeNameIdentifier} {x : Str} (h : plainName n = some x) (s : SrState) :
    '+' ∉ x ∧ n.display = x ∧
      evTypeName n s = (⟨.ident x .unknown :: s.stack, s.contract⟩, .ok ()) := by
  cases n with
  | byteStringType b =>
    simp only [plainName] at h
    split at h
    · simp at h
    · rename_i hp
      simp only [Option.some.injEq] at h
      subst h
      exact ⟨hp, by cases b <;> rfl, rfl⟩
  | eventType => simp [plainName] at h
  | typeOrEnumLikeIdentifier s =>
    simp only [plainName] at h
    split at h
    · simp at h
    · rename_i hp
      simp only [Option.some.injEq] at h
      subst h
      exact ⟨hp, rfl, rfl⟩

/-- an `Event` field of a contract without parameters -/
theorem emit_event_field {p : NodeProgram} {x : Str} {pre post : List NodeTypedIdentifier}
    {n : NodeTypedIdentifier} {a b : List Field} {l : List Str} {c : List Transition}
    (hx : plainName p.contractDefinition.node.contractName.node = some x)
    (hps : typedOf p.contractDefinition.node.parameters.node.parameters = [])
    (hfs : fieldTypedOf p.contractDefinition.node.fields = pre ++ n :: post)
    (ha : readAll pre = .ok ([], a)) (hn : isEvent n = true) (hb : readAll post = .ok (l, b))
    (hc : readTransitions (transitionsOf p.contractDefinition.node.components) = .ok c) :
    emitProgram dbg p = match (generalizing := false) namedType x [] with
      | some t => .ok ⟨x, [], a ++ .mk n.identifierName.node t :: b, c⟩
      | none => .panic := by
  rw [emitProgram_ev, evContract_T, hps, hfs]
  generalize p.contractDefinition.node.contractName.node = name at *
  obtain ⟨h1, h2, h3⟩ := plainName_push hx SrState.init
  simp only [SrState.init] at h3
  have ea := evFieldsT_read dbg pre
  rw [ha] at ea
  have eb := evFieldsT_read dbg post
  rw [hb] at eb
  have ec := evTranssT_read dbg (transitionsOf p.contractDefinition.node.components)
  rw [hc] at ec
  simp only at ea eb ec
  simp only [evIface, evInitT, evAgainT, M.pure, evFieldsT_append, M.bind, h3, setName, ea,
    SrState.init, leftovers, List.map_nil, List.nil_append, evFieldsT, evTyped_event_ident dbg hn x _ h1]
  cases namedType x [] with
  | none => rfl
  | some t =>
    simp only [popVar, addField, eb, ec, h2, Contract.empty]
    simp

/-- an `Event` field of a contract with parameters -/
theorem emit_event_field_err {p : NodeProgram} {pre post : List NodeTypedIdentifier}
    {n : NodeTypedIdentifier} {a b : List Field} {l : List Str}
    (hne : typedOf p.contractDefinition.node.parameters.node.parameters ≠ [])
    (hps : readAll (typedOf p.contractDefinition.node.parameters.node.parameters) = .ok (l, b))
    (hfs : fieldTypedOf p.contractDefinition.node.fields = pre ++ n :: post)
    (ha : readAll pre = .ok ([], a)) (hn : isEvent n = true) :
    ∃ e, emitProgram dbg p = .err e := by
  rw [emitProgram_ev, evContract_T, hfs]
  generalize p.contractDefinition.node.contractName.node = name at *
  obtain ⟨st, e1, e2, -⟩ := evIface_params dbg (name := name) (fs := pre ++ n :: post)
    (ts := transitionsOf p.contractDefinition.node.components) hps
  rw [e1]
  have ea := evFieldsT_read dbg pre
  rw [ha] at ea
  simp only at ea
  obtain ⟨s, e, he⟩ := evTyped_event_err dbg hn st ⟨name.display, b, [] ++ a, []⟩ (.inr (e2 hne))
  refine ⟨e, ?_⟩
  simp only [evFieldsT_append, M.bind, ea, leftovers, List.map_nil, List.nil_append, evFieldsT]
  simp only [List.nil_append] at he
  simp only [he]

/-- an `Event` contract parameter -/
theorem emit_event_init {p : NodeProgram} {x : Str} {pre post : List NodeTypedIdentifier}
    {n : NodeTypedIdentifier} {a b : List Field}
    (hx : plainName p.contractDefinition.node.contractName.node = some x)
    (hps : typedOf p.contractDefinition.node.parameters.node.parameters = pre ++ n :: post)
    (ha : readAll pre = .ok ([], a)) (hn : isEvent n = true) (hb : readAll post = .ok ([], b)) :
    match (generalizing := false) namedType x [] with
      | some _ => ∃ e, emitProgram dbg p = .err e
      | none => emitProgram dbg p = .panic := by
  rw [emitProgram_ev, evContract_T, hps]
  generalize p.contractDefinition.node.contractName.node = name at *
  obtain ⟨h1, h2, h3⟩ := plainName_push hx SrState.init
  simp only [SrState.init] at h3
  have ea := evInitT_read dbg pre
  rw [ha] at ea
  have eb := evInitT_read dbg post
  rw [hb] at eb
  simp only at ea eb
  simp only [evIface, evInitT_append, evAgainT_append, evInitT, evAgainT, M.bind, h3, setName, ea,
    SrState.init, leftovers, List.map_nil, List.nil_append, evTyped_event_ident dbg hn x _ h1]
  cases namedType x [] with
  | none => rfl
  | some t =>
    simp only [popVar, eb, leftovers, List.map_nil, List.nil_append]
    generalize ({ name := name.display, initParams := _, fields := _, transitions := _ } : Contract) = c0
    obtain ⟨st, e1, e2⟩ := evAgainT_read dbg pre [] a ha ⟨[], c0⟩
    simp only [e1]
    have hst : st = [] ∨ ∃ f st', st = .varDecl f :: st' := by
      by_cases hp : pre = []
      · subst hp
        rw [evAgainT, M.pure] at e1
        simp only [Prod.mk.injEq, SrState.mk.injEq, and_true] at e1
        exact .inl e1.symm
      · exact .inr (e2 hp)
    obtain ⟨s, e, he⟩ := evTyped_event_err dbg hn st c0 hst
    exact ⟨e, by simp only [he]⟩

/-- an `Event` transition parameter -/
theorem emit_event_param {p : NodeProgram} {before after : List NodeTransitionDefinition}
    {t : NodeTransitionDefinition} {pre post : List NodeTypedIdentifier} {n : NodeTypedIdentifier}
    {a : List Field}
    (ht : transitionsOf p.contractDefinition.node.components = before ++ t :: after)
    (hps : typedOf t.parameters.node.parameters = pre ++ n :: post)
    (ha : readAll pre = .ok ([], a)) (hn : isEvent n = true) (c : Contract) :
    emitProgram dbg p ≠ .ok c := by
  intro h
  rw [emitProgram_ev, evContract_T, ht] at h
  generalize typedOf p.contractDefinition.node.parameters.node.parameters = ps at *
  generalize fieldTypedOf p.contractDefinition.node.fields = fs at *
  generalize p.contractDefinition.node.contractName.node = name at *
  cases hr : evIface dbg name ps fs (before ++ t :: after) SrState.init with
  | mk sf r =>
    rw [hr] at h
    cases r with
    | err e => simp at h
    | panic => simp at h
    | ok u =>
      rw [evIface] at hr
      obtain ⟨s1, u1, h1, k1⟩ := bind_ok hr
      obtain ⟨s2, u2, h2, k2⟩ := bind_ok k1
      obtain ⟨s3, u3, h3, k3⟩ := bind_ok k2
      obtain ⟨s4, u4, h4, k4⟩ := bind_ok k3
      obtain ⟨s5, u5, h5, k5⟩ := bind_ok k4
      have t1 := Tame.typeName name SrState.init
      rw [h1] at t1
      simp only [setName, Prod.mk.injEq] at h2
      obtain ⟨rfl, _⟩ := h2
      obtain ⟨as, hA, hca, hsa⟩ := evInitT_ok dbg _ _ _ _ h3
      have t4 := evAgainT_ok dbg ps s3
      rw [h4] at t4
      obtain ⟨bs, hb, hcb, hsb⟩ := evFieldsT_ok dbg _ _ _ _ h5
      have hnil : comps s5.stack = [] := by
        have := ((hsb.trans t4.2).trans hsa).trans t1.2
        exact List.suffix_nil.mp this
      rw [evTranssT_append] at k5
      obtain ⟨s6, u6, h6, k6⟩ := bind_ok k5
      have hnil6 : comps s6.stack = [] := evTranssT_comps before _ _ _ hnil h6
      rw [evTranssT] at k6
      obtain ⟨s7, u7, h7, _⟩ := bind_ok k6
      rw [evTransT] at h7
      obtain ⟨s8, u8, h8, k8⟩ := bind_ok h7
      simp only [SrState.pushObj, Prod.mk.injEq] at h8
      obtain ⟨rfl, _⟩ := h8
      obtain ⟨s9, xs, h9, k9⟩ := bind_ok k8
      obtain ⟨s10, x, h10, k10⟩ := bind_ok k9
      obtain ⟨hst, _⟩ := popIdent_ok dbg h10
      rw [hps, evParamsT_append] at h9
      have ea := evParamsT_read dbg pre
      rw [ha] at ea
      simp only at ea
      rw [M.bind, ea] at h9
      simp only [leftovers, List.map_nil, List.nil_append] at h9
      obtain ⟨s11, ys, h11, k11⟩ := bind_ok h9
      rw [evParamsT] at h11
      obtain ⟨s12, u12, h12, k12⟩ := bind_ok h11
      obtain ⟨s13, y, h13, k13⟩ := bind_ok k12
      obtain ⟨s14, ys', h14, k14⟩ := bind_ok k13
      simp only [M.pure, Prod.mk.injEq] at k14 k11
      obtain ⟨rfl, _⟩ := k14
      obtain ⟨rfl, _⟩ := k11
      obtain ⟨_, _, c14⟩ := evParamsT_ok dbg _ _ _ _ h14
      have c12 : comps s12.stack = [] := by
        rw [evTyped_event dbg hn] at h12
        simp only [identToType, M.bind, popIdent, SrState.pushObj, popType, intoType] at h12
        cases ho : (SrType.ofName (componentName t.name.node)).toTy with
        | none => rw [ho] at h12; simp at h12
        | some ty =>
          rw [ho] at h12
          simp only [Prod.mk.injEq] at h12
          rw [← h12.1]
          exact hnil6
      have c13 : comps s13.stack <:+ comps s12.stack := by
        have := Tame.popVar dbg s12
        rw [h13] at this
        exact this.2
      have c9 : comps s14.stack = [] := by
        rw [c12] at c13
        rw [List.suffix_nil.mp c13] at c14
        exact List.suffix_nil.mp c14
      obtain ⟨z, k⟩ := x
      split at k10
      · rename_i hk
        simp only at hk
        subst hk
        rw [hst] at c9
        simp [comps] at c9
      · simp [M.panic] at k10
where
  evTranssT_comps : ∀ (ts : List NodeTransitionDefinition) (s s2 : SrState) (u : Unit),
      comps s.stack = [] → evTranssT dbg ts s = (s2, .ok u) → comps s2.stack = []
    | [], s, s2, u, hs, h => by
      simp only [evTranssT, M.pure, Prod.mk.injEq] at h
      rw [← h.1]; exact hs
    | t :: ts, s, s2, u, hs, h => by
      rw [evTranssT] at h
      obtain ⟨s1, x, h1, h2⟩ := bind_ok h
      obtain ⟨fs, hf, hc, hs1⟩ := evTransT_ok dbg hs h1
      exact evTranssT_comps ts _ _ _ hs1 h2

end Verif
