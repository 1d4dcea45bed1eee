import Verif.Spec.Walk
/-
All `visit` methods follow one scheme.
-/
namespace Verif

variable {σ : Type} (E : Emitter σ)

/-- how the visit of the children of a node ends -/
inductive KidsEnd where
  | exit | done | skip

/-- visit a child with its position -/
def walkChild (pos : Option (Pos × Pos)) (m : M σ TR) : M σ TR :=
  match pos with
  | some (s, e) => withPos E s e m
  | none => m

/-- the children one after the other; `V` visits a child -/
def walkKids (only : Option Str) (V : AnyNode → M σ TR) : List Kid → M σ KidsEnd
  | [] => M.pure .exit
  | .push s e :: ks => fun st => walkKids only V ks (E.push s e st)
  | .panic :: _ => M.panic
  | .child how pos n :: ks => fun st =>
    match walkChild E pos (V n) st with
    | (s1, .ok .continue_) => walkKids only V ks s1
    | (s1, .ok .skip) =>
      match how with
      | .go => walkKids only V ks s1
      | .stop => (s1, .ok .done)
      | .cut => (s1, .ok .exit)
      | .ret => (s1, .ok .skip)
    | (s1, .err e) =>
      if only = none ∨ only = some e then (s1, .err e) else walkKids only V ks s1
    | (s1, .panic) => (s1, .panic)

/-- a node: Enter, the children, Exit -/
def walkNode (V : AnyNode → M σ TR) (n : AnyNode) : M σ TR := fun s =>
  match E.emit .enter n s with
  | (s1, .ok .continue_) =>
    match walkKids E n.onlyError V (kids n) s1 with
    | (s2, .ok .exit) => E.emit .exit n s2
    | (s2, .ok .done) => (s2, .ok .continue_)
    | (s2, .ok .skip) => (s2, .ok .skip)
    | (s2, .err e) => (s2, .err e)
    | (s2, .panic) => (s2, .panic)
  | (s1, .ok .skip) => if n.isAddress then E.emit .exit n s1 else (s1, .ok .continue_)
  | (s1, .err e) => if n.isAddress then E.emit .exit n s1 else (s1, .err e)
  | (s1, .panic) => (s1, .panic)

/-! ### Relating the combinators -/

/-- the result of a children computation, as the end of the children -/
def asEnd (m : M σ TR) : M σ KidsEnd := m.bind fun
  | .continue_ => M.pure .exit
  | .skip => M.pure .done

def asEndF (m : M σ Flow) : M σ KidsEnd := m.bind fun
  | .fall .continue_ => M.pure .exit
  | .fall .skip => M.pure .done
  | .ret .continue_ => M.pure .done
  | .ret .skip => M.pure .skip

theorem visitNode_walk {V : AnyNode → M σ TR} {n : AnyNode} {m : M σ TR} (ha : n.isAddress = false)
    (h : asEnd m = walkKids E n.onlyError V (kids n)) : visitNode E n m = walkNode E V n := by
  funext s
  simp only [visitNode, walkNode, ← h, asEnd, M.bind, ha]
  rcases E.emit .enter n s with ⟨s1, (a | e | _)⟩
  · cases a with
    | continue_ =>
      simp only
      rcases m s1 with ⟨s2, (b | e | _)⟩
      · cases b <;> rfl
      · rfl
      · rfl
    | skip => rfl
  · rfl
  · rfl

theorem visitNodeRet_walk {V : AnyNode → M σ TR} {n : AnyNode} {m : M σ Flow} (ha : n.isAddress = false)
    (h : asEndF m = walkKids E n.onlyError V (kids n)) : visitNodeRet E n m = walkNode E V n := by
  funext s
  simp only [visitNodeRet, walkNode, ← h, asEndF, M.bind, ha]
  rcases E.emit .enter n s with ⟨s1, (a | e | _)⟩
  · cases a with
    | continue_ =>
      simp only
      rcases m s1 with ⟨s2, (b | e | _)⟩
      · rcases b with b | b <;> cases b <;> rfl
      · rfl
      · rfl
    | skip => rfl
  · rfl
  · rfl

theorem asEnd_cont : asEnd (M.cont : M σ TR) = M.pure .exit := rfl

/-- last child -/
theorem asEnd_last {V : AnyNode → M σ TR} (c : M σ TR) (pos : Option (Pos × Pos)) (n : AnyNode)
    (hc : c = walkChild E pos (V n)) : asEnd c = walkKids E none V [.child .stop pos n] := by
  subst hc
  funext s
  simp only [asEnd, walkKids, M.bind]
  rcases walkChild E pos (V n) s with ⟨s1, (a | e | _)⟩
  · cases a <;> rfl
  · simp
  · rfl

/-- a child whose result does not matter -/
theorem asEnd_go {V : AnyNode → M σ TR} {c : M σ TR} {pos : Option (Pos × Pos)} {n : AnyNode}
    {m : M σ TR} {ks : List Kid} (hc : c = walkChild E pos (V n)) (h : asEnd m = walkKids E none V ks) :
    asEnd (c.andThen m) = walkKids E none V (.child .go pos n :: ks) := by
  subst hc
  funext s
  simp only [walkKids, ← h, asEnd, M.bind, M.andThen]
  rcases walkChild E pos (V n) s with ⟨s1, (a | e | _)⟩
  · cases a <;> rfl
  · simp
  · rfl


/-- a child whose `SkipChildren` is passed on -/
theorem asEnd_bindStop {V : AnyNode → M σ TR} {c : M σ TR} {pos : Option (Pos × Pos)} {n : AnyNode}
    {m : M σ TR} {ks : List Kid} (hc : c = walkChild E pos (V n)) (h : asEnd m = walkKids E none V ks) :
    asEnd (c.bind fun | .continue_ => m | .skip => M.pure .skip) =
      walkKids E none V (.child .stop pos n :: ks) := by
  subst hc
  funext s
  simp only [walkKids, ← h, asEnd, M.bind]
  rcases walkChild E pos (V n) s with ⟨s1, (a | e | _)⟩
  · cases a <;> rfl
  · simp
  · rfl

/-- a child whose `SkipChildren` cuts the rest -/
theorem asEnd_bindCut {V : AnyNode → M σ TR} {c : M σ TR} {pos : Option (Pos × Pos)} {n : AnyNode}
    {m : M σ TR} {ks : List Kid} (hc : c = walkChild E pos (V n)) (h : asEnd m = walkKids E none V ks) :
    asEnd (c.bind fun | .continue_ => m | .skip => M.cont) =
      walkKids E none V (.child .cut pos n :: ks) := by
  subst hc
  funext s
  simp only [walkKids, ← h, asEnd, M.bind]
  rcases walkChild E pos (V n) s with ⟨s1, (a | e | _)⟩
  · cases a <;> rfl
  · simp
  · rfl

/-- an extra push -/
theorem asEnd_push {V : AnyNode → M σ TR} {a b : Pos} {m : M σ TR} {ks : List Kid}
    (h : asEnd m = walkKids E none V ks) :
    asEnd (fun s => m (E.push a b s)) = walkKids E none V (.push a b :: ks) := by
  funext s
  simp only [walkKids, ← h, asEnd, M.bind]

theorem asEnd_panic {V : AnyNode → M σ TR} : asEnd (M.panic : M σ TR) = walkKids E none V [.panic] := rfl

theorem asEnd_nil {V : AnyNode → M σ TR} : asEnd (M.cont : M σ TR) = walkKids E none V [] := rfl

theorem asEndF_fall (m : M σ TR) : asEndF m.fall = asEnd m := by
  funext s
  simp only [asEndF, M.fall, asEnd, M.bind]
  rcases m s with ⟨s1, (a | e | _)⟩
  · cases a <;> rfl
  · rfl
  · rfl

theorem asEndF_ret {V : AnyNode → M σ TR} {c : M σ TR} {pos : Option (Pos × Pos)} {n : AnyNode}
    {m : M σ Flow} {ks : List Kid} (hc : c = walkChild E pos (V n)) (h : asEndF m = walkKids E none V ks) :
    asEndF (c.orReturn m) = walkKids E none V (.child .ret pos n :: ks) := by
  subst hc
  funext s
  simp only [walkKids, ← h, asEndF, M.bind, M.orReturn]
  rcases walkChild E pos (V n) s with ⟨s1, (a | e | _)⟩
  · cases a <;> rfl
  · simp
  · rfl

/-- the visit of a child with metadata -/
def IsKid {α : Type} (V : AnyNode → M σ TR) (mk : α → AnyNode) (f : W α → M σ TR) : Prop :=
  ∀ w, f w = walkChild E (some (w.start, w.stop)) (V (mk w.node))

variable {α : Type} {V : AnyNode → M σ TR} {mk : α → AnyNode} {f : W α → M σ TR}

theorem asEnd_goList (hf : IsKid E V mk f) (l : List (W α)) {m : M σ TR} {ks : List Kid}
    (h : asEnd m = walkKids E none V ks) :
    asEnd ((visitList f l).andThen m) = walkKids E none V (kidsL .go mk l ++ ks) := by
  induction l with
  | nil => exact h
  | cons w l ih =>
    have : asEnd ((f w).andThen ((visitList f l).andThen m)) = _ := asEnd_go E (hf w) ih
    rw [show kidsL .go mk (w :: l) ++ ks = .child .go (some (w.start, w.stop)) (mk w.node) ::
      (kidsL .go mk l ++ ks) from rfl, ← this]
    congr 1
    funext s
    simp only [visitList, M.andThen, M.bind]
    rcases f w s with ⟨s1, (a | e | _)⟩ <;> rfl

theorem asEnd_list (hf : IsKid E V mk f) (l : List (W α)) :
    asEnd (visitList f l) = walkKids E none V (kidsL .go mk l) := by
  induction l with
  | nil => rfl
  | cons w l ih => exact asEnd_go E (hf w) ih

theorem asEnd_goOpt (hf : IsKid E V mk f) (o : Option (W α)) {m : M σ TR} {ks : List Kid}
    (h : asEnd m = walkKids E none V ks) :
    asEnd ((visitOpt f o).andThen m) = walkKids E none V (kidsO .go mk o ++ ks) := by
  cases o with
  | none => exact h
  | some w => exact asEnd_go E (hf w) h

theorem asEnd_opt (hf : IsKid E V mk f) (o : Option (W α)) :
    asEnd (visitOpt f o) = walkKids E none V (kidsO .stop mk o) := by
  cases o with
  | none => rfl
  | some w => exact asEnd_last E _ _ _ (hf w)

theorem asEndF_retOpt (hf : IsKid E V mk f) (o : Option (W α)) {m : M σ Flow} {ks : List Kid}
    (h : asEndF m = walkKids E none V ks) :
    asEndF ((visitOpt f o).orReturn m) = walkKids E none V (kidsO .ret mk o ++ ks) := by
  cases o with
  | none => exact h
  | some w => exact asEndF_ret E (hf w) h

theorem asEndF_list (hf : IsKid E V mk f) (l : List (W α)) :
    asEndF (visitListRet f l) = walkKids E none V (kidsL .ret mk l) := by
  induction l with
  | nil => rfl
  | cons w l ih => exact asEndF_ret E (hf w) ih

theorem asEnd_until (hf : IsKid E V mk f) (l : List (W α)) (stop : Str) :
    asEnd (visitListUntil stop f l) = walkKids E (some stop) V (kidsL .go mk l) := by
  induction l with
  | nil => rfl
  | cons w l ih =>
    funext s
    have ih' := fun s => congrFun ih s
    simp only [asEnd, M.bind] at ih'
    simp only [asEnd, M.bind, visitListUntil, kidsL, List.map_cons, kid, walkKids]
    rw [← hf w]
    rcases f w s with ⟨s1, (a | e | _)⟩
    · cases a <;> exact ih' s1
    · by_cases h : e = stop
      · simp [h]
      · have h' : stop ≠ e := fun x => h x.symm
        simp only [h, if_false, reduceCtorEq, Option.some.injEq, h', or_self]
        exact ih' s1
    · rfl

theorem visitAddr_walk {n : AnyNode} {m : M σ TR} (ha : n.isAddress = true)
    (h : asEnd m = walkKids E n.onlyError V (kids n)) (hm : ∀ s s1, m s ≠ (s1, .ok .skip)) :
    visitAddrNode E n m = walkNode E V n := by
  funext s
  simp only [visitAddrNode, walkNode, ← h, asEnd, M.bind, ha]
  rcases E.emit .enter n s with ⟨s1, (a | e | _)⟩
  · cases a with
    | continue_ =>
      simp only
      have := hm s1
      rcases hm' : m s1 with ⟨s2, (b | e | _)⟩
      · cases b
        · rfl
        · exact absurd hm' (this s2)
      · rfl
      · rfl
    | skip => rfl
  · rfl
  · rfl

/-! ### Every `visit` method -/

theorem visitTypeArgs_eq (l) : visitTypeArgs E l = visitList (visitTypeArgW E) l := by
  induction l with
  | nil => simp [visitTypeArgs, visitList]
  | cons w l ih => simp [visitTypeArgs, visitList, ih]

theorem visitAddrFields_eq (l) : visitAddrFields E l = visitList (visitAddrFieldW E) l := by
  induction l with
  | nil => simp [visitAddrFields, visitList]
  | cons w l ih => simp [visitAddrFields, visitList, ih]

theorem visitArgPatterns_eq (l) : visitArgPatterns E l = visitList (visitArgPatternW E) l := by
  induction l with
  | nil => simp [visitArgPatterns, visitList]
  | cons w l ih => simp [visitArgPatterns, visitList, ih]

theorem visitPmExprClauses_eq (l) : visitPmExprClauses E l = visitList (visitPmExprClauseW E) l := by
  induction l with
  | nil => simp [visitPmExprClauses, visitList]
  | cons w l ih => simp [visitPmExprClauses, visitList, ih]

theorem visitPmClauses_eq (l) : visitPmClauses E l = visitListRet (visitPmClauseW E) l := by
  induction l with
  | nil => simp [visitPmClauses, visitListRet]
  | cons w l ih => simp [visitPmClauses, visitListRet, ih]

theorem visitStmtBlockO_eq (o) : visitStmtBlockO E o = visitOpt (visitStmtBlockW E) o := by
  cases o <;> simp [visitStmtBlockO, visitOpt]

theorem isKid_typeNameId : IsKid E (visit E) .typeNameId (visitTypeNameIdW E) := fun _ => rfl
theorem isKid_importedName : IsKid E (visit E) .importedName (visitImportedNameW E) := fun _ => rfl
theorem isKid_importDecls : IsKid E (visit E) .importDecls (visitImportDeclsW E) := fun _ => rfl
theorem isKid_metaId : IsKid E (visit E) .metaId (visitMetaIdW E) := fun _ => rfl
theorem isKid_varId : IsKid E (visit E) .varId (visitVarIdW E) := fun _ => rfl
theorem isKid_builtinArgs : IsKid E (visit E) .builtinArgs (visitBuiltinArgsW E) := fun _ => rfl
theorem isKid_mapKey : IsKid E (visit E) .mapKey (visitMapKeyW E) := fun ⟨_, _, _⟩ => by
  rw [visitMapKeyW]; rfl
theorem isKid_mapValue : IsKid E (visit E) .mapValue (visitMapValueW E) := fun ⟨_, _, _⟩ => by
  rw [visitMapValueW]; rfl
theorem isKid_typeArg : IsKid E (visit E) .typeArg (visitTypeArgW E) := fun ⟨_, _, _⟩ => by
  rw [visitTypeArgW]; rfl
theorem isKid_scillaType : IsKid E (visit E) .scillaType (visitScillaTypeW E) := fun ⟨_, _, _⟩ => by
  rw [visitScillaTypeW]; rfl
theorem isKid_mapEntry : IsKid E (visit E) .mapEntry (visitMapEntryW E) := fun ⟨_, _, _⟩ => by
  rw [visitMapEntryW]; rfl
theorem isKid_addrField : IsKid E (visit E) .addrField (visitAddrFieldW E) := fun ⟨_, _, _⟩ => by
  rw [visitAddrFieldW]; rfl
theorem isKid_addrType : IsKid E (visit E) .addrType (visitAddrTypeW E) := fun ⟨_, _, _⟩ => by
  rw [visitAddrTypeW]; rfl
theorem isKid_mapValueArgs : IsKid E (visit E) .mapValueArgs (visitMapValueArgsW E) := fun ⟨_, _, _⟩ => by
  rw [visitMapValueArgsW]; rfl
theorem isKid_mapValueAllowing : IsKid E (visit E) .mapValueAllowing (visitMapValueAllowingW E) :=
  fun ⟨_, _, _⟩ => by rw [visitMapValueAllowingW]; rfl
theorem isKid_valueLit : IsKid E (visit E) .valueLit (visitValueLitW E) := fun _ => rfl
theorem isKid_messageEntry : IsKid E (visit E) .messageEntry (visitMessageEntryW E) := fun _ => rfl
theorem isKid_atomic : IsKid E (visit E) .atomic (visitAtomicW E) := fun _ => rfl
theorem isKid_mapAccess : IsKid E (visit E) .mapAccess (visitMapAccessW E) := fun _ => rfl
theorem isKid_pattern : IsKid E (visit E) .pattern (visitPatternW E) := fun ⟨_, _, _⟩ => by
  rw [visitPatternW]; rfl
theorem isKid_argPattern : IsKid E (visit E) .argPattern (visitArgPatternW E) := fun ⟨_, _, _⟩ => by
  rw [visitArgPatternW]; rfl
theorem isKid_fullExpr : IsKid E (visit E) .fullExpr (visitFullExprW E) := fun ⟨_, _, _⟩ => by
  rw [visitFullExprW]; rfl
theorem isKid_pmExprClause : IsKid E (visit E) .pmExprClause (visitPmExprClauseW E) := fun ⟨_, _, _⟩ => by
  rw [visitPmExprClauseW]; rfl
theorem isKid_pmClause : IsKid E (visit E) .pmClause (visitPmClauseW E) := fun ⟨_, _, _⟩ => by
  rw [visitPmClauseW]; rfl
theorem isKid_stmtBlock : IsKid E (visit E) .stmtBlock (visitStmtBlockW E) := fun ⟨_, _, _⟩ => by
  rw [visitStmtBlockW]; rfl
theorem isKid_componentId : IsKid E (visit E) .componentId (visitComponentIdW E) := fun _ => rfl
theorem isKid_typeAnn : IsKid E (visit E) .typeAnn (visitTypeAnnW E) := fun _ => rfl
theorem isKid_typedId : IsKid E (visit E) .typedId (visitTypedIdW E) := fun _ => rfl
theorem isKid_paramPair : IsKid E (visit E) .paramPair (visitParamPairW E) := fun _ => rfl
theorem isKid_compParams : IsKid E (visit E) .compParams (visitCompParamsW E) := fun _ => rfl
theorem isKid_compBody : IsKid E (visit E) .compBody (visitCompBodyW E) := fun _ => rfl
theorem isKid_typeAlt : IsKid E (visit E) .typeAlt (visitTypeAltW E) := fun _ => rfl
theorem isKid_librarySingle : IsKid E (visit E) .librarySingle (visitLibrarySingleW E) := fun _ => rfl
theorem isKid_libraryDef : IsKid E (visit E) .libraryDef (visitLibraryDefW E) := fun _ => rfl
theorem isKid_contractField : IsKid E (visit E) .contractField (visitContractFieldW E) := fun _ => rfl
theorem isKid_withConstraint : IsKid E (visit E) .withConstraint (visitWithConstraintW E) := fun _ => rfl
theorem isKid_procDef : IsKid E (visit E) .procDef (visitProcDefW E) := fun _ => rfl
theorem isKid_transDef : IsKid E (visit E) .transDef (visitTransDefW E) := fun _ => rfl
theorem isKid_compDef : IsKid E (visit E) .compDef (visitCompDefW E) := fun _ => rfl
theorem isKid_contractDef : IsKid E (visit E) .contractDef (visitContractDefW E) := fun _ => rfl

theorem asEnd_mapValueArgs (l) :
    asEnd (visitMapValueArgsList E l) = walkKids E none (visit E) (kidsL .stop .mapValueArgs l) := by
  induction l with
  | nil => rw [visitMapValueArgsList]; rfl
  | cons w l ih =>
    rw [visitMapValueArgsList]
    exact asEnd_bindStop E (isKid_mapValueArgs E w) ih

theorem asEnd_statements (l) :
    asEnd (visitStatements E l) =
      walkKids E none (visit E) (l.map fun s => .child .go none (.statement s)) := by
  induction l with
  | nil => rw [visitStatements]; rfl
  | cons w l ih =>
    rw [visitStatements]
    exact asEnd_go E rfl ih

macro "one" k:term : tactic => `(tactic| exact asEnd_last _ _ _ _ ($k _ _))

macro "leaf" : tactic => `(tactic| (
  refine Eq.trans (b := visitNode _ _ M.cont) rfl ?_
  refine visitNode_walk _ rfl ?_
  exact asEnd_nil _))

theorem visitList_ne_skip {α : Type} (f : α → M σ TR) (l : List α) (s s1 : σ) :
    visitList f l s ≠ (s1, .ok .skip) := by
  induction l generalizing s with
  | nil => simp [visitList, M.cont, M.pure]
  | cons w l ih =>
    simp only [visitList, M.andThen, M.bind]
    rcases f w s with ⟨s2, (a | e | _)⟩
    · exact ih s2
    · simp
    · simp

/-- Every `visit` method is Enter, children, Exit, with the children listed by `kids`. -/
theorem visit_eq (n : AnyNode) : visit E n = walkNode E (visit E) n := by
  cases n with
  | byteStr n => leaf
  | typeNameId n =>
    cases n with
    | byteStringType b => exact visitNode_walk E rfl (asEnd_last _ _ none _ rfl)
    | eventType => leaf
    | typeOrEnumLikeIdentifier x => leaf
  | importedName n =>
    cases n with
    | regularImport x => exact visitNode_walk E rfl (by one isKid_typeNameId)
    | aliasedImport x a =>
      exact visitNode_walk E rfl (asEnd_go E (isKid_typeNameId E x) (by one isKid_typeNameId))
  | importDecls n => exact visitNode_walk E rfl (asEnd_list E (isKid_importedName E) _)
  | metaId n =>
    cases n with
    | metaName x => exact visitNode_walk E rfl (by one isKid_typeNameId)
    | metaNameInNamespace x y =>
      exact visitNode_walk E rfl (asEnd_go E (isKid_typeNameId E x) (by one isKid_typeNameId))
    | metaNameInHexspace h x => exact visitNode_walk E rfl (by one isKid_typeNameId)
    | byteString => leaf
  | varId n =>
    cases n with
    | variableInNamespace x y => exact visitNode_walk E rfl (by one isKid_typeNameId)
    | variableName _ => leaf
    | specialIdentifier _ => leaf
  | builtinArgs n => exact visitNode_walk E rfl (asEnd_until E (isKid_varId E) _ _)
  | mapKey n =>
    cases n with
    | genericMapKey m => rw [visit, visitMapKey]; exact visitNode_walk E rfl (by one isKid_metaId)
    | enclosedGenericId m => rw [visit, visitMapKey]; exact visitNode_walk E rfl (by one isKid_metaId)
    | enclosedAddressMapKeyType a =>
      rw [visit, visitMapKey]; exact visitNode_walk E rfl (by one isKid_addrType)
    | addressMapKeyType a =>
      rw [visit, visitMapKey]; exact visitNode_walk E rfl (by one isKid_addrType)
  | mapValue n =>
    cases n with
    | mapValueTypeOrEnumLikeIdentifier m =>
      rw [visit, visitMapValue]; exact visitNode_walk E rfl (by one isKid_metaId)
    | mapKeyValue e => rw [visit, visitMapValue]; exact visitNode_walk E rfl (by one isKid_mapEntry)
    | mapValueParenthesizedType t =>
      rw [visit, visitMapValue]; exact visitNode_walk E rfl (by one isKid_mapValueAllowing)
    | mapValueAddressType a =>
      rw [visit, visitMapValue]; exact visitNode_walk E rfl (by one isKid_addrType)
  | typeArg n =>
    cases n with
    | enclosedTypeArgument t =>
      rw [visit, visitTypeArg]; exact visitNode_walk E rfl (by one isKid_scillaType)
    | genericTypeArgument m =>
      rw [visit, visitTypeArg]; exact visitNode_walk E rfl (by one isKid_metaId)
    | templateTypeArgument x => rw [visit, visitTypeArg]; leaf
    | addressTypeArgument a =>
      rw [visit, visitTypeArg]; exact visitNode_walk E rfl (by one isKid_addrType)
    | mapTypeArgument k v =>
      rw [visit, visitTypeArg]
      exact visitNode_walk E rfl (asEnd_bindCut E (isKid_mapKey E k) (by one isKid_mapValue))
  | scillaType n =>
    cases n with
    | genericTypeWithArgs m args =>
      rw [visit, visitScillaType, visitTypeArgs_eq]
      exact visitNode_walk E rfl (asEnd_go E (isKid_metaId E m) (asEnd_list E (isKid_typeArg E) _))
    | mapType k v =>
      rw [visit, visitScillaType]
      exact visitNode_walk E rfl (asEnd_go E (isKid_mapKey E k) (by one isKid_mapValue))
    | functionType a b =>
      rw [visit, visitScillaType]
      exact visitNode_walk E rfl (asEnd_go E (isKid_scillaType E a) (by one isKid_scillaType))
    | polyFunctionType x t =>
      rw [visit, visitScillaType]; exact visitNode_walk E rfl (by one isKid_scillaType)
    | enclosedType t =>
      rw [visit, visitScillaType]; exact visitNode_walk E rfl (by one isKid_scillaType)
    | scillaAddresseType a =>
      rw [visit, visitScillaType]; exact visitNode_walk E rfl (by one isKid_addrType)
    | typeVarType x => rw [visit, visitScillaType]; leaf
  | mapEntry n =>
    rcases n with ⟨k, v⟩
    rw [visit, visitMapEntry]
    exact visitNode_walk E rfl (asEnd_go E (isKid_mapKey E k) (by one isKid_mapValue))
  | addrField n =>
    rcases n with ⟨i, t⟩
    rw [visit, visitAddrField]
    exact visitNode_walk E rfl (asEnd_go E (isKid_varId E i) (by one isKid_scillaType))
  | addrType n =>
    rcases n with ⟨i, x, fs⟩
    rw [visit, visitAddrType, visitAddrFields_eq]
    refine visitAddr_walk E rfl (asEnd_go E (isKid_typeNameId E i) (asEnd_list E (isKid_addrField E) _)) ?_
    intro s s1
    simp only [M.andThen, M.bind]
    rcases visitTypeNameIdW E i s with ⟨s2, (a | e | _)⟩
    · exact visitList_ne_skip _ _ _ _
    · simp
    · simp
  | fullExpr n =>
    cases n with
    | localVariableDeclaration x e ta b =>
      rw [visit, visitFullExpr]
      exact visitNode_walk E rfl (asEnd_go E (isKid_fullExpr E e) (by one isKid_fullExpr))
    | functionDeclaration x ta e =>
      rw [visit, visitFullExpr]; exact visitNode_walk E rfl (by one isKid_fullExpr)
    | functionCall f args =>
      rw [visit, visitFullExpr]
      exact visitNode_walk E rfl (asEnd_go E (isKid_varId E f) (asEnd_list E (isKid_varId E) _))
    | expressionAtomic a =>
      rw [visit, visitFullExpr]; exact visitNode_walk E rfl (by one isKid_atomic)
    | expressionBuiltin b t xs =>
      rw [visit, visitFullExpr]; exact visitNode_walk E rfl (by one isKid_builtinArgs)
    | message es =>
      rw [visit, visitFullExpr]
      exact visitNode_walk E rfl (asEnd_list E (isKid_messageEntry E) _)
    | match_ x cs =>
      rw [visit, visitFullExpr, visitPmExprClauses_eq]
      exact visitNode_walk E rfl (asEnd_go E (isKid_varId E x) (asEnd_list E (isKid_pmExprClause E) _))
    | constructorCall m ta args =>
      rw [visit, visitFullExpr]
      exact visitNode_walk E rfl (asEnd_go E (isKid_metaId E m) (asEnd_list E (isKid_varId E) _))
    | templateFunction x e =>
      rw [visit, visitFullExpr]; exact visitNode_walk E rfl (by one isKid_fullExpr)
    | tApp x ta =>
      rw [visit, visitFullExpr]
      exact visitNode_walk E rfl (asEnd_go E (isKid_varId E x) (asEnd_list E (isKid_typeArg E) _))
  | messageEntry n =>
    cases n with
    | messageLiteral i v =>
      exact visitNode_walk E rfl (asEnd_go E (isKid_varId E i) (by one isKid_valueLit))
    | messageVariable i v =>
      exact visitNode_walk E rfl
        (asEnd_go E (isKid_varId E i) (asEnd_push E (by one isKid_varId)))
  | pmExprClause n =>
    rcases n with ⟨p, e⟩
    rw [visit, visitPmExprClause]
    exact visitNode_walk E rfl (asEnd_bindStop E (isKid_pattern E p) (by one isKid_fullExpr))
  | atomic n =>
    cases n with
    | atomicSid v => exact visitNode_walk E rfl (by one isKid_varId)
    | atomicLit l => exact visitNode_walk E rfl (by one isKid_valueLit)
  | contractTypeArgs n => exact visitNode_walk E rfl (asEnd_until E (isKid_typeArg E) _ _)
  | valueLit n =>
    cases n with
    | literalInt t v => exact visitNode_walk E rfl (by one isKid_typeNameId)
    | literalHex _ => leaf
    | literalString _ => leaf
    | literalEmptyMap k v =>
      exact visitNode_walk E rfl
        (asEnd_go E (isKid_mapKey E k) (asEnd_push E (by one isKid_mapValue)))
  | mapAccess n => exact visitNode_walk E rfl (by one isKid_varId)
  | pattern n =>
    cases n with
    | wildcard => rw [visit, visitPattern]; leaf
    | binder x => rw [visit, visitPattern]; leaf
    | constructor m args =>
      rw [visit, visitPattern, visitArgPatterns_eq]
      exact visitNode_walk E rfl (asEnd_go E (isKid_metaId E m) (asEnd_list E (isKid_argPattern E) _))
  | argPattern n =>
    cases n with
    | wildcardArgument => rw [visit, visitArgPattern]; leaf
    | binderArgument x => rw [visit, visitArgPattern]; leaf
    | constructorArgument m =>
      rw [visit, visitArgPattern]; exact visitNode_walk E rfl (by one isKid_metaId)
    | patternArgument p =>
      rw [visit, visitArgPattern]; exact visitNode_walk E rfl (by one isKid_pattern)
  | pmClause n =>
    rcases n with ⟨p, b⟩
    rw [visit, visitPmClause, visitStmtBlockO_eq]
    exact visitNode_walk E rfl
      (asEnd_push E (asEnd_go E (isKid_pattern E p) (asEnd_opt E (isKid_stmtBlock E) b)))
  | bcFetchArgs n => exact visitNode_walk E rfl (asEnd_list E (isKid_varId E) _)
  | statement n =>
    cases n with
    | load x v =>
      rw [visit, visitStatement]
      exact visitNodeRet_walk E rfl (by rw [asEndF_fall]; one isKid_varId)
    | store x v =>
      rw [visit, visitStatement]
      exact visitNodeRet_walk E rfl (by rw [asEndF_fall]; one isKid_varId)
    | remoteFetch r =>
      rw [visit, visitStatement]
      exact visitNodeRet_walk E rfl (by rw [asEndF_fall]; exact asEnd_last _ _ none _ rfl)
    | bind x e =>
      rw [visit, visitStatement]
      exact visitNodeRet_walk E rfl (by rw [asEndF_fall]; one isKid_fullExpr)
    | readFromBC x t args =>
      rw [visit, visitStatement]
      refine visitNodeRet_walk E rfl ?_
      rw [asEndF_fall]
      cases args with
      | none => rfl
      | some a => exact asEnd_last _ _ none _ rfl
    | mapGet x ks y =>
      rw [visit, visitStatement]; exact visitNodeRet_walk E rfl (asEndF_list E (isKid_mapAccess E) _)
    | mapUpdate x ks y =>
      rw [visit, visitStatement]; exact visitNodeRet_walk E rfl (asEndF_list E (isKid_mapAccess E) _)
    | mapGetExists x ks y =>
      rw [visit, visitStatement]; exact visitNodeRet_walk E rfl (asEndF_list E (isKid_mapAccess E) _)
    | mapUpdateDelete x ks =>
      rw [visit, visitStatement]; exact visitNodeRet_walk E rfl (asEndF_list E (isKid_mapAccess E) _)
    | send v =>
      rw [visit, visitStatement]
      exact visitNodeRet_walk E rfl (by rw [asEndF_fall]; one isKid_varId)
    | createEvnt v =>
      rw [visit, visitStatement]
      exact visitNodeRet_walk E rfl (by rw [asEndF_fall]; one isKid_varId)
    | throw v =>
      rw [visit, visitStatement]
      exact visitNodeRet_walk E rfl (by rw [asEndF_fall]; exact asEnd_opt E (isKid_varId E) v)
    | matchStmt x cs =>
      rw [visit, visitStatement, visitPmClauses_eq]
      exact visitNodeRet_walk E rfl (asEndF_ret E (isKid_varId E x) (asEndF_list E (isKid_pmClause E) _))
    | callProc c args =>
      rw [visit, visitStatement]
      exact visitNodeRet_walk E rfl
        (asEndF_ret E (isKid_componentId E c) (asEndF_list E (isKid_varId E) _))
    | iterate x c =>
      rw [visit, visitStatement]
      exact visitNodeRet_walk E rfl
        (asEndF_ret E (isKid_varId E x) (by rw [asEndF_fall]; one isKid_componentId))
    | accept =>
      rw [visit, visitStatement]
      exact visitNodeRet_walk E rfl (by rw [asEndF_fall]; exact asEnd_nil E)
  | remoteFetch n =>
    cases n with
    | readStateMutable a b v => exact visitNode_walk E rfl (by one isKid_varId)
    | readStateMutableSpecialId a b c => leaf
    | readStateMutableMapAccess a b c ks => exact visitNode_walk E rfl (asEnd_list E (isKid_mapAccess E) _)
    | readStateMutableMapAccessExists a b c ks =>
      exact visitNode_walk E rfl (asEnd_list E (isKid_mapAccess E) _)
    | readStateMutableCastAddress a v t =>
      exact visitNode_walk E rfl (asEnd_go E (isKid_varId E v) (by one isKid_addrType))
  | componentId n =>
    cases n with
    | withTypeLikeName t => exact visitNode_walk E rfl (by one isKid_typeNameId)
    | withRegularId _ => leaf
  | compParams n => exact visitNode_walk E rfl (asEnd_list E (isKid_paramPair E) _)
  | paramPair n => exact visitNode_walk E rfl (by one isKid_typedId)
  | compBody n => exact visitNode_walk E rfl (asEnd_opt E (isKid_stmtBlock E) _)
  | stmtBlock n =>
    rcases n with ⟨sts⟩
    rw [visit, visitStmtBlock]
    exact visitNode_walk E rfl (asEnd_statements E sts)
  | typedId n => exact visitNode_walk E rfl (by one isKid_typeAnn)
  | typeAnn n => exact visitNode_walk E rfl (by one isKid_scillaType)
  | program n =>
    refine visitNodeRet_walk E rfl ?_
    rw [show kids (.program n) = kidsO .ret .importDecls n.importDeclarations ++
      (kidsO .ret .libraryDef n.libraryDefinition ++
        [kid .stop .contractDef n.contractDefinition]) by simp [kids]]
    refine asEndF_retOpt E (isKid_importDecls E) _ (asEndF_retOpt E (isKid_libraryDef E) _ ?_)
    rw [asEndF_fall]
    one isKid_contractDef
  | libraryDef n => exact visitNode_walk E rfl (asEnd_list E (isKid_librarySingle E) _)
  | librarySingle n =>
    cases n with
    | letDefinition x t e =>
      exact visitNode_walk E rfl (asEnd_go E (isKid_fullExpr E e) (asEnd_panic E))
    | typeDefinition t cs =>
      refine visitNode_walk E rfl (asEnd_go E (isKid_typeNameId E t) ?_)
      cases cs with
      | none => rfl
      | some cs => exact asEnd_list E (isKid_typeAlt E) _
  | contractDef n =>
    refine visitNode_walk E rfl ?_
    rw [show kids (.contractDef n) = kid .go .compParams n.parameters ::
      (kidsO .go .withConstraint n.constraint ++
        (kidsL .go .contractField n.fields ++ kidsL .go .compDef n.components)) by simp [kids]]
    exact asEnd_go E (isKid_compParams E _) (asEnd_goOpt E (isKid_withConstraint E) _
      (asEnd_goList E (isKid_contractField E) _ (asEnd_list E (isKid_compDef E) _)))
  | contractField n =>
    exact visitNode_walk E rfl (asEnd_go E (isKid_typedId E _) (by one isKid_fullExpr))
  | withConstraint n => exact visitNode_walk E rfl (by one isKid_fullExpr)
  | compDef n =>
    cases n with
    | transitionComponent d => exact visitNode_walk E rfl (by one isKid_transDef)
    | procedureComponent d => exact visitNode_walk E rfl (by one isKid_procDef)
  | procDef n =>
    exact visitNode_walk E rfl (asEnd_go E (isKid_componentId E _)
      (asEnd_go E (isKid_compParams E _) (by one isKid_compBody)))
  | transDef n =>
    exact visitNode_walk E rfl (asEnd_go E (isKid_componentId E _)
      (asEnd_go E (isKid_compParams E _) (by one isKid_compBody)))
  | typeAlt n =>
    cases n with
    | clauseType t => exact visitNode_walk E rfl (by one isKid_typeNameId)
    | clauseTypeWithArgs t args =>
      exact visitNode_walk E rfl (asEnd_go E (isKid_typeNameId E t) (asEnd_list E (isKid_typeArg E) _))
  | mapValueArgs n =>
    cases n with
    | enclosedTypeMapValue t =>
      rw [visit, visitMapValueArgs]; exact visitNode_walk E rfl (by one isKid_mapValueAllowing)
    | genericMapValueArgument m =>
      rw [visit, visitMapValueArgs]; exact visitNode_walk E rfl (by one isKid_metaId)
    | mapKeyValueType k v =>
      rw [visit, visitMapValueArgs]
      exact visitNode_walk E rfl (asEnd_go E (isKid_mapKey E k) (by one isKid_mapValue))
  | mapValueAllowing n =>
    cases n with
    | typeMapValueNoArgs v =>
      rw [visit, visitMapValueAllowing]; exact visitNode_walk E rfl (by one isKid_mapValue)
    | typeMapValueWithArgs m args =>
      rw [visit, visitMapValueAllowing]
      exact visitNode_walk E rfl (asEnd_bindStop E (isKid_metaId E m) (asEnd_mapValueArgs E args))

end Verif
