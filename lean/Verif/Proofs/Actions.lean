import Verif.Spec.Builds
import Verif.Spec.NodeValues
import Verif.Proofs.GrammarFile
/-
What each action of the grammar file computes (written by tools/action_proofs.py).
-/
namespace Verif

set_option linter.unusedSimpArgs false
set_option linter.unusedVariables false

/-- the arguments of an action -/
abbrev actArgs (ps : List Piece) : List (Span × RV) := ps.map fun p => (spanOf p.1, p.2)

theorem spanOf_startOf (w : List STok) : (spanOf w).map (·.1) = if w = [] then none else some (startOf w) := by
  cases w <;> rfl

theorem firstStart_spans (ws : List (List STok)) :
    (firstStart (ws.map spanOf)).getD default = startOf ws.flatten := by
  induction ws with
  | nil => rfl
  | cons w ws ih => cases w with
    | nil => exact ih
    | cons t w => rfl

theorem stopFrom_flatten (p : Pos) (ws : List (List STok)) :
    stopFrom p ws.flatten = (lastEnd (ws.map spanOf)).getD p := by
  induction ws generalizing p with
  | nil => rfl
  | cons w ws ih =>
    rw [List.flatten_cons, stopFrom_append, ih, List.map_cons, lastEnd]
    cases lastEnd (ws.map spanOf) with
    | some q => rfl
    | none => cases w <;> rfl

/-- `@L` at the beginning -/
theorem markPos_L (ws : List (List STok)) : markPos (ws.map spanOf) 0 true = startOf ws.flatten := by
  rw [← firstStart_spans]
  simp only [markPos, List.drop_zero, List.take_zero, lastEnd, Option.or_none, if_true]

theorem firstStart_none {ws : List (List STok)} (h : lastEnd (ws.map spanOf) = none) :
    firstStart (ws.map spanOf) = none := by
  induction ws with
  | nil => rfl
  | cons w ws ih =>
    rw [List.map_cons, lastEnd] at h
    cases hl : lastEnd (ws.map spanOf) with
    | some q => rw [hl] at h; cases h
    | none =>
      rw [hl] at h
      cases w with
      | nil => exact ih hl
      | cons t w => cases h

/-- `@R`, or `@L`, at the end -/
theorem markPos_end (ws : List (List STok)) (b : Bool) {n : Nat} (hn : n = ws.length) :
    markPos (ws.map spanOf) n b = stopOf ws.flatten := by
  subst hn
  have h1 : (ws.map spanOf).drop ws.length = [] := by simp
  have h2 : (ws.map spanOf).take ws.length = ws.map spanOf := by
    rw [List.take_of_length_le (by simp)]
  simp only [markPos, h1, h2, firstStart, Option.none_or, Option.or_none, stopOf, stopFrom_flatten]
  cases b <;> rfl

theorem value_plain {names : List (Option Str)} {e : Ex} {ps : List Piece} {v : RV}
    (h : e.eval (bindNames names (ps.map (·.2))) = some v) :
    FAct.value ⟨names, [], e⟩ (actArgs ps) = some v := by
  simp only [FAct.value, List.map_nil, List.nil_append, actArgs, List.map_map]
  exact h

theorem value_marked {names : List (Option Str)} {x y : Str} {n : Nat} {b : Bool} {e : Ex} {ps : List Piece} {v : RV}
    (hn : n = ps.length) {w : List STok} (hw : inputOf ps = w)
    (h : e.eval ((x, .pos (startOf w)) :: (y, .pos (stopOf w)) ::
      bindNames names (ps.map (·.2))) = some v) :
    FAct.value ⟨names, [(0, true, x), (n, b, y)], e⟩ (actArgs ps) = some v := by
  subst hw
  have hs : (actArgs ps).map (·.1) = (ps.map (·.1)).map spanOf := by simp [actArgs]
  have hv : (actArgs ps).map (·.2) = ps.map (·.2) := by simp [actArgs]
  simp only [FAct.value, List.map_cons, List.map_nil, hs, hv, markPos_L,
    markPos_end (ps.map (·.1)) b (n := n) (by simpa using hn), List.cons_append, List.nil_append]
  exact h

/-- the loops that copy a vector -/
theorem for_push (ρ : Scope) (x y : Str) (l m : List RV) (hxy : x ≠ y) :
    l.foldlM (fun ρ v => (St.exec ((y, v) :: ρ) (.push x [] (.var y))).map List.tail) ((x, .vec m) :: ρ)
      = some ((x, .vec (m ++ l)) :: ρ) := by
  induction l generalizing m with
  | nil => simp
  | cons v l ih =>
    rw [List.foldlM_cons]
    have : (St.exec ((y, v) :: (x, .vec m) :: ρ) (.push x [] (.var y))).map List.tail
        = some ((x, .vec (m ++ [v])) :: ρ) := by
      simp [St.exec, Ex.eval, Scope.get, Scope.set, RV.pushAt, hxy]
    rw [this]
    exact (ih (m ++ [v])).trans (by simp)

theorem exec_loop (ρ : Scope) (x y z : Str) (m : List RV) (hxy : x ≠ y) :
    St.exec ((x, .vec m) :: ρ) (.for_ y (.var z) (.push x [] (.var y))) =
      match Scope.get ((x, .vec m) :: ρ) z with
      | some (.vec l) => some ((x, .vec (m ++ l)) :: ρ)
      | _ => none := by
  rw [St.exec, Ex.eval]
  cases Scope.get ((x, RV.vec m) :: ρ) z with
  | none => rfl
  | some v => cases v <;> first | rfl | exact for_push ρ x y _ m hxy

theorem exec_let (ρ : Scope) (x : Str) (e : Ex) : St.exec ρ (.let_ x e) = match e.eval ρ with
    | some v => some ((x, v) :: ρ)
    | none => none := by rw [St.exec]; rfl

theorem exec_push (ρ : Scope) (x : Str) (path : List Str) (e : Ex) : St.exec ρ (.push x path e) = match e.eval ρ with
    | some v => match ρ.get x with
      | some u => match RV.pushAt v path u with
        | some u' => some (ρ.set x u')
        | none => none
      | none => none
    | none => none := by rw [St.exec]; rfl

theorem exec_ifSome (ρ : Scope) (y : Str) (e : Ex) (s : St) : St.exec ρ (.ifSome y e s) = match e.eval ρ with
    | some v => match v.option with
      | some (some v) => (St.exec ((y, v) :: ρ) s).map List.tail
      | some none => some ρ
      | none => none
    | none => none := by rw [St.exec]; rfl

section
set_option autoImplicit true

theorem optRv_none {α : Type} (f : α → RV) : optRv f none = .none := rfl
theorem optRv_some {α : Type} (f : α → RV) (x : α) : optRv f (some x) = .some (f x) := rfl

macro "rvsimp" : tactic => `(tactic| simp only [rv, mkW, W.rv, vecRv, optRv_none, optRv_some, Val, List.map_cons, List.map_nil, NodeAddressType.rv, NodeAddressTypeField.rv, NodeArgumentPattern.rv, NodeAtomicExpression.rv, NodeBlockchainFetchArguments.rv, NodeBuiltinArguments.rv,
  NodeByteStr.rv, NodeComponentBody.rv, NodeComponentDefinition.rv, NodeComponentId.rv, NodeComponentParameters.rv, NodeContractDefinition.rv,
  NodeContractField.rv, NodeContractTypeArguments.rv, NodeFullExpression.rv, NodeImportDeclarations.rv, NodeImportedName.rv, NodeLibraryDefinition.rv,
  NodeLibrarySingleDefinition.rv, NodeMapAccess.rv, NodeMessageEntry.rv, NodeMetaIdentifier.rv, NodeParameterPair.rv, NodePattern.rv,
  NodePatternMatchClause.rv, NodePatternMatchExpressionClause.rv, NodeProcedureDefinition.rv, NodeProgram.rv, NodeRemoteFetchStatement.rv, NodeScillaType.rv,
  NodeStatement.rv, NodeStatementBlock.rv, NodeTransitionDefinition.rv, NodeTypeAlternativeClause.rv, NodeTypeAnnotation.rv, NodeTypeArgument.rv,
  NodeTypeMapEntry.rv, NodeTypeMapKey.rv, NodeTypeMapValue.rv, NodeTypeMapValueAllowingTypeArguments.rv, NodeTypeMapValueArguments.rv, NodeTypeNameIdentifier.rv,
  NodeTypedIdentifier.rv, NodeValueLiteral.rv, NodeVariableIdentifier.rv, NodeWithConstraint.rv,
  wNodeAddressType_eq, wNodeTypeMapEntry_eq, wNodeTypeMapValueAllowingTypeArguments_eq, wNodeScillaType_eq, wNodeTypeMapKey_eq, wNodeTypeMapValue_eq, wNodeTypeArgument_eq, wNodeAddressTypeField_eq, wNodeTypeMapValueArguments_eq, wNodeArgumentPattern_eq, wNodePattern_eq, wNodeFullExpression_eq, wNodePatternMatchExpressionClause_eq, wNodeStatementBlock_eq, wNodePatternMatchClause_eq, lWNodeTypeArgument_eq, lWNodeAddressTypeField_eq, lWNodeTypeMapValueArguments_eq, lWNodeArgumentPattern_eq, lWNodePatternMatchExpressionClause_eq, lWNodePatternMatchClause_eq, lNodeStatement_eq, oWNodeStatementBlock_eq])

/-- parser.lalrpop 92 -/
theorem act_byteString {w : List STok} (hw : w = [⟨s, .byStrWithSize x, e⟩])  :
    (fileActions[0]?.bind fun act => act.value (actArgs [([⟨s, .byStrWithSize x, e⟩], .str (Token.text (.byStrWithSize x)))])) = some (rv .byteString (.type (mkW w x))) := by
  refine value_marked (w := w) rfl (by simp [inputOf, hw]) ?_
  rvsimp
  rfl

/-- parser.lalrpop 113 -/
theorem act_typeNameBytes {b : Val .byteString} :
    (fileActions[1]?.bind fun act => act.value (actArgs [(w, rv .byteString b)])) = some (rv .typeName (mkW w (.byteStringType b))) := by
  refine value_marked (w := w) rfl (by simp [inputOf]) ?_
  rvsimp
  rfl

/-- parser.lalrpop 118 -/
theorem act_typeNameEvent {w : List STok} (hw : w = [⟨s, .eventType, e⟩])  :
    (fileActions[2]?.bind fun act => act.value (actArgs [([⟨s, .eventType, e⟩], .str (Token.text (.eventType)))])) = some (rv .typeName (mkW w .eventType)) := by
  refine value_marked (w := w) rfl (by simp [inputOf, hw]) ?_
  rvsimp
  rfl

/-- parser.lalrpop 123 -/
theorem act_typeNameCustom {c : Val .customId} :
    (fileActions[3]?.bind fun act => act.value (actArgs [(w, rv .customId c)])) = some (rv .typeName (mkW w (.typeOrEnumLikeIdentifier c))) := by
  refine value_marked (w := w) rfl (by simp [inputOf]) ?_
  rvsimp
  rfl

/-- parser.lalrpop 143 -/
theorem act_importedRegular {n : Val .typeName} :
    (fileActions[4]?.bind fun act => act.value (actArgs [(w, rv .typeName n)])) = some (rv .importedName (mkW w (.regularImport n))) := by
  refine value_marked (w := w) rfl (by simp [inputOf]) ?_
  rvsimp
  rfl

/-- parser.lalrpop 148 -/
theorem act_importedAliased {w : List STok} (hw : w = w1 ++ ⟨s1, .as_, e1⟩ :: w2) {n : Val .typeName} {a : Val .typeName} :
    (fileActions[5]?.bind fun act => act.value (actArgs [(w1, rv .typeName n), ([⟨s1, .as_, e1⟩], .str (Token.text (.as_))), (w2, rv .typeName a)])) = some (rv .importedName (mkW w (.aliasedImport n a))) := by
  refine value_marked (w := w) rfl (by simp [inputOf, hw]) ?_
  rvsimp
  rfl

/-- parser.lalrpop 170 -/
theorem act_importMore {w : List STok} (hw : w = w1 ++ ⟨s1, .import_, e1⟩ :: w2) {prev : Val .importDecls} {n : Val .importedName} :
    (fileActions[6]?.bind fun act => act.value (actArgs [(w1, rv .importDecls prev), ([⟨s1, .import_, e1⟩], .str (Token.text (.import_))), (w2, rv .importedName n)])) = some (rv .importDecls ⟨⟨prev.node.importList ++ [n]⟩, s1, stopOf w⟩) := by
  have hs : startOf w1 = startOf w1 := rfl
  subst hw
  have hm : markPos [spanOf w1, spanOf [⟨s1, .import_, e1⟩], spanOf w2] 1 true = s1 := rfl
  have he : markPos [spanOf w1, spanOf [⟨s1, .import_, e1⟩], spanOf w2] 3 false = stopOf (w1 ++ ⟨s1, .import_, e1⟩ :: w2) := by
    have := markPos_end [w1, [⟨s1, .import_, e1⟩], w2] false (n := 3) rfl
    simpa using this
  show FAct.value _ _ = _
  simp only [FAct.value, List.map_cons, List.map_nil, hm, he, List.cons_append, List.nil_append]
  simp [Ex.eval, Ex.evals, exec_let, exec_push, exec_loop, exec_ifSome, St.execs, Scope.get, Scope.set, bindNames, RV.get, RV.set, RV.pushAt, RV.option, RV.none, RV.some, rv, mkW, W.rv, vecRv, optRv, NodeImportDeclarations.rv]

/-- parser.lalrpop 183 -/
theorem act_importFirst {w : List STok} (hw : w = ⟨s1, .import_, e1⟩ :: w1) {ns : Val (.plus .importedName)} :
    (fileActions[7]?.bind fun act => act.value (actArgs [([⟨s1, .import_, e1⟩], .str (Token.text (.import_))), (w1, rv (.plus .importedName) ns)])) = some (rv .importDecls (mkW w ⟨ns⟩)) := by
  refine value_marked (w := w) rfl (by simp [inputOf, hw]) ?_
  rvsimp
  rfl

/-- parser.lalrpop 210 -/
theorem act_metaName {n : Val .typeName} :
    (fileActions[8]?.bind fun act => act.value (actArgs [(w, rv .typeName n)])) = some (rv .metaId (mkW w (.metaName n))) := by
  refine value_marked (w := w) rfl (by simp [inputOf]) ?_
  rvsimp
  rfl

/-- parser.lalrpop 215 -/
theorem act_metaNamespace {w : List STok} (hw : w = w1 ++ ⟨s1, .dot, e1⟩ :: w2) {l : Val .typeName} {r : Val .typeName} :
    (fileActions[9]?.bind fun act => act.value (actArgs [(w1, rv .typeName l), ([⟨s1, .dot, e1⟩], .str (Token.text (.dot))), (w2, rv .typeName r)])) = some (rv .metaId (mkW w (.metaNameInNamespace l r))) := by
  refine value_marked (w := w) rfl (by simp [inputOf, hw]) ?_
  rvsimp
  rfl

/-- parser.lalrpop 220 -/
theorem act_metaHexspace {w : List STok} (hw : w = w1 ++ ⟨s1, .dot, e1⟩ :: w2) {l : Val .hexNumber} {r : Val .typeName} :
    (fileActions[10]?.bind fun act => act.value (actArgs [(w1, rv .hexNumber l), ([⟨s1, .dot, e1⟩], .str (Token.text (.dot))), (w2, rv .typeName r)])) = some (rv .metaId (mkW w (.metaNameInHexspace l r))) := by
  refine value_marked (w := w) rfl (by simp [inputOf, hw]) ?_
  rvsimp
  rfl

/-- parser.lalrpop 225 -/
theorem act_metaByStr {w : List STok} (hw : w = [⟨s, .byStr, e⟩])  :
    (fileActions[11]?.bind fun act => act.value (actArgs [([⟨s, .byStr, e⟩], .str (Token.text (.byStr)))])) = some (rv .metaId (mkW w .byteString)) := by
  refine value_marked (w := w) rfl (by simp [inputOf, hw]) ?_
  rvsimp
  rfl

/-- parser.lalrpop 250 -/
theorem act_varName {n : Val .regularId} :
    (fileActions[12]?.bind fun act => act.value (actArgs [(w, rv .regularId n)])) = some (rv .varId (mkW w (.variableName n))) := by
  refine value_marked (w := w) rfl (by simp [inputOf]) ?_
  rvsimp
  rfl

/-- parser.lalrpop 255 -/
theorem act_varSpecial {n : Val .specialId} :
    (fileActions[13]?.bind fun act => act.value (actArgs [(w, rv .specialId n)])) = some (rv .varId (mkW w (.specialIdentifier n))) := by
  refine value_marked (w := w) rfl (by simp [inputOf]) ?_
  rvsimp
  rfl

/-- parser.lalrpop 261 -/
theorem act_varNamespace {w : List STok} (hw : w = w1 ++ ⟨s1, .dot, e1⟩ :: w2) {n : Val .typeName} {r : Val .regularId} :
    (fileActions[14]?.bind fun act => act.value (actArgs [(w1, rv .typeName n), ([⟨s1, .dot, e1⟩], .str (Token.text (.dot))), (w2, rv .regularId r)])) = some (rv .varId (mkW w (.variableInNamespace n r))) := by
  refine value_marked (w := w) rfl (by simp [inputOf, hw]) ?_
  rvsimp
  rfl

/-- parser.lalrpop 281 -/
theorem act_builtinMore {w : List STok} (hw : w = w1 ++ w2) {prev : Val .builtinArgs} {n : Val .varId} :
    (fileActions[15]?.bind fun act => act.value (actArgs [(w1, rv .builtinArgs prev), (w2, rv .varId n)])) = some (rv .builtinArgs (mkW w ⟨prev.node.arguments ++ [n]⟩)) := by
  refine value_marked (w := w) rfl (by simp [inputOf, hw]) ?_
  simp [Ex.eval, Ex.evals, exec_let, exec_push, exec_loop, exec_ifSome, St.execs, Scope.get, Scope.set, bindNames, RV.get, RV.set, RV.pushAt, RV.option, RV.none, RV.some, rv, mkW, W.rv, vecRv, optRv, NodeBuiltinArguments.rv]

/-- parser.lalrpop 294 -/
theorem act_builtinOne {n : Val .varId} :
    (fileActions[16]?.bind fun act => act.value (actArgs [(w, rv .varId n)])) = some (rv .builtinArgs (mkW w ⟨[n]⟩)) := by
  refine value_marked (w := w) rfl (by simp [inputOf]) ?_
  rvsimp
  rfl

/-- parser.lalrpop 301 -/
theorem act_builtinUnit {w : List STok} (hw : w = [⟨s1, .openParen, e1⟩, ⟨s2, .closeParen, e2⟩])  :
    (fileActions[17]?.bind fun act => act.value (actArgs [([⟨s1, .openParen, e1⟩], .str (Token.text (.openParen))), ([⟨s2, .closeParen, e2⟩], .str (Token.text (.closeParen)))])) = some (rv .builtinArgs (mkW w ⟨[]⟩)) := by
  refine value_marked (w := w) rfl (by simp [inputOf, hw]) ?_
  rvsimp
  rfl

/-- parser.lalrpop 312 -/
theorem act_remGeneric {w : List STok} (hw : w = w1 ++ w2) {m : Val .metaId} {args : Val (.star .typeArg)} :
    (fileActions[18]?.bind fun act => act.value (actArgs [(w1, rv .metaId m), (w2, rv (.star .typeArg) args)])) = some (rv .remaining (mkW w (.genericTypeWithArgs m args))) := by
  refine value_marked (w := w) rfl (by simp [inputOf, hw]) ?_
  rvsimp
  rfl

/-- parser.lalrpop 317 -/
theorem act_remMap {w : List STok} (hw : w = ⟨s1, .map, e1⟩ :: (w1 ++ w2)) {k : Val .mapKey} {v : Val .mapValue} :
    (fileActions[19]?.bind fun act => act.value (actArgs [([⟨s1, .map, e1⟩], .str (Token.text (.map))), (w1, rv .mapKey k), (w2, rv .mapValue v)])) = some (rv .remaining (mkW w (.mapType k v))) := by
  refine value_marked (w := w) rfl (by simp [inputOf, hw]) ?_
  rvsimp
  rfl

/-- parser.lalrpop 322 -/
theorem act_remParen {w : List STok} (hw : w = ⟨s1, .openParen, e1⟩ :: (w1 ++ [⟨s2, .closeParen, e2⟩])) {t : Val .scillaType} :
    (fileActions[20]?.bind fun act => act.value (actArgs [([⟨s1, .openParen, e1⟩], .str (Token.text (.openParen))), (w1, rv .scillaType t), ([⟨s2, .closeParen, e2⟩], .str (Token.text (.closeParen)))])) = some (rv .remaining (mkW w (.enclosedType t))) := by
  refine value_marked (w := w) rfl (by simp [inputOf, hw]) ?_
  rvsimp
  rfl

/-- parser.lalrpop 327 -/
theorem act_remAddress {a : Val .addressType} :
    (fileActions[21]?.bind fun act => act.value (actArgs [(w, rv .addressType a)])) = some (rv .remaining (mkW w (.scillaAddresseType a))) := by
  refine value_marked (w := w) rfl (by simp [inputOf]) ?_
  rvsimp
  rfl

/-- parser.lalrpop 332 -/
theorem act_remForall {w : List STok} (hw : w = ⟨s1, .forall_, e1⟩ :: (w1 ++ ⟨s2, .dot, e2⟩ :: w2)) {v : Val .templateId} {t : Val .remaining} :
    (fileActions[22]?.bind fun act => act.value (actArgs [([⟨s1, .forall_, e1⟩], .str (Token.text (.forall_))), (w1, rv .templateId v), ([⟨s2, .dot, e2⟩], .str (Token.text (.dot))), (w2, rv .remaining t)])) = some (rv .remaining (mkW w (.polyFunctionType v t))) := by
  refine value_marked (w := w) rfl (by simp [inputOf, hw]) ?_
  rvsimp
  rfl

/-- parser.lalrpop 337 -/
theorem act_remTypeVar {v : Val .templateId} :
    (fileActions[23]?.bind fun act => act.value (actArgs [(w, rv .templateId v)])) = some (rv .remaining (mkW w (.typeVarType v))) := by
  refine value_marked (w := w) rfl (by simp [inputOf]) ?_
  rvsimp
  rfl

/-- parser.lalrpop 345 -/
theorem act_funSigMore {w : List STok} (hw : w = w1 ++ ⟨s1, .arrow, e1⟩ :: w2) {a : Val .remaining} {b : Val .funSig} :
    (fileActions[24]?.bind fun act => act.value (actArgs [(w1, rv .remaining a), ([⟨s1, .arrow, e1⟩], .str (Token.text (.arrow))), (w2, rv .funSig b)])) = some (rv .funSig (mkW w (.functionType a b))) := by
  refine value_marked (w := w) rfl (by simp [inputOf, hw]) ?_
  rvsimp
  rfl

/-- parser.lalrpop 350 -/
theorem act_funSigLast {w : List STok} (hw : w = w1 ++ ⟨s1, .arrow, e1⟩ :: w2) {a : Val .remaining} {b : Val .remaining} :
    (fileActions[25]?.bind fun act => act.value (actArgs [(w1, rv .remaining a), ([⟨s1, .arrow, e1⟩], .str (Token.text (.arrow))), (w2, rv .remaining b)])) = some (rv .funSig (mkW w (.functionType a b))) := by
  refine value_marked (w := w) rfl (by simp [inputOf, hw]) ?_
  rvsimp
  rfl

/-- parser.lalrpop 376 -/
theorem act_typeFun {t : Val .funSig} :
    (fileActions[26]?.bind fun act => act.value (actArgs [(w, rv .funSig t)])) = some (rv .scillaType t) := by
  refine value_plain ?_
  rvsimp
  rfl

/-- parser.lalrpop 377 -/
theorem act_typeRem {t : Val .remaining} :
    (fileActions[27]?.bind fun act => act.value (actArgs [(w, rv .remaining t)])) = some (rv .scillaType t) := by
  refine value_plain ?_
  rvsimp
  rfl

/-- parser.lalrpop 398 -/
theorem act_argParen {w : List STok} (hw : w = ⟨s1, .openParen, e1⟩ :: (w1 ++ [⟨s2, .closeParen, e2⟩])) {t : Val .scillaType} :
    (fileActions[28]?.bind fun act => act.value (actArgs [([⟨s1, .openParen, e1⟩], .str (Token.text (.openParen))), (w1, rv .scillaType t), ([⟨s2, .closeParen, e2⟩], .str (Token.text (.closeParen)))])) = some (rv .typeArg (mkW w (.enclosedTypeArgument t))) := by
  refine value_marked (w := w) rfl (by simp [inputOf, hw]) ?_
  rvsimp
  rfl

/-- parser.lalrpop 404 -/
theorem act_argMeta {m : Val .metaId} :
    (fileActions[29]?.bind fun act => act.value (actArgs [(w, rv .metaId m)])) = some (rv .typeArg (mkW w (.genericTypeArgument m))) := by
  refine value_marked (w := w) rfl (by simp [inputOf]) ?_
  rvsimp
  rfl

/-- parser.lalrpop 410 -/
theorem act_argTemplate {v : Val .templateId} :
    (fileActions[30]?.bind fun act => act.value (actArgs [(w, rv .templateId v)])) = some (rv .typeArg (mkW w (.templateTypeArgument v))) := by
  refine value_marked (w := w) rfl (by simp [inputOf]) ?_
  rvsimp
  rfl

/-- parser.lalrpop 416 -/
theorem act_argAddress {a : Val .addressType} :
    (fileActions[31]?.bind fun act => act.value (actArgs [(w, rv .addressType a)])) = some (rv .typeArg (mkW w (.addressTypeArgument a))) := by
  refine value_marked (w := w) rfl (by simp [inputOf]) ?_
  rvsimp
  rfl

/-- parser.lalrpop 422 -/
theorem act_argMap {w : List STok} (hw : w = ⟨s1, .map, e1⟩ :: (w1 ++ w2)) {k : Val .mapKey} {v : Val .mapValue} :
    (fileActions[32]?.bind fun act => act.value (actArgs [([⟨s1, .map, e1⟩], .str (Token.text (.map))), (w1, rv .mapKey k), (w2, rv .mapValue v)])) = some (rv .typeArg (mkW w (.mapTypeArgument k v))) := by
  refine value_marked (w := w) rfl (by simp [inputOf, hw]) ?_
  rvsimp
  rfl

/-- parser.lalrpop 447 -/
theorem act_addrEmpty {w : List STok} (hw : w = w1 ++ [⟨s1, .with_, e1⟩, ⟨s2, .end_, e2⟩]) {n : Val .typeName} :
    (fileActions[33]?.bind fun act => act.value (actArgs [(w1, rv .typeName n), ([⟨s1, .with_, e1⟩], .str (Token.text (.with_))), ([⟨s2, .end_, e2⟩], .str (Token.text (.end_)))])) = some (rv .addressType (mkW w (.mk n (mkW w []) []))) := by
  refine value_marked (w := w) rfl (by simp [inputOf, hw]) ?_
  rvsimp
  rfl

/-- parser.lalrpop 460 -/
theorem act_addrContract {w : List STok} (hw : w = w1 ++ ⟨s1, .with_, e1⟩ :: ⟨s2, .contract, e2⟩ :: (w2 ++ [⟨s3, .end_, e3⟩])) {n : Val .typeName} {fs : Val (.opt .addressFieldList)} :
    (fileActions[34]?.bind fun act => act.value (actArgs [(w1, rv .typeName n), ([⟨s1, .with_, e1⟩], .str (Token.text (.with_))), ([⟨s2, .contract, e2⟩], .str (Token.text (.contract))), (w2, rv (.opt .addressFieldList) fs), ([⟨s3, .end_, e3⟩], .str (Token.text (.end_)))])) = some (rv .addressType (mkW w (.mk n (mkW w (str! "contract")) (fs.getD [])))) := by
  refine value_marked (w := w) rfl (by simp [inputOf, hw]) ?_
  cases fs <;> simp [Ex.eval, Ex.evals, exec_let, exec_push, exec_loop, exec_ifSome, St.execs, Scope.get, Scope.set, bindNames, RV.get, RV.set, RV.pushAt, RV.option, RV.none, RV.some, rv, mkW, W.rv, vecRv, optRv, NodeAddressType.rv, lWNodeAddressTypeField_eq]

/-- parser.lalrpop 474 -/
theorem act_addrLibrary {w : List STok} (hw : w = w1 ++ [⟨s1, .with_, e1⟩, ⟨s2, .library, e2⟩, ⟨s3, .end_, e3⟩]) {n : Val .typeName} :
    (fileActions[35]?.bind fun act => act.value (actArgs [(w1, rv .typeName n), ([⟨s1, .with_, e1⟩], .str (Token.text (.with_))), ([⟨s2, .library, e2⟩], .str (Token.text (.library))), ([⟨s3, .end_, e3⟩], .str (Token.text (.end_)))])) = some (rv .addressType (mkW w (.mk n (mkW w (str! "library")) []))) := by
  refine value_marked (w := w) rfl (by simp [inputOf, hw]) ?_
  rvsimp
  rfl

/-- parser.lalrpop 488 -/
theorem act_addrSpecial {w : List STok} (hw : w = w1 ++ ⟨s1, .with_, e1⟩ :: (w2 ++ [⟨s2, .end_, e2⟩])) {n : Val .typeName} {sp : Val .specialId} :
    (fileActions[36]?.bind fun act => act.value (actArgs [(w1, rv .typeName n), ([⟨s1, .with_, e1⟩], .str (Token.text (.with_))), (w2, rv .specialId sp), ([⟨s2, .end_, e2⟩], .str (Token.text (.end_)))])) = some (rv .addressType (mkW w (.mk n sp []))) := by
  refine value_marked (w := w) rfl (by simp [inputOf, hw]) ?_
  rvsimp
  rfl

/-- parser.lalrpop 513 -/
theorem act_addrFieldList {w : List STok} (hw : w = w1 ++ w2) {f : Val .addressField} {fs : Val (.star .nextAddressField)} :
    (fileActions[37]?.bind fun act => act.value (actArgs [(w1, rv .addressField f), (w2, rv (.star .nextAddressField) fs)])) = some (rv .addressFieldList (f :: fs)) := by
  refine value_plain ?_
  simp [Ex.eval, Ex.evals, exec_let, exec_push, exec_loop, exec_ifSome, St.execs, Scope.get, Scope.set, bindNames, RV.get, RV.set, RV.pushAt, RV.option, RV.none, RV.some, rv, mkW, W.rv, vecRv, optRv, ]

/-- parser.lalrpop 524 -/
theorem act_nextAddrField {w : List STok} (hw : w = ⟨s1, .comma, e1⟩ :: w1) {f : Val .addressField} :
    (fileActions[38]?.bind fun act => act.value (actArgs [([⟨s1, .comma, e1⟩], .str (Token.text (.comma))), (w1, rv .addressField f)])) = some (rv .nextAddressField f) := by
  refine value_plain ?_
  rvsimp
  rfl

/-- parser.lalrpop 528 -/
theorem act_addrField {w : List STok} (hw : w = ⟨s1, .field, e1⟩ :: (w1 ++ ⟨s2, .colon, e2⟩ :: w2)) {i : Val .varId} {t : Val .scillaType} :
    (fileActions[39]?.bind fun act => act.value (actArgs [([⟨s1, .field, e1⟩], .str (Token.text (.field))), (w1, rv .varId i), ([⟨s2, .colon, e2⟩], .str (Token.text (.colon))), (w2, rv .scillaType t)])) = some (rv .addressField (mkW w (.mk i t))) := by
  refine value_marked (w := w) rfl (by simp [inputOf, hw]) ?_
  rvsimp
  rfl

/-- parser.lalrpop 557 -/
theorem act_keyMeta {m : Val .metaId} :
    (fileActions[40]?.bind fun act => act.value (actArgs [(w, rv .metaId m)])) = some (rv .mapKey (mkW w (.genericMapKey m))) := by
  refine value_marked (w := w) rfl (by simp [inputOf]) ?_
  rvsimp
  rfl

/-- parser.lalrpop 563 -/
theorem act_keyParenMeta {w : List STok} (hw : w = ⟨s1, .openParen, e1⟩ :: (w1 ++ [⟨s2, .closeParen, e2⟩])) {m : Val .metaId} :
    (fileActions[41]?.bind fun act => act.value (actArgs [([⟨s1, .openParen, e1⟩], .str (Token.text (.openParen))), (w1, rv .metaId m), ([⟨s2, .closeParen, e2⟩], .str (Token.text (.closeParen)))])) = some (rv .mapKey (mkW w (.enclosedGenericId m))) := by
  refine value_marked (w := w) rfl (by simp [inputOf, hw]) ?_
  rvsimp
  rfl

/-- parser.lalrpop 569 -/
theorem act_keyParenAddress {w : List STok} (hw : w = ⟨s1, .openParen, e1⟩ :: (w1 ++ [⟨s2, .closeParen, e2⟩])) {a : Val .addressType} :
    (fileActions[42]?.bind fun act => act.value (actArgs [([⟨s1, .openParen, e1⟩], .str (Token.text (.openParen))), (w1, rv .addressType a), ([⟨s2, .closeParen, e2⟩], .str (Token.text (.closeParen)))])) = some (rv .mapKey (mkW w (.enclosedAddressMapKeyType a))) := by
  refine value_marked (w := w) rfl (by simp [inputOf, hw]) ?_
  rvsimp
  rfl

/-- parser.lalrpop 575 -/
theorem act_keyAddress {a : Val .addressType} :
    (fileActions[43]?.bind fun act => act.value (actArgs [(w, rv .addressType a)])) = some (rv .mapKey (mkW w (.addressMapKeyType a))) := by
  refine value_marked (w := w) rfl (by simp [inputOf]) ?_
  rvsimp
  rfl

/-- parser.lalrpop 601 -/
theorem act_valMeta {m : Val .metaId} :
    (fileActions[44]?.bind fun act => act.value (actArgs [(w, rv .metaId m)])) = some (rv .mapValue (mkW w (.mapValueTypeOrEnumLikeIdentifier m))) := by
  refine value_marked (w := w) rfl (by simp [inputOf]) ?_
  rvsimp
  rfl

/-- parser.lalrpop 606 -/
theorem act_valMap {w : List STok} (hw : w = ⟨s1, .map, e1⟩ :: (w1 ++ w2)) {k : Val .mapKey} {v : Val .mapValue} :
    (fileActions[45]?.bind fun act => act.value (actArgs [([⟨s1, .map, e1⟩], .str (Token.text (.map))), (w1, rv .mapKey k), (w2, rv .mapValue v)])) = some (rv .mapValue (mkW w (.mapKeyValue (mkW w (.mk k v))))) := by
  refine value_marked (w := w) rfl (by simp [inputOf, hw]) ?_
  rvsimp
  rfl

/-- parser.lalrpop 617 -/
theorem act_valParen {w : List STok} (hw : w = ⟨s1, .openParen, e1⟩ :: (w1 ++ [⟨s2, .closeParen, e2⟩])) {t : Val .mapValueAllowing} :
    (fileActions[46]?.bind fun act => act.value (actArgs [([⟨s1, .openParen, e1⟩], .str (Token.text (.openParen))), (w1, rv .mapValueAllowing t), ([⟨s2, .closeParen, e2⟩], .str (Token.text (.closeParen)))])) = some (rv .mapValue (mkW w (.mapValueParenthesizedType t))) := by
  refine value_marked (w := w) rfl (by simp [inputOf, hw]) ?_
  rvsimp
  rfl

/-- parser.lalrpop 622 -/
theorem act_valAddress {a : Val .addressType} :
    (fileActions[47]?.bind fun act => act.value (actArgs [(w, rv .addressType a)])) = some (rv .mapValue (mkW w (.mapValueAddressType a))) := by
  refine value_marked (w := w) rfl (by simp [inputOf]) ?_
  rvsimp
  rfl

/-- parser.lalrpop 646 -/
theorem act_mvaParen {w : List STok} (hw : w = ⟨s1, .openParen, e1⟩ :: (w1 ++ [⟨s2, .closeParen, e2⟩])) {t : Val .mapValueAllowing} :
    (fileActions[48]?.bind fun act => act.value (actArgs [([⟨s1, .openParen, e1⟩], .str (Token.text (.openParen))), (w1, rv .mapValueAllowing t), ([⟨s2, .closeParen, e2⟩], .str (Token.text (.closeParen)))])) = some (rv .mapValueArgs (mkW w (.enclosedTypeMapValue t))) := by
  refine value_marked (w := w) rfl (by simp [inputOf, hw]) ?_
  rvsimp
  rfl

/-- parser.lalrpop 652 -/
theorem act_mvaMeta {m : Val .metaId} :
    (fileActions[49]?.bind fun act => act.value (actArgs [(w, rv .metaId m)])) = some (rv .mapValueArgs (mkW w (.genericMapValueArgument m))) := by
  refine value_marked (w := w) rfl (by simp [inputOf]) ?_
  rvsimp
  rfl

/-- parser.lalrpop 657 -/
theorem act_mvaMap {w : List STok} (hw : w = ⟨s1, .map, e1⟩ :: (w1 ++ w2)) {k : Val .mapKey} {v : Val .mapValue} :
    (fileActions[50]?.bind fun act => act.value (actArgs [([⟨s1, .map, e1⟩], .str (Token.text (.map))), (w1, rv .mapKey k), (w2, rv .mapValue v)])) = some (rv .mapValueArgs (mkW w (.mapKeyValueType k v))) := by
  refine value_marked (w := w) rfl (by simp [inputOf, hw]) ?_
  rvsimp
  rfl

/-- parser.lalrpop 681 -/
theorem act_program {w : List STok} (hw : w = ⟨s1, .scillaVersion, e1⟩ :: (w1 ++ (w2 ++ (w3 ++ w4)))) {ver : Val .signedInt} {imps : Val (.opt .importDecls)} {lib : Val (.opt .libraryDef)} {c : Val .contractDef} :
    (fileActions[51]?.bind fun act => act.value (actArgs [([⟨s1, .scillaVersion, e1⟩], .str (Token.text (.scillaVersion))), (w1, rv .signedInt ver), (w2, rv (.opt .importDecls) imps), (w3, rv (.opt .libraryDef) lib), (w4, rv .contractDef c)])) = some (rv .program ⟨ver, imps, lib, c⟩) := by
  refine value_plain ?_
  rvsimp
  rfl

/-- parser.lalrpop 704 -/
theorem act_libraryDef {w : List STok} (hw : w = ⟨s1, .library, e1⟩ :: (w1 ++ w2)) {l : Val .typeName} {ds : Val (.star .librarySingle)} :
    (fileActions[52]?.bind fun act => act.value (actArgs [([⟨s1, .library, e1⟩], .str (Token.text (.library))), (w1, rv .typeName l), (w2, rv (.star .librarySingle) ds)])) = some (rv .libraryDef (mkW w ⟨l, ds⟩)) := by
  refine value_marked (w := w) rfl (by simp [inputOf, hw]) ?_
  rvsimp
  rfl

/-- parser.lalrpop 736 -/
theorem act_libLet {w : List STok} (hw : w = ⟨s1, .let_, e1⟩ :: (w1 ++ (w2 ++ ⟨s2, .equals, e2⟩ :: w3))) {x : Val .regularId} {ta : Val (.opt .typeAnn)} {ex : Val .fullExpr} :
    (fileActions[53]?.bind fun act => act.value (actArgs [([⟨s1, .let_, e1⟩], .str (Token.text (.let_))), (w1, rv .regularId x), (w2, rv (.opt .typeAnn) ta), ([⟨s2, .equals, e2⟩], .str (Token.text (.equals))), (w3, rv .fullExpr ex)])) = some (rv .librarySingle (mkW w (.letDefinition x ta ex))) := by
  refine value_marked (w := w) rfl (by simp [inputOf, hw]) ?_
  rvsimp
  rfl

/-- parser.lalrpop 747 -/
theorem act_libType {w : List STok} (hw : w = ⟨s1, .type, e1⟩ :: w1) {n : Val .typeName} :
    (fileActions[54]?.bind fun act => act.value (actArgs [([⟨s1, .type, e1⟩], .str (Token.text (.type))), (w1, rv .typeName n)])) = some (rv .librarySingle (mkW w (.typeDefinition n none))) := by
  refine value_marked (w := w) rfl (by simp [inputOf, hw]) ?_
  rvsimp
  rfl

/-- parser.lalrpop 752 -/
theorem act_libTypeAlts {w : List STok} (hw : w = ⟨s1, .type, e1⟩ :: (w1 ++ ⟨s2, .equals, e2⟩ :: w2)) {n : Val .typeName} {alts : Val (.plus .typeAlt)} :
    (fileActions[55]?.bind fun act => act.value (actArgs [([⟨s1, .type, e1⟩], .str (Token.text (.type))), (w1, rv .typeName n), ([⟨s2, .equals, e2⟩], .str (Token.text (.equals))), (w2, rv (.plus .typeAlt) alts)])) = some (rv .librarySingle (mkW w (.typeDefinition n (some alts)))) := by
  refine value_marked (w := w) rfl (by simp [inputOf, hw]) ?_
  rvsimp
  rfl

/-- parser.lalrpop 795 -/
theorem act_typedId {w : List STok} (hw : w = w1 ++ w2) {x : Val .regularId} {a : Val .typeAnn} :
    (fileActions[56]?.bind fun act => act.value (actArgs [(w1, rv .regularId x), (w2, rv .typeAnn a)])) = some (rv .typedId (mkW w ⟨x, a⟩)) := by
  refine value_marked (w := w) rfl (by simp [inputOf, hw]) ?_
  rvsimp
  rfl

/-- parser.lalrpop 816 -/
theorem act_typeAnn {w : List STok} (hw : w = ⟨s1, .colon, e1⟩ :: w1) {t : Val .scillaType} :
    (fileActions[57]?.bind fun act => act.value (actArgs [([⟨s1, .colon, e1⟩], .str (Token.text (.colon))), (w1, rv .scillaType t)])) = some (rv .typeAnn (mkW w ⟨t⟩)) := by
  refine value_marked (w := w) rfl (by simp [inputOf, hw]) ?_
  rvsimp
  rfl

/-- parser.lalrpop 838 -/
theorem act_altType {w : List STok} (hw : w = ⟨s1, .pipe, e1⟩ :: w1) {n : Val .typeName} :
    (fileActions[58]?.bind fun act => act.value (actArgs [([⟨s1, .pipe, e1⟩], .str (Token.text (.pipe))), (w1, rv .typeName n)])) = some (rv .typeAlt (mkW w (.clauseType n))) := by
  refine value_marked (w := w) rfl (by simp [inputOf, hw]) ?_
  rvsimp
  rfl

/-- parser.lalrpop 843 -/
theorem act_altTypeArgs {w : List STok} (hw : w = ⟨s1, .pipe, e1⟩ :: (w1 ++ ⟨s2, .of_, e2⟩ :: w2)) {n : Val .typeName} {args : Val (.plus .typeArg)} :
    (fileActions[59]?.bind fun act => act.value (actArgs [([⟨s1, .pipe, e1⟩], .str (Token.text (.pipe))), (w1, rv .typeName n), ([⟨s2, .of_, e2⟩], .str (Token.text (.of_))), (w2, rv (.plus .typeArg) args)])) = some (rv .typeAlt (mkW w (.clauseTypeWithArgs n args))) := by
  refine value_marked (w := w) rfl (by simp [inputOf, hw]) ?_
  rvsimp
  rfl

/-- parser.lalrpop 867 -/
theorem act_mvWithArgs {w : List STok} (hw : w = w1 ++ w2) {m : Val .metaId} {args : Val (.plus .mapValueArgs)} :
    (fileActions[60]?.bind fun act => act.value (actArgs [(w1, rv .metaId m), (w2, rv (.plus .mapValueArgs) args)])) = some (rv .mapValueAllowing (mkW w (.typeMapValueWithArgs m args))) := by
  refine value_marked (w := w) rfl (by simp [inputOf, hw]) ?_
  rvsimp
  rfl

/-- parser.lalrpop 873 -/
theorem act_mvNoArgs {v : Val .mapValue} :
    (fileActions[61]?.bind fun act => act.value (actArgs [(w, rv .mapValue v)])) = some (rv .mapValueAllowing (mkW w (.typeMapValueNoArgs v))) := by
  refine value_marked (w := w) rfl (by simp [inputOf]) ?_
  rvsimp
  rfl

/-- parser.lalrpop 891 -/
theorem act_contractTypeArgs {w : List STok} (hw : w = ⟨s1, .openBrace, e1⟩ :: (w1 ++ [⟨s2, .closeBrace, e2⟩])) {args : Val (.star .typeArg)} :
    (fileActions[62]?.bind fun act => act.value (actArgs [([⟨s1, .openBrace, e1⟩], .str (Token.text (.openBrace))), (w1, rv (.star .typeArg) args), ([⟨s2, .closeBrace, e2⟩], .str (Token.text (.closeBrace)))])) = some (rv .contractTypeArgs (mkW w ⟨args⟩)) := by
  refine value_marked (w := w) rfl (by simp [inputOf, hw]) ?_
  rvsimp
  rfl

/-- parser.lalrpop 922 -/
theorem act_exprLet {w : List STok} (hw : w = ⟨s1, .let_, e1⟩ :: (w1 ++ (w2 ++ ⟨s2, .equals, e2⟩ :: (w3 ++ ⟨s3, .in_, e3⟩ :: w4)))) {x : Val .regularId} {ta : Val (.opt .typeAnn)} {ex : Val .fullExpr} {body : Val .fullExpr} :
    (fileActions[63]?.bind fun act => act.value (actArgs [([⟨s1, .let_, e1⟩], .str (Token.text (.let_))), (w1, rv .regularId x), (w2, rv (.opt .typeAnn) ta), ([⟨s2, .equals, e2⟩], .str (Token.text (.equals))), (w3, rv .fullExpr ex), ([⟨s3, .in_, e3⟩], .str (Token.text (.in_))), (w4, rv .fullExpr body)])) = some (rv .fullExpr (mkW w (.localVariableDeclaration x ex ta body))) := by
  refine value_marked (w := w) rfl (by simp [inputOf, hw]) ?_
  rvsimp
  rfl

/-- parser.lalrpop 935 -/
theorem act_exprFun {w : List STok} (hw : w = ⟨s1, .fun_, e1⟩ :: ⟨s2, .openParen, e2⟩ :: (w1 ++ (w2 ++ ⟨s3, .closeParen, e3⟩ :: ⟨s4, .doubleArrow, e4⟩ :: w3))) {x : Val .regularId} {ta : Val .typeAnn} {ex : Val .fullExpr} :
    (fileActions[64]?.bind fun act => act.value (actArgs [([⟨s1, .fun_, e1⟩], .str (Token.text (.fun_))), ([⟨s2, .openParen, e2⟩], .str (Token.text (.openParen))), (w1, rv .regularId x), (w2, rv .typeAnn ta), ([⟨s3, .closeParen, e3⟩], .str (Token.text (.closeParen))), ([⟨s4, .doubleArrow, e4⟩], .str (Token.text (.doubleArrow))), (w3, rv .fullExpr ex)])) = some (rv .fullExpr (mkW w (.functionDeclaration x ta ex))) := by
  refine value_marked (w := w) rfl (by simp [inputOf, hw]) ?_
  rvsimp
  rfl

/-- parser.lalrpop 945 -/
theorem act_exprCall {w : List STok} (hw : w = w1 ++ w2) {f : Val .varId} {args : Val (.plus .varId)} :
    (fileActions[65]?.bind fun act => act.value (actArgs [(w1, rv .varId f), (w2, rv (.plus .varId) args)])) = some (rv .fullExpr (mkW w (.functionCall f args))) := by
  refine value_marked (w := w) rfl (by simp [inputOf, hw]) ?_
  rvsimp
  rfl

/-- parser.lalrpop 954 -/
theorem act_exprAtomic {a : Val .atomic} :
    (fileActions[66]?.bind fun act => act.value (actArgs [(w, rv .atomic a)])) = some (rv .fullExpr (mkW w (.expressionAtomic a))) := by
  refine value_marked (w := w) rfl (by simp [inputOf]) ?_
  rvsimp
  rfl

/-- parser.lalrpop 961 -/
theorem act_exprBuiltin {w : List STok} (hw : w = ⟨s1, .builtin, e1⟩ :: (w1 ++ (w2 ++ w3))) {b : Val .regularId} {targs : Val (.opt .contractTypeArgs)} {xs : Val .builtinArgs} :
    (fileActions[67]?.bind fun act => act.value (actArgs [([⟨s1, .builtin, e1⟩], .str (Token.text (.builtin))), (w1, rv .regularId b), (w2, rv (.opt .contractTypeArgs) targs), (w3, rv .builtinArgs xs)])) = some (rv .fullExpr (mkW w (.expressionBuiltin b targs xs))) := by
  refine value_marked (w := w) rfl (by simp [inputOf, hw]) ?_
  rvsimp
  rfl

/-- parser.lalrpop 967 -/
theorem act_exprMessage {w : List STok} (hw : w = ⟨s1, .openBrace, e1⟩ :: (w1 ++ (w2 ++ [⟨s2, .closeBrace, e2⟩]))) {m : Val .messageEntry} {ms : Val (.star .nextMessage)} :
    (fileActions[68]?.bind fun act => act.value (actArgs [([⟨s1, .openBrace, e1⟩], .str (Token.text (.openBrace))), (w1, rv .messageEntry m), (w2, rv (.star .nextMessage) ms), ([⟨s2, .closeBrace, e2⟩], .str (Token.text (.closeBrace)))])) = some (rv .fullExpr (mkW w (.message (m :: ms)))) := by
  refine value_marked (w := w) rfl (by simp [inputOf, hw]) ?_
  simp [Ex.eval, Ex.evals, exec_let, exec_push, exec_loop, exec_ifSome, St.execs, Scope.get, Scope.set, bindNames, RV.get, RV.set, RV.pushAt, RV.option, RV.none, RV.some, rv, mkW, W.rv, vecRv, optRv, NodeFullExpression.rv]

/-- parser.lalrpop 979 -/
theorem act_exprMatch {w : List STok} (hw : w = ⟨s1, .match_, e1⟩ :: (w1 ++ ⟨s2, .with_, e2⟩ :: (w2 ++ [⟨s3, .end_, e3⟩]))) {x : Val .varId} {cs : Val (.plus .pmExprClause)} :
    (fileActions[69]?.bind fun act => act.value (actArgs [([⟨s1, .match_, e1⟩], .str (Token.text (.match_))), (w1, rv .varId x), ([⟨s2, .with_, e2⟩], .str (Token.text (.with_))), (w2, rv (.plus .pmExprClause) cs), ([⟨s3, .end_, e3⟩], .str (Token.text (.end_)))])) = some (rv .fullExpr (mkW w (.match_ x cs))) := by
  refine value_marked (w := w) rfl (by simp [inputOf, hw]) ?_
  rvsimp
  rfl

/-- parser.lalrpop 988 -/
theorem act_exprConstr {w : List STok} (hw : w = w1 ++ (w2 ++ w3)) {m : Val .metaId} {targs : Val (.opt .contractTypeArgs)} {args : Val (.star .varId)} :
    (fileActions[70]?.bind fun act => act.value (actArgs [(w1, rv .metaId m), (w2, rv (.opt .contractTypeArgs) targs), (w3, rv (.star .varId) args)])) = some (rv .fullExpr (mkW w (.constructorCall m targs args))) := by
  refine value_marked (w := w) rfl (by simp [inputOf, hw]) ?_
  rvsimp
  rfl

/-- parser.lalrpop 995 -/
theorem act_exprTFun {w : List STok} (hw : w = ⟨s1, .tfun, e1⟩ :: (w1 ++ ⟨s2, .doubleArrow, e2⟩ :: w2)) {x : Val .templateId} {ex : Val .fullExpr} :
    (fileActions[71]?.bind fun act => act.value (actArgs [([⟨s1, .tfun, e1⟩], .str (Token.text (.tfun))), (w1, rv .templateId x), ([⟨s2, .doubleArrow, e2⟩], .str (Token.text (.doubleArrow))), (w2, rv .fullExpr ex)])) = some (rv .fullExpr (mkW w (.templateFunction x ex))) := by
  refine value_marked (w := w) rfl (by simp [inputOf, hw]) ?_
  rvsimp
  rfl

/-- parser.lalrpop 1001 -/
theorem act_exprTApp {w : List STok} (hw : w = ⟨s1, .at_, e1⟩ :: (w1 ++ w2)) {x : Val .varId} {args : Val (.plus .typeArg)} :
    (fileActions[72]?.bind fun act => act.value (actArgs [([⟨s1, .at_, e1⟩], .str (Token.text (.at_))), (w1, rv .varId x), (w2, rv (.plus .typeArg) args)])) = some (rv .fullExpr (mkW w (.tApp x args))) := by
  refine value_marked (w := w) rfl (by simp [inputOf, hw]) ?_
  rvsimp
  rfl

/-- parser.lalrpop 1022 -/
theorem act_pmExprClause {w : List STok} (hw : w = ⟨s1, .pipe, e1⟩ :: (w1 ++ ⟨s2, .doubleArrow, e2⟩ :: w2)) {p : Val .pattern} {ex : Val .fullExpr} :
    (fileActions[73]?.bind fun act => act.value (actArgs [([⟨s1, .pipe, e1⟩], .str (Token.text (.pipe))), (w1, rv .pattern p), ([⟨s2, .doubleArrow, e2⟩], .str (Token.text (.doubleArrow))), (w2, rv .fullExpr ex)])) = some (rv .pmExprClause (mkW w (.mk p ex))) := by
  refine value_marked (w := w) rfl (by simp [inputOf, hw]) ?_
  rvsimp
  rfl

/-- parser.lalrpop 1045 -/
theorem act_patWildcard {w : List STok} (hw : w = [⟨s1, .underscore, e1⟩])  :
    (fileActions[74]?.bind fun act => act.value (actArgs [([⟨s1, .underscore, e1⟩], .str (Token.text (.underscore)))])) = some (rv .pattern (mkW w .wildcard)) := by
  refine value_marked (w := w) rfl (by simp [inputOf, hw]) ?_
  rvsimp
  rfl

/-- parser.lalrpop 1051 -/
theorem act_patBinder {x : Val .regularId} :
    (fileActions[75]?.bind fun act => act.value (actArgs [(w, rv .regularId x)])) = some (rv .pattern (mkW w (.binder x))) := by
  refine value_marked (w := w) rfl (by simp [inputOf]) ?_
  rvsimp
  rfl

/-- parser.lalrpop 1057 -/
theorem act_patConstr {w : List STok} (hw : w = w1 ++ w2) {m : Val .metaId} {args : Val (.star .argPattern)} :
    (fileActions[76]?.bind fun act => act.value (actArgs [(w1, rv .metaId m), (w2, rv (.star .argPattern) args)])) = some (rv .pattern (mkW w (.constructor m args))) := by
  refine value_marked (w := w) rfl (by simp [inputOf, hw]) ?_
  rvsimp
  rfl

/-- parser.lalrpop 1080 -/
theorem act_apWildcard {w : List STok} (hw : w = [⟨s1, .underscore, e1⟩])  :
    (fileActions[77]?.bind fun act => act.value (actArgs [([⟨s1, .underscore, e1⟩], .str (Token.text (.underscore)))])) = some (rv .argPattern (mkW w .wildcardArgument)) := by
  refine value_marked (w := w) rfl (by simp [inputOf, hw]) ?_
  rvsimp
  rfl

/-- parser.lalrpop 1086 -/
theorem act_apBinder {x : Val .regularId} :
    (fileActions[78]?.bind fun act => act.value (actArgs [(w, rv .regularId x)])) = some (rv .argPattern (mkW w (.binderArgument x))) := by
  refine value_marked (w := w) rfl (by simp [inputOf]) ?_
  rvsimp
  rfl

/-- parser.lalrpop 1092 -/
theorem act_apConstr {m : Val .metaId} :
    (fileActions[79]?.bind fun act => act.value (actArgs [(w, rv .metaId m)])) = some (rv .argPattern (mkW w (.constructorArgument m))) := by
  refine value_marked (w := w) rfl (by simp [inputOf]) ?_
  rvsimp
  rfl

/-- parser.lalrpop 1098 -/
theorem act_apParen {w : List STok} (hw : w = ⟨s1, .openParen, e1⟩ :: (w1 ++ [⟨s2, .closeParen, e2⟩])) {p : Val .pattern} :
    (fileActions[80]?.bind fun act => act.value (actArgs [([⟨s1, .openParen, e1⟩], .str (Token.text (.openParen))), (w1, rv .pattern p), ([⟨s2, .closeParen, e2⟩], .str (Token.text (.closeParen)))])) = some (rv .argPattern (mkW w (.patternArgument p))) := by
  refine value_marked (w := w) rfl (by simp [inputOf, hw]) ?_
  rvsimp
  rfl

/-- parser.lalrpop 1120 -/
theorem act_nextMessage {w : List STok} (hw : w = ⟨s1, .semicolon, e1⟩ :: w1) {m : Val .messageEntry} :
    (fileActions[81]?.bind fun act => act.value (actArgs [([⟨s1, .semicolon, e1⟩], .str (Token.text (.semicolon))), (w1, rv .messageEntry m)])) = some (rv .nextMessage m) := by
  refine value_plain ?_
  rvsimp
  rfl

/-- parser.lalrpop 1124 -/
theorem act_msgLiteral {w : List STok} (hw : w = w1 ++ ⟨s1, .colon, e1⟩ :: w2) {i : Val .varId} {v : Val .valueLit} :
    (fileActions[82]?.bind fun act => act.value (actArgs [(w1, rv .varId i), ([⟨s1, .colon, e1⟩], .str (Token.text (.colon))), (w2, rv .valueLit v)])) = some (rv .messageEntry (mkW w (.messageLiteral i v))) := by
  refine value_marked (w := w) rfl (by simp [inputOf, hw]) ?_
  rvsimp
  rfl

/-- parser.lalrpop 1130 -/
theorem act_msgVariable {w : List STok} (hw : w = w1 ++ ⟨s1, .colon, e1⟩ :: w2) {i : Val .varId} {v : Val .varId} :
    (fileActions[83]?.bind fun act => act.value (actArgs [(w1, rv .varId i), ([⟨s1, .colon, e1⟩], .str (Token.text (.colon))), (w2, rv .varId v)])) = some (rv .messageEntry (mkW w (.messageVariable i v))) := by
  refine value_marked (w := w) rfl (by simp [inputOf, hw]) ?_
  rvsimp
  rfl

/-- parser.lalrpop 1147 -/
theorem act_atomicVar {v : Val .varId} :
    (fileActions[84]?.bind fun act => act.value (actArgs [(w, rv .varId v)])) = some (rv .atomic (mkW w (.atomicSid v))) := by
  refine value_marked (w := w) rfl (by simp [inputOf]) ?_
  rvsimp
  rfl

/-- parser.lalrpop 1153 -/
theorem act_atomicLit {v : Val .valueLit} :
    (fileActions[85]?.bind fun act => act.value (actArgs [(w, rv .valueLit v)])) = some (rv .atomic (mkW w (.atomicLit v))) := by
  refine value_marked (w := w) rfl (by simp [inputOf]) ?_
  rvsimp
  rfl

/-- parser.lalrpop 1181 -/
theorem act_litInt {w : List STok} (hw : w = w1 ++ w2) {t : Val .typeName} {n : Val .signedInt} :
    (fileActions[86]?.bind fun act => act.value (actArgs [(w1, rv .typeName t), (w2, rv .signedInt n)])) = some (rv .valueLit (mkW w (.literalInt t n))) := by
  refine value_marked (w := w) rfl (by simp [inputOf, hw]) ?_
  rvsimp
  rfl

/-- parser.lalrpop 1187 -/
theorem act_litHex {x : Val .hexNumber} :
    (fileActions[87]?.bind fun act => act.value (actArgs [(w, rv .hexNumber x)])) = some (rv .valueLit (mkW w (.literalHex x))) := by
  refine value_marked (w := w) rfl (by simp [inputOf]) ?_
  rvsimp
  rfl

/-- parser.lalrpop 1193 -/
theorem act_litString {x : Val .stringLit} :
    (fileActions[88]?.bind fun act => act.value (actArgs [(w, rv .stringLit x)])) = some (rv .valueLit (mkW w (.literalString x))) := by
  refine value_marked (w := w) rfl (by simp [inputOf]) ?_
  rvsimp
  rfl

/-- parser.lalrpop 1199 -/
theorem act_litEmp {w : List STok} (hw : w = ⟨s1, .emp, e1⟩ :: (w1 ++ w2)) {k : Val .mapKey} {v : Val .mapValue} :
    (fileActions[89]?.bind fun act => act.value (actArgs [([⟨s1, .emp, e1⟩], .str (Token.text (.emp))), (w1, rv .mapKey k), (w2, rv .mapValue v)])) = some (rv .valueLit (mkW w (.literalEmptyMap k v))) := by
  refine value_marked (w := w) rfl (by simp [inputOf, hw]) ?_
  rvsimp
  rfl

/-- parser.lalrpop 1240 -/
theorem act_stLoad {w : List STok} (hw : w = w1 ++ ⟨s1, .leftArrow, e1⟩ :: w2) {x : Val .regularId} {v : Val .varId} :
    (fileActions[90]?.bind fun act => act.value (actArgs [(w1, rv .regularId x), ([⟨s1, .leftArrow, e1⟩], .str (Token.text (.leftArrow))), (w2, rv .varId v)])) = some (rv .statement (.load x v)) := by
  refine value_plain ?_
  rvsimp
  rfl

/-- parser.lalrpop 1245 -/
theorem act_stRemote {r : Val .remoteFetch} :
    (fileActions[91]?.bind fun act => act.value (actArgs [(w, rv .remoteFetch r)])) = some (rv .statement (.remoteFetch r)) := by
  refine value_plain ?_
  rvsimp
  rfl

/-- parser.lalrpop 1246 -/
theorem act_stStore {w : List STok} (hw : w = w1 ++ ⟨s1, .colonEquals, e1⟩ :: w2) {x : Val .regularId} {v : Val .varId} :
    (fileActions[92]?.bind fun act => act.value (actArgs [(w1, rv .regularId x), ([⟨s1, .colonEquals, e1⟩], .str (Token.text (.colonEquals))), (w2, rv .varId v)])) = some (rv .statement (.store x v)) := by
  refine value_plain ?_
  rvsimp
  rfl

/-- parser.lalrpop 1251 -/
theorem act_stBind {w : List STok} (hw : w = w1 ++ ⟨s1, .equals, e1⟩ :: w2) {x : Val .regularId} {ex : Val .fullExpr} :
    (fileActions[93]?.bind fun act => act.value (actArgs [(w1, rv .regularId x), ([⟨s1, .equals, e1⟩], .str (Token.text (.equals))), (w2, rv .fullExpr ex)])) = some (rv .statement (.bind x ex)) := by
  refine value_plain ?_
  rvsimp
  rfl

/-- parser.lalrpop 1257 -/
theorem act_stReadBC {w : List STok} (hw : w = w1 ++ ⟨s1, .leftArrow, e1⟩ :: ⟨s2, .ampersand, e2⟩ :: (w2 ++ w3)) {x : Val .regularId} {t : Val .typeName} {args : Val (.opt .bcFetchArgs)} :
    (fileActions[94]?.bind fun act => act.value (actArgs [(w1, rv .regularId x), ([⟨s1, .leftArrow, e1⟩], .str (Token.text (.leftArrow))), ([⟨s2, .ampersand, e2⟩], .str (Token.text (.ampersand))), (w2, rv .typeName t), (w3, rv (.opt .bcFetchArgs) args)])) = some (rv .statement (.readFromBC x t args)) := by
  refine value_plain ?_
  rvsimp
  rfl

/-- parser.lalrpop 1263 -/
theorem act_stMapGet {w : List STok} (hw : w = w1 ++ ⟨s1, .leftArrow, e1⟩ :: (w2 ++ w3)) {x : Val .regularId} {y : Val .regularId} {ks : Val (.plus .mapAccess)} :
    (fileActions[95]?.bind fun act => act.value (actArgs [(w1, rv .regularId x), ([⟨s1, .leftArrow, e1⟩], .str (Token.text (.leftArrow))), (w2, rv .regularId y), (w3, rv (.plus .mapAccess) ks)])) = some (rv .statement (.mapGet x ks y)) := by
  refine value_plain ?_
  rvsimp
  rfl

/-- parser.lalrpop 1269 -/
theorem act_stMapGetExists {w : List STok} (hw : w = w1 ++ ⟨s1, .leftArrow, e1⟩ :: ⟨s2, .exists_, e2⟩ :: (w2 ++ w3)) {x : Val .regularId} {y : Val .regularId} {ks : Val (.plus .mapAccess)} :
    (fileActions[96]?.bind fun act => act.value (actArgs [(w1, rv .regularId x), ([⟨s1, .leftArrow, e1⟩], .str (Token.text (.leftArrow))), ([⟨s2, .exists_, e2⟩], .str (Token.text (.exists_))), (w2, rv .regularId y), (w3, rv (.plus .mapAccess) ks)])) = some (rv .statement (.mapGetExists x ks y)) := by
  refine value_plain ?_
  rvsimp
  rfl

/-- parser.lalrpop 1275 -/
theorem act_stMapUpdate {w : List STok} (hw : w = w1 ++ (w2 ++ ⟨s1, .colonEquals, e1⟩ :: w3)) {x : Val .regularId} {ks : Val (.plus .mapAccess)} {v : Val .varId} :
    (fileActions[97]?.bind fun act => act.value (actArgs [(w1, rv .regularId x), (w2, rv (.plus .mapAccess) ks), ([⟨s1, .colonEquals, e1⟩], .str (Token.text (.colonEquals))), (w3, rv .varId v)])) = some (rv .statement (.mapUpdate x ks v)) := by
  refine value_plain ?_
  rvsimp
  rfl

/-- parser.lalrpop 1281 -/
theorem act_stMapDelete {w : List STok} (hw : w = ⟨s1, .delete, e1⟩ :: (w1 ++ w2)) {x : Val .regularId} {ks : Val (.plus .mapAccess)} :
    (fileActions[98]?.bind fun act => act.value (actArgs [([⟨s1, .delete, e1⟩], .str (Token.text (.delete))), (w1, rv .regularId x), (w2, rv (.plus .mapAccess) ks)])) = some (rv .statement (.mapUpdateDelete x ks)) := by
  refine value_plain ?_
  rvsimp
  rfl

/-- parser.lalrpop 1286 -/
theorem act_stAccept {w : List STok} (hw : w = [⟨s1, .accept, e1⟩])  :
    (fileActions[99]?.bind fun act => act.value (actArgs [([⟨s1, .accept, e1⟩], .str (Token.text (.accept)))])) = some (rv .statement .accept) := by
  refine value_plain ?_
  rvsimp
  rfl

/-- parser.lalrpop 1287 -/
theorem act_stSend {w : List STok} (hw : w = ⟨s1, .send, e1⟩ :: w1) {v : Val .varId} :
    (fileActions[100]?.bind fun act => act.value (actArgs [([⟨s1, .send, e1⟩], .str (Token.text (.send))), (w1, rv .varId v)])) = some (rv .statement (.send v)) := by
  refine value_plain ?_
  rvsimp
  rfl

/-- parser.lalrpop 1290 -/
theorem act_stEvent {w : List STok} (hw : w = ⟨s1, .event, e1⟩ :: w1) {v : Val .varId} :
    (fileActions[101]?.bind fun act => act.value (actArgs [([⟨s1, .event, e1⟩], .str (Token.text (.event))), (w1, rv .varId v)])) = some (rv .statement (.createEvnt v)) := by
  refine value_plain ?_
  rvsimp
  rfl

/-- parser.lalrpop 1293 -/
theorem act_stThrow {w : List STok} (hw : w = ⟨s1, .throw, e1⟩ :: w1) {v : Val (.opt .varId)} :
    (fileActions[102]?.bind fun act => act.value (actArgs [([⟨s1, .throw, e1⟩], .str (Token.text (.throw))), (w1, rv (.opt .varId) v)])) = some (rv .statement (.throw v)) := by
  refine value_plain ?_
  rvsimp
  rfl

/-- parser.lalrpop 1296 -/
theorem act_stMatch {w : List STok} (hw : w = ⟨s1, .match_, e1⟩ :: (w1 ++ ⟨s2, .with_, e2⟩ :: (w2 ++ [⟨s3, .end_, e3⟩]))) {x : Val .varId} {cs : Val (.plus .pmClause)} :
    (fileActions[103]?.bind fun act => act.value (actArgs [([⟨s1, .match_, e1⟩], .str (Token.text (.match_))), (w1, rv .varId x), ([⟨s2, .with_, e2⟩], .str (Token.text (.with_))), (w2, rv (.plus .pmClause) cs), ([⟨s3, .end_, e3⟩], .str (Token.text (.end_)))])) = some (rv .statement (.matchStmt x cs)) := by
  refine value_plain ?_
  rvsimp
  rfl

/-- parser.lalrpop 1300 -/
theorem act_stCall {w : List STok} (hw : w = w1 ++ w2) {c : Val .componentId} {args : Val (.star .varId)} :
    (fileActions[104]?.bind fun act => act.value (actArgs [(w1, rv .componentId c), (w2, rv (.star .varId) args)])) = some (rv .statement (.callProc c args)) := by
  refine value_plain ?_
  rvsimp
  rfl

/-- parser.lalrpop 1305 -/
theorem act_stForall {w : List STok} (hw : w = ⟨s1, .forall_, e1⟩ :: (w1 ++ w2)) {x : Val .varId} {c : Val .componentId} :
    (fileActions[105]?.bind fun act => act.value (actArgs [([⟨s1, .forall_, e1⟩], .str (Token.text (.forall_))), (w1, rv .varId x), (w2, rv .componentId c)])) = some (rv .statement (.iterate x c)) := by
  refine value_plain ?_
  rvsimp
  rfl

/-- parser.lalrpop 1313 -/
theorem act_nextStatement {w : List STok} (hw : w = ⟨s1, .semicolon, e1⟩ :: w1) {st : Val .statement} :
    (fileActions[106]?.bind fun act => act.value (actArgs [([⟨s1, .semicolon, e1⟩], .str (Token.text (.semicolon))), (w1, rv .statement st)])) = some (rv .nextStatement st) := by
  refine value_plain ?_
  rvsimp
  rfl

/-- parser.lalrpop 1330 -/
theorem act_stmtBlock {w : List STok} (hw : w = w1 ++ w2) {st : Val .statement} {sts : Val (.star .nextStatement)} :
    (fileActions[107]?.bind fun act => act.value (actArgs [(w1, rv .statement st), (w2, rv (.star .nextStatement) sts)])) = some (rv .stmtBlock (mkW w (.mk (st :: sts)))) := by
  refine value_marked (w := w) rfl (by simp [inputOf, hw]) ?_
  simp [Ex.eval, Ex.evals, exec_let, exec_push, exec_loop, exec_ifSome, St.execs, Scope.get, Scope.set, bindNames, RV.get, RV.set, RV.pushAt, RV.option, RV.none, RV.some, rv, mkW, W.rv, vecRv, optRv, NodeStatementBlock.rv, lNodeStatement_eq]

/-- parser.lalrpop 1359 -/
theorem act_bcFetchArgs {w : List STok} (hw : w = ⟨s1, .openParen, e1⟩ :: (w1 ++ [⟨s2, .closeParen, e2⟩])) {args : Val (.plus .varId)} :
    (fileActions[108]?.bind fun act => act.value (actArgs [([⟨s1, .openParen, e1⟩], .str (Token.text (.openParen))), (w1, rv (.plus .varId) args), ([⟨s2, .closeParen, e2⟩], .str (Token.text (.closeParen)))])) = some (rv .bcFetchArgs ⟨args⟩) := by
  refine value_plain ?_
  rvsimp
  rfl

/-- parser.lalrpop 1378 -/
theorem act_componentType {n : Val .typeName} :
    (fileActions[109]?.bind fun act => act.value (actArgs [(w, rv .typeName n)])) = some (rv .componentId (mkW w (.withTypeLikeName n))) := by
  refine value_marked (w := w) rfl (by simp [inputOf]) ?_
  rvsimp
  rfl

/-- parser.lalrpop 1384 -/
theorem act_componentRegular {x : Val .regularId} :
    (fileActions[110]?.bind fun act => act.value (actArgs [(w, rv .regularId x)])) = some (rv .componentId (mkW w (.withRegularId x))) := by
  refine value_marked (w := w) rfl (by simp [inputOf]) ?_
  rvsimp
  rfl

/-- parser.lalrpop 1407 -/
theorem act_pmClause {w : List STok} (hw : w = ⟨s1, .pipe, e1⟩ :: (w1 ++ ⟨s2, .doubleArrow, e2⟩ :: w2)) {p : Val .pattern} {b : Val (.opt .stmtBlock)} :
    (fileActions[111]?.bind fun act => act.value (actArgs [([⟨s1, .pipe, e1⟩], .str (Token.text (.pipe))), (w1, rv .pattern p), ([⟨s2, .doubleArrow, e2⟩], .str (Token.text (.doubleArrow))), (w2, rv (.opt .stmtBlock) b)])) = some (rv .pmClause (mkW w (.mk p b))) := by
  refine value_marked (w := w) rfl (by simp [inputOf, hw]) ?_
  rvsimp
  rfl

/-- parser.lalrpop 1441 -/
theorem act_rfState {w : List STok} (hw : w = w1 ++ ⟨s1, .leftArrow, e1⟩ :: ⟨s2, .ampersand, e2⟩ :: (w2 ++ ⟨s3, .dot, e3⟩ :: w3)) {x : Val .regularId} {a : Val .regularId} {v : Val .varId} :
    (fileActions[112]?.bind fun act => act.value (actArgs [(w1, rv .regularId x), ([⟨s1, .leftArrow, e1⟩], .str (Token.text (.leftArrow))), ([⟨s2, .ampersand, e2⟩], .str (Token.text (.ampersand))), (w2, rv .regularId a), ([⟨s3, .dot, e3⟩], .str (Token.text (.dot))), (w3, rv .varId v)])) = some (rv .remoteFetch (.readStateMutable x a v)) := by
  refine value_plain ?_
  rvsimp
  rfl

/-- parser.lalrpop 1448 -/
theorem act_rfSpecial {w : List STok} (hw : w = w1 ++ ⟨s1, .leftArrow, e1⟩ :: ⟨s2, .ampersand, e2⟩ :: (w2 ++ ⟨s3, .dot, e3⟩ :: w3)) {x : Val .regularId} {a : Val .specialId} {m : Val .specialId} :
    (fileActions[113]?.bind fun act => act.value (actArgs [(w1, rv .regularId x), ([⟨s1, .leftArrow, e1⟩], .str (Token.text (.leftArrow))), ([⟨s2, .ampersand, e2⟩], .str (Token.text (.ampersand))), (w2, rv .specialId a), ([⟨s3, .dot, e3⟩], .str (Token.text (.dot))), (w3, rv .specialId m)])) = some (rv .remoteFetch (.readStateMutableSpecialId x a m)) := by
  refine value_plain ?_
  rvsimp
  rfl

/-- parser.lalrpop 1455 -/
theorem act_rfMap {w : List STok} (hw : w = w1 ++ ⟨s1, .leftArrow, e1⟩ :: ⟨s2, .ampersand, e2⟩ :: (w2 ++ ⟨s3, .dot, e3⟩ :: (w3 ++ w4))) {x : Val .regularId} {a : Val .regularId} {m : Val .regularId} {ks : Val (.plus .mapAccess)} :
    (fileActions[114]?.bind fun act => act.value (actArgs [(w1, rv .regularId x), ([⟨s1, .leftArrow, e1⟩], .str (Token.text (.leftArrow))), ([⟨s2, .ampersand, e2⟩], .str (Token.text (.ampersand))), (w2, rv .regularId a), ([⟨s3, .dot, e3⟩], .str (Token.text (.dot))), (w3, rv .regularId m), (w4, rv (.plus .mapAccess) ks)])) = some (rv .remoteFetch (.readStateMutableMapAccess x a m ks)) := by
  refine value_plain ?_
  rvsimp
  rfl

/-- parser.lalrpop 1466 -/
theorem act_rfExists {w : List STok} (hw : w = w1 ++ ⟨s1, .leftArrow, e1⟩ :: ⟨s2, .ampersand, e2⟩ :: ⟨s4, .exists_, e4⟩ :: (w2 ++ ⟨s3, .dot, e3⟩ :: (w3 ++ w4))) {x : Val .regularId} {a : Val .regularId} {m : Val .regularId} {ks : Val (.plus .mapAccess)} :
    (fileActions[115]?.bind fun act => act.value (actArgs [(w1, rv .regularId x), ([⟨s1, .leftArrow, e1⟩], .str (Token.text (.leftArrow))), ([⟨s2, .ampersand, e2⟩], .str (Token.text (.ampersand))), ([⟨s4, .exists_, e4⟩], .str (Token.text (.exists_))), (w2, rv .regularId a), ([⟨s3, .dot, e3⟩], .str (Token.text (.dot))), (w3, rv .regularId m), (w4, rv (.plus .mapAccess) ks)])) = some (rv .remoteFetch (.readStateMutableMapAccessExists x a m ks)) := by
  refine value_plain ?_
  rvsimp
  rfl

/-- parser.lalrpop 1477 -/
theorem act_rfCast {w : List STok} (hw : w = w1 ++ ⟨s1, .leftArrow, e1⟩ :: ⟨s2, .ampersand, e2⟩ :: (w2 ++ ⟨s3, .as_, e3⟩ :: w3)) {x : Val .regularId} {v : Val .varId} {a : Val .addressType} :
    (fileActions[116]?.bind fun act => act.value (actArgs [(w1, rv .regularId x), ([⟨s1, .leftArrow, e1⟩], .str (Token.text (.leftArrow))), ([⟨s2, .ampersand, e2⟩], .str (Token.text (.ampersand))), (w2, rv .varId v), ([⟨s3, .as_, e3⟩], .str (Token.text (.as_))), (w3, rv .addressType a)])) = some (rv .remoteFetch (.readStateMutableCastAddress x v a)) := by
  refine value_plain ?_
  rvsimp
  rfl

/-- parser.lalrpop 1498 -/
theorem act_mapAccess {w : List STok} (hw : w = ⟨s1, .openBracket, e1⟩ :: (w1 ++ [⟨s2, .closeBracket, e2⟩])) {x : Val .varId} :
    (fileActions[117]?.bind fun act => act.value (actArgs [([⟨s1, .openBracket, e1⟩], .str (Token.text (.openBracket))), (w1, rv .varId x), ([⟨s2, .closeBracket, e2⟩], .str (Token.text (.closeBracket)))])) = some (rv .mapAccess (mkW w ⟨x⟩)) := by
  refine value_marked (w := w) rfl (by simp [inputOf, hw]) ?_
  rvsimp
  rfl

/-- parser.lalrpop 1517 -/
theorem act_paramPair {t : Val .typedId} :
    (fileActions[118]?.bind fun act => act.value (actArgs [(w, rv .typedId t)])) = some (rv .paramPair (mkW w ⟨t⟩)) := by
  refine value_marked (w := w) rfl (by simp [inputOf]) ?_
  rvsimp
  rfl

/-- parser.lalrpop 1529 -/
theorem act_nextParamPair {w : List STok} (hw : w = ⟨s1, .comma, e1⟩ :: w1) {p : Val .paramPair} :
    (fileActions[119]?.bind fun act => act.value (actArgs [([⟨s1, .comma, e1⟩], .str (Token.text (.comma))), (w1, rv .paramPair p)])) = some (rv .nextParamPair p) := by
  refine value_plain ?_
  rvsimp
  rfl

/-- parser.lalrpop 1544 -/
theorem act_compParams {w : List STok} (hw : w = ⟨s1, .openParen, e1⟩ :: (w1 ++ (w2 ++ [⟨s2, .closeParen, e2⟩]))) {p : Val (.opt .paramPair)} {ps : Val (.star .nextParamPair)} :
    (fileActions[120]?.bind fun act => act.value (actArgs [([⟨s1, .openParen, e1⟩], .str (Token.text (.openParen))), (w1, rv (.opt .paramPair) p), (w2, rv (.star .nextParamPair) ps), ([⟨s2, .closeParen, e2⟩], .str (Token.text (.closeParen)))])) = some (rv .compParams (mkW w ⟨p.toList ++ ps⟩)) := by
  refine value_marked (w := w) rfl (by simp [inputOf, hw]) ?_
  cases p <;> simp [Ex.eval, Ex.evals, exec_let, exec_push, exec_loop, exec_ifSome, St.execs, Scope.get, Scope.set, bindNames, RV.get, RV.set, RV.pushAt, RV.option, RV.none, RV.some, rv, mkW, W.rv, vecRv, optRv, NodeComponentParameters.rv]

/-- parser.lalrpop 1578 -/
theorem act_compTransition {d : Val .transDef} :
    (fileActions[121]?.bind fun act => act.value (actArgs [(w, rv .transDef d)])) = some (rv .compDef (mkW w (.transitionComponent d))) := by
  refine value_marked (w := w) rfl (by simp [inputOf]) ?_
  rvsimp
  rfl

/-- parser.lalrpop 1584 -/
theorem act_compProcedure {d : Val .procDef} :
    (fileActions[122]?.bind fun act => act.value (actArgs [(w, rv .procDef d)])) = some (rv .compDef (mkW w (.procedureComponent d))) := by
  refine value_marked (w := w) rfl (by simp [inputOf]) ?_
  rvsimp
  rfl

/-- parser.lalrpop 1604 -/
theorem act_transDef {w : List STok} (hw : w = ⟨s1, .transition, e1⟩ :: (w1 ++ (w2 ++ w3))) {n : Val .componentId} {ps : Val .compParams} {b : Val .compBody} :
    (fileActions[123]?.bind fun act => act.value (actArgs [([⟨s1, .transition, e1⟩], .str (Token.text (.transition))), (w1, rv .componentId n), (w2, rv .compParams ps), (w3, rv .compBody b)])) = some (rv .transDef (mkW w ⟨n, ps, b⟩)) := by
  refine value_marked (w := w) rfl (by simp [inputOf, hw]) ?_
  rvsimp
  rfl

/-- parser.lalrpop 1624 -/
theorem act_procDef {w : List STok} (hw : w = ⟨s1, .procedure, e1⟩ :: (w1 ++ (w2 ++ w3))) {n : Val .componentId} {ps : Val .compParams} {b : Val .compBody} :
    (fileActions[124]?.bind fun act => act.value (actArgs [([⟨s1, .procedure, e1⟩], .str (Token.text (.procedure))), (w1, rv .componentId n), (w2, rv .compParams ps), (w3, rv .compBody b)])) = some (rv .procDef (mkW w ⟨n, ps, b⟩)) := by
  refine value_marked (w := w) rfl (by simp [inputOf, hw]) ?_
  rvsimp
  rfl

/-- parser.lalrpop 1647 -/
theorem act_compBody {w : List STok} (hw : w = w1 ++ [⟨s1, .end_, e1⟩]) {b : Val (.opt .stmtBlock)} :
    (fileActions[125]?.bind fun act => act.value (actArgs [(w1, rv (.opt .stmtBlock) b), ([⟨s1, .end_, e1⟩], .str (Token.text (.end_)))])) = some (rv .compBody (mkW w ⟨b⟩)) := by
  refine value_marked (w := w) rfl (by simp [inputOf, hw]) ?_
  rvsimp
  rfl

/-- parser.lalrpop 1672 -/
theorem act_contractDef {w : List STok} (hw : w = ⟨s1, .contract, e1⟩ :: (w1 ++ (w2 ++ (w3 ++ (w4 ++ w5))))) {n : Val .typeName} {ps : Val .compParams} {c : Val (.opt .withConstraint)} {fs : Val (.star .contractField)} {cs : Val (.star .compDef)} :
    (fileActions[126]?.bind fun act => act.value (actArgs [([⟨s1, .contract, e1⟩], .str (Token.text (.contract))), (w1, rv .typeName n), (w2, rv .compParams ps), (w3, rv (.opt .withConstraint) c), (w4, rv (.star .contractField) fs), (w5, rv (.star .compDef) cs)])) = some (rv .contractDef (mkW w ⟨n, ps, c, fs, cs⟩)) := by
  refine value_marked (w := w) rfl (by simp [inputOf, hw]) ?_
  rvsimp
  rfl

/-- parser.lalrpop 1706 -/
theorem act_contractField {w : List STok} (hw : w = ⟨s1, .field, e1⟩ :: (w1 ++ ⟨s2, .equals, e2⟩ :: w2)) {t : Val .typedId} {ex : Val .fullExpr} :
    (fileActions[127]?.bind fun act => act.value (actArgs [([⟨s1, .field, e1⟩], .str (Token.text (.field))), (w1, rv .typedId t), ([⟨s2, .equals, e2⟩], .str (Token.text (.equals))), (w2, rv .fullExpr ex)])) = some (rv .contractField (mkW w ⟨t, ex⟩)) := by
  refine value_marked (w := w) rfl (by simp [inputOf, hw]) ?_
  rvsimp
  rfl

/-- parser.lalrpop 1725 -/
theorem act_withConstraint {w : List STok} (hw : w = ⟨s1, .with_, e1⟩ :: (w1 ++ [⟨s2, .doubleArrow, e2⟩])) {ex : Val .fullExpr} :
    (fileActions[128]?.bind fun act => act.value (actArgs [([⟨s1, .with_, e1⟩], .str (Token.text (.with_))), (w1, rv .fullExpr ex), ([⟨s2, .doubleArrow, e2⟩], .str (Token.text (.doubleArrow)))])) = some (rv .withConstraint (mkW w ⟨ex⟩)) := by
  refine value_marked (w := w) rfl (by simp [inputOf, hw]) ?_
  rvsimp
  rfl

/-- parser.lalrpop 1736 -/
theorem act_hexNumber {w : List STok} (hw : w = [⟨s, .hexNumber x, e⟩])  :
    (fileActions[129]?.bind fun act => act.value (actArgs [([⟨s, .hexNumber x, e⟩], .str (Token.text (.hexNumber x)))])) = some (rv .hexNumber (mkW w x)) := by
  refine value_marked (w := w) rfl (by simp [inputOf, hw]) ?_
  rvsimp
  rfl

/-- parser.lalrpop 1756 -/
theorem act_signedInt {w : List STok} (hw : w = [⟨s, .number x, e⟩])  :
    (fileActions[130]?.bind fun act => act.value (actArgs [([⟨s, .number x, e⟩], .str (Token.text (.number x)))])) = some (rv .signedInt (mkW w x)) := by
  refine value_marked (w := w) rfl (by simp [inputOf, hw]) ?_
  rvsimp
  rfl

/-- parser.lalrpop 1775 -/
theorem act_regularId {w : List STok} (hw : w = [⟨s, .identifier x, e⟩])  :
    (fileActions[131]?.bind fun act => act.value (actArgs [([⟨s, .identifier x, e⟩], .str (Token.text (.identifier x)))])) = some (rv .regularId (mkW w x)) := by
  refine value_marked (w := w) rfl (by simp [inputOf, hw]) ?_
  rvsimp
  rfl

/-- parser.lalrpop 1791 -/
theorem act_specialId {w : List STok} (hw : w = [⟨s, .specialIdentifier x, e⟩])  :
    (fileActions[132]?.bind fun act => act.value (actArgs [([⟨s, .specialIdentifier x, e⟩], .str (Token.text (.specialIdentifier x)))])) = some (rv .specialId (mkW w x)) := by
  refine value_marked (w := w) rfl (by simp [inputOf, hw]) ?_
  rvsimp
  rfl

/-- parser.lalrpop 1810 -/
theorem act_customId {w : List STok} (hw : w = [⟨s, .customIdentifier x, e⟩])  :
    (fileActions[133]?.bind fun act => act.value (actArgs [([⟨s, .customIdentifier x, e⟩], .str (Token.text (.customIdentifier x)))])) = some (rv .customId (mkW w x)) := by
  refine value_marked (w := w) rfl (by simp [inputOf, hw]) ?_
  rvsimp
  rfl

/-- parser.lalrpop 1818 -/
theorem act_templateId {w : List STok} (hw : w = [⟨s, .templateIdentifier x, e⟩])  :
    (fileActions[134]?.bind fun act => act.value (actArgs [([⟨s, .templateIdentifier x, e⟩], .str (Token.text (.templateIdentifier x)))])) = some (rv .templateId (mkW w x)) := by
  refine value_marked (w := w) rfl (by simp [inputOf, hw]) ?_
  rvsimp
  rfl

/-- parser.lalrpop 1826 -/
theorem act_stringLit {w : List STok} (hw : w = [⟨s, .stringLiteral x, e⟩])  :
    (fileActions[135]?.bind fun act => act.value (actArgs [([⟨s, .stringLiteral x, e⟩], .str (Token.text (.stringLiteral x)))])) = some (rv .stringLit (mkW w x)) := by
  refine value_marked (w := w) rfl (by simp [inputOf, hw]) ?_
  rvsimp
  rfl

end

end Verif
