import Verif.Proofs.Unparse
/-
The tokens of a tree (`unparse`) derive the same tree.  Generated by tools/gen_unparse.py.
-/
namespace Verif

set_option linter.unusedSimpArgs false
set_option maxHeartbeats 1000000

/-- a token without position -/
def STok.at0 (t : Token) : STok := ⟨default, t, default⟩

/-- no special identifier that an address type would take for something else -/
def Decent (w : List STok) : Prop :=
  ∀ t ∈ w, ∀ x, t.tok = .specialIdentifier x →
    x ≠ [] ∧ x ≠ str! "contract" ∧ x ≠ str! "library"

theorem Decent.left {a b : List STok} (h : Decent (a ++ b)) : Decent a :=
  fun t ht => h t (List.mem_append_left _ ht)
theorem Decent.right {a b : List STok} (h : Decent (a ++ b)) : Decent b :=
  fun t ht => h t (List.mem_append_right _ ht)
theorem Decent.tail {a : STok} {b : List STok} (h : Decent (a :: b)) : Decent b :=
  fun t ht => h t (List.mem_cons_of_mem _ ht)

@[simp] theorem startOf_at0 (w : List Token) : startOf (w.map STok.at0) = default := by
  cases w <;> rfl

theorem stopFrom_at0 : ∀ (w : List Token), stopFrom default (w.map STok.at0) = default
  | [] => rfl
  | _ :: w => stopFrom_at0 w

@[simp] theorem stopOf_at0 (w : List Token) : stopOf (w.map STok.at0) = default := stopFrom_at0 w

theorem mkW_at0 {α : Type} (w : List Token) (x : α) :
    mkW (w.map STok.at0) x = ⟨x, default, default⟩ := by simp [mkW]

theorem Derives.word {n : NT} {w w' : List STok} {v : Val n} (h : Derives n w v) (e : w = w') :
    Derives n w' v := e ▸ h

theorem Derives.starSnoc {n : NT} {w1 : List STok} {vs : List (Val n)}
    (h : Derives (.star n) w1 vs) : ∀ {w2 : List STok} {v : Val n}, Derives n w2 v →
      Derives (.star n) (w1 ++ w2) (vs ++ [v]) := by
  induction vs generalizing w1 with
  | nil =>
    intro w2 v d
    cases h
    simpa using Derives.starCons d .starNil
  | cons x xs ih =>
    intro w2 v d
    cases h with
    | starCons d1 d2 =>
      rw [List.append_assoc]
      exact Derives.starCons d1 (ih d2 d)

theorem Derives.plusSnoc {n : NT} {w1 w2 : List STok} {vs : List (Val n)} {v : Val n}
    (h : Derives (.plus n) w1 vs) (d : Derives n w2 v) :
      Derives (.plus n) (w1 ++ w2) (vs ++ [v]) := by
  cases h with
  | plusIntro d1 d2 =>
    rw [List.append_assoc]
    exact Derives.plusIntro d1 (d2.starSnoc d)

/-- what is needed besides the derivation in the inductive proof -/
def Extra : (n : NT) → Val n → Prop
  | .importDecls, v =>
    Derives (.plus .importedName) ((v.node.importList.flatMap (·.node.toks)).map STok.at0)
      (v.node.importList.map (W.strip NodeImportedName.strip))
  | .nextParamPair, v =>
    Derives .paramPair (v.node.toks.map STok.at0) (W.strip NodeParameterPair.strip v)
  | .star .nextParamPair, vs => ∀ q qs, vs = q :: qs →
    Derives .paramPair (q.node.toks.map STok.at0) (W.strip NodeParameterPair.strip q) ∧
    Derives (.star .nextParamPair) ((unparse (.star .nextParamPair) qs).map STok.at0)
      (stripV (.star .nextParamPair) qs)
  | _, _ => True

theorem flatMap_congr' {α : Type} {f g : α → List Token} (h : ∀ x, f x = g x) (xs : List α) :
    xs.flatMap f = xs.flatMap g := by
  induction xs with
  | nil => rfl
  | cons x xs ih => simp [h, ih]

macro "unparse_simp" : tactic => `(tactic| simp [mkW, unparse, sepBy, addressTag, NodeByteStr.toks, NodeTypeNameIdentifier.toks, NodeImportedName.toks, NodeImportDeclarations.toks, NodeMetaIdentifier.toks, NodeVariableIdentifier.toks, NodeBuiltinArguments.toks, NodeTypeMapKey.toks, NodeTypeMapValue.toks, NodeTypeArgument.toks, NodeScillaType.toks, NodeTypeMapEntry.toks, NodeAddressTypeField.toks, NodeAddressType.toks, NodeTypeMapValueArguments.toks, NodeTypeMapValueAllowingTypeArguments.toks, NodeTypeAnnotation.toks, NodeTypedIdentifier.toks, NodeContractTypeArguments.toks, NodeValueLiteral.toks, NodeMessageEntry.toks, NodeAtomicExpression.toks, NodeMapAccess.toks, NodePattern.toks, NodeArgumentPattern.toks, NodeFullExpression.toks, NodePatternMatchExpressionClause.toks, NodeBlockchainFetchArguments.toks, NodeComponentId.toks, NodeRemoteFetchStatement.toks, NodeStatement.toks, NodeStatementBlock.toks, NodeParameterPair.toks, NodeComponentParameters.toks, NodeComponentBody.toks, NodeTypeAlternativeClause.toks, NodeLibrarySingleDefinition.toks, NodeLibraryDefinition.toks, NodeContractField.toks, NodeWithConstraint.toks, NodeProcedureDefinition.toks, NodeTransitionDefinition.toks, NodeComponentDefinition.toks, NodeContractDefinition.toks, NodeProgram.toks,
  NodeTypeArgument.toksL_eq, NodeAddressTypeField.toksN_eq, NodeAddressTypeField.toksL_eq,
  NodeTypeMapValueArguments.toksL_eq, NodeArgumentPattern.toksL_eq,
  NodePatternMatchExpressionClause.toksL_eq, NodePatternMatchClause.toksL_eq,
  NodeStatement.toksN_eq, NodeStatement.toksL_eq, NodePatternMatchClause.toks_eq])

theorem mkW_at0x {α : Type} (s e : Pos) (x : α) : (⟨x, s, e⟩ : W α).node = x := rfl

theorem STok.at0_eq (t : Token) : (⟨default, t, default⟩ : STok) = STok.at0 t := rfl

macro "reprint_word" : tactic => `(tactic|
  (first
    | rfl
    | (unparse_simp; done)
    | (unparse_simp; exact ⟨rfl, rfl⟩)
    | (unparse_simp; rfl)
    | (unparse_simp; simp [STok.at0]; done)))
syntax "reprint_word" "[" Lean.Parser.Tactic.simpLemma,* "]" : tactic
macro_rules
  | `(tactic| reprint_word [$ls,*]) => `(tactic|
     (simp [mkW, unparse, NodeAddressType.toks, addressTag, STok.at0, $ls,*]))
theorem at0_nil : ([] : List STok) = [].map STok.at0 := rfl
macro "reprint_val" : tactic => `(tactic|
  (first
  | rfl
  | (simp [stripV]; done)
  | (simp only [STok.at0_eq, ← List.map_cons, ← List.map_append, at0_nil, mkW_at0]
     first
      | rfl
      | (simp [stripV]; done)
      | (simp [stripV, Option.map_getD_nil, Option.map_toList]; done)
      | (simp [stripV, W.strip_eq]; done)
      | (simp [stripV, W.strip_eq, Option.map_getD_nil, Option.map_toList]; done))))

theorem Derives.reprint {n : NT} {w : List STok} {v : Val n} (d : Derives n w v) :
    Decent w → Derives n ((unparse n v).map STok.at0) (stripV n v) ∧ Extra n v := by
  induction d with
  | starNil =>
    intro hd
    refine ⟨.starNil, ?_⟩
    rename_i n
    cases n
    case nextParamPair => intro q qs e; cases e
    all_goals trivial
  | starCons d1 d2 ih1 ih2 =>
    intro hd
    have h1 := ih1 hd.left
    have h2 := ih2 hd.right
    refine ⟨(Derives.starCons h1.1 h2.1).word (by simp [unparse]), ?_⟩
    rename_i n _ _ _ _
    cases n
    case nextParamPair =>
      intro q qs e
      injection e with e1 e2
      subst e1 e2
      exact ⟨h1.2, h2.1⟩
    all_goals trivial
  | plusIntro d1 d2 ih1 ih2 =>
    intro hd
    exact ⟨(Derives.plusIntro (ih1 hd.left).1 (ih2 hd.right).1).word (by simp [unparse]), trivial⟩
  | optNone =>
    intro hd
    exact ⟨.optNone, trivial⟩
  | optSome d1 ih1 =>
    intro hd
    exact ⟨(Derives.optSome (ih1 hd).1).word (by simp [unparse]), trivial⟩
  | hexNumber h =>
    subst h
    rename_i x _ _
    intro hd
    refine ⟨((Derives.hexNumber (s := default) (e := default) (x := x) rfl ).word ?_).cast ?_, trivial⟩
    · reprint_word
    · reprint_val
  | signedInt h =>
    subst h
    rename_i x _ _
    intro hd
    refine ⟨((Derives.signedInt (s := default) (e := default) (x := x) rfl ).word ?_).cast ?_, trivial⟩
    · reprint_word
    · reprint_val
  | regularId h =>
    subst h
    rename_i x _ _
    intro hd
    refine ⟨((Derives.regularId (s := default) (e := default) (x := x) rfl ).word ?_).cast ?_, trivial⟩
    · reprint_word
    · reprint_val
  | specialId h =>
    subst h
    rename_i x _ _
    intro hd
    refine ⟨((Derives.specialId (s := default) (e := default) (x := x) rfl ).word ?_).cast ?_, trivial⟩
    · reprint_word
    · reprint_val
  | customId h =>
    subst h
    rename_i x _ _
    intro hd
    refine ⟨((Derives.customId (s := default) (e := default) (x := x) rfl ).word ?_).cast ?_, trivial⟩
    · reprint_word
    · reprint_val
  | templateId h =>
    subst h
    rename_i x _ _
    intro hd
    refine ⟨((Derives.templateId (s := default) (e := default) (x := x) rfl ).word ?_).cast ?_, trivial⟩
    · reprint_word
    · reprint_val
  | stringLit h =>
    subst h
    rename_i x _ _
    intro hd
    refine ⟨((Derives.stringLit (s := default) (e := default) (x := x) rfl ).word ?_).cast ?_, trivial⟩
    · reprint_word
    · reprint_val
  | byteString h =>
    subst h
    rename_i x _ _
    intro hd
    refine ⟨((Derives.byteString (s := default) (e := default) (x := x) rfl ).word ?_).cast ?_, trivial⟩
    · reprint_word
    · reprint_val
  | typeNameBytes d1 ih1 =>
    intro hd
    have g1 := ih1 (fun t ht => hd t (by simp [ht]))
    refine ⟨((Derives.typeNameBytes g1.1).word ?_).cast ?_, trivial⟩
    · reprint_word
    · reprint_val
  | typeNameEvent h =>
    subst h
    intro hd
    refine ⟨((Derives.typeNameEvent (s := default) (e := default) rfl ).word ?_).cast ?_, trivial⟩
    · reprint_word
    · reprint_val
  | typeNameCustom d1 ih1 =>
    intro hd
    have g1 := ih1 (fun t ht => hd t (by simp [ht]))
    refine ⟨((Derives.typeNameCustom g1.1).word ?_).cast ?_, trivial⟩
    · reprint_word
    · reprint_val
  | importedRegular d1 ih1 =>
    intro hd
    have g1 := ih1 (fun t ht => hd t (by simp [ht]))
    refine ⟨((Derives.importedRegular g1.1).word ?_).cast ?_, trivial⟩
    · reprint_word
    · reprint_val
  | importedAliased h d1 d2 ih1 ih2 =>
    subst h
    intro hd
    have g1 := ih1 (fun t ht => hd t (by simp [ht]))
    have g2 := ih2 (fun t ht => hd t (by simp [ht]))
    refine ⟨((Derives.importedAliased (s1 := default) (e1 := default) rfl g1.1 g2.1).word ?_).cast ?_, trivial⟩
    · reprint_word
    · reprint_val
  | importMore h d1 d2 ih1 ih2 =>
    subst h
    intro hd
    have h1 := (ih1 hd.left).2
    have h2 := (ih2 hd.right.tail).1
    have h3 := Derives.plusSnoc (n := .importedName) h1 h2
    refine ⟨((Derives.importFirst (s1 := default) (e1 := default) rfl h3).word ?_).cast ?_,
      (h3.word ?_).cast ?_⟩
    · reprint_word
    · rw [STok.at0_eq, ← List.map_append, ← List.map_cons, mkW_at0]
      simp [stripV, W.strip_eq]
    · unparse_simp
    · simp [stripV]
  | importFirst h d1 ih1 =>
    subst h
    intro hd
    have g1 := ih1 (fun t ht => hd t (by simp [ht]))
    refine ⟨((Derives.importFirst (s1 := default) (e1 := default) rfl g1.1).word ?_).cast ?_, g1.1⟩
    · reprint_word
    · reprint_val
  | metaName d1 ih1 =>
    intro hd
    have g1 := ih1 (fun t ht => hd t (by simp [ht]))
    refine ⟨((Derives.metaName g1.1).word ?_).cast ?_, trivial⟩
    · reprint_word
    · reprint_val
  | metaNamespace h d1 d2 ih1 ih2 =>
    subst h
    intro hd
    have g1 := ih1 (fun t ht => hd t (by simp [ht]))
    have g2 := ih2 (fun t ht => hd t (by simp [ht]))
    refine ⟨((Derives.metaNamespace (s1 := default) (e1 := default) rfl g1.1 g2.1).word ?_).cast ?_, trivial⟩
    · reprint_word
    · reprint_val
  | metaHexspace h d1 d2 ih1 ih2 =>
    subst h
    intro hd
    have g1 := ih1 (fun t ht => hd t (by simp [ht]))
    have g2 := ih2 (fun t ht => hd t (by simp [ht]))
    refine ⟨((Derives.metaHexspace (s1 := default) (e1 := default) rfl g1.1 g2.1).word ?_).cast ?_, trivial⟩
    · reprint_word
    · reprint_val
  | metaByStr h =>
    subst h
    intro hd
    refine ⟨((Derives.metaByStr (s := default) (e := default) rfl ).word ?_).cast ?_, trivial⟩
    · reprint_word
    · reprint_val
  | varName d1 ih1 =>
    intro hd
    have g1 := ih1 (fun t ht => hd t (by simp [ht]))
    refine ⟨((Derives.varName g1.1).word ?_).cast ?_, trivial⟩
    · reprint_word
    · reprint_val
  | varSpecial d1 ih1 =>
    intro hd
    have g1 := ih1 (fun t ht => hd t (by simp [ht]))
    refine ⟨((Derives.varSpecial g1.1).word ?_).cast ?_, trivial⟩
    · reprint_word
    · reprint_val
  | varNamespace h d1 d2 ih1 ih2 =>
    subst h
    intro hd
    have g1 := ih1 (fun t ht => hd t (by simp [ht]))
    have g2 := ih2 (fun t ht => hd t (by simp [ht]))
    refine ⟨((Derives.varNamespace (s1 := default) (e1 := default) rfl g1.1 g2.1).word ?_).cast ?_, trivial⟩
    · reprint_word
    · reprint_val
  | builtinMore h d1 d2 ih1 ih2 =>
    subst h
    intro hd
    have h1 := (ih1 hd.left).1
    have h2 := (ih2 hd.right).1
    refine ⟨?_, trivial⟩
    rename_i prev n
    by_cases he : prev.node.arguments = []
    · refine ((Derives.builtinOne h2).word ?_).cast ?_
      · simp [unparse, NodeBuiltinArguments.toks, mkW, he]
      · rw [mkW_at0]
        simp [stripV, he, W.strip_eq]
    · refine ((Derives.builtinMore rfl h1 h2).word ?_).cast ?_
      · simp [unparse, NodeBuiltinArguments.toks, mkW, he]
      · rw [← List.map_append, mkW_at0]
        simp [stripV, W.strip_eq]
  | builtinOne d1 ih1 =>
    intro hd
    have g1 := ih1 (fun t ht => hd t (by simp [ht]))
    refine ⟨((Derives.builtinOne g1.1).word ?_).cast ?_, trivial⟩
    · reprint_word
    · reprint_val
  | builtinUnit h =>
    subst h
    intro hd
    refine ⟨((Derives.builtinUnit (s1 := default) (e1 := default) (s2 := default) (e2 := default) rfl ).word ?_).cast ?_, trivial⟩
    · reprint_word
    · reprint_val
  | remGeneric h d1 d2 ih1 ih2 =>
    subst h
    intro hd
    have g1 := ih1 (fun t ht => hd t (by simp [ht]))
    have g2 := ih2 (fun t ht => hd t (by simp [ht]))
    refine ⟨((Derives.remGeneric rfl g1.1 g2.1).word ?_).cast ?_, trivial⟩
    · reprint_word
    · reprint_val
  | remMap h d1 d2 ih1 ih2 =>
    subst h
    intro hd
    have g1 := ih1 (fun t ht => hd t (by simp [ht]))
    have g2 := ih2 (fun t ht => hd t (by simp [ht]))
    refine ⟨((Derives.remMap (s1 := default) (e1 := default) rfl g1.1 g2.1).word ?_).cast ?_, trivial⟩
    · reprint_word
    · reprint_val
  | remParen h d1 ih1 =>
    subst h
    intro hd
    have g1 := ih1 (fun t ht => hd t (by simp [ht]))
    refine ⟨((Derives.remParen (s1 := default) (e1 := default) (s2 := default) (e2 := default) rfl g1.1).word ?_).cast ?_, trivial⟩
    · reprint_word
    · reprint_val
  | remAddress d1 ih1 =>
    intro hd
    have g1 := ih1 (fun t ht => hd t (by simp [ht]))
    refine ⟨((Derives.remAddress g1.1).word ?_).cast ?_, trivial⟩
    · reprint_word
    · reprint_val
  | remForall h d1 d2 ih1 ih2 =>
    subst h
    intro hd
    have g1 := ih1 (fun t ht => hd t (by simp [ht]))
    have g2 := ih2 (fun t ht => hd t (by simp [ht]))
    refine ⟨((Derives.remForall (s1 := default) (e1 := default) (s2 := default) (e2 := default) rfl g1.1 g2.1).word ?_).cast ?_, trivial⟩
    · reprint_word
    · reprint_val
  | remTypeVar d1 ih1 =>
    intro hd
    have g1 := ih1 (fun t ht => hd t (by simp [ht]))
    refine ⟨((Derives.remTypeVar g1.1).word ?_).cast ?_, trivial⟩
    · reprint_word
    · reprint_val
  | funSigMore h d1 d2 ih1 ih2 =>
    subst h
    intro hd
    have g1 := ih1 (fun t ht => hd t (by simp [ht]))
    have g2 := ih2 (fun t ht => hd t (by simp [ht]))
    refine ⟨((Derives.funSigMore (s1 := default) (e1 := default) rfl g1.1 g2.1).word ?_).cast ?_, trivial⟩
    · reprint_word
    · reprint_val
  | funSigLast h d1 d2 ih1 ih2 =>
    subst h
    intro hd
    have g1 := ih1 (fun t ht => hd t (by simp [ht]))
    have g2 := ih2 (fun t ht => hd t (by simp [ht]))
    refine ⟨((Derives.funSigLast (s1 := default) (e1 := default) rfl g1.1 g2.1).word ?_).cast ?_, trivial⟩
    · reprint_word
    · reprint_val
  | typeFun d1 ih1 =>
    intro hd
    exact ⟨.typeFun (ih1 hd).1, trivial⟩
  | typeRem d1 ih1 =>
    intro hd
    exact ⟨.typeRem (ih1 hd).1, trivial⟩
  | argParen h d1 ih1 =>
    subst h
    intro hd
    have g1 := ih1 (fun t ht => hd t (by simp [ht]))
    refine ⟨((Derives.argParen (s1 := default) (e1 := default) (s2 := default) (e2 := default) rfl g1.1).word ?_).cast ?_, trivial⟩
    · reprint_word
    · reprint_val
  | argMeta d1 ih1 =>
    intro hd
    have g1 := ih1 (fun t ht => hd t (by simp [ht]))
    refine ⟨((Derives.argMeta g1.1).word ?_).cast ?_, trivial⟩
    · reprint_word
    · reprint_val
  | argTemplate d1 ih1 =>
    intro hd
    have g1 := ih1 (fun t ht => hd t (by simp [ht]))
    refine ⟨((Derives.argTemplate g1.1).word ?_).cast ?_, trivial⟩
    · reprint_word
    · reprint_val
  | argAddress d1 ih1 =>
    intro hd
    have g1 := ih1 (fun t ht => hd t (by simp [ht]))
    refine ⟨((Derives.argAddress g1.1).word ?_).cast ?_, trivial⟩
    · reprint_word
    · reprint_val
  | argMap h d1 d2 ih1 ih2 =>
    subst h
    intro hd
    have g1 := ih1 (fun t ht => hd t (by simp [ht]))
    have g2 := ih2 (fun t ht => hd t (by simp [ht]))
    refine ⟨((Derives.argMap (s1 := default) (e1 := default) rfl g1.1 g2.1).word ?_).cast ?_, trivial⟩
    · reprint_word
    · reprint_val
  | addrEmpty h d1 ih1 =>
    subst h
    intro hd
    have g1 := ih1 (fun t ht => hd t (by simp [ht]))
    refine ⟨((Derives.addrEmpty (s1 := default) (e1 := default) (s2 := default) (e2 := default) rfl g1.1).word ?_).cast ?_, trivial⟩
    · reprint_word
    · reprint_val
  | addrContract h d1 d2 ih1 ih2 =>
    subst h
    intro hd
    have g1 := ih1 (fun t ht => hd t (by simp [ht]))
    have g2 := ih2 (fun t ht => hd t (by simp [ht]))
    rename_i fs _ _ _ _ _ _
    cases fs
    all_goals refine ⟨((Derives.addrContract (s1 := default) (e1 := default) (s2 := default) (e2 := default) (s3 := default) (e3 := default) rfl g1.1 g2.1).word ?_).cast ?_, trivial⟩
    any_goals reprint_word
    all_goals reprint_val
  | addrLibrary h d1 ih1 =>
    subst h
    intro hd
    have g1 := ih1 (fun t ht => hd t (by simp [ht]))
    refine ⟨((Derives.addrLibrary (s1 := default) (e1 := default) (s2 := default) (e2 := default) (s3 := default) (e3 := default) rfl g1.1).word ?_).cast ?_, trivial⟩
    · reprint_word
    · reprint_val
  | addrSpecial h d1 d2 ih1 ih2 =>
    subst h
    intro hd
    have g1 := ih1 (fun t ht => hd t (by simp [ht]))
    have g2 := ih2 (fun t ht => hd t (by simp [ht]))
    cases d2 with | specialId hs =>
    subst hs
    obtain ⟨q1, q2, q3⟩ := hd _ (List.mem_append_right _ (List.mem_cons_of_mem _ List.mem_cons_self)) _ rfl
    refine ⟨((Derives.addrSpecial (s1 := default) (e1 := default) (s2 := default) (e2 := default) rfl g1.1 g2.1).word ?_).cast ?_, trivial⟩
    · reprint_word [q1, q2, q3]
    · reprint_val
  | addrFieldList h d1 d2 ih1 ih2 =>
    subst h
    intro hd
    have g1 := ih1 (fun t ht => hd t (by simp [ht]))
    have g2 := ih2 (fun t ht => hd t (by simp [ht]))
    refine ⟨((Derives.addrFieldList rfl g1.1 g2.1).word ?_).cast ?_, trivial⟩
    · reprint_word
    · reprint_val
  | nextAddrField h d1 ih1 =>
    subst h
    intro hd
    have g1 := ih1 (fun t ht => hd t (by simp [ht]))
    refine ⟨((Derives.nextAddrField (s1 := default) (e1 := default) rfl g1.1).word ?_).cast ?_, trivial⟩
    · reprint_word
    · reprint_val
  | addrField h d1 d2 ih1 ih2 =>
    subst h
    intro hd
    have g1 := ih1 (fun t ht => hd t (by simp [ht]))
    have g2 := ih2 (fun t ht => hd t (by simp [ht]))
    refine ⟨((Derives.addrField (s1 := default) (e1 := default) (s2 := default) (e2 := default) rfl g1.1 g2.1).word ?_).cast ?_, trivial⟩
    · reprint_word
    · reprint_val
  | keyMeta d1 ih1 =>
    intro hd
    have g1 := ih1 (fun t ht => hd t (by simp [ht]))
    refine ⟨((Derives.keyMeta g1.1).word ?_).cast ?_, trivial⟩
    · reprint_word
    · reprint_val
  | keyParenMeta h d1 ih1 =>
    subst h
    intro hd
    have g1 := ih1 (fun t ht => hd t (by simp [ht]))
    refine ⟨((Derives.keyParenMeta (s1 := default) (e1 := default) (s2 := default) (e2 := default) rfl g1.1).word ?_).cast ?_, trivial⟩
    · reprint_word
    · reprint_val
  | keyParenAddress h d1 ih1 =>
    subst h
    intro hd
    have g1 := ih1 (fun t ht => hd t (by simp [ht]))
    refine ⟨((Derives.keyParenAddress (s1 := default) (e1 := default) (s2 := default) (e2 := default) rfl g1.1).word ?_).cast ?_, trivial⟩
    · reprint_word
    · reprint_val
  | keyAddress d1 ih1 =>
    intro hd
    have g1 := ih1 (fun t ht => hd t (by simp [ht]))
    refine ⟨((Derives.keyAddress g1.1).word ?_).cast ?_, trivial⟩
    · reprint_word
    · reprint_val
  | valMeta d1 ih1 =>
    intro hd
    have g1 := ih1 (fun t ht => hd t (by simp [ht]))
    refine ⟨((Derives.valMeta g1.1).word ?_).cast ?_, trivial⟩
    · reprint_word
    · reprint_val
  | valMap h d1 d2 ih1 ih2 =>
    subst h
    intro hd
    have g1 := ih1 (fun t ht => hd t (by simp [ht]))
    have g2 := ih2 (fun t ht => hd t (by simp [ht]))
    refine ⟨((Derives.valMap (s1 := default) (e1 := default) rfl g1.1 g2.1).word ?_).cast ?_, trivial⟩
    · reprint_word
    · reprint_val
  | valParen h d1 ih1 =>
    subst h
    intro hd
    have g1 := ih1 (fun t ht => hd t (by simp [ht]))
    refine ⟨((Derives.valParen (s1 := default) (e1 := default) (s2 := default) (e2 := default) rfl g1.1).word ?_).cast ?_, trivial⟩
    · reprint_word
    · reprint_val
  | valAddress d1 ih1 =>
    intro hd
    have g1 := ih1 (fun t ht => hd t (by simp [ht]))
    refine ⟨((Derives.valAddress g1.1).word ?_).cast ?_, trivial⟩
    · reprint_word
    · reprint_val
  | mvaParen h d1 ih1 =>
    subst h
    intro hd
    have g1 := ih1 (fun t ht => hd t (by simp [ht]))
    refine ⟨((Derives.mvaParen (s1 := default) (e1 := default) (s2 := default) (e2 := default) rfl g1.1).word ?_).cast ?_, trivial⟩
    · reprint_word
    · reprint_val
  | mvaMeta d1 ih1 =>
    intro hd
    have g1 := ih1 (fun t ht => hd t (by simp [ht]))
    refine ⟨((Derives.mvaMeta g1.1).word ?_).cast ?_, trivial⟩
    · reprint_word
    · reprint_val
  | mvaMap h d1 d2 ih1 ih2 =>
    subst h
    intro hd
    have g1 := ih1 (fun t ht => hd t (by simp [ht]))
    have g2 := ih2 (fun t ht => hd t (by simp [ht]))
    refine ⟨((Derives.mvaMap (s1 := default) (e1 := default) rfl g1.1 g2.1).word ?_).cast ?_, trivial⟩
    · reprint_word
    · reprint_val
  | program h d1 d2 d3 d4 ih1 ih2 ih3 ih4 =>
    subst h
    intro hd
    have g1 := ih1 (fun t ht => hd t (by simp [ht]))
    have g2 := ih2 (fun t ht => hd t (by simp [ht]))
    have g3 := ih3 (fun t ht => hd t (by simp [ht]))
    have g4 := ih4 (fun t ht => hd t (by simp [ht]))
    refine ⟨((Derives.program (s1 := default) (e1 := default) rfl g1.1 g2.1 g3.1 g4.1).word ?_).cast ?_, trivial⟩
    · reprint_word
    · reprint_val
  | libraryDef h d1 d2 ih1 ih2 =>
    subst h
    intro hd
    have g1 := ih1 (fun t ht => hd t (by simp [ht]))
    have g2 := ih2 (fun t ht => hd t (by simp [ht]))
    refine ⟨((Derives.libraryDef (s1 := default) (e1 := default) rfl g1.1 g2.1).word ?_).cast ?_, trivial⟩
    · reprint_word
    · reprint_val
  | libLet h d1 d2 d3 ih1 ih2 ih3 =>
    subst h
    intro hd
    have g1 := ih1 (fun t ht => hd t (by simp [ht]))
    have g2 := ih2 (fun t ht => hd t (by simp [ht]))
    have g3 := ih3 (fun t ht => hd t (by simp [ht]))
    refine ⟨((Derives.libLet (s1 := default) (e1 := default) (s2 := default) (e2 := default) rfl g1.1 g2.1 g3.1).word ?_).cast ?_, trivial⟩
    · reprint_word
    · reprint_val
  | libType h d1 ih1 =>
    subst h
    intro hd
    have g1 := ih1 (fun t ht => hd t (by simp [ht]))
    refine ⟨((Derives.libType (s1 := default) (e1 := default) rfl g1.1).word ?_).cast ?_, trivial⟩
    · reprint_word
    · reprint_val
  | libTypeAlts h d1 d2 ih1 ih2 =>
    subst h
    intro hd
    have g1 := ih1 (fun t ht => hd t (by simp [ht]))
    have g2 := ih2 (fun t ht => hd t (by simp [ht]))
    refine ⟨((Derives.libTypeAlts (s1 := default) (e1 := default) (s2 := default) (e2 := default) rfl g1.1 g2.1).word ?_).cast ?_, trivial⟩
    · reprint_word
    · reprint_val
  | typedId h d1 d2 ih1 ih2 =>
    subst h
    intro hd
    have g1 := ih1 (fun t ht => hd t (by simp [ht]))
    have g2 := ih2 (fun t ht => hd t (by simp [ht]))
    refine ⟨((Derives.typedId rfl g1.1 g2.1).word ?_).cast ?_, trivial⟩
    · reprint_word
    · reprint_val
  | typeAnn h d1 ih1 =>
    subst h
    intro hd
    have g1 := ih1 (fun t ht => hd t (by simp [ht]))
    refine ⟨((Derives.typeAnn (s1 := default) (e1 := default) rfl g1.1).word ?_).cast ?_, trivial⟩
    · reprint_word
    · reprint_val
  | altType h d1 ih1 =>
    subst h
    intro hd
    have g1 := ih1 (fun t ht => hd t (by simp [ht]))
    refine ⟨((Derives.altType (s1 := default) (e1 := default) rfl g1.1).word ?_).cast ?_, trivial⟩
    · reprint_word
    · reprint_val
  | altTypeArgs h d1 d2 ih1 ih2 =>
    subst h
    intro hd
    have g1 := ih1 (fun t ht => hd t (by simp [ht]))
    have g2 := ih2 (fun t ht => hd t (by simp [ht]))
    refine ⟨((Derives.altTypeArgs (s1 := default) (e1 := default) (s2 := default) (e2 := default) rfl g1.1 g2.1).word ?_).cast ?_, trivial⟩
    · reprint_word
    · reprint_val
  | mvWithArgs h d1 d2 ih1 ih2 =>
    subst h
    intro hd
    have g1 := ih1 (fun t ht => hd t (by simp [ht]))
    have g2 := ih2 (fun t ht => hd t (by simp [ht]))
    refine ⟨((Derives.mvWithArgs rfl g1.1 g2.1).word ?_).cast ?_, trivial⟩
    · reprint_word
    · reprint_val
  | mvNoArgs d1 ih1 =>
    intro hd
    have g1 := ih1 (fun t ht => hd t (by simp [ht]))
    refine ⟨((Derives.mvNoArgs g1.1).word ?_).cast ?_, trivial⟩
    · reprint_word
    · reprint_val
  | contractTypeArgs h d1 ih1 =>
    subst h
    intro hd
    have g1 := ih1 (fun t ht => hd t (by simp [ht]))
    refine ⟨((Derives.contractTypeArgs (s1 := default) (e1 := default) (s2 := default) (e2 := default) rfl g1.1).word ?_).cast ?_, trivial⟩
    · reprint_word
    · reprint_val
  | exprLet h d1 d2 d3 d4 ih1 ih2 ih3 ih4 =>
    subst h
    intro hd
    have g1 := ih1 (fun t ht => hd t (by simp [ht]))
    have g2 := ih2 (fun t ht => hd t (by simp [ht]))
    have g3 := ih3 (fun t ht => hd t (by simp [ht]))
    have g4 := ih4 (fun t ht => hd t (by simp [ht]))
    refine ⟨((Derives.exprLet (s1 := default) (e1 := default) (s2 := default) (e2 := default) (s3 := default) (e3 := default) rfl g1.1 g2.1 g3.1 g4.1).word ?_).cast ?_, trivial⟩
    · reprint_word
    · reprint_val
  | exprFun h d1 d2 d3 ih1 ih2 ih3 =>
    subst h
    intro hd
    have g1 := ih1 (fun t ht => hd t (by simp [ht]))
    have g2 := ih2 (fun t ht => hd t (by simp [ht]))
    have g3 := ih3 (fun t ht => hd t (by simp [ht]))
    refine ⟨((Derives.exprFun (s1 := default) (e1 := default) (s2 := default) (e2 := default) (s3 := default) (e3 := default) (s4 := default) (e4 := default) rfl g1.1 g2.1 g3.1).word ?_).cast ?_, trivial⟩
    · reprint_word
    · reprint_val
  | exprCall h d1 d2 ih1 ih2 =>
    subst h
    intro hd
    have g1 := ih1 (fun t ht => hd t (by simp [ht]))
    have g2 := ih2 (fun t ht => hd t (by simp [ht]))
    refine ⟨((Derives.exprCall rfl g1.1 g2.1).word ?_).cast ?_, trivial⟩
    · reprint_word
    · reprint_val
  | exprAtomic d1 ih1 =>
    intro hd
    have g1 := ih1 (fun t ht => hd t (by simp [ht]))
    refine ⟨((Derives.exprAtomic g1.1).word ?_).cast ?_, trivial⟩
    · reprint_word
    · reprint_val
  | exprBuiltin h d1 d2 d3 ih1 ih2 ih3 =>
    subst h
    intro hd
    have g1 := ih1 (fun t ht => hd t (by simp [ht]))
    have g2 := ih2 (fun t ht => hd t (by simp [ht]))
    have g3 := ih3 (fun t ht => hd t (by simp [ht]))
    refine ⟨((Derives.exprBuiltin (s1 := default) (e1 := default) rfl g1.1 g2.1 g3.1).word ?_).cast ?_, trivial⟩
    · reprint_word
    · reprint_val
  | exprMessage h d1 d2 ih1 ih2 =>
    subst h
    intro hd
    have g1 := ih1 (fun t ht => hd t (by simp [ht]))
    have g2 := ih2 (fun t ht => hd t (by simp [ht]))
    refine ⟨((Derives.exprMessage (s1 := default) (e1 := default) (s2 := default) (e2 := default) rfl g1.1 g2.1).word ?_).cast ?_, trivial⟩
    · reprint_word
    · reprint_val
  | exprMatch h d1 d2 ih1 ih2 =>
    subst h
    intro hd
    have g1 := ih1 (fun t ht => hd t (by simp [ht]))
    have g2 := ih2 (fun t ht => hd t (by simp [ht]))
    refine ⟨((Derives.exprMatch (s1 := default) (e1 := default) (s2 := default) (e2 := default) (s3 := default) (e3 := default) rfl g1.1 g2.1).word ?_).cast ?_, trivial⟩
    · reprint_word
    · reprint_val
  | exprConstr h d1 d2 d3 ih1 ih2 ih3 =>
    subst h
    intro hd
    have g1 := ih1 (fun t ht => hd t (by simp [ht]))
    have g2 := ih2 (fun t ht => hd t (by simp [ht]))
    have g3 := ih3 (fun t ht => hd t (by simp [ht]))
    refine ⟨((Derives.exprConstr rfl g1.1 g2.1 g3.1).word ?_).cast ?_, trivial⟩
    · reprint_word
    · reprint_val
  | exprTFun h d1 d2 ih1 ih2 =>
    subst h
    intro hd
    have g1 := ih1 (fun t ht => hd t (by simp [ht]))
    have g2 := ih2 (fun t ht => hd t (by simp [ht]))
    refine ⟨((Derives.exprTFun (s1 := default) (e1 := default) (s2 := default) (e2 := default) rfl g1.1 g2.1).word ?_).cast ?_, trivial⟩
    · reprint_word
    · reprint_val
  | exprTApp h d1 d2 ih1 ih2 =>
    subst h
    intro hd
    have g1 := ih1 (fun t ht => hd t (by simp [ht]))
    have g2 := ih2 (fun t ht => hd t (by simp [ht]))
    refine ⟨((Derives.exprTApp (s1 := default) (e1 := default) rfl g1.1 g2.1).word ?_).cast ?_, trivial⟩
    · reprint_word
    · reprint_val
  | pmExprClause h d1 d2 ih1 ih2 =>
    subst h
    intro hd
    have g1 := ih1 (fun t ht => hd t (by simp [ht]))
    have g2 := ih2 (fun t ht => hd t (by simp [ht]))
    refine ⟨((Derives.pmExprClause (s1 := default) (e1 := default) (s2 := default) (e2 := default) rfl g1.1 g2.1).word ?_).cast ?_, trivial⟩
    · reprint_word
    · reprint_val
  | patWildcard h =>
    subst h
    intro hd
    refine ⟨((Derives.patWildcard (s1 := default) (e1 := default) rfl ).word ?_).cast ?_, trivial⟩
    · reprint_word
    · reprint_val
  | patBinder d1 ih1 =>
    intro hd
    have g1 := ih1 (fun t ht => hd t (by simp [ht]))
    refine ⟨((Derives.patBinder g1.1).word ?_).cast ?_, trivial⟩
    · reprint_word
    · reprint_val
  | patConstr h d1 d2 ih1 ih2 =>
    subst h
    intro hd
    have g1 := ih1 (fun t ht => hd t (by simp [ht]))
    have g2 := ih2 (fun t ht => hd t (by simp [ht]))
    refine ⟨((Derives.patConstr rfl g1.1 g2.1).word ?_).cast ?_, trivial⟩
    · reprint_word
    · reprint_val
  | apWildcard h =>
    subst h
    intro hd
    refine ⟨((Derives.apWildcard (s1 := default) (e1 := default) rfl ).word ?_).cast ?_, trivial⟩
    · reprint_word
    · reprint_val
  | apBinder d1 ih1 =>
    intro hd
    have g1 := ih1 (fun t ht => hd t (by simp [ht]))
    refine ⟨((Derives.apBinder g1.1).word ?_).cast ?_, trivial⟩
    · reprint_word
    · reprint_val
  | apConstr d1 ih1 =>
    intro hd
    have g1 := ih1 (fun t ht => hd t (by simp [ht]))
    refine ⟨((Derives.apConstr g1.1).word ?_).cast ?_, trivial⟩
    · reprint_word
    · reprint_val
  | apParen h d1 ih1 =>
    subst h
    intro hd
    have g1 := ih1 (fun t ht => hd t (by simp [ht]))
    refine ⟨((Derives.apParen (s1 := default) (e1 := default) (s2 := default) (e2 := default) rfl g1.1).word ?_).cast ?_, trivial⟩
    · reprint_word
    · reprint_val
  | nextMessage h d1 ih1 =>
    subst h
    intro hd
    have g1 := ih1 (fun t ht => hd t (by simp [ht]))
    refine ⟨((Derives.nextMessage (s1 := default) (e1 := default) rfl g1.1).word ?_).cast ?_, trivial⟩
    · reprint_word
    · reprint_val
  | msgLiteral h d1 d2 ih1 ih2 =>
    subst h
    intro hd
    have g1 := ih1 (fun t ht => hd t (by simp [ht]))
    have g2 := ih2 (fun t ht => hd t (by simp [ht]))
    refine ⟨((Derives.msgLiteral (s1 := default) (e1 := default) rfl g1.1 g2.1).word ?_).cast ?_, trivial⟩
    · reprint_word
    · reprint_val
  | msgVariable h d1 d2 ih1 ih2 =>
    subst h
    intro hd
    have g1 := ih1 (fun t ht => hd t (by simp [ht]))
    have g2 := ih2 (fun t ht => hd t (by simp [ht]))
    refine ⟨((Derives.msgVariable (s1 := default) (e1 := default) rfl g1.1 g2.1).word ?_).cast ?_, trivial⟩
    · reprint_word
    · reprint_val
  | atomicVar d1 ih1 =>
    intro hd
    have g1 := ih1 (fun t ht => hd t (by simp [ht]))
    refine ⟨((Derives.atomicVar g1.1).word ?_).cast ?_, trivial⟩
    · reprint_word
    · reprint_val
  | atomicLit d1 ih1 =>
    intro hd
    have g1 := ih1 (fun t ht => hd t (by simp [ht]))
    refine ⟨((Derives.atomicLit g1.1).word ?_).cast ?_, trivial⟩
    · reprint_word
    · reprint_val
  | litInt h d1 d2 ih1 ih2 =>
    subst h
    intro hd
    have g1 := ih1 (fun t ht => hd t (by simp [ht]))
    have g2 := ih2 (fun t ht => hd t (by simp [ht]))
    refine ⟨((Derives.litInt rfl g1.1 g2.1).word ?_).cast ?_, trivial⟩
    · reprint_word
    · reprint_val
  | litHex d1 ih1 =>
    intro hd
    have g1 := ih1 (fun t ht => hd t (by simp [ht]))
    refine ⟨((Derives.litHex g1.1).word ?_).cast ?_, trivial⟩
    · reprint_word
    · reprint_val
  | litString d1 ih1 =>
    intro hd
    have g1 := ih1 (fun t ht => hd t (by simp [ht]))
    refine ⟨((Derives.litString g1.1).word ?_).cast ?_, trivial⟩
    · reprint_word
    · reprint_val
  | litEmp h d1 d2 ih1 ih2 =>
    subst h
    intro hd
    have g1 := ih1 (fun t ht => hd t (by simp [ht]))
    have g2 := ih2 (fun t ht => hd t (by simp [ht]))
    refine ⟨((Derives.litEmp (s1 := default) (e1 := default) rfl g1.1 g2.1).word ?_).cast ?_, trivial⟩
    · reprint_word
    · reprint_val
  | stLoad h d1 d2 ih1 ih2 =>
    subst h
    intro hd
    have g1 := ih1 (fun t ht => hd t (by simp [ht]))
    have g2 := ih2 (fun t ht => hd t (by simp [ht]))
    refine ⟨((Derives.stLoad (s1 := default) (e1 := default) rfl g1.1 g2.1).word ?_).cast ?_, trivial⟩
    · reprint_word
    · reprint_val
  | stRemote d1 ih1 =>
    intro hd
    have g1 := ih1 (fun t ht => hd t (by simp [ht]))
    refine ⟨((Derives.stRemote g1.1).word ?_).cast ?_, trivial⟩
    · reprint_word
    · reprint_val
  | stStore h d1 d2 ih1 ih2 =>
    subst h
    intro hd
    have g1 := ih1 (fun t ht => hd t (by simp [ht]))
    have g2 := ih2 (fun t ht => hd t (by simp [ht]))
    refine ⟨((Derives.stStore (s1 := default) (e1 := default) rfl g1.1 g2.1).word ?_).cast ?_, trivial⟩
    · reprint_word
    · reprint_val
  | stBind h d1 d2 ih1 ih2 =>
    subst h
    intro hd
    have g1 := ih1 (fun t ht => hd t (by simp [ht]))
    have g2 := ih2 (fun t ht => hd t (by simp [ht]))
    refine ⟨((Derives.stBind (s1 := default) (e1 := default) rfl g1.1 g2.1).word ?_).cast ?_, trivial⟩
    · reprint_word
    · reprint_val
  | stReadBC h d1 d2 d3 ih1 ih2 ih3 =>
    subst h
    intro hd
    have g1 := ih1 (fun t ht => hd t (by simp [ht]))
    have g2 := ih2 (fun t ht => hd t (by simp [ht]))
    have g3 := ih3 (fun t ht => hd t (by simp [ht]))
    refine ⟨((Derives.stReadBC (s1 := default) (e1 := default) (s2 := default) (e2 := default) rfl g1.1 g2.1 g3.1).word ?_).cast ?_, trivial⟩
    · reprint_word
    · reprint_val
  | stMapGet h d1 d2 d3 ih1 ih2 ih3 =>
    subst h
    intro hd
    have g1 := ih1 (fun t ht => hd t (by simp [ht]))
    have g2 := ih2 (fun t ht => hd t (by simp [ht]))
    have g3 := ih3 (fun t ht => hd t (by simp [ht]))
    refine ⟨((Derives.stMapGet (s1 := default) (e1 := default) rfl g1.1 g2.1 g3.1).word ?_).cast ?_, trivial⟩
    · reprint_word
    · reprint_val
  | stMapGetExists h d1 d2 d3 ih1 ih2 ih3 =>
    subst h
    intro hd
    have g1 := ih1 (fun t ht => hd t (by simp [ht]))
    have g2 := ih2 (fun t ht => hd t (by simp [ht]))
    have g3 := ih3 (fun t ht => hd t (by simp [ht]))
    refine ⟨((Derives.stMapGetExists (s1 := default) (e1 := default) (s2 := default) (e2 := default) rfl g1.1 g2.1 g3.1).word ?_).cast ?_, trivial⟩
    · reprint_word
    · reprint_val
  | stMapUpdate h d1 d2 d3 ih1 ih2 ih3 =>
    subst h
    intro hd
    have g1 := ih1 (fun t ht => hd t (by simp [ht]))
    have g2 := ih2 (fun t ht => hd t (by simp [ht]))
    have g3 := ih3 (fun t ht => hd t (by simp [ht]))
    refine ⟨((Derives.stMapUpdate (s1 := default) (e1 := default) rfl g1.1 g2.1 g3.1).word ?_).cast ?_, trivial⟩
    · reprint_word
    · reprint_val
  | stMapDelete h d1 d2 ih1 ih2 =>
    subst h
    intro hd
    have g1 := ih1 (fun t ht => hd t (by simp [ht]))
    have g2 := ih2 (fun t ht => hd t (by simp [ht]))
    refine ⟨((Derives.stMapDelete (s1 := default) (e1 := default) rfl g1.1 g2.1).word ?_).cast ?_, trivial⟩
    · reprint_word
    · reprint_val
  | stAccept h =>
    subst h
    intro hd
    refine ⟨((Derives.stAccept (s1 := default) (e1 := default) rfl ).word ?_).cast ?_, trivial⟩
    · rfl
    · rfl
  | stSend h d1 ih1 =>
    subst h
    intro hd
    have g1 := ih1 (fun t ht => hd t (by simp [ht]))
    refine ⟨((Derives.stSend (s1 := default) (e1 := default) rfl g1.1).word ?_).cast ?_, trivial⟩
    · reprint_word
    · reprint_val
  | stEvent h d1 ih1 =>
    subst h
    intro hd
    have g1 := ih1 (fun t ht => hd t (by simp [ht]))
    refine ⟨((Derives.stEvent (s1 := default) (e1 := default) rfl g1.1).word ?_).cast ?_, trivial⟩
    · reprint_word
    · reprint_val
  | stThrow h d1 ih1 =>
    subst h
    intro hd
    have g1 := ih1 (fun t ht => hd t (by simp [ht]))
    refine ⟨((Derives.stThrow (s1 := default) (e1 := default) rfl g1.1).word ?_).cast ?_, trivial⟩
    · reprint_word
    · reprint_val
  | stMatch h d1 d2 ih1 ih2 =>
    subst h
    intro hd
    have g1 := ih1 (fun t ht => hd t (by simp [ht]))
    have g2 := ih2 (fun t ht => hd t (by simp [ht]))
    refine ⟨((Derives.stMatch (s1 := default) (e1 := default) (s2 := default) (e2 := default) (s3 := default) (e3 := default) rfl g1.1 g2.1).word ?_).cast ?_, trivial⟩
    · reprint_word
    · reprint_val
  | stCall h d1 d2 ih1 ih2 =>
    subst h
    intro hd
    have g1 := ih1 (fun t ht => hd t (by simp [ht]))
    have g2 := ih2 (fun t ht => hd t (by simp [ht]))
    refine ⟨((Derives.stCall rfl g1.1 g2.1).word ?_).cast ?_, trivial⟩
    · reprint_word
    · reprint_val
  | stForall h d1 d2 ih1 ih2 =>
    subst h
    intro hd
    have g1 := ih1 (fun t ht => hd t (by simp [ht]))
    have g2 := ih2 (fun t ht => hd t (by simp [ht]))
    refine ⟨((Derives.stForall (s1 := default) (e1 := default) rfl g1.1 g2.1).word ?_).cast ?_, trivial⟩
    · reprint_word
    · reprint_val
  | nextStatement h d1 ih1 =>
    subst h
    intro hd
    have g1 := ih1 (fun t ht => hd t (by simp [ht]))
    refine ⟨((Derives.nextStatement (s1 := default) (e1 := default) rfl g1.1).word ?_).cast ?_, trivial⟩
    · reprint_word
    · reprint_val
  | stmtBlock h d1 d2 ih1 ih2 =>
    subst h
    intro hd
    have g1 := ih1 (fun t ht => hd t (by simp [ht]))
    have g2 := ih2 (fun t ht => hd t (by simp [ht]))
    refine ⟨((Derives.stmtBlock rfl g1.1 g2.1).word ?_).cast ?_, trivial⟩
    · reprint_word
    · reprint_val
  | bcFetchArgs h d1 ih1 =>
    subst h
    intro hd
    have g1 := ih1 (fun t ht => hd t (by simp [ht]))
    refine ⟨((Derives.bcFetchArgs (s1 := default) (e1 := default) (s2 := default) (e2 := default) rfl g1.1).word ?_).cast ?_, trivial⟩
    · reprint_word
    · reprint_val
  | componentType d1 ih1 =>
    intro hd
    have g1 := ih1 (fun t ht => hd t (by simp [ht]))
    refine ⟨((Derives.componentType g1.1).word ?_).cast ?_, trivial⟩
    · reprint_word
    · reprint_val
  | componentRegular d1 ih1 =>
    intro hd
    have g1 := ih1 (fun t ht => hd t (by simp [ht]))
    refine ⟨((Derives.componentRegular g1.1).word ?_).cast ?_, trivial⟩
    · reprint_word
    · reprint_val
  | pmClause h d1 d2 ih1 ih2 =>
    subst h
    intro hd
    have g1 := ih1 (fun t ht => hd t (by simp [ht]))
    have g2 := ih2 (fun t ht => hd t (by simp [ht]))
    refine ⟨((Derives.pmClause (s1 := default) (e1 := default) (s2 := default) (e2 := default) rfl g1.1 g2.1).word ?_).cast ?_, trivial⟩
    · reprint_word
    · reprint_val
  | rfState h d1 d2 d3 ih1 ih2 ih3 =>
    subst h
    intro hd
    have g1 := ih1 (fun t ht => hd t (by simp [ht]))
    have g2 := ih2 (fun t ht => hd t (by simp [ht]))
    have g3 := ih3 (fun t ht => hd t (by simp [ht]))
    refine ⟨((Derives.rfState (s1 := default) (e1 := default) (s2 := default) (e2 := default) (s3 := default) (e3 := default) rfl g1.1 g2.1 g3.1).word ?_).cast ?_, trivial⟩
    · reprint_word
    · reprint_val
  | rfSpecial h d1 d2 d3 ih1 ih2 ih3 =>
    subst h
    intro hd
    have g1 := ih1 (fun t ht => hd t (by simp [ht]))
    have g2 := ih2 (fun t ht => hd t (by simp [ht]))
    have g3 := ih3 (fun t ht => hd t (by simp [ht]))
    refine ⟨((Derives.rfSpecial (s1 := default) (e1 := default) (s2 := default) (e2 := default) (s3 := default) (e3 := default) rfl g1.1 g2.1 g3.1).word ?_).cast ?_, trivial⟩
    · reprint_word
    · reprint_val
  | rfMap h d1 d2 d3 d4 ih1 ih2 ih3 ih4 =>
    subst h
    intro hd
    have g1 := ih1 (fun t ht => hd t (by simp [ht]))
    have g2 := ih2 (fun t ht => hd t (by simp [ht]))
    have g3 := ih3 (fun t ht => hd t (by simp [ht]))
    have g4 := ih4 (fun t ht => hd t (by simp [ht]))
    refine ⟨((Derives.rfMap (s1 := default) (e1 := default) (s2 := default) (e2 := default) (s3 := default) (e3 := default) rfl g1.1 g2.1 g3.1 g4.1).word ?_).cast ?_, trivial⟩
    · reprint_word
    · reprint_val
  | rfExists h d1 d2 d3 d4 ih1 ih2 ih3 ih4 =>
    subst h
    intro hd
    have g1 := ih1 (fun t ht => hd t (by simp [ht]))
    have g2 := ih2 (fun t ht => hd t (by simp [ht]))
    have g3 := ih3 (fun t ht => hd t (by simp [ht]))
    have g4 := ih4 (fun t ht => hd t (by simp [ht]))
    refine ⟨((Derives.rfExists (s1 := default) (e1 := default) (s2 := default) (e2 := default) (s4 := default) (e4 := default) (s3 := default) (e3 := default) rfl g1.1 g2.1 g3.1 g4.1).word ?_).cast ?_, trivial⟩
    · reprint_word
    · reprint_val
  | rfCast h d1 d2 d3 ih1 ih2 ih3 =>
    subst h
    intro hd
    have g1 := ih1 (fun t ht => hd t (by simp [ht]))
    have g2 := ih2 (fun t ht => hd t (by simp [ht]))
    have g3 := ih3 (fun t ht => hd t (by simp [ht]))
    refine ⟨((Derives.rfCast (s1 := default) (e1 := default) (s2 := default) (e2 := default) (s3 := default) (e3 := default) rfl g1.1 g2.1 g3.1).word ?_).cast ?_, trivial⟩
    · reprint_word
    · reprint_val
  | mapAccess h d1 ih1 =>
    subst h
    intro hd
    have g1 := ih1 (fun t ht => hd t (by simp [ht]))
    refine ⟨((Derives.mapAccess (s1 := default) (e1 := default) (s2 := default) (e2 := default) rfl g1.1).word ?_).cast ?_, trivial⟩
    · reprint_word
    · reprint_val
  | paramPair d1 ih1 =>
    intro hd
    have g1 := ih1 (fun t ht => hd t (by simp [ht]))
    refine ⟨((Derives.paramPair g1.1).word ?_).cast ?_, trivial⟩
    · reprint_word
    · reprint_val
  | nextParamPair h d1 ih1 =>
    subst h
    intro hd
    have g1 := ih1 (fun t ht => hd t (by simp [ht]))
    refine ⟨((Derives.nextParamPair (s1 := default) (e1 := default) rfl g1.1).word ?_).cast ?_, g1.1⟩
    · reprint_word
    · reprint_val
  | compParams h d1 d2 ih1 ih2 =>
    subst h
    intro hd
    have h1 := (ih1 hd.tail.left).1
    have h2 := ih2 hd.tail.right.left
    refine ⟨?_, trivial⟩
    rename_i p ps _ _ _ _
    cases p with
    | some x =>
      refine ((Derives.compParams (s1 := default) (e1 := default) (s2 := default) (e2 := default)
        rfl h1 h2.1).word ?_).cast ?_
      · reprint_word
      · reprint_val
    | none =>
      cases ps with
      | nil =>
        refine ((Derives.compParams (s1 := default) (e1 := default) (s2 := default) (e2 := default)
          rfl h1 h2.1).word ?_).cast ?_
        · reprint_word
        · reprint_val
      | cons q qs =>
        obtain ⟨a, b⟩ := h2.2 q qs rfl
        refine ((Derives.compParams (s1 := default) (e1 := default) (s2 := default) (e2 := default)
          rfl (Derives.optSome a) b).word ?_).cast ?_
        · reprint_word
        · reprint_val
  | compTransition d1 ih1 =>
    intro hd
    have g1 := ih1 (fun t ht => hd t (by simp [ht]))
    refine ⟨((Derives.compTransition g1.1).word ?_).cast ?_, trivial⟩
    · reprint_word
    · reprint_val
  | compProcedure d1 ih1 =>
    intro hd
    have g1 := ih1 (fun t ht => hd t (by simp [ht]))
    refine ⟨((Derives.compProcedure g1.1).word ?_).cast ?_, trivial⟩
    · reprint_word
    · reprint_val
  | transDef h d1 d2 d3 ih1 ih2 ih3 =>
    subst h
    intro hd
    have g1 := ih1 (fun t ht => hd t (by simp [ht]))
    have g2 := ih2 (fun t ht => hd t (by simp [ht]))
    have g3 := ih3 (fun t ht => hd t (by simp [ht]))
    refine ⟨((Derives.transDef (s1 := default) (e1 := default) rfl g1.1 g2.1 g3.1).word ?_).cast ?_, trivial⟩
    · reprint_word
    · reprint_val
  | procDef h d1 d2 d3 ih1 ih2 ih3 =>
    subst h
    intro hd
    have g1 := ih1 (fun t ht => hd t (by simp [ht]))
    have g2 := ih2 (fun t ht => hd t (by simp [ht]))
    have g3 := ih3 (fun t ht => hd t (by simp [ht]))
    refine ⟨((Derives.procDef (s1 := default) (e1 := default) rfl g1.1 g2.1 g3.1).word ?_).cast ?_, trivial⟩
    · reprint_word
    · reprint_val
  | compBody h d1 ih1 =>
    subst h
    intro hd
    have g1 := ih1 (fun t ht => hd t (by simp [ht]))
    refine ⟨((Derives.compBody (s1 := default) (e1 := default) rfl g1.1).word ?_).cast ?_, trivial⟩
    · reprint_word
    · reprint_val
  | contractDef h d1 d2 d3 d4 d5 ih1 ih2 ih3 ih4 ih5 =>
    subst h
    intro hd
    have g1 := ih1 (fun t ht => hd t (by simp [ht]))
    have g2 := ih2 (fun t ht => hd t (by simp [ht]))
    have g3 := ih3 (fun t ht => hd t (by simp [ht]))
    have g4 := ih4 (fun t ht => hd t (by simp [ht]))
    have g5 := ih5 (fun t ht => hd t (by simp [ht]))
    refine ⟨((Derives.contractDef (s1 := default) (e1 := default) rfl g1.1 g2.1 g3.1 g4.1 g5.1).word ?_).cast ?_, trivial⟩
    · reprint_word
    · reprint_val
  | contractField h d1 d2 ih1 ih2 =>
    subst h
    intro hd
    have g1 := ih1 (fun t ht => hd t (by simp [ht]))
    have g2 := ih2 (fun t ht => hd t (by simp [ht]))
    refine ⟨((Derives.contractField (s1 := default) (e1 := default) (s2 := default) (e2 := default) rfl g1.1 g2.1).word ?_).cast ?_, trivial⟩
    · reprint_word
    · reprint_val
  | withConstraint h d1 ih1 =>
    subst h
    intro hd
    have g1 := ih1 (fun t ht => hd t (by simp [ht]))
    refine ⟨((Derives.withConstraint (s1 := default) (e1 := default) (s2 := default) (e2 := default) rfl g1.1).word ?_).cast ?_, trivial⟩
    · reprint_word
    · reprint_val

end Verif
