import Verif.Spec.Strip
import Verif.Spec.Scan
import Verif.Proofs.ParserScan
/-
The grammar does not look at positions.  Generated by tools/gen_strip.py.
-/
namespace Verif

set_option linter.unusedSimpArgs false

attribute [simp] NodeByteStr.strip NodeTypeNameIdentifier.strip NodeImportedName.strip NodeImportDeclarations.strip NodeMetaIdentifier.strip NodeVariableIdentifier.strip NodeBuiltinArguments.strip NodeTypeMapKey.strip NodeTypeMapValue.strip NodeTypeArgument.strip NodeScillaType.strip NodeTypeMapEntry.strip NodeAddressTypeField.strip NodeAddressType.strip NodeTypeMapValueArguments.strip NodeTypeMapValueAllowingTypeArguments.strip NodeTypeAnnotation.strip NodeTypedIdentifier.strip NodeContractTypeArguments.strip NodeValueLiteral.strip NodeMessageEntry.strip NodeAtomicExpression.strip NodeMapAccess.strip NodePattern.strip NodeArgumentPattern.strip NodeFullExpression.strip NodePatternMatchExpressionClause.strip NodeBlockchainFetchArguments.strip NodeComponentId.strip NodeRemoteFetchStatement.strip NodeStatement.strip NodePatternMatchClause.strip NodeStatementBlock.strip NodeParameterPair.strip NodeComponentParameters.strip NodeComponentBody.strip NodeTypeAlternativeClause.strip NodeLibrarySingleDefinition.strip NodeLibraryDefinition.strip NodeContractField.strip NodeWithConstraint.strip NodeProcedureDefinition.strip NodeTransitionDefinition.strip NodeComponentDefinition.strip NodeContractDefinition.strip NodeProgram.strip

@[simp] theorem NodeAddressType.stripW_eq (x : W NodeAddressType) : NodeAddressType.stripW x = W.strip NodeAddressType.strip x := by cases x; rfl
@[simp] theorem NodeTypeMapEntry.stripW_eq (x : W NodeTypeMapEntry) : NodeTypeMapEntry.stripW x = W.strip NodeTypeMapEntry.strip x := by cases x; rfl
@[simp] theorem NodeTypeMapValueAllowingTypeArguments.stripW_eq (x : W NodeTypeMapValueAllowingTypeArguments) : NodeTypeMapValueAllowingTypeArguments.stripW x = W.strip NodeTypeMapValueAllowingTypeArguments.strip x := by cases x; rfl
@[simp] theorem NodeScillaType.stripW_eq (x : W NodeScillaType) : NodeScillaType.stripW x = W.strip NodeScillaType.strip x := by cases x; rfl
@[simp] theorem NodeTypeMapKey.stripW_eq (x : W NodeTypeMapKey) : NodeTypeMapKey.stripW x = W.strip NodeTypeMapKey.strip x := by cases x; rfl
@[simp] theorem NodeTypeMapValue.stripW_eq (x : W NodeTypeMapValue) : NodeTypeMapValue.stripW x = W.strip NodeTypeMapValue.strip x := by cases x; rfl
@[simp] theorem NodeTypeArgument.stripW_eq (x : W NodeTypeArgument) : NodeTypeArgument.stripW x = W.strip NodeTypeArgument.strip x := by cases x; rfl
@[simp] theorem NodeTypeArgument.stripLW_eq : ∀ x : List (W NodeTypeArgument), NodeTypeArgument.stripLW x = List.map (W.strip NodeTypeArgument.strip) x
  | [] => rfl
  | x :: xs => by simp [NodeTypeArgument.stripLW, NodeTypeArgument.stripLW_eq xs]
@[simp] theorem NodeAddressTypeField.stripW_eq (x : W NodeAddressTypeField) : NodeAddressTypeField.stripW x = W.strip NodeAddressTypeField.strip x := by cases x; rfl
@[simp] theorem NodeAddressTypeField.stripLW_eq : ∀ x : List (W NodeAddressTypeField), NodeAddressTypeField.stripLW x = List.map (W.strip NodeAddressTypeField.strip) x
  | [] => rfl
  | x :: xs => by simp [NodeAddressTypeField.stripLW, NodeAddressTypeField.stripLW_eq xs]
@[simp] theorem NodeTypeMapValueArguments.stripW_eq (x : W NodeTypeMapValueArguments) : NodeTypeMapValueArguments.stripW x = W.strip NodeTypeMapValueArguments.strip x := by cases x; rfl
@[simp] theorem NodeTypeMapValueArguments.stripLW_eq : ∀ x : List (W NodeTypeMapValueArguments), NodeTypeMapValueArguments.stripLW x = List.map (W.strip NodeTypeMapValueArguments.strip) x
  | [] => rfl
  | x :: xs => by simp [NodeTypeMapValueArguments.stripLW, NodeTypeMapValueArguments.stripLW_eq xs]
@[simp] theorem NodeArgumentPattern.stripW_eq (x : W NodeArgumentPattern) : NodeArgumentPattern.stripW x = W.strip NodeArgumentPattern.strip x := by cases x; rfl
@[simp] theorem NodeArgumentPattern.stripLW_eq : ∀ x : List (W NodeArgumentPattern), NodeArgumentPattern.stripLW x = List.map (W.strip NodeArgumentPattern.strip) x
  | [] => rfl
  | x :: xs => by simp [NodeArgumentPattern.stripLW, NodeArgumentPattern.stripLW_eq xs]
@[simp] theorem NodePattern.stripW_eq (x : W NodePattern) : NodePattern.stripW x = W.strip NodePattern.strip x := by cases x; rfl
@[simp] theorem NodeFullExpression.stripW_eq (x : W NodeFullExpression) : NodeFullExpression.stripW x = W.strip NodeFullExpression.strip x := by cases x; rfl
@[simp] theorem NodePatternMatchExpressionClause.stripW_eq (x : W NodePatternMatchExpressionClause) : NodePatternMatchExpressionClause.stripW x = W.strip NodePatternMatchExpressionClause.strip x := by cases x; rfl
@[simp] theorem NodePatternMatchExpressionClause.stripLW_eq : ∀ x : List (W NodePatternMatchExpressionClause), NodePatternMatchExpressionClause.stripLW x = List.map (W.strip NodePatternMatchExpressionClause.strip) x
  | [] => rfl
  | x :: xs => by simp [NodePatternMatchExpressionClause.stripLW, NodePatternMatchExpressionClause.stripLW_eq xs]
@[simp] theorem NodePatternMatchClause.stripW_eq (x : W NodePatternMatchClause) : NodePatternMatchClause.stripW x = W.strip NodePatternMatchClause.strip x := by cases x; rfl
@[simp] theorem NodePatternMatchClause.stripLW_eq : ∀ x : List (W NodePatternMatchClause), NodePatternMatchClause.stripLW x = List.map (W.strip NodePatternMatchClause.strip) x
  | [] => rfl
  | x :: xs => by simp [NodePatternMatchClause.stripLW, NodePatternMatchClause.stripLW_eq xs]
@[simp] theorem NodeStatementBlock.stripW_eq (x : W NodeStatementBlock) : NodeStatementBlock.stripW x = W.strip NodeStatementBlock.strip x := by cases x; rfl
@[simp] theorem NodeStatementBlock.stripOW_eq (x : Option (W NodeStatementBlock)) : NodeStatementBlock.stripOW x = Option.map (W.strip NodeStatementBlock.strip) x := by
  cases x <;> simp [NodeStatementBlock.stripOW]
@[simp] theorem NodeStatement.stripL_eq : ∀ x : List NodeStatement, NodeStatement.stripL x = List.map NodeStatement.strip x
  | [] => rfl
  | x :: xs => by simp [NodeStatement.stripL, NodeStatement.stripL_eq xs]

@[simp] theorem W.strip_node {α : Type} (f : α → α) (w : W α) : (W.strip f w).node = f w.node := rfl

@[simp] theorem W.strip_mkW {α : Type} (f : α → α) (w : List STok) (x : α) :
    W.strip f (mkW w x) = ⟨f x, default, default⟩ := rfl

@[simp] theorem startOf_strip (w : List STok) : startOf (w.map STok.strip) = default := by
  cases w <;> rfl

theorem stopFrom_strip : ∀ (w : List STok), stopFrom default (w.map STok.strip) = default
  | [] => rfl
  | _ :: w => stopFrom_strip w

@[simp] theorem stopOf_strip (w : List STok) : stopOf (w.map STok.strip) = default :=
  stopFrom_strip w

@[simp] theorem importList_strip (d : NodeImportDeclarations) :
    d.strip.importList = d.importList.map (W.strip NodeImportedName.strip) := by cases d; rfl

@[simp] theorem arguments_strip (d : NodeBuiltinArguments) :
    d.strip.arguments = d.arguments.map (W.strip NodeVariableIdentifier.strip) := by cases d; rfl

theorem W.strip_eq {α : Type} (f : α → α) (x : α) (a b : Pos) :
    W.strip f ⟨x, a, b⟩ = ⟨f x, default, default⟩ := rfl

theorem Option.map_getD_nil {α β : Type} (f : α → β) (x : Option (List α)) :
    (Option.map (List.map f) x).getD [] = List.map f (x.getD []) := by cases x <;> rfl

theorem Option.map_toList {α β : Type} (f : α → β) (x : Option α) :
    (Option.map f x).toList = List.map f x.toList := by cases x <;> rfl

theorem Derives.cast {n : NT} {w : List STok} {v v' : Val n} (h : Derives n w v) (e : v = v') :
    Derives n w v' := e ▸ h

theorem mkW_strip {α : Type} (w : List STok) (x : α) :
    mkW (w.map STok.strip) x = ⟨x, default, default⟩ := by simp [mkW]

theorem Derives.strip {n : NT} {w : List STok} {v : Val n} (d : Derives n w v) :
    Derives n (w.map STok.strip) (stripV n v) := by
  induction d with
  | starNil =>
    exact .starNil
  | starCons d1 d2 ih1 ih2 =>
    rw [List.map_append]; exact .starCons ih1 ih2
  | plusIntro d1 d2 ih1 ih2 =>
    rw [List.map_append]; exact .plusIntro ih1 ih2
  | optNone =>
    exact .optNone
  | optSome d1 ih1 =>
    exact .optSome ih1
  | hexNumber h =>
    subst h
    exact (Derives.hexNumber (s := default) (e := default) (by simp only [List.map_cons, List.map_append, List.map_nil, STok.strip] <;> rfl) ).cast (by (try simp only [mkW_strip, stopOf_strip]); first | rfl | (simp [stripV]; done) | (simp [stripV, Option.map_getD_nil, Option.map_toList]; done) | simp [stripV, W.strip_eq])
  | signedInt h =>
    subst h
    exact (Derives.signedInt (s := default) (e := default) (by simp only [List.map_cons, List.map_append, List.map_nil, STok.strip] <;> rfl) ).cast (by (try simp only [mkW_strip, stopOf_strip]); first | rfl | (simp [stripV]; done) | (simp [stripV, Option.map_getD_nil, Option.map_toList]; done) | simp [stripV, W.strip_eq])
  | regularId h =>
    subst h
    exact (Derives.regularId (s := default) (e := default) (by simp only [List.map_cons, List.map_append, List.map_nil, STok.strip] <;> rfl) ).cast (by (try simp only [mkW_strip, stopOf_strip]); first | rfl | (simp [stripV]; done) | (simp [stripV, Option.map_getD_nil, Option.map_toList]; done) | simp [stripV, W.strip_eq])
  | specialId h =>
    subst h
    exact (Derives.specialId (s := default) (e := default) (by simp only [List.map_cons, List.map_append, List.map_nil, STok.strip] <;> rfl) ).cast (by (try simp only [mkW_strip, stopOf_strip]); first | rfl | (simp [stripV]; done) | (simp [stripV, Option.map_getD_nil, Option.map_toList]; done) | simp [stripV, W.strip_eq])
  | customId h =>
    subst h
    exact (Derives.customId (s := default) (e := default) (by simp only [List.map_cons, List.map_append, List.map_nil, STok.strip] <;> rfl) ).cast (by (try simp only [mkW_strip, stopOf_strip]); first | rfl | (simp [stripV]; done) | (simp [stripV, Option.map_getD_nil, Option.map_toList]; done) | simp [stripV, W.strip_eq])
  | templateId h =>
    subst h
    exact (Derives.templateId (s := default) (e := default) (by simp only [List.map_cons, List.map_append, List.map_nil, STok.strip] <;> rfl) ).cast (by (try simp only [mkW_strip, stopOf_strip]); first | rfl | (simp [stripV]; done) | (simp [stripV, Option.map_getD_nil, Option.map_toList]; done) | simp [stripV, W.strip_eq])
  | stringLit h =>
    subst h
    exact (Derives.stringLit (s := default) (e := default) (by simp only [List.map_cons, List.map_append, List.map_nil, STok.strip] <;> rfl) ).cast (by (try simp only [mkW_strip, stopOf_strip]); first | rfl | (simp [stripV]; done) | (simp [stripV, Option.map_getD_nil, Option.map_toList]; done) | simp [stripV, W.strip_eq])
  | byteString h =>
    subst h
    exact (Derives.byteString (s := default) (e := default) (by simp only [List.map_cons, List.map_append, List.map_nil, STok.strip] <;> rfl) ).cast (by (try simp only [mkW_strip, stopOf_strip]); first | rfl | (simp [stripV]; done) | (simp [stripV, Option.map_getD_nil, Option.map_toList]; done) | simp [stripV, W.strip_eq])
  | typeNameBytes d1 ih1 =>
    exact (Derives.typeNameBytes ih1).cast (by (try simp only [mkW_strip, stopOf_strip]); first | rfl | (simp [stripV]; done) | (simp [stripV, Option.map_getD_nil, Option.map_toList]; done) | simp [stripV, W.strip_eq])
  | typeNameEvent h =>
    subst h
    exact (Derives.typeNameEvent (s := default) (e := default) (by simp only [List.map_cons, List.map_append, List.map_nil, STok.strip] <;> rfl) ).cast (by (try simp only [mkW_strip, stopOf_strip]); first | rfl | (simp [stripV]; done) | (simp [stripV, Option.map_getD_nil, Option.map_toList]; done) | simp [stripV, W.strip_eq])
  | typeNameCustom d1 ih1 =>
    exact (Derives.typeNameCustom ih1).cast (by (try simp only [mkW_strip, stopOf_strip]); first | rfl | (simp [stripV]; done) | (simp [stripV, Option.map_getD_nil, Option.map_toList]; done) | simp [stripV, W.strip_eq])
  | importedRegular d1 ih1 =>
    exact (Derives.importedRegular ih1).cast (by (try simp only [mkW_strip, stopOf_strip]); first | rfl | (simp [stripV]; done) | (simp [stripV, Option.map_getD_nil, Option.map_toList]; done) | simp [stripV, W.strip_eq])
  | importedAliased h d1 d2 ih1 ih2 =>
    subst h
    exact (Derives.importedAliased (s1 := default) (e1 := default) (by simp only [List.map_cons, List.map_append, List.map_nil, STok.strip] <;> rfl) ih1 ih2).cast (by (try simp only [mkW_strip, stopOf_strip]); first | rfl | (simp [stripV]; done) | (simp [stripV, Option.map_getD_nil, Option.map_toList]; done) | simp [stripV, W.strip_eq])
  | importMore h d1 d2 ih1 ih2 =>
    subst h
    exact (Derives.importMore (s1 := default) (e1 := default) (by simp only [List.map_cons, List.map_append, List.map_nil, STok.strip] <;> rfl) ih1 ih2).cast (by (try simp only [mkW_strip, stopOf_strip]); first | rfl | (simp [stripV]; done) | (simp [stripV, Option.map_getD_nil, Option.map_toList]; done) | simp [stripV, W.strip_eq])
  | importFirst h d1 ih1 =>
    subst h
    exact (Derives.importFirst (s1 := default) (e1 := default) (by simp only [List.map_cons, List.map_append, List.map_nil, STok.strip] <;> rfl) ih1).cast (by (try simp only [mkW_strip, stopOf_strip]); first | rfl | (simp [stripV]; done) | (simp [stripV, Option.map_getD_nil, Option.map_toList]; done) | simp [stripV, W.strip_eq])
  | metaName d1 ih1 =>
    exact (Derives.metaName ih1).cast (by (try simp only [mkW_strip, stopOf_strip]); first | rfl | (simp [stripV]; done) | (simp [stripV, Option.map_getD_nil, Option.map_toList]; done) | simp [stripV, W.strip_eq])
  | metaNamespace h d1 d2 ih1 ih2 =>
    subst h
    exact (Derives.metaNamespace (s1 := default) (e1 := default) (by simp only [List.map_cons, List.map_append, List.map_nil, STok.strip] <;> rfl) ih1 ih2).cast (by (try simp only [mkW_strip, stopOf_strip]); first | rfl | (simp [stripV]; done) | (simp [stripV, Option.map_getD_nil, Option.map_toList]; done) | simp [stripV, W.strip_eq])
  | metaHexspace h d1 d2 ih1 ih2 =>
    subst h
    exact (Derives.metaHexspace (s1 := default) (e1 := default) (by simp only [List.map_cons, List.map_append, List.map_nil, STok.strip] <;> rfl) ih1 ih2).cast (by (try simp only [mkW_strip, stopOf_strip]); first | rfl | (simp [stripV]; done) | (simp [stripV, Option.map_getD_nil, Option.map_toList]; done) | simp [stripV, W.strip_eq])
  | metaByStr h =>
    subst h
    exact (Derives.metaByStr (s := default) (e := default) (by simp only [List.map_cons, List.map_append, List.map_nil, STok.strip] <;> rfl) ).cast (by (try simp only [mkW_strip, stopOf_strip]); first | rfl | (simp [stripV]; done) | (simp [stripV, Option.map_getD_nil, Option.map_toList]; done) | simp [stripV, W.strip_eq])
  | varName d1 ih1 =>
    exact (Derives.varName ih1).cast (by (try simp only [mkW_strip, stopOf_strip]); first | rfl | (simp [stripV]; done) | (simp [stripV, Option.map_getD_nil, Option.map_toList]; done) | simp [stripV, W.strip_eq])
  | varSpecial d1 ih1 =>
    exact (Derives.varSpecial ih1).cast (by (try simp only [mkW_strip, stopOf_strip]); first | rfl | (simp [stripV]; done) | (simp [stripV, Option.map_getD_nil, Option.map_toList]; done) | simp [stripV, W.strip_eq])
  | varNamespace h d1 d2 ih1 ih2 =>
    subst h
    exact (Derives.varNamespace (s1 := default) (e1 := default) (by simp only [List.map_cons, List.map_append, List.map_nil, STok.strip] <;> rfl) ih1 ih2).cast (by (try simp only [mkW_strip, stopOf_strip]); first | rfl | (simp [stripV]; done) | (simp [stripV, Option.map_getD_nil, Option.map_toList]; done) | simp [stripV, W.strip_eq])
  | builtinMore h d1 d2 ih1 ih2 =>
    subst h
    exact (Derives.builtinMore (by simp only [List.map_cons, List.map_append, List.map_nil, STok.strip] <;> rfl) ih1 ih2).cast (by (try simp only [mkW_strip, stopOf_strip]); first | rfl | (simp [stripV]; done) | (simp [stripV, Option.map_getD_nil, Option.map_toList]; done) | simp [stripV, W.strip_eq])
  | builtinOne d1 ih1 =>
    exact (Derives.builtinOne ih1).cast (by (try simp only [mkW_strip, stopOf_strip]); first | rfl | (simp [stripV]; done) | (simp [stripV, Option.map_getD_nil, Option.map_toList]; done) | simp [stripV, W.strip_eq])
  | builtinUnit h =>
    subst h
    exact (Derives.builtinUnit (s1 := default) (e1 := default) (s2 := default) (e2 := default) (by simp only [List.map_cons, List.map_append, List.map_nil, STok.strip] <;> rfl) ).cast (by (try simp only [mkW_strip, stopOf_strip]); first | rfl | (simp [stripV]; done) | (simp [stripV, Option.map_getD_nil, Option.map_toList]; done) | simp [stripV, W.strip_eq])
  | remGeneric h d1 d2 ih1 ih2 =>
    subst h
    exact (Derives.remGeneric (by simp only [List.map_cons, List.map_append, List.map_nil, STok.strip] <;> rfl) ih1 ih2).cast (by (try simp only [mkW_strip, stopOf_strip]); first | rfl | (simp [stripV]; done) | (simp [stripV, Option.map_getD_nil, Option.map_toList]; done) | simp [stripV, W.strip_eq])
  | remMap h d1 d2 ih1 ih2 =>
    subst h
    exact (Derives.remMap (s1 := default) (e1 := default) (by simp only [List.map_cons, List.map_append, List.map_nil, STok.strip] <;> rfl) ih1 ih2).cast (by (try simp only [mkW_strip, stopOf_strip]); first | rfl | (simp [stripV]; done) | (simp [stripV, Option.map_getD_nil, Option.map_toList]; done) | simp [stripV, W.strip_eq])
  | remParen h d1 ih1 =>
    subst h
    exact (Derives.remParen (s1 := default) (e1 := default) (s2 := default) (e2 := default) (by simp only [List.map_cons, List.map_append, List.map_nil, STok.strip] <;> rfl) ih1).cast (by (try simp only [mkW_strip, stopOf_strip]); first | rfl | (simp [stripV]; done) | (simp [stripV, Option.map_getD_nil, Option.map_toList]; done) | simp [stripV, W.strip_eq])
  | remAddress d1 ih1 =>
    exact (Derives.remAddress ih1).cast (by (try simp only [mkW_strip, stopOf_strip]); first | rfl | (simp [stripV]; done) | (simp [stripV, Option.map_getD_nil, Option.map_toList]; done) | simp [stripV, W.strip_eq])
  | remForall h d1 d2 ih1 ih2 =>
    subst h
    exact (Derives.remForall (s1 := default) (e1 := default) (s2 := default) (e2 := default) (by simp only [List.map_cons, List.map_append, List.map_nil, STok.strip] <;> rfl) ih1 ih2).cast (by (try simp only [mkW_strip, stopOf_strip]); first | rfl | (simp [stripV]; done) | (simp [stripV, Option.map_getD_nil, Option.map_toList]; done) | simp [stripV, W.strip_eq])
  | remTypeVar d1 ih1 =>
    exact (Derives.remTypeVar ih1).cast (by (try simp only [mkW_strip, stopOf_strip]); first | rfl | (simp [stripV]; done) | (simp [stripV, Option.map_getD_nil, Option.map_toList]; done) | simp [stripV, W.strip_eq])
  | funSigMore h d1 d2 ih1 ih2 =>
    subst h
    exact (Derives.funSigMore (s1 := default) (e1 := default) (by simp only [List.map_cons, List.map_append, List.map_nil, STok.strip] <;> rfl) ih1 ih2).cast (by (try simp only [mkW_strip, stopOf_strip]); first | rfl | (simp [stripV]; done) | (simp [stripV, Option.map_getD_nil, Option.map_toList]; done) | simp [stripV, W.strip_eq])
  | funSigLast h d1 d2 ih1 ih2 =>
    subst h
    exact (Derives.funSigLast (s1 := default) (e1 := default) (by simp only [List.map_cons, List.map_append, List.map_nil, STok.strip] <;> rfl) ih1 ih2).cast (by (try simp only [mkW_strip, stopOf_strip]); first | rfl | (simp [stripV]; done) | (simp [stripV, Option.map_getD_nil, Option.map_toList]; done) | simp [stripV, W.strip_eq])
  | typeFun d1 ih1 =>
    exact .typeFun ih1
  | typeRem d1 ih1 =>
    exact .typeRem ih1
  | argParen h d1 ih1 =>
    subst h
    exact (Derives.argParen (s1 := default) (e1 := default) (s2 := default) (e2 := default) (by simp only [List.map_cons, List.map_append, List.map_nil, STok.strip] <;> rfl) ih1).cast (by (try simp only [mkW_strip, stopOf_strip]); first | rfl | (simp [stripV]; done) | (simp [stripV, Option.map_getD_nil, Option.map_toList]; done) | simp [stripV, W.strip_eq])
  | argMeta d1 ih1 =>
    exact (Derives.argMeta ih1).cast (by (try simp only [mkW_strip, stopOf_strip]); first | rfl | (simp [stripV]; done) | (simp [stripV, Option.map_getD_nil, Option.map_toList]; done) | simp [stripV, W.strip_eq])
  | argTemplate d1 ih1 =>
    exact (Derives.argTemplate ih1).cast (by (try simp only [mkW_strip, stopOf_strip]); first | rfl | (simp [stripV]; done) | (simp [stripV, Option.map_getD_nil, Option.map_toList]; done) | simp [stripV, W.strip_eq])
  | argAddress d1 ih1 =>
    exact (Derives.argAddress ih1).cast (by (try simp only [mkW_strip, stopOf_strip]); first | rfl | (simp [stripV]; done) | (simp [stripV, Option.map_getD_nil, Option.map_toList]; done) | simp [stripV, W.strip_eq])
  | argMap h d1 d2 ih1 ih2 =>
    subst h
    exact (Derives.argMap (s1 := default) (e1 := default) (by simp only [List.map_cons, List.map_append, List.map_nil, STok.strip] <;> rfl) ih1 ih2).cast (by (try simp only [mkW_strip, stopOf_strip]); first | rfl | (simp [stripV]; done) | (simp [stripV, Option.map_getD_nil, Option.map_toList]; done) | simp [stripV, W.strip_eq])
  | addrEmpty h d1 ih1 =>
    subst h
    exact (Derives.addrEmpty (s1 := default) (e1 := default) (s2 := default) (e2 := default) (by simp only [List.map_cons, List.map_append, List.map_nil, STok.strip] <;> rfl) ih1).cast (by (try simp only [mkW_strip, stopOf_strip]); first | rfl | (simp [stripV]; done) | (simp [stripV, Option.map_getD_nil, Option.map_toList]; done) | simp [stripV, W.strip_eq])
  | addrContract h d1 d2 ih1 ih2 =>
    subst h
    exact (Derives.addrContract (s1 := default) (e1 := default) (s2 := default) (e2 := default) (s3 := default) (e3 := default) (by simp only [List.map_cons, List.map_append, List.map_nil, STok.strip] <;> rfl) ih1 ih2).cast (by (try simp only [mkW_strip, stopOf_strip]); first | rfl | (simp [stripV]; done) | (simp [stripV, Option.map_getD_nil, Option.map_toList]; done) | simp [stripV, W.strip_eq])
  | addrLibrary h d1 ih1 =>
    subst h
    exact (Derives.addrLibrary (s1 := default) (e1 := default) (s2 := default) (e2 := default) (s3 := default) (e3 := default) (by simp only [List.map_cons, List.map_append, List.map_nil, STok.strip] <;> rfl) ih1).cast (by (try simp only [mkW_strip, stopOf_strip]); first | rfl | (simp [stripV]; done) | (simp [stripV, Option.map_getD_nil, Option.map_toList]; done) | simp [stripV, W.strip_eq])
  | addrSpecial h d1 d2 ih1 ih2 =>
    subst h
    exact (Derives.addrSpecial (s1 := default) (e1 := default) (s2 := default) (e2 := default) (by simp only [List.map_cons, List.map_append, List.map_nil, STok.strip] <;> rfl) ih1 ih2).cast (by (try simp only [mkW_strip, stopOf_strip]); first | rfl | (simp [stripV]; done) | (simp [stripV, Option.map_getD_nil, Option.map_toList]; done) | simp [stripV, W.strip_eq])
  | addrFieldList h d1 d2 ih1 ih2 =>
    subst h
    exact (Derives.addrFieldList (by simp only [List.map_cons, List.map_append, List.map_nil, STok.strip] <;> rfl) ih1 ih2).cast (by (try simp only [mkW_strip, stopOf_strip]); first | rfl | (simp [stripV]; done) | (simp [stripV, Option.map_getD_nil, Option.map_toList]; done) | simp [stripV, W.strip_eq])
  | nextAddrField h d1 ih1 =>
    subst h
    exact (Derives.nextAddrField (s1 := default) (e1 := default) (by simp only [List.map_cons, List.map_append, List.map_nil, STok.strip] <;> rfl) ih1).cast (by (try simp only [mkW_strip, stopOf_strip]); first | rfl | (simp [stripV]; done) | (simp [stripV, Option.map_getD_nil, Option.map_toList]; done) | simp [stripV, W.strip_eq])
  | addrField h d1 d2 ih1 ih2 =>
    subst h
    exact (Derives.addrField (s1 := default) (e1 := default) (s2 := default) (e2 := default) (by simp only [List.map_cons, List.map_append, List.map_nil, STok.strip] <;> rfl) ih1 ih2).cast (by (try simp only [mkW_strip, stopOf_strip]); first | rfl | (simp [stripV]; done) | (simp [stripV, Option.map_getD_nil, Option.map_toList]; done) | simp [stripV, W.strip_eq])
  | keyMeta d1 ih1 =>
    exact (Derives.keyMeta ih1).cast (by (try simp only [mkW_strip, stopOf_strip]); first | rfl | (simp [stripV]; done) | (simp [stripV, Option.map_getD_nil, Option.map_toList]; done) | simp [stripV, W.strip_eq])
  | keyParenMeta h d1 ih1 =>
    subst h
    exact (Derives.keyParenMeta (s1 := default) (e1 := default) (s2 := default) (e2 := default) (by simp only [List.map_cons, List.map_append, List.map_nil, STok.strip] <;> rfl) ih1).cast (by (try simp only [mkW_strip, stopOf_strip]); first | rfl | (simp [stripV]; done) | (simp [stripV, Option.map_getD_nil, Option.map_toList]; done) | simp [stripV, W.strip_eq])
  | keyParenAddress h d1 ih1 =>
    subst h
    exact (Derives.keyParenAddress (s1 := default) (e1 := default) (s2 := default) (e2 := default) (by simp only [List.map_cons, List.map_append, List.map_nil, STok.strip] <;> rfl) ih1).cast (by (try simp only [mkW_strip, stopOf_strip]); first | rfl | (simp [stripV]; done) | (simp [stripV, Option.map_getD_nil, Option.map_toList]; done) | simp [stripV, W.strip_eq])
  | keyAddress d1 ih1 =>
    exact (Derives.keyAddress ih1).cast (by (try simp only [mkW_strip, stopOf_strip]); first | rfl | (simp [stripV]; done) | (simp [stripV, Option.map_getD_nil, Option.map_toList]; done) | simp [stripV, W.strip_eq])
  | valMeta d1 ih1 =>
    exact (Derives.valMeta ih1).cast (by (try simp only [mkW_strip, stopOf_strip]); first | rfl | (simp [stripV]; done) | (simp [stripV, Option.map_getD_nil, Option.map_toList]; done) | simp [stripV, W.strip_eq])
  | valMap h d1 d2 ih1 ih2 =>
    subst h
    exact (Derives.valMap (s1 := default) (e1 := default) (by simp only [List.map_cons, List.map_append, List.map_nil, STok.strip] <;> rfl) ih1 ih2).cast (by (try simp only [mkW_strip, stopOf_strip]); first | rfl | (simp [stripV]; done) | (simp [stripV, Option.map_getD_nil, Option.map_toList]; done) | simp [stripV, W.strip_eq])
  | valParen h d1 ih1 =>
    subst h
    exact (Derives.valParen (s1 := default) (e1 := default) (s2 := default) (e2 := default) (by simp only [List.map_cons, List.map_append, List.map_nil, STok.strip] <;> rfl) ih1).cast (by (try simp only [mkW_strip, stopOf_strip]); first | rfl | (simp [stripV]; done) | (simp [stripV, Option.map_getD_nil, Option.map_toList]; done) | simp [stripV, W.strip_eq])
  | valAddress d1 ih1 =>
    exact (Derives.valAddress ih1).cast (by (try simp only [mkW_strip, stopOf_strip]); first | rfl | (simp [stripV]; done) | (simp [stripV, Option.map_getD_nil, Option.map_toList]; done) | simp [stripV, W.strip_eq])
  | mvaParen h d1 ih1 =>
    subst h
    exact (Derives.mvaParen (s1 := default) (e1 := default) (s2 := default) (e2 := default) (by simp only [List.map_cons, List.map_append, List.map_nil, STok.strip] <;> rfl) ih1).cast (by (try simp only [mkW_strip, stopOf_strip]); first | rfl | (simp [stripV]; done) | (simp [stripV, Option.map_getD_nil, Option.map_toList]; done) | simp [stripV, W.strip_eq])
  | mvaMeta d1 ih1 =>
    exact (Derives.mvaMeta ih1).cast (by (try simp only [mkW_strip, stopOf_strip]); first | rfl | (simp [stripV]; done) | (simp [stripV, Option.map_getD_nil, Option.map_toList]; done) | simp [stripV, W.strip_eq])
  | mvaMap h d1 d2 ih1 ih2 =>
    subst h
    exact (Derives.mvaMap (s1 := default) (e1 := default) (by simp only [List.map_cons, List.map_append, List.map_nil, STok.strip] <;> rfl) ih1 ih2).cast (by (try simp only [mkW_strip, stopOf_strip]); first | rfl | (simp [stripV]; done) | (simp [stripV, Option.map_getD_nil, Option.map_toList]; done) | simp [stripV, W.strip_eq])
  | program h d1 d2 d3 d4 ih1 ih2 ih3 ih4 =>
    subst h
    exact (Derives.program (s1 := default) (e1 := default) (by simp only [List.map_cons, List.map_append, List.map_nil, STok.strip] <;> rfl) ih1 ih2 ih3 ih4).cast (by (try simp only [mkW_strip, stopOf_strip]); first | rfl | (simp [stripV]; done) | (simp [stripV, Option.map_getD_nil, Option.map_toList]; done) | simp [stripV, W.strip_eq])
  | libraryDef h d1 d2 ih1 ih2 =>
    subst h
    exact (Derives.libraryDef (s1 := default) (e1 := default) (by simp only [List.map_cons, List.map_append, List.map_nil, STok.strip] <;> rfl) ih1 ih2).cast (by (try simp only [mkW_strip, stopOf_strip]); first | rfl | (simp [stripV]; done) | (simp [stripV, Option.map_getD_nil, Option.map_toList]; done) | simp [stripV, W.strip_eq])
  | libLet h d1 d2 d3 ih1 ih2 ih3 =>
    subst h
    exact (Derives.libLet (s1 := default) (e1 := default) (s2 := default) (e2 := default) (by simp only [List.map_cons, List.map_append, List.map_nil, STok.strip] <;> rfl) ih1 ih2 ih3).cast (by (try simp only [mkW_strip, stopOf_strip]); first | rfl | (simp [stripV]; done) | (simp [stripV, Option.map_getD_nil, Option.map_toList]; done) | simp [stripV, W.strip_eq])
  | libType h d1 ih1 =>
    subst h
    exact (Derives.libType (s1 := default) (e1 := default) (by simp only [List.map_cons, List.map_append, List.map_nil, STok.strip] <;> rfl) ih1).cast (by (try simp only [mkW_strip, stopOf_strip]); first | rfl | (simp [stripV]; done) | (simp [stripV, Option.map_getD_nil, Option.map_toList]; done) | simp [stripV, W.strip_eq])
  | libTypeAlts h d1 d2 ih1 ih2 =>
    subst h
    exact (Derives.libTypeAlts (s1 := default) (e1 := default) (s2 := default) (e2 := default) (by simp only [List.map_cons, List.map_append, List.map_nil, STok.strip] <;> rfl) ih1 ih2).cast (by (try simp only [mkW_strip, stopOf_strip]); first | rfl | (simp [stripV]; done) | (simp [stripV, Option.map_getD_nil, Option.map_toList]; done) | simp [stripV, W.strip_eq])
  | typedId h d1 d2 ih1 ih2 =>
    subst h
    exact (Derives.typedId (by simp only [List.map_cons, List.map_append, List.map_nil, STok.strip] <;> rfl) ih1 ih2).cast (by (try simp only [mkW_strip, stopOf_strip]); first | rfl | (simp [stripV]; done) | (simp [stripV, Option.map_getD_nil, Option.map_toList]; done) | simp [stripV, W.strip_eq])
  | typeAnn h d1 ih1 =>
    subst h
    exact (Derives.typeAnn (s1 := default) (e1 := default) (by simp only [List.map_cons, List.map_append, List.map_nil, STok.strip] <;> rfl) ih1).cast (by (try simp only [mkW_strip, stopOf_strip]); first | rfl | (simp [stripV]; done) | (simp [stripV, Option.map_getD_nil, Option.map_toList]; done) | simp [stripV, W.strip_eq])
  | altType h d1 ih1 =>
    subst h
    exact (Derives.altType (s1 := default) (e1 := default) (by simp only [List.map_cons, List.map_append, List.map_nil, STok.strip] <;> rfl) ih1).cast (by (try simp only [mkW_strip, stopOf_strip]); first | rfl | (simp [stripV]; done) | (simp [stripV, Option.map_getD_nil, Option.map_toList]; done) | simp [stripV, W.strip_eq])
  | altTypeArgs h d1 d2 ih1 ih2 =>
    subst h
    exact (Derives.altTypeArgs (s1 := default) (e1 := default) (s2 := default) (e2 := default) (by simp only [List.map_cons, List.map_append, List.map_nil, STok.strip] <;> rfl) ih1 ih2).cast (by (try simp only [mkW_strip, stopOf_strip]); first | rfl | (simp [stripV]; done) | (simp [stripV, Option.map_getD_nil, Option.map_toList]; done) | simp [stripV, W.strip_eq])
  | mvWithArgs h d1 d2 ih1 ih2 =>
    subst h
    exact (Derives.mvWithArgs (by simp only [List.map_cons, List.map_append, List.map_nil, STok.strip] <;> rfl) ih1 ih2).cast (by (try simp only [mkW_strip, stopOf_strip]); first | rfl | (simp [stripV]; done) | (simp [stripV, Option.map_getD_nil, Option.map_toList]; done) | simp [stripV, W.strip_eq])
  | mvNoArgs d1 ih1 =>
    exact (Derives.mvNoArgs ih1).cast (by (try simp only [mkW_strip, stopOf_strip]); first | rfl | (simp [stripV]; done) | (simp [stripV, Option.map_getD_nil, Option.map_toList]; done) | simp [stripV, W.strip_eq])
  | contractTypeArgs h d1 ih1 =>
    subst h
    exact (Derives.contractTypeArgs (s1 := default) (e1 := default) (s2 := default) (e2 := default) (by simp only [List.map_cons, List.map_append, List.map_nil, STok.strip] <;> rfl) ih1).cast (by (try simp only [mkW_strip, stopOf_strip]); first | rfl | (simp [stripV]; done) | (simp [stripV, Option.map_getD_nil, Option.map_toList]; done) | simp [stripV, W.strip_eq])
  | exprLet h d1 d2 d3 d4 ih1 ih2 ih3 ih4 =>
    subst h
    exact (Derives.exprLet (s1 := default) (e1 := default) (s2 := default) (e2 := default) (s3 := default) (e3 := default) (by simp only [List.map_cons, List.map_append, List.map_nil, STok.strip] <;> rfl) ih1 ih2 ih3 ih4).cast (by (try simp only [mkW_strip, stopOf_strip]); first | rfl | (simp [stripV]; done) | (simp [stripV, Option.map_getD_nil, Option.map_toList]; done) | simp [stripV, W.strip_eq])
  | exprFun h d1 d2 d3 ih1 ih2 ih3 =>
    subst h
    exact (Derives.exprFun (s1 := default) (e1 := default) (s2 := default) (e2 := default) (s3 := default) (e3 := default) (s4 := default) (e4 := default) (by simp only [List.map_cons, List.map_append, List.map_nil, STok.strip] <;> rfl) ih1 ih2 ih3).cast (by (try simp only [mkW_strip, stopOf_strip]); first | rfl | (simp [stripV]; done) | (simp [stripV, Option.map_getD_nil, Option.map_toList]; done) | simp [stripV, W.strip_eq])
  | exprCall h d1 d2 ih1 ih2 =>
    subst h
    exact (Derives.exprCall (by simp only [List.map_cons, List.map_append, List.map_nil, STok.strip] <;> rfl) ih1 ih2).cast (by (try simp only [mkW_strip, stopOf_strip]); first | rfl | (simp [stripV]; done) | (simp [stripV, Option.map_getD_nil, Option.map_toList]; done) | simp [stripV, W.strip_eq])
  | exprAtomic d1 ih1 =>
    exact (Derives.exprAtomic ih1).cast (by (try simp only [mkW_strip, stopOf_strip]); first | rfl | (simp [stripV]; done) | (simp [stripV, Option.map_getD_nil, Option.map_toList]; done) | simp [stripV, W.strip_eq])
  | exprBuiltin h d1 d2 d3 ih1 ih2 ih3 =>
    subst h
    exact (Derives.exprBuiltin (s1 := default) (e1 := default) (by simp only [List.map_cons, List.map_append, List.map_nil, STok.strip] <;> rfl) ih1 ih2 ih3).cast (by (try simp only [mkW_strip, stopOf_strip]); first | rfl | (simp [stripV]; done) | (simp [stripV, Option.map_getD_nil, Option.map_toList]; done) | simp [stripV, W.strip_eq])
  | exprMessage h d1 d2 ih1 ih2 =>
    subst h
    exact (Derives.exprMessage (s1 := default) (e1 := default) (s2 := default) (e2 := default) (by simp only [List.map_cons, List.map_append, List.map_nil, STok.strip] <;> rfl) ih1 ih2).cast (by (try simp only [mkW_strip, stopOf_strip]); first | rfl | (simp [stripV]; done) | (simp [stripV, Option.map_getD_nil, Option.map_toList]; done) | simp [stripV, W.strip_eq])
  | exprMatch h d1 d2 ih1 ih2 =>
    subst h
    exact (Derives.exprMatch (s1 := default) (e1 := default) (s2 := default) (e2 := default) (s3 := default) (e3 := default) (by simp only [List.map_cons, List.map_append, List.map_nil, STok.strip] <;> rfl) ih1 ih2).cast (by (try simp only [mkW_strip, stopOf_strip]); first | rfl | (simp [stripV]; done) | (simp [stripV, Option.map_getD_nil, Option.map_toList]; done) | simp [stripV, W.strip_eq])
  | exprConstr h d1 d2 d3 ih1 ih2 ih3 =>
    subst h
    exact (Derives.exprConstr (by simp only [List.map_cons, List.map_append, List.map_nil, STok.strip] <;> rfl) ih1 ih2 ih3).cast (by (try simp only [mkW_strip, stopOf_strip]); first | rfl | (simp [stripV]; done) | (simp [stripV, Option.map_getD_nil, Option.map_toList]; done) | simp [stripV, W.strip_eq])
  | exprTFun h d1 d2 ih1 ih2 =>
    subst h
    exact (Derives.exprTFun (s1 := default) (e1 := default) (s2 := default) (e2 := default) (by simp only [List.map_cons, List.map_append, List.map_nil, STok.strip] <;> rfl) ih1 ih2).cast (by (try simp only [mkW_strip, stopOf_strip]); first | rfl | (simp [stripV]; done) | (simp [stripV, Option.map_getD_nil, Option.map_toList]; done) | simp [stripV, W.strip_eq])
  | exprTApp h d1 d2 ih1 ih2 =>
    subst h
    exact (Derives.exprTApp (s1 := default) (e1 := default) (by simp only [List.map_cons, List.map_append, List.map_nil, STok.strip] <;> rfl) ih1 ih2).cast (by (try simp only [mkW_strip, stopOf_strip]); first | rfl | (simp [stripV]; done) | (simp [stripV, Option.map_getD_nil, Option.map_toList]; done) | simp [stripV, W.strip_eq])
  | pmExprClause h d1 d2 ih1 ih2 =>
    subst h
    exact (Derives.pmExprClause (s1 := default) (e1 := default) (s2 := default) (e2 := default) (by simp only [List.map_cons, List.map_append, List.map_nil, STok.strip] <;> rfl) ih1 ih2).cast (by (try simp only [mkW_strip, stopOf_strip]); first | rfl | (simp [stripV]; done) | (simp [stripV, Option.map_getD_nil, Option.map_toList]; done) | simp [stripV, W.strip_eq])
  | patWildcard h =>
    subst h
    exact (Derives.patWildcard (s1 := default) (e1 := default) (by simp only [List.map_cons, List.map_append, List.map_nil, STok.strip] <;> rfl) ).cast (by (try simp only [mkW_strip, stopOf_strip]); first | rfl | (simp [stripV]; done) | (simp [stripV, Option.map_getD_nil, Option.map_toList]; done) | simp [stripV, W.strip_eq])
  | patBinder d1 ih1 =>
    exact (Derives.patBinder ih1).cast (by (try simp only [mkW_strip, stopOf_strip]); first | rfl | (simp [stripV]; done) | (simp [stripV, Option.map_getD_nil, Option.map_toList]; done) | simp [stripV, W.strip_eq])
  | patConstr h d1 d2 ih1 ih2 =>
    subst h
    exact (Derives.patConstr (by simp only [List.map_cons, List.map_append, List.map_nil, STok.strip] <;> rfl) ih1 ih2).cast (by (try simp only [mkW_strip, stopOf_strip]); first | rfl | (simp [stripV]; done) | (simp [stripV, Option.map_getD_nil, Option.map_toList]; done) | simp [stripV, W.strip_eq])
  | apWildcard h =>
    subst h
    exact (Derives.apWildcard (s1 := default) (e1 := default) (by simp only [List.map_cons, List.map_append, List.map_nil, STok.strip] <;> rfl) ).cast (by (try simp only [mkW_strip, stopOf_strip]); first | rfl | (simp [stripV]; done) | (simp [stripV, Option.map_getD_nil, Option.map_toList]; done) | simp [stripV, W.strip_eq])
  | apBinder d1 ih1 =>
    exact (Derives.apBinder ih1).cast (by (try simp only [mkW_strip, stopOf_strip]); first | rfl | (simp [stripV]; done) | (simp [stripV, Option.map_getD_nil, Option.map_toList]; done) | simp [stripV, W.strip_eq])
  | apConstr d1 ih1 =>
    exact (Derives.apConstr ih1).cast (by (try simp only [mkW_strip, stopOf_strip]); first | rfl | (simp [stripV]; done) | (simp [stripV, Option.map_getD_nil, Option.map_toList]; done) | simp [stripV, W.strip_eq])
  | apParen h d1 ih1 =>
    subst h
    exact (Derives.apParen (s1 := default) (e1 := default) (s2 := default) (e2 := default) (by simp only [List.map_cons, List.map_append, List.map_nil, STok.strip] <;> rfl) ih1).cast (by (try simp only [mkW_strip, stopOf_strip]); first | rfl | (simp [stripV]; done) | (simp [stripV, Option.map_getD_nil, Option.map_toList]; done) | simp [stripV, W.strip_eq])
  | nextMessage h d1 ih1 =>
    subst h
    exact (Derives.nextMessage (s1 := default) (e1 := default) (by simp only [List.map_cons, List.map_append, List.map_nil, STok.strip] <;> rfl) ih1).cast (by (try simp only [mkW_strip, stopOf_strip]); first | rfl | (simp [stripV]; done) | (simp [stripV, Option.map_getD_nil, Option.map_toList]; done) | simp [stripV, W.strip_eq])
  | msgLiteral h d1 d2 ih1 ih2 =>
    subst h
    exact (Derives.msgLiteral (s1 := default) (e1 := default) (by simp only [List.map_cons, List.map_append, List.map_nil, STok.strip] <;> rfl) ih1 ih2).cast (by (try simp only [mkW_strip, stopOf_strip]); first | rfl | (simp [stripV]; done) | (simp [stripV, Option.map_getD_nil, Option.map_toList]; done) | simp [stripV, W.strip_eq])
  | msgVariable h d1 d2 ih1 ih2 =>
    subst h
    exact (Derives.msgVariable (s1 := default) (e1 := default) (by simp only [List.map_cons, List.map_append, List.map_nil, STok.strip] <;> rfl) ih1 ih2).cast (by (try simp only [mkW_strip, stopOf_strip]); first | rfl | (simp [stripV]; done) | (simp [stripV, Option.map_getD_nil, Option.map_toList]; done) | simp [stripV, W.strip_eq])
  | atomicVar d1 ih1 =>
    exact (Derives.atomicVar ih1).cast (by (try simp only [mkW_strip, stopOf_strip]); first | rfl | (simp [stripV]; done) | (simp [stripV, Option.map_getD_nil, Option.map_toList]; done) | simp [stripV, W.strip_eq])
  | atomicLit d1 ih1 =>
    exact (Derives.atomicLit ih1).cast (by (try simp only [mkW_strip, stopOf_strip]); first | rfl | (simp [stripV]; done) | (simp [stripV, Option.map_getD_nil, Option.map_toList]; done) | simp [stripV, W.strip_eq])
  | litInt h d1 d2 ih1 ih2 =>
    subst h
    exact (Derives.litInt (by simp only [List.map_cons, List.map_append, List.map_nil, STok.strip] <;> rfl) ih1 ih2).cast (by (try simp only [mkW_strip, stopOf_strip]); first | rfl | (simp [stripV]; done) | (simp [stripV, Option.map_getD_nil, Option.map_toList]; done) | simp [stripV, W.strip_eq])
  | litHex d1 ih1 =>
    exact (Derives.litHex ih1).cast (by (try simp only [mkW_strip, stopOf_strip]); first | rfl | (simp [stripV]; done) | (simp [stripV, Option.map_getD_nil, Option.map_toList]; done) | simp [stripV, W.strip_eq])
  | litString d1 ih1 =>
    exact (Derives.litString ih1).cast (by (try simp only [mkW_strip, stopOf_strip]); first | rfl | (simp [stripV]; done) | (simp [stripV, Option.map_getD_nil, Option.map_toList]; done) | simp [stripV, W.strip_eq])
  | litEmp h d1 d2 ih1 ih2 =>
    subst h
    exact (Derives.litEmp (s1 := default) (e1 := default) (by simp only [List.map_cons, List.map_append, List.map_nil, STok.strip] <;> rfl) ih1 ih2).cast (by (try simp only [mkW_strip, stopOf_strip]); first | rfl | (simp [stripV]; done) | (simp [stripV, Option.map_getD_nil, Option.map_toList]; done) | simp [stripV, W.strip_eq])
  | stLoad h d1 d2 ih1 ih2 =>
    subst h
    exact (Derives.stLoad (s1 := default) (e1 := default) (by simp only [List.map_cons, List.map_append, List.map_nil, STok.strip] <;> rfl) ih1 ih2).cast (by (try simp only [mkW_strip, stopOf_strip]); first | rfl | (simp [stripV]; done) | (simp [stripV, Option.map_getD_nil, Option.map_toList]; done) | simp [stripV, W.strip_eq])
  | stRemote d1 ih1 =>
    exact (Derives.stRemote ih1).cast (by (try simp only [mkW_strip, stopOf_strip]); first | rfl | (simp [stripV]; done) | (simp [stripV, Option.map_getD_nil, Option.map_toList]; done) | simp [stripV, W.strip_eq])
  | stStore h d1 d2 ih1 ih2 =>
    subst h
    exact (Derives.stStore (s1 := default) (e1 := default) (by simp only [List.map_cons, List.map_append, List.map_nil, STok.strip] <;> rfl) ih1 ih2).cast (by (try simp only [mkW_strip, stopOf_strip]); first | rfl | (simp [stripV]; done) | (simp [stripV, Option.map_getD_nil, Option.map_toList]; done) | simp [stripV, W.strip_eq])
  | stBind h d1 d2 ih1 ih2 =>
    subst h
    exact (Derives.stBind (s1 := default) (e1 := default) (by simp only [List.map_cons, List.map_append, List.map_nil, STok.strip] <;> rfl) ih1 ih2).cast (by (try simp only [mkW_strip, stopOf_strip]); first | rfl | (simp [stripV]; done) | (simp [stripV, Option.map_getD_nil, Option.map_toList]; done) | simp [stripV, W.strip_eq])
  | stReadBC h d1 d2 d3 ih1 ih2 ih3 =>
    subst h
    exact (Derives.stReadBC (s1 := default) (e1 := default) (s2 := default) (e2 := default) (by simp only [List.map_cons, List.map_append, List.map_nil, STok.strip] <;> rfl) ih1 ih2 ih3).cast (by (try simp only [mkW_strip, stopOf_strip]); first | rfl | (simp [stripV]; done) | (simp [stripV, Option.map_getD_nil, Option.map_toList]; done) | simp [stripV, W.strip_eq])
  | stMapGet h d1 d2 d3 ih1 ih2 ih3 =>
    subst h
    exact (Derives.stMapGet (s1 := default) (e1 := default) (by simp only [List.map_cons, List.map_append, List.map_nil, STok.strip] <;> rfl) ih1 ih2 ih3).cast (by (try simp only [mkW_strip, stopOf_strip]); first | rfl | (simp [stripV]; done) | (simp [stripV, Option.map_getD_nil, Option.map_toList]; done) | simp [stripV, W.strip_eq])
  | stMapGetExists h d1 d2 d3 ih1 ih2 ih3 =>
    subst h
    exact (Derives.stMapGetExists (s1 := default) (e1 := default) (s2 := default) (e2 := default) (by simp only [List.map_cons, List.map_append, List.map_nil, STok.strip] <;> rfl) ih1 ih2 ih3).cast (by (try simp only [mkW_strip, stopOf_strip]); first | rfl | (simp [stripV]; done) | (simp [stripV, Option.map_getD_nil, Option.map_toList]; done) | simp [stripV, W.strip_eq])
  | stMapUpdate h d1 d2 d3 ih1 ih2 ih3 =>
    subst h
    exact (Derives.stMapUpdate (s1 := default) (e1 := default) (by simp only [List.map_cons, List.map_append, List.map_nil, STok.strip] <;> rfl) ih1 ih2 ih3).cast (by (try simp only [mkW_strip, stopOf_strip]); first | rfl | (simp [stripV]; done) | (simp [stripV, Option.map_getD_nil, Option.map_toList]; done) | simp [stripV, W.strip_eq])
  | stMapDelete h d1 d2 ih1 ih2 =>
    subst h
    exact (Derives.stMapDelete (s1 := default) (e1 := default) (by simp only [List.map_cons, List.map_append, List.map_nil, STok.strip] <;> rfl) ih1 ih2).cast (by (try simp only [mkW_strip, stopOf_strip]); first | rfl | (simp [stripV]; done) | (simp [stripV, Option.map_getD_nil, Option.map_toList]; done) | simp [stripV, W.strip_eq])
  | stAccept h =>
    subst h
    exact (Derives.stAccept (s1 := default) (e1 := default) (by simp only [List.map_cons, List.map_append, List.map_nil, STok.strip] <;> rfl) ).cast (by (try simp only [mkW_strip, stopOf_strip]); first | rfl | (simp [stripV]; done) | (simp [stripV, Option.map_getD_nil, Option.map_toList]; done) | simp [stripV, W.strip_eq])
  | stSend h d1 ih1 =>
    subst h
    exact (Derives.stSend (s1 := default) (e1 := default) (by simp only [List.map_cons, List.map_append, List.map_nil, STok.strip] <;> rfl) ih1).cast (by (try simp only [mkW_strip, stopOf_strip]); first | rfl | (simp [stripV]; done) | (simp [stripV, Option.map_getD_nil, Option.map_toList]; done) | simp [stripV, W.strip_eq])
  | stEvent h d1 ih1 =>
    subst h
    exact (Derives.stEvent (s1 := default) (e1 := default) (by simp only [List.map_cons, List.map_append, List.map_nil, STok.strip] <;> rfl) ih1).cast (by (try simp only [mkW_strip, stopOf_strip]); first | rfl | (simp [stripV]; done) | (simp [stripV, Option.map_getD_nil, Option.map_toList]; done) | simp [stripV, W.strip_eq])
  | stThrow h d1 ih1 =>
    subst h
    exact (Derives.stThrow (s1 := default) (e1 := default) (by simp only [List.map_cons, List.map_append, List.map_nil, STok.strip] <;> rfl) ih1).cast (by (try simp only [mkW_strip, stopOf_strip]); first | rfl | (simp [stripV]; done) | (simp [stripV, Option.map_getD_nil, Option.map_toList]; done) | simp [stripV, W.strip_eq])
  | stMatch h d1 d2 ih1 ih2 =>
    subst h
    exact (Derives.stMatch (s1 := default) (e1 := default) (s2 := default) (e2 := default) (s3 := default) (e3 := default) (by simp only [List.map_cons, List.map_append, List.map_nil, STok.strip] <;> rfl) ih1 ih2).cast (by (try simp only [mkW_strip, stopOf_strip]); first | rfl | (simp [stripV]; done) | (simp [stripV, Option.map_getD_nil, Option.map_toList]; done) | simp [stripV, W.strip_eq])
  | stCall h d1 d2 ih1 ih2 =>
    subst h
    exact (Derives.stCall (by simp only [List.map_cons, List.map_append, List.map_nil, STok.strip] <;> rfl) ih1 ih2).cast (by (try simp only [mkW_strip, stopOf_strip]); first | rfl | (simp [stripV]; done) | (simp [stripV, Option.map_getD_nil, Option.map_toList]; done) | simp [stripV, W.strip_eq])
  | stForall h d1 d2 ih1 ih2 =>
    subst h
    exact (Derives.stForall (s1 := default) (e1 := default) (by simp only [List.map_cons, List.map_append, List.map_nil, STok.strip] <;> rfl) ih1 ih2).cast (by (try simp only [mkW_strip, stopOf_strip]); first | rfl | (simp [stripV]; done) | (simp [stripV, Option.map_getD_nil, Option.map_toList]; done) | simp [stripV, W.strip_eq])
  | nextStatement h d1 ih1 =>
    subst h
    exact (Derives.nextStatement (s1 := default) (e1 := default) (by simp only [List.map_cons, List.map_append, List.map_nil, STok.strip] <;> rfl) ih1).cast (by (try simp only [mkW_strip, stopOf_strip]); first | rfl | (simp [stripV]; done) | (simp [stripV, Option.map_getD_nil, Option.map_toList]; done) | simp [stripV, W.strip_eq])
  | stmtBlock h d1 d2 ih1 ih2 =>
    subst h
    exact (Derives.stmtBlock (by simp only [List.map_cons, List.map_append, List.map_nil, STok.strip] <;> rfl) ih1 ih2).cast (by (try simp only [mkW_strip, stopOf_strip]); first | rfl | (simp [stripV]; done) | (simp [stripV, Option.map_getD_nil, Option.map_toList]; done) | simp [stripV, W.strip_eq])
  | bcFetchArgs h d1 ih1 =>
    subst h
    exact (Derives.bcFetchArgs (s1 := default) (e1 := default) (s2 := default) (e2 := default) (by simp only [List.map_cons, List.map_append, List.map_nil, STok.strip] <;> rfl) ih1).cast (by (try simp only [mkW_strip, stopOf_strip]); first | rfl | (simp [stripV]; done) | (simp [stripV, Option.map_getD_nil, Option.map_toList]; done) | simp [stripV, W.strip_eq])
  | componentType d1 ih1 =>
    exact (Derives.componentType ih1).cast (by (try simp only [mkW_strip, stopOf_strip]); first | rfl | (simp [stripV]; done) | (simp [stripV, Option.map_getD_nil, Option.map_toList]; done) | simp [stripV, W.strip_eq])
  | componentRegular d1 ih1 =>
    exact (Derives.componentRegular ih1).cast (by (try simp only [mkW_strip, stopOf_strip]); first | rfl | (simp [stripV]; done) | (simp [stripV, Option.map_getD_nil, Option.map_toList]; done) | simp [stripV, W.strip_eq])
  | pmClause h d1 d2 ih1 ih2 =>
    subst h
    exact (Derives.pmClause (s1 := default) (e1 := default) (s2 := default) (e2 := default) (by simp only [List.map_cons, List.map_append, List.map_nil, STok.strip] <;> rfl) ih1 ih2).cast (by (try simp only [mkW_strip, stopOf_strip]); first | rfl | (simp [stripV]; done) | (simp [stripV, Option.map_getD_nil, Option.map_toList]; done) | simp [stripV, W.strip_eq])
  | rfState h d1 d2 d3 ih1 ih2 ih3 =>
    subst h
    exact (Derives.rfState (s1 := default) (e1 := default) (s2 := default) (e2 := default) (s3 := default) (e3 := default) (by simp only [List.map_cons, List.map_append, List.map_nil, STok.strip] <;> rfl) ih1 ih2 ih3).cast (by (try simp only [mkW_strip, stopOf_strip]); first | rfl | (simp [stripV]; done) | (simp [stripV, Option.map_getD_nil, Option.map_toList]; done) | simp [stripV, W.strip_eq])
  | rfSpecial h d1 d2 d3 ih1 ih2 ih3 =>
    subst h
    exact (Derives.rfSpecial (s1 := default) (e1 := default) (s2 := default) (e2 := default) (s3 := default) (e3 := default) (by simp only [List.map_cons, List.map_append, List.map_nil, STok.strip] <;> rfl) ih1 ih2 ih3).cast (by (try simp only [mkW_strip, stopOf_strip]); first | rfl | (simp [stripV]; done) | (simp [stripV, Option.map_getD_nil, Option.map_toList]; done) | simp [stripV, W.strip_eq])
  | rfMap h d1 d2 d3 d4 ih1 ih2 ih3 ih4 =>
    subst h
    exact (Derives.rfMap (s1 := default) (e1 := default) (s2 := default) (e2 := default) (s3 := default) (e3 := default) (by simp only [List.map_cons, List.map_append, List.map_nil, STok.strip] <;> rfl) ih1 ih2 ih3 ih4).cast (by (try simp only [mkW_strip, stopOf_strip]); first | rfl | (simp [stripV]; done) | (simp [stripV, Option.map_getD_nil, Option.map_toList]; done) | simp [stripV, W.strip_eq])
  | rfExists h d1 d2 d3 d4 ih1 ih2 ih3 ih4 =>
    subst h
    exact (Derives.rfExists (s1 := default) (e1 := default) (s2 := default) (e2 := default) (s4 := default) (e4 := default) (s3 := default) (e3 := default) (by simp only [List.map_cons, List.map_append, List.map_nil, STok.strip] <;> rfl) ih1 ih2 ih3 ih4).cast (by (try simp only [mkW_strip, stopOf_strip]); first | rfl | (simp [stripV]; done) | (simp [stripV, Option.map_getD_nil, Option.map_toList]; done) | simp [stripV, W.strip_eq])
  | rfCast h d1 d2 d3 ih1 ih2 ih3 =>
    subst h
    exact (Derives.rfCast (s1 := default) (e1 := default) (s2 := default) (e2 := default) (s3 := default) (e3 := default) (by simp only [List.map_cons, List.map_append, List.map_nil, STok.strip] <;> rfl) ih1 ih2 ih3).cast (by (try simp only [mkW_strip, stopOf_strip]); first | rfl | (simp [stripV]; done) | (simp [stripV, Option.map_getD_nil, Option.map_toList]; done) | simp [stripV, W.strip_eq])
  | mapAccess h d1 ih1 =>
    subst h
    exact (Derives.mapAccess (s1 := default) (e1 := default) (s2 := default) (e2 := default) (by simp only [List.map_cons, List.map_append, List.map_nil, STok.strip] <;> rfl) ih1).cast (by (try simp only [mkW_strip, stopOf_strip]); first | rfl | (simp [stripV]; done) | (simp [stripV, Option.map_getD_nil, Option.map_toList]; done) | simp [stripV, W.strip_eq])
  | paramPair d1 ih1 =>
    exact (Derives.paramPair ih1).cast (by (try simp only [mkW_strip, stopOf_strip]); first | rfl | (simp [stripV]; done) | (simp [stripV, Option.map_getD_nil, Option.map_toList]; done) | simp [stripV, W.strip_eq])
  | nextParamPair h d1 ih1 =>
    subst h
    exact (Derives.nextParamPair (s1 := default) (e1 := default) (by simp only [List.map_cons, List.map_append, List.map_nil, STok.strip] <;> rfl) ih1).cast (by (try simp only [mkW_strip, stopOf_strip]); first | rfl | (simp [stripV]; done) | (simp [stripV, Option.map_getD_nil, Option.map_toList]; done) | simp [stripV, W.strip_eq])
  | compParams h d1 d2 ih1 ih2 =>
    subst h
    exact (Derives.compParams (s1 := default) (e1 := default) (s2 := default) (e2 := default) (by simp only [List.map_cons, List.map_append, List.map_nil, STok.strip] <;> rfl) ih1 ih2).cast (by (try simp only [mkW_strip, stopOf_strip]); first | rfl | (simp [stripV]; done) | (simp [stripV, Option.map_getD_nil, Option.map_toList]; done) | simp [stripV, W.strip_eq])
  | compTransition d1 ih1 =>
    exact (Derives.compTransition ih1).cast (by (try simp only [mkW_strip, stopOf_strip]); first | rfl | (simp [stripV]; done) | (simp [stripV, Option.map_getD_nil, Option.map_toList]; done) | simp [stripV, W.strip_eq])
  | compProcedure d1 ih1 =>
    exact (Derives.compProcedure ih1).cast (by (try simp only [mkW_strip, stopOf_strip]); first | rfl | (simp [stripV]; done) | (simp [stripV, Option.map_getD_nil, Option.map_toList]; done) | simp [stripV, W.strip_eq])
  | transDef h d1 d2 d3 ih1 ih2 ih3 =>
    subst h
    exact (Derives.transDef (s1 := default) (e1 := default) (by simp only [List.map_cons, List.map_append, List.map_nil, STok.strip] <;> rfl) ih1 ih2 ih3).cast (by (try simp only [mkW_strip, stopOf_strip]); first | rfl | (simp [stripV]; done) | (simp [stripV, Option.map_getD_nil, Option.map_toList]; done) | simp [stripV, W.strip_eq])
  | procDef h d1 d2 d3 ih1 ih2 ih3 =>
    subst h
    exact (Derives.procDef (s1 := default) (e1 := default) (by simp only [List.map_cons, List.map_append, List.map_nil, STok.strip] <;> rfl) ih1 ih2 ih3).cast (by (try simp only [mkW_strip, stopOf_strip]); first | rfl | (simp [stripV]; done) | (simp [stripV, Option.map_getD_nil, Option.map_toList]; done) | simp [stripV, W.strip_eq])
  | compBody h d1 ih1 =>
    subst h
    exact (Derives.compBody (s1 := default) (e1 := default) (by simp only [List.map_cons, List.map_append, List.map_nil, STok.strip] <;> rfl) ih1).cast (by (try simp only [mkW_strip, stopOf_strip]); first | rfl | (simp [stripV]; done) | (simp [stripV, Option.map_getD_nil, Option.map_toList]; done) | simp [stripV, W.strip_eq])
  | contractDef h d1 d2 d3 d4 d5 ih1 ih2 ih3 ih4 ih5 =>
    subst h
    exact (Derives.contractDef (s1 := default) (e1 := default) (by simp only [List.map_cons, List.map_append, List.map_nil, STok.strip] <;> rfl) ih1 ih2 ih3 ih4 ih5).cast (by (try simp only [mkW_strip, stopOf_strip]); first | rfl | (simp [stripV]; done) | (simp [stripV, Option.map_getD_nil, Option.map_toList]; done) | simp [stripV, W.strip_eq])
  | contractField h d1 d2 ih1 ih2 =>
    subst h
    exact (Derives.contractField (s1 := default) (e1 := default) (s2 := default) (e2 := default) (by simp only [List.map_cons, List.map_append, List.map_nil, STok.strip] <;> rfl) ih1 ih2).cast (by (try simp only [mkW_strip, stopOf_strip]); first | rfl | (simp [stripV]; done) | (simp [stripV, Option.map_getD_nil, Option.map_toList]; done) | simp [stripV, W.strip_eq])
  | withConstraint h d1 ih1 =>
    subst h
    exact (Derives.withConstraint (s1 := default) (e1 := default) (s2 := default) (e2 := default) (by simp only [List.map_cons, List.map_append, List.map_nil, STok.strip] <;> rfl) ih1).cast (by (try simp only [mkW_strip, stopOf_strip]); first | rfl | (simp [stripV]; done) | (simp [stripV, Option.map_getD_nil, Option.map_toList]; done) | simp [stripV, W.strip_eq])

theorem bare_cons_inv {w : List STok} {t : Token} {r : List Token} (h : bare w = t :: r) :
    ∃ s e u, w = ⟨s, t, e⟩ :: u ∧ bare u = r := by
  cases w with
  | nil => simp [bare] at h
  | cons a u =>
    obtain ⟨s, t', e⟩ := a
    simp only [bare_cons, List.cons.injEq] at h
    obtain ⟨rfl, h⟩ := h
    exact ⟨s, e, u, rfl, h⟩

theorem bare_append_inv {w : List STok} {a b : List Token} (h : bare w = a ++ b) :
    ∃ p u, w = p ++ u ∧ bare p = a ∧ bare u = b := by
  simp only [bare, List.map_eq_append_iff] at h
  obtain ⟨p, u, rfl, h1, h2⟩ := h
  exact ⟨p, u, rfl, h1, h2⟩

theorem bare_nil_inv {w : List STok} (h : bare w = []) : w = [] := by
  simpa [bare] using h

/-- a derivation can be replayed on tokens with other positions -/
theorem Derives.relift {n : NT} {w0 : List STok} {v : Val n} (d : Derives n w0 v) :
    ∀ w, bare w = bare w0 → ∃ v', Derives n w v' := by
  induction d with
  | starNil =>
    intro w hw; simp [bare] at hw; subst hw; exact ⟨_, .starNil⟩
  | starCons d1 d2 ih1 ih2 =>
    intro w hw
    simp only [bare_cons, bare_append, bare_nil] at hw
    obtain ⟨p0, u0, rfl, q0, k0⟩ := bare_append_inv hw
    obtain ⟨v1, g1⟩ := ih1 _ q0
    obtain ⟨v2, g2⟩ := ih2 _ k0
    exact ⟨_, .starCons g1 g2⟩
  | plusIntro d1 d2 ih1 ih2 =>
    intro w hw
    simp only [bare_cons, bare_append, bare_nil] at hw
    obtain ⟨p0, u0, rfl, q0, k0⟩ := bare_append_inv hw
    obtain ⟨v1, g1⟩ := ih1 _ q0
    obtain ⟨v2, g2⟩ := ih2 _ k0
    exact ⟨_, .plusIntro g1 g2⟩
  | optNone =>
    intro w hw; simp [bare] at hw; subst hw; exact ⟨_, .optNone⟩
  | optSome d1 ih1 =>
    intro w hw; obtain ⟨v1, e1⟩ := ih1 w hw; exact ⟨_, .optSome e1⟩
  | hexNumber h =>
    intro w hw; subst h
    simp only [bare_cons, bare_append, bare_nil] at hw
    obtain ⟨s0, e0, u0, rfl, k0⟩ := bare_cons_inv hw
    obtain rfl := bare_nil_inv k0
    exact ⟨_, .hexNumber rfl ⟩
  | signedInt h =>
    intro w hw; subst h
    simp only [bare_cons, bare_append, bare_nil] at hw
    obtain ⟨s0, e0, u0, rfl, k0⟩ := bare_cons_inv hw
    obtain rfl := bare_nil_inv k0
    exact ⟨_, .signedInt rfl ⟩
  | regularId h =>
    intro w hw; subst h
    simp only [bare_cons, bare_append, bare_nil] at hw
    obtain ⟨s0, e0, u0, rfl, k0⟩ := bare_cons_inv hw
    obtain rfl := bare_nil_inv k0
    exact ⟨_, .regularId rfl ⟩
  | specialId h =>
    intro w hw; subst h
    simp only [bare_cons, bare_append, bare_nil] at hw
    obtain ⟨s0, e0, u0, rfl, k0⟩ := bare_cons_inv hw
    obtain rfl := bare_nil_inv k0
    exact ⟨_, .specialId rfl ⟩
  | customId h =>
    intro w hw; subst h
    simp only [bare_cons, bare_append, bare_nil] at hw
    obtain ⟨s0, e0, u0, rfl, k0⟩ := bare_cons_inv hw
    obtain rfl := bare_nil_inv k0
    exact ⟨_, .customId rfl ⟩
  | templateId h =>
    intro w hw; subst h
    simp only [bare_cons, bare_append, bare_nil] at hw
    obtain ⟨s0, e0, u0, rfl, k0⟩ := bare_cons_inv hw
    obtain rfl := bare_nil_inv k0
    exact ⟨_, .templateId rfl ⟩
  | stringLit h =>
    intro w hw; subst h
    simp only [bare_cons, bare_append, bare_nil] at hw
    obtain ⟨s0, e0, u0, rfl, k0⟩ := bare_cons_inv hw
    obtain rfl := bare_nil_inv k0
    exact ⟨_, .stringLit rfl ⟩
  | byteString h =>
    intro w hw; subst h
    simp only [bare_cons, bare_append, bare_nil] at hw
    obtain ⟨s0, e0, u0, rfl, k0⟩ := bare_cons_inv hw
    obtain rfl := bare_nil_inv k0
    exact ⟨_, .byteString rfl ⟩
  | typeNameBytes d1 ih1 =>
    intro w hw; obtain ⟨v1, e1⟩ := ih1 w hw; exact ⟨_, .typeNameBytes e1⟩
  | typeNameEvent h =>
    intro w hw; subst h
    simp only [bare_cons, bare_append, bare_nil] at hw
    obtain ⟨s0, e0, u0, rfl, k0⟩ := bare_cons_inv hw
    obtain rfl := bare_nil_inv k0
    exact ⟨_, .typeNameEvent rfl ⟩
  | typeNameCustom d1 ih1 =>
    intro w hw; obtain ⟨v1, e1⟩ := ih1 w hw; exact ⟨_, .typeNameCustom e1⟩
  | importedRegular d1 ih1 =>
    intro w hw; obtain ⟨v1, e1⟩ := ih1 w hw; exact ⟨_, .importedRegular e1⟩
  | importedAliased h d1 d2 ih1 ih2 =>
    intro w hw; subst h
    simp only [bare_cons, bare_append, bare_nil] at hw
    obtain ⟨p0, u0, rfl, q0, k0⟩ := bare_append_inv hw
    obtain ⟨v1, g1⟩ := ih1 _ q0
    obtain ⟨s1, e1, u1, rfl, k1⟩ := bare_cons_inv k0
    obtain ⟨v2, g2⟩ := ih2 _ k1
    exact ⟨_, .importedAliased rfl g1 g2⟩
  | importMore h d1 d2 ih1 ih2 =>
    intro w hw; subst h
    simp only [bare_cons, bare_append, bare_nil] at hw
    obtain ⟨p0, u0, rfl, q0, k0⟩ := bare_append_inv hw
    obtain ⟨v1, g1⟩ := ih1 _ q0
    obtain ⟨s1, e1, u1, rfl, k1⟩ := bare_cons_inv k0
    obtain ⟨v2, g2⟩ := ih2 _ k1
    exact ⟨_, .importMore rfl g1 g2⟩
  | importFirst h d1 ih1 =>
    intro w hw; subst h
    simp only [bare_cons, bare_append, bare_nil] at hw
    obtain ⟨s0, e0, u0, rfl, k0⟩ := bare_cons_inv hw
    obtain ⟨v1, g1⟩ := ih1 _ k0
    exact ⟨_, .importFirst rfl g1⟩
  | metaName d1 ih1 =>
    intro w hw; obtain ⟨v1, e1⟩ := ih1 w hw; exact ⟨_, .metaName e1⟩
  | metaNamespace h d1 d2 ih1 ih2 =>
    intro w hw; subst h
    simp only [bare_cons, bare_append, bare_nil] at hw
    obtain ⟨p0, u0, rfl, q0, k0⟩ := bare_append_inv hw
    obtain ⟨v1, g1⟩ := ih1 _ q0
    obtain ⟨s1, e1, u1, rfl, k1⟩ := bare_cons_inv k0
    obtain ⟨v2, g2⟩ := ih2 _ k1
    exact ⟨_, .metaNamespace rfl g1 g2⟩
  | metaHexspace h d1 d2 ih1 ih2 =>
    intro w hw; subst h
    simp only [bare_cons, bare_append, bare_nil] at hw
    obtain ⟨p0, u0, rfl, q0, k0⟩ := bare_append_inv hw
    obtain ⟨v1, g1⟩ := ih1 _ q0
    obtain ⟨s1, e1, u1, rfl, k1⟩ := bare_cons_inv k0
    obtain ⟨v2, g2⟩ := ih2 _ k1
    exact ⟨_, .metaHexspace rfl g1 g2⟩
  | metaByStr h =>
    intro w hw; subst h
    simp only [bare_cons, bare_append, bare_nil] at hw
    obtain ⟨s0, e0, u0, rfl, k0⟩ := bare_cons_inv hw
    obtain rfl := bare_nil_inv k0
    exact ⟨_, .metaByStr rfl ⟩
  | varName d1 ih1 =>
    intro w hw; obtain ⟨v1, e1⟩ := ih1 w hw; exact ⟨_, .varName e1⟩
  | varSpecial d1 ih1 =>
    intro w hw; obtain ⟨v1, e1⟩ := ih1 w hw; exact ⟨_, .varSpecial e1⟩
  | varNamespace h d1 d2 ih1 ih2 =>
    intro w hw; subst h
    simp only [bare_cons, bare_append, bare_nil] at hw
    obtain ⟨p0, u0, rfl, q0, k0⟩ := bare_append_inv hw
    obtain ⟨v1, g1⟩ := ih1 _ q0
    obtain ⟨s1, e1, u1, rfl, k1⟩ := bare_cons_inv k0
    obtain ⟨v2, g2⟩ := ih2 _ k1
    exact ⟨_, .varNamespace rfl g1 g2⟩
  | builtinMore h d1 d2 ih1 ih2 =>
    intro w hw; subst h
    simp only [bare_cons, bare_append, bare_nil] at hw
    obtain ⟨p0, u0, rfl, q0, k0⟩ := bare_append_inv hw
    obtain ⟨v1, g1⟩ := ih1 _ q0
    obtain ⟨v2, g2⟩ := ih2 _ k0
    exact ⟨_, .builtinMore rfl g1 g2⟩
  | builtinOne d1 ih1 =>
    intro w hw; obtain ⟨v1, e1⟩ := ih1 w hw; exact ⟨_, .builtinOne e1⟩
  | builtinUnit h =>
    intro w hw; subst h
    simp only [bare_cons, bare_append, bare_nil] at hw
    obtain ⟨s0, e0, u0, rfl, k0⟩ := bare_cons_inv hw
    obtain ⟨s1, e1, u1, rfl, k1⟩ := bare_cons_inv k0
    obtain rfl := bare_nil_inv k1
    exact ⟨_, .builtinUnit rfl ⟩
  | remGeneric h d1 d2 ih1 ih2 =>
    intro w hw; subst h
    simp only [bare_cons, bare_append, bare_nil] at hw
    obtain ⟨p0, u0, rfl, q0, k0⟩ := bare_append_inv hw
    obtain ⟨v1, g1⟩ := ih1 _ q0
    obtain ⟨v2, g2⟩ := ih2 _ k0
    exact ⟨_, .remGeneric rfl g1 g2⟩
  | remMap h d1 d2 ih1 ih2 =>
    intro w hw; subst h
    simp only [bare_cons, bare_append, bare_nil] at hw
    obtain ⟨s0, e0, u0, rfl, k0⟩ := bare_cons_inv hw
    obtain ⟨p1, u1, rfl, q1, k1⟩ := bare_append_inv k0
    obtain ⟨v1, g1⟩ := ih1 _ q1
    obtain ⟨v2, g2⟩ := ih2 _ k1
    exact ⟨_, .remMap rfl g1 g2⟩
  | remParen h d1 ih1 =>
    intro w hw; subst h
    simp only [bare_cons, bare_append, bare_nil] at hw
    obtain ⟨s0, e0, u0, rfl, k0⟩ := bare_cons_inv hw
    obtain ⟨p1, u1, rfl, q1, k1⟩ := bare_append_inv k0
    obtain ⟨v1, g1⟩ := ih1 _ q1
    obtain ⟨s2, e2, u2, rfl, k2⟩ := bare_cons_inv k1
    obtain rfl := bare_nil_inv k2
    exact ⟨_, .remParen rfl g1⟩
  | remAddress d1 ih1 =>
    intro w hw; obtain ⟨v1, e1⟩ := ih1 w hw; exact ⟨_, .remAddress e1⟩
  | remForall h d1 d2 ih1 ih2 =>
    intro w hw; subst h
    simp only [bare_cons, bare_append, bare_nil] at hw
    obtain ⟨s0, e0, u0, rfl, k0⟩ := bare_cons_inv hw
    obtain ⟨p1, u1, rfl, q1, k1⟩ := bare_append_inv k0
    obtain ⟨v1, g1⟩ := ih1 _ q1
    obtain ⟨s2, e2, u2, rfl, k2⟩ := bare_cons_inv k1
    obtain ⟨v2, g2⟩ := ih2 _ k2
    exact ⟨_, .remForall rfl g1 g2⟩
  | remTypeVar d1 ih1 =>
    intro w hw; obtain ⟨v1, e1⟩ := ih1 w hw; exact ⟨_, .remTypeVar e1⟩
  | funSigMore h d1 d2 ih1 ih2 =>
    intro w hw; subst h
    simp only [bare_cons, bare_append, bare_nil] at hw
    obtain ⟨p0, u0, rfl, q0, k0⟩ := bare_append_inv hw
    obtain ⟨v1, g1⟩ := ih1 _ q0
    obtain ⟨s1, e1, u1, rfl, k1⟩ := bare_cons_inv k0
    obtain ⟨v2, g2⟩ := ih2 _ k1
    exact ⟨_, .funSigMore rfl g1 g2⟩
  | funSigLast h d1 d2 ih1 ih2 =>
    intro w hw; subst h
    simp only [bare_cons, bare_append, bare_nil] at hw
    obtain ⟨p0, u0, rfl, q0, k0⟩ := bare_append_inv hw
    obtain ⟨v1, g1⟩ := ih1 _ q0
    obtain ⟨s1, e1, u1, rfl, k1⟩ := bare_cons_inv k0
    obtain ⟨v2, g2⟩ := ih2 _ k1
    exact ⟨_, .funSigLast rfl g1 g2⟩
  | typeFun d1 ih1 =>
    intro w hw; obtain ⟨v1, e1⟩ := ih1 w hw; exact ⟨_, .typeFun e1⟩
  | typeRem d1 ih1 =>
    intro w hw; obtain ⟨v1, e1⟩ := ih1 w hw; exact ⟨_, .typeRem e1⟩
  | argParen h d1 ih1 =>
    intro w hw; subst h
    simp only [bare_cons, bare_append, bare_nil] at hw
    obtain ⟨s0, e0, u0, rfl, k0⟩ := bare_cons_inv hw
    obtain ⟨p1, u1, rfl, q1, k1⟩ := bare_append_inv k0
    obtain ⟨v1, g1⟩ := ih1 _ q1
    obtain ⟨s2, e2, u2, rfl, k2⟩ := bare_cons_inv k1
    obtain rfl := bare_nil_inv k2
    exact ⟨_, .argParen rfl g1⟩
  | argMeta d1 ih1 =>
    intro w hw; obtain ⟨v1, e1⟩ := ih1 w hw; exact ⟨_, .argMeta e1⟩
  | argTemplate d1 ih1 =>
    intro w hw; obtain ⟨v1, e1⟩ := ih1 w hw; exact ⟨_, .argTemplate e1⟩
  | argAddress d1 ih1 =>
    intro w hw; obtain ⟨v1, e1⟩ := ih1 w hw; exact ⟨_, .argAddress e1⟩
  | argMap h d1 d2 ih1 ih2 =>
    intro w hw; subst h
    simp only [bare_cons, bare_append, bare_nil] at hw
    obtain ⟨s0, e0, u0, rfl, k0⟩ := bare_cons_inv hw
    obtain ⟨p1, u1, rfl, q1, k1⟩ := bare_append_inv k0
    obtain ⟨v1, g1⟩ := ih1 _ q1
    obtain ⟨v2, g2⟩ := ih2 _ k1
    exact ⟨_, .argMap rfl g1 g2⟩
  | addrEmpty h d1 ih1 =>
    intro w hw; subst h
    simp only [bare_cons, bare_append, bare_nil] at hw
    obtain ⟨p0, u0, rfl, q0, k0⟩ := bare_append_inv hw
    obtain ⟨v1, g1⟩ := ih1 _ q0
    obtain ⟨s1, e1, u1, rfl, k1⟩ := bare_cons_inv k0
    obtain ⟨s2, e2, u2, rfl, k2⟩ := bare_cons_inv k1
    obtain rfl := bare_nil_inv k2
    exact ⟨_, .addrEmpty rfl g1⟩
  | addrContract h d1 d2 ih1 ih2 =>
    intro w hw; subst h
    simp only [bare_cons, bare_append, bare_nil] at hw
    obtain ⟨p0, u0, rfl, q0, k0⟩ := bare_append_inv hw
    obtain ⟨v1, g1⟩ := ih1 _ q0
    obtain ⟨s1, e1, u1, rfl, k1⟩ := bare_cons_inv k0
    obtain ⟨s2, e2, u2, rfl, k2⟩ := bare_cons_inv k1
    obtain ⟨p3, u3, rfl, q3, k3⟩ := bare_append_inv k2
    obtain ⟨v2, g2⟩ := ih2 _ q3
    obtain ⟨s4, e4, u4, rfl, k4⟩ := bare_cons_inv k3
    obtain rfl := bare_nil_inv k4
    exact ⟨_, .addrContract rfl g1 g2⟩
  | addrLibrary h d1 ih1 =>
    intro w hw; subst h
    simp only [bare_cons, bare_append, bare_nil] at hw
    obtain ⟨p0, u0, rfl, q0, k0⟩ := bare_append_inv hw
    obtain ⟨v1, g1⟩ := ih1 _ q0
    obtain ⟨s1, e1, u1, rfl, k1⟩ := bare_cons_inv k0
    obtain ⟨s2, e2, u2, rfl, k2⟩ := bare_cons_inv k1
    obtain ⟨s3, e3, u3, rfl, k3⟩ := bare_cons_inv k2
    obtain rfl := bare_nil_inv k3
    exact ⟨_, .addrLibrary rfl g1⟩
  | addrSpecial h d1 d2 ih1 ih2 =>
    intro w hw; subst h
    simp only [bare_cons, bare_append, bare_nil] at hw
    obtain ⟨p0, u0, rfl, q0, k0⟩ := bare_append_inv hw
    obtain ⟨v1, g1⟩ := ih1 _ q0
    obtain ⟨s1, e1, u1, rfl, k1⟩ := bare_cons_inv k0
    obtain ⟨p2, u2, rfl, q2, k2⟩ := bare_append_inv k1
    obtain ⟨v2, g2⟩ := ih2 _ q2
    obtain ⟨s3, e3, u3, rfl, k3⟩ := bare_cons_inv k2
    obtain rfl := bare_nil_inv k3
    exact ⟨_, .addrSpecial rfl g1 g2⟩
  | addrFieldList h d1 d2 ih1 ih2 =>
    intro w hw; subst h
    simp only [bare_cons, bare_append, bare_nil] at hw
    obtain ⟨p0, u0, rfl, q0, k0⟩ := bare_append_inv hw
    obtain ⟨v1, g1⟩ := ih1 _ q0
    obtain ⟨v2, g2⟩ := ih2 _ k0
    exact ⟨_, .addrFieldList rfl g1 g2⟩
  | nextAddrField h d1 ih1 =>
    intro w hw; subst h
    simp only [bare_cons, bare_append, bare_nil] at hw
    obtain ⟨s0, e0, u0, rfl, k0⟩ := bare_cons_inv hw
    obtain ⟨v1, g1⟩ := ih1 _ k0
    exact ⟨_, .nextAddrField rfl g1⟩
  | addrField h d1 d2 ih1 ih2 =>
    intro w hw; subst h
    simp only [bare_cons, bare_append, bare_nil] at hw
    obtain ⟨s0, e0, u0, rfl, k0⟩ := bare_cons_inv hw
    obtain ⟨p1, u1, rfl, q1, k1⟩ := bare_append_inv k0
    obtain ⟨v1, g1⟩ := ih1 _ q1
    obtain ⟨s2, e2, u2, rfl, k2⟩ := bare_cons_inv k1
    obtain ⟨v2, g2⟩ := ih2 _ k2
    exact ⟨_, .addrField rfl g1 g2⟩
  | keyMeta d1 ih1 =>
    intro w hw; obtain ⟨v1, e1⟩ := ih1 w hw; exact ⟨_, .keyMeta e1⟩
  | keyParenMeta h d1 ih1 =>
    intro w hw; subst h
    simp only [bare_cons, bare_append, bare_nil] at hw
    obtain ⟨s0, e0, u0, rfl, k0⟩ := bare_cons_inv hw
    obtain ⟨p1, u1, rfl, q1, k1⟩ := bare_append_inv k0
    obtain ⟨v1, g1⟩ := ih1 _ q1
    obtain ⟨s2, e2, u2, rfl, k2⟩ := bare_cons_inv k1
    obtain rfl := bare_nil_inv k2
    exact ⟨_, .keyParenMeta rfl g1⟩
  | keyParenAddress h d1 ih1 =>
    intro w hw; subst h
    simp only [bare_cons, bare_append, bare_nil] at hw
    obtain ⟨s0, e0, u0, rfl, k0⟩ := bare_cons_inv hw
    obtain ⟨p1, u1, rfl, q1, k1⟩ := bare_append_inv k0
    obtain ⟨v1, g1⟩ := ih1 _ q1
    obtain ⟨s2, e2, u2, rfl, k2⟩ := bare_cons_inv k1
    obtain rfl := bare_nil_inv k2
    exact ⟨_, .keyParenAddress rfl g1⟩
  | keyAddress d1 ih1 =>
    intro w hw; obtain ⟨v1, e1⟩ := ih1 w hw; exact ⟨_, .keyAddress e1⟩
  | valMeta d1 ih1 =>
    intro w hw; obtain ⟨v1, e1⟩ := ih1 w hw; exact ⟨_, .valMeta e1⟩
  | valMap h d1 d2 ih1 ih2 =>
    intro w hw; subst h
    simp only [bare_cons, bare_append, bare_nil] at hw
    obtain ⟨s0, e0, u0, rfl, k0⟩ := bare_cons_inv hw
    obtain ⟨p1, u1, rfl, q1, k1⟩ := bare_append_inv k0
    obtain ⟨v1, g1⟩ := ih1 _ q1
    obtain ⟨v2, g2⟩ := ih2 _ k1
    exact ⟨_, .valMap rfl g1 g2⟩
  | valParen h d1 ih1 =>
    intro w hw; subst h
    simp only [bare_cons, bare_append, bare_nil] at hw
    obtain ⟨s0, e0, u0, rfl, k0⟩ := bare_cons_inv hw
    obtain ⟨p1, u1, rfl, q1, k1⟩ := bare_append_inv k0
    obtain ⟨v1, g1⟩ := ih1 _ q1
    obtain ⟨s2, e2, u2, rfl, k2⟩ := bare_cons_inv k1
    obtain rfl := bare_nil_inv k2
    exact ⟨_, .valParen rfl g1⟩
  | valAddress d1 ih1 =>
    intro w hw; obtain ⟨v1, e1⟩ := ih1 w hw; exact ⟨_, .valAddress e1⟩
  | mvaParen h d1 ih1 =>
    intro w hw; subst h
    simp only [bare_cons, bare_append, bare_nil] at hw
    obtain ⟨s0, e0, u0, rfl, k0⟩ := bare_cons_inv hw
    obtain ⟨p1, u1, rfl, q1, k1⟩ := bare_append_inv k0
    obtain ⟨v1, g1⟩ := ih1 _ q1
    obtain ⟨s2, e2, u2, rfl, k2⟩ := bare_cons_inv k1
    obtain rfl := bare_nil_inv k2
    exact ⟨_, .mvaParen rfl g1⟩
  | mvaMeta d1 ih1 =>
    intro w hw; obtain ⟨v1, e1⟩ := ih1 w hw; exact ⟨_, .mvaMeta e1⟩
  | mvaMap h d1 d2 ih1 ih2 =>
    intro w hw; subst h
    simp only [bare_cons, bare_append, bare_nil] at hw
    obtain ⟨s0, e0, u0, rfl, k0⟩ := bare_cons_inv hw
    obtain ⟨p1, u1, rfl, q1, k1⟩ := bare_append_inv k0
    obtain ⟨v1, g1⟩ := ih1 _ q1
    obtain ⟨v2, g2⟩ := ih2 _ k1
    exact ⟨_, .mvaMap rfl g1 g2⟩
  | program h d1 d2 d3 d4 ih1 ih2 ih3 ih4 =>
    intro w hw; subst h
    simp only [bare_cons, bare_append, bare_nil] at hw
    obtain ⟨s0, e0, u0, rfl, k0⟩ := bare_cons_inv hw
    obtain ⟨p1, u1, rfl, q1, k1⟩ := bare_append_inv k0
    obtain ⟨v1, g1⟩ := ih1 _ q1
    obtain ⟨p2, u2, rfl, q2, k2⟩ := bare_append_inv k1
    obtain ⟨v2, g2⟩ := ih2 _ q2
    obtain ⟨p3, u3, rfl, q3, k3⟩ := bare_append_inv k2
    obtain ⟨v3, g3⟩ := ih3 _ q3
    obtain ⟨v4, g4⟩ := ih4 _ k3
    exact ⟨_, .program rfl g1 g2 g3 g4⟩
  | libraryDef h d1 d2 ih1 ih2 =>
    intro w hw; subst h
    simp only [bare_cons, bare_append, bare_nil] at hw
    obtain ⟨s0, e0, u0, rfl, k0⟩ := bare_cons_inv hw
    obtain ⟨p1, u1, rfl, q1, k1⟩ := bare_append_inv k0
    obtain ⟨v1, g1⟩ := ih1 _ q1
    obtain ⟨v2, g2⟩ := ih2 _ k1
    exact ⟨_, .libraryDef rfl g1 g2⟩
  | libLet h d1 d2 d3 ih1 ih2 ih3 =>
    intro w hw; subst h
    simp only [bare_cons, bare_append, bare_nil] at hw
    obtain ⟨s0, e0, u0, rfl, k0⟩ := bare_cons_inv hw
    obtain ⟨p1, u1, rfl, q1, k1⟩ := bare_append_inv k0
    obtain ⟨v1, g1⟩ := ih1 _ q1
    obtain ⟨p2, u2, rfl, q2, k2⟩ := bare_append_inv k1
    obtain ⟨v2, g2⟩ := ih2 _ q2
    obtain ⟨s3, e3, u3, rfl, k3⟩ := bare_cons_inv k2
    obtain ⟨v3, g3⟩ := ih3 _ k3
    exact ⟨_, .libLet rfl g1 g2 g3⟩
  | libType h d1 ih1 =>
    intro w hw; subst h
    simp only [bare_cons, bare_append, bare_nil] at hw
    obtain ⟨s0, e0, u0, rfl, k0⟩ := bare_cons_inv hw
    obtain ⟨v1, g1⟩ := ih1 _ k0
    exact ⟨_, .libType rfl g1⟩
  | libTypeAlts h d1 d2 ih1 ih2 =>
    intro w hw; subst h
    simp only [bare_cons, bare_append, bare_nil] at hw
    obtain ⟨s0, e0, u0, rfl, k0⟩ := bare_cons_inv hw
    obtain ⟨p1, u1, rfl, q1, k1⟩ := bare_append_inv k0
    obtain ⟨v1, g1⟩ := ih1 _ q1
    obtain ⟨s2, e2, u2, rfl, k2⟩ := bare_cons_inv k1
    obtain ⟨v2, g2⟩ := ih2 _ k2
    exact ⟨_, .libTypeAlts rfl g1 g2⟩
  | typedId h d1 d2 ih1 ih2 =>
    intro w hw; subst h
    simp only [bare_cons, bare_append, bare_nil] at hw
    obtain ⟨p0, u0, rfl, q0, k0⟩ := bare_append_inv hw
    obtain ⟨v1, g1⟩ := ih1 _ q0
    obtain ⟨v2, g2⟩ := ih2 _ k0
    exact ⟨_, .typedId rfl g1 g2⟩
  | typeAnn h d1 ih1 =>
    intro w hw; subst h
    simp only [bare_cons, bare_append, bare_nil] at hw
    obtain ⟨s0, e0, u0, rfl, k0⟩ := bare_cons_inv hw
    obtain ⟨v1, g1⟩ := ih1 _ k0
    exact ⟨_, .typeAnn rfl g1⟩
  | altType h d1 ih1 =>
    intro w hw; subst h
    simp only [bare_cons, bare_append, bare_nil] at hw
    obtain ⟨s0, e0, u0, rfl, k0⟩ := bare_cons_inv hw
    obtain ⟨v1, g1⟩ := ih1 _ k0
    exact ⟨_, .altType rfl g1⟩
  | altTypeArgs h d1 d2 ih1 ih2 =>
    intro w hw; subst h
    simp only [bare_cons, bare_append, bare_nil] at hw
    obtain ⟨s0, e0, u0, rfl, k0⟩ := bare_cons_inv hw
    obtain ⟨p1, u1, rfl, q1, k1⟩ := bare_append_inv k0
    obtain ⟨v1, g1⟩ := ih1 _ q1
    obtain ⟨s2, e2, u2, rfl, k2⟩ := bare_cons_inv k1
    obtain ⟨v2, g2⟩ := ih2 _ k2
    exact ⟨_, .altTypeArgs rfl g1 g2⟩
  | mvWithArgs h d1 d2 ih1 ih2 =>
    intro w hw; subst h
    simp only [bare_cons, bare_append, bare_nil] at hw
    obtain ⟨p0, u0, rfl, q0, k0⟩ := bare_append_inv hw
    obtain ⟨v1, g1⟩ := ih1 _ q0
    obtain ⟨v2, g2⟩ := ih2 _ k0
    exact ⟨_, .mvWithArgs rfl g1 g2⟩
  | mvNoArgs d1 ih1 =>
    intro w hw; obtain ⟨v1, e1⟩ := ih1 w hw; exact ⟨_, .mvNoArgs e1⟩
  | contractTypeArgs h d1 ih1 =>
    intro w hw; subst h
    simp only [bare_cons, bare_append, bare_nil] at hw
    obtain ⟨s0, e0, u0, rfl, k0⟩ := bare_cons_inv hw
    obtain ⟨p1, u1, rfl, q1, k1⟩ := bare_append_inv k0
    obtain ⟨v1, g1⟩ := ih1 _ q1
    obtain ⟨s2, e2, u2, rfl, k2⟩ := bare_cons_inv k1
    obtain rfl := bare_nil_inv k2
    exact ⟨_, .contractTypeArgs rfl g1⟩
  | exprLet h d1 d2 d3 d4 ih1 ih2 ih3 ih4 =>
    intro w hw; subst h
    simp only [bare_cons, bare_append, bare_nil] at hw
    obtain ⟨s0, e0, u0, rfl, k0⟩ := bare_cons_inv hw
    obtain ⟨p1, u1, rfl, q1, k1⟩ := bare_append_inv k0
    obtain ⟨v1, g1⟩ := ih1 _ q1
    obtain ⟨p2, u2, rfl, q2, k2⟩ := bare_append_inv k1
    obtain ⟨v2, g2⟩ := ih2 _ q2
    obtain ⟨s3, e3, u3, rfl, k3⟩ := bare_cons_inv k2
    obtain ⟨p4, u4, rfl, q4, k4⟩ := bare_append_inv k3
    obtain ⟨v3, g3⟩ := ih3 _ q4
    obtain ⟨s5, e5, u5, rfl, k5⟩ := bare_cons_inv k4
    obtain ⟨v4, g4⟩ := ih4 _ k5
    exact ⟨_, .exprLet rfl g1 g2 g3 g4⟩
  | exprFun h d1 d2 d3 ih1 ih2 ih3 =>
    intro w hw; subst h
    simp only [bare_cons, bare_append, bare_nil] at hw
    obtain ⟨s0, e0, u0, rfl, k0⟩ := bare_cons_inv hw
    obtain ⟨s1, e1, u1, rfl, k1⟩ := bare_cons_inv k0
    obtain ⟨p2, u2, rfl, q2, k2⟩ := bare_append_inv k1
    obtain ⟨v1, g1⟩ := ih1 _ q2
    obtain ⟨p3, u3, rfl, q3, k3⟩ := bare_append_inv k2
    obtain ⟨v2, g2⟩ := ih2 _ q3
    obtain ⟨s4, e4, u4, rfl, k4⟩ := bare_cons_inv k3
    obtain ⟨s5, e5, u5, rfl, k5⟩ := bare_cons_inv k4
    obtain ⟨v3, g3⟩ := ih3 _ k5
    exact ⟨_, .exprFun rfl g1 g2 g3⟩
  | exprCall h d1 d2 ih1 ih2 =>
    intro w hw; subst h
    simp only [bare_cons, bare_append, bare_nil] at hw
    obtain ⟨p0, u0, rfl, q0, k0⟩ := bare_append_inv hw
    obtain ⟨v1, g1⟩ := ih1 _ q0
    obtain ⟨v2, g2⟩ := ih2 _ k0
    exact ⟨_, .exprCall rfl g1 g2⟩
  | exprAtomic d1 ih1 =>
    intro w hw; obtain ⟨v1, e1⟩ := ih1 w hw; exact ⟨_, .exprAtomic e1⟩
  | exprBuiltin h d1 d2 d3 ih1 ih2 ih3 =>
    intro w hw; subst h
    simp only [bare_cons, bare_append, bare_nil] at hw
    obtain ⟨s0, e0, u0, rfl, k0⟩ := bare_cons_inv hw
    obtain ⟨p1, u1, rfl, q1, k1⟩ := bare_append_inv k0
    obtain ⟨v1, g1⟩ := ih1 _ q1
    obtain ⟨p2, u2, rfl, q2, k2⟩ := bare_append_inv k1
    obtain ⟨v2, g2⟩ := ih2 _ q2
    obtain ⟨v3, g3⟩ := ih3 _ k2
    exact ⟨_, .exprBuiltin rfl g1 g2 g3⟩
  | exprMessage h d1 d2 ih1 ih2 =>
    intro w hw; subst h
    simp only [bare_cons, bare_append, bare_nil] at hw
    obtain ⟨s0, e0, u0, rfl, k0⟩ := bare_cons_inv hw
    obtain ⟨p1, u1, rfl, q1, k1⟩ := bare_append_inv k0
    obtain ⟨v1, g1⟩ := ih1 _ q1
    obtain ⟨p2, u2, rfl, q2, k2⟩ := bare_append_inv k1
    obtain ⟨v2, g2⟩ := ih2 _ q2
    obtain ⟨s3, e3, u3, rfl, k3⟩ := bare_cons_inv k2
    obtain rfl := bare_nil_inv k3
    exact ⟨_, .exprMessage rfl g1 g2⟩
  | exprMatch h d1 d2 ih1 ih2 =>
    intro w hw; subst h
    simp only [bare_cons, bare_append, bare_nil] at hw
    obtain ⟨s0, e0, u0, rfl, k0⟩ := bare_cons_inv hw
    obtain ⟨p1, u1, rfl, q1, k1⟩ := bare_append_inv k0
    obtain ⟨v1, g1⟩ := ih1 _ q1
    obtain ⟨s2, e2, u2, rfl, k2⟩ := bare_cons_inv k1
    obtain ⟨p3, u3, rfl, q3, k3⟩ := bare_append_inv k2
    obtain ⟨v2, g2⟩ := ih2 _ q3
    obtain ⟨s4, e4, u4, rfl, k4⟩ := bare_cons_inv k3
    obtain rfl := bare_nil_inv k4
    exact ⟨_, .exprMatch rfl g1 g2⟩
  | exprConstr h d1 d2 d3 ih1 ih2 ih3 =>
    intro w hw; subst h
    simp only [bare_cons, bare_append, bare_nil] at hw
    obtain ⟨p0, u0, rfl, q0, k0⟩ := bare_append_inv hw
    obtain ⟨v1, g1⟩ := ih1 _ q0
    obtain ⟨p1, u1, rfl, q1, k1⟩ := bare_append_inv k0
    obtain ⟨v2, g2⟩ := ih2 _ q1
    obtain ⟨v3, g3⟩ := ih3 _ k1
    exact ⟨_, .exprConstr rfl g1 g2 g3⟩
  | exprTFun h d1 d2 ih1 ih2 =>
    intro w hw; subst h
    simp only [bare_cons, bare_append, bare_nil] at hw
    obtain ⟨s0, e0, u0, rfl, k0⟩ := bare_cons_inv hw
    obtain ⟨p1, u1, rfl, q1, k1⟩ := bare_append_inv k0
    obtain ⟨v1, g1⟩ := ih1 _ q1
    obtain ⟨s2, e2, u2, rfl, k2⟩ := bare_cons_inv k1
    obtain ⟨v2, g2⟩ := ih2 _ k2
    exact ⟨_, .exprTFun rfl g1 g2⟩
  | exprTApp h d1 d2 ih1 ih2 =>
    intro w hw; subst h
    simp only [bare_cons, bare_append, bare_nil] at hw
    obtain ⟨s0, e0, u0, rfl, k0⟩ := bare_cons_inv hw
    obtain ⟨p1, u1, rfl, q1, k1⟩ := bare_append_inv k0
    obtain ⟨v1, g1⟩ := ih1 _ q1
    obtain ⟨v2, g2⟩ := ih2 _ k1
    exact ⟨_, .exprTApp rfl g1 g2⟩
  | pmExprClause h d1 d2 ih1 ih2 =>
    intro w hw; subst h
    simp only [bare_cons, bare_append, bare_nil] at hw
    obtain ⟨s0, e0, u0, rfl, k0⟩ := bare_cons_inv hw
    obtain ⟨p1, u1, rfl, q1, k1⟩ := bare_append_inv k0
    obtain ⟨v1, g1⟩ := ih1 _ q1
    obtain ⟨s2, e2, u2, rfl, k2⟩ := bare_cons_inv k1
    obtain ⟨v2, g2⟩ := ih2 _ k2
    exact ⟨_, .pmExprClause rfl g1 g2⟩
  | patWildcard h =>
    intro w hw; subst h
    simp only [bare_cons, bare_append, bare_nil] at hw
    obtain ⟨s0, e0, u0, rfl, k0⟩ := bare_cons_inv hw
    obtain rfl := bare_nil_inv k0
    exact ⟨_, .patWildcard rfl ⟩
  | patBinder d1 ih1 =>
    intro w hw; obtain ⟨v1, e1⟩ := ih1 w hw; exact ⟨_, .patBinder e1⟩
  | patConstr h d1 d2 ih1 ih2 =>
    intro w hw; subst h
    simp only [bare_cons, bare_append, bare_nil] at hw
    obtain ⟨p0, u0, rfl, q0, k0⟩ := bare_append_inv hw
    obtain ⟨v1, g1⟩ := ih1 _ q0
    obtain ⟨v2, g2⟩ := ih2 _ k0
    exact ⟨_, .patConstr rfl g1 g2⟩
  | apWildcard h =>
    intro w hw; subst h
    simp only [bare_cons, bare_append, bare_nil] at hw
    obtain ⟨s0, e0, u0, rfl, k0⟩ := bare_cons_inv hw
    obtain rfl := bare_nil_inv k0
    exact ⟨_, .apWildcard rfl ⟩
  | apBinder d1 ih1 =>
    intro w hw; obtain ⟨v1, e1⟩ := ih1 w hw; exact ⟨_, .apBinder e1⟩
  | apConstr d1 ih1 =>
    intro w hw; obtain ⟨v1, e1⟩ := ih1 w hw; exact ⟨_, .apConstr e1⟩
  | apParen h d1 ih1 =>
    intro w hw; subst h
    simp only [bare_cons, bare_append, bare_nil] at hw
    obtain ⟨s0, e0, u0, rfl, k0⟩ := bare_cons_inv hw
    obtain ⟨p1, u1, rfl, q1, k1⟩ := bare_append_inv k0
    obtain ⟨v1, g1⟩ := ih1 _ q1
    obtain ⟨s2, e2, u2, rfl, k2⟩ := bare_cons_inv k1
    obtain rfl := bare_nil_inv k2
    exact ⟨_, .apParen rfl g1⟩
  | nextMessage h d1 ih1 =>
    intro w hw; subst h
    simp only [bare_cons, bare_append, bare_nil] at hw
    obtain ⟨s0, e0, u0, rfl, k0⟩ := bare_cons_inv hw
    obtain ⟨v1, g1⟩ := ih1 _ k0
    exact ⟨_, .nextMessage rfl g1⟩
  | msgLiteral h d1 d2 ih1 ih2 =>
    intro w hw; subst h
    simp only [bare_cons, bare_append, bare_nil] at hw
    obtain ⟨p0, u0, rfl, q0, k0⟩ := bare_append_inv hw
    obtain ⟨v1, g1⟩ := ih1 _ q0
    obtain ⟨s1, e1, u1, rfl, k1⟩ := bare_cons_inv k0
    obtain ⟨v2, g2⟩ := ih2 _ k1
    exact ⟨_, .msgLiteral rfl g1 g2⟩
  | msgVariable h d1 d2 ih1 ih2 =>
    intro w hw; subst h
    simp only [bare_cons, bare_append, bare_nil] at hw
    obtain ⟨p0, u0, rfl, q0, k0⟩ := bare_append_inv hw
    obtain ⟨v1, g1⟩ := ih1 _ q0
    obtain ⟨s1, e1, u1, rfl, k1⟩ := bare_cons_inv k0
    obtain ⟨v2, g2⟩ := ih2 _ k1
    exact ⟨_, .msgVariable rfl g1 g2⟩
  | atomicVar d1 ih1 =>
    intro w hw; obtain ⟨v1, e1⟩ := ih1 w hw; exact ⟨_, .atomicVar e1⟩
  | atomicLit d1 ih1 =>
    intro w hw; obtain ⟨v1, e1⟩ := ih1 w hw; exact ⟨_, .atomicLit e1⟩
  | litInt h d1 d2 ih1 ih2 =>
    intro w hw; subst h
    simp only [bare_cons, bare_append, bare_nil] at hw
    obtain ⟨p0, u0, rfl, q0, k0⟩ := bare_append_inv hw
    obtain ⟨v1, g1⟩ := ih1 _ q0
    obtain ⟨v2, g2⟩ := ih2 _ k0
    exact ⟨_, .litInt rfl g1 g2⟩
  | litHex d1 ih1 =>
    intro w hw; obtain ⟨v1, e1⟩ := ih1 w hw; exact ⟨_, .litHex e1⟩
  | litString d1 ih1 =>
    intro w hw; obtain ⟨v1, e1⟩ := ih1 w hw; exact ⟨_, .litString e1⟩
  | litEmp h d1 d2 ih1 ih2 =>
    intro w hw; subst h
    simp only [bare_cons, bare_append, bare_nil] at hw
    obtain ⟨s0, e0, u0, rfl, k0⟩ := bare_cons_inv hw
    obtain ⟨p1, u1, rfl, q1, k1⟩ := bare_append_inv k0
    obtain ⟨v1, g1⟩ := ih1 _ q1
    obtain ⟨v2, g2⟩ := ih2 _ k1
    exact ⟨_, .litEmp rfl g1 g2⟩
  | stLoad h d1 d2 ih1 ih2 =>
    intro w hw; subst h
    simp only [bare_cons, bare_append, bare_nil] at hw
    obtain ⟨p0, u0, rfl, q0, k0⟩ := bare_append_inv hw
    obtain ⟨v1, g1⟩ := ih1 _ q0
    obtain ⟨s1, e1, u1, rfl, k1⟩ := bare_cons_inv k0
    obtain ⟨v2, g2⟩ := ih2 _ k1
    exact ⟨_, .stLoad rfl g1 g2⟩
  | stRemote d1 ih1 =>
    intro w hw; obtain ⟨v1, e1⟩ := ih1 w hw; exact ⟨_, .stRemote e1⟩
  | stStore h d1 d2 ih1 ih2 =>
    intro w hw; subst h
    simp only [bare_cons, bare_append, bare_nil] at hw
    obtain ⟨p0, u0, rfl, q0, k0⟩ := bare_append_inv hw
    obtain ⟨v1, g1⟩ := ih1 _ q0
    obtain ⟨s1, e1, u1, rfl, k1⟩ := bare_cons_inv k0
    obtain ⟨v2, g2⟩ := ih2 _ k1
    exact ⟨_, .stStore rfl g1 g2⟩
  | stBind h d1 d2 ih1 ih2 =>
    intro w hw; subst h
    simp only [bare_cons, bare_append, bare_nil] at hw
    obtain ⟨p0, u0, rfl, q0, k0⟩ := bare_append_inv hw
    obtain ⟨v1, g1⟩ := ih1 _ q0
    obtain ⟨s1, e1, u1, rfl, k1⟩ := bare_cons_inv k0
    obtain ⟨v2, g2⟩ := ih2 _ k1
    exact ⟨_, .stBind rfl g1 g2⟩
  | stReadBC h d1 d2 d3 ih1 ih2 ih3 =>
    intro w hw; subst h
    simp only [bare_cons, bare_append, bare_nil] at hw
    obtain ⟨p0, u0, rfl, q0, k0⟩ := bare_append_inv hw
    obtain ⟨v1, g1⟩ := ih1 _ q0
    obtain ⟨s1, e1, u1, rfl, k1⟩ := bare_cons_inv k0
    obtain ⟨s2, e2, u2, rfl, k2⟩ := bare_cons_inv k1
    obtain ⟨p3, u3, rfl, q3, k3⟩ := bare_append_inv k2
    obtain ⟨v2, g2⟩ := ih2 _ q3
    obtain ⟨v3, g3⟩ := ih3 _ k3
    exact ⟨_, .stReadBC rfl g1 g2 g3⟩
  | stMapGet h d1 d2 d3 ih1 ih2 ih3 =>
    intro w hw; subst h
    simp only [bare_cons, bare_append, bare_nil] at hw
    obtain ⟨p0, u0, rfl, q0, k0⟩ := bare_append_inv hw
    obtain ⟨v1, g1⟩ := ih1 _ q0
    obtain ⟨s1, e1, u1, rfl, k1⟩ := bare_cons_inv k0
    obtain ⟨p2, u2, rfl, q2, k2⟩ := bare_append_inv k1
    obtain ⟨v2, g2⟩ := ih2 _ q2
    obtain ⟨v3, g3⟩ := ih3 _ k2
    exact ⟨_, .stMapGet rfl g1 g2 g3⟩
  | stMapGetExists h d1 d2 d3 ih1 ih2 ih3 =>
    intro w hw; subst h
    simp only [bare_cons, bare_append, bare_nil] at hw
    obtain ⟨p0, u0, rfl, q0, k0⟩ := bare_append_inv hw
    obtain ⟨v1, g1⟩ := ih1 _ q0
    obtain ⟨s1, e1, u1, rfl, k1⟩ := bare_cons_inv k0
    obtain ⟨s2, e2, u2, rfl, k2⟩ := bare_cons_inv k1
    obtain ⟨p3, u3, rfl, q3, k3⟩ := bare_append_inv k2
    obtain ⟨v2, g2⟩ := ih2 _ q3
    obtain ⟨v3, g3⟩ := ih3 _ k3
    exact ⟨_, .stMapGetExists rfl g1 g2 g3⟩
  | stMapUpdate h d1 d2 d3 ih1 ih2 ih3 =>
    intro w hw; subst h
    simp only [bare_cons, bare_append, bare_nil] at hw
    obtain ⟨p0, u0, rfl, q0, k0⟩ := bare_append_inv hw
    obtain ⟨v1, g1⟩ := ih1 _ q0
    obtain ⟨p1, u1, rfl, q1, k1⟩ := bare_append_inv k0
    obtain ⟨v2, g2⟩ := ih2 _ q1
    obtain ⟨s2, e2, u2, rfl, k2⟩ := bare_cons_inv k1
    obtain ⟨v3, g3⟩ := ih3 _ k2
    exact ⟨_, .stMapUpdate rfl g1 g2 g3⟩
  | stMapDelete h d1 d2 ih1 ih2 =>
    intro w hw; subst h
    simp only [bare_cons, bare_append, bare_nil] at hw
    obtain ⟨s0, e0, u0, rfl, k0⟩ := bare_cons_inv hw
    obtain ⟨p1, u1, rfl, q1, k1⟩ := bare_append_inv k0
    obtain ⟨v1, g1⟩ := ih1 _ q1
    obtain ⟨v2, g2⟩ := ih2 _ k1
    exact ⟨_, .stMapDelete rfl g1 g2⟩
  | stAccept h =>
    intro w hw; subst h
    simp only [bare_cons, bare_append, bare_nil] at hw
    obtain ⟨s0, e0, u0, rfl, k0⟩ := bare_cons_inv hw
    obtain rfl := bare_nil_inv k0
    exact ⟨_, .stAccept rfl ⟩
  | stSend h d1 ih1 =>
    intro w hw; subst h
    simp only [bare_cons, bare_append, bare_nil] at hw
    obtain ⟨s0, e0, u0, rfl, k0⟩ := bare_cons_inv hw
    obtain ⟨v1, g1⟩ := ih1 _ k0
    exact ⟨_, .stSend rfl g1⟩
  | stEvent h d1 ih1 =>
    intro w hw; subst h
    simp only [bare_cons, bare_append, bare_nil] at hw
    obtain ⟨s0, e0, u0, rfl, k0⟩ := bare_cons_inv hw
    obtain ⟨v1, g1⟩ := ih1 _ k0
    exact ⟨_, .stEvent rfl g1⟩
  | stThrow h d1 ih1 =>
    intro w hw; subst h
    simp only [bare_cons, bare_append, bare_nil] at hw
    obtain ⟨s0, e0, u0, rfl, k0⟩ := bare_cons_inv hw
    obtain ⟨v1, g1⟩ := ih1 _ k0
    exact ⟨_, .stThrow rfl g1⟩
  | stMatch h d1 d2 ih1 ih2 =>
    intro w hw; subst h
    simp only [bare_cons, bare_append, bare_nil] at hw
    obtain ⟨s0, e0, u0, rfl, k0⟩ := bare_cons_inv hw
    obtain ⟨p1, u1, rfl, q1, k1⟩ := bare_append_inv k0
    obtain ⟨v1, g1⟩ := ih1 _ q1
    obtain ⟨s2, e2, u2, rfl, k2⟩ := bare_cons_inv k1
    obtain ⟨p3, u3, rfl, q3, k3⟩ := bare_append_inv k2
    obtain ⟨v2, g2⟩ := ih2 _ q3
    obtain ⟨s4, e4, u4, rfl, k4⟩ := bare_cons_inv k3
    obtain rfl := bare_nil_inv k4
    exact ⟨_, .stMatch rfl g1 g2⟩
  | stCall h d1 d2 ih1 ih2 =>
    intro w hw; subst h
    simp only [bare_cons, bare_append, bare_nil] at hw
    obtain ⟨p0, u0, rfl, q0, k0⟩ := bare_append_inv hw
    obtain ⟨v1, g1⟩ := ih1 _ q0
    obtain ⟨v2, g2⟩ := ih2 _ k0
    exact ⟨_, .stCall rfl g1 g2⟩
  | stForall h d1 d2 ih1 ih2 =>
    intro w hw; subst h
    simp only [bare_cons, bare_append, bare_nil] at hw
    obtain ⟨s0, e0, u0, rfl, k0⟩ := bare_cons_inv hw
    obtain ⟨p1, u1, rfl, q1, k1⟩ := bare_append_inv k0
    obtain ⟨v1, g1⟩ := ih1 _ q1
    obtain ⟨v2, g2⟩ := ih2 _ k1
    exact ⟨_, .stForall rfl g1 g2⟩
  | nextStatement h d1 ih1 =>
    intro w hw; subst h
    simp only [bare_cons, bare_append, bare_nil] at hw
    obtain ⟨s0, e0, u0, rfl, k0⟩ := bare_cons_inv hw
    obtain ⟨v1, g1⟩ := ih1 _ k0
    exact ⟨_, .nextStatement rfl g1⟩
  | stmtBlock h d1 d2 ih1 ih2 =>
    intro w hw; subst h
    simp only [bare_cons, bare_append, bare_nil] at hw
    obtain ⟨p0, u0, rfl, q0, k0⟩ := bare_append_inv hw
    obtain ⟨v1, g1⟩ := ih1 _ q0
    obtain ⟨v2, g2⟩ := ih2 _ k0
    exact ⟨_, .stmtBlock rfl g1 g2⟩
  | bcFetchArgs h d1 ih1 =>
    intro w hw; subst h
    simp only [bare_cons, bare_append, bare_nil] at hw
    obtain ⟨s0, e0, u0, rfl, k0⟩ := bare_cons_inv hw
    obtain ⟨p1, u1, rfl, q1, k1⟩ := bare_append_inv k0
    obtain ⟨v1, g1⟩ := ih1 _ q1
    obtain ⟨s2, e2, u2, rfl, k2⟩ := bare_cons_inv k1
    obtain rfl := bare_nil_inv k2
    exact ⟨_, .bcFetchArgs rfl g1⟩
  | componentType d1 ih1 =>
    intro w hw; obtain ⟨v1, e1⟩ := ih1 w hw; exact ⟨_, .componentType e1⟩
  | componentRegular d1 ih1 =>
    intro w hw; obtain ⟨v1, e1⟩ := ih1 w hw; exact ⟨_, .componentRegular e1⟩
  | pmClause h d1 d2 ih1 ih2 =>
    intro w hw; subst h
    simp only [bare_cons, bare_append, bare_nil] at hw
    obtain ⟨s0, e0, u0, rfl, k0⟩ := bare_cons_inv hw
    obtain ⟨p1, u1, rfl, q1, k1⟩ := bare_append_inv k0
    obtain ⟨v1, g1⟩ := ih1 _ q1
    obtain ⟨s2, e2, u2, rfl, k2⟩ := bare_cons_inv k1
    obtain ⟨v2, g2⟩ := ih2 _ k2
    exact ⟨_, .pmClause rfl g1 g2⟩
  | rfState h d1 d2 d3 ih1 ih2 ih3 =>
    intro w hw; subst h
    simp only [bare_cons, bare_append, bare_nil] at hw
    obtain ⟨p0, u0, rfl, q0, k0⟩ := bare_append_inv hw
    obtain ⟨v1, g1⟩ := ih1 _ q0
    obtain ⟨s1, e1, u1, rfl, k1⟩ := bare_cons_inv k0
    obtain ⟨s2, e2, u2, rfl, k2⟩ := bare_cons_inv k1
    obtain ⟨p3, u3, rfl, q3, k3⟩ := bare_append_inv k2
    obtain ⟨v2, g2⟩ := ih2 _ q3
    obtain ⟨s4, e4, u4, rfl, k4⟩ := bare_cons_inv k3
    obtain ⟨v3, g3⟩ := ih3 _ k4
    exact ⟨_, .rfState rfl g1 g2 g3⟩
  | rfSpecial h d1 d2 d3 ih1 ih2 ih3 =>
    intro w hw; subst h
    simp only [bare_cons, bare_append, bare_nil] at hw
    obtain ⟨p0, u0, rfl, q0, k0⟩ := bare_append_inv hw
    obtain ⟨v1, g1⟩ := ih1 _ q0
    obtain ⟨s1, e1, u1, rfl, k1⟩ := bare_cons_inv k0
    obtain ⟨s2, e2, u2, rfl, k2⟩ := bare_cons_inv k1
    obtain ⟨p3, u3, rfl, q3, k3⟩ := bare_append_inv k2
    obtain ⟨v2, g2⟩ := ih2 _ q3
    obtain ⟨s4, e4, u4, rfl, k4⟩ := bare_cons_inv k3
    obtain ⟨v3, g3⟩ := ih3 _ k4
    exact ⟨_, .rfSpecial rfl g1 g2 g3⟩
  | rfMap h d1 d2 d3 d4 ih1 ih2 ih3 ih4 =>
    intro w hw; subst h
    simp only [bare_cons, bare_append, bare_nil] at hw
    obtain ⟨p0, u0, rfl, q0, k0⟩ := bare_append_inv hw
    obtain ⟨v1, g1⟩ := ih1 _ q0
    obtain ⟨s1, e1, u1, rfl, k1⟩ := bare_cons_inv k0
    obtain ⟨s2, e2, u2, rfl, k2⟩ := bare_cons_inv k1
    obtain ⟨p3, u3, rfl, q3, k3⟩ := bare_append_inv k2
    obtain ⟨v2, g2⟩ := ih2 _ q3
    obtain ⟨s4, e4, u4, rfl, k4⟩ := bare_cons_inv k3
    obtain ⟨p5, u5, rfl, q5, k5⟩ := bare_append_inv k4
    obtain ⟨v3, g3⟩ := ih3 _ q5
    obtain ⟨v4, g4⟩ := ih4 _ k5
    exact ⟨_, .rfMap rfl g1 g2 g3 g4⟩
  | rfExists h d1 d2 d3 d4 ih1 ih2 ih3 ih4 =>
    intro w hw; subst h
    simp only [bare_cons, bare_append, bare_nil] at hw
    obtain ⟨p0, u0, rfl, q0, k0⟩ := bare_append_inv hw
    obtain ⟨v1, g1⟩ := ih1 _ q0
    obtain ⟨s1, e1, u1, rfl, k1⟩ := bare_cons_inv k0
    obtain ⟨s2, e2, u2, rfl, k2⟩ := bare_cons_inv k1
    obtain ⟨s3, e3, u3, rfl, k3⟩ := bare_cons_inv k2
    obtain ⟨p4, u4, rfl, q4, k4⟩ := bare_append_inv k3
    obtain ⟨v2, g2⟩ := ih2 _ q4
    obtain ⟨s5, e5, u5, rfl, k5⟩ := bare_cons_inv k4
    obtain ⟨p6, u6, rfl, q6, k6⟩ := bare_append_inv k5
    obtain ⟨v3, g3⟩ := ih3 _ q6
    obtain ⟨v4, g4⟩ := ih4 _ k6
    exact ⟨_, .rfExists rfl g1 g2 g3 g4⟩
  | rfCast h d1 d2 d3 ih1 ih2 ih3 =>
    intro w hw; subst h
    simp only [bare_cons, bare_append, bare_nil] at hw
    obtain ⟨p0, u0, rfl, q0, k0⟩ := bare_append_inv hw
    obtain ⟨v1, g1⟩ := ih1 _ q0
    obtain ⟨s1, e1, u1, rfl, k1⟩ := bare_cons_inv k0
    obtain ⟨s2, e2, u2, rfl, k2⟩ := bare_cons_inv k1
    obtain ⟨p3, u3, rfl, q3, k3⟩ := bare_append_inv k2
    obtain ⟨v2, g2⟩ := ih2 _ q3
    obtain ⟨s4, e4, u4, rfl, k4⟩ := bare_cons_inv k3
    obtain ⟨v3, g3⟩ := ih3 _ k4
    exact ⟨_, .rfCast rfl g1 g2 g3⟩
  | mapAccess h d1 ih1 =>
    intro w hw; subst h
    simp only [bare_cons, bare_append, bare_nil] at hw
    obtain ⟨s0, e0, u0, rfl, k0⟩ := bare_cons_inv hw
    obtain ⟨p1, u1, rfl, q1, k1⟩ := bare_append_inv k0
    obtain ⟨v1, g1⟩ := ih1 _ q1
    obtain ⟨s2, e2, u2, rfl, k2⟩ := bare_cons_inv k1
    obtain rfl := bare_nil_inv k2
    exact ⟨_, .mapAccess rfl g1⟩
  | paramPair d1 ih1 =>
    intro w hw; obtain ⟨v1, e1⟩ := ih1 w hw; exact ⟨_, .paramPair e1⟩
  | nextParamPair h d1 ih1 =>
    intro w hw; subst h
    simp only [bare_cons, bare_append, bare_nil] at hw
    obtain ⟨s0, e0, u0, rfl, k0⟩ := bare_cons_inv hw
    obtain ⟨v1, g1⟩ := ih1 _ k0
    exact ⟨_, .nextParamPair rfl g1⟩
  | compParams h d1 d2 ih1 ih2 =>
    intro w hw; subst h
    simp only [bare_cons, bare_append, bare_nil] at hw
    obtain ⟨s0, e0, u0, rfl, k0⟩ := bare_cons_inv hw
    obtain ⟨p1, u1, rfl, q1, k1⟩ := bare_append_inv k0
    obtain ⟨v1, g1⟩ := ih1 _ q1
    obtain ⟨p2, u2, rfl, q2, k2⟩ := bare_append_inv k1
    obtain ⟨v2, g2⟩ := ih2 _ q2
    obtain ⟨s3, e3, u3, rfl, k3⟩ := bare_cons_inv k2
    obtain rfl := bare_nil_inv k3
    exact ⟨_, .compParams rfl g1 g2⟩
  | compTransition d1 ih1 =>
    intro w hw; obtain ⟨v1, e1⟩ := ih1 w hw; exact ⟨_, .compTransition e1⟩
  | compProcedure d1 ih1 =>
    intro w hw; obtain ⟨v1, e1⟩ := ih1 w hw; exact ⟨_, .compProcedure e1⟩
  | transDef h d1 d2 d3 ih1 ih2 ih3 =>
    intro w hw; subst h
    simp only [bare_cons, bare_append, bare_nil] at hw
    obtain ⟨s0, e0, u0, rfl, k0⟩ := bare_cons_inv hw
    obtain ⟨p1, u1, rfl, q1, k1⟩ := bare_append_inv k0
    obtain ⟨v1, g1⟩ := ih1 _ q1
    obtain ⟨p2, u2, rfl, q2, k2⟩ := bare_append_inv k1
    obtain ⟨v2, g2⟩ := ih2 _ q2
    obtain ⟨v3, g3⟩ := ih3 _ k2
    exact ⟨_, .transDef rfl g1 g2 g3⟩
  | procDef h d1 d2 d3 ih1 ih2 ih3 =>
    intro w hw; subst h
    simp only [bare_cons, bare_append, bare_nil] at hw
    obtain ⟨s0, e0, u0, rfl, k0⟩ := bare_cons_inv hw
    obtain ⟨p1, u1, rfl, q1, k1⟩ := bare_append_inv k0
    obtain ⟨v1, g1⟩ := ih1 _ q1
    obtain ⟨p2, u2, rfl, q2, k2⟩ := bare_append_inv k1
    obtain ⟨v2, g2⟩ := ih2 _ q2
    obtain ⟨v3, g3⟩ := ih3 _ k2
    exact ⟨_, .procDef rfl g1 g2 g3⟩
  | compBody h d1 ih1 =>
    intro w hw; subst h
    simp only [bare_cons, bare_append, bare_nil] at hw
    obtain ⟨p0, u0, rfl, q0, k0⟩ := bare_append_inv hw
    obtain ⟨v1, g1⟩ := ih1 _ q0
    obtain ⟨s1, e1, u1, rfl, k1⟩ := bare_cons_inv k0
    obtain rfl := bare_nil_inv k1
    exact ⟨_, .compBody rfl g1⟩
  | contractDef h d1 d2 d3 d4 d5 ih1 ih2 ih3 ih4 ih5 =>
    intro w hw; subst h
    simp only [bare_cons, bare_append, bare_nil] at hw
    obtain ⟨s0, e0, u0, rfl, k0⟩ := bare_cons_inv hw
    obtain ⟨p1, u1, rfl, q1, k1⟩ := bare_append_inv k0
    obtain ⟨v1, g1⟩ := ih1 _ q1
    obtain ⟨p2, u2, rfl, q2, k2⟩ := bare_append_inv k1
    obtain ⟨v2, g2⟩ := ih2 _ q2
    obtain ⟨p3, u3, rfl, q3, k3⟩ := bare_append_inv k2
    obtain ⟨v3, g3⟩ := ih3 _ q3
    obtain ⟨p4, u4, rfl, q4, k4⟩ := bare_append_inv k3
    obtain ⟨v4, g4⟩ := ih4 _ q4
    obtain ⟨v5, g5⟩ := ih5 _ k4
    exact ⟨_, .contractDef rfl g1 g2 g3 g4 g5⟩
  | contractField h d1 d2 ih1 ih2 =>
    intro w hw; subst h
    simp only [bare_cons, bare_append, bare_nil] at hw
    obtain ⟨s0, e0, u0, rfl, k0⟩ := bare_cons_inv hw
    obtain ⟨p1, u1, rfl, q1, k1⟩ := bare_append_inv k0
    obtain ⟨v1, g1⟩ := ih1 _ q1
    obtain ⟨s2, e2, u2, rfl, k2⟩ := bare_cons_inv k1
    obtain ⟨v2, g2⟩ := ih2 _ k2
    exact ⟨_, .contractField rfl g1 g2⟩
  | withConstraint h d1 ih1 =>
    intro w hw; subst h
    simp only [bare_cons, bare_append, bare_nil] at hw
    obtain ⟨s0, e0, u0, rfl, k0⟩ := bare_cons_inv hw
    obtain ⟨p1, u1, rfl, q1, k1⟩ := bare_append_inv k0
    obtain ⟨v1, g1⟩ := ih1 _ q1
    obtain ⟨s2, e2, u2, rfl, k2⟩ := bare_cons_inv k1
    obtain rfl := bare_nil_inv k2
    exact ⟨_, .withConstraint rfl g1⟩

end Verif
