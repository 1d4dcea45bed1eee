import Verif.Spec.Rename
import Verif.Proofs.StripDerives
/-
The grammar does not look at names.  Generated by tools/gen_rename.py.
-/
namespace Verif

set_option linter.unusedSimpArgs false

attribute [simp] NodeByteStr.ren NodeTypeNameIdentifier.ren NodeImportedName.ren NodeImportDeclarations.ren NodeMetaIdentifier.ren NodeVariableIdentifier.ren NodeBuiltinArguments.ren NodeTypeMapKey.ren NodeTypeMapValue.ren NodeTypeArgument.ren NodeScillaType.ren NodeTypeMapEntry.ren NodeAddressTypeField.ren NodeAddressType.ren NodeTypeMapValueArguments.ren NodeTypeMapValueAllowingTypeArguments.ren NodeTypeAnnotation.ren NodeTypedIdentifier.ren NodeContractTypeArguments.ren NodeValueLiteral.ren NodeMessageEntry.ren NodeAtomicExpression.ren NodeMapAccess.ren NodePattern.ren NodeArgumentPattern.ren NodeFullExpression.ren NodePatternMatchExpressionClause.ren NodeBlockchainFetchArguments.ren NodeComponentId.ren NodeRemoteFetchStatement.ren NodeStatement.ren NodePatternMatchClause.ren NodeStatementBlock.ren NodeParameterPair.ren NodeComponentParameters.ren NodeComponentBody.ren NodeTypeAlternativeClause.ren NodeLibrarySingleDefinition.ren NodeLibraryDefinition.ren NodeContractField.ren NodeWithConstraint.ren NodeProcedureDefinition.ren NodeTransitionDefinition.ren NodeComponentDefinition.ren NodeContractDefinition.ren NodeProgram.ren

@[simp] theorem NodeAddressType.renW_eq (f : Str → Str) (x : W NodeAddressType) : NodeAddressType.renW f x = (W.ren (NodeAddressType.ren f)) x := by cases x; rfl
@[simp] theorem NodeTypeMapEntry.renW_eq (f : Str → Str) (x : W NodeTypeMapEntry) : NodeTypeMapEntry.renW f x = (W.ren (NodeTypeMapEntry.ren f)) x := by cases x; rfl
@[simp] theorem NodeTypeMapValueAllowingTypeArguments.renW_eq (f : Str → Str) (x : W NodeTypeMapValueAllowingTypeArguments) : NodeTypeMapValueAllowingTypeArguments.renW f x = (W.ren (NodeTypeMapValueAllowingTypeArguments.ren f)) x := by cases x; rfl
@[simp] theorem NodeScillaType.renW_eq (f : Str → Str) (x : W NodeScillaType) : NodeScillaType.renW f x = (W.ren (NodeScillaType.ren f)) x := by cases x; rfl
@[simp] theorem NodeTypeMapKey.renW_eq (f : Str → Str) (x : W NodeTypeMapKey) : NodeTypeMapKey.renW f x = (W.ren (NodeTypeMapKey.ren f)) x := by cases x; rfl
@[simp] theorem NodeTypeMapValue.renW_eq (f : Str → Str) (x : W NodeTypeMapValue) : NodeTypeMapValue.renW f x = (W.ren (NodeTypeMapValue.ren f)) x := by cases x; rfl
@[simp] theorem NodeTypeArgument.renW_eq (f : Str → Str) (x : W NodeTypeArgument) : NodeTypeArgument.renW f x = (W.ren (NodeTypeArgument.ren f)) x := by cases x; rfl
@[simp] theorem NodeTypeArgument.renLW_eq (f : Str → Str) : ∀ x : List (W NodeTypeArgument), NodeTypeArgument.renLW f x = (List.map (W.ren (NodeTypeArgument.ren f))) x
  | [] => rfl
  | x :: xs => by simp [NodeTypeArgument.renLW, NodeTypeArgument.renLW_eq f xs]
@[simp] theorem NodeAddressTypeField.renW_eq (f : Str → Str) (x : W NodeAddressTypeField) : NodeAddressTypeField.renW f x = (W.ren (NodeAddressTypeField.ren f)) x := by cases x; rfl
@[simp] theorem NodeAddressTypeField.renLW_eq (f : Str → Str) : ∀ x : List (W NodeAddressTypeField), NodeAddressTypeField.renLW f x = (List.map (W.ren (NodeAddressTypeField.ren f))) x
  | [] => rfl
  | x :: xs => by simp [NodeAddressTypeField.renLW, NodeAddressTypeField.renLW_eq f xs]
@[simp] theorem NodeTypeMapValueArguments.renW_eq (f : Str → Str) (x : W NodeTypeMapValueArguments) : NodeTypeMapValueArguments.renW f x = (W.ren (NodeTypeMapValueArguments.ren f)) x := by cases x; rfl
@[simp] theorem NodeTypeMapValueArguments.renLW_eq (f : Str → Str) : ∀ x : List (W NodeTypeMapValueArguments), NodeTypeMapValueArguments.renLW f x = (List.map (W.ren (NodeTypeMapValueArguments.ren f))) x
  | [] => rfl
  | x :: xs => by simp [NodeTypeMapValueArguments.renLW, NodeTypeMapValueArguments.renLW_eq f xs]
@[simp] theorem NodeArgumentPattern.renW_eq (f : Str → Str) (x : W NodeArgumentPattern) : NodeArgumentPattern.renW f x = (W.ren (NodeArgumentPattern.ren f)) x := by cases x; rfl
@[simp] theorem NodeArgumentPattern.renLW_eq (f : Str → Str) : ∀ x : List (W NodeArgumentPattern), NodeArgumentPattern.renLW f x = (List.map (W.ren (NodeArgumentPattern.ren f))) x
  | [] => rfl
  | x :: xs => by simp [NodeArgumentPattern.renLW, NodeArgumentPattern.renLW_eq f xs]
@[simp] theorem NodePattern.renW_eq (f : Str → Str) (x : W NodePattern) : NodePattern.renW f x = (W.ren (NodePattern.ren f)) x := by cases x; rfl
@[simp] theorem NodeFullExpression.renW_eq (f : Str → Str) (x : W NodeFullExpression) : NodeFullExpression.renW f x = (W.ren (NodeFullExpression.ren f)) x := by cases x; rfl
@[simp] theorem NodePatternMatchExpressionClause.renW_eq (f : Str → Str) (x : W NodePatternMatchExpressionClause) : NodePatternMatchExpressionClause.renW f x = (W.ren (NodePatternMatchExpressionClause.ren f)) x := by cases x; rfl
@[simp] theorem NodePatternMatchExpressionClause.renLW_eq (f : Str → Str) : ∀ x : List (W NodePatternMatchExpressionClause), NodePatternMatchExpressionClause.renLW f x = (List.map (W.ren (NodePatternMatchExpressionClause.ren f))) x
  | [] => rfl
  | x :: xs => by simp [NodePatternMatchExpressionClause.renLW, NodePatternMatchExpressionClause.renLW_eq f xs]
@[simp] theorem NodePatternMatchClause.renW_eq (f : Str → Str) (x : W NodePatternMatchClause) : NodePatternMatchClause.renW f x = (W.ren (NodePatternMatchClause.ren f)) x := by cases x; rfl
@[simp] theorem NodePatternMatchClause.renLW_eq (f : Str → Str) : ∀ x : List (W NodePatternMatchClause), NodePatternMatchClause.renLW f x = (List.map (W.ren (NodePatternMatchClause.ren f))) x
  | [] => rfl
  | x :: xs => by simp [NodePatternMatchClause.renLW, NodePatternMatchClause.renLW_eq f xs]
@[simp] theorem NodeStatementBlock.renW_eq (f : Str → Str) (x : W NodeStatementBlock) : NodeStatementBlock.renW f x = (W.ren (NodeStatementBlock.ren f)) x := by cases x; rfl
@[simp] theorem NodeStatementBlock.renOW_eq (f : Str → Str) (x : Option (W NodeStatementBlock)) : NodeStatementBlock.renOW f x = (Option.map (W.ren (NodeStatementBlock.ren f))) x := by
  cases x <;> simp [NodeStatementBlock.renOW]
@[simp] theorem NodeStatement.renL_eq (f : Str → Str) : ∀ x : List NodeStatement, NodeStatement.renL f x = (List.map (NodeStatement.ren f)) x
  | [] => rfl
  | x :: xs => by simp [NodeStatement.renL, NodeStatement.renL_eq f xs]

@[simp] theorem W.ren_node {α : Type} (f : α → α) (w : W α) : (W.ren f w).node = f w.node := rfl

@[simp] theorem W.ren_start {α : Type} (f : α → α) (w : W α) : (W.ren f w).start = w.start := rfl

@[simp] theorem W.ren_stop {α : Type} (f : α → α) (w : W α) : (W.ren f w).stop = w.stop := rfl

@[simp] theorem startOf_ren (f : Str → Str) (w : List STok) : startOf (w.map (STok.ren f)) = startOf w := by
  cases w <;> rfl

theorem stopFrom_ren (f : Str → Str) : ∀ (p : Pos) (w : List STok), stopFrom p (w.map (STok.ren f)) = stopFrom p w
  | _, [] => rfl
  | _, t :: w => stopFrom_ren f t.stop w

@[simp] theorem stopOf_ren (f : Str → Str) (w : List STok) : stopOf (w.map (STok.ren f)) = stopOf w :=
  stopFrom_ren f _ w

@[simp] theorem importList_ren (f : Str → Str) (d : NodeImportDeclarations) :
    (d.ren f).importList = d.importList.map (W.ren (NodeImportedName.ren f)) := by cases d; rfl

@[simp] theorem arguments_ren (f : Str → Str) (d : NodeBuiltinArguments) :
    (d.ren f).arguments = d.arguments.map (W.ren (NodeVariableIdentifier.ren f)) := by cases d; rfl

theorem W.ren_eq {α : Type} (f : α → α) (x : α) (a b : Pos) :
    W.ren f ⟨x, a, b⟩ = ⟨f x, a, b⟩ := rfl

theorem mkW_ren {α : Type} (f : Str → Str) (w : List STok) (x : α) :
    mkW (w.map (STok.ren f)) x = mkW w x := by simp [mkW]

theorem W.ren_mkW {α : Type} (g : α → α) (w : List STok) (x : α) :
    W.ren g (mkW w x) = mkW w (g x) := rfl

theorem Derives.ren (f : Str → Str) (f0 : f [] = []) (f1 : f (str! "contract") = str! "contract")
    (f2 : f (str! "library") = str! "library") {n : NT} {w : List STok} {v : Val n} (d : Derives n w v) :
    Derives n (w.map (STok.ren f)) (renV f n v) := by
  induction d with
  | starNil =>
    exact .starNil
  | starCons d1 d2 ih1 ih2 =>
    rw [List.map_append]; exact .starCons ih1 ih2
  | plusIntro d1 d2 ih1 ih2 =>
    rw [List.map_append]; exact .plusIntro ih1 ih2
  | optNone =>
    exact .optNone
  | optSome d1 ih1 =>
    exact .optSome ih1
  | hexNumber h =>
    subst h
    exact (Derives.hexNumber (by simp only [List.map_cons, List.map_append, List.map_nil, STok.ren, Token.ren] <;> rfl) ).cast (by (try simp only [mkW_ren, stopOf_ren, startOf_ren]); first | rfl | (simp [renV, W.ren_mkW, f0, f1, f2]; done) | (simp [renV, W.ren_mkW, f0, f1, f2, Option.map_getD_nil, Option.map_toList]; done) | simp [renV, W.ren_eq, W.ren_mkW, f0, f1, f2])
  | signedInt h =>
    subst h
    exact (Derives.signedInt (by simp only [List.map_cons, List.map_append, List.map_nil, STok.ren, Token.ren] <;> rfl) ).cast (by (try simp only [mkW_ren, stopOf_ren, startOf_ren]); first | rfl | (simp [renV, W.ren_mkW, f0, f1, f2]; done) | (simp [renV, W.ren_mkW, f0, f1, f2, Option.map_getD_nil, Option.map_toList]; done) | simp [renV, W.ren_eq, W.ren_mkW, f0, f1, f2])
  | regularId h =>
    subst h
    exact (Derives.regularId (by simp only [List.map_cons, List.map_append, List.map_nil, STok.ren, Token.ren] <;> rfl) ).cast (by (try simp only [mkW_ren, stopOf_ren, startOf_ren]); first | rfl | (simp [renV, W.ren_mkW, f0, f1, f2]; done) | (simp [renV, W.ren_mkW, f0, f1, f2, Option.map_getD_nil, Option.map_toList]; done) | simp [renV, W.ren_eq, W.ren_mkW, f0, f1, f2])
  | specialId h =>
    subst h
    exact (Derives.specialId (by simp only [List.map_cons, List.map_append, List.map_nil, STok.ren, Token.ren] <;> rfl) ).cast (by (try simp only [mkW_ren, stopOf_ren, startOf_ren]); first | rfl | (simp [renV, W.ren_mkW, f0, f1, f2]; done) | (simp [renV, W.ren_mkW, f0, f1, f2, Option.map_getD_nil, Option.map_toList]; done) | simp [renV, W.ren_eq, W.ren_mkW, f0, f1, f2])
  | customId h =>
    subst h
    exact (Derives.customId (by simp only [List.map_cons, List.map_append, List.map_nil, STok.ren, Token.ren] <;> rfl) ).cast (by (try simp only [mkW_ren, stopOf_ren, startOf_ren]); first | rfl | (simp [renV, W.ren_mkW, f0, f1, f2]; done) | (simp [renV, W.ren_mkW, f0, f1, f2, Option.map_getD_nil, Option.map_toList]; done) | simp [renV, W.ren_eq, W.ren_mkW, f0, f1, f2])
  | templateId h =>
    subst h
    exact (Derives.templateId (by simp only [List.map_cons, List.map_append, List.map_nil, STok.ren, Token.ren] <;> rfl) ).cast (by (try simp only [mkW_ren, stopOf_ren, startOf_ren]); first | rfl | (simp [renV, W.ren_mkW, f0, f1, f2]; done) | (simp [renV, W.ren_mkW, f0, f1, f2, Option.map_getD_nil, Option.map_toList]; done) | simp [renV, W.ren_eq, W.ren_mkW, f0, f1, f2])
  | stringLit h =>
    subst h
    exact (Derives.stringLit (by simp only [List.map_cons, List.map_append, List.map_nil, STok.ren, Token.ren] <;> rfl) ).cast (by (try simp only [mkW_ren, stopOf_ren, startOf_ren]); first | rfl | (simp [renV, W.ren_mkW, f0, f1, f2]; done) | (simp [renV, W.ren_mkW, f0, f1, f2, Option.map_getD_nil, Option.map_toList]; done) | simp [renV, W.ren_eq, W.ren_mkW, f0, f1, f2])
  | byteString h =>
    subst h
    exact (Derives.byteString (by simp only [List.map_cons, List.map_append, List.map_nil, STok.ren, Token.ren] <;> rfl) ).cast (by (try simp only [mkW_ren, stopOf_ren, startOf_ren]); first | rfl | (simp [renV, W.ren_mkW, f0, f1, f2]; done) | (simp [renV, W.ren_mkW, f0, f1, f2, Option.map_getD_nil, Option.map_toList]; done) | simp [renV, W.ren_eq, W.ren_mkW, f0, f1, f2])
  | typeNameBytes d1 ih1 =>
    exact (Derives.typeNameBytes ih1).cast (by (try simp only [mkW_ren, stopOf_ren, startOf_ren]); first | rfl | (simp [renV, W.ren_mkW, f0, f1, f2]; done) | (simp [renV, W.ren_mkW, f0, f1, f2, Option.map_getD_nil, Option.map_toList]; done) | simp [renV, W.ren_eq, W.ren_mkW, f0, f1, f2])
  | typeNameEvent h =>
    subst h
    exact (Derives.typeNameEvent (by simp only [List.map_cons, List.map_append, List.map_nil, STok.ren, Token.ren] <;> rfl) ).cast (by (try simp only [mkW_ren, stopOf_ren, startOf_ren]); first | rfl | (simp [renV, W.ren_mkW, f0, f1, f2]; done) | (simp [renV, W.ren_mkW, f0, f1, f2, Option.map_getD_nil, Option.map_toList]; done) | simp [renV, W.ren_eq, W.ren_mkW, f0, f1, f2])
  | typeNameCustom d1 ih1 =>
    exact (Derives.typeNameCustom ih1).cast (by (try simp only [mkW_ren, stopOf_ren, startOf_ren]); first | rfl | (simp [renV, W.ren_mkW, f0, f1, f2]; done) | (simp [renV, W.ren_mkW, f0, f1, f2, Option.map_getD_nil, Option.map_toList]; done) | simp [renV, W.ren_eq, W.ren_mkW, f0, f1, f2])
  | importedRegular d1 ih1 =>
    exact (Derives.importedRegular ih1).cast (by (try simp only [mkW_ren, stopOf_ren, startOf_ren]); first | rfl | (simp [renV, W.ren_mkW, f0, f1, f2]; done) | (simp [renV, W.ren_mkW, f0, f1, f2, Option.map_getD_nil, Option.map_toList]; done) | simp [renV, W.ren_eq, W.ren_mkW, f0, f1, f2])
  | importedAliased h d1 d2 ih1 ih2 =>
    subst h
    exact (Derives.importedAliased (by simp only [List.map_cons, List.map_append, List.map_nil, STok.ren, Token.ren] <;> rfl) ih1 ih2).cast (by (try simp only [mkW_ren, stopOf_ren, startOf_ren]); first | rfl | (simp [renV, W.ren_mkW, f0, f1, f2]; done) | (simp [renV, W.ren_mkW, f0, f1, f2, Option.map_getD_nil, Option.map_toList]; done) | simp [renV, W.ren_eq, W.ren_mkW, f0, f1, f2])
  | importMore h d1 d2 ih1 ih2 =>
    subst h
    exact (Derives.importMore (by simp only [List.map_cons, List.map_append, List.map_nil, STok.ren, Token.ren] <;> rfl) ih1 ih2).cast (by (try simp only [mkW_ren, stopOf_ren, startOf_ren]); first | rfl | (simp [renV, W.ren_mkW, f0, f1, f2]; done) | (simp [renV, W.ren_mkW, f0, f1, f2, Option.map_getD_nil, Option.map_toList]; done) | simp [renV, W.ren_eq, W.ren_mkW, f0, f1, f2])
  | importFirst h d1 ih1 =>
    subst h
    exact (Derives.importFirst (by simp only [List.map_cons, List.map_append, List.map_nil, STok.ren, Token.ren] <;> rfl) ih1).cast (by (try simp only [mkW_ren, stopOf_ren, startOf_ren]); first | rfl | (simp [renV, W.ren_mkW, f0, f1, f2]; done) | (simp [renV, W.ren_mkW, f0, f1, f2, Option.map_getD_nil, Option.map_toList]; done) | simp [renV, W.ren_eq, W.ren_mkW, f0, f1, f2])
  | metaName d1 ih1 =>
    exact (Derives.metaName ih1).cast (by (try simp only [mkW_ren, stopOf_ren, startOf_ren]); first | rfl | (simp [renV, W.ren_mkW, f0, f1, f2]; done) | (simp [renV, W.ren_mkW, f0, f1, f2, Option.map_getD_nil, Option.map_toList]; done) | simp [renV, W.ren_eq, W.ren_mkW, f0, f1, f2])
  | metaNamespace h d1 d2 ih1 ih2 =>
    subst h
    exact (Derives.metaNamespace (by simp only [List.map_cons, List.map_append, List.map_nil, STok.ren, Token.ren] <;> rfl) ih1 ih2).cast (by (try simp only [mkW_ren, stopOf_ren, startOf_ren]); first | rfl | (simp [renV, W.ren_mkW, f0, f1, f2]; done) | (simp [renV, W.ren_mkW, f0, f1, f2, Option.map_getD_nil, Option.map_toList]; done) | simp [renV, W.ren_eq, W.ren_mkW, f0, f1, f2])
  | metaHexspace h d1 d2 ih1 ih2 =>
    subst h
    exact (Derives.metaHexspace (by simp only [List.map_cons, List.map_append, List.map_nil, STok.ren, Token.ren] <;> rfl) ih1 ih2).cast (by (try simp only [mkW_ren, stopOf_ren, startOf_ren]); first | rfl | (simp [renV, W.ren_mkW, f0, f1, f2]; done) | (simp [renV, W.ren_mkW, f0, f1, f2, Option.map_getD_nil, Option.map_toList]; done) | simp [renV, W.ren_eq, W.ren_mkW, f0, f1, f2])
  | metaByStr h =>
    subst h
    exact (Derives.metaByStr (by simp only [List.map_cons, List.map_append, List.map_nil, STok.ren, Token.ren] <;> rfl) ).cast (by (try simp only [mkW_ren, stopOf_ren, startOf_ren]); first | rfl | (simp [renV, W.ren_mkW, f0, f1, f2]; done) | (simp [renV, W.ren_mkW, f0, f1, f2, Option.map_getD_nil, Option.map_toList]; done) | simp [renV, W.ren_eq, W.ren_mkW, f0, f1, f2])
  | varName d1 ih1 =>
    exact (Derives.varName ih1).cast (by (try simp only [mkW_ren, stopOf_ren, startOf_ren]); first | rfl | (simp [renV, W.ren_mkW, f0, f1, f2]; done) | (simp [renV, W.ren_mkW, f0, f1, f2, Option.map_getD_nil, Option.map_toList]; done) | simp [renV, W.ren_eq, W.ren_mkW, f0, f1, f2])
  | varSpecial d1 ih1 =>
    exact (Derives.varSpecial ih1).cast (by (try simp only [mkW_ren, stopOf_ren, startOf_ren]); first | rfl | (simp [renV, W.ren_mkW, f0, f1, f2]; done) | (simp [renV, W.ren_mkW, f0, f1, f2, Option.map_getD_nil, Option.map_toList]; done) | simp [renV, W.ren_eq, W.ren_mkW, f0, f1, f2])
  | varNamespace h d1 d2 ih1 ih2 =>
    subst h
    exact (Derives.varNamespace (by simp only [List.map_cons, List.map_append, List.map_nil, STok.ren, Token.ren] <;> rfl) ih1 ih2).cast (by (try simp only [mkW_ren, stopOf_ren, startOf_ren]); first | rfl | (simp [renV, W.ren_mkW, f0, f1, f2]; done) | (simp [renV, W.ren_mkW, f0, f1, f2, Option.map_getD_nil, Option.map_toList]; done) | simp [renV, W.ren_eq, W.ren_mkW, f0, f1, f2])
  | builtinMore h d1 d2 ih1 ih2 =>
    subst h
    exact (Derives.builtinMore (by simp only [List.map_cons, List.map_append, List.map_nil, STok.ren, Token.ren] <;> rfl) ih1 ih2).cast (by (try simp only [mkW_ren, stopOf_ren, startOf_ren]); first | rfl | (simp [renV, W.ren_mkW, f0, f1, f2]; done) | (simp [renV, W.ren_mkW, f0, f1, f2, Option.map_getD_nil, Option.map_toList]; done) | simp [renV, W.ren_eq, W.ren_mkW, f0, f1, f2])
  | builtinOne d1 ih1 =>
    exact (Derives.builtinOne ih1).cast (by (try simp only [mkW_ren, stopOf_ren, startOf_ren]); first | rfl | (simp [renV, W.ren_mkW, f0, f1, f2]; done) | (simp [renV, W.ren_mkW, f0, f1, f2, Option.map_getD_nil, Option.map_toList]; done) | simp [renV, W.ren_eq, W.ren_mkW, f0, f1, f2])
  | builtinUnit h =>
    subst h
    exact (Derives.builtinUnit (by simp only [List.map_cons, List.map_append, List.map_nil, STok.ren, Token.ren] <;> rfl) ).cast (by (try simp only [mkW_ren, stopOf_ren, startOf_ren]); first | rfl | (simp [renV, W.ren_mkW, f0, f1, f2]; done) | (simp [renV, W.ren_mkW, f0, f1, f2, Option.map_getD_nil, Option.map_toList]; done) | simp [renV, W.ren_eq, W.ren_mkW, f0, f1, f2])
  | remGeneric h d1 d2 ih1 ih2 =>
    subst h
    exact (Derives.remGeneric (by simp only [List.map_cons, List.map_append, List.map_nil, STok.ren, Token.ren] <;> rfl) ih1 ih2).cast (by (try simp only [mkW_ren, stopOf_ren, startOf_ren]); first | rfl | (simp [renV, W.ren_mkW, f0, f1, f2]; done) | (simp [renV, W.ren_mkW, f0, f1, f2, Option.map_getD_nil, Option.map_toList]; done) | simp [renV, W.ren_eq, W.ren_mkW, f0, f1, f2])
  | remMap h d1 d2 ih1 ih2 =>
    subst h
    exact (Derives.remMap (by simp only [List.map_cons, List.map_append, List.map_nil, STok.ren, Token.ren] <;> rfl) ih1 ih2).cast (by (try simp only [mkW_ren, stopOf_ren, startOf_ren]); first | rfl | (simp [renV, W.ren_mkW, f0, f1, f2]; done) | (simp [renV, W.ren_mkW, f0, f1, f2, Option.map_getD_nil, Option.map_toList]; done) | simp [renV, W.ren_eq, W.ren_mkW, f0, f1, f2])
  | remParen h d1 ih1 =>
    subst h
    exact (Derives.remParen (by simp only [List.map_cons, List.map_append, List.map_nil, STok.ren, Token.ren] <;> rfl) ih1).cast (by (try simp only [mkW_ren, stopOf_ren, startOf_ren]); first | rfl | (simp [renV, W.ren_mkW, f0, f1, f2]; done) | (simp [renV, W.ren_mkW, f0, f1, f2, Option.map_getD_nil, Option.map_toList]; done) | simp [renV, W.ren_eq, W.ren_mkW, f0, f1, f2])
  | remAddress d1 ih1 =>
    exact (Derives.remAddress ih1).cast (by (try simp only [mkW_ren, stopOf_ren, startOf_ren]); first | rfl | (simp [renV, W.ren_mkW, f0, f1, f2]; done) | (simp [renV, W.ren_mkW, f0, f1, f2, Option.map_getD_nil, Option.map_toList]; done) | simp [renV, W.ren_eq, W.ren_mkW, f0, f1, f2])
  | remForall h d1 d2 ih1 ih2 =>
    subst h
    exact (Derives.remForall (by simp only [List.map_cons, List.map_append, List.map_nil, STok.ren, Token.ren] <;> rfl) ih1 ih2).cast (by (try simp only [mkW_ren, stopOf_ren, startOf_ren]); first | rfl | (simp [renV, W.ren_mkW, f0, f1, f2]; done) | (simp [renV, W.ren_mkW, f0, f1, f2, Option.map_getD_nil, Option.map_toList]; done) | simp [renV, W.ren_eq, W.ren_mkW, f0, f1, f2])
  | remTypeVar d1 ih1 =>
    exact (Derives.remTypeVar ih1).cast (by (try simp only [mkW_ren, stopOf_ren, startOf_ren]); first | rfl | (simp [renV, W.ren_mkW, f0, f1, f2]; done) | (simp [renV, W.ren_mkW, f0, f1, f2, Option.map_getD_nil, Option.map_toList]; done) | simp [renV, W.ren_eq, W.ren_mkW, f0, f1, f2])
  | funSigMore h d1 d2 ih1 ih2 =>
    subst h
    exact (Derives.funSigMore (by simp only [List.map_cons, List.map_append, List.map_nil, STok.ren, Token.ren] <;> rfl) ih1 ih2).cast (by (try simp only [mkW_ren, stopOf_ren, startOf_ren]); first | rfl | (simp [renV, W.ren_mkW, f0, f1, f2]; done) | (simp [renV, W.ren_mkW, f0, f1, f2, Option.map_getD_nil, Option.map_toList]; done) | simp [renV, W.ren_eq, W.ren_mkW, f0, f1, f2])
  | funSigLast h d1 d2 ih1 ih2 =>
    subst h
    exact (Derives.funSigLast (by simp only [List.map_cons, List.map_append, List.map_nil, STok.ren, Token.ren] <;> rfl) ih1 ih2).cast (by (try simp only [mkW_ren, stopOf_ren, startOf_ren]); first | rfl | (simp [renV, W.ren_mkW, f0, f1, f2]; done) | (simp [renV, W.ren_mkW, f0, f1, f2, Option.map_getD_nil, Option.map_toList]; done) | simp [renV, W.ren_eq, W.ren_mkW, f0, f1, f2])
  | typeFun d1 ih1 =>
    exact .typeFun ih1
  | typeRem d1 ih1 =>
    exact .typeRem ih1
  | argParen h d1 ih1 =>
    subst h
    exact (Derives.argParen (by simp only [List.map_cons, List.map_append, List.map_nil, STok.ren, Token.ren] <;> rfl) ih1).cast (by (try simp only [mkW_ren, stopOf_ren, startOf_ren]); first | rfl | (simp [renV, W.ren_mkW, f0, f1, f2]; done) | (simp [renV, W.ren_mkW, f0, f1, f2, Option.map_getD_nil, Option.map_toList]; done) | simp [renV, W.ren_eq, W.ren_mkW, f0, f1, f2])
  | argMeta d1 ih1 =>
    exact (Derives.argMeta ih1).cast (by (try simp only [mkW_ren, stopOf_ren, startOf_ren]); first | rfl | (simp [renV, W.ren_mkW, f0, f1, f2]; done) | (simp [renV, W.ren_mkW, f0, f1, f2, Option.map_getD_nil, Option.map_toList]; done) | simp [renV, W.ren_eq, W.ren_mkW, f0, f1, f2])
  | argTemplate d1 ih1 =>
    exact (Derives.argTemplate ih1).cast (by (try simp only [mkW_ren, stopOf_ren, startOf_ren]); first | rfl | (simp [renV, W.ren_mkW, f0, f1, f2]; done) | (simp [renV, W.ren_mkW, f0, f1, f2, Option.map_getD_nil, Option.map_toList]; done) | simp [renV, W.ren_eq, W.ren_mkW, f0, f1, f2])
  | argAddress d1 ih1 =>
    exact (Derives.argAddress ih1).cast (by (try simp only [mkW_ren, stopOf_ren, startOf_ren]); first | rfl | (simp [renV, W.ren_mkW, f0, f1, f2]; done) | (simp [renV, W.ren_mkW, f0, f1, f2, Option.map_getD_nil, Option.map_toList]; done) | simp [renV, W.ren_eq, W.ren_mkW, f0, f1, f2])
  | argMap h d1 d2 ih1 ih2 =>
    subst h
    exact (Derives.argMap (by simp only [List.map_cons, List.map_append, List.map_nil, STok.ren, Token.ren] <;> rfl) ih1 ih2).cast (by (try simp only [mkW_ren, stopOf_ren, startOf_ren]); first | rfl | (simp [renV, W.ren_mkW, f0, f1, f2]; done) | (simp [renV, W.ren_mkW, f0, f1, f2, Option.map_getD_nil, Option.map_toList]; done) | simp [renV, W.ren_eq, W.ren_mkW, f0, f1, f2])
  | addrEmpty h d1 ih1 =>
    subst h
    exact (Derives.addrEmpty (by simp only [List.map_cons, List.map_append, List.map_nil, STok.ren, Token.ren] <;> rfl) ih1).cast (by (try simp only [mkW_ren, stopOf_ren, startOf_ren]); first | rfl | (simp [renV, W.ren_mkW, f0, f1, f2]; done) | (simp [renV, W.ren_mkW, f0, f1, f2, Option.map_getD_nil, Option.map_toList]; done) | simp [renV, W.ren_eq, W.ren_mkW, f0, f1, f2])
  | addrContract h d1 d2 ih1 ih2 =>
    subst h
    exact (Derives.addrContract (by simp only [List.map_cons, List.map_append, List.map_nil, STok.ren, Token.ren] <;> rfl) ih1 ih2).cast (by (try simp only [mkW_ren, stopOf_ren, startOf_ren]); first | rfl | (simp [renV, W.ren_mkW, f0, f1, f2]; done) | (simp [renV, W.ren_mkW, f0, f1, f2, Option.map_getD_nil, Option.map_toList]; done) | simp [renV, W.ren_eq, W.ren_mkW, f0, f1, f2])
  | addrLibrary h d1 ih1 =>
    subst h
    exact (Derives.addrLibrary (by simp only [List.map_cons, List.map_append, List.map_nil, STok.ren, Token.ren] <;> rfl) ih1).cast (by (try simp only [mkW_ren, stopOf_ren, startOf_ren]); first | rfl | (simp [renV, W.ren_mkW, f0, f1, f2]; done) | (simp [renV, W.ren_mkW, f0, f1, f2, Option.map_getD_nil, Option.map_toList]; done) | simp [renV, W.ren_eq, W.ren_mkW, f0, f1, f2])
  | addrSpecial h d1 d2 ih1 ih2 =>
    subst h
    exact (Derives.addrSpecial (by simp only [List.map_cons, List.map_append, List.map_nil, STok.ren, Token.ren] <;> rfl) ih1 ih2).cast (by (try simp only [mkW_ren, stopOf_ren, startOf_ren]); first | rfl | (simp [renV, W.ren_mkW, f0, f1, f2]; done) | (simp [renV, W.ren_mkW, f0, f1, f2, Option.map_getD_nil, Option.map_toList]; done) | simp [renV, W.ren_eq, W.ren_mkW, f0, f1, f2])
  | addrFieldList h d1 d2 ih1 ih2 =>
    subst h
    exact (Derives.addrFieldList (by simp only [List.map_cons, List.map_append, List.map_nil, STok.ren, Token.ren] <;> rfl) ih1 ih2).cast (by (try simp only [mkW_ren, stopOf_ren, startOf_ren]); first | rfl | (simp [renV, W.ren_mkW, f0, f1, f2]; done) | (simp [renV, W.ren_mkW, f0, f1, f2, Option.map_getD_nil, Option.map_toList]; done) | simp [renV, W.ren_eq, W.ren_mkW, f0, f1, f2])
  | nextAddrField h d1 ih1 =>
    subst h
    exact (Derives.nextAddrField (by simp only [List.map_cons, List.map_append, List.map_nil, STok.ren, Token.ren] <;> rfl) ih1).cast (by (try simp only [mkW_ren, stopOf_ren, startOf_ren]); first | rfl | (simp [renV, W.ren_mkW, f0, f1, f2]; done) | (simp [renV, W.ren_mkW, f0, f1, f2, Option.map_getD_nil, Option.map_toList]; done) | simp [renV, W.ren_eq, W.ren_mkW, f0, f1, f2])
  | addrField h d1 d2 ih1 ih2 =>
    subst h
    exact (Derives.addrField (by simp only [List.map_cons, List.map_append, List.map_nil, STok.ren, Token.ren] <;> rfl) ih1 ih2).cast (by (try simp only [mkW_ren, stopOf_ren, startOf_ren]); first | rfl | (simp [renV, W.ren_mkW, f0, f1, f2]; done) | (simp [renV, W.ren_mkW, f0, f1, f2, Option.map_getD_nil, Option.map_toList]; done) | simp [renV, W.ren_eq, W.ren_mkW, f0, f1, f2])
  | keyMeta d1 ih1 =>
    exact (Derives.keyMeta ih1).cast (by (try simp only [mkW_ren, stopOf_ren, startOf_ren]); first | rfl | (simp [renV, W.ren_mkW, f0, f1, f2]; done) | (simp [renV, W.ren_mkW, f0, f1, f2, Option.map_getD_nil, Option.map_toList]; done) | simp [renV, W.ren_eq, W.ren_mkW, f0, f1, f2])
  | keyParenMeta h d1 ih1 =>
    subst h
    exact (Derives.keyParenMeta (by simp only [List.map_cons, List.map_append, List.map_nil, STok.ren, Token.ren] <;> rfl) ih1).cast (by (try simp only [mkW_ren, stopOf_ren, startOf_ren]); first | rfl | (simp [renV, W.ren_mkW, f0, f1, f2]; done) | (simp [renV, W.ren_mkW, f0, f1, f2, Option.map_getD_nil, Option.map_toList]; done) | simp [renV, W.ren_eq, W.ren_mkW, f0, f1, f2])
  | keyParenAddress h d1 ih1 =>
    subst h
    exact (Derives.keyParenAddress (by simp only [List.map_cons, List.map_append, List.map_nil, STok.ren, Token.ren] <;> rfl) ih1).cast (by (try simp only [mkW_ren, stopOf_ren, startOf_ren]); first | rfl | (simp [renV, W.ren_mkW, f0, f1, f2]; done) | (simp [renV, W.ren_mkW, f0, f1, f2, Option.map_getD_nil, Option.map_toList]; done) | simp [renV, W.ren_eq, W.ren_mkW, f0, f1, f2])
  | keyAddress d1 ih1 =>
    exact (Derives.keyAddress ih1).cast (by (try simp only [mkW_ren, stopOf_ren, startOf_ren]); first | rfl | (simp [renV, W.ren_mkW, f0, f1, f2]; done) | (simp [renV, W.ren_mkW, f0, f1, f2, Option.map_getD_nil, Option.map_toList]; done) | simp [renV, W.ren_eq, W.ren_mkW, f0, f1, f2])
  | valMeta d1 ih1 =>
    exact (Derives.valMeta ih1).cast (by (try simp only [mkW_ren, stopOf_ren, startOf_ren]); first | rfl | (simp [renV, W.ren_mkW, f0, f1, f2]; done) | (simp [renV, W.ren_mkW, f0, f1, f2, Option.map_getD_nil, Option.map_toList]; done) | simp [renV, W.ren_eq, W.ren_mkW, f0, f1, f2])
  | valMap h d1 d2 ih1 ih2 =>
    subst h
    exact (Derives.valMap (by simp only [List.map_cons, List.map_append, List.map_nil, STok.ren, Token.ren] <;> rfl) ih1 ih2).cast (by (try simp only [mkW_ren, stopOf_ren, startOf_ren]); first | rfl | (simp [renV, W.ren_mkW, f0, f1, f2]; done) | (simp [renV, W.ren_mkW, f0, f1, f2, Option.map_getD_nil, Option.map_toList]; done) | simp [renV, W.ren_eq, W.ren_mkW, f0, f1, f2])
  | valParen h d1 ih1 =>
    subst h
    exact (Derives.valParen (by simp only [List.map_cons, List.map_append, List.map_nil, STok.ren, Token.ren] <;> rfl) ih1).cast (by (try simp only [mkW_ren, stopOf_ren, startOf_ren]); first | rfl | (simp [renV, W.ren_mkW, f0, f1, f2]; done) | (simp [renV, W.ren_mkW, f0, f1, f2, Option.map_getD_nil, Option.map_toList]; done) | simp [renV, W.ren_eq, W.ren_mkW, f0, f1, f2])
  | valAddress d1 ih1 =>
    exact (Derives.valAddress ih1).cast (by (try simp only [mkW_ren, stopOf_ren, startOf_ren]); first | rfl | (simp [renV, W.ren_mkW, f0, f1, f2]; done) | (simp [renV, W.ren_mkW, f0, f1, f2, Option.map_getD_nil, Option.map_toList]; done) | simp [renV, W.ren_eq, W.ren_mkW, f0, f1, f2])
  | mvaParen h d1 ih1 =>
    subst h
    exact (Derives.mvaParen (by simp only [List.map_cons, List.map_append, List.map_nil, STok.ren, Token.ren] <;> rfl) ih1).cast (by (try simp only [mkW_ren, stopOf_ren, startOf_ren]); first | rfl | (simp [renV, W.ren_mkW, f0, f1, f2]; done) | (simp [renV, W.ren_mkW, f0, f1, f2, Option.map_getD_nil, Option.map_toList]; done) | simp [renV, W.ren_eq, W.ren_mkW, f0, f1, f2])
  | mvaMeta d1 ih1 =>
    exact (Derives.mvaMeta ih1).cast (by (try simp only [mkW_ren, stopOf_ren, startOf_ren]); first | rfl | (simp [renV, W.ren_mkW, f0, f1, f2]; done) | (simp [renV, W.ren_mkW, f0, f1, f2, Option.map_getD_nil, Option.map_toList]; done) | simp [renV, W.ren_eq, W.ren_mkW, f0, f1, f2])
  | mvaMap h d1 d2 ih1 ih2 =>
    subst h
    exact (Derives.mvaMap (by simp only [List.map_cons, List.map_append, List.map_nil, STok.ren, Token.ren] <;> rfl) ih1 ih2).cast (by (try simp only [mkW_ren, stopOf_ren, startOf_ren]); first | rfl | (simp [renV, W.ren_mkW, f0, f1, f2]; done) | (simp [renV, W.ren_mkW, f0, f1, f2, Option.map_getD_nil, Option.map_toList]; done) | simp [renV, W.ren_eq, W.ren_mkW, f0, f1, f2])
  | program h d1 d2 d3 d4 ih1 ih2 ih3 ih4 =>
    subst h
    exact (Derives.program (by simp only [List.map_cons, List.map_append, List.map_nil, STok.ren, Token.ren] <;> rfl) ih1 ih2 ih3 ih4).cast (by (try simp only [mkW_ren, stopOf_ren, startOf_ren]); first | rfl | (simp [renV, W.ren_mkW, f0, f1, f2]; done) | (simp [renV, W.ren_mkW, f0, f1, f2, Option.map_getD_nil, Option.map_toList]; done) | simp [renV, W.ren_eq, W.ren_mkW, f0, f1, f2])
  | libraryDef h d1 d2 ih1 ih2 =>
    subst h
    exact (Derives.libraryDef (by simp only [List.map_cons, List.map_append, List.map_nil, STok.ren, Token.ren] <;> rfl) ih1 ih2).cast (by (try simp only [mkW_ren, stopOf_ren, startOf_ren]); first | rfl | (simp [renV, W.ren_mkW, f0, f1, f2]; done) | (simp [renV, W.ren_mkW, f0, f1, f2, Option.map_getD_nil, Option.map_toList]; done) | simp [renV, W.ren_eq, W.ren_mkW, f0, f1, f2])
  | libLet h d1 d2 d3 ih1 ih2 ih3 =>
    subst h
    exact (Derives.libLet (by simp only [List.map_cons, List.map_append, List.map_nil, STok.ren, Token.ren] <;> rfl) ih1 ih2 ih3).cast (by (try simp only [mkW_ren, stopOf_ren, startOf_ren]); first | rfl | (simp [renV, W.ren_mkW, f0, f1, f2]; done) | (simp [renV, W.ren_mkW, f0, f1, f2, Option.map_getD_nil, Option.map_toList]; done) | simp [renV, W.ren_eq, W.ren_mkW, f0, f1, f2])
  | libType h d1 ih1 =>
    subst h
    exact (Derives.libType (by simp only [List.map_cons, List.map_append, List.map_nil, STok.ren, Token.ren] <;> rfl) ih1).cast (by (try simp only [mkW_ren, stopOf_ren, startOf_ren]); first | rfl | (simp [renV, W.ren_mkW, f0, f1, f2]; done) | (simp [renV, W.ren_mkW, f0, f1, f2, Option.map_getD_nil, Option.map_toList]; done) | simp [renV, W.ren_eq, W.ren_mkW, f0, f1, f2])
  | libTypeAlts h d1 d2 ih1 ih2 =>
    subst h
    exact (Derives.libTypeAlts (by simp only [List.map_cons, List.map_append, List.map_nil, STok.ren, Token.ren] <;> rfl) ih1 ih2).cast (by (try simp only [mkW_ren, stopOf_ren, startOf_ren]); first | rfl | (simp [renV, W.ren_mkW, f0, f1, f2]; done) | (simp [renV, W.ren_mkW, f0, f1, f2, Option.map_getD_nil, Option.map_toList]; done) | simp [renV, W.ren_eq, W.ren_mkW, f0, f1, f2])
  | typedId h d1 d2 ih1 ih2 =>
    subst h
    exact (Derives.typedId (by simp only [List.map_cons, List.map_append, List.map_nil, STok.ren, Token.ren] <;> rfl) ih1 ih2).cast (by (try simp only [mkW_ren, stopOf_ren, startOf_ren]); first | rfl | (simp [renV, W.ren_mkW, f0, f1, f2]; done) | (simp [renV, W.ren_mkW, f0, f1, f2, Option.map_getD_nil, Option.map_toList]; done) | simp [renV, W.ren_eq, W.ren_mkW, f0, f1, f2])
  | typeAnn h d1 ih1 =>
    subst h
    exact (Derives.typeAnn (by simp only [List.map_cons, List.map_append, List.map_nil, STok.ren, Token.ren] <;> rfl) ih1).cast (by (try simp only [mkW_ren, stopOf_ren, startOf_ren]); first | rfl | (simp [renV, W.ren_mkW, f0, f1, f2]; done) | (simp [renV, W.ren_mkW, f0, f1, f2, Option.map_getD_nil, Option.map_toList]; done) | simp [renV, W.ren_eq, W.ren_mkW, f0, f1, f2])
  | altType h d1 ih1 =>
    subst h
    exact (Derives.altType (by simp only [List.map_cons, List.map_append, List.map_nil, STok.ren, Token.ren] <;> rfl) ih1).cast (by (try simp only [mkW_ren, stopOf_ren, startOf_ren]); first | rfl | (simp [renV, W.ren_mkW, f0, f1, f2]; done) | (simp [renV, W.ren_mkW, f0, f1, f2, Option.map_getD_nil, Option.map_toList]; done) | simp [renV, W.ren_eq, W.ren_mkW, f0, f1, f2])
  | altTypeArgs h d1 d2 ih1 ih2 =>
    subst h
    exact (Derives.altTypeArgs (by simp only [List.map_cons, List.map_append, List.map_nil, STok.ren, Token.ren] <;> rfl) ih1 ih2).cast (by (try simp only [mkW_ren, stopOf_ren, startOf_ren]); first | rfl | (simp [renV, W.ren_mkW, f0, f1, f2]; done) | (simp [renV, W.ren_mkW, f0, f1, f2, Option.map_getD_nil, Option.map_toList]; done) | simp [renV, W.ren_eq, W.ren_mkW, f0, f1, f2])
  | mvWithArgs h d1 d2 ih1 ih2 =>
    subst h
    exact (Derives.mvWithArgs (by simp only [List.map_cons, List.map_append, List.map_nil, STok.ren, Token.ren] <;> rfl) ih1 ih2).cast (by (try simp only [mkW_ren, stopOf_ren, startOf_ren]); first | rfl | (simp [renV, W.ren_mkW, f0, f1, f2]; done) | (simp [renV, W.ren_mkW, f0, f1, f2, Option.map_getD_nil, Option.map_toList]; done) | simp [renV, W.ren_eq, W.ren_mkW, f0, f1, f2])
  | mvNoArgs d1 ih1 =>
    exact (Derives.mvNoArgs ih1).cast (by (try simp only [mkW_ren, stopOf_ren, startOf_ren]); first | rfl | (simp [renV, W.ren_mkW, f0, f1, f2]; done) | (simp [renV, W.ren_mkW, f0, f1, f2, Option.map_getD_nil, Option.map_toList]; done) | simp [renV, W.ren_eq, W.ren_mkW, f0, f1, f2])
  | contractTypeArgs h d1 ih1 =>
    subst h
    exact (Derives.contractTypeArgs (by simp only [List.map_cons, List.map_append, List.map_nil, STok.ren, Token.ren] <;> rfl) ih1).cast (by (try simp only [mkW_ren, stopOf_ren, startOf_ren]); first | rfl | (simp [renV, W.ren_mkW, f0, f1, f2]; done) | (simp [renV, W.ren_mkW, f0, f1, f2, Option.map_getD_nil, Option.map_toList]; done) | simp [renV, W.ren_eq, W.ren_mkW, f0, f1, f2])
  | exprLet h d1 d2 d3 d4 ih1 ih2 ih3 ih4 =>
    subst h
    exact (Derives.exprLet (by simp only [List.map_cons, List.map_append, List.map_nil, STok.ren, Token.ren] <;> rfl) ih1 ih2 ih3 ih4).cast (by (try simp only [mkW_ren, stopOf_ren, startOf_ren]); first | rfl | (simp [renV, W.ren_mkW, f0, f1, f2]; done) | (simp [renV, W.ren_mkW, f0, f1, f2, Option.map_getD_nil, Option.map_toList]; done) | simp [renV, W.ren_eq, W.ren_mkW, f0, f1, f2])
  | exprFun h d1 d2 d3 ih1 ih2 ih3 =>
    subst h
    exact (Derives.exprFun (by simp only [List.map_cons, List.map_append, List.map_nil, STok.ren, Token.ren] <;> rfl) ih1 ih2 ih3).cast (by (try simp only [mkW_ren, stopOf_ren, startOf_ren]); first | rfl | (simp [renV, W.ren_mkW, f0, f1, f2]; done) | (simp [renV, W.ren_mkW, f0, f1, f2, Option.map_getD_nil, Option.map_toList]; done) | simp [renV, W.ren_eq, W.ren_mkW, f0, f1, f2])
  | exprCall h d1 d2 ih1 ih2 =>
    subst h
    exact (Derives.exprCall (by simp only [List.map_cons, List.map_append, List.map_nil, STok.ren, Token.ren] <;> rfl) ih1 ih2).cast (by (try simp only [mkW_ren, stopOf_ren, startOf_ren]); first | rfl | (simp [renV, W.ren_mkW, f0, f1, f2]; done) | (simp [renV, W.ren_mkW, f0, f1, f2, Option.map_getD_nil, Option.map_toList]; done) | simp [renV, W.ren_eq, W.ren_mkW, f0, f1, f2])
  | exprAtomic d1 ih1 =>
    exact (Derives.exprAtomic ih1).cast (by (try simp only [mkW_ren, stopOf_ren, startOf_ren]); first | rfl | (simp [renV, W.ren_mkW, f0, f1, f2]; done) | (simp [renV, W.ren_mkW, f0, f1, f2, Option.map_getD_nil, Option.map_toList]; done) | simp [renV, W.ren_eq, W.ren_mkW, f0, f1, f2])
  | exprBuiltin h d1 d2 d3 ih1 ih2 ih3 =>
    subst h
    exact (Derives.exprBuiltin (by simp only [List.map_cons, List.map_append, List.map_nil, STok.ren, Token.ren] <;> rfl) ih1 ih2 ih3).cast (by (try simp only [mkW_ren, stopOf_ren, startOf_ren]); first | rfl | (simp [renV, W.ren_mkW, f0, f1, f2]; done) | (simp [renV, W.ren_mkW, f0, f1, f2, Option.map_getD_nil, Option.map_toList]; done) | simp [renV, W.ren_eq, W.ren_mkW, f0, f1, f2])
  | exprMessage h d1 d2 ih1 ih2 =>
    subst h
    exact (Derives.exprMessage (by simp only [List.map_cons, List.map_append, List.map_nil, STok.ren, Token.ren] <;> rfl) ih1 ih2).cast (by (try simp only [mkW_ren, stopOf_ren, startOf_ren]); first | rfl | (simp [renV, W.ren_mkW, f0, f1, f2]; done) | (simp [renV, W.ren_mkW, f0, f1, f2, Option.map_getD_nil, Option.map_toList]; done) | simp [renV, W.ren_eq, W.ren_mkW, f0, f1, f2])
  | exprMatch h d1 d2 ih1 ih2 =>
    subst h
    exact (Derives.exprMatch (by simp only [List.map_cons, List.map_append, List.map_nil, STok.ren, Token.ren] <;> rfl) ih1 ih2).cast (by (try simp only [mkW_ren, stopOf_ren, startOf_ren]); first | rfl | (simp [renV, W.ren_mkW, f0, f1, f2]; done) | (simp [renV, W.ren_mkW, f0, f1, f2, Option.map_getD_nil, Option.map_toList]; done) | simp [renV, W.ren_eq, W.ren_mkW, f0, f1, f2])
  | exprConstr h d1 d2 d3 ih1 ih2 ih3 =>
    subst h
    exact (Derives.exprConstr (by simp only [List.map_cons, List.map_append, List.map_nil, STok.ren, Token.ren] <;> rfl) ih1 ih2 ih3).cast (by (try simp only [mkW_ren, stopOf_ren, startOf_ren]); first | rfl | (simp [renV, W.ren_mkW, f0, f1, f2]; done) | (simp [renV, W.ren_mkW, f0, f1, f2, Option.map_getD_nil, Option.map_toList]; done) | simp [renV, W.ren_eq, W.ren_mkW, f0, f1, f2])
  | exprTFun h d1 d2 ih1 ih2 =>
    subst h
    exact (Derives.exprTFun (by simp only [List.map_cons, List.map_append, List.map_nil, STok.ren, Token.ren] <;> rfl) ih1 ih2).cast (by (try simp only [mkW_ren, stopOf_ren, startOf_ren]); first | rfl | (simp [renV, W.ren_mkW, f0, f1, f2]; done) | (simp [renV, W.ren_mkW, f0, f1, f2, Option.map_getD_nil, Option.map_toList]; done) | simp [renV, W.ren_eq, W.ren_mkW, f0, f1, f2])
  | exprTApp h d1 d2 ih1 ih2 =>
    subst h
    exact (Derives.exprTApp (by simp only [List.map_cons, List.map_append, List.map_nil, STok.ren, Token.ren] <;> rfl) ih1 ih2).cast (by (try simp only [mkW_ren, stopOf_ren, startOf_ren]); first | rfl | (simp [renV, W.ren_mkW, f0, f1, f2]; done) | (simp [renV, W.ren_mkW, f0, f1, f2, Option.map_getD_nil, Option.map_toList]; done) | simp [renV, W.ren_eq, W.ren_mkW, f0, f1, f2])
  | pmExprClause h d1 d2 ih1 ih2 =>
    subst h
    exact (Derives.pmExprClause (by simp only [List.map_cons, List.map_append, List.map_nil, STok.ren, Token.ren] <;> rfl) ih1 ih2).cast (by (try simp only [mkW_ren, stopOf_ren, startOf_ren]); first | rfl | (simp [renV, W.ren_mkW, f0, f1, f2]; done) | (simp [renV, W.ren_mkW, f0, f1, f2, Option.map_getD_nil, Option.map_toList]; done) | simp [renV, W.ren_eq, W.ren_mkW, f0, f1, f2])
  | patWildcard h =>
    subst h
    exact (Derives.patWildcard (by simp only [List.map_cons, List.map_append, List.map_nil, STok.ren, Token.ren] <;> rfl) ).cast (by (try simp only [mkW_ren, stopOf_ren, startOf_ren]); first | rfl | (simp [renV, W.ren_mkW, f0, f1, f2]; done) | (simp [renV, W.ren_mkW, f0, f1, f2, Option.map_getD_nil, Option.map_toList]; done) | simp [renV, W.ren_eq, W.ren_mkW, f0, f1, f2])
  | patBinder d1 ih1 =>
    exact (Derives.patBinder ih1).cast (by (try simp only [mkW_ren, stopOf_ren, startOf_ren]); first | rfl | (simp [renV, W.ren_mkW, f0, f1, f2]; done) | (simp [renV, W.ren_mkW, f0, f1, f2, Option.map_getD_nil, Option.map_toList]; done) | simp [renV, W.ren_eq, W.ren_mkW, f0, f1, f2])
  | patConstr h d1 d2 ih1 ih2 =>
    subst h
    exact (Derives.patConstr (by simp only [List.map_cons, List.map_append, List.map_nil, STok.ren, Token.ren] <;> rfl) ih1 ih2).cast (by (try simp only [mkW_ren, stopOf_ren, startOf_ren]); first | rfl | (simp [renV, W.ren_mkW, f0, f1, f2]; done) | (simp [renV, W.ren_mkW, f0, f1, f2, Option.map_getD_nil, Option.map_toList]; done) | simp [renV, W.ren_eq, W.ren_mkW, f0, f1, f2])
  | apWildcard h =>
    subst h
    exact (Derives.apWildcard (by simp only [List.map_cons, List.map_append, List.map_nil, STok.ren, Token.ren] <;> rfl) ).cast (by (try simp only [mkW_ren, stopOf_ren, startOf_ren]); first | rfl | (simp [renV, W.ren_mkW, f0, f1, f2]; done) | (simp [renV, W.ren_mkW, f0, f1, f2, Option.map_getD_nil, Option.map_toList]; done) | simp [renV, W.ren_eq, W.ren_mkW, f0, f1, f2])
  | apBinder d1 ih1 =>
    exact (Derives.apBinder ih1).cast (by (try simp only [mkW_ren, stopOf_ren, startOf_ren]); first | rfl | (simp [renV, W.ren_mkW, f0, f1, f2]; done) | (simp [renV, W.ren_mkW, f0, f1, f2, Option.map_getD_nil, Option.map_toList]; done) | simp [renV, W.ren_eq, W.ren_mkW, f0, f1, f2])
  | apConstr d1 ih1 =>
    exact (Derives.apConstr ih1).cast (by (try simp only [mkW_ren, stopOf_ren, startOf_ren]); first | rfl | (simp [renV, W.ren_mkW, f0, f1, f2]; done) | (simp [renV, W.ren_mkW, f0, f1, f2, Option.map_getD_nil, Option.map_toList]; done) | simp [renV, W.ren_eq, W.ren_mkW, f0, f1, f2])
  | apParen h d1 ih1 =>
    subst h
    exact (Derives.apParen (by simp only [List.map_cons, List.map_append, List.map_nil, STok.ren, Token.ren] <;> rfl) ih1).cast (by (try simp only [mkW_ren, stopOf_ren, startOf_ren]); first | rfl | (simp [renV, W.ren_mkW, f0, f1, f2]; done) | (simp [renV, W.ren_mkW, f0, f1, f2, Option.map_getD_nil, Option.map_toList]; done) | simp [renV, W.ren_eq, W.ren_mkW, f0, f1, f2])
  | nextMessage h d1 ih1 =>
    subst h
    exact (Derives.nextMessage (by simp only [List.map_cons, List.map_append, List.map_nil, STok.ren, Token.ren] <;> rfl) ih1).cast (by (try simp only [mkW_ren, stopOf_ren, startOf_ren]); first | rfl | (simp [renV, W.ren_mkW, f0, f1, f2]; done) | (simp [renV, W.ren_mkW, f0, f1, f2, Option.map_getD_nil, Option.map_toList]; done) | simp [renV, W.ren_eq, W.ren_mkW, f0, f1, f2])
  | msgLiteral h d1 d2 ih1 ih2 =>
    subst h
    exact (Derives.msgLiteral (by simp only [List.map_cons, List.map_append, List.map_nil, STok.ren, Token.ren] <;> rfl) ih1 ih2).cast (by (try simp only [mkW_ren, stopOf_ren, startOf_ren]); first | rfl | (simp [renV, W.ren_mkW, f0, f1, f2]; done) | (simp [renV, W.ren_mkW, f0, f1, f2, Option.map_getD_nil, Option.map_toList]; done) | simp [renV, W.ren_eq, W.ren_mkW, f0, f1, f2])
  | msgVariable h d1 d2 ih1 ih2 =>
    subst h
    exact (Derives.msgVariable (by simp only [List.map_cons, List.map_append, List.map_nil, STok.ren, Token.ren] <;> rfl) ih1 ih2).cast (by (try simp only [mkW_ren, stopOf_ren, startOf_ren]); first | rfl | (simp [renV, W.ren_mkW, f0, f1, f2]; done) | (simp [renV, W.ren_mkW, f0, f1, f2, Option.map_getD_nil, Option.map_toList]; done) | simp [renV, W.ren_eq, W.ren_mkW, f0, f1, f2])
  | atomicVar d1 ih1 =>
    exact (Derives.atomicVar ih1).cast (by (try simp only [mkW_ren, stopOf_ren, startOf_ren]); first | rfl | (simp [renV, W.ren_mkW, f0, f1, f2]; done) | (simp [renV, W.ren_mkW, f0, f1, f2, Option.map_getD_nil, Option.map_toList]; done) | simp [renV, W.ren_eq, W.ren_mkW, f0, f1, f2])
  | atomicLit d1 ih1 =>
    exact (Derives.atomicLit ih1).cast (by (try simp only [mkW_ren, stopOf_ren, startOf_ren]); first | rfl | (simp [renV, W.ren_mkW, f0, f1, f2]; done) | (simp [renV, W.ren_mkW, f0, f1, f2, Option.map_getD_nil, Option.map_toList]; done) | simp [renV, W.ren_eq, W.ren_mkW, f0, f1, f2])
  | litInt h d1 d2 ih1 ih2 =>
    subst h
    exact (Derives.litInt (by simp only [List.map_cons, List.map_append, List.map_nil, STok.ren, Token.ren] <;> rfl) ih1 ih2).cast (by (try simp only [mkW_ren, stopOf_ren, startOf_ren]); first | rfl | (simp [renV, W.ren_mkW, f0, f1, f2]; done) | (simp [renV, W.ren_mkW, f0, f1, f2, Option.map_getD_nil, Option.map_toList]; done) | simp [renV, W.ren_eq, W.ren_mkW, f0, f1, f2])
  | litHex d1 ih1 =>
    exact (Derives.litHex ih1).cast (by (try simp only [mkW_ren, stopOf_ren, startOf_ren]); first | rfl | (simp [renV, W.ren_mkW, f0, f1, f2]; done) | (simp [renV, W.ren_mkW, f0, f1, f2, Option.map_getD_nil, Option.map_toList]; done) | simp [renV, W.ren_eq, W.ren_mkW, f0, f1, f2])
  | litString d1 ih1 =>
    exact (Derives.litString ih1).cast (by (try simp only [mkW_ren, stopOf_ren, startOf_ren]); first | rfl | (simp [renV, W.ren_mkW, f0, f1, f2]; done) | (simp [renV, W.ren_mkW, f0, f1, f2, Option.map_getD_nil, Option.map_toList]; done) | simp [renV, W.ren_eq, W.ren_mkW, f0, f1, f2])
  | litEmp h d1 d2 ih1 ih2 =>
    subst h
    exact (Derives.litEmp (by simp only [List.map_cons, List.map_append, List.map_nil, STok.ren, Token.ren] <;> rfl) ih1 ih2).cast (by (try simp only [mkW_ren, stopOf_ren, startOf_ren]); first | rfl | (simp [renV, W.ren_mkW, f0, f1, f2]; done) | (simp [renV, W.ren_mkW, f0, f1, f2, Option.map_getD_nil, Option.map_toList]; done) | simp [renV, W.ren_eq, W.ren_mkW, f0, f1, f2])
  | stLoad h d1 d2 ih1 ih2 =>
    subst h
    exact (Derives.stLoad (by simp only [List.map_cons, List.map_append, List.map_nil, STok.ren, Token.ren] <;> rfl) ih1 ih2).cast (by (try simp only [mkW_ren, stopOf_ren, startOf_ren]); first | rfl | (simp [renV, W.ren_mkW, f0, f1, f2]; done) | (simp [renV, W.ren_mkW, f0, f1, f2, Option.map_getD_nil, Option.map_toList]; done) | simp [renV, W.ren_eq, W.ren_mkW, f0, f1, f2])
  | stRemote d1 ih1 =>
    exact (Derives.stRemote ih1).cast (by (try simp only [mkW_ren, stopOf_ren, startOf_ren]); first | rfl | (simp [renV, W.ren_mkW, f0, f1, f2]; done) | (simp [renV, W.ren_mkW, f0, f1, f2, Option.map_getD_nil, Option.map_toList]; done) | simp [renV, W.ren_eq, W.ren_mkW, f0, f1, f2])
  | stStore h d1 d2 ih1 ih2 =>
    subst h
    exact (Derives.stStore (by simp only [List.map_cons, List.map_append, List.map_nil, STok.ren, Token.ren] <;> rfl) ih1 ih2).cast (by (try simp only [mkW_ren, stopOf_ren, startOf_ren]); first | rfl | (simp [renV, W.ren_mkW, f0, f1, f2]; done) | (simp [renV, W.ren_mkW, f0, f1, f2, Option.map_getD_nil, Option.map_toList]; done) | simp [renV, W.ren_eq, W.ren_mkW, f0, f1, f2])
  | stBind h d1 d2 ih1 ih2 =>
    subst h
    exact (Derives.stBind (by simp only [List.map_cons, List.map_append, List.map_nil, STok.ren, Token.ren] <;> rfl) ih1 ih2).cast (by (try simp only [mkW_ren, stopOf_ren, startOf_ren]); first | rfl | (simp [renV, W.ren_mkW, f0, f1, f2]; done) | (simp [renV, W.ren_mkW, f0, f1, f2, Option.map_getD_nil, Option.map_toList]; done) | simp [renV, W.ren_eq, W.ren_mkW, f0, f1, f2])
  | stReadBC h d1 d2 d3 ih1 ih2 ih3 =>
    subst h
    exact (Derives.stReadBC (by simp only [List.map_cons, List.map_append, List.map_nil, STok.ren, Token.ren] <;> rfl) ih1 ih2 ih3).cast (by (try simp only [mkW_ren, stopOf_ren, startOf_ren]); first | rfl | (simp [renV, W.ren_mkW, f0, f1, f2]; done) | (simp [renV, W.ren_mkW, f0, f1, f2, Option.map_getD_nil, Option.map_toList]; done) | simp [renV, W.ren_eq, W.ren_mkW, f0, f1, f2])
  | stMapGet h d1 d2 d3 ih1 ih2 ih3 =>
    subst h
    exact (Derives.stMapGet (by simp only [List.map_cons, List.map_append, List.map_nil, STok.ren, Token.ren] <;> rfl) ih1 ih2 ih3).cast (by (try simp only [mkW_ren, stopOf_ren, startOf_ren]); first | rfl | (simp [renV, W.ren_mkW, f0, f1, f2]; done) | (simp [renV, W.ren_mkW, f0, f1, f2, Option.map_getD_nil, Option.map_toList]; done) | simp [renV, W.ren_eq, W.ren_mkW, f0, f1, f2])
  | stMapGetExists h d1 d2 d3 ih1 ih2 ih3 =>
    subst h
    exact (Derives.stMapGetExists (by simp only [List.map_cons, List.map_append, List.map_nil, STok.ren, Token.ren] <;> rfl) ih1 ih2 ih3).cast (by (try simp only [mkW_ren, stopOf_ren, startOf_ren]); first | rfl | (simp [renV, W.ren_mkW, f0, f1, f2]; done) | (simp [renV, W.ren_mkW, f0, f1, f2, Option.map_getD_nil, Option.map_toList]; done) | simp [renV, W.ren_eq, W.ren_mkW, f0, f1, f2])
  | stMapUpdate h d1 d2 d3 ih1 ih2 ih3 =>
    subst h
    exact (Derives.stMapUpdate (by simp only [List.map_cons, List.map_append, List.map_nil, STok.ren, Token.ren] <;> rfl) ih1 ih2 ih3).cast (by (try simp only [mkW_ren, stopOf_ren, startOf_ren]); first | rfl | (simp [renV, W.ren_mkW, f0, f1, f2]; done) | (simp [renV, W.ren_mkW, f0, f1, f2, Option.map_getD_nil, Option.map_toList]; done) | simp [renV, W.ren_eq, W.ren_mkW, f0, f1, f2])
  | stMapDelete h d1 d2 ih1 ih2 =>
    subst h
    exact (Derives.stMapDelete (by simp only [List.map_cons, List.map_append, List.map_nil, STok.ren, Token.ren] <;> rfl) ih1 ih2).cast (by (try simp only [mkW_ren, stopOf_ren, startOf_ren]); first | rfl | (simp [renV, W.ren_mkW, f0, f1, f2]; done) | (simp [renV, W.ren_mkW, f0, f1, f2, Option.map_getD_nil, Option.map_toList]; done) | simp [renV, W.ren_eq, W.ren_mkW, f0, f1, f2])
  | stAccept h =>
    subst h
    exact (Derives.stAccept (by simp only [List.map_cons, List.map_append, List.map_nil, STok.ren, Token.ren] <;> rfl) ).cast (by (try simp only [mkW_ren, stopOf_ren, startOf_ren]); first | rfl | (simp [renV, W.ren_mkW, f0, f1, f2]; done) | (simp [renV, W.ren_mkW, f0, f1, f2, Option.map_getD_nil, Option.map_toList]; done) | simp [renV, W.ren_eq, W.ren_mkW, f0, f1, f2])
  | stSend h d1 ih1 =>
    subst h
    exact (Derives.stSend (by simp only [List.map_cons, List.map_append, List.map_nil, STok.ren, Token.ren] <;> rfl) ih1).cast (by (try simp only [mkW_ren, stopOf_ren, startOf_ren]); first | rfl | (simp [renV, W.ren_mkW, f0, f1, f2]; done) | (simp [renV, W.ren_mkW, f0, f1, f2, Option.map_getD_nil, Option.map_toList]; done) | simp [renV, W.ren_eq, W.ren_mkW, f0, f1, f2])
  | stEvent h d1 ih1 =>
    subst h
    exact (Derives.stEvent (by simp only [List.map_cons, List.map_append, List.map_nil, STok.ren, Token.ren] <;> rfl) ih1).cast (by (try simp only [mkW_ren, stopOf_ren, startOf_ren]); first | rfl | (simp [renV, W.ren_mkW, f0, f1, f2]; done) | (simp [renV, W.ren_mkW, f0, f1, f2, Option.map_getD_nil, Option.map_toList]; done) | simp [renV, W.ren_eq, W.ren_mkW, f0, f1, f2])
  | stThrow h d1 ih1 =>
    subst h
    exact (Derives.stThrow (by simp only [List.map_cons, List.map_append, List.map_nil, STok.ren, Token.ren] <;> rfl) ih1).cast (by (try simp only [mkW_ren, stopOf_ren, startOf_ren]); first | rfl | (simp [renV, W.ren_mkW, f0, f1, f2]; done) | (simp [renV, W.ren_mkW, f0, f1, f2, Option.map_getD_nil, Option.map_toList]; done) | simp [renV, W.ren_eq, W.ren_mkW, f0, f1, f2])
  | stMatch h d1 d2 ih1 ih2 =>
    subst h
    exact (Derives.stMatch (by simp only [List.map_cons, List.map_append, List.map_nil, STok.ren, Token.ren] <;> rfl) ih1 ih2).cast (by (try simp only [mkW_ren, stopOf_ren, startOf_ren]); first | rfl | (simp [renV, W.ren_mkW, f0, f1, f2]; done) | (simp [renV, W.ren_mkW, f0, f1, f2, Option.map_getD_nil, Option.map_toList]; done) | simp [renV, W.ren_eq, W.ren_mkW, f0, f1, f2])
  | stCall h d1 d2 ih1 ih2 =>
    subst h
    exact (Derives.stCall (by simp only [List.map_cons, List.map_append, List.map_nil, STok.ren, Token.ren] <;> rfl) ih1 ih2).cast (by (try simp only [mkW_ren, stopOf_ren, startOf_ren]); first | rfl | (simp [renV, W.ren_mkW, f0, f1, f2]; done) | (simp [renV, W.ren_mkW, f0, f1, f2, Option.map_getD_nil, Option.map_toList]; done) | simp [renV, W.ren_eq, W.ren_mkW, f0, f1, f2])
  | stForall h d1 d2 ih1 ih2 =>
    subst h
    exact (Derives.stForall (by simp only [List.map_cons, List.map_append, List.map_nil, STok.ren, Token.ren] <;> rfl) ih1 ih2).cast (by (try simp only [mkW_ren, stopOf_ren, startOf_ren]); first | rfl | (simp [renV, W.ren_mkW, f0, f1, f2]; done) | (simp [renV, W.ren_mkW, f0, f1, f2, Option.map_getD_nil, Option.map_toList]; done) | simp [renV, W.ren_eq, W.ren_mkW, f0, f1, f2])
  | nextStatement h d1 ih1 =>
    subst h
    exact (Derives.nextStatement (by simp only [List.map_cons, List.map_append, List.map_nil, STok.ren, Token.ren] <;> rfl) ih1).cast (by (try simp only [mkW_ren, stopOf_ren, startOf_ren]); first | rfl | (simp [renV, W.ren_mkW, f0, f1, f2]; done) | (simp [renV, W.ren_mkW, f0, f1, f2, Option.map_getD_nil, Option.map_toList]; done) | simp [renV, W.ren_eq, W.ren_mkW, f0, f1, f2])
  | stmtBlock h d1 d2 ih1 ih2 =>
    subst h
    exact (Derives.stmtBlock (by simp only [List.map_cons, List.map_append, List.map_nil, STok.ren, Token.ren] <;> rfl) ih1 ih2).cast (by (try simp only [mkW_ren, stopOf_ren, startOf_ren]); first | rfl | (simp [renV, W.ren_mkW, f0, f1, f2]; done) | (simp [renV, W.ren_mkW, f0, f1, f2, Option.map_getD_nil, Option.map_toList]; done) | simp [renV, W.ren_eq, W.ren_mkW, f0, f1, f2])
  | bcFetchArgs h d1 ih1 =>
    subst h
    exact (Derives.bcFetchArgs (by simp only [List.map_cons, List.map_append, List.map_nil, STok.ren, Token.ren] <;> rfl) ih1).cast (by (try simp only [mkW_ren, stopOf_ren, startOf_ren]); first | rfl | (simp [renV, W.ren_mkW, f0, f1, f2]; done) | (simp [renV, W.ren_mkW, f0, f1, f2, Option.map_getD_nil, Option.map_toList]; done) | simp [renV, W.ren_eq, W.ren_mkW, f0, f1, f2])
  | componentType d1 ih1 =>
    exact (Derives.componentType ih1).cast (by (try simp only [mkW_ren, stopOf_ren, startOf_ren]); first | rfl | (simp [renV, W.ren_mkW, f0, f1, f2]; done) | (simp [renV, W.ren_mkW, f0, f1, f2, Option.map_getD_nil, Option.map_toList]; done) | simp [renV, W.ren_eq, W.ren_mkW, f0, f1, f2])
  | componentRegular d1 ih1 =>
    exact (Derives.componentRegular ih1).cast (by (try simp only [mkW_ren, stopOf_ren, startOf_ren]); first | rfl | (simp [renV, W.ren_mkW, f0, f1, f2]; done) | (simp [renV, W.ren_mkW, f0, f1, f2, Option.map_getD_nil, Option.map_toList]; done) | simp [renV, W.ren_eq, W.ren_mkW, f0, f1, f2])
  | pmClause h d1 d2 ih1 ih2 =>
    subst h
    exact (Derives.pmClause (by simp only [List.map_cons, List.map_append, List.map_nil, STok.ren, Token.ren] <;> rfl) ih1 ih2).cast (by (try simp only [mkW_ren, stopOf_ren, startOf_ren]); first | rfl | (simp [renV, W.ren_mkW, f0, f1, f2]; done) | (simp [renV, W.ren_mkW, f0, f1, f2, Option.map_getD_nil, Option.map_toList]; done) | simp [renV, W.ren_eq, W.ren_mkW, f0, f1, f2])
  | rfState h d1 d2 d3 ih1 ih2 ih3 =>
    subst h
    exact (Derives.rfState (by simp only [List.map_cons, List.map_append, List.map_nil, STok.ren, Token.ren] <;> rfl) ih1 ih2 ih3).cast (by (try simp only [mkW_ren, stopOf_ren, startOf_ren]); first | rfl | (simp [renV, W.ren_mkW, f0, f1, f2]; done) | (simp [renV, W.ren_mkW, f0, f1, f2, Option.map_getD_nil, Option.map_toList]; done) | simp [renV, W.ren_eq, W.ren_mkW, f0, f1, f2])
  | rfSpecial h d1 d2 d3 ih1 ih2 ih3 =>
    subst h
    exact (Derives.rfSpecial (by simp only [List.map_cons, List.map_append, List.map_nil, STok.ren, Token.ren] <;> rfl) ih1 ih2 ih3).cast (by (try simp only [mkW_ren, stopOf_ren, startOf_ren]); first | rfl | (simp [renV, W.ren_mkW, f0, f1, f2]; done) | (simp [renV, W.ren_mkW, f0, f1, f2, Option.map_getD_nil, Option.map_toList]; done) | simp [renV, W.ren_eq, W.ren_mkW, f0, f1, f2])
  | rfMap h d1 d2 d3 d4 ih1 ih2 ih3 ih4 =>
    subst h
    exact (Derives.rfMap (by simp only [List.map_cons, List.map_append, List.map_nil, STok.ren, Token.ren] <;> rfl) ih1 ih2 ih3 ih4).cast (by (try simp only [mkW_ren, stopOf_ren, startOf_ren]); first | rfl | (simp [renV, W.ren_mkW, f0, f1, f2]; done) | (simp [renV, W.ren_mkW, f0, f1, f2, Option.map_getD_nil, Option.map_toList]; done) | simp [renV, W.ren_eq, W.ren_mkW, f0, f1, f2])
  | rfExists h d1 d2 d3 d4 ih1 ih2 ih3 ih4 =>
    subst h
    exact (Derives.rfExists (by simp only [List.map_cons, List.map_append, List.map_nil, STok.ren, Token.ren] <;> rfl) ih1 ih2 ih3 ih4).cast (by (try simp only [mkW_ren, stopOf_ren, startOf_ren]); first | rfl | (simp [renV, W.ren_mkW, f0, f1, f2]; done) | (simp [renV, W.ren_mkW, f0, f1, f2, Option.map_getD_nil, Option.map_toList]; done) | simp [renV, W.ren_eq, W.ren_mkW, f0, f1, f2])
  | rfCast h d1 d2 d3 ih1 ih2 ih3 =>
    subst h
    exact (Derives.rfCast (by simp only [List.map_cons, List.map_append, List.map_nil, STok.ren, Token.ren] <;> rfl) ih1 ih2 ih3).cast (by (try simp only [mkW_ren, stopOf_ren, startOf_ren]); first | rfl | (simp [renV, W.ren_mkW, f0, f1, f2]; done) | (simp [renV, W.ren_mkW, f0, f1, f2, Option.map_getD_nil, Option.map_toList]; done) | simp [renV, W.ren_eq, W.ren_mkW, f0, f1, f2])
  | mapAccess h d1 ih1 =>
    subst h
    exact (Derives.mapAccess (by simp only [List.map_cons, List.map_append, List.map_nil, STok.ren, Token.ren] <;> rfl) ih1).cast (by (try simp only [mkW_ren, stopOf_ren, startOf_ren]); first | rfl | (simp [renV, W.ren_mkW, f0, f1, f2]; done) | (simp [renV, W.ren_mkW, f0, f1, f2, Option.map_getD_nil, Option.map_toList]; done) | simp [renV, W.ren_eq, W.ren_mkW, f0, f1, f2])
  | paramPair d1 ih1 =>
    exact (Derives.paramPair ih1).cast (by (try simp only [mkW_ren, stopOf_ren, startOf_ren]); first | rfl | (simp [renV, W.ren_mkW, f0, f1, f2]; done) | (simp [renV, W.ren_mkW, f0, f1, f2, Option.map_getD_nil, Option.map_toList]; done) | simp [renV, W.ren_eq, W.ren_mkW, f0, f1, f2])
  | nextParamPair h d1 ih1 =>
    subst h
    exact (Derives.nextParamPair (by simp only [List.map_cons, List.map_append, List.map_nil, STok.ren, Token.ren] <;> rfl) ih1).cast (by (try simp only [mkW_ren, stopOf_ren, startOf_ren]); first | rfl | (simp [renV, W.ren_mkW, f0, f1, f2]; done) | (simp [renV, W.ren_mkW, f0, f1, f2, Option.map_getD_nil, Option.map_toList]; done) | simp [renV, W.ren_eq, W.ren_mkW, f0, f1, f2])
  | compParams h d1 d2 ih1 ih2 =>
    subst h
    exact (Derives.compParams (by simp only [List.map_cons, List.map_append, List.map_nil, STok.ren, Token.ren] <;> rfl) ih1 ih2).cast (by (try simp only [mkW_ren, stopOf_ren, startOf_ren]); first | rfl | (simp [renV, W.ren_mkW, f0, f1, f2]; done) | (simp [renV, W.ren_mkW, f0, f1, f2, Option.map_getD_nil, Option.map_toList]; done) | simp [renV, W.ren_eq, W.ren_mkW, f0, f1, f2])
  | compTransition d1 ih1 =>
    exact (Derives.compTransition ih1).cast (by (try simp only [mkW_ren, stopOf_ren, startOf_ren]); first | rfl | (simp [renV, W.ren_mkW, f0, f1, f2]; done) | (simp [renV, W.ren_mkW, f0, f1, f2, Option.map_getD_nil, Option.map_toList]; done) | simp [renV, W.ren_eq, W.ren_mkW, f0, f1, f2])
  | compProcedure d1 ih1 =>
    exact (Derives.compProcedure ih1).cast (by (try simp only [mkW_ren, stopOf_ren, startOf_ren]); first | rfl | (simp [renV, W.ren_mkW, f0, f1, f2]; done) | (simp [renV, W.ren_mkW, f0, f1, f2, Option.map_getD_nil, Option.map_toList]; done) | simp [renV, W.ren_eq, W.ren_mkW, f0, f1, f2])
  | transDef h d1 d2 d3 ih1 ih2 ih3 =>
    subst h
    exact (Derives.transDef (by simp only [List.map_cons, List.map_append, List.map_nil, STok.ren, Token.ren] <;> rfl) ih1 ih2 ih3).cast (by (try simp only [mkW_ren, stopOf_ren, startOf_ren]); first | rfl | (simp [renV, W.ren_mkW, f0, f1, f2]; done) | (simp [renV, W.ren_mkW, f0, f1, f2, Option.map_getD_nil, Option.map_toList]; done) | simp [renV, W.ren_eq, W.ren_mkW, f0, f1, f2])
  | procDef h d1 d2 d3 ih1 ih2 ih3 =>
    subst h
    exact (Derives.procDef (by simp only [List.map_cons, List.map_append, List.map_nil, STok.ren, Token.ren] <;> rfl) ih1 ih2 ih3).cast (by (try simp only [mkW_ren, stopOf_ren, startOf_ren]); first | rfl | (simp [renV, W.ren_mkW, f0, f1, f2]; done) | (simp [renV, W.ren_mkW, f0, f1, f2, Option.map_getD_nil, Option.map_toList]; done) | simp [renV, W.ren_eq, W.ren_mkW, f0, f1, f2])
  | compBody h d1 ih1 =>
    subst h
    exact (Derives.compBody (by simp only [List.map_cons, List.map_append, List.map_nil, STok.ren, Token.ren] <;> rfl) ih1).cast (by (try simp only [mkW_ren, stopOf_ren, startOf_ren]); first | rfl | (simp [renV, W.ren_mkW, f0, f1, f2]; done) | (simp [renV, W.ren_mkW, f0, f1, f2, Option.map_getD_nil, Option.map_toList]; done) | simp [renV, W.ren_eq, W.ren_mkW, f0, f1, f2])
  | contractDef h d1 d2 d3 d4 d5 ih1 ih2 ih3 ih4 ih5 =>
    subst h
    exact (Derives.contractDef (by simp only [List.map_cons, List.map_append, List.map_nil, STok.ren, Token.ren] <;> rfl) ih1 ih2 ih3 ih4 ih5).cast (by (try simp only [mkW_ren, stopOf_ren, startOf_ren]); first | rfl | (simp [renV, W.ren_mkW, f0, f1, f2]; done) | (simp [renV, W.ren_mkW, f0, f1, f2, Option.map_getD_nil, Option.map_toList]; done) | simp [renV, W.ren_eq, W.ren_mkW, f0, f1, f2])
  | contractField h d1 d2 ih1 ih2 =>
    subst h
    exact (Derives.contractField (by simp only [List.map_cons, List.map_append, List.map_nil, STok.ren, Token.ren] <;> rfl) ih1 ih2).cast (by (try simp only [mkW_ren, stopOf_ren, startOf_ren]); first | rfl | (simp [renV, W.ren_mkW, f0, f1, f2]; done) | (simp [renV, W.ren_mkW, f0, f1, f2, Option.map_getD_nil, Option.map_toList]; done) | simp [renV, W.ren_eq, W.ren_mkW, f0, f1, f2])
  | withConstraint h d1 ih1 =>
    subst h
    exact (Derives.withConstraint (by simp only [List.map_cons, List.map_append, List.map_nil, STok.ren, Token.ren] <;> rfl) ih1).cast (by (try simp only [mkW_ren, stopOf_ren, startOf_ren]); first | rfl | (simp [renV, W.ren_mkW, f0, f1, f2]; done) | (simp [renV, W.ren_mkW, f0, f1, f2, Option.map_getD_nil, Option.map_toList]; done) | simp [renV, W.ren_eq, W.ren_mkW, f0, f1, f2])

/-- what kind of token it is, forgetting the text -/
def Token.shape (t : Token) : Token := t.ren fun _ => []

def kinds (w : List STok) : List Token := w.map fun t => t.tok.shape

@[simp] theorem kinds_nil : kinds [] = [] := rfl
@[simp] theorem kinds_cons (t : STok) (w : List STok) : kinds (t :: w) = t.tok.shape :: kinds w := rfl
@[simp] theorem kinds_append (a b : List STok) : kinds (a ++ b) = kinds a ++ kinds b := by simp [kinds]

theorem kinds_cons_inv {w : List STok} {t : Token} {r : List Token} (h : kinds w = t.shape :: r) :
    ∃ s t' e u, w = ⟨s, t', e⟩ :: u ∧ t'.shape = t.shape ∧ kinds u = r := by
  cases w with
  | nil => simp [kinds] at h
  | cons a u =>
    obtain ⟨s, t', e⟩ := a
    simp only [kinds_cons, List.cons.injEq] at h
    exact ⟨s, t', e, u, rfl, h.1, h.2⟩

theorem kinds_append_inv {w : List STok} {a b : List Token} (h : kinds w = a ++ b) :
    ∃ p u, w = p ++ u ∧ kinds p = a ∧ kinds u = b := by
  simp only [kinds, List.map_eq_append_iff] at h
  obtain ⟨p, u, rfl, h1, h2⟩ := h
  exact ⟨p, u, rfl, h1, h2⟩

theorem kinds_nil_inv {w : List STok} (h : kinds w = []) : w = [] := by
  simpa [kinds] using h

/-- tokens without a text of their own -/
def Token.fixed : Token → Bool
  | .identifier _ | .customIdentifier _ | .specialIdentifier _ | .templateIdentifier _
  | .byStrWithSize _ | .number _ | .hexNumber _ | .stringLiteral _ => false
  | _ => true

theorem Token.fixed_shape (t : Token) : t.shape.fixed = t.fixed := by cases t <;> rfl

theorem Token.shape_fixed {t : Token} (h : t.fixed = true) : t.shape = t := by
  cases t <;> first | rfl | cases h

theorem kind_inv {t t' : Token} (ht : t.fixed = true) (h : t'.shape = t.shape) : t' = t := by
  have h' : t'.fixed = true := by rw [← Token.fixed_shape, h, Token.fixed_shape, ht]
  rw [← Token.shape_fixed ht, ← Token.shape_fixed h', h]

theorem kind_identifier {t : Token} {x : Str} (h : t.shape = Token.shape (.identifier x)) : ∃ y, t = .identifier y := by
  cases t <;> first | exact ⟨_, rfl⟩ | (simp [Token.shape, Token.ren] at h)

theorem kind_customIdentifier {t : Token} {x : Str} (h : t.shape = Token.shape (.customIdentifier x)) : ∃ y, t = .customIdentifier y := by
  cases t <;> first | exact ⟨_, rfl⟩ | (simp [Token.shape, Token.ren] at h)

theorem kind_specialIdentifier {t : Token} {x : Str} (h : t.shape = Token.shape (.specialIdentifier x)) : ∃ y, t = .specialIdentifier y := by
  cases t <;> first | exact ⟨_, rfl⟩ | (simp [Token.shape, Token.ren] at h)

theorem kind_templateIdentifier {t : Token} {x : Str} (h : t.shape = Token.shape (.templateIdentifier x)) : ∃ y, t = .templateIdentifier y := by
  cases t <;> first | exact ⟨_, rfl⟩ | (simp [Token.shape, Token.ren] at h)

theorem kind_byStrWithSize {t : Token} {x : Str} (h : t.shape = Token.shape (.byStrWithSize x)) : ∃ y, t = .byStrWithSize y := by
  cases t <;> first | exact ⟨_, rfl⟩ | (simp [Token.shape, Token.ren] at h)

theorem kind_number {t : Token} {x : Str} (h : t.shape = Token.shape (.number x)) : ∃ y, t = .number y := by
  cases t <;> first | exact ⟨_, rfl⟩ | (simp [Token.shape, Token.ren] at h)

theorem kind_hexNumber {t : Token} {x : Str} (h : t.shape = Token.shape (.hexNumber x)) : ∃ y, t = .hexNumber y := by
  cases t <;> first | exact ⟨_, rfl⟩ | (simp [Token.shape, Token.ren] at h)

theorem kind_stringLiteral {t : Token} {x : Str} (h : t.shape = Token.shape (.stringLiteral x)) : ∃ y, t = .stringLiteral y := by
  cases t <;> first | exact ⟨_, rfl⟩ | (simp [Token.shape, Token.ren] at h)

/-- a derivation can be replayed on tokens with other texts and positions -/
theorem Derives.rekind {n : NT} {w0 : List STok} {v : Val n} (d : Derives n w0 v) :
    ∀ w, kinds w = kinds w0 → ∃ v', Derives n w v' := by
  induction d with
  | starNil =>
    intro w hw; simp [kinds] at hw; subst hw; exact ⟨_, .starNil⟩
  | starCons d1 d2 ih1 ih2 =>
    intro w hw
    simp only [kinds_cons, kinds_append, kinds_nil] at hw
    obtain ⟨p0, u0, rfl, q0, k0⟩ := kinds_append_inv hw
    obtain ⟨v1, g1⟩ := ih1 _ q0
    obtain ⟨v2, g2⟩ := ih2 _ k0
    exact ⟨_, .starCons g1 g2⟩
  | plusIntro d1 d2 ih1 ih2 =>
    intro w hw
    simp only [kinds_cons, kinds_append, kinds_nil] at hw
    obtain ⟨p0, u0, rfl, q0, k0⟩ := kinds_append_inv hw
    obtain ⟨v1, g1⟩ := ih1 _ q0
    obtain ⟨v2, g2⟩ := ih2 _ k0
    exact ⟨_, .plusIntro g1 g2⟩
  | optNone =>
    intro w hw; simp [kinds] at hw; subst hw; exact ⟨_, .optNone⟩
  | optSome d1 ih1 =>
    intro w hw; obtain ⟨v1, e1⟩ := ih1 w hw; exact ⟨_, .optSome e1⟩
  | hexNumber h =>
    intro w hw; subst h
    simp only [kinds_cons, kinds_append, kinds_nil] at hw
    obtain ⟨s0, t0, e0, u0, rfl, x0, k0⟩ := kinds_cons_inv hw
    obtain ⟨y0, rfl⟩ := kind_hexNumber x0
    obtain rfl := kinds_nil_inv k0
    exact ⟨_, .hexNumber rfl ⟩
  | signedInt h =>
    intro w hw; subst h
    simp only [kinds_cons, kinds_append, kinds_nil] at hw
    obtain ⟨s0, t0, e0, u0, rfl, x0, k0⟩ := kinds_cons_inv hw
    obtain ⟨y0, rfl⟩ := kind_number x0
    obtain rfl := kinds_nil_inv k0
    exact ⟨_, .signedInt rfl ⟩
  | regularId h =>
    intro w hw; subst h
    simp only [kinds_cons, kinds_append, kinds_nil] at hw
    obtain ⟨s0, t0, e0, u0, rfl, x0, k0⟩ := kinds_cons_inv hw
    obtain ⟨y0, rfl⟩ := kind_identifier x0
    obtain rfl := kinds_nil_inv k0
    exact ⟨_, .regularId rfl ⟩
  | specialId h =>
    intro w hw; subst h
    simp only [kinds_cons, kinds_append, kinds_nil] at hw
    obtain ⟨s0, t0, e0, u0, rfl, x0, k0⟩ := kinds_cons_inv hw
    obtain ⟨y0, rfl⟩ := kind_specialIdentifier x0
    obtain rfl := kinds_nil_inv k0
    exact ⟨_, .specialId rfl ⟩
  | customId h =>
    intro w hw; subst h
    simp only [kinds_cons, kinds_append, kinds_nil] at hw
    obtain ⟨s0, t0, e0, u0, rfl, x0, k0⟩ := kinds_cons_inv hw
    obtain ⟨y0, rfl⟩ := kind_customIdentifier x0
    obtain rfl := kinds_nil_inv k0
    exact ⟨_, .customId rfl ⟩
  | templateId h =>
    intro w hw; subst h
    simp only [kinds_cons, kinds_append, kinds_nil] at hw
    obtain ⟨s0, t0, e0, u0, rfl, x0, k0⟩ := kinds_cons_inv hw
    obtain ⟨y0, rfl⟩ := kind_templateIdentifier x0
    obtain rfl := kinds_nil_inv k0
    exact ⟨_, .templateId rfl ⟩
  | stringLit h =>
    intro w hw; subst h
    simp only [kinds_cons, kinds_append, kinds_nil] at hw
    obtain ⟨s0, t0, e0, u0, rfl, x0, k0⟩ := kinds_cons_inv hw
    obtain ⟨y0, rfl⟩ := kind_stringLiteral x0
    obtain rfl := kinds_nil_inv k0
    exact ⟨_, .stringLit rfl ⟩
  | byteString h =>
    intro w hw; subst h
    simp only [kinds_cons, kinds_append, kinds_nil] at hw
    obtain ⟨s0, t0, e0, u0, rfl, x0, k0⟩ := kinds_cons_inv hw
    obtain ⟨y0, rfl⟩ := kind_byStrWithSize x0
    obtain rfl := kinds_nil_inv k0
    exact ⟨_, .byteString rfl ⟩
  | typeNameBytes d1 ih1 =>
    intro w hw; obtain ⟨v1, e1⟩ := ih1 w hw; exact ⟨_, .typeNameBytes e1⟩
  | typeNameEvent h =>
    intro w hw; subst h
    simp only [kinds_cons, kinds_append, kinds_nil] at hw
    obtain ⟨s0, t0, e0, u0, rfl, x0, k0⟩ := kinds_cons_inv hw
    obtain rfl := kind_inv rfl x0
    obtain rfl := kinds_nil_inv k0
    exact ⟨_, .typeNameEvent rfl ⟩
  | typeNameCustom d1 ih1 =>
    intro w hw; obtain ⟨v1, e1⟩ := ih1 w hw; exact ⟨_, .typeNameCustom e1⟩
  | importedRegular d1 ih1 =>
    intro w hw; obtain ⟨v1, e1⟩ := ih1 w hw; exact ⟨_, .importedRegular e1⟩
  | importedAliased h d1 d2 ih1 ih2 =>
    intro w hw; subst h
    simp only [kinds_cons, kinds_append, kinds_nil] at hw
    obtain ⟨p0, u0, rfl, q0, k0⟩ := kinds_append_inv hw
    obtain ⟨v1, g1⟩ := ih1 _ q0
    obtain ⟨s1, t1, e1, u1, rfl, x1, k1⟩ := kinds_cons_inv k0
    obtain rfl := kind_inv rfl x1
    obtain ⟨v2, g2⟩ := ih2 _ k1
    exact ⟨_, .importedAliased rfl g1 g2⟩
  | importMore h d1 d2 ih1 ih2 =>
    intro w hw; subst h
    simp only [kinds_cons, kinds_append, kinds_nil] at hw
    obtain ⟨p0, u0, rfl, q0, k0⟩ := kinds_append_inv hw
    obtain ⟨v1, g1⟩ := ih1 _ q0
    obtain ⟨s1, t1, e1, u1, rfl, x1, k1⟩ := kinds_cons_inv k0
    obtain rfl := kind_inv rfl x1
    obtain ⟨v2, g2⟩ := ih2 _ k1
    exact ⟨_, .importMore rfl g1 g2⟩
  | importFirst h d1 ih1 =>
    intro w hw; subst h
    simp only [kinds_cons, kinds_append, kinds_nil] at hw
    obtain ⟨s0, t0, e0, u0, rfl, x0, k0⟩ := kinds_cons_inv hw
    obtain rfl := kind_inv rfl x0
    obtain ⟨v1, g1⟩ := ih1 _ k0
    exact ⟨_, .importFirst rfl g1⟩
  | metaName d1 ih1 =>
    intro w hw; obtain ⟨v1, e1⟩ := ih1 w hw; exact ⟨_, .metaName e1⟩
  | metaNamespace h d1 d2 ih1 ih2 =>
    intro w hw; subst h
    simp only [kinds_cons, kinds_append, kinds_nil] at hw
    obtain ⟨p0, u0, rfl, q0, k0⟩ := kinds_append_inv hw
    obtain ⟨v1, g1⟩ := ih1 _ q0
    obtain ⟨s1, t1, e1, u1, rfl, x1, k1⟩ := kinds_cons_inv k0
    obtain rfl := kind_inv rfl x1
    obtain ⟨v2, g2⟩ := ih2 _ k1
    exact ⟨_, .metaNamespace rfl g1 g2⟩
  | metaHexspace h d1 d2 ih1 ih2 =>
    intro w hw; subst h
    simp only [kinds_cons, kinds_append, kinds_nil] at hw
    obtain ⟨p0, u0, rfl, q0, k0⟩ := kinds_append_inv hw
    obtain ⟨v1, g1⟩ := ih1 _ q0
    obtain ⟨s1, t1, e1, u1, rfl, x1, k1⟩ := kinds_cons_inv k0
    obtain rfl := kind_inv rfl x1
    obtain ⟨v2, g2⟩ := ih2 _ k1
    exact ⟨_, .metaHexspace rfl g1 g2⟩
  | metaByStr h =>
    intro w hw; subst h
    simp only [kinds_cons, kinds_append, kinds_nil] at hw
    obtain ⟨s0, t0, e0, u0, rfl, x0, k0⟩ := kinds_cons_inv hw
    obtain rfl := kind_inv rfl x0
    obtain rfl := kinds_nil_inv k0
    exact ⟨_, .metaByStr rfl ⟩
  | varName d1 ih1 =>
    intro w hw; obtain ⟨v1, e1⟩ := ih1 w hw; exact ⟨_, .varName e1⟩
  | varSpecial d1 ih1 =>
    intro w hw; obtain ⟨v1, e1⟩ := ih1 w hw; exact ⟨_, .varSpecial e1⟩
  | varNamespace h d1 d2 ih1 ih2 =>
    intro w hw; subst h
    simp only [kinds_cons, kinds_append, kinds_nil] at hw
    obtain ⟨p0, u0, rfl, q0, k0⟩ := kinds_append_inv hw
    obtain ⟨v1, g1⟩ := ih1 _ q0
    obtain ⟨s1, t1, e1, u1, rfl, x1, k1⟩ := kinds_cons_inv k0
    obtain rfl := kind_inv rfl x1
    obtain ⟨v2, g2⟩ := ih2 _ k1
    exact ⟨_, .varNamespace rfl g1 g2⟩
  | builtinMore h d1 d2 ih1 ih2 =>
    intro w hw; subst h
    simp only [kinds_cons, kinds_append, kinds_nil] at hw
    obtain ⟨p0, u0, rfl, q0, k0⟩ := kinds_append_inv hw
    obtain ⟨v1, g1⟩ := ih1 _ q0
    obtain ⟨v2, g2⟩ := ih2 _ k0
    exact ⟨_, .builtinMore rfl g1 g2⟩
  | builtinOne d1 ih1 =>
    intro w hw; obtain ⟨v1, e1⟩ := ih1 w hw; exact ⟨_, .builtinOne e1⟩
  | builtinUnit h =>
    intro w hw; subst h
    simp only [kinds_cons, kinds_append, kinds_nil] at hw
    obtain ⟨s0, t0, e0, u0, rfl, x0, k0⟩ := kinds_cons_inv hw
    obtain rfl := kind_inv rfl x0
    obtain ⟨s1, t1, e1, u1, rfl, x1, k1⟩ := kinds_cons_inv k0
    obtain rfl := kind_inv rfl x1
    obtain rfl := kinds_nil_inv k1
    exact ⟨_, .builtinUnit rfl ⟩
  | remGeneric h d1 d2 ih1 ih2 =>
    intro w hw; subst h
    simp only [kinds_cons, kinds_append, kinds_nil] at hw
    obtain ⟨p0, u0, rfl, q0, k0⟩ := kinds_append_inv hw
    obtain ⟨v1, g1⟩ := ih1 _ q0
    obtain ⟨v2, g2⟩ := ih2 _ k0
    exact ⟨_, .remGeneric rfl g1 g2⟩
  | remMap h d1 d2 ih1 ih2 =>
    intro w hw; subst h
    simp only [kinds_cons, kinds_append, kinds_nil] at hw
    obtain ⟨s0, t0, e0, u0, rfl, x0, k0⟩ := kinds_cons_inv hw
    obtain rfl := kind_inv rfl x0
    obtain ⟨p1, u1, rfl, q1, k1⟩ := kinds_append_inv k0
    obtain ⟨v1, g1⟩ := ih1 _ q1
    obtain ⟨v2, g2⟩ := ih2 _ k1
    exact ⟨_, .remMap rfl g1 g2⟩
  | remParen h d1 ih1 =>
    intro w hw; subst h
    simp only [kinds_cons, kinds_append, kinds_nil] at hw
    obtain ⟨s0, t0, e0, u0, rfl, x0, k0⟩ := kinds_cons_inv hw
    obtain rfl := kind_inv rfl x0
    obtain ⟨p1, u1, rfl, q1, k1⟩ := kinds_append_inv k0
    obtain ⟨v1, g1⟩ := ih1 _ q1
    obtain ⟨s2, t2, e2, u2, rfl, x2, k2⟩ := kinds_cons_inv k1
    obtain rfl := kind_inv rfl x2
    obtain rfl := kinds_nil_inv k2
    exact ⟨_, .remParen rfl g1⟩
  | remAddress d1 ih1 =>
    intro w hw; obtain ⟨v1, e1⟩ := ih1 w hw; exact ⟨_, .remAddress e1⟩
  | remForall h d1 d2 ih1 ih2 =>
    intro w hw; subst h
    simp only [kinds_cons, kinds_append, kinds_nil] at hw
    obtain ⟨s0, t0, e0, u0, rfl, x0, k0⟩ := kinds_cons_inv hw
    obtain rfl := kind_inv rfl x0
    obtain ⟨p1, u1, rfl, q1, k1⟩ := kinds_append_inv k0
    obtain ⟨v1, g1⟩ := ih1 _ q1
    obtain ⟨s2, t2, e2, u2, rfl, x2, k2⟩ := kinds_cons_inv k1
    obtain rfl := kind_inv rfl x2
    obtain ⟨v2, g2⟩ := ih2 _ k2
    exact ⟨_, .remForall rfl g1 g2⟩
  | remTypeVar d1 ih1 =>
    intro w hw; obtain ⟨v1, e1⟩ := ih1 w hw; exact ⟨_, .remTypeVar e1⟩
  | funSigMore h d1 d2 ih1 ih2 =>
    intro w hw; subst h
    simp only [kinds_cons, kinds_append, kinds_nil] at hw
    obtain ⟨p0, u0, rfl, q0, k0⟩ := kinds_append_inv hw
    obtain ⟨v1, g1⟩ := ih1 _ q0
    obtain ⟨s1, t1, e1, u1, rfl, x1, k1⟩ := kinds_cons_inv k0
    obtain rfl := kind_inv rfl x1
    obtain ⟨v2, g2⟩ := ih2 _ k1
    exact ⟨_, .funSigMore rfl g1 g2⟩
  | funSigLast h d1 d2 ih1 ih2 =>
    intro w hw; subst h
    simp only [kinds_cons, kinds_append, kinds_nil] at hw
    obtain ⟨p0, u0, rfl, q0, k0⟩ := kinds_append_inv hw
    obtain ⟨v1, g1⟩ := ih1 _ q0
    obtain ⟨s1, t1, e1, u1, rfl, x1, k1⟩ := kinds_cons_inv k0
    obtain rfl := kind_inv rfl x1
    obtain ⟨v2, g2⟩ := ih2 _ k1
    exact ⟨_, .funSigLast rfl g1 g2⟩
  | typeFun d1 ih1 =>
    intro w hw; obtain ⟨v1, e1⟩ := ih1 w hw; exact ⟨_, .typeFun e1⟩
  | typeRem d1 ih1 =>
    intro w hw; obtain ⟨v1, e1⟩ := ih1 w hw; exact ⟨_, .typeRem e1⟩
  | argParen h d1 ih1 =>
    intro w hw; subst h
    simp only [kinds_cons, kinds_append, kinds_nil] at hw
    obtain ⟨s0, t0, e0, u0, rfl, x0, k0⟩ := kinds_cons_inv hw
    obtain rfl := kind_inv rfl x0
    obtain ⟨p1, u1, rfl, q1, k1⟩ := kinds_append_inv k0
    obtain ⟨v1, g1⟩ := ih1 _ q1
    obtain ⟨s2, t2, e2, u2, rfl, x2, k2⟩ := kinds_cons_inv k1
    obtain rfl := kind_inv rfl x2
    obtain rfl := kinds_nil_inv k2
    exact ⟨_, .argParen rfl g1⟩
  | argMeta d1 ih1 =>
    intro w hw; obtain ⟨v1, e1⟩ := ih1 w hw; exact ⟨_, .argMeta e1⟩
  | argTemplate d1 ih1 =>
    intro w hw; obtain ⟨v1, e1⟩ := ih1 w hw; exact ⟨_, .argTemplate e1⟩
  | argAddress d1 ih1 =>
    intro w hw; obtain ⟨v1, e1⟩ := ih1 w hw; exact ⟨_, .argAddress e1⟩
  | argMap h d1 d2 ih1 ih2 =>
    intro w hw; subst h
    simp only [kinds_cons, kinds_append, kinds_nil] at hw
    obtain ⟨s0, t0, e0, u0, rfl, x0, k0⟩ := kinds_cons_inv hw
    obtain rfl := kind_inv rfl x0
    obtain ⟨p1, u1, rfl, q1, k1⟩ := kinds_append_inv k0
    obtain ⟨v1, g1⟩ := ih1 _ q1
    obtain ⟨v2, g2⟩ := ih2 _ k1
    exact ⟨_, .argMap rfl g1 g2⟩
  | addrEmpty h d1 ih1 =>
    intro w hw; subst h
    simp only [kinds_cons, kinds_append, kinds_nil] at hw
    obtain ⟨p0, u0, rfl, q0, k0⟩ := kinds_append_inv hw
    obtain ⟨v1, g1⟩ := ih1 _ q0
    obtain ⟨s1, t1, e1, u1, rfl, x1, k1⟩ := kinds_cons_inv k0
    obtain rfl := kind_inv rfl x1
    obtain ⟨s2, t2, e2, u2, rfl, x2, k2⟩ := kinds_cons_inv k1
    obtain rfl := kind_inv rfl x2
    obtain rfl := kinds_nil_inv k2
    exact ⟨_, .addrEmpty rfl g1⟩
  | addrContract h d1 d2 ih1 ih2 =>
    intro w hw; subst h
    simp only [kinds_cons, kinds_append, kinds_nil] at hw
    obtain ⟨p0, u0, rfl, q0, k0⟩ := kinds_append_inv hw
    obtain ⟨v1, g1⟩ := ih1 _ q0
    obtain ⟨s1, t1, e1, u1, rfl, x1, k1⟩ := kinds_cons_inv k0
    obtain rfl := kind_inv rfl x1
    obtain ⟨s2, t2, e2, u2, rfl, x2, k2⟩ := kinds_cons_inv k1
    obtain rfl := kind_inv rfl x2
    obtain ⟨p3, u3, rfl, q3, k3⟩ := kinds_append_inv k2
    obtain ⟨v2, g2⟩ := ih2 _ q3
    obtain ⟨s4, t4, e4, u4, rfl, x4, k4⟩ := kinds_cons_inv k3
    obtain rfl := kind_inv rfl x4
    obtain rfl := kinds_nil_inv k4
    exact ⟨_, .addrContract rfl g1 g2⟩
  | addrLibrary h d1 ih1 =>
    intro w hw; subst h
    simp only [kinds_cons, kinds_append, kinds_nil] at hw
    obtain ⟨p0, u0, rfl, q0, k0⟩ := kinds_append_inv hw
    obtain ⟨v1, g1⟩ := ih1 _ q0
    obtain ⟨s1, t1, e1, u1, rfl, x1, k1⟩ := kinds_cons_inv k0
    obtain rfl := kind_inv rfl x1
    obtain ⟨s2, t2, e2, u2, rfl, x2, k2⟩ := kinds_cons_inv k1
    obtain rfl := kind_inv rfl x2
    obtain ⟨s3, t3, e3, u3, rfl, x3, k3⟩ := kinds_cons_inv k2
    obtain rfl := kind_inv rfl x3
    obtain rfl := kinds_nil_inv k3
    exact ⟨_, .addrLibrary rfl g1⟩
  | addrSpecial h d1 d2 ih1 ih2 =>
    intro w hw; subst h
    simp only [kinds_cons, kinds_append, kinds_nil] at hw
    obtain ⟨p0, u0, rfl, q0, k0⟩ := kinds_append_inv hw
    obtain ⟨v1, g1⟩ := ih1 _ q0
    obtain ⟨s1, t1, e1, u1, rfl, x1, k1⟩ := kinds_cons_inv k0
    obtain rfl := kind_inv rfl x1
    obtain ⟨p2, u2, rfl, q2, k2⟩ := kinds_append_inv k1
    obtain ⟨v2, g2⟩ := ih2 _ q2
    obtain ⟨s3, t3, e3, u3, rfl, x3, k3⟩ := kinds_cons_inv k2
    obtain rfl := kind_inv rfl x3
    obtain rfl := kinds_nil_inv k3
    exact ⟨_, .addrSpecial rfl g1 g2⟩
  | addrFieldList h d1 d2 ih1 ih2 =>
    intro w hw; subst h
    simp only [kinds_cons, kinds_append, kinds_nil] at hw
    obtain ⟨p0, u0, rfl, q0, k0⟩ := kinds_append_inv hw
    obtain ⟨v1, g1⟩ := ih1 _ q0
    obtain ⟨v2, g2⟩ := ih2 _ k0
    exact ⟨_, .addrFieldList rfl g1 g2⟩
  | nextAddrField h d1 ih1 =>
    intro w hw; subst h
    simp only [kinds_cons, kinds_append, kinds_nil] at hw
    obtain ⟨s0, t0, e0, u0, rfl, x0, k0⟩ := kinds_cons_inv hw
    obtain rfl := kind_inv rfl x0
    obtain ⟨v1, g1⟩ := ih1 _ k0
    exact ⟨_, .nextAddrField rfl g1⟩
  | addrField h d1 d2 ih1 ih2 =>
    intro w hw; subst h
    simp only [kinds_cons, kinds_append, kinds_nil] at hw
    obtain ⟨s0, t0, e0, u0, rfl, x0, k0⟩ := kinds_cons_inv hw
    obtain rfl := kind_inv rfl x0
    obtain ⟨p1, u1, rfl, q1, k1⟩ := kinds_append_inv k0
    obtain ⟨v1, g1⟩ := ih1 _ q1
    obtain ⟨s2, t2, e2, u2, rfl, x2, k2⟩ := kinds_cons_inv k1
    obtain rfl := kind_inv rfl x2
    obtain ⟨v2, g2⟩ := ih2 _ k2
    exact ⟨_, .addrField rfl g1 g2⟩
  | keyMeta d1 ih1 =>
    intro w hw; obtain ⟨v1, e1⟩ := ih1 w hw; exact ⟨_, .keyMeta e1⟩
  | keyParenMeta h d1 ih1 =>
    intro w hw; subst h
    simp only [kinds_cons, kinds_append, kinds_nil] at hw
    obtain ⟨s0, t0, e0, u0, rfl, x0, k0⟩ := kinds_cons_inv hw
    obtain rfl := kind_inv rfl x0
    obtain ⟨p1, u1, rfl, q1, k1⟩ := kinds_append_inv k0
    obtain ⟨v1, g1⟩ := ih1 _ q1
    obtain ⟨s2, t2, e2, u2, rfl, x2, k2⟩ := kinds_cons_inv k1
    obtain rfl := kind_inv rfl x2
    obtain rfl := kinds_nil_inv k2
    exact ⟨_, .keyParenMeta rfl g1⟩
  | keyParenAddress h d1 ih1 =>
    intro w hw; subst h
    simp only [kinds_cons, kinds_append, kinds_nil] at hw
    obtain ⟨s0, t0, e0, u0, rfl, x0, k0⟩ := kinds_cons_inv hw
    obtain rfl := kind_inv rfl x0
    obtain ⟨p1, u1, rfl, q1, k1⟩ := kinds_append_inv k0
    obtain ⟨v1, g1⟩ := ih1 _ q1
    obtain ⟨s2, t2, e2, u2, rfl, x2, k2⟩ := kinds_cons_inv k1
    obtain rfl := kind_inv rfl x2
    obtain rfl := kinds_nil_inv k2
    exact ⟨_, .keyParenAddress rfl g1⟩
  | keyAddress d1 ih1 =>
    intro w hw; obtain ⟨v1, e1⟩ := ih1 w hw; exact ⟨_, .keyAddress e1⟩
  | valMeta d1 ih1 =>
    intro w hw; obtain ⟨v1, e1⟩ := ih1 w hw; exact ⟨_, .valMeta e1⟩
  | valMap h d1 d2 ih1 ih2 =>
    intro w hw; subst h
    simp only [kinds_cons, kinds_append, kinds_nil] at hw
    obtain ⟨s0, t0, e0, u0, rfl, x0, k0⟩ := kinds_cons_inv hw
    obtain rfl := kind_inv rfl x0
    obtain ⟨p1, u1, rfl, q1, k1⟩ := kinds_append_inv k0
    obtain ⟨v1, g1⟩ := ih1 _ q1
    obtain ⟨v2, g2⟩ := ih2 _ k1
    exact ⟨_, .valMap rfl g1 g2⟩
  | valParen h d1 ih1 =>
    intro w hw; subst h
    simp only [kinds_cons, kinds_append, kinds_nil] at hw
    obtain ⟨s0, t0, e0, u0, rfl, x0, k0⟩ := kinds_cons_inv hw
    obtain rfl := kind_inv rfl x0
    obtain ⟨p1, u1, rfl, q1, k1⟩ := kinds_append_inv k0
    obtain ⟨v1, g1⟩ := ih1 _ q1
    obtain ⟨s2, t2, e2, u2, rfl, x2, k2⟩ := kinds_cons_inv k1
    obtain rfl := kind_inv rfl x2
    obtain rfl := kinds_nil_inv k2
    exact ⟨_, .valParen rfl g1⟩
  | valAddress d1 ih1 =>
    intro w hw; obtain ⟨v1, e1⟩ := ih1 w hw; exact ⟨_, .valAddress e1⟩
  | mvaParen h d1 ih1 =>
    intro w hw; subst h
    simp only [kinds_cons, kinds_append, kinds_nil] at hw
    obtain ⟨s0, t0, e0, u0, rfl, x0, k0⟩ := kinds_cons_inv hw
    obtain rfl := kind_inv rfl x0
    obtain ⟨p1, u1, rfl, q1, k1⟩ := kinds_append_inv k0
    obtain ⟨v1, g1⟩ := ih1 _ q1
    obtain ⟨s2, t2, e2, u2, rfl, x2, k2⟩ := kinds_cons_inv k1
    obtain rfl := kind_inv rfl x2
    obtain rfl := kinds_nil_inv k2
    exact ⟨_, .mvaParen rfl g1⟩
  | mvaMeta d1 ih1 =>
    intro w hw; obtain ⟨v1, e1⟩ := ih1 w hw; exact ⟨_, .mvaMeta e1⟩
  | mvaMap h d1 d2 ih1 ih2 =>
    intro w hw; subst h
    simp only [kinds_cons, kinds_append, kinds_nil] at hw
    obtain ⟨s0, t0, e0, u0, rfl, x0, k0⟩ := kinds_cons_inv hw
    obtain rfl := kind_inv rfl x0
    obtain ⟨p1, u1, rfl, q1, k1⟩ := kinds_append_inv k0
    obtain ⟨v1, g1⟩ := ih1 _ q1
    obtain ⟨v2, g2⟩ := ih2 _ k1
    exact ⟨_, .mvaMap rfl g1 g2⟩
  | program h d1 d2 d3 d4 ih1 ih2 ih3 ih4 =>
    intro w hw; subst h
    simp only [kinds_cons, kinds_append, kinds_nil] at hw
    obtain ⟨s0, t0, e0, u0, rfl, x0, k0⟩ := kinds_cons_inv hw
    obtain rfl := kind_inv rfl x0
    obtain ⟨p1, u1, rfl, q1, k1⟩ := kinds_append_inv k0
    obtain ⟨v1, g1⟩ := ih1 _ q1
    obtain ⟨p2, u2, rfl, q2, k2⟩ := kinds_append_inv k1
    obtain ⟨v2, g2⟩ := ih2 _ q2
    obtain ⟨p3, u3, rfl, q3, k3⟩ := kinds_append_inv k2
    obtain ⟨v3, g3⟩ := ih3 _ q3
    obtain ⟨v4, g4⟩ := ih4 _ k3
    exact ⟨_, .program rfl g1 g2 g3 g4⟩
  | libraryDef h d1 d2 ih1 ih2 =>
    intro w hw; subst h
    simp only [kinds_cons, kinds_append, kinds_nil] at hw
    obtain ⟨s0, t0, e0, u0, rfl, x0, k0⟩ := kinds_cons_inv hw
    obtain rfl := kind_inv rfl x0
    obtain ⟨p1, u1, rfl, q1, k1⟩ := kinds_append_inv k0
    obtain ⟨v1, g1⟩ := ih1 _ q1
    obtain ⟨v2, g2⟩ := ih2 _ k1
    exact ⟨_, .libraryDef rfl g1 g2⟩
  | libLet h d1 d2 d3 ih1 ih2 ih3 =>
    intro w hw; subst h
    simp only [kinds_cons, kinds_append, kinds_nil] at hw
    obtain ⟨s0, t0, e0, u0, rfl, x0, k0⟩ := kinds_cons_inv hw
    obtain rfl := kind_inv rfl x0
    obtain ⟨p1, u1, rfl, q1, k1⟩ := kinds_append_inv k0
    obtain ⟨v1, g1⟩ := ih1 _ q1
    obtain ⟨p2, u2, rfl, q2, k2⟩ := kinds_append_inv k1
    obtain ⟨v2, g2⟩ := ih2 _ q2
    obtain ⟨s3, t3, e3, u3, rfl, x3, k3⟩ := kinds_cons_inv k2
    obtain rfl := kind_inv rfl x3
    obtain ⟨v3, g3⟩ := ih3 _ k3
    exact ⟨_, .libLet rfl g1 g2 g3⟩
  | libType h d1 ih1 =>
    intro w hw; subst h
    simp only [kinds_cons, kinds_append, kinds_nil] at hw
    obtain ⟨s0, t0, e0, u0, rfl, x0, k0⟩ := kinds_cons_inv hw
    obtain rfl := kind_inv rfl x0
    obtain ⟨v1, g1⟩ := ih1 _ k0
    exact ⟨_, .libType rfl g1⟩
  | libTypeAlts h d1 d2 ih1 ih2 =>
    intro w hw; subst h
    simp only [kinds_cons, kinds_append, kinds_nil] at hw
    obtain ⟨s0, t0, e0, u0, rfl, x0, k0⟩ := kinds_cons_inv hw
    obtain rfl := kind_inv rfl x0
    obtain ⟨p1, u1, rfl, q1, k1⟩ := kinds_append_inv k0
    obtain ⟨v1, g1⟩ := ih1 _ q1
    obtain ⟨s2, t2, e2, u2, rfl, x2, k2⟩ := kinds_cons_inv k1
    obtain rfl := kind_inv rfl x2
    obtain ⟨v2, g2⟩ := ih2 _ k2
    exact ⟨_, .libTypeAlts rfl g1 g2⟩
  | typedId h d1 d2 ih1 ih2 =>
    intro w hw; subst h
    simp only [kinds_cons, kinds_append, kinds_nil] at hw
    obtain ⟨p0, u0, rfl, q0, k0⟩ := kinds_append_inv hw
    obtain ⟨v1, g1⟩ := ih1 _ q0
    obtain ⟨v2, g2⟩ := ih2 _ k0
    exact ⟨_, .typedId rfl g1 g2⟩
  | typeAnn h d1 ih1 =>
    intro w hw; subst h
    simp only [kinds_cons, kinds_append, kinds_nil] at hw
    obtain ⟨s0, t0, e0, u0, rfl, x0, k0⟩ := kinds_cons_inv hw
    obtain rfl := kind_inv rfl x0
    obtain ⟨v1, g1⟩ := ih1 _ k0
    exact ⟨_, .typeAnn rfl g1⟩
  | altType h d1 ih1 =>
    intro w hw; subst h
    simp only [kinds_cons, kinds_append, kinds_nil] at hw
    obtain ⟨s0, t0, e0, u0, rfl, x0, k0⟩ := kinds_cons_inv hw
    obtain rfl := kind_inv rfl x0
    obtain ⟨v1, g1⟩ := ih1 _ k0
    exact ⟨_, .altType rfl g1⟩
  | altTypeArgs h d1 d2 ih1 ih2 =>
    intro w hw; subst h
    simp only [kinds_cons, kinds_append, kinds_nil] at hw
    obtain ⟨s0, t0, e0, u0, rfl, x0, k0⟩ := kinds_cons_inv hw
    obtain rfl := kind_inv rfl x0
    obtain ⟨p1, u1, rfl, q1, k1⟩ := kinds_append_inv k0
    obtain ⟨v1, g1⟩ := ih1 _ q1
    obtain ⟨s2, t2, e2, u2, rfl, x2, k2⟩ := kinds_cons_inv k1
    obtain rfl := kind_inv rfl x2
    obtain ⟨v2, g2⟩ := ih2 _ k2
    exact ⟨_, .altTypeArgs rfl g1 g2⟩
  | mvWithArgs h d1 d2 ih1 ih2 =>
    intro w hw; subst h
    simp only [kinds_cons, kinds_append, kinds_nil] at hw
    obtain ⟨p0, u0, rfl, q0, k0⟩ := kinds_append_inv hw
    obtain ⟨v1, g1⟩ := ih1 _ q0
    obtain ⟨v2, g2⟩ := ih2 _ k0
    exact ⟨_, .mvWithArgs rfl g1 g2⟩
  | mvNoArgs d1 ih1 =>
    intro w hw; obtain ⟨v1, e1⟩ := ih1 w hw; exact ⟨_, .mvNoArgs e1⟩
  | contractTypeArgs h d1 ih1 =>
    intro w hw; subst h
    simp only [kinds_cons, kinds_append, kinds_nil] at hw
    obtain ⟨s0, t0, e0, u0, rfl, x0, k0⟩ := kinds_cons_inv hw
    obtain rfl := kind_inv rfl x0
    obtain ⟨p1, u1, rfl, q1, k1⟩ := kinds_append_inv k0
    obtain ⟨v1, g1⟩ := ih1 _ q1
    obtain ⟨s2, t2, e2, u2, rfl, x2, k2⟩ := kinds_cons_inv k1
    obtain rfl := kind_inv rfl x2
    obtain rfl := kinds_nil_inv k2
    exact ⟨_, .contractTypeArgs rfl g1⟩
  | exprLet h d1 d2 d3 d4 ih1 ih2 ih3 ih4 =>
    intro w hw; subst h
    simp only [kinds_cons, kinds_append, kinds_nil] at hw
    obtain ⟨s0, t0, e0, u0, rfl, x0, k0⟩ := kinds_cons_inv hw
    obtain rfl := kind_inv rfl x0
    obtain ⟨p1, u1, rfl, q1, k1⟩ := kinds_append_inv k0
    obtain ⟨v1, g1⟩ := ih1 _ q1
    obtain ⟨p2, u2, rfl, q2, k2⟩ := kinds_append_inv k1
    obtain ⟨v2, g2⟩ := ih2 _ q2
    obtain ⟨s3, t3, e3, u3, rfl, x3, k3⟩ := kinds_cons_inv k2
    obtain rfl := kind_inv rfl x3
    obtain ⟨p4, u4, rfl, q4, k4⟩ := kinds_append_inv k3
    obtain ⟨v3, g3⟩ := ih3 _ q4
    obtain ⟨s5, t5, e5, u5, rfl, x5, k5⟩ := kinds_cons_inv k4
    obtain rfl := kind_inv rfl x5
    obtain ⟨v4, g4⟩ := ih4 _ k5
    exact ⟨_, .exprLet rfl g1 g2 g3 g4⟩
  | exprFun h d1 d2 d3 ih1 ih2 ih3 =>
    intro w hw; subst h
    simp only [kinds_cons, kinds_append, kinds_nil] at hw
    obtain ⟨s0, t0, e0, u0, rfl, x0, k0⟩ := kinds_cons_inv hw
    obtain rfl := kind_inv rfl x0
    obtain ⟨s1, t1, e1, u1, rfl, x1, k1⟩ := kinds_cons_inv k0
    obtain rfl := kind_inv rfl x1
    obtain ⟨p2, u2, rfl, q2, k2⟩ := kinds_append_inv k1
    obtain ⟨v1, g1⟩ := ih1 _ q2
    obtain ⟨p3, u3, rfl, q3, k3⟩ := kinds_append_inv k2
    obtain ⟨v2, g2⟩ := ih2 _ q3
    obtain ⟨s4, t4, e4, u4, rfl, x4, k4⟩ := kinds_cons_inv k3
    obtain rfl := kind_inv rfl x4
    obtain ⟨s5, t5, e5, u5, rfl, x5, k5⟩ := kinds_cons_inv k4
    obtain rfl := kind_inv rfl x5
    obtain ⟨v3, g3⟩ := ih3 _ k5
    exact ⟨_, .exprFun rfl g1 g2 g3⟩
  | exprCall h d1 d2 ih1 ih2 =>
    intro w hw; subst h
    simp only [kinds_cons, kinds_append, kinds_nil] at hw
    obtain ⟨p0, u0, rfl, q0, k0⟩ := kinds_append_inv hw
    obtain ⟨v1, g1⟩ := ih1 _ q0
    obtain ⟨v2, g2⟩ := ih2 _ k0
    exact ⟨_, .exprCall rfl g1 g2⟩
  | exprAtomic d1 ih1 =>
    intro w hw; obtain ⟨v1, e1⟩ := ih1 w hw; exact ⟨_, .exprAtomic e1⟩
  | exprBuiltin h d1 d2 d3 ih1 ih2 ih3 =>
    intro w hw; subst h
    simp only [kinds_cons, kinds_append, kinds_nil] at hw
    obtain ⟨s0, t0, e0, u0, rfl, x0, k0⟩ := kinds_cons_inv hw
    obtain rfl := kind_inv rfl x0
    obtain ⟨p1, u1, rfl, q1, k1⟩ := kinds_append_inv k0
    obtain ⟨v1, g1⟩ := ih1 _ q1
    obtain ⟨p2, u2, rfl, q2, k2⟩ := kinds_append_inv k1
    obtain ⟨v2, g2⟩ := ih2 _ q2
    obtain ⟨v3, g3⟩ := ih3 _ k2
    exact ⟨_, .exprBuiltin rfl g1 g2 g3⟩
  | exprMessage h d1 d2 ih1 ih2 =>
    intro w hw; subst h
    simp only [kinds_cons, kinds_append, kinds_nil] at hw
    obtain ⟨s0, t0, e0, u0, rfl, x0, k0⟩ := kinds_cons_inv hw
    obtain rfl := kind_inv rfl x0
    obtain ⟨p1, u1, rfl, q1, k1⟩ := kinds_append_inv k0
    obtain ⟨v1, g1⟩ := ih1 _ q1
    obtain ⟨p2, u2, rfl, q2, k2⟩ := kinds_append_inv k1
    obtain ⟨v2, g2⟩ := ih2 _ q2
    obtain ⟨s3, t3, e3, u3, rfl, x3, k3⟩ := kinds_cons_inv k2
    obtain rfl := kind_inv rfl x3
    obtain rfl := kinds_nil_inv k3
    exact ⟨_, .exprMessage rfl g1 g2⟩
  | exprMatch h d1 d2 ih1 ih2 =>
    intro w hw; subst h
    simp only [kinds_cons, kinds_append, kinds_nil] at hw
    obtain ⟨s0, t0, e0, u0, rfl, x0, k0⟩ := kinds_cons_inv hw
    obtain rfl := kind_inv rfl x0
    obtain ⟨p1, u1, rfl, q1, k1⟩ := kinds_append_inv k0
    obtain ⟨v1, g1⟩ := ih1 _ q1
    obtain ⟨s2, t2, e2, u2, rfl, x2, k2⟩ := kinds_cons_inv k1
    obtain rfl := kind_inv rfl x2
    obtain ⟨p3, u3, rfl, q3, k3⟩ := kinds_append_inv k2
    obtain ⟨v2, g2⟩ := ih2 _ q3
    obtain ⟨s4, t4, e4, u4, rfl, x4, k4⟩ := kinds_cons_inv k3
    obtain rfl := kind_inv rfl x4
    obtain rfl := kinds_nil_inv k4
    exact ⟨_, .exprMatch rfl g1 g2⟩
  | exprConstr h d1 d2 d3 ih1 ih2 ih3 =>
    intro w hw; subst h
    simp only [kinds_cons, kinds_append, kinds_nil] at hw
    obtain ⟨p0, u0, rfl, q0, k0⟩ := kinds_append_inv hw
    obtain ⟨v1, g1⟩ := ih1 _ q0
    obtain ⟨p1, u1, rfl, q1, k1⟩ := kinds_append_inv k0
    obtain ⟨v2, g2⟩ := ih2 _ q1
    obtain ⟨v3, g3⟩ := ih3 _ k1
    exact ⟨_, .exprConstr rfl g1 g2 g3⟩
  | exprTFun h d1 d2 ih1 ih2 =>
    intro w hw; subst h
    simp only [kinds_cons, kinds_append, kinds_nil] at hw
    obtain ⟨s0, t0, e0, u0, rfl, x0, k0⟩ := kinds_cons_inv hw
    obtain rfl := kind_inv rfl x0
    obtain ⟨p1, u1, rfl, q1, k1⟩ := kinds_append_inv k0
    obtain ⟨v1, g1⟩ := ih1 _ q1
    obtain ⟨s2, t2, e2, u2, rfl, x2, k2⟩ := kinds_cons_inv k1
    obtain rfl := kind_inv rfl x2
    obtain ⟨v2, g2⟩ := ih2 _ k2
    exact ⟨_, .exprTFun rfl g1 g2⟩
  | exprTApp h d1 d2 ih1 ih2 =>
    intro w hw; subst h
    simp only [kinds_cons, kinds_append, kinds_nil] at hw
    obtain ⟨s0, t0, e0, u0, rfl, x0, k0⟩ := kinds_cons_inv hw
    obtain rfl := kind_inv rfl x0
    obtain ⟨p1, u1, rfl, q1, k1⟩ := kinds_append_inv k0
    obtain ⟨v1, g1⟩ := ih1 _ q1
    obtain ⟨v2, g2⟩ := ih2 _ k1
    exact ⟨_, .exprTApp rfl g1 g2⟩
  | pmExprClause h d1 d2 ih1 ih2 =>
    intro w hw; subst h
    simp only [kinds_cons, kinds_append, kinds_nil] at hw
    obtain ⟨s0, t0, e0, u0, rfl, x0, k0⟩ := kinds_cons_inv hw
    obtain rfl := kind_inv rfl x0
    obtain ⟨p1, u1, rfl, q1, k1⟩ := kinds_append_inv k0
    obtain ⟨v1, g1⟩ := ih1 _ q1
    obtain ⟨s2, t2, e2, u2, rfl, x2, k2⟩ := kinds_cons_inv k1
    obtain rfl := kind_inv rfl x2
    obtain ⟨v2, g2⟩ := ih2 _ k2
    exact ⟨_, .pmExprClause rfl g1 g2⟩
  | patWildcard h =>
    intro w hw; subst h
    simp only [kinds_cons, kinds_append, kinds_nil] at hw
    obtain ⟨s0, t0, e0, u0, rfl, x0, k0⟩ := kinds_cons_inv hw
    obtain rfl := kind_inv rfl x0
    obtain rfl := kinds_nil_inv k0
    exact ⟨_, .patWildcard rfl ⟩
  | patBinder d1 ih1 =>
    intro w hw; obtain ⟨v1, e1⟩ := ih1 w hw; exact ⟨_, .patBinder e1⟩
  | patConstr h d1 d2 ih1 ih2 =>
    intro w hw; subst h
    simp only [kinds_cons, kinds_append, kinds_nil] at hw
    obtain ⟨p0, u0, rfl, q0, k0⟩ := kinds_append_inv hw
    obtain ⟨v1, g1⟩ := ih1 _ q0
    obtain ⟨v2, g2⟩ := ih2 _ k0
    exact ⟨_, .patConstr rfl g1 g2⟩
  | apWildcard h =>
    intro w hw; subst h
    simp only [kinds_cons, kinds_append, kinds_nil] at hw
    obtain ⟨s0, t0, e0, u0, rfl, x0, k0⟩ := kinds_cons_inv hw
    obtain rfl := kind_inv rfl x0
    obtain rfl := kinds_nil_inv k0
    exact ⟨_, .apWildcard rfl ⟩
  | apBinder d1 ih1 =>
    intro w hw; obtain ⟨v1, e1⟩ := ih1 w hw; exact ⟨_, .apBinder e1⟩
  | apConstr d1 ih1 =>
    intro w hw; obtain ⟨v1, e1⟩ := ih1 w hw; exact ⟨_, .apConstr e1⟩
  | apParen h d1 ih1 =>
    intro w hw; subst h
    simp only [kinds_cons, kinds_append, kinds_nil] at hw
    obtain ⟨s0, t0, e0, u0, rfl, x0, k0⟩ := kinds_cons_inv hw
    obtain rfl := kind_inv rfl x0
    obtain ⟨p1, u1, rfl, q1, k1⟩ := kinds_append_inv k0
    obtain ⟨v1, g1⟩ := ih1 _ q1
    obtain ⟨s2, t2, e2, u2, rfl, x2, k2⟩ := kinds_cons_inv k1
    obtain rfl := kind_inv rfl x2
    obtain rfl := kinds_nil_inv k2
    exact ⟨_, .apParen rfl g1⟩
  | nextMessage h d1 ih1 =>
    intro w hw; subst h
    simp only [kinds_cons, kinds_append, kinds_nil] at hw
    obtain ⟨s0, t0, e0, u0, rfl, x0, k0⟩ := kinds_cons_inv hw
    obtain rfl := kind_inv rfl x0
    obtain ⟨v1, g1⟩ := ih1 _ k0
    exact ⟨_, .nextMessage rfl g1⟩
  | msgLiteral h d1 d2 ih1 ih2 =>
    intro w hw; subst h
    simp only [kinds_cons, kinds_append, kinds_nil] at hw
    obtain ⟨p0, u0, rfl, q0, k0⟩ := kinds_append_inv hw
    obtain ⟨v1, g1⟩ := ih1 _ q0
    obtain ⟨s1, t1, e1, u1, rfl, x1, k1⟩ := kinds_cons_inv k0
    obtain rfl := kind_inv rfl x1
    obtain ⟨v2, g2⟩ := ih2 _ k1
    exact ⟨_, .msgLiteral rfl g1 g2⟩
  | msgVariable h d1 d2 ih1 ih2 =>
    intro w hw; subst h
    simp only [kinds_cons, kinds_append, kinds_nil] at hw
    obtain ⟨p0, u0, rfl, q0, k0⟩ := kinds_append_inv hw
    obtain ⟨v1, g1⟩ := ih1 _ q0
    obtain ⟨s1, t1, e1, u1, rfl, x1, k1⟩ := kinds_cons_inv k0
    obtain rfl := kind_inv rfl x1
    obtain ⟨v2, g2⟩ := ih2 _ k1
    exact ⟨_, .msgVariable rfl g1 g2⟩
  | atomicVar d1 ih1 =>
    intro w hw; obtain ⟨v1, e1⟩ := ih1 w hw; exact ⟨_, .atomicVar e1⟩
  | atomicLit d1 ih1 =>
    intro w hw; obtain ⟨v1, e1⟩ := ih1 w hw; exact ⟨_, .atomicLit e1⟩
  | litInt h d1 d2 ih1 ih2 =>
    intro w hw; subst h
    simp only [kinds_cons, kinds_append, kinds_nil] at hw
    obtain ⟨p0, u0, rfl, q0, k0⟩ := kinds_append_inv hw
    obtain ⟨v1, g1⟩ := ih1 _ q0
    obtain ⟨v2, g2⟩ := ih2 _ k0
    exact ⟨_, .litInt rfl g1 g2⟩
  | litHex d1 ih1 =>
    intro w hw; obtain ⟨v1, e1⟩ := ih1 w hw; exact ⟨_, .litHex e1⟩
  | litString d1 ih1 =>
    intro w hw; obtain ⟨v1, e1⟩ := ih1 w hw; exact ⟨_, .litString e1⟩
  | litEmp h d1 d2 ih1 ih2 =>
    intro w hw; subst h
    simp only [kinds_cons, kinds_append, kinds_nil] at hw
    obtain ⟨s0, t0, e0, u0, rfl, x0, k0⟩ := kinds_cons_inv hw
    obtain rfl := kind_inv rfl x0
    obtain ⟨p1, u1, rfl, q1, k1⟩ := kinds_append_inv k0
    obtain ⟨v1, g1⟩ := ih1 _ q1
    obtain ⟨v2, g2⟩ := ih2 _ k1
    exact ⟨_, .litEmp rfl g1 g2⟩
  | stLoad h d1 d2 ih1 ih2 =>
    intro w hw; subst h
    simp only [kinds_cons, kinds_append, kinds_nil] at hw
    obtain ⟨p0, u0, rfl, q0, k0⟩ := kinds_append_inv hw
    obtain ⟨v1, g1⟩ := ih1 _ q0
    obtain ⟨s1, t1, e1, u1, rfl, x1, k1⟩ := kinds_cons_inv k0
    obtain rfl := kind_inv rfl x1
    obtain ⟨v2, g2⟩ := ih2 _ k1
    exact ⟨_, .stLoad rfl g1 g2⟩
  | stRemote d1 ih1 =>
    intro w hw; obtain ⟨v1, e1⟩ := ih1 w hw; exact ⟨_, .stRemote e1⟩
  | stStore h d1 d2 ih1 ih2 =>
    intro w hw; subst h
    simp only [kinds_cons, kinds_append, kinds_nil] at hw
    obtain ⟨p0, u0, rfl, q0, k0⟩ := kinds_append_inv hw
    obtain ⟨v1, g1⟩ := ih1 _ q0
    obtain ⟨s1, t1, e1, u1, rfl, x1, k1⟩ := kinds_cons_inv k0
    obtain rfl := kind_inv rfl x1
    obtain ⟨v2, g2⟩ := ih2 _ k1
    exact ⟨_, .stStore rfl g1 g2⟩
  | stBind h d1 d2 ih1 ih2 =>
    intro w hw; subst h
    simp only [kinds_cons, kinds_append, kinds_nil] at hw
    obtain ⟨p0, u0, rfl, q0, k0⟩ := kinds_append_inv hw
    obtain ⟨v1, g1⟩ := ih1 _ q0
    obtain ⟨s1, t1, e1, u1, rfl, x1, k1⟩ := kinds_cons_inv k0
    obtain rfl := kind_inv rfl x1
    obtain ⟨v2, g2⟩ := ih2 _ k1
    exact ⟨_, .stBind rfl g1 g2⟩
  | stReadBC h d1 d2 d3 ih1 ih2 ih3 =>
    intro w hw; subst h
    simp only [kinds_cons, kinds_append, kinds_nil] at hw
    obtain ⟨p0, u0, rfl, q0, k0⟩ := kinds_append_inv hw
    obtain ⟨v1, g1⟩ := ih1 _ q0
    obtain ⟨s1, t1, e1, u1, rfl, x1, k1⟩ := kinds_cons_inv k0
    obtain rfl := kind_inv rfl x1
    obtain ⟨s2, t2, e2, u2, rfl, x2, k2⟩ := kinds_cons_inv k1
    obtain rfl := kind_inv rfl x2
    obtain ⟨p3, u3, rfl, q3, k3⟩ := kinds_append_inv k2
    obtain ⟨v2, g2⟩ := ih2 _ q3
    obtain ⟨v3, g3⟩ := ih3 _ k3
    exact ⟨_, .stReadBC rfl g1 g2 g3⟩
  | stMapGet h d1 d2 d3 ih1 ih2 ih3 =>
    intro w hw; subst h
    simp only [kinds_cons, kinds_append, kinds_nil] at hw
    obtain ⟨p0, u0, rfl, q0, k0⟩ := kinds_append_inv hw
    obtain ⟨v1, g1⟩ := ih1 _ q0
    obtain ⟨s1, t1, e1, u1, rfl, x1, k1⟩ := kinds_cons_inv k0
    obtain rfl := kind_inv rfl x1
    obtain ⟨p2, u2, rfl, q2, k2⟩ := kinds_append_inv k1
    obtain ⟨v2, g2⟩ := ih2 _ q2
    obtain ⟨v3, g3⟩ := ih3 _ k2
    exact ⟨_, .stMapGet rfl g1 g2 g3⟩
  | stMapGetExists h d1 d2 d3 ih1 ih2 ih3 =>
    intro w hw; subst h
    simp only [kinds_cons, kinds_append, kinds_nil] at hw
    obtain ⟨p0, u0, rfl, q0, k0⟩ := kinds_append_inv hw
    obtain ⟨v1, g1⟩ := ih1 _ q0
    obtain ⟨s1, t1, e1, u1, rfl, x1, k1⟩ := kinds_cons_inv k0
    obtain rfl := kind_inv rfl x1
    obtain ⟨s2, t2, e2, u2, rfl, x2, k2⟩ := kinds_cons_inv k1
    obtain rfl := kind_inv rfl x2
    obtain ⟨p3, u3, rfl, q3, k3⟩ := kinds_append_inv k2
    obtain ⟨v2, g2⟩ := ih2 _ q3
    obtain ⟨v3, g3⟩ := ih3 _ k3
    exact ⟨_, .stMapGetExists rfl g1 g2 g3⟩
  | stMapUpdate h d1 d2 d3 ih1 ih2 ih3 =>
    intro w hw; subst h
    simp only [kinds_cons, kinds_append, kinds_nil] at hw
    obtain ⟨p0, u0, rfl, q0, k0⟩ := kinds_append_inv hw
    obtain ⟨v1, g1⟩ := ih1 _ q0
    obtain ⟨p1, u1, rfl, q1, k1⟩ := kinds_append_inv k0
    obtain ⟨v2, g2⟩ := ih2 _ q1
    obtain ⟨s2, t2, e2, u2, rfl, x2, k2⟩ := kinds_cons_inv k1
    obtain rfl := kind_inv rfl x2
    obtain ⟨v3, g3⟩ := ih3 _ k2
    exact ⟨_, .stMapUpdate rfl g1 g2 g3⟩
  | stMapDelete h d1 d2 ih1 ih2 =>
    intro w hw; subst h
    simp only [kinds_cons, kinds_append, kinds_nil] at hw
    obtain ⟨s0, t0, e0, u0, rfl, x0, k0⟩ := kinds_cons_inv hw
    obtain rfl := kind_inv rfl x0
    obtain ⟨p1, u1, rfl, q1, k1⟩ := kinds_append_inv k0
    obtain ⟨v1, g1⟩ := ih1 _ q1
    obtain ⟨v2, g2⟩ := ih2 _ k1
    exact ⟨_, .stMapDelete rfl g1 g2⟩
  | stAccept h =>
    intro w hw; subst h
    simp only [kinds_cons, kinds_append, kinds_nil] at hw
    obtain ⟨s0, t0, e0, u0, rfl, x0, k0⟩ := kinds_cons_inv hw
    obtain rfl := kind_inv rfl x0
    obtain rfl := kinds_nil_inv k0
    exact ⟨_, .stAccept rfl ⟩
  | stSend h d1 ih1 =>
    intro w hw; subst h
    simp only [kinds_cons, kinds_append, kinds_nil] at hw
    obtain ⟨s0, t0, e0, u0, rfl, x0, k0⟩ := kinds_cons_inv hw
    obtain rfl := kind_inv rfl x0
    obtain ⟨v1, g1⟩ := ih1 _ k0
    exact ⟨_, .stSend rfl g1⟩
  | stEvent h d1 ih1 =>
    intro w hw; subst h
    simp only [kinds_cons, kinds_append, kinds_nil] at hw
    obtain ⟨s0, t0, e0, u0, rfl, x0, k0⟩ := kinds_cons_inv hw
    obtain rfl := kind_inv rfl x0
    obtain ⟨v1, g1⟩ := ih1 _ k0
    exact ⟨_, .stEvent rfl g1⟩
  | stThrow h d1 ih1 =>
    intro w hw; subst h
    simp only [kinds_cons, kinds_append, kinds_nil] at hw
    obtain ⟨s0, t0, e0, u0, rfl, x0, k0⟩ := kinds_cons_inv hw
    obtain rfl := kind_inv rfl x0
    obtain ⟨v1, g1⟩ := ih1 _ k0
    exact ⟨_, .stThrow rfl g1⟩
  | stMatch h d1 d2 ih1 ih2 =>
    intro w hw; subst h
    simp only [kinds_cons, kinds_append, kinds_nil] at hw
    obtain ⟨s0, t0, e0, u0, rfl, x0, k0⟩ := kinds_cons_inv hw
    obtain rfl := kind_inv rfl x0
    obtain ⟨p1, u1, rfl, q1, k1⟩ := kinds_append_inv k0
    obtain ⟨v1, g1⟩ := ih1 _ q1
    obtain ⟨s2, t2, e2, u2, rfl, x2, k2⟩ := kinds_cons_inv k1
    obtain rfl := kind_inv rfl x2
    obtain ⟨p3, u3, rfl, q3, k3⟩ := kinds_append_inv k2
    obtain ⟨v2, g2⟩ := ih2 _ q3
    obtain ⟨s4, t4, e4, u4, rfl, x4, k4⟩ := kinds_cons_inv k3
    obtain rfl := kind_inv rfl x4
    obtain rfl := kinds_nil_inv k4
    exact ⟨_, .stMatch rfl g1 g2⟩
  | stCall h d1 d2 ih1 ih2 =>
    intro w hw; subst h
    simp only [kinds_cons, kinds_append, kinds_nil] at hw
    obtain ⟨p0, u0, rfl, q0, k0⟩ := kinds_append_inv hw
    obtain ⟨v1, g1⟩ := ih1 _ q0
    obtain ⟨v2, g2⟩ := ih2 _ k0
    exact ⟨_, .stCall rfl g1 g2⟩
  | stForall h d1 d2 ih1 ih2 =>
    intro w hw; subst h
    simp only [kinds_cons, kinds_append, kinds_nil] at hw
    obtain ⟨s0, t0, e0, u0, rfl, x0, k0⟩ := kinds_cons_inv hw
    obtain rfl := kind_inv rfl x0
    obtain ⟨p1, u1, rfl, q1, k1⟩ := kinds_append_inv k0
    obtain ⟨v1, g1⟩ := ih1 _ q1
    obtain ⟨v2, g2⟩ := ih2 _ k1
    exact ⟨_, .stForall rfl g1 g2⟩
  | nextStatement h d1 ih1 =>
    intro w hw; subst h
    simp only [kinds_cons, kinds_append, kinds_nil] at hw
    obtain ⟨s0, t0, e0, u0, rfl, x0, k0⟩ := kinds_cons_inv hw
    obtain rfl := kind_inv rfl x0
    obtain ⟨v1, g1⟩ := ih1 _ k0
    exact ⟨_, .nextStatement rfl g1⟩
  | stmtBlock h d1 d2 ih1 ih2 =>
    intro w hw; subst h
    simp only [kinds_cons, kinds_append, kinds_nil] at hw
    obtain ⟨p0, u0, rfl, q0, k0⟩ := kinds_append_inv hw
    obtain ⟨v1, g1⟩ := ih1 _ q0
    obtain ⟨v2, g2⟩ := ih2 _ k0
    exact ⟨_, .stmtBlock rfl g1 g2⟩
  | bcFetchArgs h d1 ih1 =>
    intro w hw; subst h
    simp only [kinds_cons, kinds_append, kinds_nil] at hw
    obtain ⟨s0, t0, e0, u0, rfl, x0, k0⟩ := kinds_cons_inv hw
    obtain rfl := kind_inv rfl x0
    obtain ⟨p1, u1, rfl, q1, k1⟩ := kinds_append_inv k0
    obtain ⟨v1, g1⟩ := ih1 _ q1
    obtain ⟨s2, t2, e2, u2, rfl, x2, k2⟩ := kinds_cons_inv k1
    obtain rfl := kind_inv rfl x2
    obtain rfl := kinds_nil_inv k2
    exact ⟨_, .bcFetchArgs rfl g1⟩
  | componentType d1 ih1 =>
    intro w hw; obtain ⟨v1, e1⟩ := ih1 w hw; exact ⟨_, .componentType e1⟩
  | componentRegular d1 ih1 =>
    intro w hw; obtain ⟨v1, e1⟩ := ih1 w hw; exact ⟨_, .componentRegular e1⟩
  | pmClause h d1 d2 ih1 ih2 =>
    intro w hw; subst h
    simp only [kinds_cons, kinds_append, kinds_nil] at hw
    obtain ⟨s0, t0, e0, u0, rfl, x0, k0⟩ := kinds_cons_inv hw
    obtain rfl := kind_inv rfl x0
    obtain ⟨p1, u1, rfl, q1, k1⟩ := kinds_append_inv k0
    obtain ⟨v1, g1⟩ := ih1 _ q1
    obtain ⟨s2, t2, e2, u2, rfl, x2, k2⟩ := kinds_cons_inv k1
    obtain rfl := kind_inv rfl x2
    obtain ⟨v2, g2⟩ := ih2 _ k2
    exact ⟨_, .pmClause rfl g1 g2⟩
  | rfState h d1 d2 d3 ih1 ih2 ih3 =>
    intro w hw; subst h
    simp only [kinds_cons, kinds_append, kinds_nil] at hw
    obtain ⟨p0, u0, rfl, q0, k0⟩ := kinds_append_inv hw
    obtain ⟨v1, g1⟩ := ih1 _ q0
    obtain ⟨s1, t1, e1, u1, rfl, x1, k1⟩ := kinds_cons_inv k0
    obtain rfl := kind_inv rfl x1
    obtain ⟨s2, t2, e2, u2, rfl, x2, k2⟩ := kinds_cons_inv k1
    obtain rfl := kind_inv rfl x2
    obtain ⟨p3, u3, rfl, q3, k3⟩ := kinds_append_inv k2
    obtain ⟨v2, g2⟩ := ih2 _ q3
    obtain ⟨s4, t4, e4, u4, rfl, x4, k4⟩ := kinds_cons_inv k3
    obtain rfl := kind_inv rfl x4
    obtain ⟨v3, g3⟩ := ih3 _ k4
    exact ⟨_, .rfState rfl g1 g2 g3⟩
  | rfSpecial h d1 d2 d3 ih1 ih2 ih3 =>
    intro w hw; subst h
    simp only [kinds_cons, kinds_append, kinds_nil] at hw
    obtain ⟨p0, u0, rfl, q0, k0⟩ := kinds_append_inv hw
    obtain ⟨v1, g1⟩ := ih1 _ q0
    obtain ⟨s1, t1, e1, u1, rfl, x1, k1⟩ := kinds_cons_inv k0
    obtain rfl := kind_inv rfl x1
    obtain ⟨s2, t2, e2, u2, rfl, x2, k2⟩ := kinds_cons_inv k1
    obtain rfl := kind_inv rfl x2
    obtain ⟨p3, u3, rfl, q3, k3⟩ := kinds_append_inv k2
    obtain ⟨v2, g2⟩ := ih2 _ q3
    obtain ⟨s4, t4, e4, u4, rfl, x4, k4⟩ := kinds_cons_inv k3
    obtain rfl := kind_inv rfl x4
    obtain ⟨v3, g3⟩ := ih3 _ k4
    exact ⟨_, .rfSpecial rfl g1 g2 g3⟩
  | rfMap h d1 d2 d3 d4 ih1 ih2 ih3 ih4 =>
    intro w hw; subst h
    simp only [kinds_cons, kinds_append, kinds_nil] at hw
    obtain ⟨p0, u0, rfl, q0, k0⟩ := kinds_append_inv hw
    obtain ⟨v1, g1⟩ := ih1 _ q0
    obtain ⟨s1, t1, e1, u1, rfl, x1, k1⟩ := kinds_cons_inv k0
    obtain rfl := kind_inv rfl x1
    obtain ⟨s2, t2, e2, u2, rfl, x2, k2⟩ := kinds_cons_inv k1
    obtain rfl := kind_inv rfl x2
    obtain ⟨p3, u3, rfl, q3, k3⟩ := kinds_append_inv k2
    obtain ⟨v2, g2⟩ := ih2 _ q3
    obtain ⟨s4, t4, e4, u4, rfl, x4, k4⟩ := kinds_cons_inv k3
    obtain rfl := kind_inv rfl x4
    obtain ⟨p5, u5, rfl, q5, k5⟩ := kinds_append_inv k4
    obtain ⟨v3, g3⟩ := ih3 _ q5
    obtain ⟨v4, g4⟩ := ih4 _ k5
    exact ⟨_, .rfMap rfl g1 g2 g3 g4⟩
  | rfExists h d1 d2 d3 d4 ih1 ih2 ih3 ih4 =>
    intro w hw; subst h
    simp only [kinds_cons, kinds_append, kinds_nil] at hw
    obtain ⟨p0, u0, rfl, q0, k0⟩ := kinds_append_inv hw
    obtain ⟨v1, g1⟩ := ih1 _ q0
    obtain ⟨s1, t1, e1, u1, rfl, x1, k1⟩ := kinds_cons_inv k0
    obtain rfl := kind_inv rfl x1
    obtain ⟨s2, t2, e2, u2, rfl, x2, k2⟩ := kinds_cons_inv k1
    obtain rfl := kind_inv rfl x2
    obtain ⟨s3, t3, e3, u3, rfl, x3, k3⟩ := kinds_cons_inv k2
    obtain rfl := kind_inv rfl x3
    obtain ⟨p4, u4, rfl, q4, k4⟩ := kinds_append_inv k3
    obtain ⟨v2, g2⟩ := ih2 _ q4
    obtain ⟨s5, t5, e5, u5, rfl, x5, k5⟩ := kinds_cons_inv k4
    obtain rfl := kind_inv rfl x5
    obtain ⟨p6, u6, rfl, q6, k6⟩ := kinds_append_inv k5
    obtain ⟨v3, g3⟩ := ih3 _ q6
    obtain ⟨v4, g4⟩ := ih4 _ k6
    exact ⟨_, .rfExists rfl g1 g2 g3 g4⟩
  | rfCast h d1 d2 d3 ih1 ih2 ih3 =>
    intro w hw; subst h
    simp only [kinds_cons, kinds_append, kinds_nil] at hw
    obtain ⟨p0, u0, rfl, q0, k0⟩ := kinds_append_inv hw
    obtain ⟨v1, g1⟩ := ih1 _ q0
    obtain ⟨s1, t1, e1, u1, rfl, x1, k1⟩ := kinds_cons_inv k0
    obtain rfl := kind_inv rfl x1
    obtain ⟨s2, t2, e2, u2, rfl, x2, k2⟩ := kinds_cons_inv k1
    obtain rfl := kind_inv rfl x2
    obtain ⟨p3, u3, rfl, q3, k3⟩ := kinds_append_inv k2
    obtain ⟨v2, g2⟩ := ih2 _ q3
    obtain ⟨s4, t4, e4, u4, rfl, x4, k4⟩ := kinds_cons_inv k3
    obtain rfl := kind_inv rfl x4
    obtain ⟨v3, g3⟩ := ih3 _ k4
    exact ⟨_, .rfCast rfl g1 g2 g3⟩
  | mapAccess h d1 ih1 =>
    intro w hw; subst h
    simp only [kinds_cons, kinds_append, kinds_nil] at hw
    obtain ⟨s0, t0, e0, u0, rfl, x0, k0⟩ := kinds_cons_inv hw
    obtain rfl := kind_inv rfl x0
    obtain ⟨p1, u1, rfl, q1, k1⟩ := kinds_append_inv k0
    obtain ⟨v1, g1⟩ := ih1 _ q1
    obtain ⟨s2, t2, e2, u2, rfl, x2, k2⟩ := kinds_cons_inv k1
    obtain rfl := kind_inv rfl x2
    obtain rfl := kinds_nil_inv k2
    exact ⟨_, .mapAccess rfl g1⟩
  | paramPair d1 ih1 =>
    intro w hw; obtain ⟨v1, e1⟩ := ih1 w hw; exact ⟨_, .paramPair e1⟩
  | nextParamPair h d1 ih1 =>
    intro w hw; subst h
    simp only [kinds_cons, kinds_append, kinds_nil] at hw
    obtain ⟨s0, t0, e0, u0, rfl, x0, k0⟩ := kinds_cons_inv hw
    obtain rfl := kind_inv rfl x0
    obtain ⟨v1, g1⟩ := ih1 _ k0
    exact ⟨_, .nextParamPair rfl g1⟩
  | compParams h d1 d2 ih1 ih2 =>
    intro w hw; subst h
    simp only [kinds_cons, kinds_append, kinds_nil] at hw
    obtain ⟨s0, t0, e0, u0, rfl, x0, k0⟩ := kinds_cons_inv hw
    obtain rfl := kind_inv rfl x0
    obtain ⟨p1, u1, rfl, q1, k1⟩ := kinds_append_inv k0
    obtain ⟨v1, g1⟩ := ih1 _ q1
    obtain ⟨p2, u2, rfl, q2, k2⟩ := kinds_append_inv k1
    obtain ⟨v2, g2⟩ := ih2 _ q2
    obtain ⟨s3, t3, e3, u3, rfl, x3, k3⟩ := kinds_cons_inv k2
    obtain rfl := kind_inv rfl x3
    obtain rfl := kinds_nil_inv k3
    exact ⟨_, .compParams rfl g1 g2⟩
  | compTransition d1 ih1 =>
    intro w hw; obtain ⟨v1, e1⟩ := ih1 w hw; exact ⟨_, .compTransition e1⟩
  | compProcedure d1 ih1 =>
    intro w hw; obtain ⟨v1, e1⟩ := ih1 w hw; exact ⟨_, .compProcedure e1⟩
  | transDef h d1 d2 d3 ih1 ih2 ih3 =>
    intro w hw; subst h
    simp only [kinds_cons, kinds_append, kinds_nil] at hw
    obtain ⟨s0, t0, e0, u0, rfl, x0, k0⟩ := kinds_cons_inv hw
    obtain rfl := kind_inv rfl x0
    obtain ⟨p1, u1, rfl, q1, k1⟩ := kinds_append_inv k0
    obtain ⟨v1, g1⟩ := ih1 _ q1
    obtain ⟨p2, u2, rfl, q2, k2⟩ := kinds_append_inv k1
    obtain ⟨v2, g2⟩ := ih2 _ q2
    obtain ⟨v3, g3⟩ := ih3 _ k2
    exact ⟨_, .transDef rfl g1 g2 g3⟩
  | procDef h d1 d2 d3 ih1 ih2 ih3 =>
    intro w hw; subst h
    simp only [kinds_cons, kinds_append, kinds_nil] at hw
    obtain ⟨s0, t0, e0, u0, rfl, x0, k0⟩ := kinds_cons_inv hw
    obtain rfl := kind_inv rfl x0
    obtain ⟨p1, u1, rfl, q1, k1⟩ := kinds_append_inv k0
    obtain ⟨v1, g1⟩ := ih1 _ q1
    obtain ⟨p2, u2, rfl, q2, k2⟩ := kinds_append_inv k1
    obtain ⟨v2, g2⟩ := ih2 _ q2
    obtain ⟨v3, g3⟩ := ih3 _ k2
    exact ⟨_, .procDef rfl g1 g2 g3⟩
  | compBody h d1 ih1 =>
    intro w hw; subst h
    simp only [kinds_cons, kinds_append, kinds_nil] at hw
    obtain ⟨p0, u0, rfl, q0, k0⟩ := kinds_append_inv hw
    obtain ⟨v1, g1⟩ := ih1 _ q0
    obtain ⟨s1, t1, e1, u1, rfl, x1, k1⟩ := kinds_cons_inv k0
    obtain rfl := kind_inv rfl x1
    obtain rfl := kinds_nil_inv k1
    exact ⟨_, .compBody rfl g1⟩
  | contractDef h d1 d2 d3 d4 d5 ih1 ih2 ih3 ih4 ih5 =>
    intro w hw; subst h
    simp only [kinds_cons, kinds_append, kinds_nil] at hw
    obtain ⟨s0, t0, e0, u0, rfl, x0, k0⟩ := kinds_cons_inv hw
    obtain rfl := kind_inv rfl x0
    obtain ⟨p1, u1, rfl, q1, k1⟩ := kinds_append_inv k0
    obtain ⟨v1, g1⟩ := ih1 _ q1
    obtain ⟨p2, u2, rfl, q2, k2⟩ := kinds_append_inv k1
    obtain ⟨v2, g2⟩ := ih2 _ q2
    obtain ⟨p3, u3, rfl, q3, k3⟩ := kinds_append_inv k2
    obtain ⟨v3, g3⟩ := ih3 _ q3
    obtain ⟨p4, u4, rfl, q4, k4⟩ := kinds_append_inv k3
    obtain ⟨v4, g4⟩ := ih4 _ q4
    obtain ⟨v5, g5⟩ := ih5 _ k4
    exact ⟨_, .contractDef rfl g1 g2 g3 g4 g5⟩
  | contractField h d1 d2 ih1 ih2 =>
    intro w hw; subst h
    simp only [kinds_cons, kinds_append, kinds_nil] at hw
    obtain ⟨s0, t0, e0, u0, rfl, x0, k0⟩ := kinds_cons_inv hw
    obtain rfl := kind_inv rfl x0
    obtain ⟨p1, u1, rfl, q1, k1⟩ := kinds_append_inv k0
    obtain ⟨v1, g1⟩ := ih1 _ q1
    obtain ⟨s2, t2, e2, u2, rfl, x2, k2⟩ := kinds_cons_inv k1
    obtain rfl := kind_inv rfl x2
    obtain ⟨v2, g2⟩ := ih2 _ k2
    exact ⟨_, .contractField rfl g1 g2⟩
  | withConstraint h d1 ih1 =>
    intro w hw; subst h
    simp only [kinds_cons, kinds_append, kinds_nil] at hw
    obtain ⟨s0, t0, e0, u0, rfl, x0, k0⟩ := kinds_cons_inv hw
    obtain rfl := kind_inv rfl x0
    obtain ⟨p1, u1, rfl, q1, k1⟩ := kinds_append_inv k0
    obtain ⟨v1, g1⟩ := ih1 _ q1
    obtain ⟨s2, t2, e2, u2, rfl, x2, k2⟩ := kinds_cons_inv k1
    obtain rfl := kind_inv rfl x2
    obtain rfl := kinds_nil_inv k2
    exact ⟨_, .withConstraint rfl g1⟩

end Verif
