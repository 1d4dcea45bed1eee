import Verif.Spec.Spans
/-
The spans recorded in a syntax tree fit the tokens.  Generated by tools/gen_spans.py.
-/
namespace Verif

set_option linter.unusedSimpArgs false

theorem Fits.pre {w : List STok} {f : List SpanTree} (p : List STok) (h : Fits w f) :
    Fits (p ++ w) f := by
  cases h with
  | nil => exact .nil _
  | cons b r a c rest h1 h0 h2 h3 => rw [← List.append_assoc]; exact .cons _ _ _ _ _ h1 h0 h2 h3

theorem Fits.tok {w : List STok} {f : List SpanTree} {t : STok} (h : Fits w f) : Fits (t :: w) f :=
  Fits.pre [t] h

theorem Fits.post {w q : List STok} {f : List SpanTree} (h : Fits w f) : Fits (w ++ q) f := by
  induction h with
  | nil => exact .nil _
  | cons b r a c rest h1 h0 h2 h3 ih2 ih3 =>
    rw [List.append_assoc, List.append_assoc]; exact .cons _ _ _ _ _ h1 h0 h2 ih3

theorem Fits.append {w q : List STok} {f g : List SpanTree} (h : Fits w f) (h' : Fits q g) :
    Fits (w ++ q) (f ++ g) := by
  induction h with
  | nil => exact h'.pre _
  | cons b r a c rest h1 h0 h2 h3 ih2 ih3 =>
    rw [List.append_assoc, List.append_assoc]; exact .cons _ _ _ _ _ h1 h0 h2 ih3

theorem Fits.single {w : List STok} {f : List SpanTree} (hw : w ≠ [])
    (hp : Phrase w (.node (startOf w) (stopOf w) f)) (h : Fits w f) :
    Fits w [.node (startOf w) (stopOf w) f] := by
  have := Fits.cons [] w [] f [] hw hp h (.nil _)
  simpa using this

theorem Fits.inner {w : List STok} {s e : Pos} {k f : List SpanTree} (h : Fits w (.node s e k :: f)) :
    Fits w k := by
  cases h with
  | cons b r a c rest h1 h0 h2 h3 => exact Fits.pre _ h2.post

theorem Fits.mkW {α : Type} {f : α → List SpanTree} {w : List STok} {x : α} {n : NT} {v : Val n}
    (d : Derives n w v) (e : spansV n v = spanW f (mkW w x)) (hw : w ≠ [])
    (h : Fits w (f x)) : Fits w (spanW f (mkW w x)) := Fits.single hw ⟨n, v, d, e⟩ h

theorem Fits.cast {w : List STok} {f g : List SpanTree} (h : Fits w f) (e : f = g) : Fits w g := e ▸ h

theorem spanL_append {α : Type} (f : α → List SpanTree) : ∀ a b : List α,
    spanL f (a ++ b) = spanL f a ++ spanL f b
  | [], _ => rfl
  | x :: a, b => by simp [spanL, spanL_append f a b]

theorem spanL_toList {α : Type} (f : α → List SpanTree) (a : Option α) :
    spanL f a.toList = spanO f a := by cases a <;> simp [spanL, spanO]

theorem spanL_getD {α : Type} (f : α → List SpanTree) (a : Option (List α)) :
    spanL f (a.getD []) = spanO (spanL f) a := by cases a <;> rfl

/-- nonterminals that derive no empty word -/
def NT.filled : NT → Bool
  | .star _ => false
  | .opt _ => false
  | .plus n => n.filled
  | _ => true

theorem Derives.filled {n : NT} {w : List STok} {v : Val n} (d : Derives n w v) :
    n.filled = true → w ≠ [] := by
  induction d <;> simp_all [NT.filled]

@[simp] theorem NodeAddressType.spansW_eq (x : W NodeAddressType) : NodeAddressType.spansW x = spanW NodeAddressType.spans x := by cases x; rfl
@[simp] theorem NodeTypeMapEntry.spansW_eq (x : W NodeTypeMapEntry) : NodeTypeMapEntry.spansW x = spanW NodeTypeMapEntry.spans x := by cases x; rfl
@[simp] theorem NodeTypeMapValueAllowingTypeArguments.spansW_eq (x : W NodeTypeMapValueAllowingTypeArguments) : NodeTypeMapValueAllowingTypeArguments.spansW x = spanW NodeTypeMapValueAllowingTypeArguments.spans x := by cases x; rfl
@[simp] theorem NodeScillaType.spansW_eq (x : W NodeScillaType) : NodeScillaType.spansW x = spanW NodeScillaType.spans x := by cases x; rfl
@[simp] theorem NodeTypeMapKey.spansW_eq (x : W NodeTypeMapKey) : NodeTypeMapKey.spansW x = spanW NodeTypeMapKey.spans x := by cases x; rfl
@[simp] theorem NodeTypeMapValue.spansW_eq (x : W NodeTypeMapValue) : NodeTypeMapValue.spansW x = spanW NodeTypeMapValue.spans x := by cases x; rfl
@[simp] theorem NodeTypeArgument.spansW_eq (x : W NodeTypeArgument) : NodeTypeArgument.spansW x = spanW NodeTypeArgument.spans x := by cases x; rfl
@[simp] theorem NodeTypeArgument.spansLW_eq : ∀ x : List (W NodeTypeArgument), NodeTypeArgument.spansLW x = spanL (spanW NodeTypeArgument.spans) x
  | [] => rfl
  | x :: xs => by simp [NodeTypeArgument.spansLW, spanL, NodeTypeArgument.spansLW_eq xs]
@[simp] theorem NodeAddressTypeField.spansW_eq (x : W NodeAddressTypeField) : NodeAddressTypeField.spansW x = spanW NodeAddressTypeField.spans x := by cases x; rfl
@[simp] theorem NodeAddressTypeField.spansLW_eq : ∀ x : List (W NodeAddressTypeField), NodeAddressTypeField.spansLW x = spanL (spanW NodeAddressTypeField.spans) x
  | [] => rfl
  | x :: xs => by simp [NodeAddressTypeField.spansLW, spanL, NodeAddressTypeField.spansLW_eq xs]
@[simp] theorem NodeTypeMapValueArguments.spansW_eq (x : W NodeTypeMapValueArguments) : NodeTypeMapValueArguments.spansW x = spanW NodeTypeMapValueArguments.spans x := by cases x; rfl
@[simp] theorem NodeTypeMapValueArguments.spansLW_eq : ∀ x : List (W NodeTypeMapValueArguments), NodeTypeMapValueArguments.spansLW x = spanL (spanW NodeTypeMapValueArguments.spans) x
  | [] => rfl
  | x :: xs => by simp [NodeTypeMapValueArguments.spansLW, spanL, NodeTypeMapValueArguments.spansLW_eq xs]
@[simp] theorem NodeArgumentPattern.spansW_eq (x : W NodeArgumentPattern) : NodeArgumentPattern.spansW x = spanW NodeArgumentPattern.spans x := by cases x; rfl
@[simp] theorem NodeArgumentPattern.spansLW_eq : ∀ x : List (W NodeArgumentPattern), NodeArgumentPattern.spansLW x = spanL (spanW NodeArgumentPattern.spans) x
  | [] => rfl
  | x :: xs => by simp [NodeArgumentPattern.spansLW, spanL, NodeArgumentPattern.spansLW_eq xs]
@[simp] theorem NodePattern.spansW_eq (x : W NodePattern) : NodePattern.spansW x = spanW NodePattern.spans x := by cases x; rfl
@[simp] theorem NodeFullExpression.spansW_eq (x : W NodeFullExpression) : NodeFullExpression.spansW x = spanW NodeFullExpression.spans x := by cases x; rfl
@[simp] theorem NodePatternMatchExpressionClause.spansW_eq (x : W NodePatternMatchExpressionClause) : NodePatternMatchExpressionClause.spansW x = spanW NodePatternMatchExpressionClause.spans x := by cases x; rfl
@[simp] theorem NodePatternMatchExpressionClause.spansLW_eq : ∀ x : List (W NodePatternMatchExpressionClause), NodePatternMatchExpressionClause.spansLW x = spanL (spanW NodePatternMatchExpressionClause.spans) x
  | [] => rfl
  | x :: xs => by simp [NodePatternMatchExpressionClause.spansLW, spanL, NodePatternMatchExpressionClause.spansLW_eq xs]
@[simp] theorem NodePatternMatchClause.spansW_eq (x : W NodePatternMatchClause) : NodePatternMatchClause.spansW x = spanW NodePatternMatchClause.spans x := by cases x; rfl
@[simp] theorem NodePatternMatchClause.spansLW_eq : ∀ x : List (W NodePatternMatchClause), NodePatternMatchClause.spansLW x = spanL (spanW NodePatternMatchClause.spans) x
  | [] => rfl
  | x :: xs => by simp [NodePatternMatchClause.spansLW, spanL, NodePatternMatchClause.spansLW_eq xs]
@[simp] theorem NodeStatementBlock.spansW_eq (x : W NodeStatementBlock) : NodeStatementBlock.spansW x = spanW NodeStatementBlock.spans x := by cases x; rfl
@[simp] theorem NodeStatementBlock.spansOW_eq (x : Option (W NodeStatementBlock)) : NodeStatementBlock.spansOW x = spanO (spanW NodeStatementBlock.spans) x := by
  cases x <;> simp [NodeStatementBlock.spansOW, spanO]
@[simp] theorem NodeStatement.spansL_eq : ∀ x : List NodeStatement, NodeStatement.spansL x = spanL NodeStatement.spans x
  | [] => rfl
  | x :: xs => by simp [NodeStatement.spansL, spanL, NodeStatement.spansL_eq xs]

theorem Derives.fits {n : NT} {w : List STok} {v : Val n} (d : Derives n w v) :
    Fits w (spansV n v) := by
  induction d with
  | starNil =>
    exact .nil _
  | starCons d1 d2 ih1 ih2 =>
    exact .append ih1 ih2
  | plusIntro d1 d2 ih1 ih2 =>
    exact .append ih1 ih2
  | optNone =>
    exact .nil _
  | optSome d1 ih1 =>
    exact ih1
  | hexNumber h =>
    have d0 := Derives.hexNumber h 
    have hw := d0.filled rfl
    subst h
    refine Fits.mkW d0 rfl hw ?_
    exact Fits.cast (w := _) (.nil _) (by first | rfl | simp [spansV, spanL_append, spanL_toList, spanL_getD, spanL, spanO, NodeTypeMapKey.spans, NodeTypeMapValue.spans, NodeTypeArgument.spans, NodeScillaType.spans, NodeTypeMapEntry.spans, NodeAddressTypeField.spans, NodeAddressType.spans, NodeTypeMapValueArguments.spans, NodeTypeMapValueAllowingTypeArguments.spans, NodePattern.spans, NodeArgumentPattern.spans, NodeFullExpression.spans, NodePatternMatchExpressionClause.spans, NodeStatement.spans, NodePatternMatchClause.spans, NodeStatementBlock.spans])
  | signedInt h =>
    have d0 := Derives.signedInt h 
    have hw := d0.filled rfl
    subst h
    refine Fits.mkW d0 rfl hw ?_
    exact Fits.cast (w := _) (.nil _) (by first | rfl | simp [spansV, spanL_append, spanL_toList, spanL_getD, spanL, spanO, NodeTypeMapKey.spans, NodeTypeMapValue.spans, NodeTypeArgument.spans, NodeScillaType.spans, NodeTypeMapEntry.spans, NodeAddressTypeField.spans, NodeAddressType.spans, NodeTypeMapValueArguments.spans, NodeTypeMapValueAllowingTypeArguments.spans, NodePattern.spans, NodeArgumentPattern.spans, NodeFullExpression.spans, NodePatternMatchExpressionClause.spans, NodeStatement.spans, NodePatternMatchClause.spans, NodeStatementBlock.spans])
  | regularId h =>
    have d0 := Derives.regularId h 
    have hw := d0.filled rfl
    subst h
    refine Fits.mkW d0 rfl hw ?_
    exact Fits.cast (w := _) (.nil _) (by first | rfl | simp [spansV, spanL_append, spanL_toList, spanL_getD, spanL, spanO, NodeTypeMapKey.spans, NodeTypeMapValue.spans, NodeTypeArgument.spans, NodeScillaType.spans, NodeTypeMapEntry.spans, NodeAddressTypeField.spans, NodeAddressType.spans, NodeTypeMapValueArguments.spans, NodeTypeMapValueAllowingTypeArguments.spans, NodePattern.spans, NodeArgumentPattern.spans, NodeFullExpression.spans, NodePatternMatchExpressionClause.spans, NodeStatement.spans, NodePatternMatchClause.spans, NodeStatementBlock.spans])
  | specialId h =>
    have d0 := Derives.specialId h 
    have hw := d0.filled rfl
    subst h
    refine Fits.mkW d0 rfl hw ?_
    exact Fits.cast (w := _) (.nil _) (by first | rfl | simp [spansV, spanL_append, spanL_toList, spanL_getD, spanL, spanO, NodeTypeMapKey.spans, NodeTypeMapValue.spans, NodeTypeArgument.spans, NodeScillaType.spans, NodeTypeMapEntry.spans, NodeAddressTypeField.spans, NodeAddressType.spans, NodeTypeMapValueArguments.spans, NodeTypeMapValueAllowingTypeArguments.spans, NodePattern.spans, NodeArgumentPattern.spans, NodeFullExpression.spans, NodePatternMatchExpressionClause.spans, NodeStatement.spans, NodePatternMatchClause.spans, NodeStatementBlock.spans])
  | customId h =>
    have d0 := Derives.customId h 
    have hw := d0.filled rfl
    subst h
    refine Fits.mkW d0 rfl hw ?_
    exact Fits.cast (w := _) (.nil _) (by first | rfl | simp [spansV, spanL_append, spanL_toList, spanL_getD, spanL, spanO, NodeTypeMapKey.spans, NodeTypeMapValue.spans, NodeTypeArgument.spans, NodeScillaType.spans, NodeTypeMapEntry.spans, NodeAddressTypeField.spans, NodeAddressType.spans, NodeTypeMapValueArguments.spans, NodeTypeMapValueAllowingTypeArguments.spans, NodePattern.spans, NodeArgumentPattern.spans, NodeFullExpression.spans, NodePatternMatchExpressionClause.spans, NodeStatement.spans, NodePatternMatchClause.spans, NodeStatementBlock.spans])
  | templateId h =>
    have d0 := Derives.templateId h 
    have hw := d0.filled rfl
    subst h
    refine Fits.mkW d0 rfl hw ?_
    exact Fits.cast (w := _) (.nil _) (by first | rfl | simp [spansV, spanL_append, spanL_toList, spanL_getD, spanL, spanO, NodeTypeMapKey.spans, NodeTypeMapValue.spans, NodeTypeArgument.spans, NodeScillaType.spans, NodeTypeMapEntry.spans, NodeAddressTypeField.spans, NodeAddressType.spans, NodeTypeMapValueArguments.spans, NodeTypeMapValueAllowingTypeArguments.spans, NodePattern.spans, NodeArgumentPattern.spans, NodeFullExpression.spans, NodePatternMatchExpressionClause.spans, NodeStatement.spans, NodePatternMatchClause.spans, NodeStatementBlock.spans])
  | stringLit h =>
    have d0 := Derives.stringLit h 
    have hw := d0.filled rfl
    subst h
    refine Fits.mkW d0 rfl hw ?_
    exact Fits.cast (w := _) (.nil _) (by first | rfl | simp [spansV, spanL_append, spanL_toList, spanL_getD, spanL, spanO, NodeTypeMapKey.spans, NodeTypeMapValue.spans, NodeTypeArgument.spans, NodeScillaType.spans, NodeTypeMapEntry.spans, NodeAddressTypeField.spans, NodeAddressType.spans, NodeTypeMapValueArguments.spans, NodeTypeMapValueAllowingTypeArguments.spans, NodePattern.spans, NodeArgumentPattern.spans, NodeFullExpression.spans, NodePatternMatchExpressionClause.spans, NodeStatement.spans, NodePatternMatchClause.spans, NodeStatementBlock.spans])
  | byteString h =>
    have d := Derives.byteString h
    subst h; exact Fits.mkW d rfl (by simp) (.nil _)
  | typeNameBytes d1 ih1 =>
    have d0 := Derives.typeNameBytes d1
    have hw := d0.filled rfl
    refine Fits.mkW d0 rfl hw ?_
    exact Fits.cast (w := _) ih1 (by first | rfl | simp [spansV, spanL_append, spanL_toList, spanL_getD, spanL, spanO, NodeTypeMapKey.spans, NodeTypeMapValue.spans, NodeTypeArgument.spans, NodeScillaType.spans, NodeTypeMapEntry.spans, NodeAddressTypeField.spans, NodeAddressType.spans, NodeTypeMapValueArguments.spans, NodeTypeMapValueAllowingTypeArguments.spans, NodePattern.spans, NodeArgumentPattern.spans, NodeFullExpression.spans, NodePatternMatchExpressionClause.spans, NodeStatement.spans, NodePatternMatchClause.spans, NodeStatementBlock.spans])
  | typeNameEvent h =>
    have d0 := Derives.typeNameEvent h 
    have hw := d0.filled rfl
    subst h
    refine Fits.mkW d0 rfl hw ?_
    exact Fits.cast (w := _) (.nil _) (by first | rfl | simp [spansV, spanL_append, spanL_toList, spanL_getD, spanL, spanO, NodeTypeMapKey.spans, NodeTypeMapValue.spans, NodeTypeArgument.spans, NodeScillaType.spans, NodeTypeMapEntry.spans, NodeAddressTypeField.spans, NodeAddressType.spans, NodeTypeMapValueArguments.spans, NodeTypeMapValueAllowingTypeArguments.spans, NodePattern.spans, NodeArgumentPattern.spans, NodeFullExpression.spans, NodePatternMatchExpressionClause.spans, NodeStatement.spans, NodePatternMatchClause.spans, NodeStatementBlock.spans])
  | typeNameCustom d1 ih1 =>
    have d0 := Derives.typeNameCustom d1
    have hw := d0.filled rfl
    refine Fits.mkW d0 rfl hw ?_
    exact Fits.cast (w := _) ih1 (by first | rfl | simp [spansV, spanL_append, spanL_toList, spanL_getD, spanL, spanO, NodeTypeMapKey.spans, NodeTypeMapValue.spans, NodeTypeArgument.spans, NodeScillaType.spans, NodeTypeMapEntry.spans, NodeAddressTypeField.spans, NodeAddressType.spans, NodeTypeMapValueArguments.spans, NodeTypeMapValueAllowingTypeArguments.spans, NodePattern.spans, NodeArgumentPattern.spans, NodeFullExpression.spans, NodePatternMatchExpressionClause.spans, NodeStatement.spans, NodePatternMatchClause.spans, NodeStatementBlock.spans])
  | importedRegular d1 ih1 =>
    have d0 := Derives.importedRegular d1
    have hw := d0.filled rfl
    refine Fits.mkW d0 rfl hw ?_
    exact Fits.cast (w := _) ih1 (by first | rfl | simp [spansV, spanL_append, spanL_toList, spanL_getD, spanL, spanO, NodeTypeMapKey.spans, NodeTypeMapValue.spans, NodeTypeArgument.spans, NodeScillaType.spans, NodeTypeMapEntry.spans, NodeAddressTypeField.spans, NodeAddressType.spans, NodeTypeMapValueArguments.spans, NodeTypeMapValueAllowingTypeArguments.spans, NodePattern.spans, NodeArgumentPattern.spans, NodeFullExpression.spans, NodePatternMatchExpressionClause.spans, NodeStatement.spans, NodePatternMatchClause.spans, NodeStatementBlock.spans])
  | importedAliased h d1 d2 ih1 ih2 =>
    have d0 := Derives.importedAliased h d1 d2
    have hw := d0.filled rfl
    subst h
    refine Fits.mkW d0 rfl hw ?_
    exact Fits.cast (w := _) (.append ih1 (.tok ih2)) (by first | rfl | simp [spansV, spanL_append, spanL_toList, spanL_getD, spanL, spanO, NodeTypeMapKey.spans, NodeTypeMapValue.spans, NodeTypeArgument.spans, NodeScillaType.spans, NodeTypeMapEntry.spans, NodeAddressTypeField.spans, NodeAddressType.spans, NodeTypeMapValueArguments.spans, NodeTypeMapValueAllowingTypeArguments.spans, NodePattern.spans, NodeArgumentPattern.spans, NodeFullExpression.spans, NodePatternMatchExpressionClause.spans, NodeStatement.spans, NodePatternMatchClause.spans, NodeStatementBlock.spans])
  | importMore h d1 d2 ih1 ih2 =>
    subst h; exact (Fits.append ih1 (.tok ih2)).cast (by simp [spansV, NodeImportDeclarations.spans, spanL_append, spanL])
  | importFirst h d1 ih1 =>
    subst h; exact .tok ih1
  | metaName d1 ih1 =>
    have d0 := Derives.metaName d1
    have hw := d0.filled rfl
    refine Fits.mkW d0 rfl hw ?_
    exact Fits.cast (w := _) ih1 (by first | rfl | simp [spansV, spanL_append, spanL_toList, spanL_getD, spanL, spanO, NodeTypeMapKey.spans, NodeTypeMapValue.spans, NodeTypeArgument.spans, NodeScillaType.spans, NodeTypeMapEntry.spans, NodeAddressTypeField.spans, NodeAddressType.spans, NodeTypeMapValueArguments.spans, NodeTypeMapValueAllowingTypeArguments.spans, NodePattern.spans, NodeArgumentPattern.spans, NodeFullExpression.spans, NodePatternMatchExpressionClause.spans, NodeStatement.spans, NodePatternMatchClause.spans, NodeStatementBlock.spans])
  | metaNamespace h d1 d2 ih1 ih2 =>
    have d0 := Derives.metaNamespace h d1 d2
    have hw := d0.filled rfl
    subst h
    refine Fits.mkW d0 rfl hw ?_
    exact Fits.cast (w := _) (.append ih1 (.tok ih2)) (by first | rfl | simp [spansV, spanL_append, spanL_toList, spanL_getD, spanL, spanO, NodeTypeMapKey.spans, NodeTypeMapValue.spans, NodeTypeArgument.spans, NodeScillaType.spans, NodeTypeMapEntry.spans, NodeAddressTypeField.spans, NodeAddressType.spans, NodeTypeMapValueArguments.spans, NodeTypeMapValueAllowingTypeArguments.spans, NodePattern.spans, NodeArgumentPattern.spans, NodeFullExpression.spans, NodePatternMatchExpressionClause.spans, NodeStatement.spans, NodePatternMatchClause.spans, NodeStatementBlock.spans])
  | metaHexspace h d1 d2 ih1 ih2 =>
    have d0 := Derives.metaHexspace h d1 d2
    have hw := d0.filled rfl
    subst h
    refine Fits.mkW d0 rfl hw ?_
    exact Fits.cast (w := _) (.append ih1 (.tok ih2)) (by first | rfl | simp [spansV, spanL_append, spanL_toList, spanL_getD, spanL, spanO, NodeTypeMapKey.spans, NodeTypeMapValue.spans, NodeTypeArgument.spans, NodeScillaType.spans, NodeTypeMapEntry.spans, NodeAddressTypeField.spans, NodeAddressType.spans, NodeTypeMapValueArguments.spans, NodeTypeMapValueAllowingTypeArguments.spans, NodePattern.spans, NodeArgumentPattern.spans, NodeFullExpression.spans, NodePatternMatchExpressionClause.spans, NodeStatement.spans, NodePatternMatchClause.spans, NodeStatementBlock.spans])
  | metaByStr h =>
    have d0 := Derives.metaByStr h 
    have hw := d0.filled rfl
    subst h
    refine Fits.mkW d0 rfl hw ?_
    exact Fits.cast (w := _) (.nil _) (by first | rfl | simp [spansV, spanL_append, spanL_toList, spanL_getD, spanL, spanO, NodeTypeMapKey.spans, NodeTypeMapValue.spans, NodeTypeArgument.spans, NodeScillaType.spans, NodeTypeMapEntry.spans, NodeAddressTypeField.spans, NodeAddressType.spans, NodeTypeMapValueArguments.spans, NodeTypeMapValueAllowingTypeArguments.spans, NodePattern.spans, NodeArgumentPattern.spans, NodeFullExpression.spans, NodePatternMatchExpressionClause.spans, NodeStatement.spans, NodePatternMatchClause.spans, NodeStatementBlock.spans])
  | varName d1 ih1 =>
    have d0 := Derives.varName d1
    have hw := d0.filled rfl
    refine Fits.mkW d0 rfl hw ?_
    exact Fits.cast (w := _) ih1 (by first | rfl | simp [spansV, spanL_append, spanL_toList, spanL_getD, spanL, spanO, NodeTypeMapKey.spans, NodeTypeMapValue.spans, NodeTypeArgument.spans, NodeScillaType.spans, NodeTypeMapEntry.spans, NodeAddressTypeField.spans, NodeAddressType.spans, NodeTypeMapValueArguments.spans, NodeTypeMapValueAllowingTypeArguments.spans, NodePattern.spans, NodeArgumentPattern.spans, NodeFullExpression.spans, NodePatternMatchExpressionClause.spans, NodeStatement.spans, NodePatternMatchClause.spans, NodeStatementBlock.spans])
  | varSpecial d1 ih1 =>
    have d0 := Derives.varSpecial d1
    have hw := d0.filled rfl
    refine Fits.mkW d0 rfl hw ?_
    exact Fits.cast (w := _) ih1 (by first | rfl | simp [spansV, spanL_append, spanL_toList, spanL_getD, spanL, spanO, NodeTypeMapKey.spans, NodeTypeMapValue.spans, NodeTypeArgument.spans, NodeScillaType.spans, NodeTypeMapEntry.spans, NodeAddressTypeField.spans, NodeAddressType.spans, NodeTypeMapValueArguments.spans, NodeTypeMapValueAllowingTypeArguments.spans, NodePattern.spans, NodeArgumentPattern.spans, NodeFullExpression.spans, NodePatternMatchExpressionClause.spans, NodeStatement.spans, NodePatternMatchClause.spans, NodeStatementBlock.spans])
  | varNamespace h d1 d2 ih1 ih2 =>
    have d0 := Derives.varNamespace h d1 d2
    have hw := d0.filled rfl
    subst h
    refine Fits.mkW d0 rfl hw ?_
    exact Fits.cast (w := _) (.append ih1 (.tok ih2)) (by first | rfl | simp [spansV, spanL_append, spanL_toList, spanL_getD, spanL, spanO, NodeTypeMapKey.spans, NodeTypeMapValue.spans, NodeTypeArgument.spans, NodeScillaType.spans, NodeTypeMapEntry.spans, NodeAddressTypeField.spans, NodeAddressType.spans, NodeTypeMapValueArguments.spans, NodeTypeMapValueAllowingTypeArguments.spans, NodePattern.spans, NodeArgumentPattern.spans, NodeFullExpression.spans, NodePatternMatchExpressionClause.spans, NodeStatement.spans, NodePatternMatchClause.spans, NodeStatementBlock.spans])
  | builtinMore h d1 d2 ih1 ih2 =>
    have d0 := Derives.builtinMore h d1 d2
    have hw := d0.filled rfl
    subst h
    refine Fits.mkW d0 rfl hw ?_
    exact Fits.cast (w := _) (.append ih1.inner ih2) (by first | rfl | simp [spansV, NodeAddressType.spans, NodeComponentParameters.spans, NodeBuiltinArguments.spans, spanL_append, spanL_toList, spanL_getD, spanL, spanO, NodeTypeMapKey.spans, NodeTypeMapValue.spans, NodeTypeArgument.spans, NodeScillaType.spans, NodeTypeMapEntry.spans, NodeAddressTypeField.spans, NodeAddressType.spans, NodeTypeMapValueArguments.spans, NodeTypeMapValueAllowingTypeArguments.spans, NodePattern.spans, NodeArgumentPattern.spans, NodeFullExpression.spans, NodePatternMatchExpressionClause.spans, NodeStatement.spans, NodePatternMatchClause.spans, NodeStatementBlock.spans])
  | builtinOne d1 ih1 =>
    have d0 := Derives.builtinOne d1
    have hw := d0.filled rfl
    refine Fits.mkW d0 rfl hw ?_
    exact Fits.cast (w := _) ih1 (by first | rfl | simp [spansV, spanL_append, spanL_toList, spanL_getD, spanL, spanO, NodeTypeMapKey.spans, NodeTypeMapValue.spans, NodeTypeArgument.spans, NodeScillaType.spans, NodeTypeMapEntry.spans, NodeAddressTypeField.spans, NodeAddressType.spans, NodeTypeMapValueArguments.spans, NodeTypeMapValueAllowingTypeArguments.spans, NodePattern.spans, NodeArgumentPattern.spans, NodeFullExpression.spans, NodePatternMatchExpressionClause.spans, NodeStatement.spans, NodePatternMatchClause.spans, NodeStatementBlock.spans])
  | builtinUnit h =>
    have d0 := Derives.builtinUnit h 
    have hw := d0.filled rfl
    subst h
    refine Fits.mkW d0 rfl hw ?_
    exact Fits.cast (w := _) (.nil _) (by first | rfl | simp [spansV, spanL_append, spanL_toList, spanL_getD, spanL, spanO, NodeTypeMapKey.spans, NodeTypeMapValue.spans, NodeTypeArgument.spans, NodeScillaType.spans, NodeTypeMapEntry.spans, NodeAddressTypeField.spans, NodeAddressType.spans, NodeTypeMapValueArguments.spans, NodeTypeMapValueAllowingTypeArguments.spans, NodePattern.spans, NodeArgumentPattern.spans, NodeFullExpression.spans, NodePatternMatchExpressionClause.spans, NodeStatement.spans, NodePatternMatchClause.spans, NodeStatementBlock.spans])
  | remGeneric h d1 d2 ih1 ih2 =>
    have d0 := Derives.remGeneric h d1 d2
    have hw := d0.filled rfl
    subst h
    refine Fits.mkW d0 rfl hw ?_
    exact Fits.cast (w := _) (.append ih1 ih2) (by first | rfl | simp [spansV, spanL_append, spanL_toList, spanL_getD, spanL, spanO, NodeTypeMapKey.spans, NodeTypeMapValue.spans, NodeTypeArgument.spans, NodeScillaType.spans, NodeTypeMapEntry.spans, NodeAddressTypeField.spans, NodeAddressType.spans, NodeTypeMapValueArguments.spans, NodeTypeMapValueAllowingTypeArguments.spans, NodePattern.spans, NodeArgumentPattern.spans, NodeFullExpression.spans, NodePatternMatchExpressionClause.spans, NodeStatement.spans, NodePatternMatchClause.spans, NodeStatementBlock.spans])
  | remMap h d1 d2 ih1 ih2 =>
    have d0 := Derives.remMap h d1 d2
    have hw := d0.filled rfl
    subst h
    refine Fits.mkW d0 rfl hw ?_
    exact Fits.cast (w := _) (.tok (.append ih1 ih2)) (by first | rfl | simp [spansV, spanL_append, spanL_toList, spanL_getD, spanL, spanO, NodeTypeMapKey.spans, NodeTypeMapValue.spans, NodeTypeArgument.spans, NodeScillaType.spans, NodeTypeMapEntry.spans, NodeAddressTypeField.spans, NodeAddressType.spans, NodeTypeMapValueArguments.spans, NodeTypeMapValueAllowingTypeArguments.spans, NodePattern.spans, NodeArgumentPattern.spans, NodeFullExpression.spans, NodePatternMatchExpressionClause.spans, NodeStatement.spans, NodePatternMatchClause.spans, NodeStatementBlock.spans])
  | remParen h d1 ih1 =>
    have d0 := Derives.remParen h d1
    have hw := d0.filled rfl
    subst h
    refine Fits.mkW d0 rfl hw ?_
    exact Fits.cast (w := _) (.tok (.post ih1)) (by first | rfl | simp [spansV, spanL_append, spanL_toList, spanL_getD, spanL, spanO, NodeTypeMapKey.spans, NodeTypeMapValue.spans, NodeTypeArgument.spans, NodeScillaType.spans, NodeTypeMapEntry.spans, NodeAddressTypeField.spans, NodeAddressType.spans, NodeTypeMapValueArguments.spans, NodeTypeMapValueAllowingTypeArguments.spans, NodePattern.spans, NodeArgumentPattern.spans, NodeFullExpression.spans, NodePatternMatchExpressionClause.spans, NodeStatement.spans, NodePatternMatchClause.spans, NodeStatementBlock.spans])
  | remAddress d1 ih1 =>
    have d0 := Derives.remAddress d1
    have hw := d0.filled rfl
    refine Fits.mkW d0 rfl hw ?_
    exact Fits.cast (w := _) ih1 (by first | rfl | simp [spansV, spanL_append, spanL_toList, spanL_getD, spanL, spanO, NodeTypeMapKey.spans, NodeTypeMapValue.spans, NodeTypeArgument.spans, NodeScillaType.spans, NodeTypeMapEntry.spans, NodeAddressTypeField.spans, NodeAddressType.spans, NodeTypeMapValueArguments.spans, NodeTypeMapValueAllowingTypeArguments.spans, NodePattern.spans, NodeArgumentPattern.spans, NodeFullExpression.spans, NodePatternMatchExpressionClause.spans, NodeStatement.spans, NodePatternMatchClause.spans, NodeStatementBlock.spans])
  | remForall h d1 d2 ih1 ih2 =>
    have d0 := Derives.remForall h d1 d2
    have hw := d0.filled rfl
    subst h
    refine Fits.mkW d0 rfl hw ?_
    exact Fits.cast (w := _) (.tok (.append ih1 (.tok ih2))) (by first | rfl | simp [spansV, spanL_append, spanL_toList, spanL_getD, spanL, spanO, NodeTypeMapKey.spans, NodeTypeMapValue.spans, NodeTypeArgument.spans, NodeScillaType.spans, NodeTypeMapEntry.spans, NodeAddressTypeField.spans, NodeAddressType.spans, NodeTypeMapValueArguments.spans, NodeTypeMapValueAllowingTypeArguments.spans, NodePattern.spans, NodeArgumentPattern.spans, NodeFullExpression.spans, NodePatternMatchExpressionClause.spans, NodeStatement.spans, NodePatternMatchClause.spans, NodeStatementBlock.spans])
  | remTypeVar d1 ih1 =>
    have d0 := Derives.remTypeVar d1
    have hw := d0.filled rfl
    refine Fits.mkW d0 rfl hw ?_
    exact Fits.cast (w := _) ih1 (by first | rfl | simp [spansV, spanL_append, spanL_toList, spanL_getD, spanL, spanO, NodeTypeMapKey.spans, NodeTypeMapValue.spans, NodeTypeArgument.spans, NodeScillaType.spans, NodeTypeMapEntry.spans, NodeAddressTypeField.spans, NodeAddressType.spans, NodeTypeMapValueArguments.spans, NodeTypeMapValueAllowingTypeArguments.spans, NodePattern.spans, NodeArgumentPattern.spans, NodeFullExpression.spans, NodePatternMatchExpressionClause.spans, NodeStatement.spans, NodePatternMatchClause.spans, NodeStatementBlock.spans])
  | funSigMore h d1 d2 ih1 ih2 =>
    have d0 := Derives.funSigMore h d1 d2
    have hw := d0.filled rfl
    subst h
    refine Fits.mkW d0 rfl hw ?_
    exact Fits.cast (w := _) (.append ih1 (.tok ih2)) (by first | rfl | simp [spansV, spanL_append, spanL_toList, spanL_getD, spanL, spanO, NodeTypeMapKey.spans, NodeTypeMapValue.spans, NodeTypeArgument.spans, NodeScillaType.spans, NodeTypeMapEntry.spans, NodeAddressTypeField.spans, NodeAddressType.spans, NodeTypeMapValueArguments.spans, NodeTypeMapValueAllowingTypeArguments.spans, NodePattern.spans, NodeArgumentPattern.spans, NodeFullExpression.spans, NodePatternMatchExpressionClause.spans, NodeStatement.spans, NodePatternMatchClause.spans, NodeStatementBlock.spans])
  | funSigLast h d1 d2 ih1 ih2 =>
    have d0 := Derives.funSigLast h d1 d2
    have hw := d0.filled rfl
    subst h
    refine Fits.mkW d0 rfl hw ?_
    exact Fits.cast (w := _) (.append ih1 (.tok ih2)) (by first | rfl | simp [spansV, spanL_append, spanL_toList, spanL_getD, spanL, spanO, NodeTypeMapKey.spans, NodeTypeMapValue.spans, NodeTypeArgument.spans, NodeScillaType.spans, NodeTypeMapEntry.spans, NodeAddressTypeField.spans, NodeAddressType.spans, NodeTypeMapValueArguments.spans, NodeTypeMapValueAllowingTypeArguments.spans, NodePattern.spans, NodeArgumentPattern.spans, NodeFullExpression.spans, NodePatternMatchExpressionClause.spans, NodeStatement.spans, NodePatternMatchClause.spans, NodeStatementBlock.spans])
  | typeFun d1 ih1 =>
    exact ih1
  | typeRem d1 ih1 =>
    exact ih1
  | argParen h d1 ih1 =>
    have d0 := Derives.argParen h d1
    have hw := d0.filled rfl
    subst h
    refine Fits.mkW d0 rfl hw ?_
    exact Fits.cast (w := _) (.tok (.post ih1)) (by first | rfl | simp [spansV, spanL_append, spanL_toList, spanL_getD, spanL, spanO, NodeTypeMapKey.spans, NodeTypeMapValue.spans, NodeTypeArgument.spans, NodeScillaType.spans, NodeTypeMapEntry.spans, NodeAddressTypeField.spans, NodeAddressType.spans, NodeTypeMapValueArguments.spans, NodeTypeMapValueAllowingTypeArguments.spans, NodePattern.spans, NodeArgumentPattern.spans, NodeFullExpression.spans, NodePatternMatchExpressionClause.spans, NodeStatement.spans, NodePatternMatchClause.spans, NodeStatementBlock.spans])
  | argMeta d1 ih1 =>
    have d0 := Derives.argMeta d1
    have hw := d0.filled rfl
    refine Fits.mkW d0 rfl hw ?_
    exact Fits.cast (w := _) ih1 (by first | rfl | simp [spansV, spanL_append, spanL_toList, spanL_getD, spanL, spanO, NodeTypeMapKey.spans, NodeTypeMapValue.spans, NodeTypeArgument.spans, NodeScillaType.spans, NodeTypeMapEntry.spans, NodeAddressTypeField.spans, NodeAddressType.spans, NodeTypeMapValueArguments.spans, NodeTypeMapValueAllowingTypeArguments.spans, NodePattern.spans, NodeArgumentPattern.spans, NodeFullExpression.spans, NodePatternMatchExpressionClause.spans, NodeStatement.spans, NodePatternMatchClause.spans, NodeStatementBlock.spans])
  | argTemplate d1 ih1 =>
    have d0 := Derives.argTemplate d1
    have hw := d0.filled rfl
    refine Fits.mkW d0 rfl hw ?_
    exact Fits.cast (w := _) ih1 (by first | rfl | simp [spansV, spanL_append, spanL_toList, spanL_getD, spanL, spanO, NodeTypeMapKey.spans, NodeTypeMapValue.spans, NodeTypeArgument.spans, NodeScillaType.spans, NodeTypeMapEntry.spans, NodeAddressTypeField.spans, NodeAddressType.spans, NodeTypeMapValueArguments.spans, NodeTypeMapValueAllowingTypeArguments.spans, NodePattern.spans, NodeArgumentPattern.spans, NodeFullExpression.spans, NodePatternMatchExpressionClause.spans, NodeStatement.spans, NodePatternMatchClause.spans, NodeStatementBlock.spans])
  | argAddress d1 ih1 =>
    have d0 := Derives.argAddress d1
    have hw := d0.filled rfl
    refine Fits.mkW d0 rfl hw ?_
    exact Fits.cast (w := _) ih1 (by first | rfl | simp [spansV, spanL_append, spanL_toList, spanL_getD, spanL, spanO, NodeTypeMapKey.spans, NodeTypeMapValue.spans, NodeTypeArgument.spans, NodeScillaType.spans, NodeTypeMapEntry.spans, NodeAddressTypeField.spans, NodeAddressType.spans, NodeTypeMapValueArguments.spans, NodeTypeMapValueAllowingTypeArguments.spans, NodePattern.spans, NodeArgumentPattern.spans, NodeFullExpression.spans, NodePatternMatchExpressionClause.spans, NodeStatement.spans, NodePatternMatchClause.spans, NodeStatementBlock.spans])
  | argMap h d1 d2 ih1 ih2 =>
    have d0 := Derives.argMap h d1 d2
    have hw := d0.filled rfl
    subst h
    refine Fits.mkW d0 rfl hw ?_
    exact Fits.cast (w := _) (.tok (.append ih1 ih2)) (by first | rfl | simp [spansV, spanL_append, spanL_toList, spanL_getD, spanL, spanO, NodeTypeMapKey.spans, NodeTypeMapValue.spans, NodeTypeArgument.spans, NodeScillaType.spans, NodeTypeMapEntry.spans, NodeAddressTypeField.spans, NodeAddressType.spans, NodeTypeMapValueArguments.spans, NodeTypeMapValueAllowingTypeArguments.spans, NodePattern.spans, NodeArgumentPattern.spans, NodeFullExpression.spans, NodePatternMatchExpressionClause.spans, NodeStatement.spans, NodePatternMatchClause.spans, NodeStatementBlock.spans])
  | addrEmpty h d1 ih1 =>
    have d0 := Derives.addrEmpty h d1
    have hw := d0.filled rfl
    subst h
    refine Fits.mkW d0 rfl hw ?_
    exact Fits.cast (w := _) (.post ih1) (by first | rfl | simp [spansV, spanL_append, spanL_toList, spanL_getD, spanL, spanO, NodeTypeMapKey.spans, NodeTypeMapValue.spans, NodeTypeArgument.spans, NodeScillaType.spans, NodeTypeMapEntry.spans, NodeAddressTypeField.spans, NodeAddressType.spans, NodeTypeMapValueArguments.spans, NodeTypeMapValueAllowingTypeArguments.spans, NodePattern.spans, NodeArgumentPattern.spans, NodeFullExpression.spans, NodePatternMatchExpressionClause.spans, NodeStatement.spans, NodePatternMatchClause.spans, NodeStatementBlock.spans])
  | addrContract h d1 d2 ih1 ih2 =>
    have d0 := Derives.addrContract h d1 d2
    have hw := d0.filled rfl
    subst h
    refine Fits.mkW d0 rfl hw ?_
    exact Fits.cast (w := _) (.append ih1 (.tok (.tok (.post ih2)))) (by first | rfl | simp [spansV, NodeAddressType.spans, NodeComponentParameters.spans, NodeBuiltinArguments.spans, spanL_append, spanL_toList, spanL_getD, spanL, spanO, NodeTypeMapKey.spans, NodeTypeMapValue.spans, NodeTypeArgument.spans, NodeScillaType.spans, NodeTypeMapEntry.spans, NodeAddressTypeField.spans, NodeAddressType.spans, NodeTypeMapValueArguments.spans, NodeTypeMapValueAllowingTypeArguments.spans, NodePattern.spans, NodeArgumentPattern.spans, NodeFullExpression.spans, NodePatternMatchExpressionClause.spans, NodeStatement.spans, NodePatternMatchClause.spans, NodeStatementBlock.spans])
  | addrLibrary h d1 ih1 =>
    have d0 := Derives.addrLibrary h d1
    have hw := d0.filled rfl
    subst h
    refine Fits.mkW d0 rfl hw ?_
    exact Fits.cast (w := _) (.post ih1) (by first | rfl | simp [spansV, spanL_append, spanL_toList, spanL_getD, spanL, spanO, NodeTypeMapKey.spans, NodeTypeMapValue.spans, NodeTypeArgument.spans, NodeScillaType.spans, NodeTypeMapEntry.spans, NodeAddressTypeField.spans, NodeAddressType.spans, NodeTypeMapValueArguments.spans, NodeTypeMapValueAllowingTypeArguments.spans, NodePattern.spans, NodeArgumentPattern.spans, NodeFullExpression.spans, NodePatternMatchExpressionClause.spans, NodeStatement.spans, NodePatternMatchClause.spans, NodeStatementBlock.spans])
  | addrSpecial h d1 d2 ih1 ih2 =>
    have d0 := Derives.addrSpecial h d1 d2
    have hw := d0.filled rfl
    subst h
    refine Fits.mkW d0 rfl hw ?_
    exact Fits.cast (w := _) (.post ih1) (by first | rfl | simp [spansV, spanL_append, spanL_toList, spanL_getD, spanL, spanO, NodeTypeMapKey.spans, NodeTypeMapValue.spans, NodeTypeArgument.spans, NodeScillaType.spans, NodeTypeMapEntry.spans, NodeAddressTypeField.spans, NodeAddressType.spans, NodeTypeMapValueArguments.spans, NodeTypeMapValueAllowingTypeArguments.spans, NodePattern.spans, NodeArgumentPattern.spans, NodeFullExpression.spans, NodePatternMatchExpressionClause.spans, NodeStatement.spans, NodePatternMatchClause.spans, NodeStatementBlock.spans])
  | addrFieldList h d1 d2 ih1 ih2 =>
    subst h; exact Fits.cast (.append ih1 ih2) (by first | rfl | simp [spansV, spanL_append, spanL, spanO, NodeTypeMapKey.spans, NodeTypeMapValue.spans, NodeTypeArgument.spans, NodeScillaType.spans, NodeTypeMapEntry.spans, NodeAddressTypeField.spans, NodeAddressType.spans, NodeTypeMapValueArguments.spans, NodeTypeMapValueAllowingTypeArguments.spans, NodePattern.spans, NodeArgumentPattern.spans, NodeFullExpression.spans, NodePatternMatchExpressionClause.spans, NodeStatement.spans, NodePatternMatchClause.spans, NodeStatementBlock.spans])
  | nextAddrField h d1 ih1 =>
    subst h; exact Fits.cast (.tok ih1) (by first | rfl | simp [spansV, spanL_append, spanL, spanO, NodeTypeMapKey.spans, NodeTypeMapValue.spans, NodeTypeArgument.spans, NodeScillaType.spans, NodeTypeMapEntry.spans, NodeAddressTypeField.spans, NodeAddressType.spans, NodeTypeMapValueArguments.spans, NodeTypeMapValueAllowingTypeArguments.spans, NodePattern.spans, NodeArgumentPattern.spans, NodeFullExpression.spans, NodePatternMatchExpressionClause.spans, NodeStatement.spans, NodePatternMatchClause.spans, NodeStatementBlock.spans])
  | addrField h d1 d2 ih1 ih2 =>
    have d0 := Derives.addrField h d1 d2
    have hw := d0.filled rfl
    subst h
    refine Fits.mkW d0 rfl hw ?_
    exact Fits.cast (w := _) (.tok (.append ih1 (.tok ih2))) (by first | rfl | simp [spansV, spanL_append, spanL_toList, spanL_getD, spanL, spanO, NodeTypeMapKey.spans, NodeTypeMapValue.spans, NodeTypeArgument.spans, NodeScillaType.spans, NodeTypeMapEntry.spans, NodeAddressTypeField.spans, NodeAddressType.spans, NodeTypeMapValueArguments.spans, NodeTypeMapValueAllowingTypeArguments.spans, NodePattern.spans, NodeArgumentPattern.spans, NodeFullExpression.spans, NodePatternMatchExpressionClause.spans, NodeStatement.spans, NodePatternMatchClause.spans, NodeStatementBlock.spans])
  | keyMeta d1 ih1 =>
    have d0 := Derives.keyMeta d1
    have hw := d0.filled rfl
    refine Fits.mkW d0 rfl hw ?_
    exact Fits.cast (w := _) ih1 (by first | rfl | simp [spansV, spanL_append, spanL_toList, spanL_getD, spanL, spanO, NodeTypeMapKey.spans, NodeTypeMapValue.spans, NodeTypeArgument.spans, NodeScillaType.spans, NodeTypeMapEntry.spans, NodeAddressTypeField.spans, NodeAddressType.spans, NodeTypeMapValueArguments.spans, NodeTypeMapValueAllowingTypeArguments.spans, NodePattern.spans, NodeArgumentPattern.spans, NodeFullExpression.spans, NodePatternMatchExpressionClause.spans, NodeStatement.spans, NodePatternMatchClause.spans, NodeStatementBlock.spans])
  | keyParenMeta h d1 ih1 =>
    have d0 := Derives.keyParenMeta h d1
    have hw := d0.filled rfl
    subst h
    refine Fits.mkW d0 rfl hw ?_
    exact Fits.cast (w := _) (.tok (.post ih1)) (by first | rfl | simp [spansV, spanL_append, spanL_toList, spanL_getD, spanL, spanO, NodeTypeMapKey.spans, NodeTypeMapValue.spans, NodeTypeArgument.spans, NodeScillaType.spans, NodeTypeMapEntry.spans, NodeAddressTypeField.spans, NodeAddressType.spans, NodeTypeMapValueArguments.spans, NodeTypeMapValueAllowingTypeArguments.spans, NodePattern.spans, NodeArgumentPattern.spans, NodeFullExpression.spans, NodePatternMatchExpressionClause.spans, NodeStatement.spans, NodePatternMatchClause.spans, NodeStatementBlock.spans])
  | keyParenAddress h d1 ih1 =>
    have d0 := Derives.keyParenAddress h d1
    have hw := d0.filled rfl
    subst h
    refine Fits.mkW d0 rfl hw ?_
    exact Fits.cast (w := _) (.tok (.post ih1)) (by first | rfl | simp [spansV, spanL_append, spanL_toList, spanL_getD, spanL, spanO, NodeTypeMapKey.spans, NodeTypeMapValue.spans, NodeTypeArgument.spans, NodeScillaType.spans, NodeTypeMapEntry.spans, NodeAddressTypeField.spans, NodeAddressType.spans, NodeTypeMapValueArguments.spans, NodeTypeMapValueAllowingTypeArguments.spans, NodePattern.spans, NodeArgumentPattern.spans, NodeFullExpression.spans, NodePatternMatchExpressionClause.spans, NodeStatement.spans, NodePatternMatchClause.spans, NodeStatementBlock.spans])
  | keyAddress d1 ih1 =>
    have d0 := Derives.keyAddress d1
    have hw := d0.filled rfl
    refine Fits.mkW d0 rfl hw ?_
    exact Fits.cast (w := _) ih1 (by first | rfl | simp [spansV, spanL_append, spanL_toList, spanL_getD, spanL, spanO, NodeTypeMapKey.spans, NodeTypeMapValue.spans, NodeTypeArgument.spans, NodeScillaType.spans, NodeTypeMapEntry.spans, NodeAddressTypeField.spans, NodeAddressType.spans, NodeTypeMapValueArguments.spans, NodeTypeMapValueAllowingTypeArguments.spans, NodePattern.spans, NodeArgumentPattern.spans, NodeFullExpression.spans, NodePatternMatchExpressionClause.spans, NodeStatement.spans, NodePatternMatchClause.spans, NodeStatementBlock.spans])
  | valMeta d1 ih1 =>
    have d0 := Derives.valMeta d1
    have hw := d0.filled rfl
    refine Fits.mkW d0 rfl hw ?_
    exact Fits.cast (w := _) ih1 (by first | rfl | simp [spansV, spanL_append, spanL_toList, spanL_getD, spanL, spanO, NodeTypeMapKey.spans, NodeTypeMapValue.spans, NodeTypeArgument.spans, NodeScillaType.spans, NodeTypeMapEntry.spans, NodeAddressTypeField.spans, NodeAddressType.spans, NodeTypeMapValueArguments.spans, NodeTypeMapValueAllowingTypeArguments.spans, NodePattern.spans, NodeArgumentPattern.spans, NodeFullExpression.spans, NodePatternMatchExpressionClause.spans, NodeStatement.spans, NodePatternMatchClause.spans, NodeStatementBlock.spans])
  | valMap h d1 d2 ih1 ih2 =>
    have d0 := Derives.valMap h d1 d2
    have hw := d0.filled rfl
    subst h
    refine Fits.mkW d0 rfl hw ?_
    exact Fits.cast (w := _) (Fits.single hw ⟨_, _, Derives.remMap rfl d1 d2, by rw [spansV, spanW, mkW, NodeScillaType.spans]⟩ ((Fits.tok (.append ih1 ih2)).cast (by simp [spansV]))) (by first | rfl | simp [spansV, mkW, spanW, spanL_append, spanL_toList, spanL_getD, spanL, spanO, NodeTypeMapKey.spans, NodeTypeMapValue.spans, NodeTypeArgument.spans, NodeScillaType.spans, NodeTypeMapEntry.spans, NodeAddressTypeField.spans, NodeAddressType.spans, NodeTypeMapValueArguments.spans, NodeTypeMapValueAllowingTypeArguments.spans, NodePattern.spans, NodeArgumentPattern.spans, NodeFullExpression.spans, NodePatternMatchExpressionClause.spans, NodeStatement.spans, NodePatternMatchClause.spans, NodeStatementBlock.spans])
  | valParen h d1 ih1 =>
    have d0 := Derives.valParen h d1
    have hw := d0.filled rfl
    subst h
    refine Fits.mkW d0 rfl hw ?_
    exact Fits.cast (w := _) (.tok (.post ih1)) (by first | rfl | simp [spansV, spanL_append, spanL_toList, spanL_getD, spanL, spanO, NodeTypeMapKey.spans, NodeTypeMapValue.spans, NodeTypeArgument.spans, NodeScillaType.spans, NodeTypeMapEntry.spans, NodeAddressTypeField.spans, NodeAddressType.spans, NodeTypeMapValueArguments.spans, NodeTypeMapValueAllowingTypeArguments.spans, NodePattern.spans, NodeArgumentPattern.spans, NodeFullExpression.spans, NodePatternMatchExpressionClause.spans, NodeStatement.spans, NodePatternMatchClause.spans, NodeStatementBlock.spans])
  | valAddress d1 ih1 =>
    have d0 := Derives.valAddress d1
    have hw := d0.filled rfl
    refine Fits.mkW d0 rfl hw ?_
    exact Fits.cast (w := _) ih1 (by first | rfl | simp [spansV, spanL_append, spanL_toList, spanL_getD, spanL, spanO, NodeTypeMapKey.spans, NodeTypeMapValue.spans, NodeTypeArgument.spans, NodeScillaType.spans, NodeTypeMapEntry.spans, NodeAddressTypeField.spans, NodeAddressType.spans, NodeTypeMapValueArguments.spans, NodeTypeMapValueAllowingTypeArguments.spans, NodePattern.spans, NodeArgumentPattern.spans, NodeFullExpression.spans, NodePatternMatchExpressionClause.spans, NodeStatement.spans, NodePatternMatchClause.spans, NodeStatementBlock.spans])
  | mvaParen h d1 ih1 =>
    have d0 := Derives.mvaParen h d1
    have hw := d0.filled rfl
    subst h
    refine Fits.mkW d0 rfl hw ?_
    exact Fits.cast (w := _) (.tok (.post ih1)) (by first | rfl | simp [spansV, spanL_append, spanL_toList, spanL_getD, spanL, spanO, NodeTypeMapKey.spans, NodeTypeMapValue.spans, NodeTypeArgument.spans, NodeScillaType.spans, NodeTypeMapEntry.spans, NodeAddressTypeField.spans, NodeAddressType.spans, NodeTypeMapValueArguments.spans, NodeTypeMapValueAllowingTypeArguments.spans, NodePattern.spans, NodeArgumentPattern.spans, NodeFullExpression.spans, NodePatternMatchExpressionClause.spans, NodeStatement.spans, NodePatternMatchClause.spans, NodeStatementBlock.spans])
  | mvaMeta d1 ih1 =>
    have d0 := Derives.mvaMeta d1
    have hw := d0.filled rfl
    refine Fits.mkW d0 rfl hw ?_
    exact Fits.cast (w := _) ih1 (by first | rfl | simp [spansV, spanL_append, spanL_toList, spanL_getD, spanL, spanO, NodeTypeMapKey.spans, NodeTypeMapValue.spans, NodeTypeArgument.spans, NodeScillaType.spans, NodeTypeMapEntry.spans, NodeAddressTypeField.spans, NodeAddressType.spans, NodeTypeMapValueArguments.spans, NodeTypeMapValueAllowingTypeArguments.spans, NodePattern.spans, NodeArgumentPattern.spans, NodeFullExpression.spans, NodePatternMatchExpressionClause.spans, NodeStatement.spans, NodePatternMatchClause.spans, NodeStatementBlock.spans])
  | mvaMap h d1 d2 ih1 ih2 =>
    have d0 := Derives.mvaMap h d1 d2
    have hw := d0.filled rfl
    subst h
    refine Fits.mkW d0 rfl hw ?_
    exact Fits.cast (w := _) (.tok (.append ih1 ih2)) (by first | rfl | simp [spansV, spanL_append, spanL_toList, spanL_getD, spanL, spanO, NodeTypeMapKey.spans, NodeTypeMapValue.spans, NodeTypeArgument.spans, NodeScillaType.spans, NodeTypeMapEntry.spans, NodeAddressTypeField.spans, NodeAddressType.spans, NodeTypeMapValueArguments.spans, NodeTypeMapValueAllowingTypeArguments.spans, NodePattern.spans, NodeArgumentPattern.spans, NodeFullExpression.spans, NodePatternMatchExpressionClause.spans, NodeStatement.spans, NodePatternMatchClause.spans, NodeStatementBlock.spans])
  | program h d1 d2 d3 d4 ih1 ih2 ih3 ih4 =>
    subst h; exact Fits.cast (.tok (.append ih1 (.append ih2 (.append ih3 ih4)))) (by first | rfl | simp [spansV, spanL_append, spanL, spanO, NodeTypeMapKey.spans, NodeTypeMapValue.spans, NodeTypeArgument.spans, NodeScillaType.spans, NodeTypeMapEntry.spans, NodeAddressTypeField.spans, NodeAddressType.spans, NodeTypeMapValueArguments.spans, NodeTypeMapValueAllowingTypeArguments.spans, NodePattern.spans, NodeArgumentPattern.spans, NodeFullExpression.spans, NodePatternMatchExpressionClause.spans, NodeStatement.spans, NodePatternMatchClause.spans, NodeStatementBlock.spans])
  | libraryDef h d1 d2 ih1 ih2 =>
    have d0 := Derives.libraryDef h d1 d2
    have hw := d0.filled rfl
    subst h
    refine Fits.mkW d0 rfl hw ?_
    exact Fits.cast (w := _) (.tok (.append ih1 ih2)) (by first | rfl | simp [spansV, spanL_append, spanL_toList, spanL_getD, spanL, spanO, NodeTypeMapKey.spans, NodeTypeMapValue.spans, NodeTypeArgument.spans, NodeScillaType.spans, NodeTypeMapEntry.spans, NodeAddressTypeField.spans, NodeAddressType.spans, NodeTypeMapValueArguments.spans, NodeTypeMapValueAllowingTypeArguments.spans, NodePattern.spans, NodeArgumentPattern.spans, NodeFullExpression.spans, NodePatternMatchExpressionClause.spans, NodeStatement.spans, NodePatternMatchClause.spans, NodeStatementBlock.spans])
  | libLet h d1 d2 d3 ih1 ih2 ih3 =>
    have d0 := Derives.libLet h d1 d2 d3
    have hw := d0.filled rfl
    subst h
    refine Fits.mkW d0 rfl hw ?_
    exact Fits.cast (w := _) (.tok (.append ih1 (.append ih2 (.tok ih3)))) (by first | rfl | simp [spansV, spanL_append, spanL_toList, spanL_getD, spanL, spanO, NodeTypeMapKey.spans, NodeTypeMapValue.spans, NodeTypeArgument.spans, NodeScillaType.spans, NodeTypeMapEntry.spans, NodeAddressTypeField.spans, NodeAddressType.spans, NodeTypeMapValueArguments.spans, NodeTypeMapValueAllowingTypeArguments.spans, NodePattern.spans, NodeArgumentPattern.spans, NodeFullExpression.spans, NodePatternMatchExpressionClause.spans, NodeStatement.spans, NodePatternMatchClause.spans, NodeStatementBlock.spans])
  | libType h d1 ih1 =>
    have d0 := Derives.libType h d1
    have hw := d0.filled rfl
    subst h
    refine Fits.mkW d0 rfl hw ?_
    exact Fits.cast (w := _) (.tok ih1) (by first | rfl | simp [spansV, spanL_append, spanL_toList, spanL_getD, spanL, spanO, NodeTypeMapKey.spans, NodeTypeMapValue.spans, NodeTypeArgument.spans, NodeScillaType.spans, NodeTypeMapEntry.spans, NodeAddressTypeField.spans, NodeAddressType.spans, NodeTypeMapValueArguments.spans, NodeTypeMapValueAllowingTypeArguments.spans, NodePattern.spans, NodeArgumentPattern.spans, NodeFullExpression.spans, NodePatternMatchExpressionClause.spans, NodeStatement.spans, NodePatternMatchClause.spans, NodeStatementBlock.spans])
  | libTypeAlts h d1 d2 ih1 ih2 =>
    have d0 := Derives.libTypeAlts h d1 d2
    have hw := d0.filled rfl
    subst h
    refine Fits.mkW d0 rfl hw ?_
    exact Fits.cast (w := _) (.tok (.append ih1 (.tok ih2))) (by first | rfl | simp [spansV, spanL_append, spanL_toList, spanL_getD, spanL, spanO, NodeTypeMapKey.spans, NodeTypeMapValue.spans, NodeTypeArgument.spans, NodeScillaType.spans, NodeTypeMapEntry.spans, NodeAddressTypeField.spans, NodeAddressType.spans, NodeTypeMapValueArguments.spans, NodeTypeMapValueAllowingTypeArguments.spans, NodePattern.spans, NodeArgumentPattern.spans, NodeFullExpression.spans, NodePatternMatchExpressionClause.spans, NodeStatement.spans, NodePatternMatchClause.spans, NodeStatementBlock.spans])
  | typedId h d1 d2 ih1 ih2 =>
    have d0 := Derives.typedId h d1 d2
    have hw := d0.filled rfl
    subst h
    refine Fits.mkW d0 rfl hw ?_
    exact Fits.cast (w := _) (.append ih1 ih2) (by first | rfl | simp [spansV, spanL_append, spanL_toList, spanL_getD, spanL, spanO, NodeTypeMapKey.spans, NodeTypeMapValue.spans, NodeTypeArgument.spans, NodeScillaType.spans, NodeTypeMapEntry.spans, NodeAddressTypeField.spans, NodeAddressType.spans, NodeTypeMapValueArguments.spans, NodeTypeMapValueAllowingTypeArguments.spans, NodePattern.spans, NodeArgumentPattern.spans, NodeFullExpression.spans, NodePatternMatchExpressionClause.spans, NodeStatement.spans, NodePatternMatchClause.spans, NodeStatementBlock.spans])
  | typeAnn h d1 ih1 =>
    have d0 := Derives.typeAnn h d1
    have hw := d0.filled rfl
    subst h
    refine Fits.mkW d0 rfl hw ?_
    exact Fits.cast (w := _) (.tok ih1) (by first | rfl | simp [spansV, spanL_append, spanL_toList, spanL_getD, spanL, spanO, NodeTypeMapKey.spans, NodeTypeMapValue.spans, NodeTypeArgument.spans, NodeScillaType.spans, NodeTypeMapEntry.spans, NodeAddressTypeField.spans, NodeAddressType.spans, NodeTypeMapValueArguments.spans, NodeTypeMapValueAllowingTypeArguments.spans, NodePattern.spans, NodeArgumentPattern.spans, NodeFullExpression.spans, NodePatternMatchExpressionClause.spans, NodeStatement.spans, NodePatternMatchClause.spans, NodeStatementBlock.spans])
  | altType h d1 ih1 =>
    have d0 := Derives.altType h d1
    have hw := d0.filled rfl
    subst h
    refine Fits.mkW d0 rfl hw ?_
    exact Fits.cast (w := _) (.tok ih1) (by first | rfl | simp [spansV, spanL_append, spanL_toList, spanL_getD, spanL, spanO, NodeTypeMapKey.spans, NodeTypeMapValue.spans, NodeTypeArgument.spans, NodeScillaType.spans, NodeTypeMapEntry.spans, NodeAddressTypeField.spans, NodeAddressType.spans, NodeTypeMapValueArguments.spans, NodeTypeMapValueAllowingTypeArguments.spans, NodePattern.spans, NodeArgumentPattern.spans, NodeFullExpression.spans, NodePatternMatchExpressionClause.spans, NodeStatement.spans, NodePatternMatchClause.spans, NodeStatementBlock.spans])
  | altTypeArgs h d1 d2 ih1 ih2 =>
    have d0 := Derives.altTypeArgs h d1 d2
    have hw := d0.filled rfl
    subst h
    refine Fits.mkW d0 rfl hw ?_
    exact Fits.cast (w := _) (.tok (.append ih1 (.tok ih2))) (by first | rfl | simp [spansV, spanL_append, spanL_toList, spanL_getD, spanL, spanO, NodeTypeMapKey.spans, NodeTypeMapValue.spans, NodeTypeArgument.spans, NodeScillaType.spans, NodeTypeMapEntry.spans, NodeAddressTypeField.spans, NodeAddressType.spans, NodeTypeMapValueArguments.spans, NodeTypeMapValueAllowingTypeArguments.spans, NodePattern.spans, NodeArgumentPattern.spans, NodeFullExpression.spans, NodePatternMatchExpressionClause.spans, NodeStatement.spans, NodePatternMatchClause.spans, NodeStatementBlock.spans])
  | mvWithArgs h d1 d2 ih1 ih2 =>
    have d0 := Derives.mvWithArgs h d1 d2
    have hw := d0.filled rfl
    subst h
    refine Fits.mkW d0 rfl hw ?_
    exact Fits.cast (w := _) (.append ih1 ih2) (by first | rfl | simp [spansV, spanL_append, spanL_toList, spanL_getD, spanL, spanO, NodeTypeMapKey.spans, NodeTypeMapValue.spans, NodeTypeArgument.spans, NodeScillaType.spans, NodeTypeMapEntry.spans, NodeAddressTypeField.spans, NodeAddressType.spans, NodeTypeMapValueArguments.spans, NodeTypeMapValueAllowingTypeArguments.spans, NodePattern.spans, NodeArgumentPattern.spans, NodeFullExpression.spans, NodePatternMatchExpressionClause.spans, NodeStatement.spans, NodePatternMatchClause.spans, NodeStatementBlock.spans])
  | mvNoArgs d1 ih1 =>
    have d0 := Derives.mvNoArgs d1
    have hw := d0.filled rfl
    refine Fits.mkW d0 rfl hw ?_
    exact Fits.cast (w := _) ih1 (by first | rfl | simp [spansV, spanL_append, spanL_toList, spanL_getD, spanL, spanO, NodeTypeMapKey.spans, NodeTypeMapValue.spans, NodeTypeArgument.spans, NodeScillaType.spans, NodeTypeMapEntry.spans, NodeAddressTypeField.spans, NodeAddressType.spans, NodeTypeMapValueArguments.spans, NodeTypeMapValueAllowingTypeArguments.spans, NodePattern.spans, NodeArgumentPattern.spans, NodeFullExpression.spans, NodePatternMatchExpressionClause.spans, NodeStatement.spans, NodePatternMatchClause.spans, NodeStatementBlock.spans])
  | contractTypeArgs h d1 ih1 =>
    have d0 := Derives.contractTypeArgs h d1
    have hw := d0.filled rfl
    subst h
    refine Fits.mkW d0 rfl hw ?_
    exact Fits.cast (w := _) (.tok (.post ih1)) (by first | rfl | simp [spansV, spanL_append, spanL_toList, spanL_getD, spanL, spanO, NodeTypeMapKey.spans, NodeTypeMapValue.spans, NodeTypeArgument.spans, NodeScillaType.spans, NodeTypeMapEntry.spans, NodeAddressTypeField.spans, NodeAddressType.spans, NodeTypeMapValueArguments.spans, NodeTypeMapValueAllowingTypeArguments.spans, NodePattern.spans, NodeArgumentPattern.spans, NodeFullExpression.spans, NodePatternMatchExpressionClause.spans, NodeStatement.spans, NodePatternMatchClause.spans, NodeStatementBlock.spans])
  | exprLet h d1 d2 d3 d4 ih1 ih2 ih3 ih4 =>
    have d0 := Derives.exprLet h d1 d2 d3 d4
    have hw := d0.filled rfl
    subst h
    refine Fits.mkW d0 rfl hw ?_
    exact Fits.cast (w := _) (.tok (.append ih1 (.append ih2 (.tok (.append ih3 (.tok ih4)))))) (by first | rfl | simp [spansV, spanL_append, spanL_toList, spanL_getD, spanL, spanO, NodeTypeMapKey.spans, NodeTypeMapValue.spans, NodeTypeArgument.spans, NodeScillaType.spans, NodeTypeMapEntry.spans, NodeAddressTypeField.spans, NodeAddressType.spans, NodeTypeMapValueArguments.spans, NodeTypeMapValueAllowingTypeArguments.spans, NodePattern.spans, NodeArgumentPattern.spans, NodeFullExpression.spans, NodePatternMatchExpressionClause.spans, NodeStatement.spans, NodePatternMatchClause.spans, NodeStatementBlock.spans])
  | exprFun h d1 d2 d3 ih1 ih2 ih3 =>
    have d0 := Derives.exprFun h d1 d2 d3
    have hw := d0.filled rfl
    subst h
    refine Fits.mkW d0 rfl hw ?_
    exact Fits.cast (w := _) (.tok (.tok (.append ih1 (.append ih2 (.tok (.tok ih3)))))) (by first | rfl | simp [spansV, spanL_append, spanL_toList, spanL_getD, spanL, spanO, NodeTypeMapKey.spans, NodeTypeMapValue.spans, NodeTypeArgument.spans, NodeScillaType.spans, NodeTypeMapEntry.spans, NodeAddressTypeField.spans, NodeAddressType.spans, NodeTypeMapValueArguments.spans, NodeTypeMapValueAllowingTypeArguments.spans, NodePattern.spans, NodeArgumentPattern.spans, NodeFullExpression.spans, NodePatternMatchExpressionClause.spans, NodeStatement.spans, NodePatternMatchClause.spans, NodeStatementBlock.spans])
  | exprCall h d1 d2 ih1 ih2 =>
    have d0 := Derives.exprCall h d1 d2
    have hw := d0.filled rfl
    subst h
    refine Fits.mkW d0 rfl hw ?_
    exact Fits.cast (w := _) (.append ih1 ih2) (by first | rfl | simp [spansV, spanL_append, spanL_toList, spanL_getD, spanL, spanO, NodeTypeMapKey.spans, NodeTypeMapValue.spans, NodeTypeArgument.spans, NodeScillaType.spans, NodeTypeMapEntry.spans, NodeAddressTypeField.spans, NodeAddressType.spans, NodeTypeMapValueArguments.spans, NodeTypeMapValueAllowingTypeArguments.spans, NodePattern.spans, NodeArgumentPattern.spans, NodeFullExpression.spans, NodePatternMatchExpressionClause.spans, NodeStatement.spans, NodePatternMatchClause.spans, NodeStatementBlock.spans])
  | exprAtomic d1 ih1 =>
    have d0 := Derives.exprAtomic d1
    have hw := d0.filled rfl
    refine Fits.mkW d0 rfl hw ?_
    exact Fits.cast (w := _) ih1 (by first | rfl | simp [spansV, spanL_append, spanL_toList, spanL_getD, spanL, spanO, NodeTypeMapKey.spans, NodeTypeMapValue.spans, NodeTypeArgument.spans, NodeScillaType.spans, NodeTypeMapEntry.spans, NodeAddressTypeField.spans, NodeAddressType.spans, NodeTypeMapValueArguments.spans, NodeTypeMapValueAllowingTypeArguments.spans, NodePattern.spans, NodeArgumentPattern.spans, NodeFullExpression.spans, NodePatternMatchExpressionClause.spans, NodeStatement.spans, NodePatternMatchClause.spans, NodeStatementBlock.spans])
  | exprBuiltin h d1 d2 d3 ih1 ih2 ih3 =>
    have d0 := Derives.exprBuiltin h d1 d2 d3
    have hw := d0.filled rfl
    subst h
    refine Fits.mkW d0 rfl hw ?_
    exact Fits.cast (w := _) (.tok (.append ih1 (.append ih2 ih3))) (by first | rfl | simp [spansV, spanL_append, spanL_toList, spanL_getD, spanL, spanO, NodeTypeMapKey.spans, NodeTypeMapValue.spans, NodeTypeArgument.spans, NodeScillaType.spans, NodeTypeMapEntry.spans, NodeAddressTypeField.spans, NodeAddressType.spans, NodeTypeMapValueArguments.spans, NodeTypeMapValueAllowingTypeArguments.spans, NodePattern.spans, NodeArgumentPattern.spans, NodeFullExpression.spans, NodePatternMatchExpressionClause.spans, NodeStatement.spans, NodePatternMatchClause.spans, NodeStatementBlock.spans])
  | exprMessage h d1 d2 ih1 ih2 =>
    have d0 := Derives.exprMessage h d1 d2
    have hw := d0.filled rfl
    subst h
    refine Fits.mkW d0 rfl hw ?_
    exact Fits.cast (w := _) (.tok (.append ih1 (.post ih2))) (by first | rfl | simp [spansV, spanL_append, spanL_toList, spanL_getD, spanL, spanO, NodeTypeMapKey.spans, NodeTypeMapValue.spans, NodeTypeArgument.spans, NodeScillaType.spans, NodeTypeMapEntry.spans, NodeAddressTypeField.spans, NodeAddressType.spans, NodeTypeMapValueArguments.spans, NodeTypeMapValueAllowingTypeArguments.spans, NodePattern.spans, NodeArgumentPattern.spans, NodeFullExpression.spans, NodePatternMatchExpressionClause.spans, NodeStatement.spans, NodePatternMatchClause.spans, NodeStatementBlock.spans])
  | exprMatch h d1 d2 ih1 ih2 =>
    have d0 := Derives.exprMatch h d1 d2
    have hw := d0.filled rfl
    subst h
    refine Fits.mkW d0 rfl hw ?_
    exact Fits.cast (w := _) (.tok (.append ih1 (.tok (.post ih2)))) (by first | rfl | simp [spansV, spanL_append, spanL_toList, spanL_getD, spanL, spanO, NodeTypeMapKey.spans, NodeTypeMapValue.spans, NodeTypeArgument.spans, NodeScillaType.spans, NodeTypeMapEntry.spans, NodeAddressTypeField.spans, NodeAddressType.spans, NodeTypeMapValueArguments.spans, NodeTypeMapValueAllowingTypeArguments.spans, NodePattern.spans, NodeArgumentPattern.spans, NodeFullExpression.spans, NodePatternMatchExpressionClause.spans, NodeStatement.spans, NodePatternMatchClause.spans, NodeStatementBlock.spans])
  | exprConstr h d1 d2 d3 ih1 ih2 ih3 =>
    have d0 := Derives.exprConstr h d1 d2 d3
    have hw := d0.filled rfl
    subst h
    refine Fits.mkW d0 rfl hw ?_
    exact Fits.cast (w := _) (.append ih1 (.append ih2 ih3)) (by first | rfl | simp [spansV, spanL_append, spanL_toList, spanL_getD, spanL, spanO, NodeTypeMapKey.spans, NodeTypeMapValue.spans, NodeTypeArgument.spans, NodeScillaType.spans, NodeTypeMapEntry.spans, NodeAddressTypeField.spans, NodeAddressType.spans, NodeTypeMapValueArguments.spans, NodeTypeMapValueAllowingTypeArguments.spans, NodePattern.spans, NodeArgumentPattern.spans, NodeFullExpression.spans, NodePatternMatchExpressionClause.spans, NodeStatement.spans, NodePatternMatchClause.spans, NodeStatementBlock.spans])
  | exprTFun h d1 d2 ih1 ih2 =>
    have d0 := Derives.exprTFun h d1 d2
    have hw := d0.filled rfl
    subst h
    refine Fits.mkW d0 rfl hw ?_
    exact Fits.cast (w := _) (.tok (.append ih1 (.tok ih2))) (by first | rfl | simp [spansV, spanL_append, spanL_toList, spanL_getD, spanL, spanO, NodeTypeMapKey.spans, NodeTypeMapValue.spans, NodeTypeArgument.spans, NodeScillaType.spans, NodeTypeMapEntry.spans, NodeAddressTypeField.spans, NodeAddressType.spans, NodeTypeMapValueArguments.spans, NodeTypeMapValueAllowingTypeArguments.spans, NodePattern.spans, NodeArgumentPattern.spans, NodeFullExpression.spans, NodePatternMatchExpressionClause.spans, NodeStatement.spans, NodePatternMatchClause.spans, NodeStatementBlock.spans])
  | exprTApp h d1 d2 ih1 ih2 =>
    have d0 := Derives.exprTApp h d1 d2
    have hw := d0.filled rfl
    subst h
    refine Fits.mkW d0 rfl hw ?_
    exact Fits.cast (w := _) (.tok (.append ih1 ih2)) (by first | rfl | simp [spansV, spanL_append, spanL_toList, spanL_getD, spanL, spanO, NodeTypeMapKey.spans, NodeTypeMapValue.spans, NodeTypeArgument.spans, NodeScillaType.spans, NodeTypeMapEntry.spans, NodeAddressTypeField.spans, NodeAddressType.spans, NodeTypeMapValueArguments.spans, NodeTypeMapValueAllowingTypeArguments.spans, NodePattern.spans, NodeArgumentPattern.spans, NodeFullExpression.spans, NodePatternMatchExpressionClause.spans, NodeStatement.spans, NodePatternMatchClause.spans, NodeStatementBlock.spans])
  | pmExprClause h d1 d2 ih1 ih2 =>
    have d0 := Derives.pmExprClause h d1 d2
    have hw := d0.filled rfl
    subst h
    refine Fits.mkW d0 rfl hw ?_
    exact Fits.cast (w := _) (.tok (.append ih1 (.tok ih2))) (by first | rfl | simp [spansV, spanL_append, spanL_toList, spanL_getD, spanL, spanO, NodeTypeMapKey.spans, NodeTypeMapValue.spans, NodeTypeArgument.spans, NodeScillaType.spans, NodeTypeMapEntry.spans, NodeAddressTypeField.spans, NodeAddressType.spans, NodeTypeMapValueArguments.spans, NodeTypeMapValueAllowingTypeArguments.spans, NodePattern.spans, NodeArgumentPattern.spans, NodeFullExpression.spans, NodePatternMatchExpressionClause.spans, NodeStatement.spans, NodePatternMatchClause.spans, NodeStatementBlock.spans])
  | patWildcard h =>
    have d0 := Derives.patWildcard h 
    have hw := d0.filled rfl
    subst h
    refine Fits.mkW d0 rfl hw ?_
    exact Fits.cast (w := _) (.nil _) (by first | rfl | simp [spansV, spanL_append, spanL_toList, spanL_getD, spanL, spanO, NodeTypeMapKey.spans, NodeTypeMapValue.spans, NodeTypeArgument.spans, NodeScillaType.spans, NodeTypeMapEntry.spans, NodeAddressTypeField.spans, NodeAddressType.spans, NodeTypeMapValueArguments.spans, NodeTypeMapValueAllowingTypeArguments.spans, NodePattern.spans, NodeArgumentPattern.spans, NodeFullExpression.spans, NodePatternMatchExpressionClause.spans, NodeStatement.spans, NodePatternMatchClause.spans, NodeStatementBlock.spans])
  | patBinder d1 ih1 =>
    have d0 := Derives.patBinder d1
    have hw := d0.filled rfl
    refine Fits.mkW d0 rfl hw ?_
    exact Fits.cast (w := _) ih1 (by first | rfl | simp [spansV, spanL_append, spanL_toList, spanL_getD, spanL, spanO, NodeTypeMapKey.spans, NodeTypeMapValue.spans, NodeTypeArgument.spans, NodeScillaType.spans, NodeTypeMapEntry.spans, NodeAddressTypeField.spans, NodeAddressType.spans, NodeTypeMapValueArguments.spans, NodeTypeMapValueAllowingTypeArguments.spans, NodePattern.spans, NodeArgumentPattern.spans, NodeFullExpression.spans, NodePatternMatchExpressionClause.spans, NodeStatement.spans, NodePatternMatchClause.spans, NodeStatementBlock.spans])
  | patConstr h d1 d2 ih1 ih2 =>
    have d0 := Derives.patConstr h d1 d2
    have hw := d0.filled rfl
    subst h
    refine Fits.mkW d0 rfl hw ?_
    exact Fits.cast (w := _) (.append ih1 ih2) (by first | rfl | simp [spansV, spanL_append, spanL_toList, spanL_getD, spanL, spanO, NodeTypeMapKey.spans, NodeTypeMapValue.spans, NodeTypeArgument.spans, NodeScillaType.spans, NodeTypeMapEntry.spans, NodeAddressTypeField.spans, NodeAddressType.spans, NodeTypeMapValueArguments.spans, NodeTypeMapValueAllowingTypeArguments.spans, NodePattern.spans, NodeArgumentPattern.spans, NodeFullExpression.spans, NodePatternMatchExpressionClause.spans, NodeStatement.spans, NodePatternMatchClause.spans, NodeStatementBlock.spans])
  | apWildcard h =>
    have d0 := Derives.apWildcard h 
    have hw := d0.filled rfl
    subst h
    refine Fits.mkW d0 rfl hw ?_
    exact Fits.cast (w := _) (.nil _) (by first | rfl | simp [spansV, spanL_append, spanL_toList, spanL_getD, spanL, spanO, NodeTypeMapKey.spans, NodeTypeMapValue.spans, NodeTypeArgument.spans, NodeScillaType.spans, NodeTypeMapEntry.spans, NodeAddressTypeField.spans, NodeAddressType.spans, NodeTypeMapValueArguments.spans, NodeTypeMapValueAllowingTypeArguments.spans, NodePattern.spans, NodeArgumentPattern.spans, NodeFullExpression.spans, NodePatternMatchExpressionClause.spans, NodeStatement.spans, NodePatternMatchClause.spans, NodeStatementBlock.spans])
  | apBinder d1 ih1 =>
    have d0 := Derives.apBinder d1
    have hw := d0.filled rfl
    refine Fits.mkW d0 rfl hw ?_
    exact Fits.cast (w := _) ih1 (by first | rfl | simp [spansV, spanL_append, spanL_toList, spanL_getD, spanL, spanO, NodeTypeMapKey.spans, NodeTypeMapValue.spans, NodeTypeArgument.spans, NodeScillaType.spans, NodeTypeMapEntry.spans, NodeAddressTypeField.spans, NodeAddressType.spans, NodeTypeMapValueArguments.spans, NodeTypeMapValueAllowingTypeArguments.spans, NodePattern.spans, NodeArgumentPattern.spans, NodeFullExpression.spans, NodePatternMatchExpressionClause.spans, NodeStatement.spans, NodePatternMatchClause.spans, NodeStatementBlock.spans])
  | apConstr d1 ih1 =>
    have d0 := Derives.apConstr d1
    have hw := d0.filled rfl
    refine Fits.mkW d0 rfl hw ?_
    exact Fits.cast (w := _) ih1 (by first | rfl | simp [spansV, spanL_append, spanL_toList, spanL_getD, spanL, spanO, NodeTypeMapKey.spans, NodeTypeMapValue.spans, NodeTypeArgument.spans, NodeScillaType.spans, NodeTypeMapEntry.spans, NodeAddressTypeField.spans, NodeAddressType.spans, NodeTypeMapValueArguments.spans, NodeTypeMapValueAllowingTypeArguments.spans, NodePattern.spans, NodeArgumentPattern.spans, NodeFullExpression.spans, NodePatternMatchExpressionClause.spans, NodeStatement.spans, NodePatternMatchClause.spans, NodeStatementBlock.spans])
  | apParen h d1 ih1 =>
    have d0 := Derives.apParen h d1
    have hw := d0.filled rfl
    subst h
    refine Fits.mkW d0 rfl hw ?_
    exact Fits.cast (w := _) (.tok (.post ih1)) (by first | rfl | simp [spansV, spanL_append, spanL_toList, spanL_getD, spanL, spanO, NodeTypeMapKey.spans, NodeTypeMapValue.spans, NodeTypeArgument.spans, NodeScillaType.spans, NodeTypeMapEntry.spans, NodeAddressTypeField.spans, NodeAddressType.spans, NodeTypeMapValueArguments.spans, NodeTypeMapValueAllowingTypeArguments.spans, NodePattern.spans, NodeArgumentPattern.spans, NodeFullExpression.spans, NodePatternMatchExpressionClause.spans, NodeStatement.spans, NodePatternMatchClause.spans, NodeStatementBlock.spans])
  | nextMessage h d1 ih1 =>
    subst h; exact Fits.cast (.tok ih1) (by first | rfl | simp [spansV, spanL_append, spanL, spanO, NodeTypeMapKey.spans, NodeTypeMapValue.spans, NodeTypeArgument.spans, NodeScillaType.spans, NodeTypeMapEntry.spans, NodeAddressTypeField.spans, NodeAddressType.spans, NodeTypeMapValueArguments.spans, NodeTypeMapValueAllowingTypeArguments.spans, NodePattern.spans, NodeArgumentPattern.spans, NodeFullExpression.spans, NodePatternMatchExpressionClause.spans, NodeStatement.spans, NodePatternMatchClause.spans, NodeStatementBlock.spans])
  | msgLiteral h d1 d2 ih1 ih2 =>
    have d0 := Derives.msgLiteral h d1 d2
    have hw := d0.filled rfl
    subst h
    refine Fits.mkW d0 rfl hw ?_
    exact Fits.cast (w := _) (.append ih1 (.tok ih2)) (by first | rfl | simp [spansV, spanL_append, spanL_toList, spanL_getD, spanL, spanO, NodeTypeMapKey.spans, NodeTypeMapValue.spans, NodeTypeArgument.spans, NodeScillaType.spans, NodeTypeMapEntry.spans, NodeAddressTypeField.spans, NodeAddressType.spans, NodeTypeMapValueArguments.spans, NodeTypeMapValueAllowingTypeArguments.spans, NodePattern.spans, NodeArgumentPattern.spans, NodeFullExpression.spans, NodePatternMatchExpressionClause.spans, NodeStatement.spans, NodePatternMatchClause.spans, NodeStatementBlock.spans])
  | msgVariable h d1 d2 ih1 ih2 =>
    have d0 := Derives.msgVariable h d1 d2
    have hw := d0.filled rfl
    subst h
    refine Fits.mkW d0 rfl hw ?_
    exact Fits.cast (w := _) (.append ih1 (.tok ih2)) (by first | rfl | simp [spansV, spanL_append, spanL_toList, spanL_getD, spanL, spanO, NodeTypeMapKey.spans, NodeTypeMapValue.spans, NodeTypeArgument.spans, NodeScillaType.spans, NodeTypeMapEntry.spans, NodeAddressTypeField.spans, NodeAddressType.spans, NodeTypeMapValueArguments.spans, NodeTypeMapValueAllowingTypeArguments.spans, NodePattern.spans, NodeArgumentPattern.spans, NodeFullExpression.spans, NodePatternMatchExpressionClause.spans, NodeStatement.spans, NodePatternMatchClause.spans, NodeStatementBlock.spans])
  | atomicVar d1 ih1 =>
    have d0 := Derives.atomicVar d1
    have hw := d0.filled rfl
    refine Fits.mkW d0 rfl hw ?_
    exact Fits.cast (w := _) ih1 (by first | rfl | simp [spansV, spanL_append, spanL_toList, spanL_getD, spanL, spanO, NodeTypeMapKey.spans, NodeTypeMapValue.spans, NodeTypeArgument.spans, NodeScillaType.spans, NodeTypeMapEntry.spans, NodeAddressTypeField.spans, NodeAddressType.spans, NodeTypeMapValueArguments.spans, NodeTypeMapValueAllowingTypeArguments.spans, NodePattern.spans, NodeArgumentPattern.spans, NodeFullExpression.spans, NodePatternMatchExpressionClause.spans, NodeStatement.spans, NodePatternMatchClause.spans, NodeStatementBlock.spans])
  | atomicLit d1 ih1 =>
    have d0 := Derives.atomicLit d1
    have hw := d0.filled rfl
    refine Fits.mkW d0 rfl hw ?_
    exact Fits.cast (w := _) ih1 (by first | rfl | simp [spansV, spanL_append, spanL_toList, spanL_getD, spanL, spanO, NodeTypeMapKey.spans, NodeTypeMapValue.spans, NodeTypeArgument.spans, NodeScillaType.spans, NodeTypeMapEntry.spans, NodeAddressTypeField.spans, NodeAddressType.spans, NodeTypeMapValueArguments.spans, NodeTypeMapValueAllowingTypeArguments.spans, NodePattern.spans, NodeArgumentPattern.spans, NodeFullExpression.spans, NodePatternMatchExpressionClause.spans, NodeStatement.spans, NodePatternMatchClause.spans, NodeStatementBlock.spans])
  | litInt h d1 d2 ih1 ih2 =>
    have d0 := Derives.litInt h d1 d2
    have hw := d0.filled rfl
    subst h
    refine Fits.mkW d0 rfl hw ?_
    exact Fits.cast (w := _) (.append ih1 ih2) (by first | rfl | simp [spansV, spanL_append, spanL_toList, spanL_getD, spanL, spanO, NodeTypeMapKey.spans, NodeTypeMapValue.spans, NodeTypeArgument.spans, NodeScillaType.spans, NodeTypeMapEntry.spans, NodeAddressTypeField.spans, NodeAddressType.spans, NodeTypeMapValueArguments.spans, NodeTypeMapValueAllowingTypeArguments.spans, NodePattern.spans, NodeArgumentPattern.spans, NodeFullExpression.spans, NodePatternMatchExpressionClause.spans, NodeStatement.spans, NodePatternMatchClause.spans, NodeStatementBlock.spans])
  | litHex d1 ih1 =>
    have d0 := Derives.litHex d1
    have hw := d0.filled rfl
    refine Fits.mkW d0 rfl hw ?_
    exact Fits.cast (w := _) ih1 (by first | rfl | simp [spansV, spanL_append, spanL_toList, spanL_getD, spanL, spanO, NodeTypeMapKey.spans, NodeTypeMapValue.spans, NodeTypeArgument.spans, NodeScillaType.spans, NodeTypeMapEntry.spans, NodeAddressTypeField.spans, NodeAddressType.spans, NodeTypeMapValueArguments.spans, NodeTypeMapValueAllowingTypeArguments.spans, NodePattern.spans, NodeArgumentPattern.spans, NodeFullExpression.spans, NodePatternMatchExpressionClause.spans, NodeStatement.spans, NodePatternMatchClause.spans, NodeStatementBlock.spans])
  | litString d1 ih1 =>
    have d0 := Derives.litString d1
    have hw := d0.filled rfl
    refine Fits.mkW d0 rfl hw ?_
    exact Fits.cast (w := _) ih1 (by first | rfl | simp [spansV, spanL_append, spanL_toList, spanL_getD, spanL, spanO, NodeTypeMapKey.spans, NodeTypeMapValue.spans, NodeTypeArgument.spans, NodeScillaType.spans, NodeTypeMapEntry.spans, NodeAddressTypeField.spans, NodeAddressType.spans, NodeTypeMapValueArguments.spans, NodeTypeMapValueAllowingTypeArguments.spans, NodePattern.spans, NodeArgumentPattern.spans, NodeFullExpression.spans, NodePatternMatchExpressionClause.spans, NodeStatement.spans, NodePatternMatchClause.spans, NodeStatementBlock.spans])
  | litEmp h d1 d2 ih1 ih2 =>
    have d0 := Derives.litEmp h d1 d2
    have hw := d0.filled rfl
    subst h
    refine Fits.mkW d0 rfl hw ?_
    exact Fits.cast (w := _) (.tok (.append ih1 ih2)) (by first | rfl | simp [spansV, spanL_append, spanL_toList, spanL_getD, spanL, spanO, NodeTypeMapKey.spans, NodeTypeMapValue.spans, NodeTypeArgument.spans, NodeScillaType.spans, NodeTypeMapEntry.spans, NodeAddressTypeField.spans, NodeAddressType.spans, NodeTypeMapValueArguments.spans, NodeTypeMapValueAllowingTypeArguments.spans, NodePattern.spans, NodeArgumentPattern.spans, NodeFullExpression.spans, NodePatternMatchExpressionClause.spans, NodeStatement.spans, NodePatternMatchClause.spans, NodeStatementBlock.spans])
  | stLoad h d1 d2 ih1 ih2 =>
    subst h; exact Fits.cast (.append ih1 (.tok ih2)) (by first | rfl | simp [spansV, spanL_append, spanL, spanO, NodeTypeMapKey.spans, NodeTypeMapValue.spans, NodeTypeArgument.spans, NodeScillaType.spans, NodeTypeMapEntry.spans, NodeAddressTypeField.spans, NodeAddressType.spans, NodeTypeMapValueArguments.spans, NodeTypeMapValueAllowingTypeArguments.spans, NodePattern.spans, NodeArgumentPattern.spans, NodeFullExpression.spans, NodePatternMatchExpressionClause.spans, NodeStatement.spans, NodePatternMatchClause.spans, NodeStatementBlock.spans])
  | stRemote d1 ih1 =>
    exact ih1
  | stStore h d1 d2 ih1 ih2 =>
    subst h; exact Fits.cast (.append ih1 (.tok ih2)) (by first | rfl | simp [spansV, spanL_append, spanL, spanO, NodeTypeMapKey.spans, NodeTypeMapValue.spans, NodeTypeArgument.spans, NodeScillaType.spans, NodeTypeMapEntry.spans, NodeAddressTypeField.spans, NodeAddressType.spans, NodeTypeMapValueArguments.spans, NodeTypeMapValueAllowingTypeArguments.spans, NodePattern.spans, NodeArgumentPattern.spans, NodeFullExpression.spans, NodePatternMatchExpressionClause.spans, NodeStatement.spans, NodePatternMatchClause.spans, NodeStatementBlock.spans])
  | stBind h d1 d2 ih1 ih2 =>
    subst h; exact Fits.cast (.append ih1 (.tok ih2)) (by first | rfl | simp [spansV, spanL_append, spanL, spanO, NodeTypeMapKey.spans, NodeTypeMapValue.spans, NodeTypeArgument.spans, NodeScillaType.spans, NodeTypeMapEntry.spans, NodeAddressTypeField.spans, NodeAddressType.spans, NodeTypeMapValueArguments.spans, NodeTypeMapValueAllowingTypeArguments.spans, NodePattern.spans, NodeArgumentPattern.spans, NodeFullExpression.spans, NodePatternMatchExpressionClause.spans, NodeStatement.spans, NodePatternMatchClause.spans, NodeStatementBlock.spans])
  | stReadBC h d1 d2 d3 ih1 ih2 ih3 =>
    subst h; exact Fits.cast (.append ih1 (.tok (.tok (.append ih2 ih3)))) (by first | rfl | simp [spansV, spanL_append, spanL, spanO, NodeTypeMapKey.spans, NodeTypeMapValue.spans, NodeTypeArgument.spans, NodeScillaType.spans, NodeTypeMapEntry.spans, NodeAddressTypeField.spans, NodeAddressType.spans, NodeTypeMapValueArguments.spans, NodeTypeMapValueAllowingTypeArguments.spans, NodePattern.spans, NodeArgumentPattern.spans, NodeFullExpression.spans, NodePatternMatchExpressionClause.spans, NodeStatement.spans, NodePatternMatchClause.spans, NodeStatementBlock.spans])
  | stMapGet h d1 d2 d3 ih1 ih2 ih3 =>
    subst h; exact Fits.cast (.append ih1 (.tok (.append ih2 ih3))) (by first | rfl | simp [spansV, spanL_append, spanL, spanO, NodeTypeMapKey.spans, NodeTypeMapValue.spans, NodeTypeArgument.spans, NodeScillaType.spans, NodeTypeMapEntry.spans, NodeAddressTypeField.spans, NodeAddressType.spans, NodeTypeMapValueArguments.spans, NodeTypeMapValueAllowingTypeArguments.spans, NodePattern.spans, NodeArgumentPattern.spans, NodeFullExpression.spans, NodePatternMatchExpressionClause.spans, NodeStatement.spans, NodePatternMatchClause.spans, NodeStatementBlock.spans])
  | stMapGetExists h d1 d2 d3 ih1 ih2 ih3 =>
    subst h; exact Fits.cast (.append ih1 (.tok (.tok (.append ih2 ih3)))) (by first | rfl | simp [spansV, spanL_append, spanL, spanO, NodeTypeMapKey.spans, NodeTypeMapValue.spans, NodeTypeArgument.spans, NodeScillaType.spans, NodeTypeMapEntry.spans, NodeAddressTypeField.spans, NodeAddressType.spans, NodeTypeMapValueArguments.spans, NodeTypeMapValueAllowingTypeArguments.spans, NodePattern.spans, NodeArgumentPattern.spans, NodeFullExpression.spans, NodePatternMatchExpressionClause.spans, NodeStatement.spans, NodePatternMatchClause.spans, NodeStatementBlock.spans])
  | stMapUpdate h d1 d2 d3 ih1 ih2 ih3 =>
    subst h; exact Fits.cast (.append ih1 (.append ih2 (.tok ih3))) (by first | rfl | simp [spansV, spanL_append, spanL, spanO, NodeTypeMapKey.spans, NodeTypeMapValue.spans, NodeTypeArgument.spans, NodeScillaType.spans, NodeTypeMapEntry.spans, NodeAddressTypeField.spans, NodeAddressType.spans, NodeTypeMapValueArguments.spans, NodeTypeMapValueAllowingTypeArguments.spans, NodePattern.spans, NodeArgumentPattern.spans, NodeFullExpression.spans, NodePatternMatchExpressionClause.spans, NodeStatement.spans, NodePatternMatchClause.spans, NodeStatementBlock.spans])
  | stMapDelete h d1 d2 ih1 ih2 =>
    subst h; exact Fits.cast (.tok (.append ih1 ih2)) (by first | rfl | simp [spansV, spanL_append, spanL, spanO, NodeTypeMapKey.spans, NodeTypeMapValue.spans, NodeTypeArgument.spans, NodeScillaType.spans, NodeTypeMapEntry.spans, NodeAddressTypeField.spans, NodeAddressType.spans, NodeTypeMapValueArguments.spans, NodeTypeMapValueAllowingTypeArguments.spans, NodePattern.spans, NodeArgumentPattern.spans, NodeFullExpression.spans, NodePatternMatchExpressionClause.spans, NodeStatement.spans, NodePatternMatchClause.spans, NodeStatementBlock.spans])
  | stAccept h =>
    subst h; exact Fits.cast (.nil _) (by first | rfl | simp [spansV, spanL_append, spanL, spanO, NodeTypeMapKey.spans, NodeTypeMapValue.spans, NodeTypeArgument.spans, NodeScillaType.spans, NodeTypeMapEntry.spans, NodeAddressTypeField.spans, NodeAddressType.spans, NodeTypeMapValueArguments.spans, NodeTypeMapValueAllowingTypeArguments.spans, NodePattern.spans, NodeArgumentPattern.spans, NodeFullExpression.spans, NodePatternMatchExpressionClause.spans, NodeStatement.spans, NodePatternMatchClause.spans, NodeStatementBlock.spans])
  | stSend h d1 ih1 =>
    subst h; exact Fits.cast (.tok ih1) (by first | rfl | simp [spansV, spanL_append, spanL, spanO, NodeTypeMapKey.spans, NodeTypeMapValue.spans, NodeTypeArgument.spans, NodeScillaType.spans, NodeTypeMapEntry.spans, NodeAddressTypeField.spans, NodeAddressType.spans, NodeTypeMapValueArguments.spans, NodeTypeMapValueAllowingTypeArguments.spans, NodePattern.spans, NodeArgumentPattern.spans, NodeFullExpression.spans, NodePatternMatchExpressionClause.spans, NodeStatement.spans, NodePatternMatchClause.spans, NodeStatementBlock.spans])
  | stEvent h d1 ih1 =>
    subst h; exact Fits.cast (.tok ih1) (by first | rfl | simp [spansV, spanL_append, spanL, spanO, NodeTypeMapKey.spans, NodeTypeMapValue.spans, NodeTypeArgument.spans, NodeScillaType.spans, NodeTypeMapEntry.spans, NodeAddressTypeField.spans, NodeAddressType.spans, NodeTypeMapValueArguments.spans, NodeTypeMapValueAllowingTypeArguments.spans, NodePattern.spans, NodeArgumentPattern.spans, NodeFullExpression.spans, NodePatternMatchExpressionClause.spans, NodeStatement.spans, NodePatternMatchClause.spans, NodeStatementBlock.spans])
  | stThrow h d1 ih1 =>
    subst h; exact Fits.cast (.tok ih1) (by first | rfl | simp [spansV, spanL_append, spanL, spanO, NodeTypeMapKey.spans, NodeTypeMapValue.spans, NodeTypeArgument.spans, NodeScillaType.spans, NodeTypeMapEntry.spans, NodeAddressTypeField.spans, NodeAddressType.spans, NodeTypeMapValueArguments.spans, NodeTypeMapValueAllowingTypeArguments.spans, NodePattern.spans, NodeArgumentPattern.spans, NodeFullExpression.spans, NodePatternMatchExpressionClause.spans, NodeStatement.spans, NodePatternMatchClause.spans, NodeStatementBlock.spans])
  | stMatch h d1 d2 ih1 ih2 =>
    subst h; exact Fits.cast (.tok (.append ih1 (.tok (.post ih2)))) (by first | rfl | simp [spansV, spanL_append, spanL, spanO, NodeTypeMapKey.spans, NodeTypeMapValue.spans, NodeTypeArgument.spans, NodeScillaType.spans, NodeTypeMapEntry.spans, NodeAddressTypeField.spans, NodeAddressType.spans, NodeTypeMapValueArguments.spans, NodeTypeMapValueAllowingTypeArguments.spans, NodePattern.spans, NodeArgumentPattern.spans, NodeFullExpression.spans, NodePatternMatchExpressionClause.spans, NodeStatement.spans, NodePatternMatchClause.spans, NodeStatementBlock.spans])
  | stCall h d1 d2 ih1 ih2 =>
    subst h; exact Fits.cast (.append ih1 ih2) (by first | rfl | simp [spansV, spanL_append, spanL, spanO, NodeTypeMapKey.spans, NodeTypeMapValue.spans, NodeTypeArgument.spans, NodeScillaType.spans, NodeTypeMapEntry.spans, NodeAddressTypeField.spans, NodeAddressType.spans, NodeTypeMapValueArguments.spans, NodeTypeMapValueAllowingTypeArguments.spans, NodePattern.spans, NodeArgumentPattern.spans, NodeFullExpression.spans, NodePatternMatchExpressionClause.spans, NodeStatement.spans, NodePatternMatchClause.spans, NodeStatementBlock.spans])
  | stForall h d1 d2 ih1 ih2 =>
    subst h; exact Fits.cast (.tok (.append ih1 ih2)) (by first | rfl | simp [spansV, spanL_append, spanL, spanO, NodeTypeMapKey.spans, NodeTypeMapValue.spans, NodeTypeArgument.spans, NodeScillaType.spans, NodeTypeMapEntry.spans, NodeAddressTypeField.spans, NodeAddressType.spans, NodeTypeMapValueArguments.spans, NodeTypeMapValueAllowingTypeArguments.spans, NodePattern.spans, NodeArgumentPattern.spans, NodeFullExpression.spans, NodePatternMatchExpressionClause.spans, NodeStatement.spans, NodePatternMatchClause.spans, NodeStatementBlock.spans])
  | nextStatement h d1 ih1 =>
    subst h; exact Fits.cast (.tok ih1) (by first | rfl | simp [spansV, spanL_append, spanL, spanO, NodeTypeMapKey.spans, NodeTypeMapValue.spans, NodeTypeArgument.spans, NodeScillaType.spans, NodeTypeMapEntry.spans, NodeAddressTypeField.spans, NodeAddressType.spans, NodeTypeMapValueArguments.spans, NodeTypeMapValueAllowingTypeArguments.spans, NodePattern.spans, NodeArgumentPattern.spans, NodeFullExpression.spans, NodePatternMatchExpressionClause.spans, NodeStatement.spans, NodePatternMatchClause.spans, NodeStatementBlock.spans])
  | stmtBlock h d1 d2 ih1 ih2 =>
    have d0 := Derives.stmtBlock h d1 d2
    have hw := d0.filled rfl
    subst h
    refine Fits.mkW d0 rfl hw ?_
    exact Fits.cast (w := _) (.append ih1 ih2) (by first | rfl | simp [spansV, spanL_append, spanL_toList, spanL_getD, spanL, spanO, NodeTypeMapKey.spans, NodeTypeMapValue.spans, NodeTypeArgument.spans, NodeScillaType.spans, NodeTypeMapEntry.spans, NodeAddressTypeField.spans, NodeAddressType.spans, NodeTypeMapValueArguments.spans, NodeTypeMapValueAllowingTypeArguments.spans, NodePattern.spans, NodeArgumentPattern.spans, NodeFullExpression.spans, NodePatternMatchExpressionClause.spans, NodeStatement.spans, NodePatternMatchClause.spans, NodeStatementBlock.spans])
  | bcFetchArgs h d1 ih1 =>
    subst h; exact Fits.cast (.tok (.post ih1)) (by first | rfl | simp [spansV, spanL_append, spanL, spanO, NodeTypeMapKey.spans, NodeTypeMapValue.spans, NodeTypeArgument.spans, NodeScillaType.spans, NodeTypeMapEntry.spans, NodeAddressTypeField.spans, NodeAddressType.spans, NodeTypeMapValueArguments.spans, NodeTypeMapValueAllowingTypeArguments.spans, NodePattern.spans, NodeArgumentPattern.spans, NodeFullExpression.spans, NodePatternMatchExpressionClause.spans, NodeStatement.spans, NodePatternMatchClause.spans, NodeStatementBlock.spans])
  | componentType d1 ih1 =>
    have d0 := Derives.componentType d1
    have hw := d0.filled rfl
    refine Fits.mkW d0 rfl hw ?_
    exact Fits.cast (w := _) ih1 (by first | rfl | simp [spansV, spanL_append, spanL_toList, spanL_getD, spanL, spanO, NodeTypeMapKey.spans, NodeTypeMapValue.spans, NodeTypeArgument.spans, NodeScillaType.spans, NodeTypeMapEntry.spans, NodeAddressTypeField.spans, NodeAddressType.spans, NodeTypeMapValueArguments.spans, NodeTypeMapValueAllowingTypeArguments.spans, NodePattern.spans, NodeArgumentPattern.spans, NodeFullExpression.spans, NodePatternMatchExpressionClause.spans, NodeStatement.spans, NodePatternMatchClause.spans, NodeStatementBlock.spans])
  | componentRegular d1 ih1 =>
    have d0 := Derives.componentRegular d1
    have hw := d0.filled rfl
    refine Fits.mkW d0 rfl hw ?_
    exact Fits.cast (w := _) ih1 (by first | rfl | simp [spansV, spanL_append, spanL_toList, spanL_getD, spanL, spanO, NodeTypeMapKey.spans, NodeTypeMapValue.spans, NodeTypeArgument.spans, NodeScillaType.spans, NodeTypeMapEntry.spans, NodeAddressTypeField.spans, NodeAddressType.spans, NodeTypeMapValueArguments.spans, NodeTypeMapValueAllowingTypeArguments.spans, NodePattern.spans, NodeArgumentPattern.spans, NodeFullExpression.spans, NodePatternMatchExpressionClause.spans, NodeStatement.spans, NodePatternMatchClause.spans, NodeStatementBlock.spans])
  | pmClause h d1 d2 ih1 ih2 =>
    have d0 := Derives.pmClause h d1 d2
    have hw := d0.filled rfl
    subst h
    refine Fits.mkW d0 rfl hw ?_
    exact Fits.cast (w := _) (.tok (.append ih1 (.tok ih2))) (by first | rfl | simp [spansV, spanL_append, spanL_toList, spanL_getD, spanL, spanO, NodeTypeMapKey.spans, NodeTypeMapValue.spans, NodeTypeArgument.spans, NodeScillaType.spans, NodeTypeMapEntry.spans, NodeAddressTypeField.spans, NodeAddressType.spans, NodeTypeMapValueArguments.spans, NodeTypeMapValueAllowingTypeArguments.spans, NodePattern.spans, NodeArgumentPattern.spans, NodeFullExpression.spans, NodePatternMatchExpressionClause.spans, NodeStatement.spans, NodePatternMatchClause.spans, NodeStatementBlock.spans])
  | rfState h d1 d2 d3 ih1 ih2 ih3 =>
    subst h; exact Fits.cast (.append ih1 (.tok (.tok (.append ih2 (.tok ih3))))) (by first | rfl | simp [spansV, spanL_append, spanL, spanO, NodeTypeMapKey.spans, NodeTypeMapValue.spans, NodeTypeArgument.spans, NodeScillaType.spans, NodeTypeMapEntry.spans, NodeAddressTypeField.spans, NodeAddressType.spans, NodeTypeMapValueArguments.spans, NodeTypeMapValueAllowingTypeArguments.spans, NodePattern.spans, NodeArgumentPattern.spans, NodeFullExpression.spans, NodePatternMatchExpressionClause.spans, NodeStatement.spans, NodePatternMatchClause.spans, NodeStatementBlock.spans])
  | rfSpecial h d1 d2 d3 ih1 ih2 ih3 =>
    subst h; exact Fits.cast (.append ih1 (.tok (.tok (.append ih2 (.tok ih3))))) (by first | rfl | simp [spansV, spanL_append, spanL, spanO, NodeTypeMapKey.spans, NodeTypeMapValue.spans, NodeTypeArgument.spans, NodeScillaType.spans, NodeTypeMapEntry.spans, NodeAddressTypeField.spans, NodeAddressType.spans, NodeTypeMapValueArguments.spans, NodeTypeMapValueAllowingTypeArguments.spans, NodePattern.spans, NodeArgumentPattern.spans, NodeFullExpression.spans, NodePatternMatchExpressionClause.spans, NodeStatement.spans, NodePatternMatchClause.spans, NodeStatementBlock.spans])
  | rfMap h d1 d2 d3 d4 ih1 ih2 ih3 ih4 =>
    subst h; exact Fits.cast (.append ih1 (.tok (.tok (.append ih2 (.tok (.append ih3 ih4)))))) (by first | rfl | simp [spansV, spanL_append, spanL, spanO, NodeTypeMapKey.spans, NodeTypeMapValue.spans, NodeTypeArgument.spans, NodeScillaType.spans, NodeTypeMapEntry.spans, NodeAddressTypeField.spans, NodeAddressType.spans, NodeTypeMapValueArguments.spans, NodeTypeMapValueAllowingTypeArguments.spans, NodePattern.spans, NodeArgumentPattern.spans, NodeFullExpression.spans, NodePatternMatchExpressionClause.spans, NodeStatement.spans, NodePatternMatchClause.spans, NodeStatementBlock.spans])
  | rfExists h d1 d2 d3 d4 ih1 ih2 ih3 ih4 =>
    subst h; exact Fits.cast (.append ih1 (.tok (.tok (.tok (.append ih2 (.tok (.append ih3 ih4))))))) (by first | rfl | simp [spansV, spanL_append, spanL, spanO, NodeTypeMapKey.spans, NodeTypeMapValue.spans, NodeTypeArgument.spans, NodeScillaType.spans, NodeTypeMapEntry.spans, NodeAddressTypeField.spans, NodeAddressType.spans, NodeTypeMapValueArguments.spans, NodeTypeMapValueAllowingTypeArguments.spans, NodePattern.spans, NodeArgumentPattern.spans, NodeFullExpression.spans, NodePatternMatchExpressionClause.spans, NodeStatement.spans, NodePatternMatchClause.spans, NodeStatementBlock.spans])
  | rfCast h d1 d2 d3 ih1 ih2 ih3 =>
    subst h; exact Fits.cast (.append ih1 (.tok (.tok (.append ih2 (.tok ih3))))) (by first | rfl | simp [spansV, spanL_append, spanL, spanO, NodeTypeMapKey.spans, NodeTypeMapValue.spans, NodeTypeArgument.spans, NodeScillaType.spans, NodeTypeMapEntry.spans, NodeAddressTypeField.spans, NodeAddressType.spans, NodeTypeMapValueArguments.spans, NodeTypeMapValueAllowingTypeArguments.spans, NodePattern.spans, NodeArgumentPattern.spans, NodeFullExpression.spans, NodePatternMatchExpressionClause.spans, NodeStatement.spans, NodePatternMatchClause.spans, NodeStatementBlock.spans])
  | mapAccess h d1 ih1 =>
    have d0 := Derives.mapAccess h d1
    have hw := d0.filled rfl
    subst h
    refine Fits.mkW d0 rfl hw ?_
    exact Fits.cast (w := _) (.tok (.post ih1)) (by first | rfl | simp [spansV, spanL_append, spanL_toList, spanL_getD, spanL, spanO, NodeTypeMapKey.spans, NodeTypeMapValue.spans, NodeTypeArgument.spans, NodeScillaType.spans, NodeTypeMapEntry.spans, NodeAddressTypeField.spans, NodeAddressType.spans, NodeTypeMapValueArguments.spans, NodeTypeMapValueAllowingTypeArguments.spans, NodePattern.spans, NodeArgumentPattern.spans, NodeFullExpression.spans, NodePatternMatchExpressionClause.spans, NodeStatement.spans, NodePatternMatchClause.spans, NodeStatementBlock.spans])
  | paramPair d1 ih1 =>
    have d0 := Derives.paramPair d1
    have hw := d0.filled rfl
    refine Fits.mkW d0 rfl hw ?_
    exact Fits.cast (w := _) ih1 (by first | rfl | simp [spansV, spanL_append, spanL_toList, spanL_getD, spanL, spanO, NodeTypeMapKey.spans, NodeTypeMapValue.spans, NodeTypeArgument.spans, NodeScillaType.spans, NodeTypeMapEntry.spans, NodeAddressTypeField.spans, NodeAddressType.spans, NodeTypeMapValueArguments.spans, NodeTypeMapValueAllowingTypeArguments.spans, NodePattern.spans, NodeArgumentPattern.spans, NodeFullExpression.spans, NodePatternMatchExpressionClause.spans, NodeStatement.spans, NodePatternMatchClause.spans, NodeStatementBlock.spans])
  | nextParamPair h d1 ih1 =>
    subst h; exact Fits.cast (.tok ih1) (by first | rfl | simp [spansV, spanL_append, spanL, spanO, NodeTypeMapKey.spans, NodeTypeMapValue.spans, NodeTypeArgument.spans, NodeScillaType.spans, NodeTypeMapEntry.spans, NodeAddressTypeField.spans, NodeAddressType.spans, NodeTypeMapValueArguments.spans, NodeTypeMapValueAllowingTypeArguments.spans, NodePattern.spans, NodeArgumentPattern.spans, NodeFullExpression.spans, NodePatternMatchExpressionClause.spans, NodeStatement.spans, NodePatternMatchClause.spans, NodeStatementBlock.spans])
  | compParams h d1 d2 ih1 ih2 =>
    have d0 := Derives.compParams h d1 d2
    have hw := d0.filled rfl
    subst h
    refine Fits.mkW d0 rfl hw ?_
    exact Fits.cast (w := _) (.tok (.append ih1 (.post ih2))) (by first | rfl | simp [spansV, NodeAddressType.spans, NodeComponentParameters.spans, NodeBuiltinArguments.spans, spanL_append, spanL_toList, spanL_getD, spanL, spanO, NodeTypeMapKey.spans, NodeTypeMapValue.spans, NodeTypeArgument.spans, NodeScillaType.spans, NodeTypeMapEntry.spans, NodeAddressTypeField.spans, NodeAddressType.spans, NodeTypeMapValueArguments.spans, NodeTypeMapValueAllowingTypeArguments.spans, NodePattern.spans, NodeArgumentPattern.spans, NodeFullExpression.spans, NodePatternMatchExpressionClause.spans, NodeStatement.spans, NodePatternMatchClause.spans, NodeStatementBlock.spans])
  | compTransition d1 ih1 =>
    have d0 := Derives.compTransition d1
    have hw := d0.filled rfl
    refine Fits.mkW d0 rfl hw ?_
    exact Fits.cast (w := _) ih1 (by first | rfl | simp [spansV, spanL_append, spanL_toList, spanL_getD, spanL, spanO, NodeTypeMapKey.spans, NodeTypeMapValue.spans, NodeTypeArgument.spans, NodeScillaType.spans, NodeTypeMapEntry.spans, NodeAddressTypeField.spans, NodeAddressType.spans, NodeTypeMapValueArguments.spans, NodeTypeMapValueAllowingTypeArguments.spans, NodePattern.spans, NodeArgumentPattern.spans, NodeFullExpression.spans, NodePatternMatchExpressionClause.spans, NodeStatement.spans, NodePatternMatchClause.spans, NodeStatementBlock.spans])
  | compProcedure d1 ih1 =>
    have d0 := Derives.compProcedure d1
    have hw := d0.filled rfl
    refine Fits.mkW d0 rfl hw ?_
    exact Fits.cast (w := _) ih1 (by first | rfl | simp [spansV, spanL_append, spanL_toList, spanL_getD, spanL, spanO, NodeTypeMapKey.spans, NodeTypeMapValue.spans, NodeTypeArgument.spans, NodeScillaType.spans, NodeTypeMapEntry.spans, NodeAddressTypeField.spans, NodeAddressType.spans, NodeTypeMapValueArguments.spans, NodeTypeMapValueAllowingTypeArguments.spans, NodePattern.spans, NodeArgumentPattern.spans, NodeFullExpression.spans, NodePatternMatchExpressionClause.spans, NodeStatement.spans, NodePatternMatchClause.spans, NodeStatementBlock.spans])
  | transDef h d1 d2 d3 ih1 ih2 ih3 =>
    have d0 := Derives.transDef h d1 d2 d3
    have hw := d0.filled rfl
    subst h
    refine Fits.mkW d0 rfl hw ?_
    exact Fits.cast (w := _) (.tok (.append ih1 (.append ih2 ih3))) (by first | rfl | simp [spansV, spanL_append, spanL_toList, spanL_getD, spanL, spanO, NodeTypeMapKey.spans, NodeTypeMapValue.spans, NodeTypeArgument.spans, NodeScillaType.spans, NodeTypeMapEntry.spans, NodeAddressTypeField.spans, NodeAddressType.spans, NodeTypeMapValueArguments.spans, NodeTypeMapValueAllowingTypeArguments.spans, NodePattern.spans, NodeArgumentPattern.spans, NodeFullExpression.spans, NodePatternMatchExpressionClause.spans, NodeStatement.spans, NodePatternMatchClause.spans, NodeStatementBlock.spans])
  | procDef h d1 d2 d3 ih1 ih2 ih3 =>
    have d0 := Derives.procDef h d1 d2 d3
    have hw := d0.filled rfl
    subst h
    refine Fits.mkW d0 rfl hw ?_
    exact Fits.cast (w := _) (.tok (.append ih1 (.append ih2 ih3))) (by first | rfl | simp [spansV, spanL_append, spanL_toList, spanL_getD, spanL, spanO, NodeTypeMapKey.spans, NodeTypeMapValue.spans, NodeTypeArgument.spans, NodeScillaType.spans, NodeTypeMapEntry.spans, NodeAddressTypeField.spans, NodeAddressType.spans, NodeTypeMapValueArguments.spans, NodeTypeMapValueAllowingTypeArguments.spans, NodePattern.spans, NodeArgumentPattern.spans, NodeFullExpression.spans, NodePatternMatchExpressionClause.spans, NodeStatement.spans, NodePatternMatchClause.spans, NodeStatementBlock.spans])
  | compBody h d1 ih1 =>
    have d0 := Derives.compBody h d1
    have hw := d0.filled rfl
    subst h
    refine Fits.mkW d0 rfl hw ?_
    exact Fits.cast (w := _) (.post ih1) (by first | rfl | simp [spansV, spanL_append, spanL_toList, spanL_getD, spanL, spanO, NodeTypeMapKey.spans, NodeTypeMapValue.spans, NodeTypeArgument.spans, NodeScillaType.spans, NodeTypeMapEntry.spans, NodeAddressTypeField.spans, NodeAddressType.spans, NodeTypeMapValueArguments.spans, NodeTypeMapValueAllowingTypeArguments.spans, NodePattern.spans, NodeArgumentPattern.spans, NodeFullExpression.spans, NodePatternMatchExpressionClause.spans, NodeStatement.spans, NodePatternMatchClause.spans, NodeStatementBlock.spans])
  | contractDef h d1 d2 d3 d4 d5 ih1 ih2 ih3 ih4 ih5 =>
    have d0 := Derives.contractDef h d1 d2 d3 d4 d5
    have hw := d0.filled rfl
    subst h
    refine Fits.mkW d0 rfl hw ?_
    exact Fits.cast (w := _) (.tok (.append ih1 (.append ih2 (.append ih3 (.append ih4 ih5))))) (by first | rfl | simp [spansV, spanL_append, spanL_toList, spanL_getD, spanL, spanO, NodeTypeMapKey.spans, NodeTypeMapValue.spans, NodeTypeArgument.spans, NodeScillaType.spans, NodeTypeMapEntry.spans, NodeAddressTypeField.spans, NodeAddressType.spans, NodeTypeMapValueArguments.spans, NodeTypeMapValueAllowingTypeArguments.spans, NodePattern.spans, NodeArgumentPattern.spans, NodeFullExpression.spans, NodePatternMatchExpressionClause.spans, NodeStatement.spans, NodePatternMatchClause.spans, NodeStatementBlock.spans])
  | contractField h d1 d2 ih1 ih2 =>
    have d0 := Derives.contractField h d1 d2
    have hw := d0.filled rfl
    subst h
    refine Fits.mkW d0 rfl hw ?_
    exact Fits.cast (w := _) (.tok (.append ih1 (.tok ih2))) (by first | rfl | simp [spansV, spanL_append, spanL_toList, spanL_getD, spanL, spanO, NodeTypeMapKey.spans, NodeTypeMapValue.spans, NodeTypeArgument.spans, NodeScillaType.spans, NodeTypeMapEntry.spans, NodeAddressTypeField.spans, NodeAddressType.spans, NodeTypeMapValueArguments.spans, NodeTypeMapValueAllowingTypeArguments.spans, NodePattern.spans, NodeArgumentPattern.spans, NodeFullExpression.spans, NodePatternMatchExpressionClause.spans, NodeStatement.spans, NodePatternMatchClause.spans, NodeStatementBlock.spans])
  | withConstraint h d1 ih1 =>
    have d0 := Derives.withConstraint h d1
    have hw := d0.filled rfl
    subst h
    refine Fits.mkW d0 rfl hw ?_
    exact Fits.cast (w := _) (.tok (.post ih1)) (by first | rfl | simp [spansV, spanL_append, spanL_toList, spanL_getD, spanL, spanO, NodeTypeMapKey.spans, NodeTypeMapValue.spans, NodeTypeArgument.spans, NodeScillaType.spans, NodeTypeMapEntry.spans, NodeAddressTypeField.spans, NodeAddressType.spans, NodeTypeMapValueArguments.spans, NodeTypeMapValueAllowingTypeArguments.spans, NodePattern.spans, NodeArgumentPattern.spans, NodeFullExpression.spans, NodePatternMatchExpressionClause.spans, NodeStatement.spans, NodePatternMatchClause.spans, NodeStatementBlock.spans])

end Verif
