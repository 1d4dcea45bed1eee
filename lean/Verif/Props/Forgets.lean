import Verif.Proofs.Unparse
import Verif.Proofs.UnparseDerives
import Verif.Proofs.EssentialDerives
import Verif.Props.Reprint
/-
C71: what the syntax tree records.  `essential` (Spec/Essential.lean) leaves three kinds of tokens
out of a token list, looking at neighbours only; `NodeProgram.toks` (Spec/Unparse.lean) writes a
tree back as tokens; `strip` erases positions.
-/
namespace Verif

/-- The special identifiers that a document can contain begin with `_`. -/
theorem lexed_decent {U : CharClass} {doc : Str} {ts : List STok} (h : lexDoc U doc = some ts) :
    Decent ts := by
  intro t ht x hx
  have := C09_well_formed U doc t (by rw [yielded_of_lexDoc h]; exact ht)
  rw [hx] at this
  obtain ⟨w, rfl, _⟩ := this
  refine ⟨by simp, fun e => ?_, fun e => ?_⟩
  · exact absurd (List.cons.inj e).1 (by decide)
  · exact absurd (List.cons.inj e).1 (by decide)

theorem essential_sublist (b ts : List Token) : List.Sublist (essentialFrom b ts) ts := by
  induction ts generalizing b with
  | nil => exact .slnil
  | cons t ts ih =>
    rw [essentialFrom]
    split
    · exact (ih _).cons _
    · exact (ih _).cons_cons _

theorem bare_at0 (ts : List Token) : bare (ts.map STok.at0) = ts := by
  induction ts with
  | nil => rfl
  | cons t ts ih => rw [List.map_cons, bare_cons, ih]; rfl

theorem derived_essential {n : NT} (hb : n.base = true) (hn : n ≠ .builtinArgs) {w : List STok}
    {v : Val n} (d : Derives n w v) (hd : Decent w) : essential (bare w) = unparse n v := by
  have ok : okNT n = true := by
    cases n <;> first | rfl | exact absurd rfl hn | cases hb
  have := (d.kept hd).1 ok [] [] ⟨by simp, by simp [NB], by simp [argumentsBegin]⟩ (by simp)
    (fun _ => rfl)
  rw [essential, essentialFrom_eq]
  exact this

/-! ## Programs -/

/-- C71: the tokens of an accepted document, without the three kinds of tokens that are left out,
are those that the tree is written with. -/
theorem C71_essential (U : CharClass) (doc : Str) (ts : List STok) (h : lexDoc U doc = some ts)
    (p : NodeProgram) (hp : parseProgram ts = some p) :
    essential (ts.map (·.tok)) = p.toks :=
  derived_essential (n := .program) rfl (by simp) (C15_sound ts p hp) (lexed_decent h)

/-- Reading the tokens a tree is written with gives the tree back, up to positions. -/
theorem C71_reread (U : CharClass) (doc : Str) (ts : List STok) (h : lexDoc U doc = some ts)
    (p : NodeProgram) (hp : parseProgram ts = some p) (again : List STok)
    (ha : again.map (·.tok) = p.toks) :
    ∃ q, parseProgram again = some q ∧ q.strip = p.strip := by
  have d := ((C15_sound ts p hp).reprint (lexed_decent h)).1
  obtain ⟨q, e⟩ := d.relift again (by rw [show unparse .program p = p.toks from rfl, bare_at0]; exact ha)
  refine ⟨q, C16_complete _ _ e, ?_⟩
  rcases C18_parse again ((p.toks).map STok.at0) (by rw [bare_at0]; exact ha) with ⟨h1, _⟩ | ⟨x, y, h1, h2, e'⟩
  · rw [C16_complete _ _ e] at h1; cases h1
  · rw [C16_complete _ _ e] at h1
    have h3 : parseProgram ((p.toks).map STok.at0) = some p.strip := C16_complete _ _ d
    rw [h3] at h2
    cases h1; cases h2
    have : p.strip.strip = p.strip := by
      have e1 := (C15_sound ts p hp).strip
      have e2 := e1.strip
      have hs : (ts.map STok.strip).map STok.strip = ts.map STok.strip := by
        rw [List.map_map]; rfl
      rw [hs] at e2
      exact Option.some.inj ((C16_complete _ _ e2).symm.trans (C16_complete _ _ e1))
    exact e'.trans this

/-- C71: two accepted documents have the same tree, up to positions, exactly if their tokens agree
without the three kinds of tokens that are left out. -/
theorem C71_same_tree (U : CharClass) (doc doc' : Str) (ts ts' : List STok)
    (h : lexDoc U doc = some ts) (h' : lexDoc U doc' = some ts') (p p' : NodeProgram)
    (hp : parseProgram ts = some p) (hp' : parseProgram ts' = some p') :
    p.strip = p'.strip ↔ essential (ts.map (·.tok)) = essential (ts'.map (·.tok)) := by
  rw [C71_essential U doc ts h p hp, C71_essential U doc' ts' h' p' hp']
  constructor
  · intro e
    rw [← NodeProgram.toks_strip p, e, NodeProgram.toks_strip]
  · intro e
    obtain ⟨q, hq, eq⟩ := C71_reread U doc ts h p hp (p.toks.map STok.at0) (bare_at0 _)
    obtain ⟨q', hq', eq'⟩ := C71_reread U doc' ts' h' p' hp' (p.toks.map STok.at0)
      ((bare_at0 _).trans e)
    rw [hq] at hq'
    cases hq'
    exact eq.symm.trans eq'

/-- Then they also give exactly the same result. -/
theorem C71_same_result (env : Env) (doc doc' : Str) (ts ts' : List STok)
    (h : lexDoc env.chars doc = some ts) (h' : lexDoc env.chars doc' = some ts')
    (hp : (parseProgram ts).isSome = true) (hp' : (parseProgram ts').isSome = true)
    (e : essential (ts.map (·.tok)) = essential (ts'.map (·.tok))) :
    fromStr env doc = fromStr env doc' := by
  obtain ⟨p, hp⟩ := Option.isSome_iff_exists.mp hp
  obtain ⟨p', hp'⟩ := Option.isSome_iff_exists.mp hp'
  have := (C71_same_tree env.chars doc doc' ts ts' h h' p p' hp hp').mpr e
  simp only [fromStr, h, h', hp, hp', C26_positions env.dbg p p' this]

/-- Leaving the tokens out of an accepted document gives one that is accepted, with the same tree,
and there is nothing more to leave out. -/
theorem C71_left_out (U : CharClass) (doc : Str) (ts : List STok) (h : lexDoc U doc = some ts)
    (p : NodeProgram) (hp : parseProgram ts = some p) :
    List.Sublist (essential (ts.map (·.tok))) (ts.map (·.tok)) ∧
    (∀ again : List STok, again.map (·.tok) = essential (ts.map (·.tok)) →
      ∃ q, parseProgram again = some q ∧ q.strip = p.strip) ∧
    essential (essential (ts.map (·.tok))) = essential (ts.map (·.tok)) := by
  refine ⟨essential_sublist _ _, fun again ha => ?_, ?_⟩
  · exact C71_reread U doc ts h p hp again (ha.trans (C71_essential U doc ts h p hp))
  · rw [C71_essential U doc ts h p hp]
    have d := ((C15_sound ts p hp).reprint (lexed_decent h)).1
    have hd : Decent ((unparse .program p).map STok.at0) := by
      intro t ht x hx
      obtain ⟨u, hu, rfl⟩ := List.mem_map.mp ht
      have hu' : u ∈ ts.map (·.tok) := by
        refine (essential_sublist [] (ts.map (·.tok))).subset ?_
        have := C71_essential U doc ts h p hp
        rw [essential] at this
        rw [this]; exact hu
      obtain ⟨s, hs, rfl⟩ := List.mem_map.mp hu'
      exact lexed_decent h s hs x hx
    have := derived_essential (n := .program) rfl (by simp) d hd
    rw [bare_at0] at this
    exact this.trans (NodeProgram.toks_strip p)

/-- The same for the text: writing the remaining tokens of an accepted ASCII document with a blank
after each gives a document with the same contract. -/
theorem C71_text (env : Env) (doc : Str) (ha : Ascii doc) (ts : List STok)
    (h : lexDoc env.chars doc = some ts)
    (hs : ∀ t ∈ ts, ∀ s, t.tok = .stringLiteral s → Strict s) (c : Contract)
    (hc : fromStr env doc = .ok c) :
    fromStr env (spaced (essential (ts.map (·.tok)))) = .ok c := by
  have hst : ∀ t ∈ ts, t.tok.steady := by
    intro t ht
    refine ⟨fun hu => ?_, hs t ht⟩
    obtain ⟨m, hm⟩ := C14_unknown_rejected env doc t (by rw [yielded_of_lexDoc h]; exact ht) (.inl hu)
    rw [hc] at hm
    simp at hm
  have hr : Rendering (essential (ts.map (·.tok))) (spaced (essential (ts.map (·.tok)))) := by
    refine spaced_rendering _ ?_
    intro t ht
    obtain ⟨u, hu, rfl⟩ := List.mem_map.mp ((essential_sublist _ _).subset ht)
    exact lexed_printable env.chars doc ha ts h u hu (hst u hu)
  obtain ⟨ts', h1, h2⟩ := C10_lex_rendering env.chars _ _ hr
  cases hp : parseProgram ts with
  | none => simp [fromStr, h, hp] at hc
  | some p =>
    obtain ⟨q, hq, e⟩ := C71_reread env.chars doc ts h p hp ts'
      (h2.trans (C71_essential env.chars doc ts h p hp))
    rw [← hc]
    simp only [fromStr, h, h1, hp, hq, C26_positions env.dbg q p e]

/-! ## Every other syntactic category -/

theorem unparse_stripV {n : NT} (hb : n.base = true) (v : Val n) :
    unparse n (stripV n v) = unparse n v := by
  cases n
  case addressFieldList =>
    have := NodeAddressTypeField.toksL_strip v
    rw [NodeAddressTypeField.stripLW_eq] at this
    exact this
  case star => cases hb
  case plus => cases hb
  case opt => cases hb
  case byteString => exact NodeByteStr.toks_strip _
  case typeName => exact NodeTypeNameIdentifier.toks_strip _
  case importedName => exact NodeImportedName.toks_strip _
  case importDecls => exact NodeImportDeclarations.toks_strip _
  case metaId => exact NodeMetaIdentifier.toks_strip _
  case varId => exact NodeVariableIdentifier.toks_strip _
  case builtinArgs => exact NodeBuiltinArguments.toks_strip _
  case remaining => exact NodeScillaType.toks_strip _
  case funSig => exact NodeScillaType.toks_strip _
  case scillaType => exact NodeScillaType.toks_strip _
  case typeArg => exact NodeTypeArgument.toks_strip _
  case addressType => exact NodeAddressType.toks_strip _
  case nextAddressField => exact congrArg (Token.comma :: ·) (NodeAddressTypeField.toks_strip _)
  case addressField => exact NodeAddressTypeField.toks_strip _
  case mapKey => exact NodeTypeMapKey.toks_strip _
  case mapValue => exact NodeTypeMapValue.toks_strip _
  case mapValueArgs => exact NodeTypeMapValueArguments.toks_strip _
  case program => exact NodeProgram.toks_strip _
  case libraryDef => exact NodeLibraryDefinition.toks_strip _
  case librarySingle => exact NodeLibrarySingleDefinition.toks_strip _
  case typedId => exact NodeTypedIdentifier.toks_strip _
  case typeAnn => exact NodeTypeAnnotation.toks_strip _
  case typeAlt => exact NodeTypeAlternativeClause.toks_strip _
  case mapValueAllowing => exact NodeTypeMapValueAllowingTypeArguments.toks_strip _
  case contractTypeArgs => exact NodeContractTypeArguments.toks_strip _
  case fullExpr => exact NodeFullExpression.toks_strip _
  case pmExprClause => exact NodePatternMatchExpressionClause.toks_strip _
  case pattern => exact NodePattern.toks_strip _
  case argPattern => exact NodeArgumentPattern.toks_strip _
  case nextMessage => exact congrArg (Token.semicolon :: ·) (NodeMessageEntry.toks_strip _)
  case messageEntry => exact NodeMessageEntry.toks_strip _
  case atomic => exact NodeAtomicExpression.toks_strip _
  case valueLit => exact NodeValueLiteral.toks_strip _
  case statement => exact NodeStatement.toks_strip _
  case nextStatement => exact congrArg (Token.semicolon :: ·) (NodeStatement.toks_strip _)
  case stmtBlock => exact NodeStatementBlock.toks_strip _
  case bcFetchArgs => exact NodeBlockchainFetchArguments.toks_strip _
  case componentId => exact NodeComponentId.toks_strip _
  case pmClause => exact NodePatternMatchClause.toks_strip _
  case remoteFetch => exact NodeRemoteFetchStatement.toks_strip _
  case mapAccess => exact NodeMapAccess.toks_strip _
  case paramPair => exact NodeParameterPair.toks_strip _
  case nextParamPair => exact congrArg (Token.comma :: ·) (NodeParameterPair.toks_strip _)
  case compParams => exact NodeComponentParameters.toks_strip _
  case compDef => exact NodeComponentDefinition.toks_strip _
  case transDef => exact NodeTransitionDefinition.toks_strip _
  case procDef => exact NodeProcedureDefinition.toks_strip _
  case compBody => exact NodeComponentBody.toks_strip _
  case contractDef => exact NodeContractDefinition.toks_strip _
  case contractField => exact NodeContractField.toks_strip _
  case withConstraint => exact NodeWithConstraint.toks_strip _
  case hexNumber => exact rfl
  case signedInt => exact rfl
  case regularId => exact rfl
  case specialId => exact rfl
  case customId => exact rfl
  case templateId => exact rfl
  case stringLit => exact rfl

/-- C71 for the parsers of the other categories (`ScillaTypeParser`, `FullExpressionParser`, …): the
tokens that are not left out are those the value is written with, and two texts have the same value,
up to positions, exactly if they agree in these tokens.  (`BuiltinArgumentsParser` on its own does
not see the `builtin f` before its input.) -/
theorem C71_category (n : NT) (hb : n.base = true) (hn : n ≠ .builtinArgs) (U : CharClass)
    (doc doc' : Str) (ts ts' : List STok) (h : lexDoc U doc = some ts) (h' : lexDoc U doc' = some ts')
    (v v' : Val n) (hp : parseAs n ts = some v) (hp' : parseAs n ts' = some v') :
    essential (ts.map (·.tok)) = unparse n v ∧
    (stripV n v = stripV n v' ↔ essential (ts.map (·.tok)) = essential (ts'.map (·.tok))) := by
  have d := (C44_exact n hb ts v).mp hp
  have d' := (C44_exact n hb ts' v').mp hp'
  have e1 := derived_essential hb hn d (lexed_decent h)
  have e2 := derived_essential hb hn d' (lexed_decent h')
  refine ⟨e1, fun e => ?_, fun e => ?_⟩
  · refine e1.trans (Eq.trans ?_ e2.symm)
    rw [← unparse_stripV hb v, e, unparse_stripV hb]
  · have r := (d.reprint (lexed_decent h)).1
    have r' := (d'.reprint (lexed_decent h')).1
    rw [← e2, show bare ts' = ts'.map (·.tok) from rfl, ← e, show ts.map (·.tok) = bare ts from rfl,
      e1] at r'
    exact C17_unambiguous_category n hb _ _ _ r r'

/-! ## Witnesses -/

/-- three documents with one tree, and a fourth with another one -/
def plainDoc : Str := str! "scilla_version 0 import A B contract C(a : Uint32) field x : Uint32 = builtin f a"
def fullDoc : Str :=
  str! "scilla_version 0 import A import B contract C(, a : Uint32) field x : Uint32 = builtin f () a"
def otherDoc : Str :=
  str! "scilla_version 0 import A import B contract C(, a : Uint32) field x : Uint32 = builtin f ()"

/-- The hypotheses hold, and each kind of token is left out. -/
theorem C71_witness : ∃ ts ts' ts'' : List STok,
    lexDoc demoU plainDoc = some ts ∧ lexDoc demoU fullDoc = some ts' ∧
    lexDoc demoU otherDoc = some ts'' ∧
    (parseProgram ts).isSome = true ∧ (parseProgram ts').isSome = true ∧
    (parseProgram ts'').isSome = true ∧
    ts.length + 4 = ts'.length ∧
    essential (ts.map (·.tok)) = ts.map (·.tok) ∧
    essential (ts'.map (·.tok)) = ts.map (·.tok) ∧
    essential (ts''.map (·.tok)) ≠ ts.map (·.tok) := by
  refine ⟨_, _, _, rfl, rfl, rfl, ?_, ?_, ?_, ?_, ?_, ?_, ?_⟩ <;> decide +kernel

end Verif
