import Verif.Proofs.ParserScan
import Verif.Props.Emitter1
/-
What an accepted token sequence looks like: C20, C21, C22, C23.
The scans are specified in Verif/Spec/Scan.lean.
-/
namespace Verif

/-! ## C20 — shape of accepted sequences -/

/-- C20: an accepted token sequence begins with `scilla_version` and the version number stored in
the tree. -/
theorem C20_version (toks : List STok) (p : NodeProgram) (h : parseProgram toks = some p) :
    ∃ s e s' e' rest,
      toks = ⟨s, .scillaVersion, e⟩ :: ⟨s', .number p.version.node, e'⟩ :: rest :=
  (program_scan (parseProgram_sound h)).1

/-- C20: its brackets are properly nested. -/
theorem C20_brackets (toks : List STok) (p : NodeProgram) (h : parseProgram toks = some p) :
    nested [] (bare toks) = true := (program_scan (parseProgram_sound h)).2.1

/-- C20: exactly one `contract` keyword introduces a contract, and it is followed by the name. -/
theorem C20_one_contract (toks : List STok) (p : NodeProgram) (h : parseProgram toks = some p) :
    ∃ t, contractNames (bare toks) = [t] ∧
      t.text = p.contractDefinition.node.contractName.node.display := by
  obtain ⟨t, h1, h2⟩ := (program_scan (parseProgram_sound h)).2.2.1
  exact ⟨t, h2, h1⟩

/-- C20, contrapositive: unbalanced brackets, a missing or a second contract are rejected. -/
theorem C20_rejects (toks : List STok)
    (h : nested [] (bare toks) = false ∨ (contractNames (bare toks)).length ≠ 1) :
    parseProgram toks = none := by
  cases hp : parseProgram toks with
  | none => rfl
  | some p =>
    obtain ⟨t, ht, _⟩ := C20_one_contract toks p hp
    have := C20_brackets toks p hp
    rcases h with h | h
    · rw [h] at this; simp at this
    · simp [ht] at h

example : nested [] [.openParen, .openBracket, .closeParen, .closeBracket] = false ∧
    nested [] [.openParen, .openBracket, .closeBracket, .comma, .closeParen, .openBrace,
      .closeBrace] = true := by decide

/-! ## C21 — declarations in the source and in the tree -/

/-- C21: the transitions and procedures of the tree are those announced by the `transition` and
`procedure` keywords of the source, in order, with the names that follow the keywords. -/
theorem C21_components (toks : List STok) (p : NodeProgram) (h : parseProgram toks = some p) :
    (componentNames (bare toks)).map (fun t => (t.1, t.2.text)) =
      p.contractDefinition.node.components.map componentEntry :=
  (program_scan (parseProgram_sound h)).2.2.2.1

/-- C21: the fields of the tree are those announced by the `field` keywords of the source outside
address types, in order. -/
theorem C21_fields (toks : List STok) (p : NodeProgram) (h : parseProgram toks = some p) :
    fieldNames none (bare toks) = p.contractDefinition.node.fields.map
      (fun v => .identifier v.node.typedIdentifier.node.identifierName.node) :=
  (program_scan (parseProgram_sound h)).2.2.2.2

/-- C21: the number of `transition` (`procedure`) keywords in the source is the number of transitions
(procedures) of the tree. -/
theorem C21_counts (toks : List STok) (p : NodeProgram) (h : parseProgram toks = some p) :
    (bare toks).count .transition =
      (p.contractDefinition.node.components.map componentEntry).countP (·.1 = .transition) ∧
    (bare toks).count .procedure =
      (p.contractDefinition.node.components.map componentEntry).countP (·.1 = .procedure) :=
  program_counts (parseProgram_sound h)

/-- Names of the transitions announced in a token sequence. -/
def transitionNames (ts : List Token) : List Str :=
  (componentNames ts).filterMap fun t => if t.1 = .transition then some t.2.text else none

theorem transitionsOf_names : ∀ cs : List (W NodeComponentDefinition),
    (transitionsOf cs).map (fun t => componentName t.name.node) =
      (cs.map componentEntry).filterMap fun t => if t.1 = .transition then some t.2 else none
  | [] => rfl
  | ⟨.transitionComponent t, a, b⟩ :: cs => by
    have : transitionsOf (⟨.transitionComponent t, a, b⟩ :: cs) = t.node :: transitionsOf cs := rfl
    rw [this, List.map_cons, transitionsOf_names cs]
    rfl
  | ⟨.procedureComponent t, a, b⟩ :: cs => by
    have : transitionsOf (⟨.procedureComponent t, a, b⟩ :: cs) = transitionsOf cs := rfl
    rw [this, transitionsOf_names cs]
    rfl

/-- C21, C23, C29 from the text to the result: whenever `from_str` succeeds, the name of the
contract is the token after the one `contract` keyword of the source, its transitions are the ones
announced by `transition` keywords, and its fields the ones announced by `field` keywords outside
address types; same order, none missing, none invented. -/
theorem C21_C23_C29_source (env : Env) (doc : Str) (c : Contract) (h : fromStr env doc = .ok c) :
    ∃ toks, lexDoc env.chars doc = some toks ∧
      (∃ t, contractNames (bare toks) = [t] ∧ t.text = c.name) ∧
      c.transitions.map (·.name) = transitionNames (bare toks) ∧
      c.fields.map (fun f => Token.identifier f.name) = fieldNames none (bare toks) := by
  obtain ⟨toks, p, hl, hp, he⟩ := fromStr_ok_iff.mp h
  obtain ⟨h1, h2, h3, h4⟩ := C29_names env.dbg p c he
  refine ⟨toks, hl, ?_, ?_, ?_⟩
  · obtain ⟨t, ht, htx⟩ := C20_one_contract toks p hp
    exact ⟨t, ht, by rw [htx, h1]⟩
  · have e := congrArg (List.map Prod.fst) h4
    simp only [List.map_map, Function.comp_def] at e
    rw [e, transitionsOf_names, ← C21_components toks p hp, transitionNames, List.filterMap_map]
    rfl
  · rw [C21_fields toks p hp]
    have e := congrArg (List.map Token.identifier) h3
    simpa [List.map_map, Function.comp_def, fieldTypedOf] using e

example : transitionNames (bare demoToks) = [str! "T"] ∧
    (componentNames (bare demoToks)).length = 2 ∧
    contractNames (bare demoToks) = [.customIdentifier ['C']] ∧
    fieldNames none (bare demoToks) = [.identifier ['m']] ∧
    (bare demoToks).count .field = 2 ∧ (bare demoToks).count .contract = 2 := by decide +kernel

/-! ## C22 — quirks -/

/-- C22: a leading comma before the first parameter is accepted and ignored. -/
theorem C22_leading_comma (o c k : STok) (w : List STok) (v : W NodeComponentParameters)
    (hk : k.tok = .comma) (hw : ∃ t r, w = t :: r ∧ t.tok ≠ .comma)
    (h : Derives .compParams (o :: (w ++ [c])) v) :
    ∃ v', Derives .compParams (o :: ((k :: w) ++ [c])) v' ∧
      v'.node.parameters = v.node.parameters := by
  obtain ⟨t, r, rfl, ht⟩ := hw
  obtain ⟨ks, kt, ke⟩ := k
  simp only at hk; subst hk
  cases h with
  | compParams h d1 d2 =>
    rename_i w1 w2 p ps s1 e1 s2 e2
    simp only [List.cons_append, List.cons.injEq] at h
    obtain ⟨rfl, h⟩ := h
    rw [← List.append_assoc, ← List.cons_append] at h
    have h' := List.append_inj' h rfl
    obtain ⟨h', hc⟩ := h'
    simp only [List.cons.injEq, and_true] at hc
    subst hc
    cases d1 with
    | optNone =>
      exfalso
      simp only [List.nil_append] at h'
      cases d2 with
      | starNil => simp at h'
      | starCons d3 d4 =>
        cases d3 with
        | nextParamPair h5 d5 =>
          subst h5
          simp only [List.cons_append, List.cons.injEq] at h'
          apply ht
          rw [h'.1]
    | optSome d1 =>
      refine ⟨_, Derives.compParams (w1 := []) (w2 := ⟨ks, .comma, ke⟩ :: (t :: r)) (ps := _ :: ps)
        (s1 := s1) (e1 := e1) (s2 := s2) (e2 := e2) (by simp) Derives.optNone ?_, rfl⟩
      rw [h']
      exact Derives.starCons (w1 := ⟨ks, .comma, ke⟩ :: w1) (w2 := w2) (.nextParamPair rfl d1) d2

/-- C22: a comma directly before the closing parenthesis is not. -/
theorem C22_no_trailing_comma (o k c : STok) (w : List STok) (v : W NodeComponentParameters)
    (hk : k.tok = .comma) : ¬ Derives .compParams (o :: (w ++ [k, c])) v := by
  intro h
  cases h with
  | compParams h d1 d2 =>
    rename_i w1 w2 p ps s1 e1 s2 e2
    simp only [List.cons.injEq] at h
    obtain ⟨rfl, h⟩ := h
    have e : w ++ [k, c] = (w ++ [k]) ++ [c] := by simp
    rw [e, ← List.append_assoc] at h
    have h' := (List.append_inj' h rfl).1
    have l2 := (d2.last rfl).1 _ ((d1.last rfl).1 none rfl)
    rw [← lastOr_append, ← bare_append, ← h'] at l2
    simp only [bare_append, lastOr_append, bare_cons, bare_nil, lastOr_cons, lastOr_nil, hk] at l2
    simp [fieldOk] at l2

/-- C22: `forall 'A. T -> U` is the function type from `forall 'A. T` to `U`. -/
theorem C22_forall (f a d r : STok) (x : Str) (w1 w2 : List STok) (t u : W NodeScillaType)
    (hf : f.tok = .forall_) (ha : a.tok = .templateIdentifier x) (hd : d.tok = .dot)
    (hr : r.tok = .arrow) (h1 : Derives .remaining w1 t) (h2 : Derives .scillaType w2 u)
    (v : W NodeScillaType) (h : Derives .scillaType (f :: a :: d :: (w1 ++ r :: w2)) v) :
    ∃ x' poly, v.node = .functionType poly u ∧ poly.node = .polyFunctionType x' t ∧ x'.node = x := by
  obtain ⟨fs, ft, fe⟩ := f
  obtain ⟨as, at', ae⟩ := a
  obtain ⟨ds, dt, de⟩ := d
  obtain ⟨rs, rt, re⟩ := r
  simp only at hf ha hd hr
  subst hf ha hd hr
  have hp : Derives .remaining (⟨fs, .forall_, fe⟩ :: ⟨as, .templateIdentifier x, ae⟩ ::
      ⟨ds, .dot, de⟩ :: w1) _ :=
    Derives.remForall (w1 := [⟨as, .templateIdentifier x, ae⟩]) (w2 := w1) rfl (.templateId rfl) h1
  have hd : ∃ v', Derives .scillaType (⟨fs, .forall_, fe⟩ :: ⟨as, .templateIdentifier x, ae⟩ ::
      ⟨ds, .dot, de⟩ :: (w1 ++ ⟨rs, .arrow, re⟩ :: w2)) v' ∧
      ∃ x' poly, v'.node = .functionType poly u ∧ poly.node = .polyFunctionType x' t ∧ x'.node = x := by
    cases h2 with
    | typeFun h2 => exact ⟨_, .typeFun (.funSigMore rfl hp h2), _, _, rfl, rfl, rfl⟩
    | typeRem h2 => exact ⟨_, .typeFun (.funSigLast rfl hp h2), _, _, rfl, rfl, rfl⟩
  obtain ⟨v', hv', hx⟩ := hd
  rw [C17_unambiguous_category .scillaType rfl _ _ _ h hv']
  exact hx

theorem star_parts {w : List STok} {vs : List (W NodeImportedName)}
    (h : Derives (.star .importedName) w vs) :
    ∃ ps : List (List STok × W NodeImportedName), w = ps.flatMap (·.1) ∧ vs = ps.map (·.2) ∧
      ∀ p ∈ ps, Derives .importedName p.1 p.2 := by
  have : ∀ (k : Nat) (w : List STok) (vs : List (W NodeImportedName)), vs.length = k →
      Derives (.star .importedName) w vs →
      ∃ ps : List (List STok × W NodeImportedName), w = ps.flatMap (·.1) ∧ vs = ps.map (·.2) ∧
        ∀ p ∈ ps, Derives .importedName p.1 p.2 := by
    intro k
    induction k with
    | zero =>
      intro w vs hk h
      cases h with
      | starNil => exact ⟨[], rfl, rfl, by simp⟩
      | starCons => simp at hk
    | succ k ih =>
      intro w vs hk h
      cases h with
      | starNil => simp at hk
      | starCons d ds =>
        obtain ⟨ps, rfl, rfl, hp⟩ := ih _ _ (by simpa using hk) ds
        refine ⟨(_, _) :: ps, by simp; rfl, by simp; rfl, ?_⟩
        intro p hp'
        rcases List.mem_cons.1 hp' with rfl | h
        · exact d
        · exact hp p h
  exact this _ _ _ rfl h

theorem parts_star (ps : List (List STok × W NodeImportedName))
    (h : ∀ p ∈ ps, Derives .importedName p.1 p.2) :
    Derives (.star .importedName) (ps.flatMap (·.1)) (ps.map (·.2)) := by
  induction ps with
  | nil => exact .starNil
  | cons p ps ih =>
    exact .starCons (h p (by simp)) (ih fun q hq => h q (by simp [hq]))

/-- C22: the import section consists of one `import` with any positive number of names, each possibly with
an alias, followed by `import`s with exactly one name each; the tree holds the names in this order. -/
theorem C22_imports (w : List STok) (names : List (W NodeImportedName)) :
    (∃ v, Derives .importDecls w v ∧ v.node.importList = names) ↔
    ∃ (i : STok) (first : List (List STok × W NodeImportedName))
      (more : List (STok × List STok × W NodeImportedName)),
      w = i :: (first.flatMap (·.1) ++ more.flatMap fun m => m.1 :: m.2.1) ∧
      names = first.map (·.2) ++ more.map (·.2.2) ∧
      first ≠ [] ∧ i.tok = .import_ ∧ (∀ m ∈ more, m.1.tok = .import_) ∧
      (∀ p ∈ first, Derives .importedName p.1 p.2) ∧ (∀ m ∈ more, Derives .importedName m.2.1 m.2.2) := by
  constructor
  · rintro ⟨v, h, rfl⟩
    generalize hk : v.node.importList.length = k
    induction k generalizing w v with
    | zero =>
      cases h with
      | importMore h d1 d2 => simp at hk
      | importFirst h d => cases d with | plusIntro d1 d2 => simp [mkW] at hk
    | succ k ih =>
      cases h with
      | importMore h d1 d2 =>
        obtain ⟨i, first, more, e1, e2, h1, h2, h3, h4, h5⟩ := ih _ _ d1 (by simpa using hk)
        rename_i w1 w2 prev n s1 e1'
        refine ⟨i, first, more ++ [(STok.mk s1 .import_ e1', w2, n)], ?_, ?_, h1, h2, ?_, h4, ?_⟩
        · subst h e1; simp
        · simp [e2]
        · intro m hm
          rcases List.mem_append.1 hm with hm | hm
          · exact h3 m hm
          · simp at hm; subst hm; rfl
        · intro m hm
          rcases List.mem_append.1 hm with hm | hm
          · exact h5 m hm
          · simp at hm; subst hm; exact d2
      | importFirst h d =>
        cases d with
        | plusIntro d1 d2 =>
          obtain ⟨ps, e1, e2, hp⟩ := star_parts d2
          rename_i s1 e1' a c b d'
          refine ⟨⟨s1, .import_, e1'⟩, (a, b) :: ps, [], ?_, ?_, by simp, rfl, by simp, ?_, by simp⟩
          · subst h e1; simp
          · simp [mkW, e2]
          · intro p hp'
            rcases List.mem_cons.1 hp' with rfl | h
            · exact d1
            · exact hp p h
  · rintro ⟨⟨is, it, ie⟩, first, more, rfl, rfl, h1, h2, h3, h4, h5⟩
    simp only at h2
    subst h2
    cases first with
    | nil => exact absurd rfl h1
    | cons p ps =>
      have base : Derives .importDecls (⟨is, .import_, ie⟩ :: ((p :: ps).flatMap (·.1)))
          (mkW _ ⟨(p :: ps).map (·.2)⟩) :=
        .importFirst rfl (.plusIntro (h4 p (by simp)) (parts_star ps fun q hq => h4 q (by simp [hq])))
      have step : ∀ (more : List (STok × List STok × W NodeImportedName)) (w : List STok)
          (v : W NodeImportDeclarations), Derives .importDecls w v →
          (∀ m ∈ more, m.1.tok = .import_) → (∀ m ∈ more, Derives .importedName m.2.1 m.2.2) →
          ∃ v', Derives .importDecls (w ++ more.flatMap fun m => m.1 :: m.2.1) v' ∧
            v'.node.importList = v.node.importList ++ more.map (·.2.2) := by
        intro more
        induction more with
        | nil => intro w v h _ _; exact ⟨v, by simpa using h, by simp⟩
        | cons m more ih =>
          intro w v h g1 g2
          obtain ⟨⟨ms, mt, me⟩, mw, mn⟩ := m
          have e : mt = .import_ := g1 (⟨ms, mt, me⟩, mw, mn) (by simp)
          subst e
          have hm : Derives .importDecls (w ++ ⟨ms, .import_, me⟩ :: mw)
              ⟨⟨v.node.importList ++ [mn]⟩, ms, stopOf (w ++ ⟨ms, .import_, me⟩ :: mw)⟩ :=
            .importMore rfl h (g2 (⟨ms, .import_, me⟩, mw, mn) (by simp))
          obtain ⟨v', hv', e'⟩ := ih _ _ hm
            (fun m hm => g1 m (by simp [hm])) (fun m hm => g2 m (by simp [hm]))
          refine ⟨v', ?_, ?_⟩
          · simpa using hv'
          · simpa using e'
      obtain ⟨v', hv', e'⟩ := step more _ _ base h3 h5
      exact ⟨v', by simpa using hv', by simpa [mkW] using e'⟩

/-- C22: the first `import` takes several names, the others one each. -/
theorem C22_imports_witness :
    (demoProgram (str! "scilla_version 0 import A B import D contract C ()")).isSome = true ∧
    (demoProgram (str! "scilla_version 0 import A import B D contract C ()")).isNone = true := by
  decide +kernel

theorem C22_leading_comma_witness :
    fromStr demoEnv (str! "scilla_version 0 contract C (, a : Uint32)") =
      .ok ⟨str! "C", [.mk (str! "a") .uint32], [], []⟩ ∧
    (∃ m, fromStr demoEnv (str! "scilla_version 0 contract C (a : Uint32,)") = .err m) ∧
    (∃ m, fromStr demoEnv (str! "scilla_version 0 contract C (,, a : Uint32)") = .err m) :=
  ⟨by decide +kernel, ⟨.parseError [], by decide +kernel⟩, ⟨.parseError [], by decide +kernel⟩⟩

/-- C22: the example of README.md ("To parse a string containing a scilla contract") is rejected. -/
theorem C22_readme_witness (env : Env) :
    ∃ m, fromStr env (str! "contract HelloWorld") = .err (.parseError m) := by
  have : lexDoc env.chars (str! "contract HelloWorld") =
      lexDoc demoU (str! "contract HelloWorld") := rfl
  refine ⟨env.parseErrorText (requested [] ((lexDoc demoU (str! "contract HelloWorld")).getD [])), ?_⟩
  unfold fromStr
  rw [this]
  rfl

end Verif
