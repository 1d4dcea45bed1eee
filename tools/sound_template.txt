import Verif.Model.Parser
/-
Soundness of the parser with respect to the grammar (generated by tools/gen_sound.py from
tools/sound_template.lean; one lemma per parsing function).
-/
namespace Verif

/-- From `s` to `s'` exactly the tokens `w` were consumed. -/
def Ok (s : PS) (w : List STok) (s' : PS) : Prop :=
  s.toks = w ++ s'.toks ∧ s'.last = stopFrom s.last w

theorem stopFrom_append (p : Pos) (a b : List STok) :
    stopFrom p (a ++ b) = stopFrom (stopFrom p a) b := by
  induction a generalizing p with
  | nil => rfl
  | cons t a ih => simp [stopFrom, ih]

theorem stopFrom_ne {w : List STok} (h : w ≠ []) (p q : Pos) : stopFrom p w = stopFrom q w := by
  cases w with
  | nil => exact absurd rfl h
  | cons t w => rfl

theorem Ok.refl (s : PS) : Ok s [] s := ⟨rfl, rfl⟩

theorem Ok.trans {s s1 s2 : PS} {a b : List STok} (h1 : Ok s a s1) (h2 : Ok s1 b s2) :
    Ok s (a ++ b) s2 := by
  refine ⟨by rw [h1.1, h2.1, List.append_assoc], ?_⟩
  rw [h2.2, h1.2, stopFrom_append]

theorem Ok.wrap {s s' : PS} {w : List STok} (h : Ok s w s') (hw : w ≠ []) {α : Type} (x : α) :
    s.wrap s' x = mkW w x := by
  simp only [PS.wrap, mkW, h.1, h.2, stopOf]
  rw [stopFrom_ne hw s.last default]
  cases w with
  | nil => exact absurd rfl hw
  | cons t w => rfl

theorem bind_some {α β : Type} {m : Option α} {f : α → Option β} {b : β}
    (h : (m >>= f) = some b) : ∃ a, m = some a ∧ f a = some b := by
  cases m with
  | none => simp at h
  | some a => exact ⟨a, rfl, by simpa using h⟩

theorem some_pair {α : Type} {a b : α} {s t : PS} (h : some (a, s) = some (b, t)) :
    a = b ∧ s = t := by
  injection h with h; injection h with h1 h2; exact ⟨h1, h2⟩

theorem ite_or {α : Type} {c : Prop} [Decidable c] {a b x : α} (h : (if c then a else b) = x) :
    (c ∧ a = x) ∨ (¬ c ∧ b = x) := by
  by_cases hc : c
  · rw [if_pos hc] at h; exact .inl ⟨hc, h⟩
  · rw [if_neg hc] at h; exact .inr ⟨hc, h⟩

/-- terminals without text -/
def Token.plain : Token → Bool
  | .byStrWithSize _ | .comment _ | .number _ | .hexNumber _ | .identifier _
  | .templateIdentifier _ | .customIdentifier _ | .specialIdentifier _ | .typeName _
  | .stringLiteral _ => false
  | _ => true

theorem kind_plain {t k : Token} (hk : k.plain = true) (h : t.kind = k) : t = k := by
  cases t <;> simp [Token.kind] at h <;> subst h <;> first | rfl | simp [Token.plain] at hk

theorem expect_ok {k : Token} {s s' : PS} {u : Unit} (hk : k.plain = true)
    (h : expect k s = some (u, s')) : ∃ a b, Ok s [⟨a, k, b⟩] s' := by
  unfold expect at h
  split at h
  · simp at h
  · rename_i t ts ht
    split at h
    · rename_i hkind
      obtain ⟨_, rfl⟩ := some_pair h
      have := kind_plain hk hkind
      refine ⟨t.start, t.stop, ?_, rfl⟩
      rw [ht]; cases t; simp_all
    · simp at h

/-- nonterminals that derive the empty word -/
def nullable : NT → Bool
  | .star _ => true
  | .opt _ => true
  | .plus n => nullable n
  | _ => false

theorem Derives.ne_nil {n : NT} {w : List STok} {v : Val n} (h : Derives n w v)
    (hn : nullable n = false) : w ≠ [] := by
  induction h <;> first
    | (simp [nullable] at hn; done)
    | (subst_vars; simp_all [nullable]; done)

/-- soundness of a family of parsers -/
def Sound (r : Rec) : Prop := ∀ n s (v : Val n) s', r n s = some (v, s') →
  ∃ w, Ok s w s' ∧ Derives n w v

variable {r : Rec}

theorem textTok_ok {k : Token} {s s' : PS} {x : W Str} (h : textTok k s = some (x, s')) :
    ∃ a t b, t.kind = k ∧ Ok s [⟨a, t, b⟩] s' ∧ x = mkW [⟨a, t, b⟩] t.text := by
  unfold textTok at h
  split at h
  · simp at h
  · rename_i t ts ht
    split at h
    · rename_i hkind
      obtain ⟨rfl, rfl⟩ := some_pair h
      exact ⟨t.start, t.tok, t.stop, hkind, ⟨ht, rfl⟩, rfl⟩
    · simp at h

theorem kind_hex {t : Token} (h : t.kind = .hexNumber []) : ∃ x, t = .hexNumber x := by
  cases t <;> simp [Token.kind] at h ⊢
theorem kind_num {t : Token} (h : t.kind = .number []) : ∃ x, t = .number x := by
  cases t <;> simp [Token.kind] at h ⊢
theorem kind_id {t : Token} (h : t.kind = .identifier []) : ∃ x, t = .identifier x := by
  cases t <;> simp [Token.kind] at h ⊢
theorem kind_sp {t : Token} (h : t.kind = .specialIdentifier []) : ∃ x, t = .specialIdentifier x := by
  cases t <;> simp [Token.kind] at h ⊢
theorem kind_cu {t : Token} (h : t.kind = .customIdentifier []) : ∃ x, t = .customIdentifier x := by
  cases t <;> simp [Token.kind] at h ⊢
theorem kind_te {t : Token} (h : t.kind = .templateIdentifier []) : ∃ x, t = .templateIdentifier x := by
  cases t <;> simp [Token.kind] at h ⊢
theorem kind_st {t : Token} (h : t.kind = .stringLiteral []) : ∃ x, t = .stringLiteral x := by
  cases t <;> simp [Token.kind] at h ⊢
theorem kind_by {t : Token} (h : t.kind = .byStrWithSize []) : ∃ x, t = .byStrWithSize x := by
  cases t <;> simp [Token.kind] at h ⊢

theorem pByteString_sound {s s' : PS} {v : Val .byteString}
    (h : pByteString s = some (v, s')) : ∃ w, Ok s w s' ∧ Derives .byteString w v := by
  simp only [pByteString] at h
  obtain ⟨⟨x, q1⟩, h1, h⟩ := bind_some h
  dsimp only at h
  obtain ⟨rfl, rfl⟩ := some_pair h
  obtain ⟨a, t, b, hk, ok, rfl⟩ := textTok_ok h1
  obtain ⟨x, rfl⟩ := kind_by hk
  exact ⟨_, ok, .byteString rfl⟩

theorem importLoop_sound (hr : Sound r) : ∀ (k : Nat) (s0 s s' : PS) (w : List STok)
    (prev v : W NodeImportDeclarations), Ok s0 w s → Derives .importDecls w prev →
    importLoop r k prev s = some (v, s') → ∃ w', Ok s0 w' s' ∧ Derives .importDecls w' v := by
  intro k
  induction k with
  | zero => intro s0 s s' w prev v _ _ h; simp [importLoop] at h
  | succ k ih =>
    intro s0 s s' w prev v hok hd h
    simp only [importLoop] at h
    split at h
    · obtain ⟨⟨v1, q1⟩, h1, h⟩ := bind_some h
      dsimp only at h
      obtain ⟨⟨v2, q2⟩, h2, h⟩ := bind_some h
      dsimp only at h
      obtain ⟨s1, e1, k1⟩ := expect_ok rfl h1
      obtain ⟨w2, k2, d2⟩ := hr _ _ _ _ h2
      have ok2 : Ok s (⟨s1, .import_, e1⟩ :: w2) q2 := k1.trans k2
      have ok : Ok s0 (w ++ ⟨s1, .import_, e1⟩ :: w2) q2 := hok.trans ok2
      refine ih s0 q2 s' (w ++ ⟨s1, .import_, e1⟩ :: w2) _ v ok ?_ h
      have := Derives.importMore (w := w ++ ⟨s1, .import_, e1⟩ :: w2) rfl hd d2
      have e : s.wrap q2 (NodeImportDeclarations.mk (prev.node.importList ++ [v2])) =
          ⟨⟨prev.node.importList ++ [v2]⟩, s1, stopOf (w ++ ⟨s1, .import_, e1⟩ :: w2)⟩ := by
        rw [ok2.wrap (by simp), mkW]
        simp [startOf, stopOf, stopFrom_append, stopFrom]
      rw [e]; exact this
    · obtain ⟨rfl, rfl⟩ := some_pair h
      exact ⟨w, hok, hd⟩

theorem pImportDecls_sound (hr : Sound r) {s s' : PS} {v : Val .importDecls}
    (h : pImportDecls r s = some (v, s')) : ∃ w, Ok s w s' ∧ Derives .importDecls w v := by
  simp only [pImportDecls] at h
  obtain ⟨⟨v1, q1⟩, h1, h⟩ := bind_some h
  dsimp only at h
  obtain ⟨⟨v2, q2⟩, h2, h⟩ := bind_some h
  dsimp only at h
  obtain ⟨s1, e1, k1⟩ := expect_ok rfl h1
  obtain ⟨w2, k2, d2⟩ := hr _ _ _ _ h2
  have ok2 : Ok s (⟨s1, .import_, e1⟩ :: w2) q2 := k1.trans k2
  refine importLoop_sound hr _ s q2 s' _ _ v ok2 ?_ h
  rw [ok2.wrap (by simp)]
  exact .importFirst rfl d2

theorem star_inv {n : NT} {w : List STok} {vs : List (Val n)} (h : Derives (.star n) w vs) :
    (w = [] ∧ vs = []) ∨
    ∃ w1 w2 v us, w = w1 ++ w2 ∧ vs = v :: us ∧ Derives n w1 v ∧ Derives (.star n) w2 us := by
  cases h with
  | starNil => exact .inl ⟨rfl, rfl⟩
  | starCons h1 h2 => exact .inr ⟨_, _, _, _, rfl, rfl, h1, h2⟩

theorem builtin_extend : ∀ {xs : List (W NodeVariableIdentifier)} {w1 w2 : List STok}
    {prev : W NodeBuiltinArguments} (_ : Derives .builtinArgs w1 prev)
    (_ : Derives (.star .varId) w2 xs) (_ : prev = mkW w1 prev.node),
    Derives .builtinArgs (w1 ++ w2) (mkW (w1 ++ w2) ⟨prev.node.arguments ++ xs⟩) := by
  intro xs
  induction xs with
  | nil =>
    intro w1 w2 prev h1 h2 hp
    rcases star_inv h2 with ⟨rfl, _⟩ | ⟨_, _, _, _, _, h, _⟩
    · simp only [List.append_nil]
      rw [hp] at h1
      exact h1
    · cases h
  | cons x xs ih =>
    intro w1 w2 prev h1 h2 hp
    rcases star_inv h2 with ⟨_, h⟩ | ⟨u1, u2, v, us, rfl, h, d1, d2⟩
    · cases h
    · injection h with ha hb; subst ha; subst hb
      have := ih (Derives.builtinMore (w := w1 ++ u1) rfl h1 d1) d2 rfl
      simpa [mkW] using this

theorem plus_inv {n : NT} {w : List STok} {vs : List (Val n)} (h : Derives (.plus n) w vs) :
    ∃ w1 w2 v us, w = w1 ++ w2 ∧ vs = v :: us ∧ Derives n w1 v ∧ Derives (.star n) w2 us := by
  cases h with
  | plusIntro h1 h2 => exact ⟨_, _, _, _, rfl, rfl, h1, h2⟩

theorem pBuiltinArgs_sound (hr : Sound r) {s s' : PS} {v : Val .builtinArgs}
    (h : pBuiltinArgs r s = some (v, s')) : ∃ w, Ok s w s' ∧ Derives .builtinArgs w v := by
  simp only [pBuiltinArgs] at h
  split at h
  · obtain ⟨⟨v1, q1⟩, h1, h⟩ := bind_some h
    dsimp only at h
    obtain ⟨⟨v2, q2⟩, h2, h⟩ := bind_some h
    dsimp only at h
    obtain ⟨⟨v3, q3⟩, h3, h⟩ := bind_some h
    dsimp only at h
    obtain ⟨rfl, rfl⟩ := some_pair h
    obtain ⟨s1, e1, k1⟩ := expect_ok rfl h1
    obtain ⟨s2, e2, k2⟩ := expect_ok rfl h2
    obtain ⟨w3, k3, d3⟩ := hr _ _ _ _ h3
    have ok : Ok s ([⟨s1, .openParen, e1⟩, ⟨s2, .closeParen, e2⟩] ++ w3) _ := k1.trans (k2.trans k3)
    refine ⟨_, ok, ?_⟩
    rw [ok.wrap (by simp)]
    have := builtin_extend (Derives.builtinUnit (w := [⟨s1, .openParen, e1⟩, ⟨s2, .closeParen, e2⟩]) rfl) d3 rfl
    simpa [mkW] using this
  · obtain ⟨⟨v1, q1⟩, h1, h⟩ := bind_some h
    dsimp only at h
    obtain ⟨rfl, rfl⟩ := some_pair h
    obtain ⟨w, ok, d⟩ := hr _ _ _ _ h1
    refine ⟨w, ok, ?_⟩
    rw [ok.wrap (d.ne_nil rfl)]
    obtain ⟨w1, w2, x, us, rfl, rfl, d1, d2⟩ := plus_inv d
    exact builtin_extend (Derives.builtinOne d1) d2 rfl

theorem typeFun_of {w1 w2 : List STok} {a b : W NodeScillaType} {s1 e1 : Pos}
    (h1 : Derives .remaining w1 a) (h2 : Derives .scillaType w2 b) :
    Derives .funSig (w1 ++ ⟨s1, .arrow, e1⟩ :: w2)
      (mkW (w1 ++ ⟨s1, .arrow, e1⟩ :: w2) (.functionType a b)) := by
  cases h2 with
  | typeFun h2 => exact .funSigMore rfl h1 h2
  | typeRem h2 => exact .funSigLast rfl h1 h2

theorem pFunSig_sound (hr : Sound r) {s s' : PS} {v : Val .funSig}
    (h : pFunSig r s = some (v, s')) : ∃ w, Ok s w s' ∧ Derives .funSig w v := by
  simp only [pFunSig] at h
  obtain ⟨⟨v1, q1⟩, h1, h⟩ := bind_some h
  dsimp only at h
  obtain ⟨⟨v2, q2⟩, h2, h⟩ := bind_some h
  dsimp only at h
  obtain ⟨⟨v3, q3⟩, h3, h⟩ := bind_some h
  dsimp only at h
  obtain ⟨rfl, rfl⟩ := some_pair h
  obtain ⟨w1, k1, d1⟩ := hr _ _ _ _ h1
  obtain ⟨s2, e2, k2⟩ := expect_ok rfl h2
  obtain ⟨w3, k3, d3⟩ := hr _ _ _ _ h3
  have ok : Ok s (w1 ++ ⟨s2, .arrow, e2⟩ :: w3) _ := k1.trans (k2.trans k3)
  refine ⟨_, ok, ?_⟩
  rw [ok.wrap (by simp)]
  exact typeFun_of d1 d3

theorem pScillaType_sound (hr : Sound r) {s s' : PS} {v : Val .scillaType}
    (h : pScillaType r s = some (v, s')) : ∃ w, Ok s w s' ∧ Derives .scillaType w v := by
  simp only [pScillaType] at h
  obtain ⟨⟨v1, q1⟩, h1, h⟩ := bind_some h
  dsimp only at h
  obtain ⟨w1, k1, d1⟩ := hr _ _ _ _ h1
  split at h
  · obtain ⟨⟨v2, q2⟩, h2, h⟩ := bind_some h
    dsimp only at h
    obtain ⟨⟨v3, q3⟩, h3, h⟩ := bind_some h
    dsimp only at h
    obtain ⟨rfl, rfl⟩ := some_pair h
    obtain ⟨s2, e2, k2⟩ := expect_ok rfl h2
    obtain ⟨w3, k3, d3⟩ := hr _ _ _ _ h3
    have ok : Ok s (w1 ++ ⟨s2, .arrow, e2⟩ :: w3) _ := k1.trans (k2.trans k3)
    refine ⟨_, ok, ?_⟩
    rw [ok.wrap (by simp)]
    exact .typeFun (typeFun_of d1 d3)
  · obtain ⟨rfl, rfl⟩ := some_pair h
    exact ⟨w1, k1, .typeRem d1⟩

theorem pStar_sound (hr : Sound r) {n : NT} {s s' : PS} {v : Val (.star n)}
    (h : pStar r n s = some (v, s')) : ∃ w, Ok s w s' ∧ Derives (.star n) w v := by
  simp only [pStar] at h
  split at h
  · obtain ⟨⟨v1, q1⟩, h1, h⟩ := bind_some h
    dsimp only at h
    obtain ⟨⟨v2, q2⟩, h2, h⟩ := bind_some h
    dsimp only at h
    obtain ⟨rfl, rfl⟩ := some_pair h
    obtain ⟨w1, k1, d1⟩ := hr _ _ _ _ h1
    obtain ⟨w2, k2, d2⟩ := hr _ _ _ _ h2
    exact ⟨_, k1.trans k2, .starCons d1 d2⟩
  · obtain ⟨rfl, rfl⟩ := some_pair h
    exact ⟨[], Ok.refl _, .starNil⟩

theorem pPlus_sound (hr : Sound r) {n : NT} {s s' : PS} {v : Val (.plus n)}
    (h : pPlus r n s = some (v, s')) : ∃ w, Ok s w s' ∧ Derives (.plus n) w v := by
  simp only [pPlus] at h
  obtain ⟨⟨v1, q1⟩, h1, h⟩ := bind_some h
  dsimp only at h
  obtain ⟨⟨v2, q2⟩, h2, h⟩ := bind_some h
  dsimp only at h
  obtain ⟨rfl, rfl⟩ := some_pair h
  obtain ⟨w1, k1, d1⟩ := hr _ _ _ _ h1
  obtain ⟨w2, k2, d2⟩ := hr _ _ _ _ h2
  exact ⟨_, k1.trans k2, .plusIntro d1 d2⟩

theorem pOpt_sound (hr : Sound r) {n : NT} {s s' : PS} {v : Val (.opt n)}
    (h : pOpt r n s = some (v, s')) : ∃ w, Ok s w s' ∧ Derives (.opt n) w v := by
  simp only [pOpt] at h
  split at h
  · obtain ⟨⟨v1, q1⟩, h1, h⟩ := bind_some h
    dsimp only at h
    obtain ⟨rfl, rfl⟩ := some_pair h
    obtain ⟨w1, k1, d1⟩ := hr _ _ _ _ h1
    exact ⟨_, k1, .optSome d1⟩
  · obtain ⟨rfl, rfl⟩ := some_pair h
    exact ⟨[], Ok.refl _, .optNone⟩

--GENERATED--

theorem body_sound (hr : Sound r) : Sound (body r) := by
  intro n s v s' h
  cases n with
  | byteString => exact pByteString_sound h
  | typeName => exact pTypeName_sound hr h
  | importedName => exact pImportedName_sound hr h
  | importDecls => exact pImportDecls_sound hr h
  | metaId => exact pMetaId_sound hr h
  | varId => exact pVarId_sound hr h
  | builtinArgs => exact pBuiltinArgs_sound hr h
  | remaining => exact pRemaining_sound hr h
  | funSig => exact pFunSig_sound hr h
  | scillaType => exact pScillaType_sound hr h
  | typeArg => exact pTypeArg_sound hr h
  | addressType => exact pAddressType_sound hr h
  | addressFieldList => exact pAddressFieldList_sound hr h
  | nextAddressField => exact pNextAddressField_sound hr h
  | addressField => exact pAddressField_sound hr h
  | mapKey => exact pMapKey_sound hr h
  | mapValue => exact pMapValue_sound hr h
  | mapValueArgs => exact pMapValueArgs_sound hr h
  | program => exact pProgram_sound hr h
  | libraryDef => exact pLibraryDef_sound hr h
  | librarySingle => exact pLibrarySingle_sound hr h
  | typedId => exact pTypedId_sound hr h
  | typeAnn => exact pTypeAnn_sound hr h
  | typeAlt => exact pTypeAlt_sound hr h
  | mapValueAllowing => exact pMapValueAllowing_sound hr h
  | contractTypeArgs => exact pContractTypeArgs_sound hr h
  | fullExpr => exact pFullExpr_sound hr h
  | pmExprClause => exact pPmExprClause_sound hr h
  | pattern => exact pPattern_sound hr h
  | argPattern => exact pArgPattern_sound hr h
  | nextMessage => exact pNextMessage_sound hr h
  | messageEntry => exact pMessageEntry_sound hr h
  | atomic => exact pAtomic_sound hr h
  | valueLit => exact pValueLit_sound hr h
  | statement => exact pStatement_sound hr h
  | nextStatement => exact pNextStatement_sound hr h
  | stmtBlock => exact pStmtBlock_sound hr h
  | bcFetchArgs => exact pBcFetchArgs_sound hr h
  | componentId => exact pComponentId_sound hr h
  | pmClause => exact pPmClause_sound hr h
  | remoteFetch => exact pRemoteFetch_sound hr h
  | mapAccess => exact pMapAccess_sound hr h
  | paramPair => exact pParamPair_sound hr h
  | nextParamPair => exact pNextParamPair_sound hr h
  | compParams => exact pCompParams_sound hr h
  | compDef => exact pCompDef_sound hr h
  | transDef => exact pTransDef_sound hr h
  | procDef => exact pProcDef_sound hr h
  | compBody => exact pCompBody_sound hr h
  | contractDef => exact pContractDef_sound hr h
  | contractField => exact pContractField_sound hr h
  | withConstraint => exact pWithConstraint_sound hr h
  | hexNumber =>
    obtain ⟨a, t, b, hk, ok, rfl⟩ := textTok_ok h
    obtain ⟨x, rfl⟩ := kind_hex hk
    exact ⟨_, ok, .hexNumber rfl⟩
  | signedInt =>
    obtain ⟨a, t, b, hk, ok, rfl⟩ := textTok_ok h
    obtain ⟨x, rfl⟩ := kind_num hk
    exact ⟨_, ok, .signedInt rfl⟩
  | regularId =>
    obtain ⟨a, t, b, hk, ok, rfl⟩ := textTok_ok h
    obtain ⟨x, rfl⟩ := kind_id hk
    exact ⟨_, ok, .regularId rfl⟩
  | specialId =>
    obtain ⟨a, t, b, hk, ok, rfl⟩ := textTok_ok h
    obtain ⟨x, rfl⟩ := kind_sp hk
    exact ⟨_, ok, .specialId rfl⟩
  | customId =>
    obtain ⟨a, t, b, hk, ok, rfl⟩ := textTok_ok h
    obtain ⟨x, rfl⟩ := kind_cu hk
    exact ⟨_, ok, .customId rfl⟩
  | templateId =>
    obtain ⟨a, t, b, hk, ok, rfl⟩ := textTok_ok h
    obtain ⟨x, rfl⟩ := kind_te hk
    exact ⟨_, ok, .templateId rfl⟩
  | stringLit =>
    obtain ⟨a, t, b, hk, ok, rfl⟩ := textTok_ok h
    obtain ⟨x, rfl⟩ := kind_st hk
    exact ⟨_, ok, .stringLit rfl⟩
  | star n => exact pStar_sound hr h
  | plus n => exact pPlus_sound hr h
  | opt n => exact pOpt_sound hr h

theorem parse_sound (k : Nat) : Sound (parse k) := by
  induction k with
  | zero => intro n s v s' h; simp [parse] at h
  | succ k ih => exact body_sound ih

/-- Everything the parser accepts is derivable by the grammar from exactly the given tokens. -/
theorem parseProgram_sound {toks : List STok} {p : NodeProgram} (h : parseProgram toks = some p) :
    Derives .program toks p := by
  unfold parseProgram at h
  split at h
  · rename_i p' s' hp
    split at h
    · rename_i hs
      injection h with h; subst h
      obtain ⟨w, ⟨h1, _⟩, hd⟩ := parse_sound _ _ _ _ _ hp
      simp [hs] at h1
      subst h1; exact hd
    · simp at h
  · simp at h

end Verif
