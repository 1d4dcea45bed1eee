import Verif.Proofs.ParserFollow
/-
Completeness of the parser: every word derivable by the grammar is parsed, to the value of its
derivation.  Generated by tools/gen_complete.py (one lemma `c_X` per production `X`).
-/
namespace Verif

set_option linter.unusedSimpArgs false
set_option linter.unusedVariables false

/-- the parser with fuel `f` parses every derivable word of measure at most `f` -/
def Comp (f : Nat) : Prop := ∀ (n : NT) (w : List STok) (v : Val n), Derives n w v →
  good n = true → 32 * w.length + rank n ≤ f → ∀ (p : Pos) (rest : List STok),
  Follow (bad n) rest → parse f n ⟨p, w ++ rest⟩ = some (v, ⟨stopFrom p w, rest⟩)

theorem Follow.tok {L : List Token} {a b : Pos} {k : Token} {ts : List STok} (h : k.kind ∉ L) :
    Follow L (⟨a, k, b⟩ :: ts) := Follow.cons h

theorem Derives.length_pos {n : NT} {w : List STok} {v : Val n} (d : Derives n w v)
    (h : nullable n = false) : 1 ≤ w.length := by
  cases w with
  | nil => exact absurd rfl (d.ne_nil h)
  | cons a w => simp

theorem Derives.startOf_app {n : NT} {w K : List STok} {v : Val n} (d : Derives n w v)
    (h : nullable n = false) : startOf (w ++ K) = startOf w := by
  cases w with
  | nil => exact absurd rfl (d.ne_nil h)
  | cons a w => rfl

/-- end of the last token -/
def lastStop (w : List STok) : Pos := stopFrom default w

theorem startOf_cons {t : STok} {ts : List STok} : startOf (t :: ts) = t.start := rfl

theorem Derives.stop_eq {n : NT} {w : List STok} {v : Val n} (d : Derives n w v)
    (h : nullable n = false) (p : Pos) : stopFrom p w = lastStop w := stopFrom_ne (d.ne_nil h) _ _

theorem expect_cons {k : Token} {p : Pos} {t : STok} {ts : List STok} :
    expect k ⟨p, t :: ts⟩ = if t.tok.kind = k then some ((), ⟨t.stop, ts⟩) else none := rfl

/-- nonterminals all of whose words are single tokens -/
def NT.single : NT → Bool
  | .typeName | .regularId | .specialId | .hexNumber | .signedInt | .componentId | .templateId
  | .customId | .stringLit | .byteString => true
  | _ => false

theorem Derives.single_word {n : NT} {w : List STok} {v : Val n} (d : Derives n w v)
    (h : n.single = true) : ∃ t, w = [t] := by
  induction d <;> first
    | (simp [NT.single] at h; done)
    | exact ⟨_, ‹_ = _›⟩
    | exact ‹_ → _› rfl

theorem Derives.single_at {n : NT} {w K : List STok} {v : Val n} (d : Derives n w v)
    (h : n.single = true) (p : Pos) (i : Nat) (k : Token) :
    (PS.mk p (w ++ K)).at? (i + 1) k = (PS.mk p K).at? i k := by
  obtain ⟨t, rfl⟩ := d.single_word h
  simp [PS.at?, PS.look]

theorem Derives.single_among {n : NT} {w K : List STok} {v : Val n} (d : Derives n w v)
    (h : n.single = true) (p : Pos) (i : Nat) (ks : List Token) :
    (PS.mk p (w ++ K)).among (i + 1) ks = (PS.mk p K).among i ks := by
  obtain ⟨t, rfl⟩ := d.single_word h
  simp [PS.among, PS.look]

theorem Derives.at0_true {n : NT} {w K : List STok} {v : Val n} {k : Token} (d : Derives n w v)
    (hn : nullable n = false) (hk : heads n = [k]) (p : Pos) :
    (PS.mk p (w ++ K)).at? 0 k = true := by
  cases w with
  | nil => exact absurd rfl (d.ne_nil hn)
  | cons a w =>
    have := d.headed _ _ rfl
    rw [hk] at this
    simpa using this

/-- a variable is one token, or starts with a type name -/
theorem varId_shape {w K : List STok} {v : Val .varId} (d : Derives .varId w v) :
    (∀ p k, (PS.mk p (w ++ K)).at? 1 k = (PS.mk p K).at? 0 k) ∨
    (∀ p x, (PS.mk p (w ++ K)).at? 0 (.identifier x) = false ∧
      (PS.mk p (w ++ K)).at? 0 (.specialIdentifier x) = false) := by
  cases d with
  | varName d => obtain ⟨a, x, b, rfl⟩ := regularId_word d; left; intro p k; simp
  | varSpecial d => obtain ⟨a, x, b, rfl⟩ := specialId_word d; left; intro p k; simp
  | varNamespace h d1 d2 =>
    obtain ⟨t, rfl, ht⟩ := typeName_word d1
    subst h
    right; intro p x
    rcases ht with ht | ht | ht <;> simp [ht]

--GENERATED--

/-! ### productions whose parsing does not follow the production -/

theorem textTok_cons {k : Token} {p : Pos} {t : STok} {ts : List STok} (h : t.tok.kind = k) :
    textTok k ⟨p, t :: ts⟩ = some (mkW [t] t.tok.text, ⟨t.stop, ts⟩) := by
  simp [textTok, h, mkW, startOf, stopOf, stopFrom]

theorem remote_look {w : List STok} {v : Val .remoteFetch} (d : Derives .remoteFetch w v) :
    ∃ a x b s1 e1 s2 e2 X, w = ⟨a, .identifier x, b⟩ :: ⟨s1, .leftArrow, e1⟩ ::
        ⟨s2, .ampersand, e2⟩ :: X ∧ ∀ p K,
      ((PS.mk p (X ++ K)).among 0 typeNameFirst && !(PS.mk p (X ++ K)).at? 1 .dot) = false := by
  cases d with
  | rfState h d1 d2 d3 =>
    obtain ⟨a, x, b, rfl⟩ := regularId_word d1
    obtain ⟨c, y, d, rfl⟩ := regularId_word d2
    exact ⟨a, x, b, _, _, _, _, _, h, by intro p K; simp [typeNameFirst]⟩
  | rfSpecial h d1 d2 d3 =>
    obtain ⟨a, x, b, rfl⟩ := regularId_word d1
    obtain ⟨c, y, d, rfl⟩ := specialId_word d2
    exact ⟨a, x, b, _, _, _, _, _, h, by intro p K; simp [typeNameFirst]⟩
  | rfMap h d1 d2 d3 d4 =>
    obtain ⟨a, x, b, rfl⟩ := regularId_word d1
    obtain ⟨c, y, d, rfl⟩ := regularId_word d2
    exact ⟨a, x, b, _, _, _, _, _, h, by intro p K; simp [typeNameFirst]⟩
  | rfExists h d1 d2 d3 d4 =>
    obtain ⟨a, x, b, rfl⟩ := regularId_word d1
    exact ⟨a, x, b, _, _, _, _, _, h, by intro p K; simp [typeNameFirst]⟩
  | rfCast h d1 d2 d3 =>
    obtain ⟨a, x, b, rfl⟩ := regularId_word d1
    refine ⟨a, x, b, _, _, _, _, _, h, ?_⟩
    intro p K
    cases d2 with
    | varName d => obtain ⟨c, y, d, rfl⟩ := regularId_word d; simp [typeNameFirst]
    | varSpecial d => obtain ⟨c, y, d, rfl⟩ := specialId_word d; simp [typeNameFirst]
    | varNamespace h d1 d2 =>
      obtain ⟨t, rfl, ht⟩ := typeName_word d1
      subst h
      simp

theorem c_stRemote {f : Nat} (ih : Comp f) {w rest : List STok} {p : Pos} {v : Val .remoteFetch}
    (d : Derives .remoteFetch w v) (hl : 32 * w.length + rank .statement ≤ f + 1)
    (hF : Follow (bad .statement) rest) : pStatement (parse f) ⟨p, w ++ rest⟩ =
      some ((.remoteFetch v : Val .statement), ⟨stopFrom p w, rest⟩) := by
  have r := ih _ _ _ d rfl (by simp only [rank] at hl ⊢; omega) p _ hF
  obtain ⟨a, x, b, s1, e1, s2, e2, X, rfl, hX⟩ := remote_look d
  simp only [List.cons_append] at r hX ⊢
  have q : ∀ p k, (PS.mk p (X ++ rest)).at? 0 k = (PS.mk p (X ++ rest)).at? 0 k := fun _ _ => rfl
  have hX := hX p rest
  unfold pStatement
  simp only [at_zero, at_one, at_two, at_three, at_four, among_three, among_two, among_one,
    kindOf_identifier, kindOf_leftArrow, kindOf_ampersand, hX, r]
  rfl

theorem import_spine : ∀ (N f : Nat) (_ : Comp f) (w : List STok) (v : Val .importDecls),
    w.length ≤ N → Derives .importDecls w v → 32 * w.length ≤ f →
    ∃ s1 e1 w1 w' ns j, w = ⟨s1, .import_, e1⟩ :: (w1 ++ w') ∧ j ≤ w'.length ∧
      Derives (.plus .importedName) w1 ns ∧
      (∀ L K, .import_ ∉ L → Follow L K → Follow L (w' ++ K)) ∧
      ∀ K k, Follow (.as_ :: typeNameFirst) K →
        importLoop (parse f) (k + j) (mkW (⟨s1, .import_, e1⟩ :: w1) ⟨ns⟩)
          ⟨stopOf (⟨s1, .import_, e1⟩ :: w1), w' ++ K⟩ =
        importLoop (parse f) k v ⟨stopOf w, K⟩ := by
  intro N
  induction N with
  | zero =>
    intro f _ w v hN d _
    have := d.length_pos rfl; omega
  | succ N IH =>
    intro f ih w v hN d hl
    cases d with
    | importFirst h d1 =>
      subst h
      refine ⟨_, _, _, [], _, 0, by rw [List.append_nil], by simp, d1, ?_, ?_⟩
      · intro L K _ h; simpa using h
      · intro K k _; simp
    | @importMore _ w1 w2 prev n s1 e1 h d1 d2 =>
      subst h
      simp only [List.length_append, List.length_cons] at hN hl
      obtain ⟨t1, u1, v1, v', ns, j, rfl, hj, dp, hfol, hloop⟩ :=
        IH f ih w1 prev (by omega) d1 (by omega)
      refine ⟨t1, u1, v1, v' ++ ⟨s1, .import_, e1⟩ :: w2, ns, j + 1, by simp, by simp; omega, dp,
        ?_, ?_⟩
      · intro L K hL hK
        rw [List.append_assoc]
        exact hfol L _ hL (.tok hL)
      · intro K k hK
        have h1 := hloop (⟨s1, .import_, e1⟩ :: (w2 ++ K)) (k + 1) (.tok (by decide))
        have e : k + (j + 1) = k + 1 + j := by omega
        rw [e, List.append_assoc, List.cons_append, h1]
        have r2 := ih _ _ _ d2 rfl (by simp only [rank]; omega) e1 K (hK.mono (by decide))
        simp [importLoop, expect_cons, r2, PS.wrap, startOf_cons, stopOf, stopFrom_append, stopFrom]

theorem c_import {f : Nat} (ih : Comp f) {w rest : List STok} {p : Pos} {v : Val .importDecls}
    (d : Derives .importDecls w v) (hl : 32 * w.length + rank .importDecls ≤ f + 1)
    (hF : Follow (bad .importDecls) rest) : pImportDecls (parse f) ⟨p, w ++ rest⟩ =
      some (v, ⟨stopFrom p w, rest⟩) := by
  simp only [rank] at hl
  have hw := d.ne_nil rfl
  obtain ⟨s1, e1, w1, w', ns, j, rfl, hj, dp, hfol, hloop⟩ :=
    import_spine w.length f ih w v (Nat.le_refl _) d (by omega)
  have l1 := dp.length_pos rfl
  simp only [List.length_append, List.length_cons] at hl
  have hF' : Follow (.as_ :: typeNameFirst) rest := hF.mono (by decide)
  have r1 := ih _ _ _ dp rfl (by simp only [rank]; omega) e1 (w' ++ rest)
    (hfol _ _ (by decide) (hF.mono (by decide)))
  have e : (w' ++ rest).length + 1 = (w'.length + rest.length + 1 - j) + j := by
    simp only [List.length_append]; omega
  have hl2 := hloop rest (w'.length + rest.length + 1 - j) hF'
  obtain ⟨m, hm⟩ : ∃ m, w'.length + rest.length + 1 - j = m + 1 :=
    ⟨w'.length + rest.length - j, by omega⟩
  rw [← e] at hl2
  have hA := hF.at (stopOf (⟨s1, .import_, e1⟩ :: (w1 ++ w'))) .import_ (by decide)
  simp only [pImportDecls, List.cons_append, expect_cons, List.append_assoc]
  simp only [kindOf_import_, if_true, Option.bind_eq_bind, Option.bind_some, r1]
  have ew : PS.wrap ⟨p, ⟨s1, .import_, e1⟩ :: (w1 ++ (w' ++ rest))⟩
      ⟨stopFrom e1 w1, w' ++ rest⟩ (NodeImportDeclarations.mk ns) =
      mkW (⟨s1, .import_, e1⟩ :: w1) ⟨ns⟩ := rfl
  rw [ew]
  have es : stopFrom e1 w1 = stopOf (⟨s1, .import_, e1⟩ :: w1) := rfl
  rw [es, hl2, hm]
  simp only [importLoop, hA]
  simp [stopOf, stopFrom]

theorem star_snoc {n : NT} : ∀ {vs : List (Val n)} {w w' : List STok} {v : Val n},
    Derives (.star n) w vs → Derives n w' v → Derives (.star n) (w ++ w') (vs ++ [v]) := by
  intro vs
  induction vs with
  | nil =>
    intro w w' v d d'
    rcases star_inv d with ⟨rfl, _⟩ | ⟨_, _, _, _, _, h, _⟩
    · simpa using Derives.starCons d' .starNil
    · cases h
  | cons x xs ih =>
    intro w w' v d d'
    rcases star_inv d with ⟨_, h⟩ | ⟨u1, u2, y, us, rfl, h, d1, d2⟩
    · cases h
    · injection h with ha hb; subst ha; subst hb
      have := ih d2 d'
      rw [List.append_assoc]
      exact .starCons d1 this

theorem builtin_spine : ∀ (N : Nat) (w : List STok) (v : Val .builtinArgs), w.length ≤ N →
    Derives .builtinArgs w v →
    (∃ s1 e1 s2 e2 w2 xs, w = ⟨s1, .openParen, e1⟩ :: ⟨s2, .closeParen, e2⟩ :: w2 ∧
      Derives (.star .varId) w2 xs ∧ v = mkW w ⟨xs⟩) ∨
    (∃ xs, Derives (.plus .varId) w xs ∧ v = mkW w ⟨xs⟩) := by
  intro N
  induction N with
  | zero => intro w v hN d; have := d.length_pos rfl; omega
  | succ N IH =>
    intro w v hN d
    cases d with
    | builtinUnit h => exact .inl ⟨_, _, _, _, [], [], h, .starNil, rfl⟩
    | builtinOne d =>
      refine .inr ⟨[_], ?_, rfl⟩
      simpa using Derives.plusIntro d .starNil
    | @builtinMore _ w1 w2 prev n h d1 d2 =>
      subst h
      have l := d2.length_pos rfl
      simp only [List.length_append] at hN
      rcases IH w1 prev (by omega) d1 with ⟨s1, e1, s2, e2, u, xs, rfl, ds, rfl⟩ | ⟨xs, dp, rfl⟩
      · exact .inl ⟨s1, e1, s2, e2, u ++ w2, xs ++ [n], by simp, star_snoc ds d2, rfl⟩
      · refine .inr ⟨xs ++ [n], ?_, rfl⟩
        obtain ⟨u1, u2, y, us, rfl, rfl, da, db⟩ := plus_inv dp
        rw [List.append_assoc]
        exact .plusIntro da (star_snoc db d2)

theorem c_builtin {f : Nat} (ih : Comp f) {w rest : List STok} {p : Pos} {v : Val .builtinArgs}
    (d : Derives .builtinArgs w v) (hl : 32 * w.length + rank .builtinArgs ≤ f + 1)
    (hF : Follow (bad .builtinArgs) rest) : pBuiltinArgs (parse f) ⟨p, w ++ rest⟩ =
      some (v, ⟨stopFrom p w, rest⟩) := by
  simp only [rank] at hl
  rcases builtin_spine w.length w v (Nat.le_refl _) d with
    ⟨s1, e1, s2, e2, u, xs, rfl, ds, rfl⟩ | ⟨xs, dp, rfl⟩
  · simp only [List.length_cons] at hl
    have r := fun p => ih _ _ _ ds rfl (by simp only [rank]; omega) p rest (hF.mono (by decide))
    simp [pBuiltinArgs, expect_cons, r, PS.wrap, mkW, startOf_cons, stopOf, stopFrom]
  · have r := fun p => ih _ _ _ dp rfl (by simp only [rank]; omega) p rest (hF.mono (by decide))
    have a := dp.at0 (K := rest) rfl p .openParen (by decide)
    have g := dp.startOf_app (K := rest) rfl
    have e := dp.stop_eq rfl
    simp [pBuiltinArgs, r, a, PS.wrap, mkW, stopOf, g, e]

theorem scilla_split : ∀ (N : Nat) (w : List STok) (v : W NodeScillaType), w.length ≤ N →
    Derives .funSig w v → ∃ w1 w2 s1 e1 a b, w = w1 ++ ⟨s1, .arrow, e1⟩ :: w2 ∧
      Derives .remaining w1 a ∧ Derives .scillaType w2 b ∧ v = mkW w (.functionType a b) := by
  intro N w v _ d
  cases d with
  | funSigMore h d1 d2 => exact ⟨_, _, _, _, _, _, h, d1, .typeFun d2, rfl⟩
  | funSigLast h d1 d2 => exact ⟨_, _, _, _, _, _, h, d1, .typeRem d2, rfl⟩

theorem c_funSig {f : Nat} (ih : Comp f) {w rest : List STok} {p : Pos} {v : W NodeScillaType}
    (d : Derives .funSig w v) (hl : 32 * w.length ≤ f)
    (hF : Follow badRemaining rest) : pFunSig (parse f) ⟨p, w ++ rest⟩ =
      some (v, ⟨stopFrom p w, rest⟩) ∧ pScillaType (parse f) ⟨p, w ++ rest⟩ =
      some (v, ⟨stopFrom p w, rest⟩) := by
  obtain ⟨w1, w2, s1, e1, a, b, rfl, d1, d2, rfl⟩ := scilla_split w.length w v (Nat.le_refl _) d
  have l1 := d1.length_pos rfl
  have l2 := d2.length_pos rfl
  simp only [List.length_append, List.length_cons] at hl
  have r1 := fun p => ih _ _ _ d1 rfl (by simp only [rank]; omega) p
    (⟨s1, .arrow, e1⟩ :: (w2 ++ rest)) (.tok (by decide))
  have r2 := fun p => ih _ _ _ d2 rfl (by simp only [rank]; omega) p rest hF
  have g := fun K => d1.startOf_app (K := K) rfl
  constructor
  · simp [pFunSig, r1, r2, expect_cons, PS.wrap, mkW, stopOf, stopFrom, stopFrom_append, g]
  · simp [pScillaType, r1, r2, expect_cons, PS.wrap, mkW, stopOf, stopFrom, stopFrom_append, g]

theorem c_typeRem {f : Nat} (ih : Comp f) {w rest : List STok} {p : Pos} {v : W NodeScillaType}
    (d : Derives .remaining w v) (hl : 32 * w.length + rank .scillaType ≤ f + 1)
    (hF : Follow badRemaining rest) : pScillaType (parse f) ⟨p, w ++ rest⟩ =
      some (v, ⟨stopFrom p w, rest⟩) := by
  simp only [rank] at hl
  have r1 := ih _ _ _ d rfl (by simp only [rank]; omega) p rest (hF.mono (by decide))
  have hA := fun p => hF.at p .arrow (by decide)
  simp [pScillaType, r1, hA]

theorem c_exprAtomic {f : Nat} (ih : Comp f) {w rest : List STok} {p : Pos} {v : Val .atomic}
    (d : Derives .atomic w v) (hl : 32 * w.length + rank .fullExpr ≤ f + 1)
    (hF : Follow (bad .fullExpr) rest) : pFullExpr (parse f) ⟨p, w ++ rest⟩ =
      some ((mkW w (.expressionAtomic v) : Val .fullExpr), ⟨stopFrom p w, rest⟩) := by
  simp only [rank] at hl
  have r := ih _ _ _ d rfl (by simp only [rank]; omega) p rest (hF.mono (by decide))
  have a := fun k hk => d.at0 (K := rest) rfl p k hk
  have g := d.startOf_app (K := rest) rfl
  have e := d.stop_eq rfl
  have hB := fun p M hM => hF.among (M := M) p hM
  cases d with
  | atomicVar d =>
    have r1 := ih _ _ _ d rfl (by simp only [rank]; omega) p rest (hF.mono (by decide))
    have iv := isVar_varId (K := rest) d p
    simp (decide := true) [pFullExpr, r1, a, iv, hB, PS.wrap, mkW, stopOf, g, e]
  | atomicLit d =>
    have iv := isVar_valueLit (K := rest) d p
    have il := isLit_valueLit (K := rest) d p (hF.mono (by decide))
    simp (decide := true) [pFullExpr, r, a, iv, il, PS.wrap, mkW, stopOf, g, e]

theorem c_mvNoArgs {f : Nat} (ih : Comp f) {w rest : List STok} {p : Pos} {v : Val .mapValue}
    (d : Derives .mapValue w v) (hl : 32 * w.length + rank .mapValueAllowing ≤ f + 1)
    (hF : Follow (bad .mapValueAllowing) rest) : pMapValueAllowing (parse f) ⟨p, w ++ rest⟩ =
      some ((mkW w (.typeMapValueNoArgs v) : Val .mapValueAllowing), ⟨stopFrom p w, rest⟩) := by
  simp only [rank] at hl
  have r := ih _ _ _ d rfl (by simp only [rank]; omega) p rest (hF.mono (by decide))
  have g := d.startOf_app (K := rest) rfl
  have e := d.stop_eq rfl
  have hB := fun p M hM => hF.among (M := M) p hM
  cases d with
  | valMeta d =>
    have r1 := ih _ _ _ d rfl (by simp only [rank]; omega) p rest (hF.mono (by decide))
    have ia := isAddr_metaId (K := rest) d p (hF.mono (by decide))
    have b := fun L hk => d.among0 (K := rest) rfl p L hk
    simp (decide := true) [pMapValueAllowing, r1, ia, b, hB, PS.wrap, mkW, stopOf, g, e]
  | valAddress d =>
    have ia := isAddr_addressType (K := rest) d p
    simp (decide := true) [pMapValueAllowing, r, ia, PS.wrap, mkW, stopOf, g, e]
  | valMap h d1 d2 =>
    subst h
    simp only [List.cons_append, List.append_assoc, List.nil_append] at r g ⊢
    simp [pMapValueAllowing, r, metaFirst, typeNameFirst, PS.wrap, mkW, stopOf, startOf_cons,
      stopFrom]
  | valParen h d1 =>
    subst h
    simp only [List.cons_append, List.append_assoc, List.nil_append] at r g ⊢
    simp [pMapValueAllowing, r, metaFirst, typeNameFirst, PS.wrap, mkW, stopOf, startOf_cons,
      stopFrom]

theorem good_disjoint {n : NT} (h : ((first n).all fun k => !(bad n).contains k) = true) :
    ∀ k ∈ first n, k ∉ bad n := by
  intro k hk
  have := List.all_eq_true.mp h k hk
  simpa using this

theorem c_starCons {f : Nat} (ih : Comp f) {n : NT} {w1 w2 rest : List STok} {p : Pos} {v : Val n}
    {vs : List (Val n)} (d1 : Derives n w1 v) (d2 : Derives (.star n) w2 vs)
    (hg : good (.star n) = true) (hl : 32 * (w1 ++ w2).length + (rank n + 1) ≤ f + 1)
    (hF : Follow (bad n ++ first n) rest) :
    pStar (parse f) n ⟨p, w1 ++ w2 ++ rest⟩ = some (v :: vs, ⟨stopFrom p (w1 ++ w2), rest⟩) ∧
    pPlus (parse f) n ⟨p, w1 ++ w2 ++ rest⟩ = some (v :: vs, ⟨stopFrom p (w1 ++ w2), rest⟩) := by
  have hg' := hg
  simp only [good, Bool.and_eq_true] at hg'
  obtain ⟨hb, hd⟩ := hg'
  have hd := good_disjoint hd
  have hh := base_heads hb
  have l1 := d1.length_pos (base_not_nullable hb)
  have gn : good n = true := by
    revert hb; cases n <;> simp [NT.base, good]
  have hr := rank_le n gn
  simp only [List.length_append] at hl
  have hfol : Follow (bad n) (w2 ++ rest) := by
    refine .app' d2 ?_ (hF.mono (fun k hk => List.mem_append_left _ hk))
    intro k hk; exact hd k (by simpa [heads, hh] using hk)
  have r1 := ih _ _ _ d1 gn (by omega) p (w2 ++ rest) hfol
  have r2 := ih _ _ _ d2 hg (by simp only [rank]; omega) (stopFrom p w1) rest hF
  have a := d1.among0 (K := w2 ++ rest) (base_not_nullable hb) p (first n) (by simp [hh])
  rw [List.append_assoc]
  constructor
  · simp [pStar, a, r1, r2, stopFrom_append]
  · simp [pPlus, r1, r2, stopFrom_append]

theorem comp_succ {f : Nat} (ih : Comp f) : Comp (f + 1) := by
  intro n w v d hg hl p rest hF
  show body (parse f) n ⟨p, w ++ rest⟩ = _
  cases d with
  | starNil =>
    rename_i n
    have hb := hF.among (M := first n) p (fun k hk => List.mem_append_right _ hk)
    simp [body, pStar, hb, stopFrom]
  | starCons d1 d2 => exact (c_starCons ih d1 d2 hg hl hF).1
  | plusIntro d1 d2 => exact (c_starCons ih d1 d2 hg hl hF).2
  | optNone =>
    rename_i n
    have hb := hF.among (M := first n) p (fun k hk => List.mem_append_right _ hk)
    simp [body, pOpt, hb, stopFrom]
  | optSome d1 =>
    rename_i n v
    simp only [good] at hg
    have gn : good n = true := by
      revert hg; cases n <;> simp [NT.base, good]
    simp only [rank] at hl
    have r := ih _ _ _ d1 gn (by omega) p rest (hF.mono (fun k hk => List.mem_append_left _ hk))
    have a := d1.among0 (K := rest) (base_not_nullable hg) p (first n) (by simp [base_heads hg])
    simp [body, pOpt, a, r]
  | hexNumber h => subst h; simp [body, textTok, mkW, startOf, stopOf, stopFrom, Token.text]
  | signedInt h => subst h; simp [body, textTok, mkW, startOf, stopOf, stopFrom, Token.text]
  | regularId h => subst h; simp [body, textTok, mkW, startOf, stopOf, stopFrom, Token.text]
  | specialId h => subst h; simp [body, textTok, mkW, startOf, stopOf, stopFrom, Token.text]
  | customId h => subst h; simp [body, textTok, mkW, startOf, stopOf, stopFrom, Token.text]
  | templateId h => subst h; simp [body, textTok, mkW, startOf, stopOf, stopFrom, Token.text]
  | stringLit h => subst h; simp [body, textTok, mkW, startOf, stopOf, stopFrom, Token.text]
  | byteString h =>
    subst h
    simp [body, pByteString, textTok, mkW, startOf, stopOf, stopFrom, Token.text]
  | importMore h d1 d2 => exact c_import ih (.importMore h d1 d2) hl hF
  | importFirst h d1 => exact c_import ih (.importFirst h d1) hl hF
  | builtinMore h d1 d2 => exact c_builtin ih (.builtinMore h d1 d2) hl hF
  | builtinOne d1 => exact c_builtin ih (.builtinOne d1) hl hF
  | builtinUnit h => exact c_builtin ih (.builtinUnit h) hl hF
  | funSigMore h d1 d2 =>
    exact (c_funSig ih (.funSigMore h d1 d2) (by simp only [rank] at hl; omega) hF).1
  | funSigLast h d1 d2 =>
    exact (c_funSig ih (.funSigLast h d1 d2) (by simp only [rank] at hl; omega) hF).1
  | typeFun d1 => exact (c_funSig ih d1 (by simp only [rank] at hl; omega) hF).2
  | typeRem d1 => exact c_typeRem ih d1 hl hF
  | exprAtomic d1 => exact c_exprAtomic ih d1 hl hF
  | mvNoArgs d1 => exact c_mvNoArgs ih d1 hl hF
  | stRemote d1 => exact c_stRemote ih d1 hl hF
  --ASSEMBLY--

theorem comp (f : Nat) : Comp f := by
  induction f with
  | zero =>
    intro n w v d hg hl
    have := (rank_le n hg).1
    omega
  | succ f ih => exact comp_succ ih

/-- Every derivable program is parsed, to the value of its derivation. -/
theorem parseProgram_complete {toks : List STok} {p : NodeProgram}
    (h : Derives .program toks p) : parseProgram toks = some p := by
  have := comp (parseFuel toks) .program toks p h rfl (by simp [parseFuel, rank]) default []
    Follow.nil
  rw [List.append_nil] at this
  simp [parseProgram, this]

end Verif
