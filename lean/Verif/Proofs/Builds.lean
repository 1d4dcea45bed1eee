import Verif.Proofs.Actions
/-
The trees of the specification `Derives` are those the actions of the grammar file compute (written by
tools/action_proofs.py).
-/
namespace Verif

set_option linter.unusedSimpArgs false

theorem Builds.app {α β : List FSym} {u w : List Piece} (h : Builds α u) (h' : Builds β w) : Builds (α ++ β) (u ++ w) := by
  induction h with
  | nil => exact h'
  | tok hk _ ih => exact .tok hk ih
  | non hq ha hu hv _ _ ih => exact .non hq ha hu hv ih
  | optNone _ ih => exact .optNone ih
  | optSome hu _ _ ih => exact .optSome hu ih
  | starNil _ ih => exact .starNil ih
  | starCons hu _ _ ih => exact .starCons hu ih
  | plus hu _ _ ih => exact .plus hu ih

theorem Builds.cons {f : FSym} {β : List FSym} {p : Piece} {ps : List Piece} (h : Builds [f] [p]) (h' : Builds β ps) :
    Builds (f :: β) (p :: ps) := h.app h'

theorem Builds.rule (i : Nat) {l : Nat} {x : GName} {β : List FSym} (qs : List Piece) {w : List STok} {v : RV}
    (h : grammarFile[i]? = some ⟨l, x, β⟩)
    (ha : (fileActions[i]?.bind fun act => act.value (actArgs qs)) = some v) (hw : inputOf qs = w)
    (hg : Builds β qs) : Builds [.non x] [(w, v)] := by
  subst hw
  obtain ⟨a, ha, hv⟩ := Option.bind_eq_some_iff.1 ha
  exact Builds.non (q := ⟨l, x, β⟩) h ha hg hv .nil

theorem Builds.rule1 (i : Nat) {l : Nat} {x : GName} {f : FSym} {w : List STok} {r v : RV}
    (hg : Builds [f] [(w, r)]) (h : grammarFile[i]? = some ⟨l, x, [f]⟩)
    (ha : (fileActions[i]?.bind fun act => act.value (actArgs [(w, r)])) = some v) : Builds [.non x] [(w, v)] :=
  Builds.rule i [(w, r)] h ha (by simp [inputOf]) hg

macro "bldstep" : tactic => `(tactic| (
  intro f hf
  simp only [NT.fsym, NT.gname, Option.map_some, Option.some.injEq] at hf
  subst hf
  try simp only [NT.fsym, NT.gname, Option.map_some, Option.some.injEq, forall_eq'] at *))

macro "bldsteps" : tactic => `(tactic| repeat' (first
  | assumption | exact Builds.nil | refine Builds.cons (by assumption) ?_ | refine Builds.tok (t := ⟨_, _, _⟩) rfl ?_))

theorem Derives.builds {n : NT} {w : List STok} {v : Val n} (d : Derives n w v) :
    ∀ f, n.fsym = some f → Builds [f] [(w, rv n v)] := by
  induction d
  case starNil =>
    intro f hf
    simp only [NT.fsym, Option.map_eq_some_iff] at hf
    obtain ⟨x, _, rfl⟩ := hf
    exact .starNil .nil
  case starCons ih1 ih2 =>
    intro f hf
    have hf' := hf
    simp only [NT.fsym, Option.map_eq_some_iff] at hf
    obtain ⟨x, hx, rfl⟩ := hf
    exact .starCons (ih1 _ (fsym_non hx)) (ih2 _ hf')
  case plusIntro ih1 ih2 =>
    intro f hf
    simp only [NT.fsym, Option.map_eq_some_iff] at hf
    obtain ⟨x, hx, rfl⟩ := hf
    exact .plus (ih1 _ (fsym_non hx)) (ih2 _ (by simp only [NT.fsym, hx, Option.map_some]))
  case optNone =>
    intro f hf
    simp only [NT.fsym, Option.map_eq_some_iff] at hf
    obtain ⟨x, _, rfl⟩ := hf
    exact .optNone .nil
  case optSome ih =>
    intro f hf
    simp only [NT.fsym, Option.map_eq_some_iff] at hf
    obtain ⟨x, hx, rfl⟩ := hf
    exact .optSome (ih _ (fsym_non hx)) .nil
  case byteString hw =>
    bldstep
    refine Builds.rule 0 _ rfl (act_byteString hw) (by simp [inputOf, hw]) ?_
    bldsteps
  case typeNameBytes ih =>
    bldstep
    exact Builds.rule1 1 ih rfl act_typeNameBytes
  case typeNameEvent hw =>
    bldstep
    refine Builds.rule 2 _ rfl (act_typeNameEvent hw) (by simp [inputOf, hw]) ?_
    bldsteps
  case typeNameCustom ih =>
    bldstep
    exact Builds.rule1 3 ih rfl act_typeNameCustom
  case importedRegular ih =>
    bldstep
    exact Builds.rule1 4 ih rfl act_importedRegular
  case importedAliased hw _ _ _ _ =>
    bldstep
    refine Builds.rule 5 _ rfl (act_importedAliased hw) (by simp [inputOf, hw]) ?_
    bldsteps
  case importMore hw _ _ _ _ =>
    bldstep
    refine Builds.rule 6 _ rfl (act_importMore hw) (by simp [inputOf, hw]) ?_
    bldsteps
  case importFirst hw _ _ =>
    bldstep
    refine Builds.rule 7 _ rfl (act_importFirst hw) (by simp [inputOf, hw]) ?_
    bldsteps
  case metaName ih =>
    bldstep
    exact Builds.rule1 8 ih rfl act_metaName
  case metaNamespace hw _ _ _ _ =>
    bldstep
    refine Builds.rule 9 _ rfl (act_metaNamespace hw) (by simp [inputOf, hw]) ?_
    bldsteps
  case metaHexspace hw _ _ _ _ =>
    bldstep
    refine Builds.rule 10 _ rfl (act_metaHexspace hw) (by simp [inputOf, hw]) ?_
    bldsteps
  case metaByStr hw =>
    bldstep
    refine Builds.rule 11 _ rfl (act_metaByStr hw) (by simp [inputOf, hw]) ?_
    bldsteps
  case varName ih =>
    bldstep
    exact Builds.rule1 12 ih rfl act_varName
  case varSpecial ih =>
    bldstep
    exact Builds.rule1 13 ih rfl act_varSpecial
  case varNamespace hw _ _ _ _ =>
    bldstep
    refine Builds.rule 14 _ rfl (act_varNamespace hw) (by simp [inputOf, hw]) ?_
    bldsteps
  case builtinMore hw _ _ _ _ =>
    bldstep
    refine Builds.rule 15 _ rfl (act_builtinMore hw) (by simp [inputOf, hw]) ?_
    bldsteps
  case builtinOne ih =>
    bldstep
    exact Builds.rule1 16 ih rfl act_builtinOne
  case builtinUnit hw =>
    bldstep
    refine Builds.rule 17 _ rfl (act_builtinUnit hw) (by simp [inputOf, hw]) ?_
    bldsteps
  case remGeneric hw _ _ _ _ =>
    bldstep
    refine Builds.rule 18 _ rfl (act_remGeneric hw) (by simp [inputOf, hw]) ?_
    bldsteps
  case remMap hw _ _ _ _ =>
    bldstep
    refine Builds.rule 19 _ rfl (act_remMap hw) (by simp [inputOf, hw]) ?_
    bldsteps
  case remParen hw _ _ =>
    bldstep
    refine Builds.rule 20 _ rfl (act_remParen hw) (by simp [inputOf, hw]) ?_
    bldsteps
  case remAddress ih =>
    bldstep
    exact Builds.rule1 21 ih rfl act_remAddress
  case remForall hw _ _ _ _ =>
    bldstep
    refine Builds.rule 22 _ rfl (act_remForall hw) (by simp [inputOf, hw]) ?_
    bldsteps
  case remTypeVar ih =>
    bldstep
    exact Builds.rule1 23 ih rfl act_remTypeVar
  case funSigMore hw _ _ _ _ =>
    bldstep
    refine Builds.rule 24 _ rfl (act_funSigMore hw) (by simp [inputOf, hw]) ?_
    bldsteps
  case funSigLast hw _ _ _ _ =>
    bldstep
    refine Builds.rule 25 _ rfl (act_funSigLast hw) (by simp [inputOf, hw]) ?_
    bldsteps
  case typeFun ih =>
    bldstep
    exact Builds.rule1 26 ih rfl act_typeFun
  case typeRem ih =>
    bldstep
    exact Builds.rule1 27 ih rfl act_typeRem
  case argParen hw _ _ =>
    bldstep
    refine Builds.rule 28 _ rfl (act_argParen hw) (by simp [inputOf, hw]) ?_
    bldsteps
  case argMeta ih =>
    bldstep
    exact Builds.rule1 29 ih rfl act_argMeta
  case argTemplate ih =>
    bldstep
    exact Builds.rule1 30 ih rfl act_argTemplate
  case argAddress ih =>
    bldstep
    exact Builds.rule1 31 ih rfl act_argAddress
  case argMap hw _ _ _ _ =>
    bldstep
    refine Builds.rule 32 _ rfl (act_argMap hw) (by simp [inputOf, hw]) ?_
    bldsteps
  case addrEmpty hw _ _ =>
    bldstep
    refine Builds.rule 33 _ rfl (act_addrEmpty hw) (by simp [inputOf, hw]) ?_
    bldsteps
  case addrContract hw _ _ _ _ =>
    bldstep
    refine Builds.rule 34 _ rfl (act_addrContract hw) (by simp [inputOf, hw]) ?_
    bldsteps
  case addrLibrary hw _ _ =>
    bldstep
    refine Builds.rule 35 _ rfl (act_addrLibrary hw) (by simp [inputOf, hw]) ?_
    bldsteps
  case addrSpecial hw _ _ _ _ =>
    bldstep
    refine Builds.rule 36 _ rfl (act_addrSpecial hw) (by simp [inputOf, hw]) ?_
    bldsteps
  case addrFieldList hw _ _ _ _ =>
    bldstep
    refine Builds.rule 37 _ rfl (act_addrFieldList hw) (by simp [inputOf, hw]) ?_
    bldsteps
  case nextAddrField hw _ _ =>
    bldstep
    refine Builds.rule 38 _ rfl (act_nextAddrField hw) (by simp [inputOf, hw]) ?_
    bldsteps
  case addrField hw _ _ _ _ =>
    bldstep
    refine Builds.rule 39 _ rfl (act_addrField hw) (by simp [inputOf, hw]) ?_
    bldsteps
  case keyMeta ih =>
    bldstep
    exact Builds.rule1 40 ih rfl act_keyMeta
  case keyParenMeta hw _ _ =>
    bldstep
    refine Builds.rule 41 _ rfl (act_keyParenMeta hw) (by simp [inputOf, hw]) ?_
    bldsteps
  case keyParenAddress hw _ _ =>
    bldstep
    refine Builds.rule 42 _ rfl (act_keyParenAddress hw) (by simp [inputOf, hw]) ?_
    bldsteps
  case keyAddress ih =>
    bldstep
    exact Builds.rule1 43 ih rfl act_keyAddress
  case valMeta ih =>
    bldstep
    exact Builds.rule1 44 ih rfl act_valMeta
  case valMap hw _ _ _ _ =>
    bldstep
    refine Builds.rule 45 _ rfl (act_valMap hw) (by simp [inputOf, hw]) ?_
    bldsteps
  case valParen hw _ _ =>
    bldstep
    refine Builds.rule 46 _ rfl (act_valParen hw) (by simp [inputOf, hw]) ?_
    bldsteps
  case valAddress ih =>
    bldstep
    exact Builds.rule1 47 ih rfl act_valAddress
  case mvaParen hw _ _ =>
    bldstep
    refine Builds.rule 48 _ rfl (act_mvaParen hw) (by simp [inputOf, hw]) ?_
    bldsteps
  case mvaMeta ih =>
    bldstep
    exact Builds.rule1 49 ih rfl act_mvaMeta
  case mvaMap hw _ _ _ _ =>
    bldstep
    refine Builds.rule 50 _ rfl (act_mvaMap hw) (by simp [inputOf, hw]) ?_
    bldsteps
  case program hw _ _ _ _ _ _ _ _ =>
    bldstep
    refine Builds.rule 51 _ rfl (act_program hw) (by simp [inputOf, hw]) ?_
    bldsteps
  case libraryDef hw _ _ _ _ =>
    bldstep
    refine Builds.rule 52 _ rfl (act_libraryDef hw) (by simp [inputOf, hw]) ?_
    bldsteps
  case libLet hw _ _ _ _ _ _ =>
    bldstep
    refine Builds.rule 53 _ rfl (act_libLet hw) (by simp [inputOf, hw]) ?_
    bldsteps
  case libType hw _ _ =>
    bldstep
    refine Builds.rule 54 _ rfl (act_libType hw) (by simp [inputOf, hw]) ?_
    bldsteps
  case libTypeAlts hw _ _ _ _ =>
    bldstep
    refine Builds.rule 55 _ rfl (act_libTypeAlts hw) (by simp [inputOf, hw]) ?_
    bldsteps
  case typedId hw _ _ _ _ =>
    bldstep
    refine Builds.rule 56 _ rfl (act_typedId hw) (by simp [inputOf, hw]) ?_
    bldsteps
  case typeAnn hw _ _ =>
    bldstep
    refine Builds.rule 57 _ rfl (act_typeAnn hw) (by simp [inputOf, hw]) ?_
    bldsteps
  case altType hw _ _ =>
    bldstep
    refine Builds.rule 58 _ rfl (act_altType hw) (by simp [inputOf, hw]) ?_
    bldsteps
  case altTypeArgs hw _ _ _ _ =>
    bldstep
    refine Builds.rule 59 _ rfl (act_altTypeArgs hw) (by simp [inputOf, hw]) ?_
    bldsteps
  case mvWithArgs hw _ _ _ _ =>
    bldstep
    refine Builds.rule 60 _ rfl (act_mvWithArgs hw) (by simp [inputOf, hw]) ?_
    bldsteps
  case mvNoArgs ih =>
    bldstep
    exact Builds.rule1 61 ih rfl act_mvNoArgs
  case contractTypeArgs hw _ _ =>
    bldstep
    refine Builds.rule 62 _ rfl (act_contractTypeArgs hw) (by simp [inputOf, hw]) ?_
    bldsteps
  case exprLet hw _ _ _ _ _ _ _ _ =>
    bldstep
    refine Builds.rule 63 _ rfl (act_exprLet hw) (by simp [inputOf, hw]) ?_
    bldsteps
  case exprFun hw _ _ _ _ _ _ =>
    bldstep
    refine Builds.rule 64 _ rfl (act_exprFun hw) (by simp [inputOf, hw]) ?_
    bldsteps
  case exprCall hw _ _ _ _ =>
    bldstep
    refine Builds.rule 65 _ rfl (act_exprCall hw) (by simp [inputOf, hw]) ?_
    bldsteps
  case exprAtomic ih =>
    bldstep
    exact Builds.rule1 66 ih rfl act_exprAtomic
  case exprBuiltin hw _ _ _ _ _ _ =>
    bldstep
    refine Builds.rule 67 _ rfl (act_exprBuiltin hw) (by simp [inputOf, hw]) ?_
    bldsteps
  case exprMessage hw _ _ _ _ =>
    bldstep
    refine Builds.rule 68 _ rfl (act_exprMessage hw) (by simp [inputOf, hw]) ?_
    bldsteps
  case exprMatch hw _ _ _ _ =>
    bldstep
    refine Builds.rule 69 _ rfl (act_exprMatch hw) (by simp [inputOf, hw]) ?_
    bldsteps
  case exprConstr hw _ _ _ _ _ _ =>
    bldstep
    refine Builds.rule 70 _ rfl (act_exprConstr hw) (by simp [inputOf, hw]) ?_
    bldsteps
  case exprTFun hw _ _ _ _ =>
    bldstep
    refine Builds.rule 71 _ rfl (act_exprTFun hw) (by simp [inputOf, hw]) ?_
    bldsteps
  case exprTApp hw _ _ _ _ =>
    bldstep
    refine Builds.rule 72 _ rfl (act_exprTApp hw) (by simp [inputOf, hw]) ?_
    bldsteps
  case pmExprClause hw _ _ _ _ =>
    bldstep
    refine Builds.rule 73 _ rfl (act_pmExprClause hw) (by simp [inputOf, hw]) ?_
    bldsteps
  case patWildcard hw =>
    bldstep
    refine Builds.rule 74 _ rfl (act_patWildcard hw) (by simp [inputOf, hw]) ?_
    bldsteps
  case patBinder ih =>
    bldstep
    exact Builds.rule1 75 ih rfl act_patBinder
  case patConstr hw _ _ _ _ =>
    bldstep
    refine Builds.rule 76 _ rfl (act_patConstr hw) (by simp [inputOf, hw]) ?_
    bldsteps
  case apWildcard hw =>
    bldstep
    refine Builds.rule 77 _ rfl (act_apWildcard hw) (by simp [inputOf, hw]) ?_
    bldsteps
  case apBinder ih =>
    bldstep
    exact Builds.rule1 78 ih rfl act_apBinder
  case apConstr ih =>
    bldstep
    exact Builds.rule1 79 ih rfl act_apConstr
  case apParen hw _ _ =>
    bldstep
    refine Builds.rule 80 _ rfl (act_apParen hw) (by simp [inputOf, hw]) ?_
    bldsteps
  case nextMessage hw _ _ =>
    bldstep
    refine Builds.rule 81 _ rfl (act_nextMessage hw) (by simp [inputOf, hw]) ?_
    bldsteps
  case msgLiteral hw _ _ _ _ =>
    bldstep
    refine Builds.rule 82 _ rfl (act_msgLiteral hw) (by simp [inputOf, hw]) ?_
    bldsteps
  case msgVariable hw _ _ _ _ =>
    bldstep
    refine Builds.rule 83 _ rfl (act_msgVariable hw) (by simp [inputOf, hw]) ?_
    bldsteps
  case atomicVar ih =>
    bldstep
    exact Builds.rule1 84 ih rfl act_atomicVar
  case atomicLit ih =>
    bldstep
    exact Builds.rule1 85 ih rfl act_atomicLit
  case litInt hw _ _ _ _ =>
    bldstep
    refine Builds.rule 86 _ rfl (act_litInt hw) (by simp [inputOf, hw]) ?_
    bldsteps
  case litHex ih =>
    bldstep
    exact Builds.rule1 87 ih rfl act_litHex
  case litString ih =>
    bldstep
    exact Builds.rule1 88 ih rfl act_litString
  case litEmp hw _ _ _ _ =>
    bldstep
    refine Builds.rule 89 _ rfl (act_litEmp hw) (by simp [inputOf, hw]) ?_
    bldsteps
  case stLoad hw _ _ _ _ =>
    bldstep
    refine Builds.rule 90 _ rfl (act_stLoad hw) (by simp [inputOf, hw]) ?_
    bldsteps
  case stRemote ih =>
    bldstep
    exact Builds.rule1 91 ih rfl act_stRemote
  case stStore hw _ _ _ _ =>
    bldstep
    refine Builds.rule 92 _ rfl (act_stStore hw) (by simp [inputOf, hw]) ?_
    bldsteps
  case stBind hw _ _ _ _ =>
    bldstep
    refine Builds.rule 93 _ rfl (act_stBind hw) (by simp [inputOf, hw]) ?_
    bldsteps
  case stReadBC hw _ _ _ _ _ _ =>
    bldstep
    refine Builds.rule 94 _ rfl (act_stReadBC hw) (by simp [inputOf, hw]) ?_
    bldsteps
  case stMapGet hw _ _ _ _ _ _ =>
    bldstep
    refine Builds.rule 95 _ rfl (act_stMapGet hw) (by simp [inputOf, hw]) ?_
    bldsteps
  case stMapGetExists hw _ _ _ _ _ _ =>
    bldstep
    refine Builds.rule 96 _ rfl (act_stMapGetExists hw) (by simp [inputOf, hw]) ?_
    bldsteps
  case stMapUpdate hw _ _ _ _ _ _ =>
    bldstep
    refine Builds.rule 97 _ rfl (act_stMapUpdate hw) (by simp [inputOf, hw]) ?_
    bldsteps
  case stMapDelete hw _ _ _ _ =>
    bldstep
    refine Builds.rule 98 _ rfl (act_stMapDelete hw) (by simp [inputOf, hw]) ?_
    bldsteps
  case stAccept hw =>
    bldstep
    refine Builds.rule 99 _ rfl (act_stAccept hw) (by simp [inputOf, hw]) ?_
    bldsteps
  case stSend hw _ _ =>
    bldstep
    refine Builds.rule 100 _ rfl (act_stSend hw) (by simp [inputOf, hw]) ?_
    bldsteps
  case stEvent hw _ _ =>
    bldstep
    refine Builds.rule 101 _ rfl (act_stEvent hw) (by simp [inputOf, hw]) ?_
    bldsteps
  case stThrow hw _ _ =>
    bldstep
    refine Builds.rule 102 _ rfl (act_stThrow hw) (by simp [inputOf, hw]) ?_
    bldsteps
  case stMatch hw _ _ _ _ =>
    bldstep
    refine Builds.rule 103 _ rfl (act_stMatch hw) (by simp [inputOf, hw]) ?_
    bldsteps
  case stCall hw _ _ _ _ =>
    bldstep
    refine Builds.rule 104 _ rfl (act_stCall hw) (by simp [inputOf, hw]) ?_
    bldsteps
  case stForall hw _ _ _ _ =>
    bldstep
    refine Builds.rule 105 _ rfl (act_stForall hw) (by simp [inputOf, hw]) ?_
    bldsteps
  case nextStatement hw _ _ =>
    bldstep
    refine Builds.rule 106 _ rfl (act_nextStatement hw) (by simp [inputOf, hw]) ?_
    bldsteps
  case stmtBlock hw _ _ _ _ =>
    bldstep
    refine Builds.rule 107 _ rfl (act_stmtBlock hw) (by simp [inputOf, hw]) ?_
    bldsteps
  case bcFetchArgs hw _ _ =>
    bldstep
    refine Builds.rule 108 _ rfl (act_bcFetchArgs hw) (by simp [inputOf, hw]) ?_
    bldsteps
  case componentType ih =>
    bldstep
    exact Builds.rule1 109 ih rfl act_componentType
  case componentRegular ih =>
    bldstep
    exact Builds.rule1 110 ih rfl act_componentRegular
  case pmClause hw _ _ _ _ =>
    bldstep
    refine Builds.rule 111 _ rfl (act_pmClause hw) (by simp [inputOf, hw]) ?_
    bldsteps
  case rfState hw _ _ _ _ _ _ =>
    bldstep
    refine Builds.rule 112 _ rfl (act_rfState hw) (by simp [inputOf, hw]) ?_
    bldsteps
  case rfSpecial hw _ _ _ _ _ _ =>
    bldstep
    refine Builds.rule 113 _ rfl (act_rfSpecial hw) (by simp [inputOf, hw]) ?_
    bldsteps
  case rfMap hw _ _ _ _ _ _ _ _ =>
    bldstep
    refine Builds.rule 114 _ rfl (act_rfMap hw) (by simp [inputOf, hw]) ?_
    bldsteps
  case rfExists hw _ _ _ _ _ _ _ _ =>
    bldstep
    refine Builds.rule 115 _ rfl (act_rfExists hw) (by simp [inputOf, hw]) ?_
    bldsteps
  case rfCast hw _ _ _ _ _ _ =>
    bldstep
    refine Builds.rule 116 _ rfl (act_rfCast hw) (by simp [inputOf, hw]) ?_
    bldsteps
  case mapAccess hw _ _ =>
    bldstep
    refine Builds.rule 117 _ rfl (act_mapAccess hw) (by simp [inputOf, hw]) ?_
    bldsteps
  case paramPair ih =>
    bldstep
    exact Builds.rule1 118 ih rfl act_paramPair
  case nextParamPair hw _ _ =>
    bldstep
    refine Builds.rule 119 _ rfl (act_nextParamPair hw) (by simp [inputOf, hw]) ?_
    bldsteps
  case compParams hw _ _ _ _ =>
    bldstep
    refine Builds.rule 120 _ rfl (act_compParams hw) (by simp [inputOf, hw]) ?_
    bldsteps
  case compTransition ih =>
    bldstep
    exact Builds.rule1 121 ih rfl act_compTransition
  case compProcedure ih =>
    bldstep
    exact Builds.rule1 122 ih rfl act_compProcedure
  case transDef hw _ _ _ _ _ _ =>
    bldstep
    refine Builds.rule 123 _ rfl (act_transDef hw) (by simp [inputOf, hw]) ?_
    bldsteps
  case procDef hw _ _ _ _ _ _ =>
    bldstep
    refine Builds.rule 124 _ rfl (act_procDef hw) (by simp [inputOf, hw]) ?_
    bldsteps
  case compBody hw _ _ =>
    bldstep
    refine Builds.rule 125 _ rfl (act_compBody hw) (by simp [inputOf, hw]) ?_
    bldsteps
  case contractDef hw _ _ _ _ _ _ _ _ _ _ =>
    bldstep
    refine Builds.rule 126 _ rfl (act_contractDef hw) (by simp [inputOf, hw]) ?_
    bldsteps
  case contractField hw _ _ _ _ =>
    bldstep
    refine Builds.rule 127 _ rfl (act_contractField hw) (by simp [inputOf, hw]) ?_
    bldsteps
  case withConstraint hw _ _ =>
    bldstep
    refine Builds.rule 128 _ rfl (act_withConstraint hw) (by simp [inputOf, hw]) ?_
    bldsteps
  case hexNumber hw =>
    bldstep
    refine Builds.rule 129 _ rfl (act_hexNumber hw) (by simp [inputOf, hw]) ?_
    bldsteps
  case signedInt hw =>
    bldstep
    refine Builds.rule 130 _ rfl (act_signedInt hw) (by simp [inputOf, hw]) ?_
    bldsteps
  case regularId hw =>
    bldstep
    refine Builds.rule 131 _ rfl (act_regularId hw) (by simp [inputOf, hw]) ?_
    bldsteps
  case specialId hw =>
    bldstep
    refine Builds.rule 132 _ rfl (act_specialId hw) (by simp [inputOf, hw]) ?_
    bldsteps
  case customId hw =>
    bldstep
    refine Builds.rule 133 _ rfl (act_customId hw) (by simp [inputOf, hw]) ?_
    bldsteps
  case templateId hw =>
    bldstep
    refine Builds.rule 134 _ rfl (act_templateId hw) (by simp [inputOf, hw]) ?_
    bldsteps
  case stringLit hw =>
    bldstep
    refine Builds.rule 135 _ rfl (act_stringLit hw) (by simp [inputOf, hw]) ?_
    bldsteps

/-! ### The converse -/

/-- the symbols derive the pieces, by the specification `Derives`, with these values -/
def DV : List FSym → List Piece → Prop
  | [], ps => ps = []
  | .tok k :: α, ps => ∃ t qs, ps = ([t], .str t.tok.text) :: qs ∧ t.tok.kind = k ∧ DV α qs
  | .non x :: α, ps => ∃ w v qs, ps = (w, rv x.nt v) :: qs ∧ Derives x.nt w v ∧ DV α qs
  | .star x :: α, ps => ∃ w v qs, ps = (w, rv (.star x.nt) v) :: qs ∧ Derives (.star x.nt) w v ∧ DV α qs
  | .plus x :: α, ps => ∃ w v qs, ps = (w, rv (.plus x.nt) v) :: qs ∧ Derives (.plus x.nt) w v ∧ DV α qs
  | .opt x :: α, ps => ∃ w v qs, ps = (w, rv (.opt x.nt) v) :: qs ∧ Derives (.opt x.nt) w v ∧ DV α qs

theorem back_byteString {ps : List Piece} (h : DV [.tok (.byStrWithSize [])] ps) :
    ∃ v, Derives .byteString (inputOf ps) v ∧ (fileActions[0]?.bind fun act => act.value (actArgs ps)) = some (rv .byteString v) := by
  obtain ⟨t0, q0, rfl, k0, rfl⟩ := h
  obtain ⟨s0, t0, e0⟩ := t0; obtain ⟨x0, hx⟩ := kind_by k0; dsimp only at hx; subst hx
  refine ⟨_, ?_, act_byteString rfl⟩
  simpa [inputOf] using Derives.byteString rfl 

theorem back_typeNameBytes {ps : List Piece} (h : DV [.non .ByteString] ps) :
    ∃ v, Derives .typeName (inputOf ps) v ∧ (fileActions[1]?.bind fun act => act.value (actArgs ps)) = some (rv .typeName v) := by
  obtain ⟨w0, v0, q0, rfl, d0, rfl⟩ := h
  refine ⟨_, ?_, act_typeNameBytes⟩
  simpa [inputOf] using Derives.typeNameBytes d0

theorem back_typeNameEvent {ps : List Piece} (h : DV [.tok .eventType] ps) :
    ∃ v, Derives .typeName (inputOf ps) v ∧ (fileActions[2]?.bind fun act => act.value (actArgs ps)) = some (rv .typeName v) := by
  obtain ⟨t0, q0, rfl, k0, rfl⟩ := h
  obtain ⟨s0, e0, rfl⟩ := tok_plain rfl k0
  refine ⟨_, ?_, act_typeNameEvent rfl⟩
  simpa [inputOf] using Derives.typeNameEvent rfl 

theorem back_typeNameCustom {ps : List Piece} (h : DV [.non .TypeOrEnumLikeIdentifierId] ps) :
    ∃ v, Derives .typeName (inputOf ps) v ∧ (fileActions[3]?.bind fun act => act.value (actArgs ps)) = some (rv .typeName v) := by
  obtain ⟨w0, v0, q0, rfl, d0, rfl⟩ := h
  refine ⟨_, ?_, act_typeNameCustom⟩
  simpa [inputOf] using Derives.typeNameCustom d0

theorem back_importedRegular {ps : List Piece} (h : DV [.non .TypeNameIdentifier] ps) :
    ∃ v, Derives .importedName (inputOf ps) v ∧ (fileActions[4]?.bind fun act => act.value (actArgs ps)) = some (rv .importedName v) := by
  obtain ⟨w0, v0, q0, rfl, d0, rfl⟩ := h
  refine ⟨_, ?_, act_importedRegular⟩
  simpa [inputOf] using Derives.importedRegular d0

theorem back_importedAliased {ps : List Piece} (h : DV [.non .TypeNameIdentifier, .tok .as_, .non .TypeNameIdentifier] ps) :
    ∃ v, Derives .importedName (inputOf ps) v ∧ (fileActions[5]?.bind fun act => act.value (actArgs ps)) = some (rv .importedName v) := by
  obtain ⟨w0, v0, q0, rfl, d0, t1, q1, rfl, k1, w2, v2, q2, rfl, d2, rfl⟩ := h
  obtain ⟨s1, e1, rfl⟩ := tok_plain rfl k1
  refine ⟨_, ?_, act_importedAliased rfl⟩
  simpa [inputOf] using Derives.importedAliased rfl d0 d2

theorem back_importMore {ps : List Piece} (h : DV [.non .ImportDeclarations, .tok .import_, .non .ImportedName] ps) :
    ∃ v, Derives .importDecls (inputOf ps) v ∧ (fileActions[6]?.bind fun act => act.value (actArgs ps)) = some (rv .importDecls v) := by
  obtain ⟨w0, v0, q0, rfl, d0, t1, q1, rfl, k1, w2, v2, q2, rfl, d2, rfl⟩ := h
  obtain ⟨s1, e1, rfl⟩ := tok_plain rfl k1
  refine ⟨_, ?_, act_importMore rfl⟩
  simpa [inputOf] using Derives.importMore rfl d0 d2

theorem back_importFirst {ps : List Piece} (h : DV [.tok .import_, .plus .ImportedName] ps) :
    ∃ v, Derives .importDecls (inputOf ps) v ∧ (fileActions[7]?.bind fun act => act.value (actArgs ps)) = some (rv .importDecls v) := by
  obtain ⟨t0, q0, rfl, k0, w1, v1, q1, rfl, d1, rfl⟩ := h
  obtain ⟨s0, e0, rfl⟩ := tok_plain rfl k0
  refine ⟨_, ?_, act_importFirst rfl⟩
  simpa [inputOf] using Derives.importFirst rfl d1

theorem back_metaName {ps : List Piece} (h : DV [.non .TypeNameIdentifier] ps) :
    ∃ v, Derives .metaId (inputOf ps) v ∧ (fileActions[8]?.bind fun act => act.value (actArgs ps)) = some (rv .metaId v) := by
  obtain ⟨w0, v0, q0, rfl, d0, rfl⟩ := h
  refine ⟨_, ?_, act_metaName⟩
  simpa [inputOf] using Derives.metaName d0

theorem back_metaNamespace {ps : List Piece} (h : DV [.non .TypeNameIdentifier, .tok .dot, .non .TypeNameIdentifier] ps) :
    ∃ v, Derives .metaId (inputOf ps) v ∧ (fileActions[9]?.bind fun act => act.value (actArgs ps)) = some (rv .metaId v) := by
  obtain ⟨w0, v0, q0, rfl, d0, t1, q1, rfl, k1, w2, v2, q2, rfl, d2, rfl⟩ := h
  obtain ⟨s1, e1, rfl⟩ := tok_plain rfl k1
  refine ⟨_, ?_, act_metaNamespace rfl⟩
  simpa [inputOf] using Derives.metaNamespace rfl d0 d2

theorem back_metaHexspace {ps : List Piece} (h : DV [.non .HexNumber, .tok .dot, .non .TypeNameIdentifier] ps) :
    ∃ v, Derives .metaId (inputOf ps) v ∧ (fileActions[10]?.bind fun act => act.value (actArgs ps)) = some (rv .metaId v) := by
  obtain ⟨w0, v0, q0, rfl, d0, t1, q1, rfl, k1, w2, v2, q2, rfl, d2, rfl⟩ := h
  obtain ⟨s1, e1, rfl⟩ := tok_plain rfl k1
  refine ⟨_, ?_, act_metaHexspace rfl⟩
  simpa [inputOf] using Derives.metaHexspace rfl d0 d2

theorem back_metaByStr {ps : List Piece} (h : DV [.tok .byStr] ps) :
    ∃ v, Derives .metaId (inputOf ps) v ∧ (fileActions[11]?.bind fun act => act.value (actArgs ps)) = some (rv .metaId v) := by
  obtain ⟨t0, q0, rfl, k0, rfl⟩ := h
  obtain ⟨s0, e0, rfl⟩ := tok_plain rfl k0
  refine ⟨_, ?_, act_metaByStr rfl⟩
  simpa [inputOf] using Derives.metaByStr rfl 

theorem back_varName {ps : List Piece} (h : DV [.non .RegularId] ps) :
    ∃ v, Derives .varId (inputOf ps) v ∧ (fileActions[12]?.bind fun act => act.value (actArgs ps)) = some (rv .varId v) := by
  obtain ⟨w0, v0, q0, rfl, d0, rfl⟩ := h
  refine ⟨_, ?_, act_varName⟩
  simpa [inputOf] using Derives.varName d0

theorem back_varSpecial {ps : List Piece} (h : DV [.non .SpecialId] ps) :
    ∃ v, Derives .varId (inputOf ps) v ∧ (fileActions[13]?.bind fun act => act.value (actArgs ps)) = some (rv .varId v) := by
  obtain ⟨w0, v0, q0, rfl, d0, rfl⟩ := h
  refine ⟨_, ?_, act_varSpecial⟩
  simpa [inputOf] using Derives.varSpecial d0

theorem back_varNamespace {ps : List Piece} (h : DV [.non .TypeNameIdentifier, .tok .dot, .non .RegularId] ps) :
    ∃ v, Derives .varId (inputOf ps) v ∧ (fileActions[14]?.bind fun act => act.value (actArgs ps)) = some (rv .varId v) := by
  obtain ⟨w0, v0, q0, rfl, d0, t1, q1, rfl, k1, w2, v2, q2, rfl, d2, rfl⟩ := h
  obtain ⟨s1, e1, rfl⟩ := tok_plain rfl k1
  refine ⟨_, ?_, act_varNamespace rfl⟩
  simpa [inputOf] using Derives.varNamespace rfl d0 d2

theorem back_builtinMore {ps : List Piece} (h : DV [.non .BuiltinArguments, .non .VariableIdentifier] ps) :
    ∃ v, Derives .builtinArgs (inputOf ps) v ∧ (fileActions[15]?.bind fun act => act.value (actArgs ps)) = some (rv .builtinArgs v) := by
  obtain ⟨w0, v0, q0, rfl, d0, w1, v1, q1, rfl, d1, rfl⟩ := h
  refine ⟨_, ?_, act_builtinMore rfl⟩
  simpa [inputOf] using Derives.builtinMore rfl d0 d1

theorem back_builtinOne {ps : List Piece} (h : DV [.non .VariableIdentifier] ps) :
    ∃ v, Derives .builtinArgs (inputOf ps) v ∧ (fileActions[16]?.bind fun act => act.value (actArgs ps)) = some (rv .builtinArgs v) := by
  obtain ⟨w0, v0, q0, rfl, d0, rfl⟩ := h
  refine ⟨_, ?_, act_builtinOne⟩
  simpa [inputOf] using Derives.builtinOne d0

theorem back_builtinUnit {ps : List Piece} (h : DV [.tok .openParen, .tok .closeParen] ps) :
    ∃ v, Derives .builtinArgs (inputOf ps) v ∧ (fileActions[17]?.bind fun act => act.value (actArgs ps)) = some (rv .builtinArgs v) := by
  obtain ⟨t0, q0, rfl, k0, t1, q1, rfl, k1, rfl⟩ := h
  obtain ⟨s0, e0, rfl⟩ := tok_plain rfl k0
  obtain ⟨s1, e1, rfl⟩ := tok_plain rfl k1
  refine ⟨_, ?_, act_builtinUnit rfl⟩
  simpa [inputOf] using Derives.builtinUnit rfl 

theorem back_remGeneric {ps : List Piece} (h : DV [.non .MetaIdentifier, .star .TypeArgument] ps) :
    ∃ v, Derives .remaining (inputOf ps) v ∧ (fileActions[18]?.bind fun act => act.value (actArgs ps)) = some (rv .remaining v) := by
  obtain ⟨w0, v0, q0, rfl, d0, w1, v1, q1, rfl, d1, rfl⟩ := h
  refine ⟨_, ?_, act_remGeneric rfl⟩
  simpa [inputOf] using Derives.remGeneric rfl d0 d1

theorem back_remMap {ps : List Piece} (h : DV [.tok .map, .non .TypeMapKey, .non .TypeMapValue] ps) :
    ∃ v, Derives .remaining (inputOf ps) v ∧ (fileActions[19]?.bind fun act => act.value (actArgs ps)) = some (rv .remaining v) := by
  obtain ⟨t0, q0, rfl, k0, w1, v1, q1, rfl, d1, w2, v2, q2, rfl, d2, rfl⟩ := h
  obtain ⟨s0, e0, rfl⟩ := tok_plain rfl k0
  refine ⟨_, ?_, act_remMap rfl⟩
  simpa [inputOf] using Derives.remMap rfl d1 d2

theorem back_remParen {ps : List Piece} (h : DV [.tok .openParen, .non .ScillaType, .tok .closeParen] ps) :
    ∃ v, Derives .remaining (inputOf ps) v ∧ (fileActions[20]?.bind fun act => act.value (actArgs ps)) = some (rv .remaining v) := by
  obtain ⟨t0, q0, rfl, k0, w1, v1, q1, rfl, d1, t2, q2, rfl, k2, rfl⟩ := h
  obtain ⟨s0, e0, rfl⟩ := tok_plain rfl k0
  obtain ⟨s2, e2, rfl⟩ := tok_plain rfl k2
  refine ⟨_, ?_, act_remParen rfl⟩
  simpa [inputOf] using Derives.remParen rfl d1

theorem back_remAddress {ps : List Piece} (h : DV [.non .AddressType] ps) :
    ∃ v, Derives .remaining (inputOf ps) v ∧ (fileActions[21]?.bind fun act => act.value (actArgs ps)) = some (rv .remaining v) := by
  obtain ⟨w0, v0, q0, rfl, d0, rfl⟩ := h
  refine ⟨_, ?_, act_remAddress⟩
  simpa [inputOf] using Derives.remAddress d0

theorem back_remForall {ps : List Piece} (h : DV [.tok .forall_, .non .TemplateTypeId, .tok .dot, .non .RemainingTypes] ps) :
    ∃ v, Derives .remaining (inputOf ps) v ∧ (fileActions[22]?.bind fun act => act.value (actArgs ps)) = some (rv .remaining v) := by
  obtain ⟨t0, q0, rfl, k0, w1, v1, q1, rfl, d1, t2, q2, rfl, k2, w3, v3, q3, rfl, d3, rfl⟩ := h
  obtain ⟨s0, e0, rfl⟩ := tok_plain rfl k0
  obtain ⟨s2, e2, rfl⟩ := tok_plain rfl k2
  refine ⟨_, ?_, act_remForall rfl⟩
  simpa [inputOf] using Derives.remForall rfl d1 d3

theorem back_remTypeVar {ps : List Piece} (h : DV [.non .TemplateTypeId] ps) :
    ∃ v, Derives .remaining (inputOf ps) v ∧ (fileActions[23]?.bind fun act => act.value (actArgs ps)) = some (rv .remaining v) := by
  obtain ⟨w0, v0, q0, rfl, d0, rfl⟩ := h
  refine ⟨_, ?_, act_remTypeVar⟩
  simpa [inputOf] using Derives.remTypeVar d0

theorem back_funSigMore {ps : List Piece} (h : DV [.non .RemainingTypes, .tok .arrow, .non .FunctionSignature] ps) :
    ∃ v, Derives .funSig (inputOf ps) v ∧ (fileActions[24]?.bind fun act => act.value (actArgs ps)) = some (rv .funSig v) := by
  obtain ⟨w0, v0, q0, rfl, d0, t1, q1, rfl, k1, w2, v2, q2, rfl, d2, rfl⟩ := h
  obtain ⟨s1, e1, rfl⟩ := tok_plain rfl k1
  refine ⟨_, ?_, act_funSigMore rfl⟩
  simpa [inputOf] using Derives.funSigMore rfl d0 d2

theorem back_funSigLast {ps : List Piece} (h : DV [.non .RemainingTypes, .tok .arrow, .non .RemainingTypes] ps) :
    ∃ v, Derives .funSig (inputOf ps) v ∧ (fileActions[25]?.bind fun act => act.value (actArgs ps)) = some (rv .funSig v) := by
  obtain ⟨w0, v0, q0, rfl, d0, t1, q1, rfl, k1, w2, v2, q2, rfl, d2, rfl⟩ := h
  obtain ⟨s1, e1, rfl⟩ := tok_plain rfl k1
  refine ⟨_, ?_, act_funSigLast rfl⟩
  simpa [inputOf] using Derives.funSigLast rfl d0 d2

theorem back_typeFun {ps : List Piece} (h : DV [.non .FunctionSignature] ps) :
    ∃ v, Derives .scillaType (inputOf ps) v ∧ (fileActions[26]?.bind fun act => act.value (actArgs ps)) = some (rv .scillaType v) := by
  obtain ⟨w0, v0, q0, rfl, d0, rfl⟩ := h
  refine ⟨_, ?_, act_typeFun⟩
  simpa [inputOf] using Derives.typeFun d0

theorem back_typeRem {ps : List Piece} (h : DV [.non .RemainingTypes] ps) :
    ∃ v, Derives .scillaType (inputOf ps) v ∧ (fileActions[27]?.bind fun act => act.value (actArgs ps)) = some (rv .scillaType v) := by
  obtain ⟨w0, v0, q0, rfl, d0, rfl⟩ := h
  refine ⟨_, ?_, act_typeRem⟩
  simpa [inputOf] using Derives.typeRem d0

theorem back_argParen {ps : List Piece} (h : DV [.tok .openParen, .non .ScillaType, .tok .closeParen] ps) :
    ∃ v, Derives .typeArg (inputOf ps) v ∧ (fileActions[28]?.bind fun act => act.value (actArgs ps)) = some (rv .typeArg v) := by
  obtain ⟨t0, q0, rfl, k0, w1, v1, q1, rfl, d1, t2, q2, rfl, k2, rfl⟩ := h
  obtain ⟨s0, e0, rfl⟩ := tok_plain rfl k0
  obtain ⟨s2, e2, rfl⟩ := tok_plain rfl k2
  refine ⟨_, ?_, act_argParen rfl⟩
  simpa [inputOf] using Derives.argParen rfl d1

theorem back_argMeta {ps : List Piece} (h : DV [.non .MetaIdentifier] ps) :
    ∃ v, Derives .typeArg (inputOf ps) v ∧ (fileActions[29]?.bind fun act => act.value (actArgs ps)) = some (rv .typeArg v) := by
  obtain ⟨w0, v0, q0, rfl, d0, rfl⟩ := h
  refine ⟨_, ?_, act_argMeta⟩
  simpa [inputOf] using Derives.argMeta d0

theorem back_argTemplate {ps : List Piece} (h : DV [.non .TemplateTypeId] ps) :
    ∃ v, Derives .typeArg (inputOf ps) v ∧ (fileActions[30]?.bind fun act => act.value (actArgs ps)) = some (rv .typeArg v) := by
  obtain ⟨w0, v0, q0, rfl, d0, rfl⟩ := h
  refine ⟨_, ?_, act_argTemplate⟩
  simpa [inputOf] using Derives.argTemplate d0

theorem back_argAddress {ps : List Piece} (h : DV [.non .AddressType] ps) :
    ∃ v, Derives .typeArg (inputOf ps) v ∧ (fileActions[31]?.bind fun act => act.value (actArgs ps)) = some (rv .typeArg v) := by
  obtain ⟨w0, v0, q0, rfl, d0, rfl⟩ := h
  refine ⟨_, ?_, act_argAddress⟩
  simpa [inputOf] using Derives.argAddress d0

theorem back_argMap {ps : List Piece} (h : DV [.tok .map, .non .TypeMapKey, .non .TypeMapValue] ps) :
    ∃ v, Derives .typeArg (inputOf ps) v ∧ (fileActions[32]?.bind fun act => act.value (actArgs ps)) = some (rv .typeArg v) := by
  obtain ⟨t0, q0, rfl, k0, w1, v1, q1, rfl, d1, w2, v2, q2, rfl, d2, rfl⟩ := h
  obtain ⟨s0, e0, rfl⟩ := tok_plain rfl k0
  refine ⟨_, ?_, act_argMap rfl⟩
  simpa [inputOf] using Derives.argMap rfl d1 d2

theorem back_addrEmpty {ps : List Piece} (h : DV [.non .TypeNameIdentifier, .tok .with_, .tok .end_] ps) :
    ∃ v, Derives .addressType (inputOf ps) v ∧ (fileActions[33]?.bind fun act => act.value (actArgs ps)) = some (rv .addressType v) := by
  obtain ⟨w0, v0, q0, rfl, d0, t1, q1, rfl, k1, t2, q2, rfl, k2, rfl⟩ := h
  obtain ⟨s1, e1, rfl⟩ := tok_plain rfl k1
  obtain ⟨s2, e2, rfl⟩ := tok_plain rfl k2
  refine ⟨_, ?_, act_addrEmpty rfl⟩
  simpa [inputOf] using Derives.addrEmpty rfl d0

theorem back_addrContract {ps : List Piece} (h : DV [.non .TypeNameIdentifier, .tok .with_, .tok .contract, .opt .AddressTypeFieldList, .tok .end_] ps) :
    ∃ v, Derives .addressType (inputOf ps) v ∧ (fileActions[34]?.bind fun act => act.value (actArgs ps)) = some (rv .addressType v) := by
  obtain ⟨w0, v0, q0, rfl, d0, t1, q1, rfl, k1, t2, q2, rfl, k2, w3, v3, q3, rfl, d3, t4, q4, rfl, k4, rfl⟩ := h
  obtain ⟨s1, e1, rfl⟩ := tok_plain rfl k1
  obtain ⟨s2, e2, rfl⟩ := tok_plain rfl k2
  obtain ⟨s4, e4, rfl⟩ := tok_plain rfl k4
  refine ⟨_, ?_, act_addrContract rfl⟩
  simpa [inputOf] using Derives.addrContract rfl d0 d3

theorem back_addrLibrary {ps : List Piece} (h : DV [.non .TypeNameIdentifier, .tok .with_, .tok .library, .tok .end_] ps) :
    ∃ v, Derives .addressType (inputOf ps) v ∧ (fileActions[35]?.bind fun act => act.value (actArgs ps)) = some (rv .addressType v) := by
  obtain ⟨w0, v0, q0, rfl, d0, t1, q1, rfl, k1, t2, q2, rfl, k2, t3, q3, rfl, k3, rfl⟩ := h
  obtain ⟨s1, e1, rfl⟩ := tok_plain rfl k1
  obtain ⟨s2, e2, rfl⟩ := tok_plain rfl k2
  obtain ⟨s3, e3, rfl⟩ := tok_plain rfl k3
  refine ⟨_, ?_, act_addrLibrary rfl⟩
  simpa [inputOf] using Derives.addrLibrary rfl d0

theorem back_addrSpecial {ps : List Piece} (h : DV [.non .TypeNameIdentifier, .tok .with_, .non .SpecialId, .tok .end_] ps) :
    ∃ v, Derives .addressType (inputOf ps) v ∧ (fileActions[36]?.bind fun act => act.value (actArgs ps)) = some (rv .addressType v) := by
  obtain ⟨w0, v0, q0, rfl, d0, t1, q1, rfl, k1, w2, v2, q2, rfl, d2, t3, q3, rfl, k3, rfl⟩ := h
  obtain ⟨s1, e1, rfl⟩ := tok_plain rfl k1
  obtain ⟨s3, e3, rfl⟩ := tok_plain rfl k3
  refine ⟨_, ?_, act_addrSpecial rfl⟩
  simpa [inputOf] using Derives.addrSpecial rfl d0 d2

theorem back_addrFieldList {ps : List Piece} (h : DV [.non .AddressTypeField, .star .NextAddressTypeField] ps) :
    ∃ v, Derives .addressFieldList (inputOf ps) v ∧ (fileActions[37]?.bind fun act => act.value (actArgs ps)) = some (rv .addressFieldList v) := by
  obtain ⟨w0, v0, q0, rfl, d0, w1, v1, q1, rfl, d1, rfl⟩ := h
  refine ⟨_, ?_, act_addrFieldList rfl⟩
  simpa [inputOf] using Derives.addrFieldList rfl d0 d1

theorem back_nextAddrField {ps : List Piece} (h : DV [.tok .comma, .non .AddressTypeField] ps) :
    ∃ v, Derives .nextAddressField (inputOf ps) v ∧ (fileActions[38]?.bind fun act => act.value (actArgs ps)) = some (rv .nextAddressField v) := by
  obtain ⟨t0, q0, rfl, k0, w1, v1, q1, rfl, d1, rfl⟩ := h
  obtain ⟨s0, e0, rfl⟩ := tok_plain rfl k0
  refine ⟨_, ?_, act_nextAddrField rfl⟩
  simpa [inputOf] using Derives.nextAddrField rfl d1

theorem back_addrField {ps : List Piece} (h : DV [.tok .field, .non .VariableIdentifier, .tok .colon, .non .ScillaType] ps) :
    ∃ v, Derives .addressField (inputOf ps) v ∧ (fileActions[39]?.bind fun act => act.value (actArgs ps)) = some (rv .addressField v) := by
  obtain ⟨t0, q0, rfl, k0, w1, v1, q1, rfl, d1, t2, q2, rfl, k2, w3, v3, q3, rfl, d3, rfl⟩ := h
  obtain ⟨s0, e0, rfl⟩ := tok_plain rfl k0
  obtain ⟨s2, e2, rfl⟩ := tok_plain rfl k2
  refine ⟨_, ?_, act_addrField rfl⟩
  simpa [inputOf] using Derives.addrField rfl d1 d3

theorem back_keyMeta {ps : List Piece} (h : DV [.non .MetaIdentifier] ps) :
    ∃ v, Derives .mapKey (inputOf ps) v ∧ (fileActions[40]?.bind fun act => act.value (actArgs ps)) = some (rv .mapKey v) := by
  obtain ⟨w0, v0, q0, rfl, d0, rfl⟩ := h
  refine ⟨_, ?_, act_keyMeta⟩
  simpa [inputOf] using Derives.keyMeta d0

theorem back_keyParenMeta {ps : List Piece} (h : DV [.tok .openParen, .non .MetaIdentifier, .tok .closeParen] ps) :
    ∃ v, Derives .mapKey (inputOf ps) v ∧ (fileActions[41]?.bind fun act => act.value (actArgs ps)) = some (rv .mapKey v) := by
  obtain ⟨t0, q0, rfl, k0, w1, v1, q1, rfl, d1, t2, q2, rfl, k2, rfl⟩ := h
  obtain ⟨s0, e0, rfl⟩ := tok_plain rfl k0
  obtain ⟨s2, e2, rfl⟩ := tok_plain rfl k2
  refine ⟨_, ?_, act_keyParenMeta rfl⟩
  simpa [inputOf] using Derives.keyParenMeta rfl d1

theorem back_keyParenAddress {ps : List Piece} (h : DV [.tok .openParen, .non .AddressType, .tok .closeParen] ps) :
    ∃ v, Derives .mapKey (inputOf ps) v ∧ (fileActions[42]?.bind fun act => act.value (actArgs ps)) = some (rv .mapKey v) := by
  obtain ⟨t0, q0, rfl, k0, w1, v1, q1, rfl, d1, t2, q2, rfl, k2, rfl⟩ := h
  obtain ⟨s0, e0, rfl⟩ := tok_plain rfl k0
  obtain ⟨s2, e2, rfl⟩ := tok_plain rfl k2
  refine ⟨_, ?_, act_keyParenAddress rfl⟩
  simpa [inputOf] using Derives.keyParenAddress rfl d1

theorem back_keyAddress {ps : List Piece} (h : DV [.non .AddressType] ps) :
    ∃ v, Derives .mapKey (inputOf ps) v ∧ (fileActions[43]?.bind fun act => act.value (actArgs ps)) = some (rv .mapKey v) := by
  obtain ⟨w0, v0, q0, rfl, d0, rfl⟩ := h
  refine ⟨_, ?_, act_keyAddress⟩
  simpa [inputOf] using Derives.keyAddress d0

theorem back_valMeta {ps : List Piece} (h : DV [.non .MetaIdentifier] ps) :
    ∃ v, Derives .mapValue (inputOf ps) v ∧ (fileActions[44]?.bind fun act => act.value (actArgs ps)) = some (rv .mapValue v) := by
  obtain ⟨w0, v0, q0, rfl, d0, rfl⟩ := h
  refine ⟨_, ?_, act_valMeta⟩
  simpa [inputOf] using Derives.valMeta d0

theorem back_valMap {ps : List Piece} (h : DV [.tok .map, .non .TypeMapKey, .non .TypeMapValue] ps) :
    ∃ v, Derives .mapValue (inputOf ps) v ∧ (fileActions[45]?.bind fun act => act.value (actArgs ps)) = some (rv .mapValue v) := by
  obtain ⟨t0, q0, rfl, k0, w1, v1, q1, rfl, d1, w2, v2, q2, rfl, d2, rfl⟩ := h
  obtain ⟨s0, e0, rfl⟩ := tok_plain rfl k0
  refine ⟨_, ?_, act_valMap rfl⟩
  simpa [inputOf] using Derives.valMap rfl d1 d2

theorem back_valParen {ps : List Piece} (h : DV [.tok .openParen, .non .TypeMapValueAllowingTypeArguments, .tok .closeParen] ps) :
    ∃ v, Derives .mapValue (inputOf ps) v ∧ (fileActions[46]?.bind fun act => act.value (actArgs ps)) = some (rv .mapValue v) := by
  obtain ⟨t0, q0, rfl, k0, w1, v1, q1, rfl, d1, t2, q2, rfl, k2, rfl⟩ := h
  obtain ⟨s0, e0, rfl⟩ := tok_plain rfl k0
  obtain ⟨s2, e2, rfl⟩ := tok_plain rfl k2
  refine ⟨_, ?_, act_valParen rfl⟩
  simpa [inputOf] using Derives.valParen rfl d1

theorem back_valAddress {ps : List Piece} (h : DV [.non .AddressType] ps) :
    ∃ v, Derives .mapValue (inputOf ps) v ∧ (fileActions[47]?.bind fun act => act.value (actArgs ps)) = some (rv .mapValue v) := by
  obtain ⟨w0, v0, q0, rfl, d0, rfl⟩ := h
  refine ⟨_, ?_, act_valAddress⟩
  simpa [inputOf] using Derives.valAddress d0

theorem back_mvaParen {ps : List Piece} (h : DV [.tok .openParen, .non .TypeMapValueAllowingTypeArguments, .tok .closeParen] ps) :
    ∃ v, Derives .mapValueArgs (inputOf ps) v ∧ (fileActions[48]?.bind fun act => act.value (actArgs ps)) = some (rv .mapValueArgs v) := by
  obtain ⟨t0, q0, rfl, k0, w1, v1, q1, rfl, d1, t2, q2, rfl, k2, rfl⟩ := h
  obtain ⟨s0, e0, rfl⟩ := tok_plain rfl k0
  obtain ⟨s2, e2, rfl⟩ := tok_plain rfl k2
  refine ⟨_, ?_, act_mvaParen rfl⟩
  simpa [inputOf] using Derives.mvaParen rfl d1

theorem back_mvaMeta {ps : List Piece} (h : DV [.non .MetaIdentifier] ps) :
    ∃ v, Derives .mapValueArgs (inputOf ps) v ∧ (fileActions[49]?.bind fun act => act.value (actArgs ps)) = some (rv .mapValueArgs v) := by
  obtain ⟨w0, v0, q0, rfl, d0, rfl⟩ := h
  refine ⟨_, ?_, act_mvaMeta⟩
  simpa [inputOf] using Derives.mvaMeta d0

theorem back_mvaMap {ps : List Piece} (h : DV [.tok .map, .non .TypeMapKey, .non .TypeMapValue] ps) :
    ∃ v, Derives .mapValueArgs (inputOf ps) v ∧ (fileActions[50]?.bind fun act => act.value (actArgs ps)) = some (rv .mapValueArgs v) := by
  obtain ⟨t0, q0, rfl, k0, w1, v1, q1, rfl, d1, w2, v2, q2, rfl, d2, rfl⟩ := h
  obtain ⟨s0, e0, rfl⟩ := tok_plain rfl k0
  refine ⟨_, ?_, act_mvaMap rfl⟩
  simpa [inputOf] using Derives.mvaMap rfl d1 d2

theorem back_program {ps : List Piece} (h : DV [.tok .scillaVersion, .non .SignedInteger, .opt .ImportDeclarations, .opt .LibraryDefinition, .non .ContractDefinition] ps) :
    ∃ v, Derives .program (inputOf ps) v ∧ (fileActions[51]?.bind fun act => act.value (actArgs ps)) = some (rv .program v) := by
  obtain ⟨t0, q0, rfl, k0, w1, v1, q1, rfl, d1, w2, v2, q2, rfl, d2, w3, v3, q3, rfl, d3, w4, v4, q4, rfl, d4, rfl⟩ := h
  obtain ⟨s0, e0, rfl⟩ := tok_plain rfl k0
  refine ⟨_, ?_, act_program rfl⟩
  simpa [inputOf] using Derives.program rfl d1 d2 d3 d4

theorem back_libraryDef {ps : List Piece} (h : DV [.tok .library, .non .TypeNameIdentifier, .star .LibrarySingleDefinition] ps) :
    ∃ v, Derives .libraryDef (inputOf ps) v ∧ (fileActions[52]?.bind fun act => act.value (actArgs ps)) = some (rv .libraryDef v) := by
  obtain ⟨t0, q0, rfl, k0, w1, v1, q1, rfl, d1, w2, v2, q2, rfl, d2, rfl⟩ := h
  obtain ⟨s0, e0, rfl⟩ := tok_plain rfl k0
  refine ⟨_, ?_, act_libraryDef rfl⟩
  simpa [inputOf] using Derives.libraryDef rfl d1 d2

theorem back_libLet {ps : List Piece} (h : DV [.tok .let_, .non .RegularId, .opt .TypeAnnotation, .tok .equals, .non .FullExpression] ps) :
    ∃ v, Derives .librarySingle (inputOf ps) v ∧ (fileActions[53]?.bind fun act => act.value (actArgs ps)) = some (rv .librarySingle v) := by
  obtain ⟨t0, q0, rfl, k0, w1, v1, q1, rfl, d1, w2, v2, q2, rfl, d2, t3, q3, rfl, k3, w4, v4, q4, rfl, d4, rfl⟩ := h
  obtain ⟨s0, e0, rfl⟩ := tok_plain rfl k0
  obtain ⟨s3, e3, rfl⟩ := tok_plain rfl k3
  refine ⟨_, ?_, act_libLet rfl⟩
  simpa [inputOf] using Derives.libLet rfl d1 d2 d4

theorem back_libType {ps : List Piece} (h : DV [.tok .type, .non .TypeNameIdentifier] ps) :
    ∃ v, Derives .librarySingle (inputOf ps) v ∧ (fileActions[54]?.bind fun act => act.value (actArgs ps)) = some (rv .librarySingle v) := by
  obtain ⟨t0, q0, rfl, k0, w1, v1, q1, rfl, d1, rfl⟩ := h
  obtain ⟨s0, e0, rfl⟩ := tok_plain rfl k0
  refine ⟨_, ?_, act_libType rfl⟩
  simpa [inputOf] using Derives.libType rfl d1

theorem back_libTypeAlts {ps : List Piece} (h : DV [.tok .type, .non .TypeNameIdentifier, .tok .equals, .plus .TypeAlternativeClause] ps) :
    ∃ v, Derives .librarySingle (inputOf ps) v ∧ (fileActions[55]?.bind fun act => act.value (actArgs ps)) = some (rv .librarySingle v) := by
  obtain ⟨t0, q0, rfl, k0, w1, v1, q1, rfl, d1, t2, q2, rfl, k2, w3, v3, q3, rfl, d3, rfl⟩ := h
  obtain ⟨s0, e0, rfl⟩ := tok_plain rfl k0
  obtain ⟨s2, e2, rfl⟩ := tok_plain rfl k2
  refine ⟨_, ?_, act_libTypeAlts rfl⟩
  simpa [inputOf] using Derives.libTypeAlts rfl d1 d3

theorem back_typedId {ps : List Piece} (h : DV [.non .RegularId, .non .TypeAnnotation] ps) :
    ∃ v, Derives .typedId (inputOf ps) v ∧ (fileActions[56]?.bind fun act => act.value (actArgs ps)) = some (rv .typedId v) := by
  obtain ⟨w0, v0, q0, rfl, d0, w1, v1, q1, rfl, d1, rfl⟩ := h
  refine ⟨_, ?_, act_typedId rfl⟩
  simpa [inputOf] using Derives.typedId rfl d0 d1

theorem back_typeAnn {ps : List Piece} (h : DV [.tok .colon, .non .ScillaType] ps) :
    ∃ v, Derives .typeAnn (inputOf ps) v ∧ (fileActions[57]?.bind fun act => act.value (actArgs ps)) = some (rv .typeAnn v) := by
  obtain ⟨t0, q0, rfl, k0, w1, v1, q1, rfl, d1, rfl⟩ := h
  obtain ⟨s0, e0, rfl⟩ := tok_plain rfl k0
  refine ⟨_, ?_, act_typeAnn rfl⟩
  simpa [inputOf] using Derives.typeAnn rfl d1

theorem back_altType {ps : List Piece} (h : DV [.tok .pipe, .non .TypeNameIdentifier] ps) :
    ∃ v, Derives .typeAlt (inputOf ps) v ∧ (fileActions[58]?.bind fun act => act.value (actArgs ps)) = some (rv .typeAlt v) := by
  obtain ⟨t0, q0, rfl, k0, w1, v1, q1, rfl, d1, rfl⟩ := h
  obtain ⟨s0, e0, rfl⟩ := tok_plain rfl k0
  refine ⟨_, ?_, act_altType rfl⟩
  simpa [inputOf] using Derives.altType rfl d1

theorem back_altTypeArgs {ps : List Piece} (h : DV [.tok .pipe, .non .TypeNameIdentifier, .tok .of_, .plus .TypeArgument] ps) :
    ∃ v, Derives .typeAlt (inputOf ps) v ∧ (fileActions[59]?.bind fun act => act.value (actArgs ps)) = some (rv .typeAlt v) := by
  obtain ⟨t0, q0, rfl, k0, w1, v1, q1, rfl, d1, t2, q2, rfl, k2, w3, v3, q3, rfl, d3, rfl⟩ := h
  obtain ⟨s0, e0, rfl⟩ := tok_plain rfl k0
  obtain ⟨s2, e2, rfl⟩ := tok_plain rfl k2
  refine ⟨_, ?_, act_altTypeArgs rfl⟩
  simpa [inputOf] using Derives.altTypeArgs rfl d1 d3

theorem back_mvWithArgs {ps : List Piece} (h : DV [.non .MetaIdentifier, .plus .TypeMapValueArguments] ps) :
    ∃ v, Derives .mapValueAllowing (inputOf ps) v ∧ (fileActions[60]?.bind fun act => act.value (actArgs ps)) = some (rv .mapValueAllowing v) := by
  obtain ⟨w0, v0, q0, rfl, d0, w1, v1, q1, rfl, d1, rfl⟩ := h
  refine ⟨_, ?_, act_mvWithArgs rfl⟩
  simpa [inputOf] using Derives.mvWithArgs rfl d0 d1

theorem back_mvNoArgs {ps : List Piece} (h : DV [.non .TypeMapValue] ps) :
    ∃ v, Derives .mapValueAllowing (inputOf ps) v ∧ (fileActions[61]?.bind fun act => act.value (actArgs ps)) = some (rv .mapValueAllowing v) := by
  obtain ⟨w0, v0, q0, rfl, d0, rfl⟩ := h
  refine ⟨_, ?_, act_mvNoArgs⟩
  simpa [inputOf] using Derives.mvNoArgs d0

theorem back_contractTypeArgs {ps : List Piece} (h : DV [.tok .openBrace, .star .TypeArgument, .tok .closeBrace] ps) :
    ∃ v, Derives .contractTypeArgs (inputOf ps) v ∧ (fileActions[62]?.bind fun act => act.value (actArgs ps)) = some (rv .contractTypeArgs v) := by
  obtain ⟨t0, q0, rfl, k0, w1, v1, q1, rfl, d1, t2, q2, rfl, k2, rfl⟩ := h
  obtain ⟨s0, e0, rfl⟩ := tok_plain rfl k0
  obtain ⟨s2, e2, rfl⟩ := tok_plain rfl k2
  refine ⟨_, ?_, act_contractTypeArgs rfl⟩
  simpa [inputOf] using Derives.contractTypeArgs rfl d1

theorem back_exprLet {ps : List Piece} (h : DV [.tok .let_, .non .RegularId, .opt .TypeAnnotation, .tok .equals, .non .FullExpression, .tok .in_, .non .FullExpression] ps) :
    ∃ v, Derives .fullExpr (inputOf ps) v ∧ (fileActions[63]?.bind fun act => act.value (actArgs ps)) = some (rv .fullExpr v) := by
  obtain ⟨t0, q0, rfl, k0, w1, v1, q1, rfl, d1, w2, v2, q2, rfl, d2, t3, q3, rfl, k3, w4, v4, q4, rfl, d4, t5, q5, rfl, k5, w6, v6, q6, rfl, d6, rfl⟩ := h
  obtain ⟨s0, e0, rfl⟩ := tok_plain rfl k0
  obtain ⟨s3, e3, rfl⟩ := tok_plain rfl k3
  obtain ⟨s5, e5, rfl⟩ := tok_plain rfl k5
  refine ⟨_, ?_, act_exprLet rfl⟩
  simpa [inputOf] using Derives.exprLet rfl d1 d2 d4 d6

theorem back_exprFun {ps : List Piece} (h : DV [.tok .fun_, .tok .openParen, .non .RegularId, .non .TypeAnnotation, .tok .closeParen, .tok .doubleArrow, .non .FullExpression] ps) :
    ∃ v, Derives .fullExpr (inputOf ps) v ∧ (fileActions[64]?.bind fun act => act.value (actArgs ps)) = some (rv .fullExpr v) := by
  obtain ⟨t0, q0, rfl, k0, t1, q1, rfl, k1, w2, v2, q2, rfl, d2, w3, v3, q3, rfl, d3, t4, q4, rfl, k4, t5, q5, rfl, k5, w6, v6, q6, rfl, d6, rfl⟩ := h
  obtain ⟨s0, e0, rfl⟩ := tok_plain rfl k0
  obtain ⟨s1, e1, rfl⟩ := tok_plain rfl k1
  obtain ⟨s4, e4, rfl⟩ := tok_plain rfl k4
  obtain ⟨s5, e5, rfl⟩ := tok_plain rfl k5
  refine ⟨_, ?_, act_exprFun rfl⟩
  simpa [inputOf] using Derives.exprFun rfl d2 d3 d6

theorem back_exprCall {ps : List Piece} (h : DV [.non .VariableIdentifier, .plus .VariableIdentifier] ps) :
    ∃ v, Derives .fullExpr (inputOf ps) v ∧ (fileActions[65]?.bind fun act => act.value (actArgs ps)) = some (rv .fullExpr v) := by
  obtain ⟨w0, v0, q0, rfl, d0, w1, v1, q1, rfl, d1, rfl⟩ := h
  refine ⟨_, ?_, act_exprCall rfl⟩
  simpa [inputOf] using Derives.exprCall rfl d0 d1

theorem back_exprAtomic {ps : List Piece} (h : DV [.non .AtomicExpression] ps) :
    ∃ v, Derives .fullExpr (inputOf ps) v ∧ (fileActions[66]?.bind fun act => act.value (actArgs ps)) = some (rv .fullExpr v) := by
  obtain ⟨w0, v0, q0, rfl, d0, rfl⟩ := h
  refine ⟨_, ?_, act_exprAtomic⟩
  simpa [inputOf] using Derives.exprAtomic d0

theorem back_exprBuiltin {ps : List Piece} (h : DV [.tok .builtin, .non .RegularId, .opt .ContractTypeArguments, .non .BuiltinArguments] ps) :
    ∃ v, Derives .fullExpr (inputOf ps) v ∧ (fileActions[67]?.bind fun act => act.value (actArgs ps)) = some (rv .fullExpr v) := by
  obtain ⟨t0, q0, rfl, k0, w1, v1, q1, rfl, d1, w2, v2, q2, rfl, d2, w3, v3, q3, rfl, d3, rfl⟩ := h
  obtain ⟨s0, e0, rfl⟩ := tok_plain rfl k0
  refine ⟨_, ?_, act_exprBuiltin rfl⟩
  simpa [inputOf] using Derives.exprBuiltin rfl d1 d2 d3

theorem back_exprMessage {ps : List Piece} (h : DV [.tok .openBrace, .non .MessageEntry, .star .NextMessageEntry, .tok .closeBrace] ps) :
    ∃ v, Derives .fullExpr (inputOf ps) v ∧ (fileActions[68]?.bind fun act => act.value (actArgs ps)) = some (rv .fullExpr v) := by
  obtain ⟨t0, q0, rfl, k0, w1, v1, q1, rfl, d1, w2, v2, q2, rfl, d2, t3, q3, rfl, k3, rfl⟩ := h
  obtain ⟨s0, e0, rfl⟩ := tok_plain rfl k0
  obtain ⟨s3, e3, rfl⟩ := tok_plain rfl k3
  refine ⟨_, ?_, act_exprMessage rfl⟩
  simpa [inputOf] using Derives.exprMessage rfl d1 d2

theorem back_exprMatch {ps : List Piece} (h : DV [.tok .match_, .non .VariableIdentifier, .tok .with_, .plus .PatternMatchExpressionClause, .tok .end_] ps) :
    ∃ v, Derives .fullExpr (inputOf ps) v ∧ (fileActions[69]?.bind fun act => act.value (actArgs ps)) = some (rv .fullExpr v) := by
  obtain ⟨t0, q0, rfl, k0, w1, v1, q1, rfl, d1, t2, q2, rfl, k2, w3, v3, q3, rfl, d3, t4, q4, rfl, k4, rfl⟩ := h
  obtain ⟨s0, e0, rfl⟩ := tok_plain rfl k0
  obtain ⟨s2, e2, rfl⟩ := tok_plain rfl k2
  obtain ⟨s4, e4, rfl⟩ := tok_plain rfl k4
  refine ⟨_, ?_, act_exprMatch rfl⟩
  simpa [inputOf] using Derives.exprMatch rfl d1 d3

theorem back_exprConstr {ps : List Piece} (h : DV [.non .MetaIdentifier, .opt .ContractTypeArguments, .star .VariableIdentifier] ps) :
    ∃ v, Derives .fullExpr (inputOf ps) v ∧ (fileActions[70]?.bind fun act => act.value (actArgs ps)) = some (rv .fullExpr v) := by
  obtain ⟨w0, v0, q0, rfl, d0, w1, v1, q1, rfl, d1, w2, v2, q2, rfl, d2, rfl⟩ := h
  refine ⟨_, ?_, act_exprConstr rfl⟩
  simpa [inputOf] using Derives.exprConstr rfl d0 d1 d2

theorem back_exprTFun {ps : List Piece} (h : DV [.tok .tfun, .non .TemplateTypeId, .tok .doubleArrow, .non .FullExpression] ps) :
    ∃ v, Derives .fullExpr (inputOf ps) v ∧ (fileActions[71]?.bind fun act => act.value (actArgs ps)) = some (rv .fullExpr v) := by
  obtain ⟨t0, q0, rfl, k0, w1, v1, q1, rfl, d1, t2, q2, rfl, k2, w3, v3, q3, rfl, d3, rfl⟩ := h
  obtain ⟨s0, e0, rfl⟩ := tok_plain rfl k0
  obtain ⟨s2, e2, rfl⟩ := tok_plain rfl k2
  refine ⟨_, ?_, act_exprTFun rfl⟩
  simpa [inputOf] using Derives.exprTFun rfl d1 d3

theorem back_exprTApp {ps : List Piece} (h : DV [.tok .at_, .non .VariableIdentifier, .plus .TypeArgument] ps) :
    ∃ v, Derives .fullExpr (inputOf ps) v ∧ (fileActions[72]?.bind fun act => act.value (actArgs ps)) = some (rv .fullExpr v) := by
  obtain ⟨t0, q0, rfl, k0, w1, v1, q1, rfl, d1, w2, v2, q2, rfl, d2, rfl⟩ := h
  obtain ⟨s0, e0, rfl⟩ := tok_plain rfl k0
  refine ⟨_, ?_, act_exprTApp rfl⟩
  simpa [inputOf] using Derives.exprTApp rfl d1 d2

theorem back_pmExprClause {ps : List Piece} (h : DV [.tok .pipe, .non .Pattern, .tok .doubleArrow, .non .FullExpression] ps) :
    ∃ v, Derives .pmExprClause (inputOf ps) v ∧ (fileActions[73]?.bind fun act => act.value (actArgs ps)) = some (rv .pmExprClause v) := by
  obtain ⟨t0, q0, rfl, k0, w1, v1, q1, rfl, d1, t2, q2, rfl, k2, w3, v3, q3, rfl, d3, rfl⟩ := h
  obtain ⟨s0, e0, rfl⟩ := tok_plain rfl k0
  obtain ⟨s2, e2, rfl⟩ := tok_plain rfl k2
  refine ⟨_, ?_, act_pmExprClause rfl⟩
  simpa [inputOf] using Derives.pmExprClause rfl d1 d3

theorem back_patWildcard {ps : List Piece} (h : DV [.tok .underscore] ps) :
    ∃ v, Derives .pattern (inputOf ps) v ∧ (fileActions[74]?.bind fun act => act.value (actArgs ps)) = some (rv .pattern v) := by
  obtain ⟨t0, q0, rfl, k0, rfl⟩ := h
  obtain ⟨s0, e0, rfl⟩ := tok_plain rfl k0
  refine ⟨_, ?_, act_patWildcard rfl⟩
  simpa [inputOf] using Derives.patWildcard rfl 

theorem back_patBinder {ps : List Piece} (h : DV [.non .RegularId] ps) :
    ∃ v, Derives .pattern (inputOf ps) v ∧ (fileActions[75]?.bind fun act => act.value (actArgs ps)) = some (rv .pattern v) := by
  obtain ⟨w0, v0, q0, rfl, d0, rfl⟩ := h
  refine ⟨_, ?_, act_patBinder⟩
  simpa [inputOf] using Derives.patBinder d0

theorem back_patConstr {ps : List Piece} (h : DV [.non .MetaIdentifier, .star .ArgumentPattern] ps) :
    ∃ v, Derives .pattern (inputOf ps) v ∧ (fileActions[76]?.bind fun act => act.value (actArgs ps)) = some (rv .pattern v) := by
  obtain ⟨w0, v0, q0, rfl, d0, w1, v1, q1, rfl, d1, rfl⟩ := h
  refine ⟨_, ?_, act_patConstr rfl⟩
  simpa [inputOf] using Derives.patConstr rfl d0 d1

theorem back_apWildcard {ps : List Piece} (h : DV [.tok .underscore] ps) :
    ∃ v, Derives .argPattern (inputOf ps) v ∧ (fileActions[77]?.bind fun act => act.value (actArgs ps)) = some (rv .argPattern v) := by
  obtain ⟨t0, q0, rfl, k0, rfl⟩ := h
  obtain ⟨s0, e0, rfl⟩ := tok_plain rfl k0
  refine ⟨_, ?_, act_apWildcard rfl⟩
  simpa [inputOf] using Derives.apWildcard rfl 

theorem back_apBinder {ps : List Piece} (h : DV [.non .RegularId] ps) :
    ∃ v, Derives .argPattern (inputOf ps) v ∧ (fileActions[78]?.bind fun act => act.value (actArgs ps)) = some (rv .argPattern v) := by
  obtain ⟨w0, v0, q0, rfl, d0, rfl⟩ := h
  refine ⟨_, ?_, act_apBinder⟩
  simpa [inputOf] using Derives.apBinder d0

theorem back_apConstr {ps : List Piece} (h : DV [.non .MetaIdentifier] ps) :
    ∃ v, Derives .argPattern (inputOf ps) v ∧ (fileActions[79]?.bind fun act => act.value (actArgs ps)) = some (rv .argPattern v) := by
  obtain ⟨w0, v0, q0, rfl, d0, rfl⟩ := h
  refine ⟨_, ?_, act_apConstr⟩
  simpa [inputOf] using Derives.apConstr d0

theorem back_apParen {ps : List Piece} (h : DV [.tok .openParen, .non .Pattern, .tok .closeParen] ps) :
    ∃ v, Derives .argPattern (inputOf ps) v ∧ (fileActions[80]?.bind fun act => act.value (actArgs ps)) = some (rv .argPattern v) := by
  obtain ⟨t0, q0, rfl, k0, w1, v1, q1, rfl, d1, t2, q2, rfl, k2, rfl⟩ := h
  obtain ⟨s0, e0, rfl⟩ := tok_plain rfl k0
  obtain ⟨s2, e2, rfl⟩ := tok_plain rfl k2
  refine ⟨_, ?_, act_apParen rfl⟩
  simpa [inputOf] using Derives.apParen rfl d1

theorem back_nextMessage {ps : List Piece} (h : DV [.tok .semicolon, .non .MessageEntry] ps) :
    ∃ v, Derives .nextMessage (inputOf ps) v ∧ (fileActions[81]?.bind fun act => act.value (actArgs ps)) = some (rv .nextMessage v) := by
  obtain ⟨t0, q0, rfl, k0, w1, v1, q1, rfl, d1, rfl⟩ := h
  obtain ⟨s0, e0, rfl⟩ := tok_plain rfl k0
  refine ⟨_, ?_, act_nextMessage rfl⟩
  simpa [inputOf] using Derives.nextMessage rfl d1

theorem back_msgLiteral {ps : List Piece} (h : DV [.non .VariableIdentifier, .tok .colon, .non .ValueLiteral] ps) :
    ∃ v, Derives .messageEntry (inputOf ps) v ∧ (fileActions[82]?.bind fun act => act.value (actArgs ps)) = some (rv .messageEntry v) := by
  obtain ⟨w0, v0, q0, rfl, d0, t1, q1, rfl, k1, w2, v2, q2, rfl, d2, rfl⟩ := h
  obtain ⟨s1, e1, rfl⟩ := tok_plain rfl k1
  refine ⟨_, ?_, act_msgLiteral rfl⟩
  simpa [inputOf] using Derives.msgLiteral rfl d0 d2

theorem back_msgVariable {ps : List Piece} (h : DV [.non .VariableIdentifier, .tok .colon, .non .VariableIdentifier] ps) :
    ∃ v, Derives .messageEntry (inputOf ps) v ∧ (fileActions[83]?.bind fun act => act.value (actArgs ps)) = some (rv .messageEntry v) := by
  obtain ⟨w0, v0, q0, rfl, d0, t1, q1, rfl, k1, w2, v2, q2, rfl, d2, rfl⟩ := h
  obtain ⟨s1, e1, rfl⟩ := tok_plain rfl k1
  refine ⟨_, ?_, act_msgVariable rfl⟩
  simpa [inputOf] using Derives.msgVariable rfl d0 d2

theorem back_atomicVar {ps : List Piece} (h : DV [.non .VariableIdentifier] ps) :
    ∃ v, Derives .atomic (inputOf ps) v ∧ (fileActions[84]?.bind fun act => act.value (actArgs ps)) = some (rv .atomic v) := by
  obtain ⟨w0, v0, q0, rfl, d0, rfl⟩ := h
  refine ⟨_, ?_, act_atomicVar⟩
  simpa [inputOf] using Derives.atomicVar d0

theorem back_atomicLit {ps : List Piece} (h : DV [.non .ValueLiteral] ps) :
    ∃ v, Derives .atomic (inputOf ps) v ∧ (fileActions[85]?.bind fun act => act.value (actArgs ps)) = some (rv .atomic v) := by
  obtain ⟨w0, v0, q0, rfl, d0, rfl⟩ := h
  refine ⟨_, ?_, act_atomicLit⟩
  simpa [inputOf] using Derives.atomicLit d0

theorem back_litInt {ps : List Piece} (h : DV [.non .TypeNameIdentifier, .non .SignedInteger] ps) :
    ∃ v, Derives .valueLit (inputOf ps) v ∧ (fileActions[86]?.bind fun act => act.value (actArgs ps)) = some (rv .valueLit v) := by
  obtain ⟨w0, v0, q0, rfl, d0, w1, v1, q1, rfl, d1, rfl⟩ := h
  refine ⟨_, ?_, act_litInt rfl⟩
  simpa [inputOf] using Derives.litInt rfl d0 d1

theorem back_litHex {ps : List Piece} (h : DV [.non .HexNumber] ps) :
    ∃ v, Derives .valueLit (inputOf ps) v ∧ (fileActions[87]?.bind fun act => act.value (actArgs ps)) = some (rv .valueLit v) := by
  obtain ⟨w0, v0, q0, rfl, d0, rfl⟩ := h
  refine ⟨_, ?_, act_litHex⟩
  simpa [inputOf] using Derives.litHex d0

theorem back_litString {ps : List Piece} (h : DV [.non .StringLiteral] ps) :
    ∃ v, Derives .valueLit (inputOf ps) v ∧ (fileActions[88]?.bind fun act => act.value (actArgs ps)) = some (rv .valueLit v) := by
  obtain ⟨w0, v0, q0, rfl, d0, rfl⟩ := h
  refine ⟨_, ?_, act_litString⟩
  simpa [inputOf] using Derives.litString d0

theorem back_litEmp {ps : List Piece} (h : DV [.tok .emp, .non .TypeMapKey, .non .TypeMapValue] ps) :
    ∃ v, Derives .valueLit (inputOf ps) v ∧ (fileActions[89]?.bind fun act => act.value (actArgs ps)) = some (rv .valueLit v) := by
  obtain ⟨t0, q0, rfl, k0, w1, v1, q1, rfl, d1, w2, v2, q2, rfl, d2, rfl⟩ := h
  obtain ⟨s0, e0, rfl⟩ := tok_plain rfl k0
  refine ⟨_, ?_, act_litEmp rfl⟩
  simpa [inputOf] using Derives.litEmp rfl d1 d2

theorem back_stLoad {ps : List Piece} (h : DV [.non .RegularId, .tok .leftArrow, .non .VariableIdentifier] ps) :
    ∃ v, Derives .statement (inputOf ps) v ∧ (fileActions[90]?.bind fun act => act.value (actArgs ps)) = some (rv .statement v) := by
  obtain ⟨w0, v0, q0, rfl, d0, t1, q1, rfl, k1, w2, v2, q2, rfl, d2, rfl⟩ := h
  obtain ⟨s1, e1, rfl⟩ := tok_plain rfl k1
  refine ⟨_, ?_, act_stLoad rfl⟩
  simpa [inputOf] using Derives.stLoad rfl d0 d2

theorem back_stRemote {ps : List Piece} (h : DV [.non .RemoteFetchStatement] ps) :
    ∃ v, Derives .statement (inputOf ps) v ∧ (fileActions[91]?.bind fun act => act.value (actArgs ps)) = some (rv .statement v) := by
  obtain ⟨w0, v0, q0, rfl, d0, rfl⟩ := h
  refine ⟨_, ?_, act_stRemote⟩
  simpa [inputOf] using Derives.stRemote d0

theorem back_stStore {ps : List Piece} (h : DV [.non .RegularId, .tok .colonEquals, .non .VariableIdentifier] ps) :
    ∃ v, Derives .statement (inputOf ps) v ∧ (fileActions[92]?.bind fun act => act.value (actArgs ps)) = some (rv .statement v) := by
  obtain ⟨w0, v0, q0, rfl, d0, t1, q1, rfl, k1, w2, v2, q2, rfl, d2, rfl⟩ := h
  obtain ⟨s1, e1, rfl⟩ := tok_plain rfl k1
  refine ⟨_, ?_, act_stStore rfl⟩
  simpa [inputOf] using Derives.stStore rfl d0 d2

theorem back_stBind {ps : List Piece} (h : DV [.non .RegularId, .tok .equals, .non .FullExpression] ps) :
    ∃ v, Derives .statement (inputOf ps) v ∧ (fileActions[93]?.bind fun act => act.value (actArgs ps)) = some (rv .statement v) := by
  obtain ⟨w0, v0, q0, rfl, d0, t1, q1, rfl, k1, w2, v2, q2, rfl, d2, rfl⟩ := h
  obtain ⟨s1, e1, rfl⟩ := tok_plain rfl k1
  refine ⟨_, ?_, act_stBind rfl⟩
  simpa [inputOf] using Derives.stBind rfl d0 d2

theorem back_stReadBC {ps : List Piece} (h : DV [.non .RegularId, .tok .leftArrow, .tok .ampersand, .non .TypeNameIdentifier, .opt .BlockchainFetchArguments] ps) :
    ∃ v, Derives .statement (inputOf ps) v ∧ (fileActions[94]?.bind fun act => act.value (actArgs ps)) = some (rv .statement v) := by
  obtain ⟨w0, v0, q0, rfl, d0, t1, q1, rfl, k1, t2, q2, rfl, k2, w3, v3, q3, rfl, d3, w4, v4, q4, rfl, d4, rfl⟩ := h
  obtain ⟨s1, e1, rfl⟩ := tok_plain rfl k1
  obtain ⟨s2, e2, rfl⟩ := tok_plain rfl k2
  refine ⟨_, ?_, act_stReadBC rfl⟩
  simpa [inputOf] using Derives.stReadBC rfl d0 d3 d4

theorem back_stMapGet {ps : List Piece} (h : DV [.non .RegularId, .tok .leftArrow, .non .RegularId, .plus .MapAccess] ps) :
    ∃ v, Derives .statement (inputOf ps) v ∧ (fileActions[95]?.bind fun act => act.value (actArgs ps)) = some (rv .statement v) := by
  obtain ⟨w0, v0, q0, rfl, d0, t1, q1, rfl, k1, w2, v2, q2, rfl, d2, w3, v3, q3, rfl, d3, rfl⟩ := h
  obtain ⟨s1, e1, rfl⟩ := tok_plain rfl k1
  refine ⟨_, ?_, act_stMapGet rfl⟩
  simpa [inputOf] using Derives.stMapGet rfl d0 d2 d3

theorem back_stMapGetExists {ps : List Piece} (h : DV [.non .RegularId, .tok .leftArrow, .tok .exists_, .non .RegularId, .plus .MapAccess] ps) :
    ∃ v, Derives .statement (inputOf ps) v ∧ (fileActions[96]?.bind fun act => act.value (actArgs ps)) = some (rv .statement v) := by
  obtain ⟨w0, v0, q0, rfl, d0, t1, q1, rfl, k1, t2, q2, rfl, k2, w3, v3, q3, rfl, d3, w4, v4, q4, rfl, d4, rfl⟩ := h
  obtain ⟨s1, e1, rfl⟩ := tok_plain rfl k1
  obtain ⟨s2, e2, rfl⟩ := tok_plain rfl k2
  refine ⟨_, ?_, act_stMapGetExists rfl⟩
  simpa [inputOf] using Derives.stMapGetExists rfl d0 d3 d4

theorem back_stMapUpdate {ps : List Piece} (h : DV [.non .RegularId, .plus .MapAccess, .tok .colonEquals, .non .VariableIdentifier] ps) :
    ∃ v, Derives .statement (inputOf ps) v ∧ (fileActions[97]?.bind fun act => act.value (actArgs ps)) = some (rv .statement v) := by
  obtain ⟨w0, v0, q0, rfl, d0, w1, v1, q1, rfl, d1, t2, q2, rfl, k2, w3, v3, q3, rfl, d3, rfl⟩ := h
  obtain ⟨s2, e2, rfl⟩ := tok_plain rfl k2
  refine ⟨_, ?_, act_stMapUpdate rfl⟩
  simpa [inputOf] using Derives.stMapUpdate rfl d0 d1 d3

theorem back_stMapDelete {ps : List Piece} (h : DV [.tok .delete, .non .RegularId, .plus .MapAccess] ps) :
    ∃ v, Derives .statement (inputOf ps) v ∧ (fileActions[98]?.bind fun act => act.value (actArgs ps)) = some (rv .statement v) := by
  obtain ⟨t0, q0, rfl, k0, w1, v1, q1, rfl, d1, w2, v2, q2, rfl, d2, rfl⟩ := h
  obtain ⟨s0, e0, rfl⟩ := tok_plain rfl k0
  refine ⟨_, ?_, act_stMapDelete rfl⟩
  simpa [inputOf] using Derives.stMapDelete rfl d1 d2

theorem back_stAccept {ps : List Piece} (h : DV [.tok .accept] ps) :
    ∃ v, Derives .statement (inputOf ps) v ∧ (fileActions[99]?.bind fun act => act.value (actArgs ps)) = some (rv .statement v) := by
  obtain ⟨t0, q0, rfl, k0, rfl⟩ := h
  obtain ⟨s0, e0, rfl⟩ := tok_plain rfl k0
  refine ⟨_, ?_, act_stAccept rfl⟩
  simpa [inputOf] using Derives.stAccept rfl 

theorem back_stSend {ps : List Piece} (h : DV [.tok .send, .non .VariableIdentifier] ps) :
    ∃ v, Derives .statement (inputOf ps) v ∧ (fileActions[100]?.bind fun act => act.value (actArgs ps)) = some (rv .statement v) := by
  obtain ⟨t0, q0, rfl, k0, w1, v1, q1, rfl, d1, rfl⟩ := h
  obtain ⟨s0, e0, rfl⟩ := tok_plain rfl k0
  refine ⟨_, ?_, act_stSend rfl⟩
  simpa [inputOf] using Derives.stSend rfl d1

theorem back_stEvent {ps : List Piece} (h : DV [.tok .event, .non .VariableIdentifier] ps) :
    ∃ v, Derives .statement (inputOf ps) v ∧ (fileActions[101]?.bind fun act => act.value (actArgs ps)) = some (rv .statement v) := by
  obtain ⟨t0, q0, rfl, k0, w1, v1, q1, rfl, d1, rfl⟩ := h
  obtain ⟨s0, e0, rfl⟩ := tok_plain rfl k0
  refine ⟨_, ?_, act_stEvent rfl⟩
  simpa [inputOf] using Derives.stEvent rfl d1

theorem back_stThrow {ps : List Piece} (h : DV [.tok .throw, .opt .VariableIdentifier] ps) :
    ∃ v, Derives .statement (inputOf ps) v ∧ (fileActions[102]?.bind fun act => act.value (actArgs ps)) = some (rv .statement v) := by
  obtain ⟨t0, q0, rfl, k0, w1, v1, q1, rfl, d1, rfl⟩ := h
  obtain ⟨s0, e0, rfl⟩ := tok_plain rfl k0
  refine ⟨_, ?_, act_stThrow rfl⟩
  simpa [inputOf] using Derives.stThrow rfl d1

theorem back_stMatch {ps : List Piece} (h : DV [.tok .match_, .non .VariableIdentifier, .tok .with_, .plus .PatternMatchClause, .tok .end_] ps) :
    ∃ v, Derives .statement (inputOf ps) v ∧ (fileActions[103]?.bind fun act => act.value (actArgs ps)) = some (rv .statement v) := by
  obtain ⟨t0, q0, rfl, k0, w1, v1, q1, rfl, d1, t2, q2, rfl, k2, w3, v3, q3, rfl, d3, t4, q4, rfl, k4, rfl⟩ := h
  obtain ⟨s0, e0, rfl⟩ := tok_plain rfl k0
  obtain ⟨s2, e2, rfl⟩ := tok_plain rfl k2
  obtain ⟨s4, e4, rfl⟩ := tok_plain rfl k4
  refine ⟨_, ?_, act_stMatch rfl⟩
  simpa [inputOf] using Derives.stMatch rfl d1 d3

theorem back_stCall {ps : List Piece} (h : DV [.non .ComponentId, .star .VariableIdentifier] ps) :
    ∃ v, Derives .statement (inputOf ps) v ∧ (fileActions[104]?.bind fun act => act.value (actArgs ps)) = some (rv .statement v) := by
  obtain ⟨w0, v0, q0, rfl, d0, w1, v1, q1, rfl, d1, rfl⟩ := h
  refine ⟨_, ?_, act_stCall rfl⟩
  simpa [inputOf] using Derives.stCall rfl d0 d1

theorem back_stForall {ps : List Piece} (h : DV [.tok .forall_, .non .VariableIdentifier, .non .ComponentId] ps) :
    ∃ v, Derives .statement (inputOf ps) v ∧ (fileActions[105]?.bind fun act => act.value (actArgs ps)) = some (rv .statement v) := by
  obtain ⟨t0, q0, rfl, k0, w1, v1, q1, rfl, d1, w2, v2, q2, rfl, d2, rfl⟩ := h
  obtain ⟨s0, e0, rfl⟩ := tok_plain rfl k0
  refine ⟨_, ?_, act_stForall rfl⟩
  simpa [inputOf] using Derives.stForall rfl d1 d2

theorem back_nextStatement {ps : List Piece} (h : DV [.tok .semicolon, .non .Statement] ps) :
    ∃ v, Derives .nextStatement (inputOf ps) v ∧ (fileActions[106]?.bind fun act => act.value (actArgs ps)) = some (rv .nextStatement v) := by
  obtain ⟨t0, q0, rfl, k0, w1, v1, q1, rfl, d1, rfl⟩ := h
  obtain ⟨s0, e0, rfl⟩ := tok_plain rfl k0
  refine ⟨_, ?_, act_nextStatement rfl⟩
  simpa [inputOf] using Derives.nextStatement rfl d1

theorem back_stmtBlock {ps : List Piece} (h : DV [.non .Statement, .star .NextStatement] ps) :
    ∃ v, Derives .stmtBlock (inputOf ps) v ∧ (fileActions[107]?.bind fun act => act.value (actArgs ps)) = some (rv .stmtBlock v) := by
  obtain ⟨w0, v0, q0, rfl, d0, w1, v1, q1, rfl, d1, rfl⟩ := h
  refine ⟨_, ?_, act_stmtBlock rfl⟩
  simpa [inputOf] using Derives.stmtBlock rfl d0 d1

theorem back_bcFetchArgs {ps : List Piece} (h : DV [.tok .openParen, .plus .VariableIdentifier, .tok .closeParen] ps) :
    ∃ v, Derives .bcFetchArgs (inputOf ps) v ∧ (fileActions[108]?.bind fun act => act.value (actArgs ps)) = some (rv .bcFetchArgs v) := by
  obtain ⟨t0, q0, rfl, k0, w1, v1, q1, rfl, d1, t2, q2, rfl, k2, rfl⟩ := h
  obtain ⟨s0, e0, rfl⟩ := tok_plain rfl k0
  obtain ⟨s2, e2, rfl⟩ := tok_plain rfl k2
  refine ⟨_, ?_, act_bcFetchArgs rfl⟩
  simpa [inputOf] using Derives.bcFetchArgs rfl d1

theorem back_componentType {ps : List Piece} (h : DV [.non .TypeNameIdentifier] ps) :
    ∃ v, Derives .componentId (inputOf ps) v ∧ (fileActions[109]?.bind fun act => act.value (actArgs ps)) = some (rv .componentId v) := by
  obtain ⟨w0, v0, q0, rfl, d0, rfl⟩ := h
  refine ⟨_, ?_, act_componentType⟩
  simpa [inputOf] using Derives.componentType d0

theorem back_componentRegular {ps : List Piece} (h : DV [.non .RegularId] ps) :
    ∃ v, Derives .componentId (inputOf ps) v ∧ (fileActions[110]?.bind fun act => act.value (actArgs ps)) = some (rv .componentId v) := by
  obtain ⟨w0, v0, q0, rfl, d0, rfl⟩ := h
  refine ⟨_, ?_, act_componentRegular⟩
  simpa [inputOf] using Derives.componentRegular d0

theorem back_pmClause {ps : List Piece} (h : DV [.tok .pipe, .non .Pattern, .tok .doubleArrow, .opt .StatementBlock] ps) :
    ∃ v, Derives .pmClause (inputOf ps) v ∧ (fileActions[111]?.bind fun act => act.value (actArgs ps)) = some (rv .pmClause v) := by
  obtain ⟨t0, q0, rfl, k0, w1, v1, q1, rfl, d1, t2, q2, rfl, k2, w3, v3, q3, rfl, d3, rfl⟩ := h
  obtain ⟨s0, e0, rfl⟩ := tok_plain rfl k0
  obtain ⟨s2, e2, rfl⟩ := tok_plain rfl k2
  refine ⟨_, ?_, act_pmClause rfl⟩
  simpa [inputOf] using Derives.pmClause rfl d1 d3

theorem back_rfState {ps : List Piece} (h : DV [.non .RegularId, .tok .leftArrow, .tok .ampersand, .non .RegularId, .tok .dot, .non .VariableIdentifier] ps) :
    ∃ v, Derives .remoteFetch (inputOf ps) v ∧ (fileActions[112]?.bind fun act => act.value (actArgs ps)) = some (rv .remoteFetch v) := by
  obtain ⟨w0, v0, q0, rfl, d0, t1, q1, rfl, k1, t2, q2, rfl, k2, w3, v3, q3, rfl, d3, t4, q4, rfl, k4, w5, v5, q5, rfl, d5, rfl⟩ := h
  obtain ⟨s1, e1, rfl⟩ := tok_plain rfl k1
  obtain ⟨s2, e2, rfl⟩ := tok_plain rfl k2
  obtain ⟨s4, e4, rfl⟩ := tok_plain rfl k4
  refine ⟨_, ?_, act_rfState rfl⟩
  simpa [inputOf] using Derives.rfState rfl d0 d3 d5

theorem back_rfSpecial {ps : List Piece} (h : DV [.non .RegularId, .tok .leftArrow, .tok .ampersand, .non .SpecialId, .tok .dot, .non .SpecialId] ps) :
    ∃ v, Derives .remoteFetch (inputOf ps) v ∧ (fileActions[113]?.bind fun act => act.value (actArgs ps)) = some (rv .remoteFetch v) := by
  obtain ⟨w0, v0, q0, rfl, d0, t1, q1, rfl, k1, t2, q2, rfl, k2, w3, v3, q3, rfl, d3, t4, q4, rfl, k4, w5, v5, q5, rfl, d5, rfl⟩ := h
  obtain ⟨s1, e1, rfl⟩ := tok_plain rfl k1
  obtain ⟨s2, e2, rfl⟩ := tok_plain rfl k2
  obtain ⟨s4, e4, rfl⟩ := tok_plain rfl k4
  refine ⟨_, ?_, act_rfSpecial rfl⟩
  simpa [inputOf] using Derives.rfSpecial rfl d0 d3 d5

theorem back_rfMap {ps : List Piece} (h : DV [.non .RegularId, .tok .leftArrow, .tok .ampersand, .non .RegularId, .tok .dot, .non .RegularId, .plus .MapAccess] ps) :
    ∃ v, Derives .remoteFetch (inputOf ps) v ∧ (fileActions[114]?.bind fun act => act.value (actArgs ps)) = some (rv .remoteFetch v) := by
  obtain ⟨w0, v0, q0, rfl, d0, t1, q1, rfl, k1, t2, q2, rfl, k2, w3, v3, q3, rfl, d3, t4, q4, rfl, k4, w5, v5, q5, rfl, d5, w6, v6, q6, rfl, d6, rfl⟩ := h
  obtain ⟨s1, e1, rfl⟩ := tok_plain rfl k1
  obtain ⟨s2, e2, rfl⟩ := tok_plain rfl k2
  obtain ⟨s4, e4, rfl⟩ := tok_plain rfl k4
  refine ⟨_, ?_, act_rfMap rfl⟩
  simpa [inputOf] using Derives.rfMap rfl d0 d3 d5 d6

theorem back_rfExists {ps : List Piece} (h : DV [.non .RegularId, .tok .leftArrow, .tok .ampersand, .tok .exists_, .non .RegularId, .tok .dot, .non .RegularId, .plus .MapAccess] ps) :
    ∃ v, Derives .remoteFetch (inputOf ps) v ∧ (fileActions[115]?.bind fun act => act.value (actArgs ps)) = some (rv .remoteFetch v) := by
  obtain ⟨w0, v0, q0, rfl, d0, t1, q1, rfl, k1, t2, q2, rfl, k2, t3, q3, rfl, k3, w4, v4, q4, rfl, d4, t5, q5, rfl, k5, w6, v6, q6, rfl, d6, w7, v7, q7, rfl, d7, rfl⟩ := h
  obtain ⟨s1, e1, rfl⟩ := tok_plain rfl k1
  obtain ⟨s2, e2, rfl⟩ := tok_plain rfl k2
  obtain ⟨s3, e3, rfl⟩ := tok_plain rfl k3
  obtain ⟨s5, e5, rfl⟩ := tok_plain rfl k5
  refine ⟨_, ?_, act_rfExists rfl⟩
  simpa [inputOf] using Derives.rfExists rfl d0 d4 d6 d7

theorem back_rfCast {ps : List Piece} (h : DV [.non .RegularId, .tok .leftArrow, .tok .ampersand, .non .VariableIdentifier, .tok .as_, .non .AddressType] ps) :
    ∃ v, Derives .remoteFetch (inputOf ps) v ∧ (fileActions[116]?.bind fun act => act.value (actArgs ps)) = some (rv .remoteFetch v) := by
  obtain ⟨w0, v0, q0, rfl, d0, t1, q1, rfl, k1, t2, q2, rfl, k2, w3, v3, q3, rfl, d3, t4, q4, rfl, k4, w5, v5, q5, rfl, d5, rfl⟩ := h
  obtain ⟨s1, e1, rfl⟩ := tok_plain rfl k1
  obtain ⟨s2, e2, rfl⟩ := tok_plain rfl k2
  obtain ⟨s4, e4, rfl⟩ := tok_plain rfl k4
  refine ⟨_, ?_, act_rfCast rfl⟩
  simpa [inputOf] using Derives.rfCast rfl d0 d3 d5

theorem back_mapAccess {ps : List Piece} (h : DV [.tok .openBracket, .non .VariableIdentifier, .tok .closeBracket] ps) :
    ∃ v, Derives .mapAccess (inputOf ps) v ∧ (fileActions[117]?.bind fun act => act.value (actArgs ps)) = some (rv .mapAccess v) := by
  obtain ⟨t0, q0, rfl, k0, w1, v1, q1, rfl, d1, t2, q2, rfl, k2, rfl⟩ := h
  obtain ⟨s0, e0, rfl⟩ := tok_plain rfl k0
  obtain ⟨s2, e2, rfl⟩ := tok_plain rfl k2
  refine ⟨_, ?_, act_mapAccess rfl⟩
  simpa [inputOf] using Derives.mapAccess rfl d1

theorem back_paramPair {ps : List Piece} (h : DV [.non .TypedIdentifier] ps) :
    ∃ v, Derives .paramPair (inputOf ps) v ∧ (fileActions[118]?.bind fun act => act.value (actArgs ps)) = some (rv .paramPair v) := by
  obtain ⟨w0, v0, q0, rfl, d0, rfl⟩ := h
  refine ⟨_, ?_, act_paramPair⟩
  simpa [inputOf] using Derives.paramPair d0

theorem back_nextParamPair {ps : List Piece} (h : DV [.tok .comma, .non .ParameterPair] ps) :
    ∃ v, Derives .nextParamPair (inputOf ps) v ∧ (fileActions[119]?.bind fun act => act.value (actArgs ps)) = some (rv .nextParamPair v) := by
  obtain ⟨t0, q0, rfl, k0, w1, v1, q1, rfl, d1, rfl⟩ := h
  obtain ⟨s0, e0, rfl⟩ := tok_plain rfl k0
  refine ⟨_, ?_, act_nextParamPair rfl⟩
  simpa [inputOf] using Derives.nextParamPair rfl d1

theorem back_compParams {ps : List Piece} (h : DV [.tok .openParen, .opt .ParameterPair, .star .NextParameterPair, .tok .closeParen] ps) :
    ∃ v, Derives .compParams (inputOf ps) v ∧ (fileActions[120]?.bind fun act => act.value (actArgs ps)) = some (rv .compParams v) := by
  obtain ⟨t0, q0, rfl, k0, w1, v1, q1, rfl, d1, w2, v2, q2, rfl, d2, t3, q3, rfl, k3, rfl⟩ := h
  obtain ⟨s0, e0, rfl⟩ := tok_plain rfl k0
  obtain ⟨s3, e3, rfl⟩ := tok_plain rfl k3
  refine ⟨_, ?_, act_compParams rfl⟩
  simpa [inputOf] using Derives.compParams rfl d1 d2

theorem back_compTransition {ps : List Piece} (h : DV [.non .TransitionDefinition] ps) :
    ∃ v, Derives .compDef (inputOf ps) v ∧ (fileActions[121]?.bind fun act => act.value (actArgs ps)) = some (rv .compDef v) := by
  obtain ⟨w0, v0, q0, rfl, d0, rfl⟩ := h
  refine ⟨_, ?_, act_compTransition⟩
  simpa [inputOf] using Derives.compTransition d0

theorem back_compProcedure {ps : List Piece} (h : DV [.non .ProcedureDefinition] ps) :
    ∃ v, Derives .compDef (inputOf ps) v ∧ (fileActions[122]?.bind fun act => act.value (actArgs ps)) = some (rv .compDef v) := by
  obtain ⟨w0, v0, q0, rfl, d0, rfl⟩ := h
  refine ⟨_, ?_, act_compProcedure⟩
  simpa [inputOf] using Derives.compProcedure d0

theorem back_transDef {ps : List Piece} (h : DV [.tok .transition, .non .ComponentId, .non .ComponentParameters, .non .ComponentBody] ps) :
    ∃ v, Derives .transDef (inputOf ps) v ∧ (fileActions[123]?.bind fun act => act.value (actArgs ps)) = some (rv .transDef v) := by
  obtain ⟨t0, q0, rfl, k0, w1, v1, q1, rfl, d1, w2, v2, q2, rfl, d2, w3, v3, q3, rfl, d3, rfl⟩ := h
  obtain ⟨s0, e0, rfl⟩ := tok_plain rfl k0
  refine ⟨_, ?_, act_transDef rfl⟩
  simpa [inputOf] using Derives.transDef rfl d1 d2 d3

theorem back_procDef {ps : List Piece} (h : DV [.tok .procedure, .non .ComponentId, .non .ComponentParameters, .non .ComponentBody] ps) :
    ∃ v, Derives .procDef (inputOf ps) v ∧ (fileActions[124]?.bind fun act => act.value (actArgs ps)) = some (rv .procDef v) := by
  obtain ⟨t0, q0, rfl, k0, w1, v1, q1, rfl, d1, w2, v2, q2, rfl, d2, w3, v3, q3, rfl, d3, rfl⟩ := h
  obtain ⟨s0, e0, rfl⟩ := tok_plain rfl k0
  refine ⟨_, ?_, act_procDef rfl⟩
  simpa [inputOf] using Derives.procDef rfl d1 d2 d3

theorem back_compBody {ps : List Piece} (h : DV [.opt .StatementBlock, .tok .end_] ps) :
    ∃ v, Derives .compBody (inputOf ps) v ∧ (fileActions[125]?.bind fun act => act.value (actArgs ps)) = some (rv .compBody v) := by
  obtain ⟨w0, v0, q0, rfl, d0, t1, q1, rfl, k1, rfl⟩ := h
  obtain ⟨s1, e1, rfl⟩ := tok_plain rfl k1
  refine ⟨_, ?_, act_compBody rfl⟩
  simpa [inputOf] using Derives.compBody rfl d0

theorem back_contractDef {ps : List Piece} (h : DV [.tok .contract, .non .TypeNameIdentifier, .non .ComponentParameters, .opt .WithConstraint, .star .ContractField, .star .ComponentDefinition] ps) :
    ∃ v, Derives .contractDef (inputOf ps) v ∧ (fileActions[126]?.bind fun act => act.value (actArgs ps)) = some (rv .contractDef v) := by
  obtain ⟨t0, q0, rfl, k0, w1, v1, q1, rfl, d1, w2, v2, q2, rfl, d2, w3, v3, q3, rfl, d3, w4, v4, q4, rfl, d4, w5, v5, q5, rfl, d5, rfl⟩ := h
  obtain ⟨s0, e0, rfl⟩ := tok_plain rfl k0
  refine ⟨_, ?_, act_contractDef rfl⟩
  simpa [inputOf] using Derives.contractDef rfl d1 d2 d3 d4 d5

theorem back_contractField {ps : List Piece} (h : DV [.tok .field, .non .TypedIdentifier, .tok .equals, .non .FullExpression] ps) :
    ∃ v, Derives .contractField (inputOf ps) v ∧ (fileActions[127]?.bind fun act => act.value (actArgs ps)) = some (rv .contractField v) := by
  obtain ⟨t0, q0, rfl, k0, w1, v1, q1, rfl, d1, t2, q2, rfl, k2, w3, v3, q3, rfl, d3, rfl⟩ := h
  obtain ⟨s0, e0, rfl⟩ := tok_plain rfl k0
  obtain ⟨s2, e2, rfl⟩ := tok_plain rfl k2
  refine ⟨_, ?_, act_contractField rfl⟩
  simpa [inputOf] using Derives.contractField rfl d1 d3

theorem back_withConstraint {ps : List Piece} (h : DV [.tok .with_, .non .FullExpression, .tok .doubleArrow] ps) :
    ∃ v, Derives .withConstraint (inputOf ps) v ∧ (fileActions[128]?.bind fun act => act.value (actArgs ps)) = some (rv .withConstraint v) := by
  obtain ⟨t0, q0, rfl, k0, w1, v1, q1, rfl, d1, t2, q2, rfl, k2, rfl⟩ := h
  obtain ⟨s0, e0, rfl⟩ := tok_plain rfl k0
  obtain ⟨s2, e2, rfl⟩ := tok_plain rfl k2
  refine ⟨_, ?_, act_withConstraint rfl⟩
  simpa [inputOf] using Derives.withConstraint rfl d1

theorem back_hexNumber {ps : List Piece} (h : DV [.tok (.hexNumber [])] ps) :
    ∃ v, Derives .hexNumber (inputOf ps) v ∧ (fileActions[129]?.bind fun act => act.value (actArgs ps)) = some (rv .hexNumber v) := by
  obtain ⟨t0, q0, rfl, k0, rfl⟩ := h
  obtain ⟨s0, t0, e0⟩ := t0; obtain ⟨x0, hx⟩ := kind_hex k0; dsimp only at hx; subst hx
  refine ⟨_, ?_, act_hexNumber rfl⟩
  simpa [inputOf] using Derives.hexNumber rfl 

theorem back_signedInt {ps : List Piece} (h : DV [.tok (.number [])] ps) :
    ∃ v, Derives .signedInt (inputOf ps) v ∧ (fileActions[130]?.bind fun act => act.value (actArgs ps)) = some (rv .signedInt v) := by
  obtain ⟨t0, q0, rfl, k0, rfl⟩ := h
  obtain ⟨s0, t0, e0⟩ := t0; obtain ⟨x0, hx⟩ := kind_num k0; dsimp only at hx; subst hx
  refine ⟨_, ?_, act_signedInt rfl⟩
  simpa [inputOf] using Derives.signedInt rfl 

theorem back_regularId {ps : List Piece} (h : DV [.tok (.identifier [])] ps) :
    ∃ v, Derives .regularId (inputOf ps) v ∧ (fileActions[131]?.bind fun act => act.value (actArgs ps)) = some (rv .regularId v) := by
  obtain ⟨t0, q0, rfl, k0, rfl⟩ := h
  obtain ⟨s0, t0, e0⟩ := t0; obtain ⟨x0, hx⟩ := kind_id k0; dsimp only at hx; subst hx
  refine ⟨_, ?_, act_regularId rfl⟩
  simpa [inputOf] using Derives.regularId rfl 

theorem back_specialId {ps : List Piece} (h : DV [.tok (.specialIdentifier [])] ps) :
    ∃ v, Derives .specialId (inputOf ps) v ∧ (fileActions[132]?.bind fun act => act.value (actArgs ps)) = some (rv .specialId v) := by
  obtain ⟨t0, q0, rfl, k0, rfl⟩ := h
  obtain ⟨s0, t0, e0⟩ := t0; obtain ⟨x0, hx⟩ := kind_sp k0; dsimp only at hx; subst hx
  refine ⟨_, ?_, act_specialId rfl⟩
  simpa [inputOf] using Derives.specialId rfl 

theorem back_customId {ps : List Piece} (h : DV [.tok (.customIdentifier [])] ps) :
    ∃ v, Derives .customId (inputOf ps) v ∧ (fileActions[133]?.bind fun act => act.value (actArgs ps)) = some (rv .customId v) := by
  obtain ⟨t0, q0, rfl, k0, rfl⟩ := h
  obtain ⟨s0, t0, e0⟩ := t0; obtain ⟨x0, hx⟩ := kind_cu k0; dsimp only at hx; subst hx
  refine ⟨_, ?_, act_customId rfl⟩
  simpa [inputOf] using Derives.customId rfl 

theorem back_templateId {ps : List Piece} (h : DV [.tok (.templateIdentifier [])] ps) :
    ∃ v, Derives .templateId (inputOf ps) v ∧ (fileActions[134]?.bind fun act => act.value (actArgs ps)) = some (rv .templateId v) := by
  obtain ⟨t0, q0, rfl, k0, rfl⟩ := h
  obtain ⟨s0, t0, e0⟩ := t0; obtain ⟨x0, hx⟩ := kind_te k0; dsimp only at hx; subst hx
  refine ⟨_, ?_, act_templateId rfl⟩
  simpa [inputOf] using Derives.templateId rfl 

theorem back_stringLit {ps : List Piece} (h : DV [.tok (.stringLiteral [])] ps) :
    ∃ v, Derives .stringLit (inputOf ps) v ∧ (fileActions[135]?.bind fun act => act.value (actArgs ps)) = some (rv .stringLit v) := by
  obtain ⟨t0, q0, rfl, k0, rfl⟩ := h
  obtain ⟨s0, t0, e0⟩ := t0; obtain ⟨x0, hx⟩ := kind_st k0; dsimp only at hx; subst hx
  refine ⟨_, ?_, act_stringLit rfl⟩
  simpa [inputOf] using Derives.stringLit rfl 

theorem DV.rule {i : Nat} {q : FProd} (hq : grammarFile[i]? = some q) {ps : List Piece} (h : DV q.rhs ps) :
    ∃ v, Derives q.lhs.nt (inputOf ps) v ∧
      (fileActions[i]?.bind fun act => act.value (actArgs ps)) = some (rv q.lhs.nt v) := by
  match i, hq with
  | 0, hq => cases Option.some.inj hq; exact back_byteString h
  | 1, hq => cases Option.some.inj hq; exact back_typeNameBytes h
  | 2, hq => cases Option.some.inj hq; exact back_typeNameEvent h
  | 3, hq => cases Option.some.inj hq; exact back_typeNameCustom h
  | 4, hq => cases Option.some.inj hq; exact back_importedRegular h
  | 5, hq => cases Option.some.inj hq; exact back_importedAliased h
  | 6, hq => cases Option.some.inj hq; exact back_importMore h
  | 7, hq => cases Option.some.inj hq; exact back_importFirst h
  | 8, hq => cases Option.some.inj hq; exact back_metaName h
  | 9, hq => cases Option.some.inj hq; exact back_metaNamespace h
  | 10, hq => cases Option.some.inj hq; exact back_metaHexspace h
  | 11, hq => cases Option.some.inj hq; exact back_metaByStr h
  | 12, hq => cases Option.some.inj hq; exact back_varName h
  | 13, hq => cases Option.some.inj hq; exact back_varSpecial h
  | 14, hq => cases Option.some.inj hq; exact back_varNamespace h
  | 15, hq => cases Option.some.inj hq; exact back_builtinMore h
  | 16, hq => cases Option.some.inj hq; exact back_builtinOne h
  | 17, hq => cases Option.some.inj hq; exact back_builtinUnit h
  | 18, hq => cases Option.some.inj hq; exact back_remGeneric h
  | 19, hq => cases Option.some.inj hq; exact back_remMap h
  | 20, hq => cases Option.some.inj hq; exact back_remParen h
  | 21, hq => cases Option.some.inj hq; exact back_remAddress h
  | 22, hq => cases Option.some.inj hq; exact back_remForall h
  | 23, hq => cases Option.some.inj hq; exact back_remTypeVar h
  | 24, hq => cases Option.some.inj hq; exact back_funSigMore h
  | 25, hq => cases Option.some.inj hq; exact back_funSigLast h
  | 26, hq => cases Option.some.inj hq; exact back_typeFun h
  | 27, hq => cases Option.some.inj hq; exact back_typeRem h
  | 28, hq => cases Option.some.inj hq; exact back_argParen h
  | 29, hq => cases Option.some.inj hq; exact back_argMeta h
  | 30, hq => cases Option.some.inj hq; exact back_argTemplate h
  | 31, hq => cases Option.some.inj hq; exact back_argAddress h
  | 32, hq => cases Option.some.inj hq; exact back_argMap h
  | 33, hq => cases Option.some.inj hq; exact back_addrEmpty h
  | 34, hq => cases Option.some.inj hq; exact back_addrContract h
  | 35, hq => cases Option.some.inj hq; exact back_addrLibrary h
  | 36, hq => cases Option.some.inj hq; exact back_addrSpecial h
  | 37, hq => cases Option.some.inj hq; exact back_addrFieldList h
  | 38, hq => cases Option.some.inj hq; exact back_nextAddrField h
  | 39, hq => cases Option.some.inj hq; exact back_addrField h
  | 40, hq => cases Option.some.inj hq; exact back_keyMeta h
  | 41, hq => cases Option.some.inj hq; exact back_keyParenMeta h
  | 42, hq => cases Option.some.inj hq; exact back_keyParenAddress h
  | 43, hq => cases Option.some.inj hq; exact back_keyAddress h
  | 44, hq => cases Option.some.inj hq; exact back_valMeta h
  | 45, hq => cases Option.some.inj hq; exact back_valMap h
  | 46, hq => cases Option.some.inj hq; exact back_valParen h
  | 47, hq => cases Option.some.inj hq; exact back_valAddress h
  | 48, hq => cases Option.some.inj hq; exact back_mvaParen h
  | 49, hq => cases Option.some.inj hq; exact back_mvaMeta h
  | 50, hq => cases Option.some.inj hq; exact back_mvaMap h
  | 51, hq => cases Option.some.inj hq; exact back_program h
  | 52, hq => cases Option.some.inj hq; exact back_libraryDef h
  | 53, hq => cases Option.some.inj hq; exact back_libLet h
  | 54, hq => cases Option.some.inj hq; exact back_libType h
  | 55, hq => cases Option.some.inj hq; exact back_libTypeAlts h
  | 56, hq => cases Option.some.inj hq; exact back_typedId h
  | 57, hq => cases Option.some.inj hq; exact back_typeAnn h
  | 58, hq => cases Option.some.inj hq; exact back_altType h
  | 59, hq => cases Option.some.inj hq; exact back_altTypeArgs h
  | 60, hq => cases Option.some.inj hq; exact back_mvWithArgs h
  | 61, hq => cases Option.some.inj hq; exact back_mvNoArgs h
  | 62, hq => cases Option.some.inj hq; exact back_contractTypeArgs h
  | 63, hq => cases Option.some.inj hq; exact back_exprLet h
  | 64, hq => cases Option.some.inj hq; exact back_exprFun h
  | 65, hq => cases Option.some.inj hq; exact back_exprCall h
  | 66, hq => cases Option.some.inj hq; exact back_exprAtomic h
  | 67, hq => cases Option.some.inj hq; exact back_exprBuiltin h
  | 68, hq => cases Option.some.inj hq; exact back_exprMessage h
  | 69, hq => cases Option.some.inj hq; exact back_exprMatch h
  | 70, hq => cases Option.some.inj hq; exact back_exprConstr h
  | 71, hq => cases Option.some.inj hq; exact back_exprTFun h
  | 72, hq => cases Option.some.inj hq; exact back_exprTApp h
  | 73, hq => cases Option.some.inj hq; exact back_pmExprClause h
  | 74, hq => cases Option.some.inj hq; exact back_patWildcard h
  | 75, hq => cases Option.some.inj hq; exact back_patBinder h
  | 76, hq => cases Option.some.inj hq; exact back_patConstr h
  | 77, hq => cases Option.some.inj hq; exact back_apWildcard h
  | 78, hq => cases Option.some.inj hq; exact back_apBinder h
  | 79, hq => cases Option.some.inj hq; exact back_apConstr h
  | 80, hq => cases Option.some.inj hq; exact back_apParen h
  | 81, hq => cases Option.some.inj hq; exact back_nextMessage h
  | 82, hq => cases Option.some.inj hq; exact back_msgLiteral h
  | 83, hq => cases Option.some.inj hq; exact back_msgVariable h
  | 84, hq => cases Option.some.inj hq; exact back_atomicVar h
  | 85, hq => cases Option.some.inj hq; exact back_atomicLit h
  | 86, hq => cases Option.some.inj hq; exact back_litInt h
  | 87, hq => cases Option.some.inj hq; exact back_litHex h
  | 88, hq => cases Option.some.inj hq; exact back_litString h
  | 89, hq => cases Option.some.inj hq; exact back_litEmp h
  | 90, hq => cases Option.some.inj hq; exact back_stLoad h
  | 91, hq => cases Option.some.inj hq; exact back_stRemote h
  | 92, hq => cases Option.some.inj hq; exact back_stStore h
  | 93, hq => cases Option.some.inj hq; exact back_stBind h
  | 94, hq => cases Option.some.inj hq; exact back_stReadBC h
  | 95, hq => cases Option.some.inj hq; exact back_stMapGet h
  | 96, hq => cases Option.some.inj hq; exact back_stMapGetExists h
  | 97, hq => cases Option.some.inj hq; exact back_stMapUpdate h
  | 98, hq => cases Option.some.inj hq; exact back_stMapDelete h
  | 99, hq => cases Option.some.inj hq; exact back_stAccept h
  | 100, hq => cases Option.some.inj hq; exact back_stSend h
  | 101, hq => cases Option.some.inj hq; exact back_stEvent h
  | 102, hq => cases Option.some.inj hq; exact back_stThrow h
  | 103, hq => cases Option.some.inj hq; exact back_stMatch h
  | 104, hq => cases Option.some.inj hq; exact back_stCall h
  | 105, hq => cases Option.some.inj hq; exact back_stForall h
  | 106, hq => cases Option.some.inj hq; exact back_nextStatement h
  | 107, hq => cases Option.some.inj hq; exact back_stmtBlock h
  | 108, hq => cases Option.some.inj hq; exact back_bcFetchArgs h
  | 109, hq => cases Option.some.inj hq; exact back_componentType h
  | 110, hq => cases Option.some.inj hq; exact back_componentRegular h
  | 111, hq => cases Option.some.inj hq; exact back_pmClause h
  | 112, hq => cases Option.some.inj hq; exact back_rfState h
  | 113, hq => cases Option.some.inj hq; exact back_rfSpecial h
  | 114, hq => cases Option.some.inj hq; exact back_rfMap h
  | 115, hq => cases Option.some.inj hq; exact back_rfExists h
  | 116, hq => cases Option.some.inj hq; exact back_rfCast h
  | 117, hq => cases Option.some.inj hq; exact back_mapAccess h
  | 118, hq => cases Option.some.inj hq; exact back_paramPair h
  | 119, hq => cases Option.some.inj hq; exact back_nextParamPair h
  | 120, hq => cases Option.some.inj hq; exact back_compParams h
  | 121, hq => cases Option.some.inj hq; exact back_compTransition h
  | 122, hq => cases Option.some.inj hq; exact back_compProcedure h
  | 123, hq => cases Option.some.inj hq; exact back_transDef h
  | 124, hq => cases Option.some.inj hq; exact back_procDef h
  | 125, hq => cases Option.some.inj hq; exact back_compBody h
  | 126, hq => cases Option.some.inj hq; exact back_contractDef h
  | 127, hq => cases Option.some.inj hq; exact back_contractField h
  | 128, hq => cases Option.some.inj hq; exact back_withConstraint h
  | 129, hq => cases Option.some.inj hq; exact back_hexNumber h
  | 130, hq => cases Option.some.inj hq; exact back_signedInt h
  | 131, hq => cases Option.some.inj hq; exact back_regularId h
  | 132, hq => cases Option.some.inj hq; exact back_specialId h
  | 133, hq => cases Option.some.inj hq; exact back_customId h
  | 134, hq => cases Option.some.inj hq; exact back_templateId h
  | 135, hq => cases Option.some.inj hq; exact back_stringLit h
  | n + 136, hq => cases hq

theorem DV.single {x : GName} {w : List STok} {r : RV} (h : DV [.non x] [(w, r)]) :
    ∃ v, Derives x.nt w v ∧ r = rv x.nt v := by
  obtain ⟨w', v, qs, he, d, rfl⟩ := h
  cases he
  exact ⟨v, d, rfl⟩

theorem Builds.dv {α : List FSym} {ps : List Piece} (h : Builds α ps) : DV α ps := by
  induction h with
  | nil => rfl
  | tok hk _ ih => exact ⟨_, _, rfl, hk, ih⟩
  | non hq ha _ hv _ ih1 ih2 =>
    obtain ⟨v, d, hd⟩ := DV.rule hq ih1
    rw [ha, Option.bind_some] at hd
    obtain rfl := Option.some.inj (hv.symm.trans hd)
    exact ⟨_, v, _, rfl, d, ih2⟩
  | optNone _ ih => exact ⟨_, none, _, rfl, .optNone, ih⟩
  | optSome _ _ ih1 ih2 =>
    obtain ⟨v, d, rfl⟩ := ih1.single
    exact ⟨_, some v, _, rfl, .optSome d, ih2⟩
  | starNil _ ih => exact ⟨_, [], _, rfl, .starNil, ih⟩
  | starCons _ _ ih1 ih2 =>
    obtain ⟨v, d, rfl⟩ := ih1.single
    obtain ⟨w', vs, qs, he, d', h'⟩ := ih2
    cases he
    exact ⟨_, v :: vs, _, rfl, .starCons d d', h'⟩
  | plus _ _ ih1 ih2 =>
    obtain ⟨v, d, rfl⟩ := ih1.single
    obtain ⟨w', vs, qs, he, d', h'⟩ := ih2
    cases he
    exact ⟨_, v :: vs, _, rfl, .plusIntro d d', h'⟩

/-- the trees derived from a nonterminal are those the actions of the file compute -/
theorem derives_iff_builds (x : GName) (toks : List STok) (r : RV) :
    Builds [.non x] [(toks, r)] ↔ ∃ v, Derives x.nt toks v ∧ r = rv x.nt v := by
  constructor
  · intro h
    exact h.dv.single
  · rintro ⟨v, d, rfl⟩
    exact d.builds _ (fsym_non (by cases x <;> rfl))

end Verif
