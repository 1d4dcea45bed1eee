EV = "simp [Ex.eval, Ex.evals, exec_let, exec_push, exec_loop, exec_ifSome, St.execs, Scope.get, Scope.set, bindNames, RV.get, RV.set, RV.pushAt, RV.option, RV.none, RV.some, rv, mkW, W.rv, vecRv, optRv, %s]"
def std(ev, before=''):
    return "  refine value_marked (w := w) rfl (by simp [inputOf, hw]) ?_\n" + before + "  " + ev
SPECIAL['importMore'] = """  have hs : startOf w1 = startOf w1 := rfl
  subst hw
  have hm : markPos [spanOf w1, spanOf [⟨s1, .import_, e1⟩], spanOf w2] 1 true = s1 := rfl
  have he : markPos [spanOf w1, spanOf [⟨s1, .import_, e1⟩], spanOf w2] 3 false = stopOf (w1 ++ ⟨s1, .import_, e1⟩ :: w2) := by
    have := markPos_end [w1, [⟨s1, .import_, e1⟩], w2] false (n := 3) rfl
    simpa using this
  show FAct.value _ _ = _
  simp only [FAct.value, List.map_cons, List.map_nil, hm, he, List.cons_append, List.nil_append]
  """ + EV % "NodeImportDeclarations.rv"
SPECIAL['builtinMore'] = std(EV % "NodeBuiltinArguments.rv")
SPECIAL['addrContract'] = std("cases fs <;> " + EV % "NodeAddressType.rv, lWNodeAddressTypeField_eq")
SPECIAL['addrFieldList'] = "  refine value_plain ?_\n  " + EV % ""
SPECIAL['exprMessage'] = std(EV % "NodeFullExpression.rv")
SPECIAL['stmtBlock'] = std(EV % "NodeStatementBlock.rv, lNodeStatement_eq")
SPECIAL['compParams'] = std("cases p <;> " + EV % "NodeComponentParameters.rv")
