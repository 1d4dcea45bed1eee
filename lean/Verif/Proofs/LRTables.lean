import Verif.Proofs.LRCheck
import Verif.Spec.LRData
import Verif.Spec.Desugar
/-
The tables computed by tools/lr_tables.py fit the grammar.
-/
namespace Verif.LR

set_option maxRecDepth 100000

theorem lrRules_eq : lrRules = desugared := by decide +kernel

theorem lrTidy : Tidy lrRules (num .Program) (fun x => lrRanks[x]?.getD 0) lrMaxRank :=
  tidy_of_check (order := lrOrder) (by decide +kernel)

theorem lrChecked : checkStates lrRules lrFirst lrStates 0 lrStates = true := by decide +kernel

theorem lrValid : Valid lrRules (tablesOf lrRules lrStates) (itemSets lrStates) :=
  valid_of_check lrTidy (by decide +kernel) (by decide +kernel) lrChecked

end Verif.LR
