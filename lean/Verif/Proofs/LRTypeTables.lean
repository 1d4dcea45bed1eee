import Verif.Proofs.LRAny
import Verif.Spec.LRTypeData
/-
The tables for the start symbol `ScillaType` fit the grammar.
-/
namespace Verif.LR

set_option maxRecDepth 100000

def lrTypeRules : List Rule := ⟨118, [.n 9]⟩ :: lrRules.tail

theorem lrTypeRules_eq : lrTypeRules = desugaredFor .ScillaType := (desugaredFor_eq .ScillaType).symm

theorem lrTypeChecked : checkStates lrTypeRules lrTypeFirst lrTypeStates 0 lrTypeStates = true := by decide +kernel

theorem lrTypeValid : Valid lrTypeRules (tablesOf lrTypeRules lrTypeStates) (itemSets lrTypeStates) :=
  valid_of_check (lrTypeRules_eq ▸ tidyAny .ScillaType) (by decide +kernel) (by decide +kernel) lrTypeChecked

end Verif.LR
