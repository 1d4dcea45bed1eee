import Verif.Proofs.Mistaken
import Verif.Proofs.SeparatorsData
/-
Two automata and a counter for `:`, `,`, `@`, `let`, `field` and `Emp`.
-/
namespace Verif.LR

def sixteenthPass : Passes :=
  ⟨98, sixteenthPassSteps, sixteenthPassSets, sixteenthPassDoomed, sixteenthPassFinal⟩

def seventeenthPass : Passes :=
  ⟨26, seventeenthPassSteps, seventeenthPassSets, seventeenthPassDoomed, seventeenthPassFinal⟩

set_option maxRecDepth 100000 in
theorem sixteenthPass_fits : sixteenthPass.fits lrRules = true := by decide +kernel
set_option maxRecDepth 100000 in
theorem sixteenthPass_small : sixteenthPass.small = true := by decide +kernel
set_option maxRecDepth 100000 in
theorem sixteenthPass_lost : sixteenthPass.keepsLost 59 = true := by decide +kernel

set_option maxRecDepth 100000 in
theorem seventeenthPass_fits : seventeenthPass.fits lrRules = true := by decide +kernel
set_option maxRecDepth 100000 in
theorem seventeenthPass_small : seventeenthPass.small = true := by decide +kernel
set_option maxRecDepth 100000 in
theorem seventeenthPass_lost : seventeenthPass.keepsLost 59 = true := by decide +kernel

/-- How many brackets, braces, parentheses and `with` are open, a `with` behind `)` apart.  A `field` outside of them begins
a field of the contract; inside, in an address, it comes behind `,` or `contract` only.  State 1: behind `,` or the `contract`
of an address; 2: behind `)`; 3: behind `with`.  (Codes: 6 to 11 brackets, 12 `,`, 29 `with`, 30 `end`, 33 `contract`,
38 `field`, 55 a name.) -/
def levels : Counts where
  size := 4
  move s t z :=
    if s = 1 then
      if z then none else if t = 38 then some (0, .stay) else if t = 55 then some (0, .stay)
      else if t = 30 then some (0, .down) else none
    else if t = 38 then if z then some (0, .stay) else none
    else if t = 12 then if s = 3 then none else some (1, .stay)
    else if t = 33 then some (if s = 3 then 1 else 0, .stay)
    else if t = 6 ∨ t = 8 ∨ t = 10 then some (0, .up)
    else if t = 29 then if s = 2 then some (0, .stay) else some (3, .up)
    else if t = 30 then if z then some (0, .stay) else some (0, .down)
    else if t = 9 then if z then none else some (2, .down)
    else if t = 7 ∨ t = 11 then if z then none else some (0, .down)
    else some (0, .stay)
  table := levelsTable

set_option maxRecDepth 100000 in
theorem levels_fits : levels.fits lrRules = true := by decide +kernel

theorem levels_small : levels.Small := by
  refine ⟨?_, by decide +kernel⟩
  intro s a z p h
  simp only [levels] at h ⊢
  repeat' split at h
  all_goals first
    | (cases h; done)
    | (cases h; simp; done)
    | (cases h; simp only; omega)
    | (cases h; simp only; split <;> omega)

end Verif.LR
