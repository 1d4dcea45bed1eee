import Verif.Spec.Walk
import Verif.Model.Emitter
/-
The height of syntax trees, and the emission with a limit on the nesting of visits.
-/
namespace Verif

/-- The tree has at most so many levels. -/
inductive Within : Nat → AnyNode → Prop where
  | mk {h : Nat} {n : AnyNode} (hc : ∀ how pos c, Kid.child how pos c ∈ kids n → Within h c) : Within (h + 1) n

/-- The emission of a contract (`emitProgram`, Model/Emitter.lean) when at most `k` visits that the emitter starts
itself (`x.visit(self)` in a callback) may be active at the same time; a callback beyond that panics, as a program that
has exhausted its stack is aborted. -/
def emitWithin (dbg : StackObj → Str) (k : Nat) (p : NodeProgram) : Outcome Contract :=
  match visitContractDefW (srEmitter dbg k) p.contractDefinition SrState.init with
  | (s, .ok _) => .ok s.contract
  | (_, .err e) => .err e
  | (_, .panic) => .panic

end Verif
