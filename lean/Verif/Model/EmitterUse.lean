import Verif.Model.Emitter
/-
`SrEmitter` as a value a user holds: it is public with `Default`, is an `AstConverting`, so any node may be visited with
it (`node.visit(&mut emitter)`), and `emit` takes it in whatever state it is.
-/
namespace Verif

/-- `SrEmitter::emit(mut self, node)`, emitter.rs 76-79, for an emitter in the state `s`; `k` bounds the nesting of
visits (fuel, see Model/Emitter.lean) -/
def SrState.emitWith (dbg : StackObj → Str) (k : Nat) (s : SrState) (p : NodeProgram) : Outcome Contract :=
  match visitContractDefW (srEmitter dbg k) p.contractDefinition s with
  | (s', .ok _) => .ok s'.contract
  | (_, .err e) => .err e
  | (_, .panic) => .panic

/-- the same with fuel that is enough (emitter.rs 76-79) -/
def SrState.emit (dbg : StackObj → Str) (s : SrState) (p : NodeProgram) : Outcome Contract :=
  s.emitWith dbg (emitFuel p.contractDefinition.node) p

/-- `node.visit(&mut emitter)` (visitor.rs 24-1250): the emitter afterwards, whether the visit succeeded, returned an
error or panicked (and the panic was caught) -/
def SrState.visit (dbg : StackObj → Str) (k : Nat) (s : SrState) (n : AnyNode) : SrState :=
  (Verif.visit (srEmitter dbg k) n s).1

/-- the emitter after visiting some nodes, one after the other (`node.visit(&mut emitter)` repeated, visitor.rs 10, emitter.rs 82) -/
def SrState.visitAll (dbg : StackObj → Str) (k : Nat) : SrState → List AnyNode → SrState
  | s, [] => s
  | s, n :: ns => (s.visit dbg k n).visitAll dbg k ns

end Verif
