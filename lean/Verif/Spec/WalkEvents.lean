import Verif.Proofs.WalkSize
/-
The sequence of calls a visitor should see during a walk, and the nodes it should visit.  Written in
terms of `kids` (Spec/Walk.lean) only, not of the `visit…` functions of the model.
-/
namespace Verif

/-- A call a walk makes on the visitor. -/
inductive Event where
  | enter (n : AnyNode)
  | exit (n : AnyNode)
  | push (start stop : Pos)
  | pop

/-- the position of a child is pushed before and popped after it -/
def around (pos : Option (Pos × Pos)) (es : List Event) : List Event :=
  match pos with
  | some (s, e) => .push s e :: (es ++ [.pop])
  | none => es

/-- The calls of a walk in which Enter says "skip the children" for the nodes selected by `skip`:
Enter, the children, Exit; a skipped node gets neither children nor Exit, except that address types
always get their Exit. -/
def walkSkip (skip : AnyNode → Bool) (n : AnyNode) : List Event :=
  .enter n ::
    (if skip n then (if n.isAddress then [.exit n] else [])
    else ((kids n).attach.flatMap fun
        | ⟨.child _ pos c, _⟩ => around pos (walkSkip skip c)
        | ⟨.push s e, _⟩ => [.push s e]
        | ⟨.panic, _⟩ => []) ++ [.exit n])
termination_by sizeOf n
decreasing_by exact kid_lt (by assumption)

/-- The calls of a full walk. -/
def walk (n : AnyNode) : List Event := walkSkip (fun _ => false) n

/-- The nodes a full walk visits, parents first. -/
def preorder (n : AnyNode) : List AnyNode :=
  n :: (kids n).attach.flatMap fun
    | ⟨.child _ _ c, _⟩ => preorder c
    | ⟨.push _ _, _⟩ => []
    | ⟨.panic, _⟩ => []
termination_by sizeOf n
decreasing_by exact kid_lt (by assumption)

/-- The nodes a full walk visits, children first. -/
def postorder (n : AnyNode) : List AnyNode :=
  ((kids n).attach.flatMap fun
    | ⟨.child _ _ c, _⟩ => postorder c
    | ⟨.push _ _, _⟩ => []
    | ⟨.panic, _⟩ => []) ++ [n]
termination_by sizeOf n
decreasing_by exact kid_lt (by assumption)

/-- The nodes for which Enter (Exit) is called. -/
def entered (es : List Event) : List AnyNode := es.filterMap fun | .enter n => some n | _ => none
def exited (es : List Event) : List AnyNode := es.filterMap fun | .exit n => some n | _ => none

/-- Enter and Exit calls are bracketed properly: an Exit belongs to the same node as the last Enter
that has not been exited yet. -/
inductive Nested : List Event → Prop where
  | nil : Nested []
  | push {s e es} : Nested es → Nested (.push s e :: es)
  | pop {es} : Nested es → Nested (.pop :: es)
  | node {n es rest} : Nested es → Nested rest → Nested (.enter n :: (es ++ .exit n :: rest))

/-- A visitor whose callbacks always return `Ok(Continue)`; they may change the visitor's state in any
way. -/
def Continues {σ : Type} (E : Emitter σ) : Prop :=
  ∀ m n s, (E.emit m n s).2 = .ok .continue_

/-- A visitor whose Exit callbacks always return `Ok(Continue)`, and whose Enter callbacks return
`Ok(SkipChildren)` for the nodes selected by `skip` and `Ok(Continue)` for the others. -/
structure Skips {σ : Type} (E : Emitter σ) (skip : AnyNode → Bool) : Prop where
  enter : ∀ n s, (E.emit .enter n s).2 = .ok (if skip n then .skip else .continue_)
  exit : ∀ n s, (E.emit .exit n s).2 = .ok .continue_

/-- The visitor's state after a sequence of calls. -/
def after {σ : Type} (E : Emitter σ) : List Event → σ → σ
  | [], s => s
  | .enter n :: es, s => after E es (E.emit .enter n s).1
  | .exit n :: es, s => after E es (E.emit .exit n s).1
  | .push a b :: es, s => after E es (E.push a b s)
  | .pop :: es, s => after E es (E.pop s)

/-- A library with a `let` definition, and the nodes that contain one. -/
def AnyNode.HasLet : AnyNode → Prop
  | .librarySingle (.letDefinition _ _ _) => True
  | .libraryDef l => ∃ d ∈ l.definitions, ∃ x t e, d.node = .letDefinition x t e
  | .program p => ∃ l, p.libraryDefinition = some l ∧
      ∃ d ∈ l.node.definitions, ∃ x t e, d.node = .letDefinition x t e
  | _ => False

/-- Nodes at which the walk pushes one source position too many: message entries with a variable, empty
maps, and the clauses of match statements. -/
def AnyNode.pushesMore : AnyNode → Bool
  | .messageEntry (.messageVariable _ _) => true
  | .valueLit (.literalEmptyMap _ _) => true
  | .pmClause _ => true
  | _ => false

/-- The stack of source positions after a sequence of calls (a pop on the empty stack has no effect). -/
def stackAfter : List Event → List (Pos × Pos) → List (Pos × Pos)
  | [], st => st
  | .push a b :: es, st => stackAfter es ((a, b) :: st)
  | .pop :: es, st => stackAfter es st.tail
  | _ :: es, st => stackAfter es st

/-- number of pushes and pops -/
def pushes (es : List Event) : Nat := es.countP fun | .push _ _ => true | _ => false
def pops (es : List Event) : Nat := es.countP fun | .pop => true | _ => false

/-- A call of a callback and its result. -/
structure Call where
  mode : Mode
  node : AnyNode
  result : Outcome TR

/-- The visitor `E`, with a record of all calls of its callbacks. -/
def logged {σ : Type} (E : Emitter σ) : Emitter (σ × List Call) where
  push a b s := (E.push a b s.1, s.2)
  pop s := (E.pop s.1, s.2)
  emit m n s :=
    match E.emit m n s.1 with
    | (s1, r) => ((s1, s.2 ++ [⟨m, n, r⟩]), r)

/-- A call that lets the walk go on: it returned `Ok`, or it was the Enter of an address type and returned
an error. -/
def Call.Fine (c : Call) : Prop :=
  match c.result with
  | .ok _ => True
  | .err _ => c.mode = .enter ∧ c.node.isAddress = true
  | .panic => False

/-- The nodes a full walk visits, parents first, each with the position pushed for it. -/
def placed (pos : Option (Pos × Pos)) (n : AnyNode) : List (AnyNode × Option (Pos × Pos)) :=
  (n, pos) :: (kids n).attach.flatMap fun
    | ⟨.child _ pos' c, _⟩ => placed pos' c
    | ⟨.push _ _, _⟩ => []
    | ⟨.panic, _⟩ => []
termination_by sizeOf n
decreasing_by exact kid_lt (by assumption)

/-- The nodes for which Enter is called, each with the top of the position stack at that moment. -/
def tops : List Event → List (Pos × Pos) → List (AnyNode × Option (Pos × Pos))
  | [], _ => []
  | .enter n :: es, st => (n, st.head?) :: tops es st
  | .exit _ :: es, st => tops es st
  | .push a b :: es, st => tops es ((a, b) :: st)
  | .pop :: es, st => tops es st.tail

/-- same node; same position if there is one -/
def OwnTop (a b : AnyNode × Option (Pos × Pos)) : Prop := a.1 = b.1 ∧ (a.2 ≠ none → b.2 = a.2)

/-- `R` holds element by element; the lists have the same length -/
inductive Pointwise {α β : Type} (R : α → β → Prop) : List α → List β → Prop where
  | nil : Pointwise R [] []
  | cons {x y xs ys} : R x y → Pointwise R xs ys → Pointwise R (x :: xs) (y :: ys)

end Verif
