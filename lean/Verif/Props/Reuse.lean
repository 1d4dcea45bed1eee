import Verif.Proofs.Reuse
import Verif.Props.Pile
/-
C72: an emitter that has been used before.  A state of the emitter (`SrState`) is its pile of objects and the contract
it has collected so far; the theorems hold for all states, in particular for those after any visits whatsoever.
-/
namespace Verif

open Pile (Verdict Thing Wanted)

/-- what is added to the contract collected so far -/
def Contract.added (c d : Contract) : Contract :=
  ⟨d.name, c.initParams ++ d.initParams, c.fields ++ d.fields, c.transitions ++ d.transitions⟩

/-- the objects on the emitter's stack are the things on the pile, in order -/
inductive ArePile : List StackObj → List Thing → Prop where
  | nil : ArePile [] []
  | cons {o : StackObj} {x : Thing} {os : List StackObj} {xs : List Thing} :
      IsThing o x → ArePile os xs → ArePile (o :: os) (x :: xs)

/-- every state has a pile -/
theorem ArePile.exists (st : List StackObj) : ∃ pile, ArePile st pile := by
  induction st with
  | nil => exact ⟨[], .nil⟩
  | cons o st ih =>
    obtain ⟨xs, h⟩ := ih
    cases o with
    | ident n k => cases k <;> exact ⟨_, .cons (by constructor) h⟩
    | varDecl f => exact ⟨_, .cons (by constructor) h⟩
    | typeDef t => exact ⟨_, .cons (by constructor) h⟩

/-- a fresh emitter -/
theorem C72_fresh (dbg : StackObj → Str) (p : NodeProgram) :
    SrState.init.emit dbg p = emitProgram dbg p := rfl

theorem emit_ev (dbg : StackObj → Str) (s : SrState) (p : NodeProgram) (k : Nat)
    (hk : emitFuel p.contractDefinition.node ≤ k) :
    s.emitWith dbg k p = match evContract dbg p.contractDefinition.node s with
      | (s, .ok _) => .ok s.contract
      | (_, .err e) => .err e
      | (_, .panic) => .panic := by
  simp only [SrState.emitWith, visitContractDefW_ev dbg _ _ hk, M.thenCont, M.bind]
  cases evContract dbg p.contractDefinition.node s with
  | mk s r => cases r <;> rfl

/-- The bound on nesting is no restriction. -/
theorem C72_enough (dbg : StackObj → Str) (s : SrState) (p : NodeProgram) (k : Nat)
    (hk : emitFuel p.contractDefinition.node ≤ k) : s.emitWith dbg k p = s.emit dbg p := by
  rw [SrState.emit, emit_ev dbg s p k hk, emit_ev dbg s p _ (Nat.le_refl _)]

/-- C72: what any emitter, in any state, makes of any program: the reading of C64, begun with the pile the emitter has;
what is found is added to what the emitter has found before, and the name is the new one. -/
theorem C72_any_state (dbg : StackObj → Str) (s : SrState) (p : NodeProgram) (pile : List Thing)
    (hs : ArePile s.stack pile) :
    match (generalizing := false) Pile.contract p pile with
    | .fine c _ => s.emit dbg p = .ok (s.contract.added c)
    | .error w none _ =>
      s.emit dbg p = .err (str! "Expected " ++ expectedText w ++ str! ", but found nothing.")
    | .error w (some x) _ =>
      ∃ o, IsThing o x ∧
        s.emit dbg p = .err (str! "Expected " ++ expectedText w ++ str! ", but found " ++ dbg o ++ str! ".")
    | .panic => s.emit dbg p = .panic := by
  have h := Pile.sim_contractFrom (dbg := dbg) p s
  have hp : s.stack.map Pile.thing = pile := by
    revert hs
    generalize s.stack = st
    intro hs
    induction hs with
    | nil => rfl
    | cons h1 _ ih => rw [List.map_cons, ih]; cases h1 <;> rfl
  rw [hp] at h
  rw [SrState.emit, emit_ev dbg s p _ (Nat.le_refl _)]
  cases he : evContract dbg p.contractDefinition.node s with
  | mk s' r =>
    rw [he] at h
    cases r with
    | ok a =>
      obtain ⟨b, h1, h2⟩ := h
      rw [h1]
      simp only [h2, Contract.added]
    | err e =>
      obtain ⟨w, x, h1, what, h2, h3⟩ := h
      rw [h1]
      have hw : Pile.wantedText w = expectedText w := by cases w <;> rfl
      rw [hw] at h2
      cases x with
      | none =>
        subst h3
        simp only [h2]
        simp
      | some x =>
        obtain ⟨o, h4, rfl⟩ := h3
        refine ⟨o, ?_, by simp only [h2]⟩
        subst h4
        cases o with
        | ident n k => cases k <;> constructor
        | varDecl f => constructor
        | typeDef t => constructor
    | panic => rw [h]

/-- what a program that can be read does to any emitter -/
theorem evContract_read (dbg : StackObj → Str) (s : SrState) (p : NodeProgram) :
    match (generalizing := false) readProgram p with
    | .ok c => ∃ st, evContract dbg p.contractDefinition.node s = (⟨st, s.contract.added c⟩, .ok ())
    | .error .panics => ∃ s', evContract dbg p.contractDefinition.node s = (s', .panic)
    | .error .fails => ∃ s' e, evContract dbg p.contractDefinition.node s = (s', .err e)
    | .error .misread => True := by
  rw [evContract_T]
  simp only [readProgram, evIface]
  generalize typedOf p.contractDefinition.node.parameters.node.parameters = ps
  generalize fieldTypedOf p.contractDefinition.node.fields = fs
  generalize transitionsOf p.contractDefinition.node.components = ts
  generalize p.contractDefinition.node.contractName.node = name
  obtain ⟨st, hn⟩ := evTypeName_ok name s
  rw [M.bind, hn]
  simp only
  rw [M.bind]
  simp only [setName]
  have h := evInitT_read dbg ps
  cases hp : readAll ps with
  | error w =>
    rw [hp] at h
    have h3 := Has.outcome (Has.bind h fun _ => (evAgainT dbg ps).bind fun _ =>
      (evFieldsT dbg fs).bind fun _ => evTranssT dbg ts) ⟨st, { s.contract with name := name.display }⟩
    cases w with
    | panics => exact h3
    | fails => exact h3
    | misread => trivial
  | ok r =>
    obtain ⟨l, a⟩ := r
    rw [hp] at h
    simp only at h ⊢
    rw [M.bind, h]
    obtain ⟨st2, h2, _⟩ := evAgainT_read dbg ps l a hp
      ⟨leftovers l ++ st, { s.contract with name := name.display, initParams := s.contract.initParams ++ a }⟩
    simp only
    rw [M.bind, h2]
    simp only
    have h := evFieldsT_read dbg fs
    cases hf : readAll fs with
    | error w =>
      rw [hf] at h
      have h3 := Has.outcome (Has.bind h fun _ => evTranssT dbg ts)
        ⟨st2, { s.contract with name := name.display, initParams := s.contract.initParams ++ a }⟩
      cases w with
      | panics => exact h3
      | fails => exact h3
      | misread => trivial
    | ok r =>
      obtain ⟨l2, b⟩ := r
      rw [hf] at h
      simp only at h ⊢
      rw [M.bind, h]
      simp only
      have h := evTranssT_read dbg ts
      cases ht : readTransitions ts with
      | error w =>
        rw [ht] at h
        have h3 := Has.outcome h ⟨leftovers l2 ++ st2, { s.contract with
          name := name.display, initParams := s.contract.initParams ++ a, fields := s.contract.fields ++ b }⟩
        cases w with
        | panics => exact h3
        | fails => exact h3
        | misread => trivial
      | ok rs =>
        rw [ht] at h
        simp only at h ⊢
        rw [h]
        exact ⟨_, rfl⟩

/-- C72: if the program has a meaning (C24), what the emitter has on its pile does not matter: it fails or panics as a
fresh emitter would, or adds the declared interface to what it has collected. -/
theorem C72_past_is_added (dbg : StackObj → Str) (s : SrState) (p : NodeProgram) :
    match (generalizing := false) readProgram p with
    | .ok c => s.emit dbg p = .ok (s.contract.added c)
    | .error .panics => s.emit dbg p = .panic
    | .error .fails => ∃ e, s.emit dbg p = .err e
    | .error .misread => True := by
  have h := evContract_read dbg s p
  rw [SrState.emit, emit_ev dbg s p _ (Nat.le_refl _)]
  cases hr : readProgram p with
  | ok c => rw [hr] at h; obtain ⟨st, h⟩ := h; simp only [h]
  | error w =>
    rw [hr] at h
    cases w with
    | panics => obtain ⟨s', h⟩ := h; simp only [h]
    | fails => obtain ⟨s', e, h⟩ := h; exact ⟨e, by simp only [h]⟩
    | misread => trivial

/-- In particular for a program all of whose types are understood. -/
theorem C72_understood (dbg : StackObj → Str) (s : SrState) (p : NodeProgram) (c : Contract)
    (h : interfaceOf p = some c) : s.emit dbg p = .ok (s.contract.added c) := by
  have := C72_past_is_added dbg s p
  rw [readProgram_strict h] at this
  exact this

/-- C72: the contracts of several programs visited with one emitter are put together: the name of the last one, the
parameters, fields and transitions of all of them in order. -/
theorem C72_several (dbg : StackObj → Str) (k : Nat) (ps : List (NodeProgram × Contract))
    (h : ∀ x ∈ ps, interfaceOf x.1 = some x.2)
    (hk : ∀ x ∈ ps, emitFuel x.1.contractDefinition.node ≤ k) (s : SrState) (q : NodeProgram) (d : Contract)
    (hq : interfaceOf q = some d) :
    (s.visitAll dbg k (ps.map fun x => .contractDef x.1.contractDefinition.node)).emit dbg q =
      .ok ⟨d.name, s.contract.initParams ++ ps.flatMap (·.2.initParams) ++ d.initParams,
        s.contract.fields ++ ps.flatMap (·.2.fields) ++ d.fields,
        s.contract.transitions ++ ps.flatMap (·.2.transitions) ++ d.transitions⟩ := by
  induction ps generalizing s with
  | nil =>
    rw [List.map_nil, SrState.visitAll, C72_understood dbg s q d hq]
    simp [Contract.added]
  | cons x ps ih =>
    have h1 : (s.visit dbg k (.contractDef x.1.contractDefinition.node)).contract = s.contract.added x.2 := by
      have h2 := visitContractDefW_ev dbg x.1.contractDefinition k (hk x (by simp))
      have h3 := evContract_read dbg s x.1
      rw [readProgram_strict (h x (by simp))] at h3
      obtain ⟨st, h3⟩ := h3
      have h4 : visitContractDefW (srEmitter dbg k) x.1.contractDefinition =
          Verif.visit (srEmitter dbg k) (.contractDef x.1.contractDefinition.node) := by
        rw [visitContractDefW, withPos_sr]
        rfl
      rw [SrState.visit, ← h4, h2, M.thenCont, M.bind, h3]
      rfl
    rw [List.map_cons, SrState.visitAll, ih (fun y hy => h y (by simp [hy])) (fun y hy => hk y (by simp [hy])), h1]
    simp [Contract.added, List.append_assoc]

/-- C72: no visit, of any node, takes anything away from the contract an emitter has collected. -/
theorem C72_never_forgets (dbg : StackObj → Str) (k : Nat) (s : SrState) (ns : List AnyNode) :
    s.contract.initParams <+: (s.visitAll dbg k ns).contract.initParams ∧
    s.contract.fields <+: (s.visitAll dbg k ns).contract.fields ∧
    s.contract.transitions <+: (s.visitAll dbg k ns).contract.transitions := by
  induction ns generalizing s with
  | nil => exact Extends.refl _
  | cons n ns ih =>
    have h : Extends s.contract (s.visit dbg k n).contract :=
      Keeps.visit (by cases k <;> intros <;> rfl) (by cases k <;> intros <;> rfl) (keeps_srEmitter k) n s
    exact h.trans (ih _)

/-- Where the types are misread the past does matter: `contract Event () field f : Event = x` is an error for a fresh
emitter; after a visit of the type name `Foo` the field has the type `Foo`. -/
theorem C72_witness :
    (demoProgram (str! "scilla_version 0 contract Event () field f : Event = x")).map
      (fun p => (SrState.init.emit (fun _ => []) p,
        (SrState.init.visitAll (fun _ => []) 1
          [.typeNameId (.typeOrEnumLikeIdentifier ⟨str! "Foo", default, default⟩)]).emit (fun _ => []) p)) =
    some (.err (str! "Expected symbol name, but found nothing."),
      .ok ⟨str! "Event", [], [.mk (str! "f") (.other (str! "Foo"))], []⟩) := by
  decide +kernel

/-- Two contracts with one emitter. -/
theorem C72_witness_two : ∃ p q c d,
    demoProgram (str! "scilla_version 0 contract A (a : Uint32) field f : Int32 = x") = some p ∧
    demoProgram (str! "scilla_version 0 contract B (b : String) transition T () end") = some q ∧
    interfaceOf p = some c ∧ interfaceOf q = some d ∧ c.added d =
      ⟨str! "B", [.mk (str! "a") .uint32, .mk (str! "b") .string], [.mk (str! "f") .int32], [⟨str! "T", []⟩]⟩ := by
  refine ⟨_, _, _, _, rfl, rfl, rfl, rfl, ?_⟩
  decide +kernel

end Verif
