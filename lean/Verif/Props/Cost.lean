import Verif.Proofs.EmitCount
import Verif.Props.Visitor
import Verif.Props.Lexer1
/-
C58: the work done on a document is linear in its length.  The unit of work is a call of a callback of a visitor;
`emitRecorded` (Verif/Spec/EmitLog.lean) is the emission with a record of these calls, `logged E`
(Verif/Spec/WalkEvents.lean) the visitor `E` with such a record.
-/
namespace Verif

variable {σ : Type}

/-- C58: a record changes nothing: the emission with a record of the callbacks gives what the emission gives. -/
theorem C58_same_result (dbg : StackObj → Str) (p : NodeProgram) : (emitRecorded dbg p).1 = emitProgram dbg p := by
  have h := Rel.run (Rel.kid (sameHooks_recording dbg (emitFuel p.contractDefinition.node))
    (rel_recording dbg (emitFuel p.contractDefinition.node)) (isKid_contractDef _) (isKid_contractDef _)
    p.contractDefinition) SrState.init []
  obtain ⟨new, h, _⟩ := h
  unfold emitRecorded emitProgram
  rw [h]
  rcases visitContractDefW (srEmitter dbg (emitFuel p.contractDefinition.node)) p.contractDefinition
    SrState.init with ⟨s, r⟩
  cases r <;> rfl

/-- C58: the emission of a contract calls at most four callbacks per node of its contract definition, whatever
the outcome. -/
theorem C58_emitter_calls (dbg : StackObj → Str) (p : NodeProgram) :
    (emitRecorded dbg p).2.length ≤ 4 * (preorder (.contractDef p.contractDefinition.node)).length := by
  have h := Rel.run (Rel.kid (sameHooks_recording dbg (emitFuel p.contractDefinition.node))
    (rel_recording dbg (emitFuel p.contractDefinition.node)) (isKid_contractDef _) (isKid_contractDef _)
    p.contractDefinition) SrState.init []
  obtain ⟨new, h, hl⟩ := h
  have hl : new.length ≤ 4 * (preorder (.contractDef p.contractDefinition.node)).length := hl
  unfold emitRecorded
  rw [h]
  rcases visitContractDefW (srEmitter dbg (emitFuel p.contractDefinition.node)) p.contractDefinition
    SrState.init with ⟨s, r⟩
  cases r <;> simpa using hl

theorem rel_logged (E : Emitter σ) (n : AnyNode) : Rel (2 * nodes n) (visit E n) (visit (logged E) n) := by
  have one : ∀ mode n, Rel 1 (E.emit mode n) ((logged E).emit mode n) := by
    intro mode n
    refine .of fun s l => ⟨[⟨mode, n, (E.emit mode n s).2⟩], rfl, by simp⟩
  have two : ∀ ks, kidsB (fun n => 2 * nodes n) ks = 2 * kidsN ks := by
    intro ks
    induction ks with
    | nil => rfl
    | cons k ks ih => cases k <;> simp only [kidsB, kidsN, ih] <;> omega
  refine Rel.visit (B := fun n => 2 * nodes n) ⟨fun _ _ _ _ => rfl, fun _ _ => rfl⟩ (fun n => ?_) n
  refine ⟨1, 1, one _ _, one _ _, .inr ?_⟩
  rw [two]
  have := nodes_eq n
  omega

/-- C58: every visit of a tree, with every visitor and from every state, makes at most two calls per node:
whether the visitor continues, skips, fails or panics. -/
theorem C58_visit_calls (E : Emitter σ) (n : AnyNode) (s : σ) :
    (visit (logged E) n (s, [])).1.2.length ≤ 2 * (preorder n).length := by
  obtain ⟨new, h, hl⟩ := (rel_logged E n).run s []
  have hl : new.length ≤ 2 * (preorder n).length := hl
  rw [h]
  simpa using hl

/-- C58: a parsed program has at most five nodes per token, and a document at most one token per character. -/
theorem C58_size (U : CharClass) (doc : Str) (toks : List STok) (p : NodeProgram) (hl : lexDoc U doc = some toks)
    (hp : parseProgram toks = some p) :
    (preorder (.program p)).length ≤ 5 * toks.length ∧ toks.length ≤ doc.length := by
  refine ⟨nodes_le_tokens (parseProgram_sound hp), ?_⟩
  rcases C01_terminates U doc with ⟨ts, _, h2, h3⟩ | ⟨_, h⟩
  · rw [hl] at h3; injection h3 with h3; subst h3; exact h2
  · rw [hl] at h; simp at h

/-- C58: the emission of a parsed document calls at most 20 callbacks per character of the document. -/
theorem C58_document (env : Env) (doc : Str) (toks : List STok) (p : NodeProgram)
    (hl : lexDoc env.chars doc = some toks) (hp : parseProgram toks = some p) :
    (emitRecorded env.dbg p).2.length ≤ 20 * toks.length ∧ 20 * toks.length ≤ 20 * doc.length := by
  have h1 := C58_emitter_calls env.dbg p
  have h2 := nodes_contract_le (parseProgram_sound hp)
  have h3 := (C58_size env.chars doc toks p hl hp).2
  unfold nodes at h2
  omega

/-- C58: every visit of the tree of a document makes at most 10 calls per character. -/
theorem C58_document_visit (E : Emitter σ) (U : CharClass) (doc : Str) (toks : List STok) (p : NodeProgram)
    (hl : lexDoc U doc = some toks) (hp : parseProgram toks = some p) (s : σ) :
    (visit (logged E) (.program p) (s, [])).1.2.length ≤ 10 * doc.length := by
  have h1 := C58_visit_calls E (.program p) s
  have h2 := C58_size U doc toks p hl hp
  omega

/-- an evaluated case: the calls of the emission, the nodes of the contract, and the calls of a visit with a
visitor that always continues -/
def costOf (doc : Str) : Option (Nat × Nat × Nat) :=
  (demoProgram doc).map fun p => ((emitRecorded demoEnv.dbg p).2.length,
    (preorder (.contractDef p.contractDefinition.node)).length,
    (visit (logged recorder) (.program p) ([], [])).1.2.length)

/-- Contract parameters are visited twice: here 157 calls for the 51 nodes of the contract. -/
theorem C58_witness : costOf (str! "scilla_version 0 contract C(a : Int32, b : Map A B, c : Map (A) (Map B (List C)), d : ByStr20 with contract field x : Int32 end)") =
    some (157, 51, 104) := by decide +kernel

end Verif
