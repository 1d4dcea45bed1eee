import Verif.Proofs.Pile
import Verif.Props.Emitter1
/-
C64: the complete meaning of programs.  The specification is Verif/Spec/Pile.lean.
-/
namespace Verif

open Pile (Verdict Thing Wanted)

/-- what the tool says it expected -/
def expectedText : Wanted → Str
  | .name => str! "symbol name"
  | .type => str! "type definition"
  | .decl => str! "variable declaration"

/-- the object of the emitter is the thing -/
inductive IsThing : StackObj → Thing → Prop where
  | name (x : Str) : IsThing (.ident x .unknown) (.name x)
  | transition (x : Str) : IsThing (.ident x .componentName) (.transition x)
  | decl (f : Field) : IsThing (.varDecl f) (.decl f)
  | type (t : SrType) : IsThing (.typeDef t) (.type t.toTy)

/-- C64 on trees: for every program, whatever its types are, the tool makes of it what the reading with a pile
makes of it: the same contract, an error about the same missing thing, or a panic. -/
theorem C64_tree (dbg : StackObj → Str) (p : NodeProgram) :
    match (generalizing := false) Pile.contract p [] with
    | .fine c _ => emitProgram dbg p = .ok c
    | .error w none _ =>
      emitProgram dbg p = .err (str! "Expected " ++ expectedText w ++ str! ", but found nothing.")
    | .error w (some x) _ =>
      ∃ o, IsThing o x ∧
        emitProgram dbg p = .err (str! "Expected " ++ expectedText w ++ str! ", but found " ++ dbg o ++ str! ".")
    | .panic => emitProgram dbg p = .panic := by
  have h := Pile.Sim.contract (dbg := dbg) p SrState.init
  rw [emitProgram_ev]
  cases he : evContract dbg p.contractDefinition.node SrState.init with
  | mk s r =>
    rw [he] at h
    have h0 : SrState.init.stack.map Pile.thing = [] := rfl
    rw [h0] at h
    cases r with
    | ok a =>
      obtain ⟨b, h1, h2⟩ := h
      rw [h1]
      simp only [h2 rfl]
    | err e =>
      obtain ⟨w, x, h1, what, h2, h3⟩ := h
      rw [h1]
      have hw : Pile.wantedText w = expectedText w := by cases w <;> rfl
      rw [hw] at h2
      cases x with
      | none =>
        subst h3
        simp only [h2]
        simp
      | some x =>
        obtain ⟨o, h4, rfl⟩ := h3
        refine ⟨o, ?_, by simp only [h2]⟩
        subst h4
        cases o with
        | ident n k => cases k <;> constructor
        | varDecl f => constructor
        | typeDef t => constructor
    | panic => rw [h]

/-- C64 on documents: every document that the grammar derives. -/
theorem C64_document (env : Env) (doc : Str) (toks : List STok) (p : NodeProgram)
    (hl : lexDoc env.chars doc = some toks) (hd : Derives .program toks p) :
    match (generalizing := false) Pile.contract p [] with
    | .fine c _ => fromStr env doc = .ok c
    | .error w none _ => fromStr env doc =
        .err (.parseError (str! "Expected " ++ expectedText w ++ str! ", but found nothing."))
    | .error w (some x) _ =>
      ∃ o, IsThing o x ∧ fromStr env doc =
        .err (.parseError (str! "Expected " ++ expectedText w ++ str! ", but found " ++ env.dbg o ++ str! "."))
    | .panic => fromStr env doc = .panic := by
  have h := C64_tree env.dbg p
  rw [fromStr_parsed hl (C16_complete _ _ hd)]
  cases hc : Pile.contract p [] with
  | fine c l => rw [hc] at h; simp only at h; simp only [h]
  | error w x l =>
    rw [hc] at h
    cases x with
    | none => simp only at h; simp only [h]
    | some x =>
      obtain ⟨o, h1, h2⟩ := h
      exact ⟨o, h1, by simp only [h2]⟩
  | panic => rw [hc] at h; simp only at h; simp only [h]

/-- C64: the reading with a pile agrees with the meaning of C24 wherever that is defined. -/
theorem C64_meaning (p : NodeProgram) :
    match (generalizing := false) readProgram p with
    | .ok c => ∃ l, Pile.contract p [] = .fine c l
    | .error .panics => Pile.contract p [] = .panic
    | .error .fails => ∃ w x l, Pile.contract p [] = .error w x l
    | .error .misread => True := by
  have h := C64_tree (fun _ => []) p
  have h2 := C24_verdict (fun _ => []) p
  cases hr : readProgram p with
  | ok c =>
    rw [hr] at h2
    simp only at h2
    cases hc : Pile.contract p [] with
    | fine c' l =>
      rw [hc] at h; simp only [h2] at h
      cases h
      exact ⟨l, rfl⟩
    | error w x l =>
      rw [hc] at h
      cases x <;> simp [h2] at h
    | panic => rw [hc] at h; simp [h2] at h
  | error w =>
    rw [hr] at h2
    cases w with
    | panics =>
      simp only at h2
      cases hc : Pile.contract p [] with
      | fine c' l => rw [hc] at h; simp [h2] at h
      | error w x l =>
        rw [hc] at h
        cases x <;> simp [h2] at h
      | panic => rfl
    | fails =>
      simp only at h2
      obtain ⟨e, h2⟩ := h2
      cases hc : Pile.contract p [] with
      | fine c' l => rw [hc] at h; simp [h2] at h
      | error w x l => exact ⟨w, x, l, rfl⟩
      | panic => rw [hc] at h; simp [h2] at h
    | misread => trivial

/-- A program with two fields of type `Event`: the first one takes the contract's name as its type, for the second
one nothing is left. -/
theorem C64_witness :
    (demoProgram (str! "scilla_version 0 contract C () field f : Event = x field g : Event = x")).map
      (fun p => match Pile.contract p [] with
        | .error .name none [] => true
        | _ => false) = some true ∧
    fromStr demoEnv (str! "scilla_version 0 contract C () field f : Event = x field g : Event = x") =
      .err (.parseError (str! "Expected symbol name, but found nothing.")) := by
  constructor <;> decide +kernel

/-- An unreadable type inside an address type in a map: the error is forgotten, and what is left of the map in
the address type becomes the type of the field. -/
theorem C64_witness_address :
    (demoProgram (str! "scilla_version 0 contract C () field f : ByStr20 with contract field m : Map Uint32 (Map (ByStr20 with end) Uint128) end = x")).map
      (fun p => match Pile.contract p [] with
        | .fine c [.name n] => decide (c.fields = [.mk (str! "f") .uint32] ∧ n = str! "C")
        | _ => false) = some true := by
  decide +kernel

end Verif
