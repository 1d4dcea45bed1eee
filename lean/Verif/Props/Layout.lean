import Verif.Proofs.StripEmit
import Verif.Props.Parser1
import Verif.Props.Emitter1
/-
Positions and layout: C18, C26.  `NodeProgram.strip` (Spec/Strip.lean) erases all positions of a tree;
`bare` (Spec/Scan.lean) erases the positions of a token list.
-/
namespace Verif

/-! ## C26 — the emitter does not look at positions -/

/-- C26: trees that are equal up to positions give the same outcome: the same contract, the same error
or a panic for both. -/
theorem C26_positions (dbg : StackObj → Str) (p q : NodeProgram) (h : p.strip = q.strip) :
    emitProgram dbg p = emitProgram dbg q := by
  rw [← emitProgram_strip dbg p, h, emitProgram_strip dbg q]

/-! ## C18 — only the tokens matter -/

/-- Parsing: token lists that agree up to positions are both rejected, or accepted with trees that
agree up to positions. -/
theorem C18_parse (a b : List STok) (h : bare a = bare b) :
    (parseProgram a = none ∧ parseProgram b = none) ∨
    ∃ p q, parseProgram a = some p ∧ parseProgram b = some q ∧ p.strip = q.strip := by
  have := parse_bare h
  cases ha : parseProgram a <;> cases hb : parseProgram b <;> rw [ha, hb] at this <;>
    simp only [Option.map_some, Option.map_none, Option.some.injEq, reduceCtorEq] at this
  · exact .inl ⟨rfl, rfl⟩
  · exact .inr ⟨_, _, rfl, rfl, this⟩

/-- Same result up to the wording of syntax errors (which mentions positions). -/
inductive SameResult : ParseResult → ParseResult → Prop
  | same (r : ParseResult) : SameResult r r
  | syntaxErrors (m m' : Str) : SameResult (.err (.parseError m)) (.err (.parseError m'))

/-- C18: documents whose token sequences agree up to positions give the same result; if they are
accepted by the parser, exactly the same result. -/
theorem C18_documents (env : Env) (d d' : Str) (ts ts' : List STok)
    (hl : lexDoc env.chars d = some ts) (hl' : lexDoc env.chars d' = some ts')
    (h : ts.map (·.tok) = ts'.map (·.tok)) :
    SameResult (fromStr env d) (fromStr env d') ∧
      ((parseProgram ts).isSome = true → fromStr env d = fromStr env d') := by
  rcases C18_parse ts ts' h with ⟨h1, h2⟩ | ⟨p, q, h1, h2, e⟩
  · simp only [fromStr, hl, hl', h1, h2]
    exact ⟨.syntaxErrors _ _, by simp⟩
  · have : fromStr env d = fromStr env d' := by
      simp only [fromStr, hl, hl', h1, h2, C26_positions env.dbg p q e]
    rw [this]
    exact ⟨.same _, fun _ => rfl⟩

/-- In particular the contract obtained, if any, is the same. -/
theorem C18_same_contract (env : Env) (d d' : Str) (ts ts' : List STok)
    (hl : lexDoc env.chars d = some ts) (hl' : lexDoc env.chars d' = some ts')
    (h : ts.map (·.tok) = ts'.map (·.tok)) (c : Contract) :
    fromStr env d = .ok c ↔ fromStr env d' = .ok c := by
  have := (C18_documents env d d' ts ts' hl hl' h).1
  cases this' : fromStr env d <;> cases this'' : fromStr env d' <;> rw [this', this''] at this <;>
    cases this <;> simp

/-- Two ways of laying out the same printable tokens, with any white space and comments between them
(see `Rendering`), give the same result. -/
theorem C18_renderings (env : Env) (ts : List Token) (d d' : Str) (h : Rendering ts d)
    (h' : Rendering ts d') :
    SameResult (fromStr env d) (fromStr env d') ∧
      ∀ c, fromStr env d = .ok c ↔ fromStr env d' = .ok c := by
  obtain ⟨a, ha, ea⟩ := C10_lex_rendering env.chars ts d h
  obtain ⟨b, hb, eb⟩ := C10_lex_rendering env.chars ts d' h'
  have e := ea.trans eb.symm
  exact ⟨(C18_documents env d d' a b ha hb e).1, C18_same_contract env d d' a b ha hb e⟩

/-- The premises are met by two layouts of a small contract with different positions, both
accepted. -/
example : ∃ ts ts' : List STok,
    lexDoc demoU (str! "scilla_version 0 contract C(a : Uint32)") = some ts ∧
    lexDoc demoU (str! "(* v *)scilla_version\n 0\n\ncontract C (a:Uint32)  ") = some ts' ∧
    ts.map (·.tok) = ts'.map (·.tok) ∧ ts ≠ ts' ∧ (parseProgram ts).isSome = true := by
  refine ⟨_, _, rfl, rfl, ?_, ?_, ?_⟩ <;> decide +kernel

example : ∃ p q : NodeProgram, p.strip = q.strip ∧ p ≠ q ∧ ∃ c, interfaceOf p = some c := by
  refine ⟨⟨⟨[], default, default⟩, none, none,
      ⟨⟨⟨.eventType, default, default⟩, ⟨⟨[]⟩, default, default⟩, none, [], []⟩, default, default⟩⟩,
    ⟨⟨[], ⟨1, 2, 3⟩, default⟩, none, none,
      ⟨⟨⟨.eventType, default, default⟩, ⟨⟨[]⟩, default, default⟩, none, [], []⟩, default, default⟩⟩,
    rfl, ?_, _, rfl⟩
  intro h
  have := congrArg (fun p : NodeProgram => p.version.start) h
  simp at this
  exact absurd this (by decide)

end Verif
