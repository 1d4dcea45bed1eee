import Verif.Proofs.Cut
import Verif.Props.Parts
/-
C83 — truncated documents.  `Contract.Begins` and `Outline.Begins` are in Spec/Cut.lean.
-/
namespace Verif

theorem blunt_lift {xs : List Token} (h1 : Token.closeParen ∉ xs) (h2 : Token.equals ∉ xs) : Blunt (lift xs) := by
  intro t ht
  obtain ⟨x, hx, rfl⟩ := List.mem_map.1 ht
  exact ⟨fun e => h1 (by rw [← show x = _ from e]; exact hx), fun e => h2 (by rw [← show x = _ from e]; exact hx)⟩

/-- C83 on tokens: two programs that begin alike, and the first of which has neither `)` nor `=` behind the common
beginning.  Then everything the first one declares is declared by the second one as well, in the same order and before
everything else. -/
theorem C83_tokens (o o' : Outline) (ho : o.Ok) (ho' : o'.Ok) (k xs ys : List Token) (h : o.tokens = k ++ xs)
    (h' : o'.tokens = k ++ ys) (h1 : Token.closeParen ∉ xs) (h2 : Token.equals ∉ xs) : o.Begins o' := by
  obtain ⟨p, hp, -⟩ := outlineAt_of o (lift o.tokens) ho (bare_lift _)
  obtain ⟨p', hp', -⟩ := outlineAt_of o' (lift o'.tokens) ho' (bare_lift _)
  exact (hp.cut hp' (by rw [h, lift_append]) (by rw [h', lift_append]) (blunt_lift h1 h2)).1

/-- In particular: when the first tokens of a program are a program. -/
theorem C83_prefix (o o' : Outline) (ho : o.Ok) (ho' : o'.Ok) (h : o.tokens <+: o'.tokens) : o.Begins o' := by
  obtain ⟨ys, hy⟩ := h
  exact C83_tokens o o' ho ho' o.tokens [] ys (by simp) hy.symm (by simp) (by simp)

/-- Emission: the contract of the first program begins the contract of the second one. -/
theorem C83_emission (dbg : StackObj → Str) (u w : List STok) (k xs ys : List Token) (hu : u.map (·.tok) = k ++ xs)
    (hw : w.map (·.tok) = k ++ ys) (h1 : Token.closeParen ∉ xs) (h2 : Token.equals ∉ xs) (p q : NodeProgram)
    (hp : parseProgram u = some p) (hq : parseProgram w = some q) (c : Contract) (hc : emitProgram dbg q = .ok c) :
    ∃ c', emitProgram dbg p = .ok c' ∧ c'.Begins c := by
  obtain ⟨o, ho, e⟩ := (C81_accepts u).1 ⟨p, hp⟩
  obtain ⟨o', ho', e'⟩ := (C81_accepts w).1 ⟨q, hq⟩
  obtain ⟨p1, p0, k1, k2, k3⟩ := parse_outline o ho u e.symm
  obtain ⟨q1, q0, l1, l2, l3⟩ := parse_outline o' ho' w e'.symm
  rw [hp] at k1; cases k1
  rw [hq] at l1; cases l1
  have hb := (k2.cut l2 (k := lift k) (xs := lift xs) (ys := lift ys) (by rw [← lift_append, ← hu, e])
    (by rw [← lift_append, ← hw, e']) (blunt_lift h1 h2)).2
  rw [← emitProgram_strip dbg q, l3, emitProgram_strip dbg q0] at hc
  rw [← emitProgram_strip dbg p, k3, emitProgram_strip dbg p0]
  exact emit_begins dbg hb hc

theorem program_end {u : List STok} {k : List Token} (hu : u.map (·.tok) = k ++ [.equals]) : parseProgram u = none := by
  cases hp : parseProgram u with
  | none => rfl
  | some p =>
    exfalso
    have := (C15_sound u p hp).endsEq
    obtain ⟨v, x, rfl, -, hx⟩ := List.map_eq_append_iff.1 hu
    obtain ⟨t, rfl, ht⟩ := List.map_eq_singleton_iff.1 hx
    rw [endsEq_append] at this
    simp [endsEq, ht] at this

/-- C83 on documents: cut a document that has a contract anywhere.  What is left is a syntax error, or has a contract
that begins the other one: the same name, the same parameters, the first fields, the first transitions, and no
transition unless all fields are there. -/
theorem C83_document (env : Env) (a b : Str) (ha : Ascii (a ++ b)) (he : NoEscape (a ++ b)) (c : Contract)
    (h : fromStr env (a ++ b) = .ok c) :
    (∃ c', fromStr env a = .ok c' ∧ c'.Begins c) ∨
    (∃ m ts, fromStr env a = .err (.parseError m) ∧ lexDoc env.chars a = some ts ∧ ¬ ∃ p, Derives .program ts p) := by
  obtain ⟨k, xs, ys, h1, h2, h3⟩ := lex_cut env.chars a.length a b (Nat.le_refl _) ha he
  obtain ⟨u, hu, eu⟩ := Option.map_eq_some_iff.1 h1
  obtain ⟨w, hw, ew⟩ := Option.map_eq_some_iff.1 h2
  cases hp : parseProgram u with
  | none =>
    refine .inr ⟨_, u, by simp only [fromStr, hu, hp]; rfl, hu, ?_⟩
    rintro ⟨p, d⟩
    rw [C16_complete u p d] at hp
    cases hp
  | some p =>
    left
    cases hq : parseProgram w with
    | none => simp only [fromStr, hw, hq] at h; cases h
    | some q =>
      rw [fromStr_parsed hw hq] at h
      cases hc : emitProgram env.dbg q with
      | err e => rw [hc] at h; cases h
      | panic => rw [hc] at h; cases h
      | ok c1 =>
        rw [hc] at h
        cases h
        rw [fromStr_parsed hu hp]
        rcases h3 with h3 | rfl | ⟨h3, h4⟩
        · exfalso
          have hm : Token.unknown ∈ u.map (·.tok) := by rw [eu]; exact List.mem_append_right _ h3
          obtain ⟨t, ht, e⟩ := List.mem_map.1 hm
          have := (parseProgram_sound hp).usable t ht
          rw [e] at this
          simp [neverUsed] at this
        · rw [program_end eu] at hp; cases hp
        · obtain ⟨c', k1, k2⟩ := C83_emission env.dbg u w k xs ys eu ew h3 h4 p q hp hq c hc
          exact ⟨c', by rw [k1], k2⟩

/-- So nothing is invented by truncation: a transition, field or parameter of what is left is one of the document. -/
theorem C83_nothing_new (env : Env) (a b : Str) (ha : Ascii (a ++ b)) (he : NoEscape (a ++ b)) (c c' : Contract)
    (h : fromStr env (a ++ b) = .ok c) (h' : fromStr env a = .ok c') :
    c'.name = c.name ∧ c'.initParams = c.initParams ∧ (∀ f ∈ c'.fields, f ∈ c.fields) ∧
    (∀ t ∈ c'.transitions, t ∈ c.transitions) := by
  rcases C83_document env a b ha he c h with ⟨d, hd, hb⟩ | ⟨m, -, hm, -⟩
  · rw [h'] at hd
    cases hd
    exact ⟨hb.name, hb.params, fun f hf => hb.fields.subset hf, fun t ht => hb.transitions.subset ht⟩
  · rw [h'] at hm; cases hm

/-- The condition on escaped quotes is needed: the text behind such a quote is a part of the literal only as long as
the literal is closed.  Here the cut leaves a contract with a field that the document does not have. -/
theorem C83_escape :
    fromStr demoEnv (str! "scilla_version 0 contract C () field a : String = \"\\\" field b : Uint32 = x \"") =
      .ok ⟨str! "C", [], [⟨str! "a", .string⟩], []⟩ ∧
    fromStr demoEnv (str! "scilla_version 0 contract C () field a : String = \"\\\" field b : Uint32 = x ") =
      .ok ⟨str! "C", [], [⟨str! "a", .string⟩, ⟨str! "b", .uint32⟩], []⟩ := by
  constructor <;> decide +kernel

/-- a document and a place in the middle of a word of an initial value -/
def cutDoc : Str := str! "scilla_version 0 contract C (o : ByStr20) field a : Uint32 = first field b : Uint64 = other transition T () x = \"text\" end"
def cutAt : Nat := 62

theorem C83_witness :
    Ascii (cutDoc.take cutAt ++ cutDoc.drop cutAt) ∧ NoEscape (cutDoc.take cutAt ++ cutDoc.drop cutAt) ∧
    fromStr demoEnv (cutDoc.take cutAt ++ cutDoc.drop cutAt) =
      .ok ⟨str! "C", [⟨str! "o", .byStr20⟩], [⟨str! "a", .uint32⟩, ⟨str! "b", .uint64⟩], [⟨str! "T", []⟩]⟩ ∧
    cutDoc.take cutAt = str! "scilla_version 0 contract C (o : ByStr20) field a : Uint32 = f" ∧
    fromStr demoEnv (cutDoc.take cutAt) = .ok ⟨str! "C", [⟨str! "o", .byStr20⟩], [⟨str! "a", .uint32⟩], []⟩ := by
  refine ⟨(show ∀ c ∈ cutDoc.take cutAt ++ cutDoc.drop cutAt, c.toNat < 128 by decide +kernel), ?_, ?_, ?_, ?_⟩
  · rintro ⟨u, v, e⟩
    have h : ∀ c ∈ cutDoc, c ≠ '\\' := by decide +kernel
    rw [List.take_append_drop] at e
    exact h _ (by rw [← e]; simp) rfl
  · decide +kernel
  · decide +kernel
  · decide +kernel

end Verif
