import Verif.Proofs.Parts
import Verif.Props.Frames
/-
C81 — a program is a sequence of parts, in exactly one way, and only the parts of its interface matter.
-/
namespace Verif

/-- C81: a token sequence is a program iff it is the sequence of the parts of some outline, each part a phrase of its
kind. -/
theorem C81_parts (w : List Token) : Gen [.non .Program] w ↔ ∃ o : Outline, o.Ok ∧ o.tokens = w := by
  constructor
  · intro h
    obtain ⟨p, d⟩ := gen_derives (x := .Program) (bare_lift w) h
    obtain ⟨o, ho⟩ := Derives.outlineAt d
    exact ⟨o, ho.ok.1, by rw [← ho.ok.2, bare_lift]⟩
  · rintro ⟨o, ho, rfl⟩
    obtain ⟨p, -, d⟩ := outlineAt_of o (lift o.tokens) ho (bare_lift _)
    have := Derives.genBare (x := .Program) d
    rwa [bare_lift] at this

/-- C81: there is only one such outline. -/
theorem C81_unique (o o' : Outline) (h : o.Ok) (h' : o'.Ok) (e : o.tokens = o'.tokens) : o = o' :=
  outline_unique o o' h h' e

/-- C81 on token lists with positions: the parser accepts exactly the outlines. -/
theorem C81_accepts (toks : List STok) :
    (∃ p, parseProgram toks = some p) ↔ ∃ o : Outline, o.Ok ∧ o.tokens = toks.map (·.tok) := by
  rw [C59_program, C81_parts]

theorem parse_outline (o : Outline) (ho : o.Ok) (toks : List STok) (h : toks.map (·.tok) = o.tokens) :
    ∃ p p0, parseProgram toks = some p ∧ OutlineAt o (lift o.tokens) p0 ∧ p.strip = p0.strip := by
  obtain ⟨p0, h0, d0⟩ := outlineAt_of o (lift o.tokens) ho (bare_lift _)
  obtain ⟨p, hp⟩ := (C81_accepts toks).2 ⟨o, ho, h.symm⟩
  have hb : bare toks = bare (lift o.tokens) := by rw [bare_lift]; exact h
  have := parse_bare hb
  rw [hp, parseProgram_complete d0] at this
  exact ⟨p, p0, hp, h0, Option.some.inj this⟩

/-- C81: emission of two programs whose outlines show the same face gives the same contract, the same error or the
same panic. -/
theorem C81_emission (dbg : StackObj → Str) (o o' : Outline) (ho : o.Ok) (ho' : o'.Ok) (hf : o.SameFace o')
    (a b : List STok) (ha : a.map (·.tok) = o.tokens) (hb : b.map (·.tok) = o'.tokens) :
    ∃ p q, parseProgram a = some p ∧ parseProgram b = some q ∧ emitProgram dbg p = emitProgram dbg q := by
  obtain ⟨p, p0, hp, h0, e⟩ := parse_outline o ho a ha
  obtain ⟨q, q0, hq, g0, e'⟩ := parse_outline o' ho' b hb
  refine ⟨p, q, hp, hq, ?_⟩
  rw [← emitProgram_strip dbg p, e, emitProgram_strip dbg p0, ← emitProgram_strip dbg q, e', emitProgram_strip dbg q0]
  exact C25_only_interface dbg _ _ (h0.face g0 (placeless_lift _) (placeless_lift _) hf)

/-- C81 on documents: whatever the version, the imports, the library, the constraint, the initial values, the bodies
and the procedures. -/
theorem C81_documents (env : Env) (d d' : Str) (a b : List STok) (ha : lexDoc env.chars d = some a)
    (hb : lexDoc env.chars d' = some b) (o o' : Outline) (ho : o.Ok) (ho' : o'.Ok) (hf : o.SameFace o')
    (ea : a.map (·.tok) = o.tokens) (eb : b.map (·.tok) = o'.tokens) : fromStr env d = fromStr env d' := by
  obtain ⟨p, q, hp, hq, e⟩ := C81_emission env.dbg o o' ho ho' hf a b ea eb
  simp only [fromStr, ha, hb, hp, hq, e]

/-- the stub of an outline is one, and shows the same face -/
theorem C81_stub (o : Outline) (ho : o.Ok) : o.stub.Ok ∧ o.SameFace o.stub := by
  have hx : Gen [.non .FullExpression] [.identifier (str! "x")] := by
    rw [← bare_lift [.identifier (str! "x")]]
    exact Derives.genBare (x := .FullExpression) (w := lift [.identifier (str! "x")])
      (.exprAtomic (.atomicVar (.varName (.regularId rfl))))
  have he : Gen [.non .ComponentBody] [.end_] := by
    rw [← bare_lift [.end_]]
    exact Derives.genBare (x := .ComponentBody) (w := lift [.end_]) (.compBody (w1 := []) rfl .optNone)
  have hv : Gen [.non .SignedInteger] [.number (str! "0")] := by
    rw [← bare_lift [.number (str! "0")]]
    exact Derives.genBare (x := .SignedInteger) (w := lift [.number (str! "0")]) (.signedInt rfl)
  refine ⟨⟨hv, .inl rfl, .inl rfl, ho.name, ho.params, .inl rfl, ?_, ?_⟩, ⟨rfl, rfl, ?_, ?_⟩⟩
  · intro f hf
    obtain ⟨g, hg, rfl⟩ := List.mem_map.1 hf
    exact ⟨(ho.fields g hg).declared, hx⟩
  · intro c hc
    obtain ⟨g, hg, rfl⟩ := List.mem_map.1 hc
    have := ho.components g (List.mem_filter.1 hg).1
    exact ⟨this.name, this.params, he⟩
  · simp [Outline.stub]
  · simp [Outline.stub, List.filter_map, Function.comp_def]

/-- C81: every accepted document can be replaced by a stub of it, with the same result. -/
theorem C81_stub_document (env : Env) (d d' : Str) (a b : List STok) (o : Outline) (ho : o.Ok)
    (ha : lexDoc env.chars d = some a) (hb : lexDoc env.chars d' = some b)
    (ea : a.map (·.tok) = o.tokens) (eb : b.map (·.tok) = o.stub.tokens) : fromStr env d = fromStr env d' :=
  C81_documents env d d' a b ha hb o o.stub ho (C81_stub o ho).1 (C81_stub o ho).2 ea eb

/-- the categories a face consists of: no string literals in them -/
def NT.noString : NT → Bool
  | .byteString | .typeName | .metaId | .varId | .remaining | .funSig | .scillaType | .typeArg | .addressType
  | .addressFieldList | .nextAddressField | .addressField | .mapKey | .mapValue | .mapValueArgs | .mapValueAllowing
  | .typedId | .typeAnn | .paramPair | .nextParamPair | .compParams | .componentId | .regularId | .specialId | .customId
  | .templateId | .hexNumber => true
  | .star n | .plus n | .opt n => n.noString
  | _ => false

def Token.isString : Token → Bool
  | .stringLiteral _ => true
  | _ => false

theorem Derives.noString {n : NT} {w : List STok} {v : Val n} (d : Derives n w v) :
    n.noString = true → ∀ t ∈ w, ∀ s, t.tok ≠ .stringLiteral s := by
  have key : n.noString = true → w.all (fun t => !t.tok.isString) = true := by
    induction d <;> simp_all [NT.noString, List.all_append, Token.isString]
  intro hn t ht s e
  have := List.all_eq_true.mp (key hn) t ht
  rw [e] at this
  simp [Token.isString] at this

theorem gen_noString {x : GName} (hx : x.nt.noString = true) {w : List Token} (g : Gen [.non x] w) (t : Token)
    (ht : t ∈ w) : ∀ s, t ≠ .stringLiteral s := by
  obtain ⟨v, d⟩ := gen_derives (bare_lift w) g
  exact d.noString hx ⟨default, t, default⟩ (List.mem_map.2 ⟨t, ht, rfl⟩)

theorem mem_stub (o : Outline) (ho : o.Ok) (t : Token) (ht : t ∈ o.stub.tokens) :
    t ∈ frameTokens ∨ (t ∈ o.tokens ∧ ∀ s, t ≠ .stringLiteral s) := by
  simp only [Outline.tokens, Outline.stub, FieldPart.tokens, ComponentPart.tokens, List.mem_cons, List.mem_append,
    List.mem_flatMap, List.mem_map, List.mem_filter, List.not_mem_nil, or_false, false_or] at ht ⊢
  rcases ht with rfl | rfl | rfl | h | h | ⟨f, ⟨g, hg, rfl⟩, h⟩ | ⟨f, ⟨g, ⟨hg, hi⟩, rfl⟩, h⟩
  · exact .inl (by decide +kernel)
  · exact .inl (by decide +kernel)
  · exact .inl (by decide +kernel)
  · refine .inr ⟨?_, gen_noString (x := .TypeNameIdentifier) rfl ho.name t h⟩
    simp [h]
  · refine .inr ⟨?_, gen_noString (x := .ComponentParameters) rfl ho.params t h⟩
    simp [h]
  · rcases h with rfl | h | rfl | h
    · exact .inl (by decide +kernel)
    · refine .inr ⟨?_, gen_noString (x := .TypedIdentifier) rfl (ho.fields g hg).declared t h⟩
      have : ∃ a ∈ o.fields, t = Token.field ∨ t ∈ a.declared ∨ t = .equals ∨ t ∈ a.initial :=
        ⟨g, hg, .inr (.inl h)⟩
      simp [this]
    · exact .inl (by decide +kernel)
    · obtain rfl := List.mem_singleton.1 h
      exact .inl (by decide +kernel)
  · rcases h with rfl | h | h | h
    · rw [if_pos rfl]
      exact .inl (by decide +kernel)
    · refine .inr ⟨?_, gen_noString (x := .ComponentId) rfl (ho.components g hg).name t h⟩
      have : ∃ a ∈ o.components, t = (if a.isTransition = true then Token.transition else .procedure) ∨ t ∈ a.name ∨
        t ∈ a.params ∨ t ∈ a.body := ⟨g, hg, .inr (.inl h)⟩
      simp only [this, or_true]
    · refine .inr ⟨?_, gen_noString (x := .ComponentParameters) rfl (ho.components g hg).params t h⟩
      have : ∃ a ∈ o.components, t = (if a.isTransition = true then Token.transition else .procedure) ∨ t ∈ a.name ∨
        t ∈ a.params ∨ t ∈ a.body := ⟨g, hg, .inr (.inr (.inl h))⟩
      simp only [this, or_true]
    · obtain rfl := List.mem_singleton.1 h
      exact .inl (by decide +kernel)

/-- C81: the stub can be written down.  For every accepted ASCII document the text of its stub, token by token, is a
document with the same result. -/
theorem C81_stub_text (env : Env) (doc : Str) (ha : Ascii doc) (ts : List STok) (h : lexDoc env.chars doc = some ts)
    (o : Outline) (ho : o.Ok) (e : ts.map (·.tok) = o.tokens) : fromStr env (spaced o.stub.tokens) = fromStr env doc := by
  have hun : ∀ t ∈ ts, t.tok ≠ .unknown := by
    intro t ht hu
    obtain ⟨p, hp⟩ := (C81_accepts ts).2 ⟨o, ho, e.symm⟩
    have := (parseProgram_sound hp).usable t ht
    rw [hu] at this
    simp [neverUsed] at this
  have hpr : ∀ t ∈ o.stub.tokens, Printable t := by
    intro t ht
    rcases mem_stub o ho t ht with hf | ⟨hm, hs⟩
    · exact frameTokens_printable t hf
    · rw [← e] at hm
      obtain ⟨u, hu, rfl⟩ := List.mem_map.1 hm
      exact lexed_printable env.chars doc ha ts h u hu ⟨hun u hu, fun s hs' => absurd hs' (hs s)⟩
  obtain ⟨ts', h1, h2⟩ := C10_lex_rendering env.chars _ _ (spaced_rendering _ hpr)
  exact (C81_stub_document env doc _ ts ts' o ho h h1 e h2).symm

/-! A concrete outline -/

/-- the tokens of the demonstration document from number `i` up to number `j` -/
def demoSlice (i j : Nat) : List Token := ((demoToks.map (·.tok)).drop i).take (j - i)

def demoOutline : Outline where
  version := demoSlice 1 2
  imports := []
  library := demoSlice 2 9
  name := demoSlice 10 11
  params := demoSlice 11 16
  constraint := demoSlice 16 22
  fields := [⟨demoSlice 23 31, demoSlice 32 38⟩]
  components := [⟨false, demoSlice 39 40, demoSlice 40 42, demoSlice 42 44⟩,
    ⟨true, demoSlice 45 46, demoSlice 46 67, demoSlice 67 94⟩]

theorem gen_of_parse {x : GName} {w : List Token} (h : (parseAs x.nt (lift w)).isSome = true) : Gen [.non x] w := by
  have := (C59_parsers x (lift w)).1 (Option.isSome_iff_exists.1 h)
  rwa [show (lift w).map (·.tok) = w from bare_lift w] at this

/-- a program with a library, a constraint, a field, a procedure and a transition has its outline; its stub is a much
shorter document with the same contract -/
theorem C81_witness : demoOutline.Ok ∧ demoToks.map (·.tok) = demoOutline.tokens ∧
    spaced demoOutline.stub.tokens =
      str! "scilla_version 0 contract C ( o : ByStr20 ) field m : Map ByStr20 ( Option Uint128 ) = x transition T ( a : List ( Pair Int32 Bool ) , b : ByStr20 with contract field f : Uint32 end ) end " ∧
    fromStr demoEnv (spaced demoOutline.stub.tokens) = .ok demoContract := by
  have hok : demoOutline.Ok := by
    refine ⟨gen_of_parse (by decide +kernel), .inl rfl, .inr (gen_of_parse (by decide +kernel)),
      gen_of_parse (by decide +kernel), gen_of_parse (by decide +kernel), .inr (gen_of_parse (by decide +kernel)), ?_, ?_⟩
    · intro f hf
      obtain rfl := List.mem_singleton.1 hf
      exact ⟨gen_of_parse (by decide +kernel), gen_of_parse (by decide +kernel)⟩
    · intro c hc
      simp only [demoOutline, List.mem_cons, List.not_mem_nil, or_false] at hc
      rcases hc with rfl | rfl <;>
        exact ⟨gen_of_parse (by decide +kernel), gen_of_parse (by decide +kernel), gen_of_parse (by decide +kernel)⟩
  have htok : demoToks.map (·.tok) = demoOutline.tokens := by decide +kernel
  refine ⟨hok, htok, by decide +kernel, ?_⟩
  rw [C81_stub_text demoEnv demoDoc (show ∀ c ∈ demoDoc, c.toNat < 128 by decide +kernel) demoToks demo_lexes demoOutline hok htok]
  exact demo_fromStr

end Verif
