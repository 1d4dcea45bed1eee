import Verif.Proofs.NodeTypes
import Verif.Proofs.TreeText
import Verif.Proofs.TreeOrder
import Verif.Props.Emitter1
/-
C66–C68: the public types of the syntax tree, their `{:?}` and their order.
-/
namespace Verif

/-- C66: the trees of the model are exactly the values of the types that nodes.rs declares, one for one: what holds for
all trees (visits, emission, positions, …) holds for every value that a user of the library can build. -/
theorem C66_types (t : TName) (r : RV) : HasType r (.named t) ↔ ∃ x : t.El, t.rv x = r :=
  ⟨fun h => h.el, fun ⟨x, h⟩ => h ▸ t.ht x⟩

theorem C66_one (t : TName) (x y : t.El) (h : t.rv x = t.rv y) : x = y := t.rv_inj x y h

/-- the values of the declared type `NodeVariableIdentifier`, written out -/
theorem C66_witness (r : RV) : HasType r (.named .NodeVariableIdentifier) ↔
    (∃ x a b, r = .node (str! "NodeVariableIdentifier::VariableName") []
      [.node (str! "WithMetaData") [str! "node", str! "start", str! "end"] [.str x, .pos a, .pos b]]) ∨
    (∃ x a b, r = .node (str! "NodeVariableIdentifier::SpecialIdentifier") []
      [.node (str! "WithMetaData") [str! "node", str! "start", str! "end"] [.str x, .pos a, .pos b]]) ∨
    (∃ n x a b, HasType n (.located (.named .NodeTypeNameIdentifier)) ∧
      r = .node (str! "NodeVariableIdentifier::VariableInNamespace") []
        [n, .node (str! "WithMetaData") [str! "node", str! "start", str! "end"] [.str x, .pos a, .pos b]]) := by
  rw [C66_types]
  constructor
  · rintro ⟨x, rfl⟩
    cases x with
    | variableName w => exact .inl ⟨_, _, _, rfl⟩
    | specialIdentifier w => exact .inr (.inl ⟨_, _, _, rfl⟩)
    | variableInNamespace n w => exact .inr (.inr ⟨_, _, _, _, RT.ht (.located (.named .NodeTypeNameIdentifier)) n, rfl⟩)
  · rintro (⟨x, a, b, rfl⟩ | ⟨x, a, b, rfl⟩ | ⟨n, x, a, b, hn, rfl⟩)
    · exact ⟨.variableName ⟨x, a, b⟩, rfl⟩
    · exact ⟨.specialIdentifier ⟨x, a, b⟩, rfl⟩
    · obtain ⟨n, rfl⟩ := hn.el
      exact ⟨.variableInNamespace n ⟨x, a, b⟩, rfl⟩

/-- `{:?}` of a tree -/
def TName.debug (esc : Char → Str) (t : TName) (x : t.El) : Str := (t.rv x).debug esc

/-- C67: two values of a type of the syntax tree with the same `{:?}` are equal, including all positions. -/
theorem C67_injective {esc : Char → Str} (hesc : RustEscapes esc) (t : TName) (x y : t.El)
    (h : t.debug esc x = t.debug esc y) : x = y := by
  refine t.rv_inj x y (debug_inj hesc (x := []) (y := []) (t.ht x) (t.ht y) ?_ ?_ (by rw [List.append_nil, List.append_nil]; exact h)).1 <;>
  · intro c h; cases h

/-- C67: `{:?}` is even self-delimiting: no rendering is a proper prefix of another one, up to letters and digits that
follow. -/
theorem C67_prefix {esc : Char → Str} (hesc : RustEscapes esc) (t : TName) (x y : t.El) (a b : Str)
    (ha : Stops a) (hb : Stops b) (h : t.debug esc x ++ a = t.debug esc y ++ b) : x = y ∧ a = b := by
  obtain ⟨h1, h2⟩ := debug_inj hesc (t.ht x) (t.ht y) ha hb h
  exact ⟨t.rv_inj x y h1, h2⟩

/-- C67: so two documents whose trees have the same `{:?}` are treated alike. -/
theorem C67_documents {esc : Char → Str} (hesc : RustEscapes esc) (env : Env) (doc doc' : Str) (toks toks' : List STok)
    (p p' : NodeProgram) (hl : lexDoc env.chars doc = some toks) (hl' : lexDoc env.chars doc' = some toks')
    (hd : Derives .program toks p) (hd' : Derives .program toks' p')
    (h : TName.debug esc .NodeProgram p = TName.debug esc .NodeProgram p') : fromStr env doc = fromStr env doc' := by
  have e : p = p' := C67_injective hesc .NodeProgram p p' h
  subst e
  rw [fromStr_parsed hl (C16_complete _ _ hd), fromStr_parsed hl' (C16_complete _ _ hd')]

theorem C67_witness :
    TName.debug (fun c => [c]) .NodeImportedName (.aliasedImport ⟨.eventType, ⟨1, 2, 3⟩, ⟨4, 5, 6⟩⟩
      ⟨.typeOrEnumLikeIdentifier ⟨str! "A", ⟨0, 0, 0⟩, ⟨1, 0, 1⟩⟩, ⟨0, 0, 0⟩, ⟨1, 0, 1⟩⟩) =
      str! "AliasedImport(WithMetaData { node: EventType, start: SourcePosition { position: 1, line: 2, column: 3 }, end: SourcePosition { position: 4, line: 5, column: 6 } }, WithMetaData { node: TypeOrEnumLikeIdentifier(WithMetaData { node: \"A\", start: SourcePosition { position: 0, line: 0, column: 0 }, end: SourcePosition { position: 1, line: 0, column: 1 } }), start: SourcePosition { position: 0, line: 0, column: 0 }, end: SourcePosition { position: 1, line: 0, column: 1 } })" ∧
    TName.debug (fun c => [c]) .NodeComponentBody ⟨none⟩ = str! "NodeComponentBody { statement_block: None }" ∧
    TName.debug (fun c => [c]) .NodeBuiltinArguments ⟨[]⟩ = str! "NodeBuiltinArguments { arguments: [] }" := by
  decide +kernel

/-- the derived `partial_cmp` of a tree (it is never `None`) -/
def TName.cmp (t : TName) (x y : t.El) : Ordering := (t.rv x).cmp (t.rv y)

/-- C68: the derived comparison of trees is a total order that agrees with `==`: exactly one of `x < y`, `x == y`,
`x > y` holds, `x > y` is `y < x`, and `<` is transitive. -/
theorem C68_order (t : TName) (x y z : t.El) :
    (t.cmp x y = .eq ↔ x = y) ∧ (t.cmp x y = .gt ↔ t.cmp y x = .lt) ∧
    (t.cmp x y = .lt → t.cmp y z = .lt → t.cmp x z = .lt) := by
  refine ⟨⟨fun h => t.rv_inj x y (cmp_eq (t.ht x) (t.ht y) h), fun h => h ▸ cmp_refl _⟩, ?_,
    cmp_trans (t.ht x) (t.ht y) (t.ht z)⟩
  unfold TName.cmp
  rw [← cmp_swap (t.rv x) (t.rv y)]
  cases (t.rv x).cmp (t.rv y) <;> simp

/-- C68: positions are compared by the byte offset first, then line, then column. -/
theorem C68_positions (p q r : Pos) : (p.cmp q = .eq ↔ p = q) ∧ (p.cmp q = .gt ↔ q.cmp p = .lt) ∧
    (p.cmp q = .lt → q.cmp r = .lt → p.cmp r = .lt) ∧ (p.position < q.position → p.cmp q = .lt) := by
  refine ⟨Pos.cmp_eq, ?_, Pos.cmp_trans, fun h => ?_⟩
  · rw [← Pos.cmp_swap p q]
    cases p.cmp q <;> simp
  · simp only [Pos.cmp, then_lt_iff, cmpNat_lt]
    exact .inl (.inl h)

/-- The variant decides before the content, the content before the positions. -/
theorem C68_witness :
    TName.cmp .NodeVariableIdentifier (.variableName ⟨str! "b", ⟨9, 0, 9⟩, ⟨10, 0, 10⟩⟩)
      (.specialIdentifier ⟨str! "_a", ⟨0, 0, 0⟩, ⟨2, 0, 2⟩⟩) = .lt ∧
    TName.cmp .NodeVariableIdentifier (.variableName ⟨str! "b", ⟨0, 0, 0⟩, ⟨1, 0, 1⟩⟩)
      (.variableName ⟨str! "a", ⟨9, 0, 9⟩, ⟨10, 0, 10⟩⟩) = .gt ∧
    TName.cmp .NodeVariableIdentifier (.variableName ⟨str! "a", ⟨0, 0, 0⟩, ⟨1, 0, 1⟩⟩)
      (.variableName ⟨str! "a", ⟨9, 0, 9⟩, ⟨10, 0, 10⟩⟩) = .lt := by
  decide +kernel

end Verif
