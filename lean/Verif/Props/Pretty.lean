import Verif.Proofs.Pretty
import Verif.Props.Trees
import Verif.Props.DebugText
/-
C79: `{:#?}` and `dbg!`.
-/
namespace Verif

/-- `{:#?}` of a tree -/
def TName.pretty (esc : Char → Str) (t : TName) (x : t.El) : Str := (t.rv x).pretty esc

/-- `{:#?}` of a type -/
def Ty.pretty (esc : Char → Str) (t : Ty) : Str := t.rv.pretty esc

/-- `{:#?}` of a contract -/
def Contract.pretty (esc : Char → Str) (c : Contract) : Str := c.rv.pretty esc

/-! ### The values of the crate have proper names -/

theorem fields_plain : ∀ t ∈ TName.all, ∀ c ∈ t.variants, ∀ f ∈ c.fields, f ≠ [] ∧ ∀ x ∈ f, x.isAlphanum = true ∨ x = '_' := by
  decide +kernel

theorem HasTypes.length {vs : List RV} {ts : List RT} (h : HasTypes vs ts) : vs.length = ts.length := by
  induction vs generalizing ts with
  | nil => cases h; rfl
  | cons v vs ih => cases h with
    | cons h1 h2 => simp [ih h2]

theorem HasType.nice {v : RV} {t : RT} (h : HasType v t) : Nice v := by
  induction h using HasType.rec (motive_2 := fun l _ _ => NiceAll l) (motive_3 := fun l _ _ => NiceAll l) with
  | string s => exact .str s
  | located s e h ih =>
    refine .node ?_ (.inr ⟨rfl, ?_⟩) (.niceCons ih (.niceCons (.pos s) (.niceCons (.pos e) .niceNil)))
    all_goals simp [PlainName, shortName]
  | vec h ih => exact .vec ih
  | none t => exact .node (by simp [PlainName, shortName]) (.inl rfl) .niceNil
  | some h ih => exact .node (by simp [PlainName, shortName]) (.inl rfl) (.niceCons ih .niceNil)
  | node hc h ih =>
    rename_i t c vs
    have h1 := (variants_ok t t.mem_all).2 c hc
    refine .node ⟨h1.1.2, fun x hx => .inl (h1.1.1 x hx)⟩ ?_ ih
    rcases h1.2 with e | e
    · exact .inl e
    · exact .inr ⟨by rw [h.length, e.1], fun f hf => fields_plain t t.mem_all c hc f hf⟩
  | nil => exact .niceNil
  | cons h hs ih1 ih2 => exact .niceCons ih1 ih2
  | empty => exact .niceNil
  | more h hs ih1 ih2 => exact .niceCons ih1 ih2

macro "plainName" : tactic => `(tactic| (simp [PlainName, shortName]))

mutual
theorem Ty.nice : (t : Ty) → Nice t.rv
  | .int32 | .int64 | .int128 | .int256 | .uint32 | .uint64 | .uint128 | .uint256 | .string | .bNum | .bool | .byStr | .byStr20 => by
    rw [Ty.rv]; exact .node (by plainName) (.inl rfl) .niceNil
  | .map k v => by rw [Ty.rv]; exact .node (by plainName) (.inl rfl) (.niceCons k.nice (.niceCons v.nice .niceNil))
  | .option t => by rw [Ty.rv]; exact .node (by plainName) (.inl rfl) (.niceCons t.nice .niceNil)
  | .list t => by rw [Ty.rv]; exact .node (by plainName) (.inl rfl) (.niceCons t.nice .niceNil)
  | .pair k v => by rw [Ty.rv]; exact .node (by plainName) (.inl rfl) (.niceCons k.nice (.niceCons v.nice .niceNil))
  | .byStrX n => by
    rw [Ty.rv]
    exact .node (by plainName) (.inl rfl) (.niceCons (.node (digits_plain n) (.inl rfl) .niceNil) .niceNil)
  | .byStr20With n fs => by
    rw [Ty.rv]
    exact .node (by plainName) (.inr ⟨rfl, by plainName⟩) (.niceCons (.str n) (.niceCons
      (.node (by plainName) (.inl rfl) (.niceCons (.vec (fields_nice fs)) .niceNil)) .niceNil))
  | .other s => by rw [Ty.rv]; exact .node (by plainName) (.inl rfl) (.niceCons (.str s) .niceNil)
theorem fields_nice : (fs : List Field) → NiceAll (fieldsRv fs)
  | [] => by rw [fieldsRv]; exact .niceNil
  | ⟨n, t⟩ :: fs => by
    rw [fieldsRv]
    exact .niceCons (.node (by plainName) (.inr ⟨rfl, by plainName⟩) (.niceCons (.str n) (.niceCons t.nice .niceNil))) (fields_nice fs)
end

theorem fieldList_nice (fs : List Field) : Nice (fieldListRv fs) :=
  .node (by plainName) (.inl rfl) (.niceCons (.vec (fields_nice fs)) .niceNil)

theorem transitions_nice : (ts : List Transition) → NiceAll (ts.map Transition.rv)
  | [] => .niceNil
  | t :: ts => .niceCons (.node (by plainName) (.inr ⟨rfl, by plainName⟩) (.niceCons (.str _) (.niceCons (fieldList_nice _) .niceNil)))
      (transitions_nice ts)

theorem Contract.nice (c : Contract) : Nice c.rv :=
  .node (by plainName) (.inr ⟨rfl, by plainName⟩) (.niceCons (.str _) (.niceCons (fieldList_nice _) (.niceCons (fieldList_nice _)
    (.niceCons (.node (by plainName) (.inl rfl) (.niceCons (.vec (transitions_nice _)) .niceNil)) .niceNil))))

/-! ### `{:?}` of the results is that of the corresponding values -/

section
variable (esc : Char → Str)

def itemsText : List RV → Str
  | [] => []
  | v :: l => v.debug esc ++ RV.debugMore esc l

mutual
theorem Ty.rv_debug : (t : Ty) → t.rv.debug esc = t.debug esc
  | .int32 | .int64 | .int128 | .int256 | .uint32 | .uint64 | .uint128 | .uint256 | .string | .bNum | .bool | .byStr | .byStr20 => by
    rw [Ty.rv, RV.debug, Ty.debug]; rfl
  | .map k v => by simp [Ty.rv, RV.debug, RV.debugMore, Ty.debug, k.rv_debug, v.rv_debug, shortName]
  | .option t => by simp [Ty.rv, RV.debug, RV.debugMore, Ty.debug, t.rv_debug, shortName]
  | .list t => by simp [Ty.rv, RV.debug, RV.debugMore, Ty.debug, t.rv_debug, shortName]
  | .pair k v => by simp [Ty.rv, RV.debug, RV.debugMore, Ty.debug, k.rv_debug, v.rv_debug, shortName]
  | .byStrX n => by
    have : shortName (str! "ByStrX") = str! "ByStrX" := rfl
    simp [Ty.rv, RV.debug, RV.debugMore, Ty.debug, shortName_digits, this]
  | .byStr20With n fs => by
    have h1 := fields_rv_debug fs
    cases fs with
    | nil => simp [Ty.rv, fieldsRv, RV.debug, RV.debugMore, RV.debugFieldsMore, Ty.debug, debugFields, shortName]
    | cons f fs =>
      obtain ⟨x, t⟩ := f
      simp only [fieldsRv, itemsText] at h1
      have this := h1
      simp [Ty.rv, fieldsRv, RV.debug, RV.debugMore, RV.debugFieldsMore, Ty.debug, ← this, shortName]
  | .other s => by simp [Ty.rv, RV.debug, RV.debugMore, Ty.debug, shortName]
theorem fields_rv_debug : (fs : List Field) → itemsText esc (fieldsRv fs) = debugFields esc fs
  | [] => by simp [fieldsRv, itemsText, debugFields]
  | ⟨n, t⟩ :: fs => by
    have h1 := fields_rv_debug fs
    cases fs with
    | nil => simp [fieldsRv, itemsText, RV.debug, RV.debugMore, RV.debugFieldsMore, debugFields, t.rv_debug, shortName]
    | cons g fs =>
      obtain ⟨x, u⟩ := g
      simp only [fieldsRv, itemsText] at h1
      simp [fieldsRv, itemsText, RV.debug, RV.debugMore, RV.debugFieldsMore, debugFields, t.rv_debug, ← h1, shortName]
end

theorem fieldList_rv_debug (fs : List Field) : (fieldListRv fs).debug esc = debugFieldList esc fs := by
  cases fs with
  | nil => rfl
  | cons f fs =>
    have := fields_rv_debug esc (f :: fs)
    obtain ⟨x, t⟩ := f
    simp only [fieldsRv, itemsText] at this
    simp [fieldListRv, debugFieldList, ← this, fieldsRv, RV.debug, RV.debugMore, RV.debugFieldsMore, shortName]

theorem transitions_rv_debug : (t : Transition) → (ts : List Transition) →
    t.rv.debug esc ++ RV.debugMore esc (ts.map Transition.rv) = debugTransitions esc (t :: ts)
  | t, [] => by
    simp [Transition.rv, RV.debug, RV.debugMore, RV.debugFieldsMore, debugTransitions, fieldList_rv_debug, shortName]
  | t, u :: ts => by
    have := transitions_rv_debug u ts
    rw [debugTransitions, ← this]
    simp [Transition.rv, RV.debug, RV.debugMore, RV.debugFieldsMore, fieldList_rv_debug, shortName]

theorem Contract.rv_debug (c : Contract) : c.rv.debug esc = c.debug esc := by
  obtain ⟨n, ps, fs, ts⟩ := c
  cases ts with
  | nil =>
    simp [Contract.rv, RV.debug, RV.debugMore, RV.debugFieldsMore, Contract.debug, debugTransitions, fieldList_rv_debug, shortName]
  | cons t ts =>
    have := transitions_rv_debug esc t ts
    simp [Contract.rv, RV.debug, RV.debugMore, RV.debugFieldsMore, Contract.debug, ← this, fieldList_rv_debug, shortName]
end

/-! ### C79 -/

theorem Nice.oneLine {esc : Char → Str} (hesc : RustEscapes esc) {v : RV} (h : Nice v) : oneLine (v.pretty esc) = v.debug esc := by
  have := (h.flat hesc).flat 0 []
  rw [inside_zero, List.append_nil] at this
  rw [Verif.oneLine, this]
  simp [oneLineAt]

section
variable {esc : Char → Str} (hesc : RustEscapes esc)
include hesc

/-- C79: the `{:#?}` of a syntax tree, put on one line, is its `{:?}` … -/
theorem C79_tree (t : TName) (x : t.El) : oneLine (t.pretty esc x) = t.debug esc x := (t.ht x).nice.oneLine hesc

/-- … and so for types and contracts. -/
theorem C79_type (t : Ty) : oneLine (t.pretty esc) = t.debug esc := by
  rw [← Ty.rv_debug]; exact t.nice.oneLine hesc

theorem C79_contract (c : Contract) : oneLine (c.pretty esc) = c.debug esc := by
  rw [← Contract.rv_debug]; exact c.nice.oneLine hesc

/-- C79: hence two trees with the same `{:#?}` are equal, including all positions … -/
theorem C79_tree_injective (t : TName) (x y : t.El) (h : t.pretty esc x = t.pretty esc y) : x = y :=
  C67_injective hesc t x y (by rw [← C79_tree hesc, h, C79_tree hesc])

/-- … and so are two types and two contracts. -/
theorem C79_injective : (∀ t u : Ty, t.pretty esc = u.pretty esc → t = u) ∧
    ∀ c d : Contract, c.pretty esc = d.pretty esc → c = d :=
  ⟨fun t u h => C54_type hesc t u (by rw [← C79_type hesc, h, C79_type hesc]),
   fun c d h => C54_contract hesc c d (by rw [← C79_contract hesc, h, C79_contract hesc])⟩

end

/-- Strings that look like the layout are no problem. -/
theorem C79_witness :
    Contract.pretty (fun c => [c]) ⟨str! "C", [⟨str! "x", .map .uint32 (.byStrX 7)⟩], [⟨str! "a(\n", .bool⟩], [⟨str! "T", []⟩]⟩ =
      str! "Contract {\n    name: \"C\",\n    init_params: FieldList(\n        [\n            Field {\n                name: \"x\",\n                type: Map(\n                    Uint32,\n                    ByStrX(\n                        7,\n                    ),\n                ),\n            },\n        ],\n    ),\n    fields: FieldList(\n        [\n            Field {\n                name: \"a(\\n\",\n                type: Bool,\n            },\n        ],\n    ),\n    transitions: TransitionList(\n        [\n            Transition {\n                name: \"T\",\n                params: FieldList(\n                    [],\n                ),\n            },\n        ],\n    ),\n}" ∧
    TName.pretty (fun c => [c]) .NodeVariableIdentifier (.variableName ⟨str! "b", ⟨9, 0, 9⟩, ⟨10, 0, 10⟩⟩) =
      str! "VariableName(\n    WithMetaData {\n        node: \"b\",\n        start: SourcePosition {\n            position: 9,\n            line: 0,\n            column: 9,\n        },\n        end: SourcePosition {\n            position: 10,\n            line: 0,\n            column: 10,\n        },\n    },\n)" := by
  decide +kernel

end Verif
