import Verif.Proofs.Depth
import Verif.Proofs.PrintDerives
import Verif.Props.Emitter1
/-
C65: how deep the emitter recurses.
-/
namespace Verif

/-- C65: how deeply the visits are nested depends only on the nesting of the types that the interface mentions.  If the
types of the parameters, fields and transition parameters have at most `h` levels, then `2 * h + 8` nested visits are
enough, however many parameters, fields, transitions, procedures, statements and expressions there are and however
deep the latter two are nested. -/
theorem C65_depth (dbg : StackObj → Str) (p : NodeProgram) (h k : Nat)
    (hw : ∀ n ∈ interfaceTyped p, Within h (.scillaType n.annotation.node.typeName.node))
    (hk : 2 * h + 8 ≤ k) : emitWithin dbg k p = emitProgram dbg p := by
  rw [C24_fuel_irrelevant dbg p k (Nat.le_trans (emitFuel_le p h hw) hk)]
  unfold emitWithin
  cases visitContractDefW (srEmitter dbg k) p.contractDefinition SrState.init with
  | mk s r => cases r <;> rfl

/-- `n` opening parentheses, the type `Int32`, `n` closing ones -/
def deepType : Nat → List Token
  | 0 => [.customIdentifier (str! "Int32")]
  | n + 1 => .openParen :: deepType n ++ [.closeParen]

/-- `scilla_version 0 contract C ( ) field f : ((…Int32…)) = x` -/
def deepToks (n : Nat) : List Token :=
  [.scillaVersion, .number (str! "0"), .contract, .customIdentifier (str! "C"), .openParen, .closeParen, .field,
    .identifier (str! "f"), .colon] ++ deepType n ++ [.equals, .identifier (str! "x")]

/-- The type is written in so many parentheses. -/
inductive Enclosed : Nat → W NodeScillaType → Prop where
  | zero (v) : Enclosed 0 v
  | succ {n v} (s e : Pos) (h : Enclosed n v) : Enclosed (n + 1) ⟨.enclosedType v, s, e⟩

theorem enclosed_panic (dbg : StackObj → Str) {n : Nat} {v : W NodeScillaType} (h : Enclosed n v) :
    ∀ k, k ≤ n → visitScillaTypeW (srEmitter dbg k) v = M.panic := by
  induction h with
  | zero v =>
    intro k hk
    obtain rfl : k = 0 := by omega
    obtain ⟨n, s, e⟩ := v
    rw [visitScillaTypeW, withPos_sr]
    cases n <;> rw [visitScillaType] <;> exact visitNode_panic rfl
  | succ s e _ ih =>
    intro k hk
    rw [visitScillaTypeW, withPos_sr, visitScillaType]
    cases k with
    | zero => exact visitNode_panic rfl
    | succ k =>
      refine visitNode_panic ?_
      rw [srEmitter_emit, emitSr, ih k (by omega)]
      rfl

theorem deep_derives (n : Nat) : ∃ v, Derives .remaining (lift (deepType n)) v ∧ Enclosed n v ∧
    Within (n + 3) (.scillaType v.node) ∧ readTypeW v = .clean [] (some .int32) := by
  induction n with
  | zero =>
    refine ⟨_, .remGeneric (w1 := lift [.customIdentifier (str! "Int32")]) (List.append_nil _).symm
      (.metaName (.typeNameCustom (.customId rfl))) .starNil, .zero _, ?_, by rfl⟩
    refine .mk fun how pos c hc => ?_
    simp only [mkW, kids, kidsL, kid, List.map_nil, List.mem_singleton, Kid.child.injEq] at hc
    obtain ⟨-, -, rfl⟩ := hc
    refine .mk fun how pos c hc => ?_
    simp only [kids, kid, List.mem_singleton, Kid.child.injEq] at hc
    obtain ⟨-, -, rfl⟩ := hc
    refine .mk fun how pos c hc => ?_
    simp [kids] at hc
  | succ n ih =>
    obtain ⟨v, hv, he, hw, e⟩ := ih
    refine ⟨_, .remParen (by simp [deepType]; repeat' constructor) (.typeRem hv), .succ _ _ he, ?_, by
      simp only [readTypeW, mkW, readType, e]⟩
    refine .mk fun how pos c hc => ?_
    simp only [mkW, kids, kid, List.mem_singleton, Kid.child.injEq] at hc
    obtain ⟨-, -, rfl⟩ := hc
    exact hw

theorem typed_panic (dbg : StackObj → Str) {n : Nat} (t : W NodeTypedIdentifier)
    (h : Enclosed n t.node.annotation.node.typeName) (k : Nat) (hk : k ≤ n) :
    visitTypedIdW (srEmitter dbg k) t = M.panic := by
  rw [visitTypedIdW, withPos_sr, visitTypedId]
  refine visitNode_panic ?_
  cases k with
  | zero => rfl
  | succ k =>
    have : visitTypeAnnW (srEmitter dbg k) t.node.annotation = M.panic := by
      rw [visitTypeAnnW, withPos_sr, visitTypeAnn, enclosed_panic dbg h k (by omega)]
      cases k with
      | zero => exact visitNode_panic rfl
      | succ k => rfl
    rw [srEmitter_emit, emitSr, this]
    rfl

theorem field_panic (dbg : StackObj → Str) {n : Nat} (f : W NodeContractField)
    (h : Enclosed n f.node.typedIdentifier.node.annotation.node.typeName) (k : Nat) (hk : k ≤ n) :
    visitContractFieldW (srEmitter dbg k) f = M.panic := by
  rw [visitContractFieldW, withPos_sr, visitContractField]
  refine visitNode_panic ?_
  cases k with
  | zero => rfl
  | succ k =>
    rw [srEmitter_emit, emitSr, typed_panic dbg _ h k (by omega)]
    rfl

theorem noParams (dbg : StackObj → Str) (k : Nat) (w : W NodeComponentParameters) (hp : w.node.parameters = []) :
    visitCompParamsW (srEmitter dbg (k + 1)) w = M.cont := by
  obtain ⟨⟨l⟩, s, e⟩ := w
  subst hp
  rw [visitCompParamsW, withPos_sr]
  rfl

theorem contract_panic (dbg : StackObj → Str) {n : Nat} (p : NodeProgram) (f : W NodeContractField)
    (hf : p.contractDefinition.node.fields = [f]) (hp : p.contractDefinition.node.parameters.node.parameters = [])
    (hc : p.contractDefinition.node.constraint = none)
    (h : Enclosed n f.node.typedIdentifier.node.annotation.node.typeName) (k : Nat) (hk : k ≤ n) :
    emitWithin dbg k p = .panic := by
  have : ∃ s, visitContractDefW (srEmitter dbg k) p.contractDefinition SrState.init = (s, .panic) := by
    rw [visitContractDefW, withPos_sr, visitContractDef]
    cases k with
    | zero => exact ⟨_, rfl⟩
    | succ k =>
      cases k with
      | zero => exact ⟨_, rfl⟩
      | succ k =>
        simp only [visitNode, srEmitter_emit, emitSr, visitTypeNameIdW_ev dbg _ (Nat.le_add_left 1 k), hf, hc,
          noParams dbg _ _ hp, visitList, field_panic dbg f h _ (show k + 1 ≤ n by omega), visitOpt]
        cases p.contractDefinition.node.contractName.node <;> exact ⟨_, rfl⟩
  obtain ⟨s, hs⟩ := this
  simp only [emitWithin, hs]

/-- C65, the other half: the nesting of types is really paid for.  For every `n` there is a program, with one field whose
type is in `n` parentheses (so that `C65_depth` applies with `h = n + 3`), whose interface is found when `2 * n + 14`
visits may be nested but which dies when only `n` may be. -/
theorem C65_deep (dbg : StackObj → Str) (n : Nat) : ∃ p, Derives .program (lift (deepToks n)) p ∧
    emitProgram dbg p = .ok ⟨str! "C", [], [⟨str! "f", .int32⟩], []⟩ ∧
    (∀ m ∈ interfaceTyped p, Within (n + 3) (.scillaType m.annotation.node.typeName.node)) ∧
    (∀ k, 2 * n + 14 ≤ k → emitWithin dbg k p = .ok ⟨str! "C", [], [⟨str! "f", .int32⟩], []⟩) ∧
    ∀ k, k ≤ n → emitWithin dbg k p = .panic := by
  obtain ⟨v, hv, he, hw, e⟩ := deep_derives n
  have hx : ∃ x, Derives .fullExpr (lift [.identifier (str! "x")]) x := ⟨_, .exprAtomic (.atomicVar (.varName (.regularId rfl)))⟩
  obtain ⟨x, hx⟩ := hx
  refine ⟨_, .program (w1 := lift [.number (str! "0")]) (w2 := []) (w3 := [])
      (w4 := lift ([.contract, .customIdentifier (str! "C"), .openParen, .closeParen, .field,
        .identifier (str! "f"), .colon] ++ deepType n ++ [.equals, .identifier (str! "x")]))
      (by simp [deepToks]; repeat' constructor) (.signedInt rfl) .optNone .optNone
      (.contractDef (w1 := lift [.customIdentifier (str! "C")]) (w2 := lift [.openParen, .closeParen]) (w3 := [])
        (w4 := lift ([.field, .identifier (str! "f"), .colon] ++ deepType n ++ [.equals, .identifier (str! "x")]) ++ [])
        (w5 := []) (by simp; repeat' constructor)
        (.typeNameCustom (.customId rfl)) (.compParams (w1 := []) (w2 := []) (by simp; repeat' constructor) .optNone .starNil) .optNone
        (.starCons (.contractField (w1 := lift ([.identifier (str! "f"), .colon] ++ deepType n))
          (by simp; repeat' constructor) (.typedId (w1 := lift [.identifier (str! "f")])
          (w2 := lift (.colon :: deepType n)) (by simp) (.regularId rfl) 
          (.typeAnn (by simp; repeat' constructor) (.typeRem hv))) hx) .starNil) .starNil), ?_⟩
  generalize hp : NodeProgram.mk _ _ _ _ = p
  have h1 : emitProgram dbg p = .ok ⟨str! "C", [], [⟨str! "f", .int32⟩], []⟩ := by
    subst hp
    refine C24_tree _ _ _ ?_
    simp [interfaceOf, mkW, e, typedOf, fieldTypedOf, transitionsOf, allSome, readTyped, NodeTypeNameIdentifier.display]
  have h2 : ∀ m ∈ interfaceTyped p, Within (n + 3) (.scillaType m.annotation.node.typeName.node) := by
    subst hp
    simpa [interfaceTyped, mkW, typedOf, fieldTypedOf, transitionsOf] using hw
  refine ⟨h1, h2, fun k hk => ?_, ?_⟩
  · rw [C65_depth dbg p (n + 3) k h2 (by omega), h1]
  · subst hp
    exact contract_panic dbg _ _ rfl rfl rfl he

end Verif
