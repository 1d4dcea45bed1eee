import Verif.Proofs.EmitContract
import Verif.Proofs.EmitEvent
import Verif.Proofs.TyDec
import Verif.Props.Parser1
/-
From documents to contracts: C23 (tree level), C24, C25, C27, C28, C29, C39, C41.
The specification of what a program declares is Verif/Spec/Interface.lean.
-/
namespace Verif

/-- The demonstration environment: no non-ASCII letters, empty error texts. -/
def demoEnv : Env := ⟨demoU, fun _ => [], fun _ => []⟩

/-- what the accepted document `doc` parses to -/
def demoProgram (doc : Str) : Option NodeProgram := (lexDoc demoU doc).bind parseProgram

theorem fromStr_parsed {env : Env} {doc : Str} {toks : List STok} {p : NodeProgram}
    (hl : lexDoc env.chars doc = some toks) (hp : parseProgram toks = some p) :
    fromStr env doc = match (generalizing := false) emitProgram env.dbg p with
      | .ok c => .ok c
      | .err e => .err (.parseError e)
      | .panic => .panic := by
  simp only [fromStr, hl, hp]
  cases emitProgram env.dbg p <;> rfl

theorem fromStr_ok_iff {env : Env} {doc : Str} {c : Contract} :
    fromStr env doc = .ok c ↔ ∃ toks p, lexDoc env.chars doc = some toks ∧
      parseProgram toks = some p ∧ emitProgram env.dbg p = .ok c := by
  constructor
  · intro h
    unfold fromStr at h
    split at h
    · split at h <;> simp at h
    · rename_i toks hl
      split at h
      · simp at h
      · rename_i p hp
        split at h
        · rename_i c' he
          simp at h; subst h
          exact ⟨toks, p, hl, hp, he⟩
        · simp at h
        · simp at h
  · rintro ⟨toks, p, hl, hp, he⟩
    rw [fromStr_parsed hl hp, he]

/-! ## C24 — exactness on the supported fragment -/

/-- C24 on trees: if every type of the interface is one the tool understands, emission succeeds and
yields exactly the declared interface. -/
theorem C24_tree (dbg : StackObj → Str) (p : NodeProgram) (c : Contract)
    (h : interfaceOf p = some c) : emitProgram dbg p = .ok c := emitProgram_clean dbg h

/-- C24 on trees, complete: what the tool makes of a program is decided by the specification `readProgram`,
which also says which programs panic and which are errors.  Left open are only programs in whose interface
the first type without a meaning is a `misread` one (see `C28_event_…`); what becomes of these is `C64_tree`. -/
theorem C24_verdict (dbg : StackObj → Str) (p : NodeProgram) :
    match (generalizing := false) readProgram p with
    | .ok c => emitProgram dbg p = .ok c
    | .error .panics => emitProgram dbg p = .panic
    | .error .fails => ∃ e, emitProgram dbg p = .err e
    | .error .misread => True := emitProgram_read dbg p

/-- the supported fragment is part of what `readProgram` reads -/
theorem C24_fragment (p : NodeProgram) (c : Contract) (h : interfaceOf p = some c) :
    readProgram p = .ok c := readProgram_strict h

/-- C24 on documents, complete. -/
theorem C24_document (env : Env) (doc : Str) (toks : List STok) (p : NodeProgram)
    (hl : lexDoc env.chars doc = some toks) (hd : Derives .program toks p) :
    match (generalizing := false) readProgram p with
    | .ok c => fromStr env doc = .ok c
    | .error .panics => fromStr env doc = .panic
    | .error .fails => ∃ e, fromStr env doc = .err (.parseError e)
    | .error .misread => True := by
  have h := emitProgram_read env.dbg p
  rw [fromStr_parsed hl (C16_complete _ _ hd)]
  revert h
  cases readProgram p with
  | ok c => intro h; simp only at h ⊢; rw [h]
  | error w =>
    cases w with
    | panics => intro h; simp only at h ⊢; rw [h]
    | fails => rintro ⟨e, h⟩; exact ⟨e, by rw [h]⟩
    | misread => exact fun _ => trivial

/-- C24 on documents: for every document that the grammar derives, as a program with an interface
in the supported fragment, `from_str` returns exactly that interface. -/
theorem C24_exact (env : Env) (doc : Str) (toks : List STok) (p : NodeProgram) (c : Contract)
    (hl : lexDoc env.chars doc = some toks) (hd : Derives .program toks p)
    (hi : interfaceOf p = some c) : fromStr env doc = .ok c := by
  rw [fromStr_parsed hl (C16_complete _ _ hd), C24_tree _ _ _ hi]

/-- The number of visitor steps allowed does not matter (the model's recursion counter is not an
observable bound). -/
theorem C24_fuel_irrelevant (dbg : StackObj → Str) (p : NodeProgram) (k : Nat)
    (hk : emitFuel p.contractDefinition.node ≤ k) :
    emitProgram dbg p = match (generalizing := false)
        visitContractDefW (srEmitter dbg k) p.contractDefinition SrState.init with
      | (s, .ok _) => .ok s.contract
      | (_, .err e) => .err e
      | (_, .panic) => .panic := by
  rw [emitProgram_fuel dbg p k hk, emitProgram]
  cases visitContractDefW (srEmitter dbg (emitFuel p.contractDefinition.node))
    p.contractDefinition SrState.init with
  | mk s r => cases r <;> rfl

/-- the demonstration contract -/
def demoContract : Contract :=
  ⟨str! "C", [.mk (str! "o") .byStr20],
    [.mk (str! "m") (.map .byStr20 (.option .uint128))],
    [⟨str! "T", [.mk (str! "a") (.list (.pair .int32 .bool)),
      .mk (str! "b") (.byStr20With (str! "contract") [.mk (str! "f") .uint32])]⟩]⟩

theorem demo_interface : (demoProgram demoDoc).bind interfaceOf = some demoContract := by
  decide +kernel

theorem demo_fromStr : fromStr demoEnv demoDoc = .ok demoContract := by decide +kernel

/-! ## C29 and C23 — names and counts, for every successful emission -/

/-- C23/C29 on trees: whatever the types are, the names, their number and their order are those of
the program. -/
theorem C29_names (dbg : StackObj → Str) (p : NodeProgram) (c : Contract)
    (h : emitProgram dbg p = .ok c) :
    c.name = p.contractDefinition.node.contractName.node.display ∧
    c.initParams.map Field.name = (typedOf p.contractDefinition.node.parameters.node.parameters).map
      (fun p => p.identifierName.node) ∧
    c.fields.map Field.name = (fieldTypedOf p.contractDefinition.node.fields).map
      (fun p => p.identifierName.node) ∧
    c.transitions.map (fun r => (r.name, r.params.map Field.name)) =
      (transitionsOf p.contractDefinition.node.components).map (fun t =>
        (componentName t.name.node,
          (typedOf t.parameters.node.parameters).map fun p => p.identifierName.node)) :=
  emitProgram_ok dbg h

/-- the counts -/
theorem C29_counts (dbg : StackObj → Str) (p : NodeProgram) (c : Contract)
    (h : emitProgram dbg p = .ok c) :
    c.initParams.length = p.contractDefinition.node.parameters.node.parameters.length ∧
    c.fields.length = p.contractDefinition.node.fields.length ∧
    c.transitions.length = (transitionsOf p.contractDefinition.node.components).length := by
  obtain ⟨_, h2, h3, h4⟩ := C29_names dbg p c h
  have e2 := congrArg List.length h2
  have e3 := congrArg List.length h3
  have e4 := congrArg List.length h4
  simp only [List.length_map, typedOf, fieldTypedOf] at e2 e3 e4
  exact ⟨e2, e3, e4⟩

/-! ## C25 — only the interface matters -/

/-- Two programs declare the same interface syntax: same contract name, same parameters, same field
declarations (without the initialisers), same transitions up to their bodies, in the same order.
Nothing is required of versions, imports, libraries, constraints, initialisers, bodies and
procedures. -/
def SameInterface (p q : NodeProgram) : Prop :=
  p.contractDefinition.node.contractName.node = q.contractDefinition.node.contractName.node ∧
  typedOf p.contractDefinition.node.parameters.node.parameters =
    typedOf q.contractDefinition.node.parameters.node.parameters ∧
  fieldTypedOf p.contractDefinition.node.fields = fieldTypedOf q.contractDefinition.node.fields ∧
  (transitionsOf p.contractDefinition.node.components).map
      (fun t => (componentName t.name.node, typedOf t.parameters.node.parameters)) =
    (transitionsOf q.contractDefinition.node.components).map
      (fun t => (componentName t.name.node, typedOf t.parameters.node.parameters))

theorem evTranssT_congr (dbg : StackObj → Str) : ∀ ts ts' : List NodeTransitionDefinition,
    ts.map (fun t => (componentName t.name.node, typedOf t.parameters.node.parameters)) =
      ts'.map (fun t => (componentName t.name.node, typedOf t.parameters.node.parameters)) →
    evTranssT dbg ts = evTranssT dbg ts'
  | [], [], _ => rfl
  | [], _ :: _, h => by simp at h
  | _ :: _, [], h => by simp at h
  | t :: ts, t' :: ts', h => by
    simp only [List.map_cons, List.cons.injEq, Prod.mk.injEq] at h
    rw [evTranssT, evTranssT, h.1.1, h.1.2, evTranssT_congr dbg ts ts' h.2]

/-- C25: emission (success, failure or panic, and the contract) depends on nothing else. -/
theorem C25_only_interface (dbg : StackObj → Str) (p q : NodeProgram) (h : SameInterface p q) :
    emitProgram dbg p = emitProgram dbg q := by
  obtain ⟨h1, h2, h3, h4⟩ := h
  rw [emitProgram_ev, emitProgram_ev, evContract_T, evContract_T, h1, h2, h3]
  simp only [evIface, evTranssT_congr dbg _ _ h4]

/-- In particular: replacing the version, imports, library, constraint, adding or removing
procedures anywhere. -/
theorem C25_replace (dbg : StackObj → Str) (v v' : W Str) (i i' : Option (W NodeImportDeclarations))
    (l l' : Option (W NodeLibraryDefinition)) (k k' : Option (W NodeWithConstraint))
    (n : W NodeTypeNameIdentifier) (ps : W NodeComponentParameters) (fs : List (W NodeContractField))
    (cs cs' : List (W NodeComponentDefinition)) (a b : Pos)
    (h : transitionsOf cs = transitionsOf cs') :
    emitProgram dbg ⟨v, i, l, ⟨⟨n, ps, k, fs, cs⟩, a, b⟩⟩ =
      emitProgram dbg ⟨v', i', l', ⟨⟨n, ps, k', fs, cs'⟩, a, b⟩⟩ :=
  C25_only_interface dbg _ _ ⟨rfl, rfl, rfl, by rw [h]⟩

/-- a document with another version, library, constraint, initialiser, procedure and transition
body, and the same interface (up to positions) -/
def demoDoc2 : Str :=
  str! "scilla_version 1 import A contract C (o : ByStr20) field m : Map ByStr20 (Option Uint128) = z transition T(a : List (Pair Int32 Bool), b : ByStr20 with contract field f : Uint32 end) end procedure Q(x : Foo) end"

theorem demo2_fromStr : fromStr demoEnv demoDoc2 = .ok demoContract := by decide +kernel

/-- the hypothesis of `C25_only_interface` with distinct programs: a procedure is dropped and the
library removed -/
example : ∃ p q, demoProgram demoDoc = some p ∧ SameInterface p q ∧
    p.contractDefinition.node.components.length ≠ q.contractDefinition.node.components.length := by
  have h : (demoProgram demoDoc).any (fun p =>
      match p.contractDefinition.node.components with
      | ⟨.procedureComponent _, _, _⟩ :: _ => true
      | _ => false) = true := by decide +kernel
  cases hp : demoProgram demoDoc with
  | none => rw [hp] at h; simp at h
  | some p =>
    rw [hp] at h
    obtain ⟨v, i, l, ⟨⟨n, ps, k, fs, cs⟩, a, b⟩⟩ := p
    simp only [Option.any_some] at h
    split at h
    · rename_i x1 d x y rest
      exact ⟨_, ⟨v, i, none, ⟨⟨n, ps, none, fs, rest⟩, a, b⟩⟩, rfl, ⟨rfl, rfl, rfl, rfl⟩,
        by simp⟩
    · simp at h

/-! ## C27 — unsupported interface types panic -/

/-- C27 on trees: if the first typed identifier of the interface that is not understood contains an
unsupported form (`.bad .panics`) or lacks type arguments (`.clean _ none`), emission panics. -/
theorem C27_tree (dbg : StackObj → Str) (p : NodeProgram) (pre post : List NodeTypedIdentifier)
    (n : NodeTypedIdentifier) (h : interfaceTyped p = pre ++ n :: post)
    (hp : ∀ x ∈ pre, (readTyped x).isSome)
    (hn : readTypeW n.annotation.node.typeName = .bad .panics ∨
      ∃ l, readTypeW n.annotation.node.typeName = .clean l none) :
    emitProgram dbg p = .panic := by
  have hw : problemOf n = some .panics := by
    rcases hn with h | ⟨l, h⟩ <;> simp only [problemOf, h]
  have := emitProgram_read dbg p
  rw [readProgram_first h hp hw] at this
  exact this

/-- a function type, a polymorphic type or a type variable, possibly in parentheses -/
inductive FunctionLike : NodeScillaType → Prop where
  | function (a b : W NodeScillaType) : FunctionLike (.functionType a b)
  | poly (x : W Str) (t : W NodeScillaType) : FunctionLike (.polyFunctionType x t)
  | var (x : W Str) : FunctionLike (.typeVarType x)
  | paren (t : W NodeScillaType) : FunctionLike t.node → FunctionLike (.enclosedType t)

theorem FunctionLike.reads {t : NodeScillaType} (h : FunctionLike t) : readType t = .bad .panics := by
  induction h with
  | function => rw [readType]
  | poly => rw [readType]
  | var => rw [readType]
  | paren t _ ih => obtain ⟨t, a, b⟩ := t; rw [readType, readTypeW]; exact ih

/-- C27 on documents: `from_str` panics, it does not return an error, when the first type of the
interface outside the supported fragment is a function type, a `forall` type or a type variable. -/
theorem C27_document (env : Env) (doc : Str) (toks : List STok) (p : NodeProgram)
    (hl : lexDoc env.chars doc = some toks) (hd : Derives .program toks p)
    (pre post : List NodeTypedIdentifier) (n : NodeTypedIdentifier)
    (h : interfaceTyped p = pre ++ n :: post) (hp : ∀ x ∈ pre, (readTyped x).isSome)
    (hn : FunctionLike n.annotation.node.typeName.node) : fromStr env doc = .panic := by
  have hr : readTypeW n.annotation.node.typeName = .bad .panics := by
    have := hn.reads
    cases hw : n.annotation.node.typeName with
    | mk t a b => rw [hw] at this; rw [readTypeW]; exact this
  rw [fromStr_parsed hl (C16_complete _ _ hd), C27_tree env.dbg p pre post n h hp (.inl hr)]

/-- C27 on documents, in full: the first type of the interface that is not understood contains an unsupported form in a
position that is looked at, or lacks type arguments. -/
theorem C27_any (env : Env) (doc : Str) (toks : List STok) (p : NodeProgram)
    (hl : lexDoc env.chars doc = some toks) (hd : Derives .program toks p)
    (pre post : List NodeTypedIdentifier) (n : NodeTypedIdentifier)
    (h : interfaceTyped p = pre ++ n :: post) (hp : ∀ x ∈ pre, (readTyped x).isSome)
    (hn : readTypeW n.annotation.node.typeName = .bad .panics ∨
      ∃ l, readTypeW n.annotation.node.typeName = .clean l none) : fromStr env doc = .panic := by
  rw [fromStr_parsed hl (C16_complete _ _ hd), C27_tree env.dbg p pre post n h hp hn]

/-- `List` lacks its argument; the argument of `Option` is a type variable -/
def lackDoc : Str := str! "scilla_version 0 contract C (a : Uint32) field f : List = x"
def innerDoc : Str := str! "scilla_version 0 contract C () field f : Option 'A = x"

/-- the hypotheses of `C27_any` hold of these documents -/
example : (∃ toks p pre n post, lexDoc demoEnv.chars lackDoc = some toks ∧ Derives .program toks p ∧
      interfaceTyped p = pre ++ n :: post ∧ (∀ x ∈ pre, (readTyped x).isSome) ∧ pre ≠ [] ∧
      ∃ l, readTypeW n.annotation.node.typeName = .clean l none) ∧
    ∃ toks p n post, lexDoc demoEnv.chars innerDoc = some toks ∧ Derives .program toks p ∧
      interfaceTyped p = n :: post ∧ readTypeW n.annotation.node.typeName = .bad .panics := by
  constructor
  · have h : ((lexDoc demoEnv.chars lackDoc).bind parseProgram).any (fun p =>
        match interfaceTyped p with
        | [a, n] => (readTyped a).isSome && match readTypeW n.annotation.node.typeName with
          | .clean _ none => true
          | _ => false
        | _ => false) = true := by decide +kernel
    cases hl : lexDoc demoEnv.chars lackDoc with
    | none => rw [hl] at h; simp at h
    | some toks =>
      rw [hl, Option.bind_some] at h
      cases hp : parseProgram toks with
      | none => rw [hp] at h; simp at h
      | some p =>
        rw [hp, Option.any_some] at h
        split at h
        · rename_i a n hi
          rw [Bool.and_eq_true] at h
          obtain ⟨h1, h2⟩ := h
          split at h2
          · rename_i l hr
            exact ⟨toks, p, [a], n, [], rfl, C15_sound _ _ hp, hi, by simpa using h1, by simp, l, hr⟩
          · cases h2
        · cases h
  · have h : ((lexDoc demoEnv.chars innerDoc).bind parseProgram).any (fun p =>
        match interfaceTyped p with
        | [n] => match readTypeW n.annotation.node.typeName with
          | .bad .panics => true
          | _ => false
        | _ => false) = true := by decide +kernel
    cases hl : lexDoc demoEnv.chars innerDoc with
    | none => rw [hl] at h; simp at h
    | some toks =>
      rw [hl, Option.bind_some] at h
      cases hp : parseProgram toks with
      | none => rw [hp] at h; simp at h
      | some p =>
        rw [hp, Option.any_some] at h
        split at h
        · rename_i n hi
          split at h
          · rename_i hr
            exact ⟨toks, p, n, [], rfl, C15_sound _ _ hp, hi, hr⟩
          · cases h
        · cases h

def funDoc : Str := str! "scilla_version 0 contract C (a : Uint32) field f : (Uint32 -> 'A) = x"

example : fromStr demoEnv funDoc = .panic := by decide +kernel

/-- the hypotheses of `C27_document` hold of this document -/
example : ∃ toks p pre n post, lexDoc demoEnv.chars funDoc = some toks ∧ Derives .program toks p ∧
    interfaceTyped p = pre ++ n :: post ∧ (∀ x ∈ pre, (readTyped x).isSome) ∧ pre ≠ [] ∧
    FunctionLike n.annotation.node.typeName.node := by
  have h : ((lexDoc demoEnv.chars funDoc).bind parseProgram).any (fun p =>
      match interfaceTyped p with
      | [a, ⟨_, ⟨⟨⟨.enclosedType ⟨.functionType _ _, _, _⟩, _, _⟩⟩, _, _⟩⟩] => (readTyped a).isSome
      | _ => false) = true := by decide +kernel
  cases hl : lexDoc demoEnv.chars funDoc with
  | none => rw [hl] at h; simp at h
  | some toks =>
    rw [hl, Option.bind_some] at h
    cases hp : parseProgram toks with
    | none => rw [hp] at h; simp at h
    | some p =>
      rw [hp, Option.any_some] at h
      split at h
      · rename_i a i t1 t2 x y x1 y1 x2 y2 hi
        exact ⟨toks, p, [a], _, [], rfl, C15_sound _ _ hp, hi, by simpa using h, by simp,
          .paren _ (.function _ _)⟩
      · simp at h

/-! ## C28 — types the tool misreads -/

/-- C28: in contract parameters and fields a namespaced type `M.T` is reported as `T`, silently, also
inside other types (except as the value of a map); `l` and `m` are the namespaces that are lost. -/
theorem C28_namespace_dropped (dbg : StackObj → Str) (p : NodeProgram) (l m : List Str) (a b : List Field)
    (c : List Transition)
    (ha : readAll (typedOf p.contractDefinition.node.parameters.node.parameters) = .ok (l, a))
    (hb : readAll (fieldTypedOf p.contractDefinition.node.fields) = .ok (m, b))
    (hc : allSome readTransition (transitionsOf p.contractDefinition.node.components) = some c) :
    emitProgram dbg p = .ok ⟨p.contractDefinition.node.contractName.node.display, a, b, c⟩ := by
  have := emitProgram_read dbg p
  simp only [readProgram, ha, hb, readTransitions_strict _ _ hc] at this
  exact this

theorem readTransitions_left : ∀ (before : List NodeTransitionDefinition) (t : NodeTransitionDefinition)
    (after : List NodeTransitionDefinition) (x : Str) (l : List Str) (fs : List Field),
    (∀ t ∈ before, (readTransition t).isSome) →
    readAll (typedOf t.parameters.node.parameters) = .ok (x :: l, fs) →
    readTransitions (before ++ t :: after) = .error .panics
  | [], t, after, x, l, fs, _, h => by rw [List.nil_append, readTransitions, h]
  | s :: before, t, after, x, l, fs, hb, h => by
    obtain ⟨r, hr⟩ := Option.isSome_iff_exists.mp (hb s (by simp))
    simp only [readTransition, Option.map_eq_some_iff] at hr
    obtain ⟨fs', hfs, rfl⟩ := hr
    rw [List.cons_append, readTransitions, readAll_strict _ _ hfs]
    simp only [readTransitions_left before t after x l fs (fun t ht => hb t (by simp [ht])) h]

/-- C28: a namespaced type `M.T` in a transition parameter, at any depth except as the value of a map,
makes the emitter panic. -/
theorem C28_namespaced_parameter_panics (dbg : StackObj → Str) (p : NodeProgram) (l m : List Str)
    (a b : List Field) (before after : List NodeTransitionDefinition) (t : NodeTransitionDefinition)
    (x : Str) (xs : List Str) (fs : List Field)
    (ha : readAll (typedOf p.contractDefinition.node.parameters.node.parameters) = .ok (l, a))
    (hb : readAll (fieldTypedOf p.contractDefinition.node.fields) = .ok (m, b))
    (ht : transitionsOf p.contractDefinition.node.components = before ++ t :: after)
    (hbefore : ∀ t ∈ before, (readTransition t).isSome)
    (hps : readAll (typedOf t.parameters.node.parameters) = .ok (x :: xs, fs)) :
    emitProgram dbg p = .panic := by
  have := emitProgram_read dbg p
  simp only [readProgram, ha, hb, ht, readTransitions_left before t after x xs fs hbefore hps] at this
  exact this

def nsDoc : Str := str! "scilla_version 0 contract C (a : A.B) field f : List M.T = x field g : Uint32 = x transition S(y : Bool) end transition T(u : Bool, v : Option (Pair M.T N.T)) end"

/-- the hypotheses of both theorems above, on one document (dropping the transition `T` for the
first) -/
example : (demoProgram nsDoc).any (fun p =>
    (match readAll (typedOf p.contractDefinition.node.parameters.node.parameters) with
      | .ok r => r == ([str! "A"], [.mk (str! "a") (.other (str! "B"))])
      | .error _ => false) &&
    (match readAll (fieldTypedOf p.contractDefinition.node.fields) with
      | .ok r => r == ([str! "M"], [.mk (str! "f") (.list (.other (str! "T"))), .mk (str! "g") .uint32])
      | .error _ => false) &&
    match transitionsOf p.contractDefinition.node.components with
    | [s, t] => (readTransition s).isSome && match readAll (typedOf t.parameters.node.parameters) with
      | .ok r => r == ([str! "N", str! "M"], [.mk (str! "u") .bool,
          .mk (str! "v") (.option (.pair (.other (str! "T")) (.other (str! "T"))))])
      | .error _ => false
    | _ => false) = true := by decide +kernel

/-- C28: if the first typed identifier of the interface that is not understood has an address type as the
key of a map, or a namespaced name as the value of a map (`.bad .fails`), emission ends with an error,
although the grammar accepts the program. -/
theorem C28_error (dbg : StackObj → Str) (p : NodeProgram) (pre post : List NodeTypedIdentifier)
    (n : NodeTypedIdentifier) (h : interfaceTyped p = pre ++ n :: post)
    (hp : ∀ x ∈ pre, (readTyped x).isSome)
    (hn : readTypeW n.annotation.node.typeName = .bad .fails) :
    ∃ e, emitProgram dbg p = .err e := by
  have hw : problemOf n = some .fails := by simp only [problemOf, hn]
  have := emitProgram_read dbg p
  rw [readProgram_first h hp hw] at this
  exact this

/-- a map whose key is an address type that is understood -/
theorem C28_error_key (k : W NodeAddressType) (v : W NodeTypeMapValue) (a b c d : Pos)
    (l : List Str) (t : Option Ty) (h : readAddrW k = .clean l t) :
    readTypeW ⟨.mapType ⟨.addressMapKeyType k, a, b⟩ v, c, d⟩ = .bad .fails ∧
    readTypeW ⟨.mapType ⟨.enclosedAddressMapKeyType k, a, b⟩ v, c, d⟩ = .bad .fails := by
  constructor <;> simp only [readTypeW, readType, readKeyW, readKey, h, asKey, readMap]

/-- a map whose value is a namespaced name -/
theorem C28_error_value (k : W NodeTypeMapKey) (m x : W NodeTypeNameIdentifier) (y z : Str)
    (a b c d e f : Pos) (l : List Str) (t : Option Ty) (hk : readKeyW k = .clean l t)
    (hm : plainName m.node = some y) (hx : plainName x.node = some z) :
    readTypeW ⟨.mapType k ⟨.mapValueTypeOrEnumLikeIdentifier ⟨.metaNameInNamespace m x, a, b⟩, c, d⟩,
      e, f⟩ = .bad .fails := by
  cases t <;>
    simp only [readTypeW, readType, hk, readValueW, readValue, readName, metaText, hm, hx, readMap]

/-- the hypotheses of `C28_error` on a document, in both ways -/
example : (demoProgram (str! "scilla_version 0 contract C () field f : Uint32 = x field g : Map (ByStr20 with end) Uint32 = x field h : Map Uint32 M.T = x")).any
    (fun p => match interfaceTyped p with
      | [f, g, h] => (readTyped f).isSome &&
        (match readTypeW g.annotation.node.typeName with | .bad .fails => true | _ => false) &&
        (match readTypeW h.annotation.node.typeName with | .bad .fails => true | _ => false)
      | _ => false) = true := by decide +kernel

/-- C28: a field of type `Event` of a contract without parameters gets the contract's name as its type;
emission panics if that name is `Option`, `List`, `Pair` or `Map`.  (`x` is the contract's name; the other
types of the interface are understood.) -/
theorem C28_event_field (dbg : StackObj → Str) (p : NodeProgram) (x : Str)
    (pre post : List NodeTypedIdentifier) (n : NodeTypedIdentifier) (a b : List Field) (l : List Str)
    (c : List Transition)
    (hx : plainName p.contractDefinition.node.contractName.node = some x)
    (hps : typedOf p.contractDefinition.node.parameters.node.parameters = [])
    (hfs : fieldTypedOf p.contractDefinition.node.fields = pre ++ n :: post)
    (ha : readAll pre = .ok ([], a)) (hn : isEvent n = true) (hb : readAll post = .ok (l, b))
    (hc : readTransitions (transitionsOf p.contractDefinition.node.components) = .ok c) :
    emitProgram dbg p = match (generalizing := false) namedType x [] with
      | some t => .ok ⟨x, [], a ++ .mk n.identifierName.node t :: b, c⟩
      | none => .panic := emit_event_field dbg hx hps hfs ha hn hb hc

/-- C28: a field of type `Event` of a contract with parameters is an error. -/
theorem C28_event_field_error (dbg : StackObj → Str) (p : NodeProgram)
    (pre post : List NodeTypedIdentifier) (n : NodeTypedIdentifier) (a b : List Field) (l : List Str)
    (hne : typedOf p.contractDefinition.node.parameters.node.parameters ≠ [])
    (hps : readAll (typedOf p.contractDefinition.node.parameters.node.parameters) = .ok (l, b))
    (hfs : fieldTypedOf p.contractDefinition.node.fields = pre ++ n :: post)
    (ha : readAll pre = .ok ([], a)) (hn : isEvent n = true) :
    ∃ e, emitProgram dbg p = .err e := emit_event_field_err dbg hne hps hfs ha hn

/-- C28: with a contract parameter of type `Event` emission ends with an error, or panics if the contract
is called `Option`, `List`, `Pair` or `Map`. -/
theorem C28_event_contract_parameter (dbg : StackObj → Str) (p : NodeProgram) (x : Str)
    (pre post : List NodeTypedIdentifier) (n : NodeTypedIdentifier) (a b : List Field)
    (hx : plainName p.contractDefinition.node.contractName.node = some x)
    (hps : typedOf p.contractDefinition.node.parameters.node.parameters = pre ++ n :: post)
    (ha : readAll pre = .ok ([], a)) (hn : isEvent n = true) (hb : readAll post = .ok ([], b)) :
    match (generalizing := false) namedType x [] with
      | some _ => ∃ e, emitProgram dbg p = .err e
      | none => emitProgram dbg p = .panic := emit_event_init dbg hx hps ha hn hb

/-- C28: with a transition parameter of type `Event`, emission never succeeds, unless a namespace is
ignored in an earlier parameter of the transition (then the parameter may get that namespace as its
type: `C28_event_parameter_witness`). -/
theorem C28_event_parameter (dbg : StackObj → Str) (p : NodeProgram)
    (before after : List NodeTransitionDefinition) (t : NodeTransitionDefinition)
    (pre post : List NodeTypedIdentifier) (n : NodeTypedIdentifier) (a : List Field)
    (ht : transitionsOf p.contractDefinition.node.components = before ++ t :: after)
    (hps : typedOf t.parameters.node.parameters = pre ++ n :: post)
    (ha : readAll pre = .ok ([], a)) (hn : isEvent n = true) (c : Contract) :
    emitProgram dbg p ≠ .ok c := emit_event_param dbg ht hps ha hn c

/-- the hypotheses of the theorems on `Event` on documents -/
example : (demoProgram (str! "scilla_version 0 contract C () field e : Bool = x field f : Event = x field g : Uint32 = x transition T(u : Bool, v : Event) end")).any
    (fun p => (plainName p.contractDefinition.node.contractName.node == some (str! "C")) &&
      match typedOf p.contractDefinition.node.parameters.node.parameters,
          fieldTypedOf p.contractDefinition.node.fields,
          transitionsOf p.contractDefinition.node.components with
      | [], [e, f, g], [t] => (readTyped e).isSome && isEvent f && (readTyped g).isSome &&
        match typedOf t.parameters.node.parameters with
        | [u, v] => (readTyped u).isSome && isEvent v
        | _ => false
      | _, _, _ => false) = true := by decide +kernel

example : (demoProgram (str! "scilla_version 0 contract C (a : Bool, b : Event, c : Uint32) field e : Bool = x field f : Event = x")).any
    (fun p => match typedOf p.contractDefinition.node.parameters.node.parameters,
          fieldTypedOf p.contractDefinition.node.fields with
      | [a, b, c], [e, f] => (readTyped a).isSome && isEvent b && (readTyped c).isSome &&
        (readTyped e).isSome && isEvent f
      | _, _ => false) = true := by decide +kernel

theorem C28_panic_witness : fromStr demoEnv nsDoc = .panic := by decide +kernel

/-- C28: a namespaced type in a field: the namespace is dropped. -/
theorem C28_namespaced_field_witness :
    fromStr demoEnv (str! "scilla_version 0 contract C () field f : M.T = x") =
    .ok ⟨str! "C", [], [.mk (str! "f") (.other (str! "T"))], []⟩ := by decide +kernel

/-- C28: a field of type `Event` gets the contract's name as its type … -/
theorem C28_event_field_witness :
    fromStr demoEnv (str! "scilla_version 0 contract C () field f : Event = x") =
    .ok ⟨str! "C", [], [.mk (str! "f") (.other (str! "C"))], []⟩ := by decide +kernel

/-- … or is an error if the contract has parameters, although the grammar accepts it … -/
theorem C28_event_field_witness2 :
    fromStr demoEnv (str! "scilla_version 0 contract C (a : Uint32) field f : Event = x") =
    .err (.parseError (str! "Expected symbol name, but found .")) ∧
    (demoProgram (str! "scilla_version 0 contract C (a : Uint32) field f : Event = x")).isSome := by
  decide +kernel

/-- … and in a transition parameter it may take a namespace left over by another parameter. -/
theorem C28_event_parameter_witness :
    fromStr demoEnv (str! "scilla_version 0 contract C () transition T(a : M.T, b : Event) end") =
    .ok ⟨str! "C", [], [], [⟨str! "T", [.mk (str! "a") (.other (str! "T")),
      .mk (str! "b") (.other (str! "M"))]⟩]⟩ := by decide +kernel

/-- C28: an address type as a map key is accepted by the grammar and an error for the emitter. -/
theorem C28_address_key_witness :
    fromStr demoEnv
      (str! "scilla_version 0 contract C () field f : Map (ByStr20 with end) Uint32 = x") =
    .err (.parseError (str! "Expected symbol name, but found .")) ∧
    (demoProgram
      (str! "scilla_version 0 contract C () field f : Map (ByStr20 with end) Uint32 = x")).isSome := by
  decide +kernel

/-- C28: an error inside an address type is swallowed; the field gets a wrong type. -/
theorem C28_swallowed_error_witness :
    fromStr demoEnv
      (str! "scilla_version 0 contract C () field f : ByStr20 with contract field m : Map Uint32 (Map (ByStr20 with end) Uint128) end = x") =
    .ok ⟨str! "C", [], [.mk (str! "f") .uint32], []⟩ := by decide +kernel

/-! ## C39 — error kinds -/

/-- C39: the only errors of `from_str` are parse errors. -/
theorem C39_errors (env : Env) (doc : Str) (e : Error) (h : fromStr env doc = .err e) :
    ∃ msg, e = .parseError msg := by
  unfold fromStr at h
  split at h
  · split at h
    · simp at h
    · simp at h; exact ⟨_, h.symm⟩
  · split at h
    · simp at h; exact ⟨_, h.symm⟩
    · split at h
      · simp at h
      · simp at h; exact ⟨_, h.symm⟩
      · simp at h

/-- The UTF-8 encoding of a document. -/
noncomputable def encoded (doc : Str) : ByteArray := doc.utf8Encode

theorem readToString_encoded (doc : Str) : readToString (.bytes (encoded doc)) = .ok doc := by
  simp [readToString, encoded]

theorem readToString_bad (bs : ByteArray) (h : ∀ doc, bs ≠ encoded doc) :
    ∃ msg, readToString (.bytes bs) = .error msg := by
  cases hd : bs.utf8Decode? with
  | none => exact ⟨_, by rw [readToString, hd]⟩
  | some cs =>
    obtain ⟨doc, hdoc⟩ := ByteArray.isSome_utf8Decode?_iff.mp (by rw [hd]; rfl)
    exact absurd hdoc (h doc)

/-- C39: `parse(path)` is an I/O error exactly when the file cannot be read or its contents are not the UTF-8
encoding of any text … -/
theorem C39_parse_io {Path : Type} (env : Env) (read : Path → ReadResult) (path : Path) :
    (∃ msg, parsePath env read path = .err (.ioError msg)) ↔
      (∃ msg, read path = .failed msg) ∨ ∃ bs, read path = .bytes bs ∧ ∀ doc, bs ≠ encoded doc := by
  constructor
  · rintro ⟨msg, h⟩
    cases hr : read path with
    | failed m => exact .inl ⟨m, rfl⟩
    | bytes bs =>
      refine .inr ⟨bs, rfl, ?_⟩
      rintro doc rfl
      rw [parsePath, hr, readToString_encoded] at h
      obtain ⟨m, hm⟩ := C39_errors env doc _ h
      simp at hm
  · rintro (⟨msg, h⟩ | ⟨bs, h, hb⟩)
    · exact ⟨msg, by rw [parsePath, h]; rfl⟩
    · obtain ⟨msg, hm⟩ := readToString_bad bs hb
      exact ⟨msg, by rw [parsePath, h, hm]⟩

/-- … and otherwise exactly `from_str` of the text that the contents encode. -/
theorem C39_parse_contents {Path : Type} (env : Env) (read : Path → ReadResult) (path : Path)
    (doc : Str) (h : read path = .bytes (encoded doc)) : parsePath env read path = fromStr env doc := by
  rw [parsePath, h, readToString_encoded]

/-- C39: the displayed text of an error of `from_str` starts with a fixed sentence. -/
theorem C39_display (env : Env) (doc : Str) (e : Error) (h : fromStr env doc = .err e) :
    str! "Failed to parse the contract. " <+: e.display := by
  obtain ⟨msg, rfl⟩ := C39_errors env doc e h
  exact List.prefix_append _ _

theorem bad_bytes (doc : Str) : (⟨#[0xff]⟩ : ByteArray) ≠ encoded doc := by
  intro e
  have h : (⟨#[0xff]⟩ : ByteArray).utf8Decode?.isSome = true :=
    ByteArray.isSome_utf8Decode?_iff.mpr ⟨doc, e⟩
  rw [ByteArray.isSome_utf8Decode?_eq_validateUTF8] at h
  revert h
  decide +kernel

example : (∃ m, fromStr demoEnv (str! "contract") = .err m) ∧
    parsePath demoEnv (fun b : Bool => if b then .bytes (encoded demoDoc) else .failed []) true =
      .ok demoContract ∧
    ∃ m, parsePath demoEnv (fun b : Bool => if b then .bytes ⟨#[0xff]⟩ else .failed []) true =
      .err (.ioError m) := by
  refine ⟨⟨_, rfl⟩, ?_, ?_⟩
  · rw [C39_parse_contents demoEnv _ true demoDoc (by simp)]
    exact demo_fromStr
  · exact (C39_parse_io _ _ _).mpr (.inr ⟨_, rfl, bad_bytes⟩)

/-! ## C41 — totality on ASCII documents -/

/-- C41: on an ASCII document `from_str` returns a contract, or a parse error, or panics; a panic
means that the document is a program with an interface type that the tool does not implement
(`.panics`) or that is not given a meaning (`.misread`). -/
theorem C41_total (env : Env) (doc : Str) (h : ∀ c ∈ doc, c.toNat < 128) :
    (∃ c, fromStr env doc = .ok c) ∨ (∃ msg, fromStr env doc = .err (.parseError msg)) ∨
    (fromStr env doc = .panic ∧ ∃ toks p, lexDoc env.chars doc = some toks ∧
      Derives .program toks p ∧
      (readProgram p = .error .panics ∨ readProgram p = .error .misread)) := by
  obtain ⟨toks, hl⟩ := C02_ascii_no_panic env.chars doc h
  cases hp : parseProgram toks with
  | none => exact .inr (.inl ⟨env.parseErrorText (requested [] toks), by simp only [fromStr, hl, hp]⟩)
  | some p =>
    rw [fromStr_parsed hl hp]
    cases he : emitProgram env.dbg p with
    | ok c => exact .inl ⟨c, rfl⟩
    | err e => exact .inr (.inl ⟨e, rfl⟩)
    | panic =>
      refine .inr (.inr ⟨rfl, toks, p, hl, C15_sound _ _ hp, ?_⟩)
      have hv := emitProgram_read env.dbg p
      rw [he] at hv
      cases hr : readProgram p with
      | ok c => rw [hr] at hv; simp at hv
      | error w =>
        rw [hr] at hv
        cases w with
        | panics => exact .inl rfl
        | fails => obtain ⟨e, hv⟩ := hv; simp at hv
        | misread => exact .inr rfl

/-- C41: an error means that the document is no program, or that it has an interface type that is an error
for the tool or not given a meaning. -/
theorem C41_error (env : Env) (doc : Str) (toks : List STok) (e : Error)
    (hl : lexDoc env.chars doc = some toks) (h : fromStr env doc = .err e) :
    (¬ ∃ p, Derives .program toks p) ∨ ∃ p, Derives .program toks p ∧
      (readProgram p = .error .fails ∨ readProgram p = .error .misread) := by
  cases hp : parseProgram toks with
  | none => exact .inl ((C16_rejected_iff toks).mp hp)
  | some p =>
    refine .inr ⟨p, C15_sound _ _ hp, ?_⟩
    rw [fromStr_parsed hl hp] at h
    have hv := emitProgram_read env.dbg p
    cases hr : readProgram p with
    | ok c => rw [hr] at hv; simp only at hv; rw [hv] at h; simp at h
    | error w =>
      rw [hr] at hv
      cases w with
      | panics => simp only at hv; rw [hv] at h; simp at h
      | fails => exact .inl rfl
      | misread => exact .inr rfl

/-- documents for the three outcomes -/
example : (∀ c ∈ demoDoc, c.toNat < 128) ∧ (∀ c ∈ funDoc, c.toNat < 128) := by decide +kernel

end Verif
