import Verif.Proofs.WalkRun
import Verif.Proofs.EmitContract
/-
The errors of the emitter are the six texts of its three `pop_…` methods.
-/
namespace Verif
section
variable {σ : Type}

/-- the errors of a computation satisfy `P` -/
def ErrIn {α : Type} (P : Str → Prop) (m : M σ α) : Prop := ∀ s s1 e, m s = (s1, .err e) → P e

variable {P : Str → Prop} {E : Emitter σ}

theorem ErrIn.bind {α β : Type} {m : M σ α} {f : α → M σ β} (hm : ErrIn P m) (hf : ∀ a, ErrIn P (f a)) :
    ErrIn P (m.bind f) := by
  intro s s1 e h
  simp only [M.bind] at h
  rcases hr : m s with ⟨s2, (a | e' | _)⟩ <;> rw [hr] at h
  · exact hf a _ _ _ h
  · simp only [Prod.mk.injEq, Outcome.err.injEq] at h
    exact h.2 ▸ hm _ _ _ hr
  · simp at h

theorem ErrIn.then {α β : Type} {m : M σ α} {k : M σ β} (hm : ErrIn P m) (hk : ErrIn P k) :
    ErrIn P (m.andThen k) := hm.bind fun _ => hk

theorem ErrIn.pure {α : Type} (a : α) : ErrIn P (M.pure a : M σ α) := by
  intro s s1 e h; simp [M.pure] at h
theorem ErrIn.panic {α : Type} : ErrIn P (M.panic : M σ α) := by
  intro s s1 e h; simp [M.panic] at h
theorem ErrIn.skip : ErrIn P (M.skip : M σ TR) := ErrIn.pure _
theorem ErrIn.cont : ErrIn P (M.cont : M σ TR) := ErrIn.pure _
theorem ErrIn.fine {α : Type} {f : σ → σ} {a : α} : ErrIn P (fun s => (f s, .ok a) : M σ α) := by
  intro s s1 e h; simp at h

theorem ErrIn.child {pos : Option (Pos × Pos)} {m : M σ TR} (h : ErrIn P m) : ErrIn P (walkChild E pos m) := by
  rcases pos with _ | ⟨a, b⟩
  · exact h
  · intro s s1 e he
    simp only [walkChild, withPos] at he
    rcases h3 : m (E.push a b s) with ⟨s2, (a' | e' | _)⟩ <;> rw [h3] at he
    · simp at he
    · simp only [Prod.mk.injEq, Outcome.err.injEq] at he
      exact he.2 ▸ h _ _ _ h3
    · simp at he

theorem ErrIn.kids {V : AnyNode → M σ TR} {only : Option Str} {ks : List Kid}
    (h : ∀ how pos c, .child how pos c ∈ ks → ErrIn P (V c)) : ErrIn P (walkKids E only V ks) := by
  induction ks with
  | nil => exact ErrIn.pure _
  | cons k ks ih =>
    have ih := ih fun how pos c hc => h how pos c (by simp [hc])
    cases k with
    | panic => exact ErrIn.panic
    | push a b => exact fun s => ih _
    | child how pos c =>
      have hc : ErrIn P (walkChild E pos (V c)) := ErrIn.child (h how pos c (by simp))
      intro s s1 e he
      simp only [walkKids] at he
      rcases h3 : walkChild E pos (V c) s with ⟨s2, (a | e' | _)⟩ <;> rw [h3] at he
      · cases a with
        | continue_ => exact ih _ _ _ he
        | skip => cases how <;> first | exact ih _ _ _ he | simp at he
      · simp only at he
        split at he
        · simp only [Prod.mk.injEq, Outcome.err.injEq] at he
          exact he.2 ▸ hc _ _ _ h3
        · exact ih _ _ _ he
      · simp at he

/-- whatever errors the callbacks return, the visit returns only such -/
theorem ErrIn.visit (hE : ∀ m n, ErrIn P (E.emit m n)) (n : AnyNode) : ErrIn P (visit E n) := by
  induction n using tree_induction with
  | h n ih =>
    rw [visit_eq]
    intro s s1 e he
    simp only [walkNode] at he
    rcases h1 : E.emit .enter n s with ⟨s2, (a | e' | _)⟩ <;> rw [h1] at he
    · cases a with
      | continue_ =>
        simp only at he
        rcases h2 : walkKids E n.onlyError (Verif.visit E) (Verif.kids n) s2 with ⟨s3, (k | e' | _)⟩ <;> rw [h2] at he
        · cases k with
          | exit => exact hE _ _ _ _ _ he
          | done => simp at he
          | skip => simp at he
        · simp only [Prod.mk.injEq, Outcome.err.injEq] at he
          exact he.2 ▸ ErrIn.kids ih _ _ _ h2
        · simp at he
      | skip =>
        simp only at he
        split at he
        · exact hE _ _ _ _ _ he
        · simp at he
    · simp only at he
      split at he
      · exact hE _ _ _ _ _ he
      · simp only [Prod.mk.injEq, Outcome.err.injEq] at he
        exact he.2 ▸ hE _ _ _ _ _ h1
    · simp at he

theorem ErrIn.visitW (hE : ∀ m n, ErrIn P (E.emit m n)) {α : Type} {mk : α → AnyNode} {f : W α → M σ TR}
    (hf : IsKid E (Verif.visit E) mk f) (w : W α) : ErrIn P (f w) := by
  rw [hf]; exact ErrIn.child (ErrIn.visit hE _)

theorem ErrIn.list {α : Type} {f : α → M σ TR} (h : ∀ a, ErrIn P (f a)) (l : List α) : ErrIn P (visitList f l) := by
  induction l with
  | nil => exact ErrIn.cont
  | cons a l ih => exact (h a).then ih
theorem ErrIn.opt {α : Type} {f : α → M σ TR} (h : ∀ a, ErrIn P (f a)) (o : Option α) : ErrIn P (visitOpt f o) := by
  cases o with
  | none => exact ErrIn.cont
  | some a => exact h a

end

/-- the texts of `pop_ir_identifier`, `pop_variable_declaration` and `pop_type_definition`, emitter.rs 26-75 -/
def PopMessage (dbg : StackObj → Str) (e : Str) : Prop :=
  ∃ what, what ∈ [str! "symbol name", str! "variable declaration", str! "type definition"] ∧
    ∃ found, (found = str! "nothing" ∨ ∃ x, found = dbg x) ∧
      e = str! "Expected " ++ (what ++ (str! ", but found " ++ (found ++ str! ".")))

section
variable {dbg : StackObj → Str}

theorem errIn_popIdent : ErrIn (PopMessage dbg) (popIdent dbg) := by
  intro s s1 e h
  unfold popIdent at h
  split at h
  · cases h; exact ⟨str! "symbol name", by decide, _, .inl rfl, by decide⟩
  · cases h
  · rename_i x _ _ _
    cases h
    exact ⟨str! "symbol name", by decide, dbg x, .inr ⟨x, rfl⟩, by simp⟩

theorem errIn_popVar : ErrIn (PopMessage dbg) (popVar dbg) := by
  intro s s1 e h
  unfold popVar at h
  split at h
  · cases h; exact ⟨str! "variable declaration", by decide, _, .inl rfl, by decide⟩
  · cases h
  · rename_i x _ _ _
    cases h
    exact ⟨str! "variable declaration", by decide, dbg x, .inr ⟨x, rfl⟩, by simp⟩

theorem errIn_popType : ErrIn (PopMessage dbg) (popType dbg) := by
  intro s s1 e h
  unfold popType at h
  split at h
  · cases h; exact ⟨str! "type definition", by decide, _, .inl rfl, by decide⟩
  · cases h
  · rename_i x _ _ _
    cases h
    exact ⟨str! "type definition", by decide, dbg x, .inr ⟨x, rfl⟩, by simp⟩

theorem errIn_pushObj (x : StackObj) : ErrIn (PopMessage dbg) (SrState.pushObj x) := ErrIn.fine

theorem errIn_intoType (t : SrType) : ErrIn (PopMessage dbg) (intoType t) := by
  intro s s1 e h
  unfold intoType at h
  split at h <;> cases h

theorem errIn_identToType : ErrIn (PopMessage dbg) (identToType dbg) :=
  errIn_popIdent.bind fun _ => errIn_pushObj _

theorem errIn_makeMap : ErrIn (PopMessage dbg) (makeMap dbg) :=
  errIn_popType.bind fun _ => errIn_popType.bind fun _ => errIn_pushObj _

theorem errIn_collectArgs {α : Type} {f : α → M SrState TR} (h : ∀ a, ErrIn (PopMessage dbg) (f a)) (l : List α)
    (t : SrType) : ErrIn (PopMessage dbg) (collectArgs dbg f l t) := by
  induction l generalizing t with
  | nil => exact ErrIn.pure _
  | cons a l ih => exact (h a).then (errIn_popType.bind fun _ => ih _)

theorem errIn_genericType {α : Type} {lead : M SrState TR} {f : α → M SrState TR}
    (hl : ErrIn (PopMessage dbg) lead) (h : ∀ a, ErrIn (PopMessage dbg) (f a)) (l : List α) :
    ErrIn (PopMessage dbg) (genericType dbg lead f l) := by
  refine hl.then (errIn_identToType.then ?_)
  cases l with
  | nil => exact ErrIn.pure _
  | cons a l => exact errIn_popType.bind fun _ => (errIn_collectArgs h _ _).bind fun _ => errIn_pushObj _

theorem errIn_collectVars {α : Type} {f : α → M SrState TR} (h : ∀ a, ErrIn (PopMessage dbg) (f a)) (l : List α) :
    ErrIn (PopMessage dbg) (collectVars dbg f l) := by
  induction l with
  | nil => exact ErrIn.pure _
  | cons a l ih => exact (h a).then (errIn_popVar.bind fun _ => ih.bind fun _ => ErrIn.pure _)

theorem errIn_collectInitParams {α : Type} {f : α → M SrState TR} (h : ∀ a, ErrIn (PopMessage dbg) (f a))
    (l : List α) : ErrIn (PopMessage dbg) (collectInitParams dbg f l) := by
  induction l with
  | nil => exact ErrIn.pure _
  | cons a l ih => exact (h a).then (errIn_popVar.bind fun _ => ErrIn.then ErrIn.fine ih)

theorem errIn_emitSr {V : Emitter SrState} (hV : ∀ m n, ErrIn (PopMessage dbg) (V.emit m n)) (mode : Mode)
    (n : AnyNode) : ErrIn (PopMessage dbg) (emitSr dbg V mode n) := by
  have K {α : Type} {mk : α → AnyNode} {f : W α → M SrState TR} (hf : IsKid V (visit V) mk f) (w : W α) :=
    ErrIn.visitW (P := PopMessage dbg) hV hf w
  have push := errIn_pushObj (dbg := dbg)
  have i2t := errIn_identToType (dbg := dbg)
  have mm := errIn_makeMap (dbg := dbg)
  have sk := ErrIn.skip (σ := SrState) (P := PopMessage dbg)
  have co := ErrIn.cont (σ := SrState) (P := PopMessage dbg)
  have pa := ErrIn.panic (σ := SrState) (P := PopMessage dbg) (α := TR)
  have decl : ∀ (x : Str), ErrIn (PopMessage dbg) ((popType dbg).bind fun ty => (intoType ty).bind fun ty =>
      (SrState.pushObj (.varDecl (.mk x ty))).andThen M.skip) := fun x =>
    errIn_popType.bind fun _ => (errIn_intoType _).bind fun _ => (push _).then sk
  cases n <;> try (first | exact sk | exact co | exact pa)
  case typeNameId n =>
    cases mode <;> cases n <;> first | exact co | exact (push _).then co
  case metaId n => cases n <;> first | exact co | exact (push _).then sk
  case mapKey n =>
    refine ErrIn.then ?_ (i2t.then sk)
    cases n <;> first | exact K (isKid_metaId V) _ | exact K (isKid_addrType V) _
  case mapValue n =>
    cases mode
    · cases n
      · exact (K (isKid_metaId V) _).then (i2t.then sk)
      · exact (K (isKid_mapEntry V) _).then (mm.then sk)
      · exact (K (isKid_mapValueAllowing V) _).then sk
      · exact (K (isKid_addrType V) _).then sk
    · exact sk
  case typeArg n =>
    cases n
    · exact (K (isKid_scillaType V) _).then sk
    · exact (K (isKid_metaId V) _).then (i2t.then sk)
    · exact pa
    · exact (K (isKid_addrType V) _).then sk
    · exact (K (isKid_mapKey V) _).then ((K (isKid_mapValue V) _).then (mm.then sk))
  case scillaType n =>
    cases n
    · exact (errIn_genericType (K (isKid_metaId V) _) (K (isKid_typeArg V)) _).then sk
    · exact (K (isKid_mapKey V) _).then ((K (isKid_mapValue V) _).then (mm.then sk))
    · exact pa
    · exact (K (isKid_scillaType V) _).then sk
    · exact (K (isKid_addrType V) _).then sk
    · exact pa
    · exact pa
  case addrField n =>
    obtain ⟨i, t⟩ := n
    cases mode
    · simp only [emitSr]
      split
      · exact (K (isKid_scillaType V) _).then (decl _)
      · exact sk
    · exact sk
  case addrType n =>
    obtain ⟨i, tn, fs⟩ := n
    cases mode
    · exact (K (isKid_typeNameId V) _).then (i2t.then (errIn_popType.bind fun _ =>
        (errIn_collectVars (K (isKid_addrField V)) _).bind fun _ => (push _).then sk))
    · exact sk
  case componentId n => cases n <;> exact (push _).then sk
  case compParams n =>
    cases mode
    · exact (errIn_collectInitParams (K (isKid_paramPair V)) _).then co
    · exact co
  case typedId n => exact (K (isKid_typeAnn V) _).then (decl _)
  case contractDef n =>
    exact (K (isKid_typeNameId V) _).then (ErrIn.then ErrIn.fine ((K (isKid_compParams V) _).then
      ((ErrIn.opt (K (isKid_withConstraint V)) _).then ((ErrIn.list (K (isKid_contractField V)) _).then
        ((ErrIn.list (K (isKid_compDef V)) _).then sk)))))
  case contractField n =>
    exact (K (isKid_typedId V) _).then (errIn_popVar.bind fun _ => (K (isKid_fullExpr V) _).then
      (ErrIn.then ErrIn.fine sk))
  case transDef n =>
    refine (K (isKid_componentId V) _).then ((errIn_collectVars (K (isKid_paramPair V)) _).bind fun _ =>
      errIn_popIdent.bind fun x => ?_)
    obtain ⟨name, kind⟩ := x
    simp only
    split
    · exact ErrIn.then ErrIn.fine sk
    · exact pa
  case mapValueArgs n =>
    cases mode
    · cases n
      · exact (K (isKid_mapValueAllowing V) _).then sk
      · exact (K (isKid_metaId V) _).then (i2t.then sk)
      · exact pa
    · exact sk
  case mapValueAllowing n =>
    cases mode
    · cases n
      · exact (K (isKid_mapValue V) _).then sk
      · exact (errIn_genericType (K (isKid_metaId V) _) (K (isKid_mapValueArgs V)) _).then sk
    · exact sk

theorem errIn_srEmitter (k : Nat) : ∀ m n, ErrIn (PopMessage dbg) ((srEmitter dbg k).emit m n) := by
  induction k with
  | zero => exact fun _ _ => ErrIn.panic
  | succ k ih => exact fun m n => errIn_emitSr ih m n

/-- the errors of the emitter -/
theorem emitProgram_err {p : NodeProgram} {e : Str} (h : emitProgram dbg p = .err e) : PopMessage dbg e := by
  unfold emitProgram at h
  rcases hv : visitContractDefW (srEmitter dbg (emitFuel p.contractDefinition.node)) p.contractDefinition
    SrState.init with ⟨s, (a | e' | _)⟩ <;> rw [hv] at h
  · cases h
  · simp only [Outcome.err.injEq] at h
    exact h ▸ ErrIn.visitW (errIn_srEmitter _) (isKid_contractDef _) _ _ _ _ hv
  · cases h

end
end Verif
