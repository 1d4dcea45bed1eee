import Verif.Proofs.EmitText
import Verif.Proofs.Pile
import Verif.Model.EmitterUse
/-
What visits with an `SrEmitter` do to the contract it holds, from any state: they only add to its lists.
-/
namespace Verif

/-- the lists of the second contract begin with those of the first -/
def Extends (c d : Contract) : Prop :=
  c.initParams <+: d.initParams ∧ c.fields <+: d.fields ∧ c.transitions <+: d.transitions

theorem Extends.refl (c : Contract) : Extends c c :=
  ⟨List.prefix_refl _, List.prefix_refl _, List.prefix_refl _⟩
theorem Extends.trans {c d e : Contract} (h : Extends c d) (h' : Extends d e) : Extends c e :=
  ⟨h.1.trans h'.1, h.2.1.trans h'.2.1, h.2.2.trans h'.2.2⟩

/-- the computation only adds to the lists of the contract -/
def Keeps {α : Type} (m : M SrState α) : Prop := ∀ s, Extends s.contract (m s).1.contract

theorem Keeps.bind {α β : Type} {m : M SrState α} {f : α → M SrState β} (hm : Keeps m) (hf : ∀ a, Keeps (f a)) :
    Keeps (m.bind f) := by
  intro s
  have h := hm s
  simp only [M.bind]
  rcases hr : m s with ⟨s2, (a | e' | _)⟩ <;> rw [hr] at h
  · exact h.trans (hf a s2)
  · exact h
  · exact h

theorem Keeps.then {α β : Type} {m : M SrState α} {k : M SrState β} (hm : Keeps m) (hk : Keeps k) :
    Keeps (m.andThen k) := hm.bind fun _ => hk
theorem Keeps.pure {α : Type} (a : α) : Keeps (M.pure a : M SrState α) := fun _ => .refl _
theorem Keeps.panic {α : Type} : Keeps (M.panic : M SrState α) := fun _ => .refl _
theorem Keeps.skip : Keeps (M.skip : M SrState TR) := Keeps.pure _
theorem Keeps.cont : Keeps (M.cont : M SrState TR) := Keeps.pure _

section
variable {E : Emitter SrState} (hP : ∀ a b s, E.push a b s = s) (hQ : ∀ s, E.pop s = s)
include hP hQ

theorem Keeps.child {pos : Option (Pos × Pos)} {m : M SrState TR} (h : Keeps m) : Keeps (walkChild E pos m) := by
  rcases pos with _ | ⟨a, b⟩
  · exact h
  · intro s
    have h3 := h s
    simp only [walkChild, withPos, hP]
    rcases hm : m s with ⟨s2, (a' | e' | _)⟩ <;> rw [hm] at h3 <;> simp only [hQ] <;> exact h3

theorem Keeps.kids {V : AnyNode → M SrState TR} {only : Option Str} {ks : List Kid}
    (h : ∀ how pos c, .child how pos c ∈ ks → Keeps (V c)) : Keeps (walkKids E only V ks) := by
  induction ks with
  | nil => exact Keeps.pure _
  | cons k ks ih =>
    have ih := ih fun how pos c hc => h how pos c (by simp [hc])
    cases k with
    | panic => exact Keeps.panic
    | push a b => intro s; simp only [walkKids, hP]; exact ih s
    | child how pos c =>
      have hc : Keeps (walkChild E pos (V c)) := Keeps.child hP hQ (h how pos c (by simp))
      intro s
      have h4 := hc s
      simp only [walkKids]
      rcases h3 : walkChild E pos (V c) s with ⟨s2, (a | e' | _)⟩ <;> rw [h3] at h4
      · cases a with
        | continue_ => exact h4.trans (ih _)
        | skip => cases how <;> first | exact h4.trans (ih _) | exact h4
      · simp only
        split
        · exact h4
        · exact h4.trans (ih _)
      · exact h4

theorem Keeps.visit (hE : ∀ m n, Keeps (E.emit m n)) (n : AnyNode) : Keeps (visit E n) := by
  induction n using tree_induction with
  | h n ih =>
    rw [visit_eq]
    intro s
    have h0 := hE .enter n s
    simp only [walkNode]
    rcases h1 : E.emit .enter n s with ⟨s2, (a | e' | _)⟩ <;> rw [h1] at h0
    · cases a with
      | continue_ =>
        have h3 := Keeps.kids (only := n.onlyError) hP hQ ih s2
        simp only
        rcases h2 : walkKids E n.onlyError (Verif.visit E) (Verif.kids n) s2 with ⟨s3, (k | e' | _)⟩ <;>
          rw [h2] at h3
        · cases k with
          | exit => exact (h0.trans h3).trans (hE _ _ _)
          | done => exact h0.trans h3
          | skip => exact h0.trans h3
        · exact h0.trans h3
        · exact h0.trans h3
      | skip =>
        simp only
        split
        · exact h0.trans (hE _ _ _)
        · exact h0
    · simp only
      split
      · exact h0.trans (hE _ _ _)
      · exact h0
    · exact h0

theorem Keeps.visitW (hE : ∀ m n, Keeps (E.emit m n)) {α : Type} {mk : α → AnyNode} {f : W α → M SrState TR}
    (hf : IsKid E (Verif.visit E) mk f) (w : W α) : Keeps (f w) := by
  rw [hf]; exact Keeps.child hP hQ (Keeps.visit hP hQ hE _)

end

theorem Keeps.list {α : Type} {f : α → M SrState TR} (h : ∀ a, Keeps (f a)) (l : List α) : Keeps (visitList f l) := by
  induction l with
  | nil => exact Keeps.cont
  | cons a l ih => exact (h a).then ih
theorem Keeps.opt {α : Type} {f : α → M SrState TR} (h : ∀ a, Keeps (f a)) (o : Option α) : Keeps (visitOpt f o) := by
  cases o with
  | none => exact Keeps.cont
  | some a => exact h a

section
variable {dbg : StackObj → Str}

theorem keeps_popIdent : Keeps (popIdent dbg) := by
  intro s; unfold popIdent; split <;> exact .refl _
theorem keeps_popVar : Keeps (popVar dbg) := by
  intro s; unfold popVar; split <;> exact .refl _
theorem keeps_popType : Keeps (popType dbg) := by
  intro s; unfold popType; split <;> exact .refl _
theorem keeps_pushObj (x : StackObj) : Keeps (SrState.pushObj x) := fun _ => .refl _
theorem keeps_intoType (t : SrType) : Keeps (intoType t) := by
  intro s; unfold intoType; split <;> exact .refl _
theorem keeps_identToType : Keeps (identToType dbg) := keeps_popIdent.bind fun _ => keeps_pushObj _
theorem keeps_makeMap : Keeps (makeMap dbg) :=
  keeps_popType.bind fun _ => keeps_popType.bind fun _ => keeps_pushObj _

theorem keeps_collectArgs {α : Type} {f : α → M SrState TR} (h : ∀ a, Keeps (f a)) (l : List α)
    (main : SrType) : Keeps (collectArgs dbg f l main) := by
  induction l generalizing main with
  | nil => exact Keeps.pure _
  | cons a l ih => exact (h a).then (keeps_popType.bind fun _ => ih _)

theorem keeps_genericType {α : Type} {lead : M SrState TR} {f : α → M SrState TR}
    (hl : Keeps lead) (h : ∀ a, Keeps (f a)) (l : List α) : Keeps (genericType dbg lead f l) := by
  refine hl.then (keeps_identToType.then ?_)
  cases l with
  | nil => exact Keeps.pure _
  | cons a l => exact keeps_popType.bind fun _ => (keeps_collectArgs h _ _).bind fun _ => keeps_pushObj _

theorem keeps_collectVars {α : Type} {f : α → M SrState TR} (h : ∀ a, Keeps (f a)) (l : List α) :
    Keeps (collectVars dbg f l) := by
  induction l with
  | nil => exact Keeps.pure _
  | cons a l ih => exact (h a).then (keeps_popVar.bind fun _ => ih.bind fun _ => Keeps.pure _)

theorem keeps_collectInitParams {α : Type} {f : α → M SrState TR} (h : ∀ a, Keeps (f a)) (l : List α) :
    Keeps (collectInitParams dbg f l) := by
  induction l with
  | nil => exact Keeps.pure _
  | cons a l ih => exact (h a).then (keeps_popVar.bind fun x =>
      Keeps.then (fun s => by simp [Extends]) ih)

theorem keeps_emitSr {V : Emitter SrState} (hP : ∀ a b s, V.push a b s = s) (hQ : ∀ s, V.pop s = s)
    (hV : ∀ m n, Keeps (V.emit m n)) (mode : Mode)
    (n : AnyNode) : Keeps (emitSr dbg V mode n) := by
  have K {α : Type} {mk : α → AnyNode} {f : W α → M SrState TR} (hf : IsKid V (visit V) mk f) (w : W α) :=
    Keeps.visitW hP hQ hV hf w
  have push := keeps_pushObj
  have i2t := keeps_identToType (dbg := dbg)
  have mm := keeps_makeMap (dbg := dbg)
  have sk := Keeps.skip 
  have co := Keeps.cont 
  have pa := Keeps.panic (α := TR)
  have decl : ∀ (x : Str), Keeps ((popType dbg).bind fun ty => (intoType ty).bind fun ty =>
      (SrState.pushObj (.varDecl (.mk x ty))).andThen M.skip) := fun x =>
    keeps_popType.bind fun _ => (keeps_intoType _).bind fun _ => (push _).then sk
  cases n <;> try (first | exact sk | exact co | exact pa)
  case typeNameId n =>
    cases mode <;> cases n <;> first | exact co | exact (push _).then co
  case metaId n => cases n <;> first | exact co | exact (push _).then sk
  case mapKey n =>
    refine Keeps.then ?_ (i2t.then sk)
    cases n <;> first | exact K (isKid_metaId V) _ | exact K (isKid_addrType V) _
  case mapValue n =>
    cases mode
    · cases n
      · exact (K (isKid_metaId V) _).then (i2t.then sk)
      · exact (K (isKid_mapEntry V) _).then (mm.then sk)
      · exact (K (isKid_mapValueAllowing V) _).then sk
      · exact (K (isKid_addrType V) _).then sk
    · exact sk
  case typeArg n =>
    cases n
    · exact (K (isKid_scillaType V) _).then sk
    · exact (K (isKid_metaId V) _).then (i2t.then sk)
    · exact pa
    · exact (K (isKid_addrType V) _).then sk
    · exact (K (isKid_mapKey V) _).then ((K (isKid_mapValue V) _).then (mm.then sk))
  case scillaType n =>
    cases n
    · exact (keeps_genericType (K (isKid_metaId V) _) (K (isKid_typeArg V)) _).then sk
    · exact (K (isKid_mapKey V) _).then ((K (isKid_mapValue V) _).then (mm.then sk))
    · exact pa
    · exact (K (isKid_scillaType V) _).then sk
    · exact (K (isKid_addrType V) _).then sk
    · exact pa
    · exact pa
  case addrField n =>
    obtain ⟨i, t⟩ := n
    cases mode
    · simp only [emitSr]
      split
      · exact (K (isKid_scillaType V) _).then (decl _)
      · exact sk
    · exact sk
  case addrType n =>
    obtain ⟨i, tn, fs⟩ := n
    cases mode
    · exact (K (isKid_typeNameId V) _).then (i2t.then (keeps_popType.bind fun _ =>
        (keeps_collectVars (K (isKid_addrField V)) _).bind fun _ => (push _).then sk))
    · exact sk
  case componentId n => cases n <;> exact (push _).then sk
  case compParams n =>
    cases mode
    · exact (keeps_collectInitParams (K (isKid_paramPair V)) _).then co
    · exact co
  case typedId n => exact (K (isKid_typeAnn V) _).then (decl _)
  case contractDef n =>
    exact (K (isKid_typeNameId V) _).then (Keeps.then (fun s => by simp [Extends]) ((K (isKid_compParams V) _).then
      ((Keeps.opt (K (isKid_withConstraint V)) _).then ((Keeps.list (K (isKid_contractField V)) _).then
        ((Keeps.list (K (isKid_compDef V)) _).then sk)))))
  case contractField n =>
    exact (K (isKid_typedId V) _).then (keeps_popVar.bind fun _ => (K (isKid_fullExpr V) _).then
      (Keeps.then (fun s => by simp [Extends]) sk))
  case transDef n =>
    refine (K (isKid_componentId V) _).then ((keeps_collectVars (K (isKid_paramPair V)) _).bind fun _ =>
      keeps_popIdent.bind fun x => ?_)
    obtain ⟨name, kind⟩ := x
    simp only
    split
    · exact Keeps.then (fun s => by simp [Extends]) sk
    · exact pa
  case mapValueArgs n =>
    cases mode
    · cases n
      · exact (K (isKid_mapValueAllowing V) _).then sk
      · exact (K (isKid_metaId V) _).then (i2t.then sk)
      · exact pa
    · exact sk
  case mapValueAllowing n =>
    cases mode
    · cases n
      · exact (K (isKid_mapValue V) _).then sk
      · exact (keeps_genericType (K (isKid_metaId V) _) (K (isKid_mapValueArgs V)) _).then sk
    · exact sk

theorem keeps_srEmitter (k : Nat) : ∀ m n, Keeps ((srEmitter dbg k).emit m n) := by
  induction k with
  | zero => exact fun _ _ => Keeps.panic
  | succ k ih => exact fun m n => keeps_emitSr (by cases k <;> intros <;> rfl) (by cases k <;> intros <;> rfl) ih m n

end

namespace Pile

/-- `Sim.contract` from any contract -/
theorem sim_contractFrom {dbg : StackObj → Str} (p : NodeProgram) :
    Sim dbg (fun c c' _ r => c' = ⟨r.name, c.initParams ++ r.initParams, c.fields ++ r.fields,
        c.transitions ++ r.transitions⟩)
      (evContract dbg p.contractDefinition.node) (Pile.contract p) := by
  rw [evContract_T]
  simp only [evIface, Pile.contract]
  refine Sim.seq (Sim.typeName _) ?_
  refine Sim.change (u := fun c => { c with name := p.contractDefinition.node.contractName.node.display })
    (Q := fun c c' _ r => c.name = p.contractDefinition.node.contractName.node.display →
      c' = ⟨r.name, c.initParams ++ r.initParams, c.fields ++ r.fields, c.transitions ++ r.transitions⟩) ?_ ?_
  · refine Sim.next (Sim.init _) fun _ ps => ?_
    refine Sim.next (Sim.again _) fun _ _ => ?_
    refine Sim.next (Sim.contractFields _) fun _ fs => ?_
    rw [← M.bind_pure (evTranssT dbg _)]
    refine Sim.next (Sim.transitions _) fun _ ts => fun s => ⟨_, rfl, fun c3 h3 c2 h2 c1 h1 c0 h0 hc => ?_⟩
    subst h0
    rw [h3, h2, h1.1]
    simp [hc]
  · rintro c c' _ r h
    exact h rfl

end Pile
end Verif
