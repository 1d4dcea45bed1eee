import Verif.Proofs.Walk
import Verif.Spec.WalkEvents
/-
Runs of the visitor compared with the specified sequence of calls.
-/
namespace Verif

/-- the calls for one step of the visit of the children -/
def kidEv (skip : AnyNode → Bool) : Kid → List Event
  | .child _ pos c => around pos (walkSkip skip c)
  | .push s e => [.push s e]
  | .panic => []

theorem walkSkip_eq (skip : AnyNode → Bool) (n : AnyNode) : walkSkip skip n =
    .enter n :: (if skip n then (if n.isAddress then [.exit n] else [])
      else (kids n).flatMap (kidEv skip) ++ [.exit n]) := by
  rw [walkSkip]
  congr 3
  rw [List.flatMap_subtype (g := kidEv skip)]
  · rw [List.unattach_attach]
  · intro k _
    cases k <;> rfl

theorem walk_eq (n : AnyNode) :
    walk n = .enter n :: ((kids n).flatMap (kidEv fun _ => false) ++ [.exit n]) := by
  rw [walk, walkSkip_eq]
  simp

/-- the child visited in a step -/
def kidPre : Kid → List AnyNode
  | .child _ _ c => preorder c
  | _ => []
def kidPost : Kid → List AnyNode
  | .child _ _ c => postorder c
  | _ => []

theorem preorder_eq (n : AnyNode) : preorder n = n :: (kids n).flatMap kidPre := by
  rw [preorder]
  congr 1
  rw [List.flatMap_subtype (g := kidPre)]
  · rw [List.unattach_attach]
  · intro k _
    cases k <;> rfl

theorem postorder_eq (n : AnyNode) : postorder n = (kids n).flatMap kidPost ++ [n] := by
  rw [postorder]
  congr 1
  rw [List.flatMap_subtype (g := kidPost)]
  · rw [List.unattach_attach]
  · intro k _
    cases k <;> rfl

/-- Induction over a tree: a node may use the claim for its children. -/
theorem tree_induction {P : AnyNode → Prop}
    (h : ∀ n, (∀ how pos c, .child how pos c ∈ kids n → P c) → P n) (n : AnyNode) : P n :=
  h n fun how pos c hc => tree_induction h c
termination_by sizeOf n
decreasing_by exact kid_lt hc

theorem after_append {σ : Type} (E : Emitter σ) (a b : List Event) (s : σ) :
    after E (a ++ b) s = after E b (after E a s) := by
  induction a generalizing s with
  | nil => rfl
  | cons e a ih => cases e <;> exact ih _

/-! ### Where a `let` of a library can occur -/

/-- all children in the list satisfy `P`, and there is no panic -/
def AllKids (P : AnyNode → Prop) (ks : List Kid) : Prop :=
  ∀ k ∈ ks, match k with
    | .child _ _ c => P c
    | .push _ _ => True
    | .panic => False

theorem AllKids.nil {P : AnyNode → Prop} : AllKids P [] := by simp [AllKids]
theorem AllKids.cons {P : AnyNode → Prop} {α : Type} {how : OnSkip} {mk : α → AnyNode} {w : W α}
    {ks : List Kid} (h : P (mk w.node)) (hk : AllKids P ks) : AllKids P (kid how mk w :: ks) := by
  intro k hk'
  rcases List.mem_cons.1 hk' with rfl | h'
  · exact h
  · exact hk _ h'
theorem AllKids.cons' {P : AnyNode → Prop} {how : OnSkip} {c : AnyNode} {pos : Option (Pos × Pos)}
    {ks : List Kid} (h : P c) (hk : AllKids P ks) : AllKids P (.child how pos c :: ks) := by
  intro k hk'
  rcases List.mem_cons.1 hk' with rfl | h'
  · exact h
  · exact hk _ h'
theorem AllKids.push {P : AnyNode → Prop} {a b : Pos} {ks : List Kid} (hk : AllKids P ks) :
    AllKids P (.push a b :: ks) := by
  intro k hk'
  rcases List.mem_cons.1 hk' with rfl | h'
  · trivial
  · exact hk _ h'
theorem AllKids.append {P : AnyNode → Prop} {a b : List Kid} (ha : AllKids P a) (hb : AllKids P b) :
    AllKids P (a ++ b) := by
  intro k hk'
  rcases List.mem_append.1 hk' with h' | h'
  · exact ha _ h'
  · exact hb _ h'
theorem AllKids.list {P : AnyNode → Prop} {α : Type} {how : OnSkip} {mk : α → AnyNode} {l : List (W α)}
    (h : ∀ w ∈ l, P (mk w.node)) : AllKids P (kidsL how mk l) := by
  intro k hk'
  obtain ⟨w, hw, rfl⟩ := List.mem_map.1 hk'
  exact h w hw
theorem AllKids.map {P : AnyNode → Prop} {α : Type} {how : OnSkip} {mk : α → AnyNode} {l : List α}
    (h : ∀ w ∈ l, P (mk w)) : AllKids P (l.map fun a => .child how none (mk a)) := by
  intro k hk'
  obtain ⟨w, hw, rfl⟩ := List.mem_map.1 hk'
  exact h w hw
theorem AllKids.opt {P : AnyNode → Prop} {α : Type} {how : OnSkip} {mk : α → AnyNode} {o : Option (W α)}
    (h : ∀ w, o = some w → P (mk w.node)) : AllKids P (kidsO how mk o) := by
  intro k hk'
  obtain ⟨w, hw, rfl⟩ := List.mem_map.1 hk'
  exact h w (Option.mem_toList.1 hw)

macro "nolet" : tactic => `(tactic| (
  simp only [kids]
  repeat' first
    | exact AllKids.nil
    | refine AllKids.push ?_
    | refine AllKids.cons id ?_
    | refine AllKids.cons' id ?_
    | refine AllKids.append ?_ ?_
    | refine AllKids.opt (fun _ _ => id)
    | refine AllKids.list (fun _ _ => id)
    | refine AllKids.map (fun _ _ => id)))

theorem kids_noLet (n : AnyNode) (h : ¬ n.HasLet) : AllKids (fun c => ¬ c.HasLet) (kids n) := by
  cases n with
  | librarySingle n =>
    cases n with
    | letDefinition x t e => exact absurd trivial h
    | typeDefinition t cs => nolet
  | libraryDef n =>
    refine AllKids.list fun w hw hl => h ⟨w, hw, ?_⟩
    rcases hn : w.node with ⟨x, t, e⟩ | _
    · exact ⟨_, _, _, rfl⟩
    · rw [hn] at hl; exact absurd hl id
  | program n =>
    simp only [kids]
    refine AllKids.append (AllKids.append (AllKids.opt fun _ _ => id) (AllKids.opt fun w hw hl => ?_))
      (AllKids.cons id AllKids.nil)
    exact h ⟨w, hw, hl⟩
  | byteStr n => nolet
  | typeNameId n => cases n <;> nolet
  | importedName n => cases n <;> nolet
  | importDecls n => nolet
  | metaId n => cases n <;> nolet
  | varId n => cases n <;> nolet
  | builtinArgs n => nolet
  | mapKey n => cases n <;> nolet
  | mapValue n => cases n <;> nolet
  | typeArg n => cases n <;> nolet
  | scillaType n => cases n <;> nolet
  | mapEntry n => cases n; nolet
  | addrField n => cases n; nolet
  | addrType n => cases n; nolet
  | fullExpr n => cases n <;> nolet
  | messageEntry n => cases n <;> nolet
  | pmExprClause n => cases n; nolet
  | atomic n => cases n <;> nolet
  | contractTypeArgs n => nolet
  | valueLit n => cases n <;> nolet
  | mapAccess n => nolet
  | pattern n => cases n <;> nolet
  | argPattern n => cases n <;> nolet
  | pmClause n => cases n; nolet
  | bcFetchArgs n => nolet
  | statement n => cases n <;> nolet
  | remoteFetch n => cases n <;> nolet
  | componentId n => cases n <;> nolet
  | compParams n => nolet
  | paramPair n => nolet
  | compBody n => nolet
  | stmtBlock n => cases n; nolet
  | typedId n => nolet
  | typeAnn n => nolet
  | contractDef n => nolet
  | contractField n => nolet
  | withConstraint n => nolet
  | compDef n => cases n <;> nolet
  | procDef n => nolet
  | transDef n => nolet
  | typeAlt n => cases n <;> nolet
  | mapValueArgs n => cases n <;> nolet
  | mapValueAllowing n => cases n <;> nolet

/-! ### Visitors that continue or skip -/

section
variable {σ : Type} (E : Emitter σ)

theorem walkKids_run {skip : AnyNode → Bool} {only : Option Str} {ks : List Kid}
    (h : AllKids (fun c => ∀ s, visit E c s = (after E (walkSkip skip c) s, .ok .continue_)) ks) (s : σ) :
    walkKids E only (visit E) ks s = (after E (ks.flatMap (kidEv skip)) s, .ok .exit) := by
  induction ks generalizing s with
  | nil => rfl
  | cons k ks ih =>
    have hk := h k (by simp)
    have ih := ih (fun k' hk' => h k' (by simp [hk']))
    rw [List.flatMap_cons, after_append]
    cases k with
    | panic => exact absurd hk id
    | push a b => simp only [walkKids, ih]; rfl
    | child how pos c =>
      have : walkChild E pos (visit E c) s = (after E (around pos (walkSkip skip c)) s, .ok .continue_) := by
        rcases pos with _ | ⟨a, b⟩
        · exact hk s
        · simp only [walkChild, withPos, hk, around]
          simp only [after, after_append]
      simp only [walkKids, this, ih]
      rfl

theorem visit_run {skip : AnyNode → Bool} (hE : Skips E skip) (n : AnyNode) (hn : ¬ n.HasLet) (s : σ) :
    visit E n s = (after E (walkSkip skip n) s, .ok .continue_) := by
  induction n using tree_induction generalizing s with
  | h n ih =>
    have hk : AllKids (fun c => ∀ s, visit E c s = (after E (walkSkip skip c) s, .ok .continue_)) (kids n) := by
      intro k hk
      have := kids_noLet n hn k hk
      cases k with
      | child how pos c => exact fun s => ih how pos c hk this s
      | push a b => trivial
      | panic => exact this
    rw [visit_eq, walkNode, walkSkip_eq]
    have he := hE.enter n s
    rcases h1 : E.emit .enter n s with ⟨s1, r⟩
    rw [h1] at he
    simp only at he
    subst he
    by_cases hs : skip n
    · simp only [hs, if_true]
      by_cases ha : n.isAddress
      · simp only [ha, if_true, after, h1]
        have := hE.exit n s1
        rcases h2 : E.emit .exit n s1 with ⟨s2, r⟩
        rw [h2] at this
        simp only at this
        simp [this]
      · simp [ha, after, h1]
    · simp only [hs, Bool.false_eq_true, if_false]
      rw [walkKids_run E hk]
      simp only [after, h1, after_append]
      have := hE.exit n (after E ((kids n).flatMap (kidEv skip)) s1)
      rcases h2 : E.emit .exit n (after E ((kids n).flatMap (kidEv skip)) s1) with ⟨s2, r⟩
      rw [h2] at this
      simp only at this
      simp [this]

theorem walkKids_panic {only : Option Str} {ks : List Kid} {s : σ}
    (h : ∃ a k b, ks = a ++ k :: b ∧ AllKids (fun c => ∀ s, (visit E c s).2 = .ok .continue_) a ∧
      (k = .panic ∨ ∃ how pos c, k = .child how pos c ∧ ∀ s, (visit E c s).2 = .panic)) :
    (walkKids E only (visit E) ks s).2 = .panic := by
  obtain ⟨a, k, b, rfl, ha, hk⟩ := h
  induction a generalizing s with
  | nil =>
    rcases hk with rfl | ⟨how, pos, c, rfl, hc⟩
    · rfl
    · have : ∀ s, (walkChild E pos (visit E c) s).2 = .panic := by
        intro s
        rcases pos with _ | ⟨x, y⟩
        · exact hc s
        · have := hc (E.push x y s)
          simp only [walkChild, withPos]
          rcases h2 : visit E c (E.push x y s) with ⟨s2, r⟩
          rw [h2] at this
          simp only at this
          subst this
          rfl
      have h3 := this s
      simp only [List.nil_append, walkKids]
      rcases h2 : walkChild E pos (visit E c) s with ⟨s2, r⟩
      rw [h2] at h3
      simp only at h3
      subst h3
      rfl
  | cons k' a ih =>
    have h1 := ha k' (by simp)
    have ih := fun s => ih (s := s) (fun x hx => ha x (by simp [hx]))
    cases k' with
    | panic => rfl
    | push x y => exact ih _
    | child how pos c =>
      have : ∀ s, (walkChild E pos (visit E c) s).2 = .ok .continue_ := by
        intro s
        rcases pos with _ | ⟨x, y⟩
        · exact h1 s
        · have := h1 (E.push x y s)
          simp only [walkChild, withPos]
          rcases h2 : visit E c (E.push x y s) with ⟨s2, r⟩
          rw [h2] at this
          simp only at this
          subst this
          rfl
      have h3 := this s
      simp only [List.cons_append, walkKids]
      rcases h2 : walkChild E pos (visit E c) s with ⟨s2, r⟩
      rw [h2] at h3
      simp only at h3
      subst h3
      exact ih _

theorem visit_panic_of_kids (hE : Continues E) {n : AnyNode}
    (h : ∃ a k b, kids n = a ++ k :: b ∧ AllKids (fun c => ∀ s, (visit E c s).2 = .ok .continue_) a ∧
      (k = .panic ∨ ∃ how pos c, k = .child how pos c ∧ ∀ s, (visit E c s).2 = .panic)) (s : σ) :
    (visit E n s).2 = .panic := by
  rw [visit_eq, walkNode]
  have he := hE .enter n s
  rcases h1 : E.emit .enter n s with ⟨s1, r⟩
  rw [h1] at he
  simp only at he
  subst he
  simp only
  have := walkKids_panic E (only := n.onlyError) (s := s1) h
  rcases h2 : walkKids E n.onlyError (visit E) (kids n) s1 with ⟨s2, r⟩
  rw [h2] at this
  simp only at this
  subst this
  rfl

theorem skips_of_continues (hE : Continues E) : Skips E (fun _ => false) :=
  ⟨fun n s => hE _ _ _, fun n s => hE _ _ _⟩

theorem visit_ok (hE : Continues E) (n : AnyNode) (hn : ¬ n.HasLet) (s : σ) :
    (visit E n s).2 = .ok .continue_ := by
  rw [visit_run E (skips_of_continues E hE) n hn]

/-- the first element of a list that satisfies a property -/
theorem first_split {α : Type} (P : α → Prop) (l : List α) (h : ∃ x ∈ l, P x) :
    ∃ a x b, l = a ++ x :: b ∧ P x ∧ ∀ y ∈ a, ¬ P y := by
  induction l with
  | nil => simp at h
  | cons y l ih =>
    by_cases hy : P y
    · exact ⟨[], y, l, rfl, hy, by simp⟩
    · have : ∃ x ∈ l, P x := by
        obtain ⟨x, hx, hp⟩ := h
        rcases List.mem_cons.1 hx with rfl | hx
        · exact absurd hp hy
        · exact ⟨x, hx, hp⟩
      obtain ⟨a, x, b, rfl, hp, ha⟩ := ih this
      refine ⟨y :: a, x, b, rfl, hp, ?_⟩
      intro z hz
      rcases List.mem_cons.1 hz with rfl | hz
      · exact hy
      · exact ha z hz

theorem visit_let (hE : Continues E) (n : AnyNode) (hn : n.HasLet) (s : σ) : (visit E n s).2 = .panic := by
  have single : ∀ x t e s, (visit E (.librarySingle (.letDefinition x t e)) s).2 = .panic := by
    intro x t e s
    refine visit_panic_of_kids E hE ⟨[kid .go .fullExpr e], .panic, [], rfl, ?_, .inl rfl⟩ s
    exact AllKids.cons (fun s => visit_ok E hE _ (by simp [AnyNode.HasLet]) s) AllKids.nil
  have lib : ∀ l : NodeLibraryDefinition,
      (∃ d ∈ l.definitions, ∃ x t e, d.node = .letDefinition x t e) →
      ∀ s, (visit E (.libraryDef l) s).2 = .panic := by
    intro l hl s
    obtain ⟨a, d, b, hd, ⟨x, t, e, hx⟩, ha⟩ := first_split _ _ hl
    refine visit_panic_of_kids E hE ⟨kidsL .go .librarySingle a, kid .go .librarySingle d,
      kidsL .go .librarySingle b, ?_, ?_, .inr ⟨_, _, _, rfl, ?_⟩⟩ s
    · simp [kids, kidsL, hd]
    · refine AllKids.list fun w hw s => visit_ok E hE _ ?_ s
      intro hl
      refine ha w hw ?_
      rcases hn : w.node with ⟨x, t, e⟩ | _
      · exact ⟨_, _, _, rfl⟩
      · rw [hn] at hl; exact absurd hl id
    · rw [hx]; exact single x t e
  cases n with
  | librarySingle n =>
    cases n with
    | letDefinition x t e => exact single x t e s
    | typeDefinition t cs => exact absurd hn id
  | libraryDef l => exact lib l hn s
  | program p =>
    obtain ⟨l, hl, hd⟩ := hn
    refine visit_panic_of_kids E hE ⟨kidsO .ret .importDecls p.importDeclarations, kid .ret .libraryDef l,
      [kid .stop .contractDef p.contractDefinition], ?_, ?_, .inr ⟨_, _, _, rfl, lib _ hd⟩⟩ s
    · simp [kids, hl, kidsO]
    · exact AllKids.opt fun w _ s => visit_ok E hE _ (by simp [AnyNode.HasLet]) s
  | _ => exact absurd hn id

end

/-! ### The sequence of calls -/

theorem entered_append (a b : List Event) : entered (a ++ b) = entered a ++ entered b := by
  simp [entered]
theorem exited_append (a b : List Event) : exited (a ++ b) = exited a ++ exited b := by
  simp [exited]

theorem entered_around (pos) (es : List Event) : entered (around pos es) = entered es := by
  rcases pos with _ | ⟨a, b⟩
  · rfl
  · simp [around, entered]
theorem exited_around (pos) (es : List Event) : exited (around pos es) = exited es := by
  rcases pos with _ | ⟨a, b⟩
  · rfl
  · simp [around, exited]

theorem entered_walk (n : AnyNode) : entered (walk n) = preorder n := by
  induction n using tree_induction with
  | h n ih =>
    rw [walk_eq, preorder_eq]
    have : entered ((kids n).flatMap (kidEv fun _ => false)) = (kids n).flatMap kidPre := by
      revert ih
      generalize kids n = ks
      intro ih
      induction ks with
      | nil => rfl
      | cons k ks ih' =>
        rw [List.flatMap_cons, List.flatMap_cons, entered_append,
          ih' (fun how pos c hc => ih how pos c (by simp [hc]))]
        congr 1
        cases k with
        | child how pos c =>
          simp only [kidEv, kidPre, entered_around]
          exact ih how pos c (by simp)
        | push a b => rfl
        | panic => rfl
    simp only [entered, List.filterMap_cons, List.filterMap_append, List.filterMap_nil] at this ⊢
    rw [this]
    simp

theorem exited_walk (n : AnyNode) : exited (walk n) = postorder n := by
  induction n using tree_induction with
  | h n ih =>
    rw [walk_eq, postorder_eq]
    have : exited ((kids n).flatMap (kidEv fun _ => false)) = (kids n).flatMap kidPost := by
      revert ih
      generalize kids n = ks
      intro ih
      induction ks with
      | nil => rfl
      | cons k ks ih' =>
        rw [List.flatMap_cons, List.flatMap_cons, exited_append,
          ih' (fun how pos c hc => ih how pos c (by simp [hc]))]
        congr 1
        cases k with
        | child how pos c =>
          simp only [kidEv, kidPost, exited_around]
          exact ih how pos c (by simp)
        | push a b => rfl
        | panic => rfl
    simp only [exited, List.filterMap_cons, List.filterMap_append, List.filterMap_nil] at this ⊢
    rw [this]

theorem Nested.append {a b : List Event} (ha : Nested a) (hb : Nested b) : Nested (a ++ b) := by
  induction ha with
  | nil => exact hb
  | push _ ih => exact .push ih
  | pop _ ih => exact .pop ih
  | @node n es rest _ _ _ ih2 =>
    rw [List.cons_append, List.append_assoc, List.cons_append]
    exact .node (by assumption) ih2

theorem nested_walk (n : AnyNode) : Nested (walk n) := by
  induction n using tree_induction with
  | h n ih =>
    rw [walk_eq]
    refine Nested.node ?_ .nil
    revert ih
    generalize kids n = ks
    intro ih
    induction ks with
    | nil => exact .nil
    | cons k ks ih' =>
      rw [List.flatMap_cons]
      refine Nested.append ?_ (ih' (fun how pos c hc => ih how pos c (by simp [hc])))
      cases k with
      | child how pos c =>
        have := ih how pos c (by simp)
        rcases pos with _ | ⟨a, b⟩
        · exact this
        · exact .push (Nested.append this (.pop .nil))
      | push a b => exact .push .nil
      | panic => exact .nil

end Verif
