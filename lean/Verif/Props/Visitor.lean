import Verif.Proofs.WalkStack
import Verif.Proofs.WalkError
import Verif.Props.Emitter1
/-
The tree walk `AstVisitor::visit` with an arbitrary implementation of `AstConverting`: C34–C38.
Specification: Verif/Spec/Walk.lean (which children are visited, in which order) and
Verif/Spec/WalkEvents.lean (the calls a visitor should see).
-/
namespace Verif

variable {σ : Type}

/-! ## Sample trees and visitors -/

/-- a node at a made-up place -/
def at_ {α : Type} (k : Nat) (a : α) : W α := ⟨a, ⟨k, 1, k⟩, ⟨k + 1, 1, k + 1⟩⟩

/-- `Map M.T Int32` as a type -/
def sampleType : AnyNode :=
  .scillaType (.mapType
    (at_ 1 (.genericMapKey (at_ 2 (.metaNameInNamespace (at_ 3 (.typeOrEnumLikeIdentifier (at_ 9 <| str! "M")))
      (at_ 4 (.typeOrEnumLikeIdentifier (at_ 9 <| str! "T")))))))
    (at_ 5 (.mapValueTypeOrEnumLikeIdentifier (at_ 6 (.metaName (at_ 7 (.typeOrEnumLikeIdentifier (at_ 9 <| str! "Int32"))))))))

/-- `{ a : b }` -/
def sampleMessage : AnyNode :=
  .fullExpr (.message [at_ 1 (.messageVariable (at_ 2 (.variableName (at_ 9 <| str! "a"))) (at_ 3 (.variableName (at_ 9 <| str! "b"))))])

/-- `ByStr20 with end` -/
def sampleAddress : AnyNode :=
  .addrType (.mk (at_ 1 (.typeOrEnumLikeIdentifier (at_ 9 <| str! "ByStr20"))) (at_ 2 (str! "")) [])

/-- the visitor that writes down all calls made on it -/
def recorder : Emitter (List Event) where
  push a b s := s ++ [.push a b]
  pop s := s ++ [.pop]
  emit m n s := (s ++ [match m with | .enter => .enter n | .exit => .exit n], .ok .continue_)

theorem recorder_continues : Continues recorder := fun _ _ _ => rfl

theorem after_recorder (es s : List Event) : after recorder es s = s ++ es := by
  induction es generalizing s with
  | nil => simp [after]
  | cons e es ih => cases e <;> simp [after, recorder] <;> (rw [← recorder, ih]; simp)

/-! ## C34 — a full walk -/

/-- C34: on every tree without a `let` of a library, a visit with a visitor that always continues makes
exactly the specified calls, in the specified order, and returns `Ok(Continue)`. -/
theorem C34_walk (E : Emitter σ) (hE : Continues E) (n : AnyNode) (hn : ¬ n.HasLet) (s : σ) :
    visit E n s = (after E (walk n) s, .ok .continue_) :=
  visit_run E (skips_of_continues E hE) n hn s

/-- C34, as a record of the calls. -/
theorem C34_recorded (n : AnyNode) (hn : ¬ n.HasLet) :
    visit recorder n [] = (walk n, .ok .continue_) := by
  rw [C34_walk recorder recorder_continues n hn, after_recorder, List.nil_append]

/-- C34: the Enter and Exit calls are properly nested. -/
theorem C34_nested (n : AnyNode) : Nested (walk n) := nested_walk n

/-- C34: Enter is called exactly once for every visited node, parents before children, Exit exactly once,
children before parents. -/
theorem C34_order (n : AnyNode) : entered (walk n) = preorder n ∧ exited (walk n) = postorder n :=
  ⟨entered_walk n, exited_walk n⟩

theorem perm_pre_post (n : AnyNode) : (preorder n).Perm (postorder n) := by
  induction n using tree_induction with
  | h n ih =>
    rw [preorder_eq, postorder_eq]
    refine List.Perm.trans ?_ (List.perm_append_singleton n _).symm
    refine List.Perm.cons n ?_
    revert ih
    generalize kids n = ks
    intro ih
    induction ks with
    | nil => exact .nil
    | cons k ks ih' =>
      rw [List.flatMap_cons, List.flatMap_cons]
      refine List.Perm.append ?_ (ih' (fun how pos c hc => ih how pos c (by simp [hc])))
      cases k with
      | child how pos c => exact ih how pos c (by simp)
      | push a b => exact .nil
      | panic => exact .nil

/-- C34: the nodes entered are the nodes exited, with the same multiplicity. -/
theorem C34_same_nodes (n : AnyNode) : (entered (walk n)).Perm (exited (walk n)) := by
  rw [(C34_order n).1, (C34_order n).2]
  exact perm_pre_post n

/-- The walk of `Map M.T Int32`: eight nodes. -/
theorem C34_witness : ¬ sampleType.HasLet ∧ (preorder sampleType).length = 8 ∧ Continues recorder := by
  refine ⟨id, ?_, recorder_continues⟩
  simp [preorder_eq, kidPre, kids, sampleType, kid, at_]

/-! ## C35 — skipping -/

/-- C35: if Enter of a node returns `SkipChildren`, the visit returns `Ok(Continue)` in the state Enter
left: there is no other call, not even Exit. -/
theorem C35_skip (E : Emitter σ) (n : AnyNode) (s s1 : σ) (ha : n.isAddress = false)
    (h : E.emit .enter n s = (s1, .ok .skip)) : visit E n s = (s1, .ok .continue_) := by
  rw [visit_eq, walkNode, h]
  simp [ha]

/-- C35, the exception: for an address type Exit is called, and its result returned. -/
theorem C35_skip_address (E : Emitter σ) (n : AnyNode) (s s1 : σ) (ha : n.isAddress = true)
    (h : E.emit .enter n s = (s1, .ok .skip)) : visit E n s = E.emit .exit n s1 := by
  rw [visit_eq, walkNode, h]
  simp [ha]

/-- C35 for a whole tree: if Enter skips exactly the nodes selected by `skip`, the calls are those of the
walk without the subtrees below these nodes. -/
theorem C35_walk (E : Emitter σ) (skip : AnyNode → Bool) (hE : Skips E skip) (n : AnyNode)
    (hn : ¬ n.HasLet) (s : σ) : visit E n s = (after E (walkSkip skip n) s, .ok .continue_) :=
  visit_run E hE n hn s

/-- No call for a node below a skipped node: every node entered in a walk is the root or a child of a node
that is entered and not skipped. -/
theorem C35_no_descendant (skip : AnyNode → Bool) (n m : AnyNode) (h : m ∈ entered (walkSkip skip n)) :
    m = n ∨ ∃ p ∈ entered (walkSkip skip n), skip p = false ∧ ∃ how pos, .child how pos m ∈ kids p := by
  induction n using tree_induction with
  | h n ih =>
    by_cases hs : skip n
    · rw [walkSkip_eq] at h
      simp only [hs, if_true] at h
      have : m = n := by
        by_cases ha : n.isAddress <;> simpa [entered, ha] using h
      exact .inl this
    · have hs' : skip n = false := by simpa using hs
      have key : entered (walkSkip skip n) = n :: entered ((kids n).flatMap (kidEv skip)) := by
        rw [walkSkip_eq]
        simp [hs, entered]
      have sub : ∀ how pos c, .child how pos c ∈ kids n → ∀ x ∈ entered (walkSkip skip c),
          x ∈ entered (walkSkip skip n) := by
        intro how pos c hc x hx
        rw [key]
        refine List.mem_cons_of_mem _ ?_
        simp only [entered, List.mem_filterMap] at hx ⊢
        obtain ⟨e, he, hx⟩ := hx
        refine ⟨e, List.mem_flatMap.2 ⟨_, hc, ?_⟩, hx⟩
        rcases pos with _ | ⟨a, b⟩
        · exact he
        · exact List.mem_cons_of_mem _ (List.mem_append_left _ he)
      have h' := h
      rw [key] at h'
      rcases List.mem_cons.1 h' with rfl | h'
      · exact .inl rfl
      right
      simp only [entered, List.mem_filterMap] at h'
      obtain ⟨e, he, hx⟩ := h'
      obtain ⟨k, hk, hek⟩ := List.mem_flatMap.1 he
      cases k with
      | panic => simp [kidEv] at hek
      | push a b =>
        simp only [kidEv, List.mem_singleton] at hek
        subst hek
        simp at hx
      | child how pos c =>
        have hm : m ∈ entered (walkSkip skip c) := by
          rw [← entered_around pos]
          simp only [entered, List.mem_filterMap]
          exact ⟨e, hek, hx⟩
        rcases ih how pos c hk hm with rfl | ⟨p, hp, h1, h2⟩
        · exact ⟨n, by rw [key]; simp, hs', how, pos, hk⟩
        · exact ⟨p, sub how pos c hk p hp, h1, h2⟩

/-- a visitor that skips the children of meta identifiers -/
def skipMeta : AnyNode → Bool
  | .metaId _ => true
  | _ => false

/-- the recorder that skips the children of the nodes selected -/
def skipper (skip : AnyNode → Bool) : Emitter (List Event) where
  push a b s := s ++ [.push a b]
  pop s := s ++ [.pop]
  emit m n s := match m with
    | .enter => (s ++ [.enter n], .ok (if skip n then .skip else .continue_))
    | .exit => (s ++ [.exit n], .ok .continue_)

theorem C35_witness : Skips (skipper skipMeta) skipMeta ∧
    (entered (walkSkip skipMeta sampleType)).length = 5 ∧ (exited (walkSkip skipMeta sampleType)).length = 3 := by
  refine ⟨⟨fun _ _ => rfl, fun _ _ => rfl⟩, ?_, ?_⟩ <;>
    simp [walkSkip_eq, kidEv, kids, sampleType, kid, at_, skipMeta, entered, exited, around, AnyNode.isAddress]

/-! ## C36 — errors -/

/-- C36: the record of the calls does not change what a visitor does. -/
theorem C36_logged (E : Emitter σ) (n : AnyNode) (s : σ) (l : List Call) :
    (visit (logged E) n (s, l)).1.1 = (visit E n s).1 ∧ (visit (logged E) n (s, l)).2 = (visit E n s).2 :=
  same_visit E n s l

/-- C36: whatever the visitor does, its callbacks are called only for nodes of the tree. -/
theorem C36_calls_in_tree (E : Emitter σ) (n : AnyNode) (s : σ) :
    ∀ x ∈ (visit (logged E) n (s, [])).1.2, x.node ∈ preorder n := by
  obtain ⟨new, h1, h2⟩ := callsIn_visit E n s []
  rw [h1]
  exact h2

/-- C36: in every tree without argument lists of builtins (and type arguments of contract types), and for
every visitor: if the visit returns an error, the last callback returned this error, and no callback before
it failed; if the visit succeeds, no callback failed.  Here "failed" excludes the Enter of an address
type. -/
theorem C36_error_is_last (E : Emitter σ) (n : AnyNode) (hn : ∀ m ∈ preorder n, m.onlyError = none) (s : σ) :
    ∃ calls, (visit (logged E) n (s, [])).1.2 = calls ∧
      match (generalizing := false) (visit E n s).2 with
      | .ok _ => ∀ x ∈ calls, x.Fine
      | .err e => ∃ before m c, calls = before ++ [⟨m, c, .err e⟩] ∧ ∀ x ∈ before, x.Fine
      | .panic => (∀ x ∈ calls, x.Fine) ∨
          ∃ before m c, calls = before ++ [⟨m, c, .panic⟩] ∧ ∀ x ∈ before, x.Fine := by
  obtain ⟨new, h1, h2⟩ := logFits_visit E n hn s []
  refine ⟨new, h1, ?_⟩
  rw [(C36_logged E n s []).2] at h2
  revert h2
  cases (visit E n s).2 <;> exact id

/-- C36 without exception: in a tree that also has no address types, a callback that returns an error is
the last one called, and the visit returns its error. -/
theorem C36_abort (E : Emitter σ) (n : AnyNode)
    (hn : ∀ m ∈ preorder n, m.onlyError = none) (ha : ∀ m ∈ preorder n, m.isAddress = false) (s : σ)
    (before after : List Call) (m : Mode) (c : AnyNode) (e : Str)
    (h : (visit (logged E) n (s, [])).1.2 = before ++ ⟨m, c, .err e⟩ :: after) :
    after = [] ∧ (visit E n s).2 = .err e ∧ ∀ x ∈ before, ∃ r, x.result = .ok r := by
  have hin := C36_calls_in_tree E n s
  rw [h] at hin
  have hc : c ∈ preorder n := hin ⟨m, c, .err e⟩ (by simp)
  obtain ⟨calls, h1, h2⟩ := C36_error_is_last E n hn s
  rw [h] at h1
  subst h1
  have bad : ∀ x : Call, x.node ∈ preorder n → x.Fine → ∃ r, x.result = .ok r := by
    intro x hx hf
    unfold Call.Fine at hf
    rcases hr : x.result with r | r | _ <;> rw [hr] at hf
    · exact ⟨r, rfl⟩
    · have := ha _ hx
      simp [hf.2] at this
    · exact absurd hf id
  have nf : ¬ (⟨m, c, .err e⟩ : Call).Fine := by
    intro hf
    obtain ⟨r, hr⟩ := bad _ hc hf
    simp at hr
  rcases hr : (visit E n s).2 with r | e' | _ <;> rw [hr] at h2
  · exact absurd (h2 _ (by simp)) nf
  · obtain ⟨b, m', c', hb, hf⟩ := h2
    rcases List.append_eq_append_iff.1 hb with ⟨x, hx1, hx2⟩ | ⟨x, hx1, hx2⟩
    · rcases x with _ | ⟨y, x⟩
      · simp only [List.nil_append, List.cons.injEq] at hx2
        obtain ⟨hx2, rfl⟩ := hx2
        refine ⟨rfl, ?_, ?_⟩
        · injection hx2 with _ _ hx2
          exact hx2.symm
        · intro x hx
          exact bad x (hin x (by simp [hx])) (hf x (by rw [hx1]; simp [hx]))
      · simp only [List.cons_append, List.cons.injEq] at hx2
        obtain ⟨rfl, hx2⟩ := hx2
        exact absurd (hf _ (by rw [hx1]; simp)) nf
    · rcases x with _ | ⟨y, x⟩
      · simp only [List.nil_append, List.cons.injEq] at hx2
        obtain ⟨hx2, rfl⟩ := hx2
        refine ⟨rfl, ?_, ?_⟩
        · injection hx2 with _ _ hx2
        · intro x hx
          refine bad x (hin x (by simp [hx])) (hf x ?_)
          rw [hx1] at hx
          simpa using hx
      · simp only [List.cons_append, List.cons.injEq, List.nil_eq, List.append_eq_nil_iff] at hx2
        simp at hx2
  · rcases h2 with h2 | ⟨b, m', c', hb, hf⟩
    · exact absurd (h2 _ (by simp)) nf
    · have hmem : (⟨m, c, .err e⟩ : Call) ∈ b ++ [⟨m', c', .panic⟩] := by rw [← hb]; simp
      rcases List.mem_append.1 hmem with hm | hm
      · exact absurd (hf _ hm) nf
      · simp at hm

/-- C36, first exception: an error of the Enter of an address type is dropped; Exit is called. -/
theorem C36_address (E : Emitter σ) (n : AnyNode) (s s1 : σ) (e : Str) (ha : n.isAddress = true)
    (h : E.emit .enter n s = (s1, .err e)) : visit E n s = E.emit .exit n s1 := by
  rw [visit_eq, walkNode, h]
  simp [ha]

/-- for every other node it is returned, and nothing else is called -/
theorem C36_enter (E : Emitter σ) (n : AnyNode) (s s1 : σ) (e : Str) (ha : n.isAddress = false)
    (h : E.emit .enter n s = (s1, .err e)) : visit E n s = (s1, .err e) := by
  rw [visit_eq, walkNode, h]
  simp [ha]

/-- C36, second exception: the visit of an argument list of a builtin returns an error only if it is its own
(of its Enter or Exit), or if it is the text "Failure": every other error of the arguments is dropped. -/
theorem C36_builtin_args (E : Emitter σ) (a : NodeBuiltinArguments) (s s1 : σ) (e : Str)
    (h : visit E (.builtinArgs a) s = (s1, .err e)) :
    e = str! "Failure" ∨ ∃ m s0, E.emit m (.builtinArgs a) s0 = (s1, .err e) := by
  rw [visit_eq, walkNode] at h
  rcases h1 : E.emit .enter (.builtinArgs a) s with ⟨s2, (r | e' | _)⟩ <;> rw [h1] at h
  · cases r with
    | continue_ =>
      simp only at h
      rcases h2 : walkKids E (AnyNode.onlyError (.builtinArgs a)) (visit E) (kids (.builtinArgs a)) s2 with
        ⟨s3, (r | e' | _)⟩ <;> rw [h2] at h
      · cases r with
        | exit => exact .inr ⟨.exit, s3, h⟩
        | done => simp at h
        | skip => simp at h
      · simp only [Prod.mk.injEq, Outcome.err.injEq] at h
        exact .inl (h.2 ▸ walkKids_only_err E h2)
      · simp at h
    | skip => simp [AnyNode.isAddress] at h
  · simp only [AnyNode.isAddress, Bool.false_eq_true, if_false, Prod.mk.injEq, Outcome.err.injEq] at h
    obtain ⟨rfl, rfl⟩ := h
    exact .inr ⟨.enter, s, h1⟩
  · simp at h

/-- C36, third exception: for type arguments of contract types it is the empty text. -/
theorem C36_type_args (E : Emitter σ) (a : NodeContractTypeArguments) (s s1 : σ) (e : Str)
    (h : visit E (.contractTypeArgs a) s = (s1, .err e)) :
    e = [] ∨ ∃ m s0, E.emit m (.contractTypeArgs a) s0 = (s1, .err e) := by
  rw [visit_eq, walkNode] at h
  rcases h1 : E.emit .enter (.contractTypeArgs a) s with ⟨s2, (r | e' | _)⟩ <;> rw [h1] at h
  · cases r with
    | continue_ =>
      simp only at h
      rcases h2 : walkKids E (AnyNode.onlyError (.contractTypeArgs a)) (visit E) (kids (.contractTypeArgs a)) s2
        with ⟨s3, (r | e' | _)⟩ <;> rw [h2] at h
      · cases r with
        | exit => exact .inr ⟨.exit, s3, h⟩
        | done => simp at h
        | skip => simp at h
      · simp only [Prod.mk.injEq, Outcome.err.injEq] at h
        exact .inl (h.2 ▸ walkKids_only_err E h2)
      · simp at h
    | skip => simp [AnyNode.isAddress] at h
  · simp only [AnyNode.isAddress, Bool.false_eq_true, if_false, Prod.mk.injEq, Outcome.err.injEq] at h
    obtain ⟨rfl, rfl⟩ := h
    exact .inr ⟨.enter, s, h1⟩
  · simp at h

/-- A visitor that counts its calls and fails at the fifth one. -/
def failing : Emitter Nat where
  push _ _ s := s
  pop s := s
  emit _ _ s := (s + 1, if s = 4 then .err (str! "boom") else .ok .continue_)

/-- The visit of `Map M.T Int32` fails at the fifth call; the hypotheses of `C36_abort` hold. -/
theorem C36_witness : visit failing sampleType 0 = (5, .err (str! "boom")) ∧
    (∀ m ∈ preorder sampleType, m.onlyError = none) ∧ (∀ m ∈ preorder sampleType, m.isAddress = false) := by
  refine ⟨rfl, ?_, ?_⟩ <;>
    simp [preorder_eq, kidPre, kids, sampleType, kid, at_, AnyNode.onlyError, AnyNode.isAddress]

/-- A visitor that fails at the Enter of the first node only: an address type swallows it. -/
theorem C36_swallowed_witness :
    visit (⟨fun _ _ s => s, fun s => s,
        fun m _ s => (s + 1, match m with | .enter => .err (str! "boom") | .exit => .ok .continue_)⟩ : Emitter Nat)
      sampleAddress 0 = (2, .ok .continue_) ∧
    visit (⟨fun _ _ s => s, fun s => s,
        fun _ n s => (s + 1, match n with | .varId _ => .err (str! "boom") | _ => .ok .continue_)⟩ : Emitter Nat)
      (.builtinArgs ⟨[at_ 1 (.variableName (at_ 9 <| str! "x"))]⟩) 0 = (3, .ok .continue_) := ⟨rfl, rfl⟩

/-! ## C37 — the stack of source positions -/

/-- C37: after a full walk, the stack of positions has grown by exactly the number of message entries with
a variable, empty maps and clauses of match statements in the tree; the positions that were on the stack
before are untouched below. -/
theorem C37_stack (n : AnyNode) (st : List (Pos × Pos)) :
    ∃ left, stackAfter (walk n) st = left ++ st ∧
      left.length = ((preorder n).filter AnyNode.pushesMore).length := by
  obtain ⟨L, e, h⟩ := stack_walk n st
  exact ⟨L, e, by rw [h, List.countP_eq_length_filter]⟩

/-- C37: without such nodes every push is matched by a pop. -/
theorem C37_restored (n : AnyNode) (hn : ∀ m ∈ preorder n, m.pushesMore = false) (st : List (Pos × Pos)) :
    stackAfter (walk n) st = st := by
  obtain ⟨L, e, h⟩ := C37_stack n st
  have : (preorder n).filter AnyNode.pushesMore = [] := by
    simp only [List.filter_eq_nil_iff]
    intro m hm
    simp [hn m hm]
  rw [this] at h
  have : L = [] := List.length_eq_zero_iff.1 h
  rw [e, this, List.nil_append]

/-- C37: at no moment of a walk there have been more pops than pushes. -/
theorem C37_no_underflow (n : AnyNode) (before after : List Event) (h : walk n = before ++ after) :
    pops before ≤ pushes before := safe_walk n before after h

/-- C37: when Enter is called for a node that has a position, this position is on top of the stack. -/
theorem C37_own_position (n : AnyNode) (st : List (Pos × Pos)) :
    Pointwise OwnTop (placed none n) (tops (walk n) st) := tops_walk n none st (by simp)

/-- C37 for the walk itself: a visitor that keeps a stack of positions, whatever else it does. -/
theorem C37_visit (n : AnyNode) (hn : ¬ n.HasLet) (E : Emitter (σ × List (Pos × Pos))) (hE : Continues E)
    (hpush : ∀ a b s, (E.push a b s).2 = (a, b) :: s.2) (hpop : ∀ s, (E.pop s).2 = s.2.tail)
    (hemit : ∀ m n s, (E.emit m n s).1.2 = s.2) (s : σ × List (Pos × Pos)) :
    (visit E n s).1.2 = stackAfter (walk n) s.2 := by
  rw [C34_walk E hE n hn]
  generalize walk n = es
  induction es generalizing s with
  | nil => rfl
  | cons e es ih =>
    cases e with
    | enter m => rw [after, ih, hemit]; rfl
    | exit m => rw [after, ih, hemit]; rfl
    | push a b => rw [after, ih, hpush]; rfl
    | pop => rw [after, ih, hpop]; rfl

/-- C37 for every visitor, also if it skips or fails: unless the visit panics, the positions that were on the stack
before are untouched below, and at most as many more are left as there are message entries with a variable, empty
maps and clauses of match statements. -/
theorem C37_any_visitor (n : AnyNode) (E : Emitter (σ × List (Pos × Pos)))
    (hpush : ∀ a b s, (E.push a b s).2 = (a, b) :: s.2) (hpop : ∀ s, (E.pop s).2 = s.2.tail)
    (hemit : ∀ m n s, (E.emit m n s).1.2 = s.2) (s : σ × List (Pos × Pos)) (h : (visit E n s).2 ≠ .panic) :
    ∃ left, (visit E n s).1.2 = left ++ s.2 ∧
      left.length ≤ ((preorder n).filter AnyNode.pushesMore).length := by
  obtain ⟨L, h1, h2⟩ := grows_visit hpush hpop hemit n s h
  exact ⟨L, h1, by rwa [← List.countP_eq_length_filter]⟩

/-- C37: without such nodes a visit that returns -- a success or an error -- leaves the stack as it was. -/
theorem C37_any_restored (n : AnyNode) (hn : ∀ m ∈ preorder n, m.pushesMore = false)
    (E : Emitter (σ × List (Pos × Pos)))
    (hpush : ∀ a b s, (E.push a b s).2 = (a, b) :: s.2) (hpop : ∀ s, (E.pop s).2 = s.2.tail)
    (hemit : ∀ m n s, (E.emit m n s).1.2 = s.2) (s : σ × List (Pos × Pos)) (h : (visit E n s).2 ≠ .panic) :
    (visit E n s).1.2 = s.2 := by
  obtain ⟨L, h1, h2⟩ := C37_any_visitor n E hpush hpop hemit s h
  have : (preorder n).filter AnyNode.pushesMore = [] := by
    rw [List.filter_eq_nil_iff]
    intro m hm
    rw [hn m hm]
    simp
  rw [this] at h2
  cases L with
  | nil => exact h1
  | cons x L => simp at h2

/-- A visitor with a stack that fails at its fifth callback. -/
def failingStack : Emitter (Nat × List (Pos × Pos)) :=
  ⟨fun a b s => (s.1, (a, b) :: s.2), fun s => (s.1, s.2.tail),
    fun _ _ s => ((s.1 + 1, s.2), if s.1 = 4 then .err (str! "boom") else .ok .continue_)⟩

theorem C37_any_witness : (visit failingStack sampleType (0, [])).1 = (5, []) ∧
    (visit failingStack sampleType (0, [])).2 = .err (str! "boom") := by
  constructor <;> decide +kernel

/-- `{ a : b }` leaves one position on the stack, and it is not the position of the entry's last variable:
the pop of the entry has removed that one. -/
theorem C37_witness : stackAfter (walk sampleMessage) [] = [(⟨1, 1, 1⟩, ⟨2, 1, 2⟩)] ∧
    ((preorder sampleMessage).filter AnyNode.pushesMore).length = 1 := by
  constructor
  · simp [walk_eq, walkSkip_eq, kidEv, kids, sampleMessage, kid, kidsL, at_, around, stackAfter]
  · rw [← List.countP_eq_length_filter]
    simp [preorder_eq, kidPre, kids, sampleMessage, kid, kidsL, at_, AnyNode.pushesMore, List.countP_cons]

/-- a type leaves nothing -/
theorem C37_witness_type : ∀ m ∈ preorder sampleType, m.pushesMore = false := by
  simp [preorder_eq, kidPre, kids, sampleType, kid, at_, AnyNode.pushesMore]

/-! ## C38 — `let` in libraries -/

/-- C38: visiting a tree with a `let` of a library panics, for every visitor that continues. -/
theorem C38_panics (E : Emitter σ) (hE : Continues E) (n : AnyNode) (hn : n.HasLet) (s : σ) :
    (visit E n s).2 = .panic := visit_let E hE n hn s

/-- C34 and C38 together: with a visitor that continues, the visit panics if and only if there is a `let`
in a library. -/
theorem C38_iff (E : Emitter σ) (hE : Continues E) (n : AnyNode) (s : σ) :
    (visit E n s).2 = .panic ↔ n.HasLet := by
  constructor
  · intro h
    by_cases hn : n.HasLet
    · exact hn
    · rw [C34_walk E hE n hn] at h
      simp at h
  · exact fun hn => C38_panics E hE n hn s

/-- a program with a `let` in its library -/
def letDoc : Str := str! "scilla_version 0\nlibrary L\nlet x = Int32 5\ncontract C (o : ByStr20)\n"

/-- `from_str` accepts it, although a visit of the whole program panics. -/
theorem C38_witness : fromStr demoEnv letDoc = .ok ⟨str! "C", [.mk (str! "o") .byStr20], [], []⟩ ∧
    ∃ p, demoProgram letDoc = some p ∧ AnyNode.HasLet (.program p) := by
  refine ⟨by decide +kernel, ?_⟩
  have h : (demoProgram letDoc).isSome = true := by decide +kernel
  obtain ⟨p, hp⟩ := Option.isSome_iff_exists.1 h
  refine ⟨p, hp, ?_⟩
  have h2 : (match demoProgram letDoc with
      | some ⟨_, _, some l, _⟩ => match l.node.definitions with
        | [d] => match d.node with
          | .letDefinition _ _ _ => true
          | _ => false
        | _ => false
      | _ => false) = true := by decide +kernel
  rw [hp] at h2
  rcases p with ⟨v, i, l, c⟩
  cases l with
  | none => simp at h2
  | some l =>
    simp only at h2
    refine ⟨l, rfl, ?_⟩
    rcases hd : l.node.definitions with _ | ⟨d, _ | ⟨d', ds⟩⟩ <;> rw [hd] at h2
    · simp at h2
    · refine ⟨d, by simp, ?_⟩
      simp only at h2
      rcases hn : d.node with ⟨x, t, e⟩ | _ <;> rw [hn] at h2
      · exact ⟨_, _, _, rfl⟩
      · simp at h2
    · simp at h2

end Verif
