import Verif.Proofs.WalkRun
/-
Errors during a walk.
-/
namespace Verif

variable {σ : Type} (E : Emitter σ)

/-! ### Logging changes nothing -/

/-- `M` with a log does the same as `m` -/
def SameRun {α : Type} (m : M σ α) (M' : M (σ × List Call) α) : Prop :=
  ∀ s l, (M' (s, l)).1.1 = (m s).1 ∧ (M' (s, l)).2 = (m s).2

theorem same_emit (md : Mode) (n : AnyNode) : SameRun (E.emit md n) ((logged E).emit md n) := by
  intro s l
  exact ⟨rfl, rfl⟩

theorem same_child {pos : Option (Pos × Pos)} {m : M σ TR} {M' : M (σ × List Call) TR} (h : SameRun m M') :
    SameRun (walkChild E pos m) (walkChild (logged E) pos M') := by
  intro s l
  rcases pos with _ | ⟨a, b⟩
  · exact h s l
  · have := h (E.push a b s) l
    simp only [walkChild, withPos, logged]
    rcases h1 : M' (E.push a b s, l) with ⟨⟨s1, l1⟩, r1⟩
    rcases h2 : m (E.push a b s) with ⟨s2, r2⟩
    rw [h1, h2] at this
    obtain ⟨e1, e2⟩ := this
    simp only at e1 e2
    subst e1 e2
    cases r1 <;> exact ⟨rfl, rfl⟩

theorem same_kids {V : AnyNode → M σ TR} {V' : AnyNode → M (σ × List Call) TR} {only : Option Str}
    {ks : List Kid} (h : ∀ how pos c, .child how pos c ∈ ks → SameRun (V c) (V' c)) :
    SameRun (walkKids E only V ks) (walkKids (logged E) only V' ks) := by
  induction ks with
  | nil => exact fun s l => ⟨rfl, rfl⟩
  | cons k ks ih =>
    have ih := ih fun how pos c hc => h how pos c (by simp [hc])
    cases k with
    | panic => exact fun s l => ⟨rfl, rfl⟩
    | push a b => exact fun s l => ih _ _
    | child how pos c =>
      intro s l
      have := same_child E (pos := pos) (h how pos c (by simp)) s l
      simp only [walkKids]
      rcases h1 : walkChild (logged E) pos (V' c) (s, l) with ⟨⟨s1, l1⟩, r1⟩
      rcases h2 : walkChild E pos (V c) s with ⟨s2, r2⟩
      rw [h1, h2] at this
      obtain ⟨e1, e2⟩ := this
      simp only at e1 e2
      subst e1 e2
      rcases r1 with a | e | _
      · cases a with
        | continue_ => exact ih _ _
        | skip => cases how <;> first | exact ih _ _ | exact ⟨rfl, rfl⟩
      · simp only
        split
        · exact ⟨rfl, rfl⟩
        · exact ih _ _
      · exact ⟨rfl, rfl⟩

theorem same_visit (n : AnyNode) : SameRun (visit E n) (visit (logged E) n) := by
  induction n using tree_induction with
  | h n ih =>
    rw [visit_eq, visit_eq]
    intro s l
    have h0 := same_emit E .enter n s l
    simp only [walkNode]
    rcases h1 : (logged E).emit .enter n (s, l) with ⟨⟨s1, l1⟩, r1⟩
    rcases h2 : E.emit .enter n s with ⟨s2, r2⟩
    rw [h1, h2] at h0
    obtain ⟨e1, e2⟩ := h0
    simp only at e1 e2
    subst e1 e2
    rcases r1 with a | e | _
    · cases a with
      | continue_ =>
        simp only
        have h3 := same_kids E (only := n.onlyError) ih s1 l1
        rcases h4 : walkKids (logged E) n.onlyError (visit (logged E)) (kids n) (s1, l1) with ⟨⟨s3, l3⟩, r3⟩
        rcases h5 : walkKids E n.onlyError (visit E) (kids n) s1 with ⟨s4, r4⟩
        rw [h4, h5] at h3
        obtain ⟨e1, e2⟩ := h3
        simp only at e1 e2
        subst e1 e2
        rcases r3 with a | e | _
        · cases a <;> first | exact same_emit E _ _ _ _ | exact ⟨rfl, rfl⟩
        · exact ⟨rfl, rfl⟩
        · exact ⟨rfl, rfl⟩
      | skip =>
        simp only
        split
        · exact same_emit E _ _ _ _
        · exact ⟨rfl, rfl⟩
    · simp only
      split
      · exact same_emit E _ _ _ _
      · exact ⟨rfl, rfl⟩
    · exact ⟨rfl, rfl⟩

/-! ### An error is the last call -/

/-- the calls `new` and the result fit together -/
def Ends {α : Type} (new : List Call) (r : Outcome α) : Prop :=
  match r with
  | .ok _ => ∀ x ∈ new, x.Fine
  | .err e => ∃ init m c, new = init ++ [⟨m, c, .err e⟩] ∧ ∀ x ∈ init, x.Fine
  | .panic => (∀ x ∈ new, x.Fine) ∨ ∃ init m c, new = init ++ [⟨m, c, .panic⟩] ∧ ∀ x ∈ init, x.Fine

/-- a computation appends calls to the log that fit its result -/
def LogFits {α : Type} (m : M (σ × List Call) α) : Prop :=
  ∀ s l, ∃ new, (m (s, l)).1.2 = l ++ new ∧ Ends new (m (s, l)).2

theorem Ends.prepend {α : Type} {a b : List Call} {r : Outcome α} (ha : ∀ x ∈ a, x.Fine) (hb : Ends b r) :
    Ends (a ++ b) r := by
  rcases r with x | e | _
  · intro x hx
    rcases List.mem_append.1 hx with h | h
    · exact ha x h
    · exact hb x h
  · obtain ⟨i, m, c, rfl, hi⟩ := hb
    refine ⟨a ++ i, m, c, by simp, ?_⟩
    intro x hx
    rcases List.mem_append.1 hx with h | h
    · exact ha x h
    · exact hi x h
  · rcases hb with hb | ⟨i, m, c, rfl, hi⟩
    · left
      intro x hx
      rcases List.mem_append.1 hx with h | h
      · exact ha x h
      · exact hb x h
    · right
      refine ⟨a ++ i, m, c, by simp, ?_⟩
      intro x hx
      rcases List.mem_append.1 hx with h | h
      · exact ha x h
      · exact hi x h

theorem logFits_emit (md : Mode) (n : AnyNode) : LogFits ((logged E).emit md n) := by
  intro s l
  refine ⟨[⟨md, n, (E.emit md n s).2⟩], rfl, ?_⟩
  show Ends _ (E.emit md n s).2
  generalize (E.emit md n s).2 = r
  rcases r with x | e | _
  · intro x hx
    obtain rfl := List.mem_singleton.1 hx
    trivial
  · exact ⟨[], md, n, rfl, by simp⟩
  · exact .inr ⟨[], md, n, rfl, by simp⟩

theorem logFits_child {pos : Option (Pos × Pos)} {m : M (σ × List Call) TR} (h : LogFits m) :
    LogFits (walkChild (logged E) pos m) := by
  rcases pos with _ | ⟨a, b⟩
  · exact h
  · intro s l
    obtain ⟨new, h1, h2⟩ := h (E.push a b s) l
    refine ⟨new, ?_⟩
    simp only [walkChild, withPos, logged]
    rcases h3 : m (E.push a b s, l) with ⟨s1, r⟩
    rw [h3] at h1 h2
    cases r <;> exact ⟨h1, h2⟩

theorem logFits_pure {α : Type} (a : α) : LogFits (σ := σ) (fun s => (s, .ok a)) :=
  fun s l => ⟨[], by simp, by simp [Ends]⟩

theorem logFits_kids {V : AnyNode → M (σ × List Call) TR} {ks : List Kid}
    (h : ∀ how pos c, .child how pos c ∈ ks → LogFits (V c)) : LogFits (walkKids (logged E) none V ks) := by
  induction ks with
  | nil => exact logFits_pure _
  | cons k ks ih =>
    have ih := ih fun how pos c hc => h how pos c (by simp [hc])
    cases k with
    | panic => exact fun s l => ⟨[], by simp [walkKids, M.panic], .inl (by simp)⟩
    | push a b => exact fun s l => ih _ _
    | child how pos c =>
      intro s l
      obtain ⟨new, h1, h2⟩ := logFits_child E (pos := pos) (h how pos c (by simp)) s l
      simp only [walkKids]
      rcases h3 : walkChild (logged E) pos (V c) (s, l) with ⟨⟨s1, l1⟩, r⟩
      rw [h3] at h1 h2
      simp only at h1 h2
      subst h1
      have goOn : ∃ new', (walkKids (logged E) none V ks (s1, l ++ new)).1.2 = l ++ new' ∧
          (Ends new (.ok TR.continue_) →
            Ends new' (walkKids (logged E) none V ks (s1, l ++ new)).2) := by
        obtain ⟨new2, h4, h5⟩ := ih s1 (l ++ new)
        exact ⟨new ++ new2, by rw [h4, List.append_assoc], fun h => Ends.prepend h h5⟩
      rcases r with a | e | _
      · cases a with
        | continue_ => exact ⟨goOn.choose, goOn.choose_spec.1, goOn.choose_spec.2 h2⟩
        | skip =>
          cases how with
          | go => exact ⟨goOn.choose, goOn.choose_spec.1, goOn.choose_spec.2 h2⟩
          | stop => exact ⟨new, rfl, h2⟩
          | cut => exact ⟨new, rfl, h2⟩
          | ret => exact ⟨new, rfl, h2⟩
      · exact ⟨new, by simp, by simpa [Ends] using h2⟩
      · exact ⟨new, rfl, h2⟩

theorem logFits_visit (n : AnyNode) (hn : ∀ m ∈ preorder n, m.onlyError = none) : LogFits (visit (logged E) n) := by
  induction n using tree_induction with
  | h n ih =>
    rw [preorder_eq] at hn
    have h0 := hn n (by simp)
    have hk : ∀ how pos c, .child how pos c ∈ kids n → LogFits (visit (logged E) c) := by
      intro how pos c hc
      refine ih how pos c hc fun m hm => hn m ?_
      refine List.mem_cons_of_mem _ (List.mem_flatMap.2 ⟨_, hc, hm⟩)
    rw [visit_eq]
    intro s l
    obtain ⟨new, h1, h2⟩ := logFits_emit E .enter n s l
    have hnew : new = [⟨.enter, n, ((logged E).emit .enter n (s, l)).2⟩] := by
      have h1' := h1
      simp only [logged] at h1' ⊢
      exact (List.append_cancel_left h1').symm
    simp only [walkNode]
    rcases h3 : (logged E).emit .enter n (s, l) with ⟨⟨s1, l1⟩, r⟩
    rw [h3] at h1 h2 hnew
    simp only at h1 h2 hnew
    subst h1
    rw [h0]
    rcases r with a | e | _
    · cases a with
      | continue_ =>
        simp only
        obtain ⟨new2, h4, h5⟩ := logFits_kids E hk s1 (l ++ new)
        rcases h6 : walkKids (logged E) none (visit (logged E)) (kids n) (s1, l ++ new) with ⟨⟨s2, l2⟩, r⟩
        rw [h6] at h4 h5
        simp only at h4 h5
        subst h4
        rcases r with a | e | _
        · have hfine : ∀ x ∈ new ++ new2, x.Fine := by
            intro x hx
            rcases List.mem_append.1 hx with h | h
            · exact h2 x h
            · exact h5 x h
          cases a with
          | exit =>
            obtain ⟨new3, h7, h8⟩ := logFits_emit E .exit n s2 (l ++ new ++ new2)
            refine ⟨new ++ new2 ++ new3, ?_, Ends.prepend hfine h8⟩
            rw [h7]
            simp
          | done => exact ⟨new ++ new2, by simp, hfine⟩
          | skip => exact ⟨new ++ new2, by simp, hfine⟩
        · refine ⟨new ++ new2, by simp, ?_⟩
          exact Ends.prepend h2 (show Ends new2 (Outcome.err e : Outcome TR) from h5)
        · refine ⟨new ++ new2, by simp, ?_⟩
          exact Ends.prepend h2 (show Ends new2 (Outcome.panic : Outcome TR) from h5)
      | skip =>
        simp only
        split
        · obtain ⟨new2, h4, h5⟩ := logFits_emit E .exit n s1 (l ++ new)
          exact ⟨new ++ new2, by rw [h4, List.append_assoc], Ends.prepend h2 h5⟩
        · exact ⟨new, rfl, h2⟩
    · simp only
      split
      · rename_i ha
        obtain ⟨new2, h4, h5⟩ := logFits_emit E .exit n s1 (l ++ new)
        refine ⟨new ++ new2, by rw [h4, List.append_assoc], Ends.prepend ?_ h5⟩
        rw [hnew]
        intro x hx
        obtain rfl := List.mem_singleton.1 hx
        exact ⟨rfl, ha⟩
      · exact ⟨new, rfl, h2⟩
    · exact ⟨new, rfl, h2⟩

/-! ### Argument lists that drop errors -/

theorem walkKids_only_err {V : AnyNode → M σ TR} {only : Str} {ks : List Kid} {s s1 : σ} {e : Str}
    (h : walkKids E (some only) V ks s = (s1, .err e)) : e = only := by
  induction ks generalizing s with
  | nil => simp [walkKids, M.pure] at h
  | cons k ks ih =>
    cases k with
    | panic => simp [walkKids, M.panic] at h
    | push a b => exact ih h
    | child how pos c =>
      simp only [walkKids] at h
      rcases h3 : walkChild E pos (V c) s with ⟨s2, r⟩
      rw [h3] at h
      rcases r with a | e' | _
      · cases a with
        | continue_ => exact ih h
        | skip => cases how <;> first | exact ih h | simp at h
      · simp only at h
        split at h
        · rename_i hh
          simp only [reduceCtorEq, Option.some.injEq, false_or] at hh
          simp only [Prod.mk.injEq, Outcome.err.injEq] at h
          rw [← h.2, hh]
        · exact ih h
      · simp at h

/-! ### Only nodes of the tree are shown to the visitor -/

/-- a computation makes calls only on nodes of the list -/
def CallsIn {α : Type} (S : List AnyNode) (m : M (σ × List Call) α) : Prop :=
  ∀ s l, ∃ new, (m (s, l)).1.2 = l ++ new ∧ ∀ x ∈ new, x.node ∈ S

theorem callsIn_emit {S : List AnyNode} (md : Mode) (n : AnyNode) (h : n ∈ S) :
    CallsIn S ((logged E).emit md n) := by
  intro s l
  refine ⟨[⟨md, n, (E.emit md n s).2⟩], rfl, ?_⟩
  intro x hx
  obtain rfl := List.mem_singleton.1 hx
  exact h

theorem callsIn_child {S : List AnyNode} {pos : Option (Pos × Pos)} {m : M (σ × List Call) TR}
    (h : CallsIn S m) : CallsIn S (walkChild (logged E) pos m) := by
  rcases pos with _ | ⟨a, b⟩
  · exact h
  · intro s l
    obtain ⟨new, h1, h2⟩ := h (E.push a b s) l
    refine ⟨new, ?_, h2⟩
    simp only [walkChild, withPos, logged]
    rcases h3 : m (E.push a b s, l) with ⟨s1, r⟩
    rw [h3] at h1
    cases r <;> exact h1

theorem callsIn_kids {S : List AnyNode} {V : AnyNode → M (σ × List Call) TR} {only : Option Str} {ks : List Kid}
    (h : ∀ how pos c, .child how pos c ∈ ks → CallsIn S (V c)) : CallsIn S (walkKids (logged E) only V ks) := by
  induction ks with
  | nil => exact fun s l => ⟨[], by simp [walkKids, M.pure], by simp⟩
  | cons k ks ih =>
    have ih := ih fun how pos c hc => h how pos c (by simp [hc])
    cases k with
    | panic => exact fun s l => ⟨[], by simp [walkKids, M.panic], by simp⟩
    | push a b => exact fun s l => ih _ _
    | child how pos c =>
      intro s l
      obtain ⟨new, h1, h2⟩ := callsIn_child E (pos := pos) (h how pos c (by simp)) s l
      simp only [walkKids]
      rcases h3 : walkChild (logged E) pos (V c) (s, l) with ⟨⟨s1, l1⟩, r⟩
      rw [h3] at h1
      simp only at h1
      subst h1
      have goOn : ∃ new', (walkKids (logged E) only V ks (s1, l ++ new)).1.2 = l ++ new' ∧
          ∀ x ∈ new', x.node ∈ S := by
        obtain ⟨new2, h4, h5⟩ := ih s1 (l ++ new)
        refine ⟨new ++ new2, by rw [h4, List.append_assoc], ?_⟩
        intro x hx
        rcases List.mem_append.1 hx with hx | hx
        · exact h2 x hx
        · exact h5 x hx
      rcases r with a | e | _
      · cases a with
        | continue_ => exact goOn
        | skip => cases how <;> first | exact goOn | exact ⟨new, rfl, h2⟩
      · simp only
        split
        · exact ⟨new, rfl, h2⟩
        · exact goOn
      · exact ⟨new, rfl, h2⟩

theorem CallsIn.mono {α : Type} {S T : List AnyNode} {m : M (σ × List Call) α} (h : CallsIn S m)
    (hst : ∀ x ∈ S, x ∈ T) : CallsIn T m := by
  intro s l
  obtain ⟨new, h1, h2⟩ := h s l
  exact ⟨new, h1, fun x hx => hst _ (h2 x hx)⟩

theorem callsIn_visit (n : AnyNode) : CallsIn (preorder n) (visit (logged E) n) := by
  induction n using tree_induction with
  | h n ih =>
    have hk : ∀ how pos c, .child how pos c ∈ kids n → CallsIn (preorder n) (visit (logged E) c) := by
      intro how pos c hc
      refine (ih how pos c hc).mono fun m hm => ?_
      rw [preorder_eq]
      exact List.mem_cons_of_mem _ (List.mem_flatMap.2 ⟨_, hc, hm⟩)
    have hn : n ∈ preorder n := by rw [preorder_eq]; simp
    rw [visit_eq]
    intro s l
    obtain ⟨new, h1, h2⟩ := callsIn_emit E .enter n hn s l
    simp only [walkNode]
    rcases h3 : (logged E).emit .enter n (s, l) with ⟨⟨s1, l1⟩, r⟩
    rw [h3] at h1
    simp only at h1
    subst h1
    have exit : ∀ (s2 : σ) (new2 : List Call), (∀ x ∈ new2, x.node ∈ preorder n) →
        ∃ new', ((logged E).emit .exit n (s2, l ++ new2)).1.2 = l ++ new' ∧ ∀ x ∈ new', x.node ∈ preorder n := by
      intro s2 new2 hnew2
      obtain ⟨new3, h7, h8⟩ := callsIn_emit E .exit n hn s2 (l ++ new2)
      refine ⟨new2 ++ new3, by rw [h7, List.append_assoc], ?_⟩
      intro x hx
      rcases List.mem_append.1 hx with hx | hx
      · exact hnew2 x hx
      · exact h8 x hx
    rcases r with a | e | _
    · cases a with
      | continue_ =>
        simp only
        obtain ⟨new2, h4, h5⟩ := callsIn_kids E (only := n.onlyError) hk s1 (l ++ new)
        rcases h6 : walkKids (logged E) n.onlyError (visit (logged E)) (kids n) (s1, l ++ new) with ⟨⟨s2, l2⟩, r⟩
        rw [h6] at h4
        simp only at h4
        rw [List.append_assoc] at h4
        subst h4
        have both : ∀ x ∈ new ++ new2, x.node ∈ preorder n := by
          intro x hx
          rcases List.mem_append.1 hx with hx | hx
          · exact h2 x hx
          · exact h5 x hx
        rcases r with a | e | _
        · cases a with
          | exit => exact exit s2 _ both
          | done => exact ⟨_, rfl, both⟩
          | skip => exact ⟨_, rfl, both⟩
        · exact ⟨_, rfl, both⟩
        · exact ⟨_, rfl, both⟩
      | skip =>
        simp only
        split
        · exact exit s1 _ h2
        · exact ⟨new, rfl, h2⟩
    · simp only
      split
      · exact exit s1 _ h2
      · exact ⟨new, rfl, h2⟩
    · exact ⟨new, rfl, h2⟩

end Verif
